import Verif.Props.P56_Ordinary
import Verif.Props.P51_NoDigitsWitnesses
/-!
# C57: ordinary texts exist, and the conditions are needed

A checker for `Ordinary`, proved sound, and what it says about some texts.
-/
namespace Chrono.Props
open Chrono Chrono.Spec Chrono.Boost

/-- `k` holds of what follows `w`, if the text starts with `w`. -/
def afterWord (w : Text) (k : Text → Bool) (t : Text) : Bool := !(w.isPrefixOf t) || k (t.drop w.length)

theorem afterWord_sound {w : Text} {k : Text → Bool} {r : Text} (h : afterWord w k (w ++ r) = true) : k r = true := by
  unfold afterWord at h
  rw [show w.isPrefixOf (w ++ r) = true by rw [List.isPrefixOf_iff_prefix]; exact List.prefix_append _ _, List.drop_left] at h
  simpa using h

/-- `k` holds after every initial run of characters satisfying `p`. -/
def afterRun (p : Nat → Bool) (k : Text → Bool) : Text → Bool
  | [] => k []
  | c :: r => k (c :: r) && (!(p c) || afterRun p k r)

theorem afterRun_sound {p : Nat → Bool} {k : Text → Bool} : ∀ {g r : Text}, afterRun p k (g ++ r) = true → (∀ c ∈ g, p c = true) → k r = true
  | [], r, h, _ => by
    cases r with
    | nil => exact h
    | cons c r => simp only [List.nil_append, afterRun, Bool.and_eq_true] at h; exact h.1
  | c :: g, r, h, hp => by
    simp only [List.cons_append, afterRun, Bool.and_eq_true] at h
    rw [hp c (by simp)] at h
    exact afterRun_sound (by simpa using h.2) fun c hc => hp c (by simp [hc])

/-- `k` holds after every initial number, given its value and its length. -/
def afterNumber (k : Nat → Nat → Text → Bool) (v l : Nat) : Text → Bool
  | [] => l == 0 || k v l []
  | c :: r => (l == 0 || k v l (c :: r)) && (!(decide (48 ≤ c ∧ c ≤ 57)) || afterNumber k (10 * v + (c - 48)) (l + 1) r)

theorem afterNumber_run {k : Nat → Nat → Text → Bool} : ∀ {ds r : Text} {v l : Nat}, afterNumber k v l (ds ++ r) = true →
    (∀ c ∈ ds, 48 ≤ c ∧ c ≤ 57) → l + ds.length ≠ 0 → k (ds.foldl (fun v c => 10 * v + (c - 48)) v) (l + ds.length) r = true
  | [], r, v, l, h, _, hl => by
    have hl : (l == 0) = false := by simpa using hl
    cases r with
    | nil => simpa [afterNumber, hl] using h
    | cons c r => simp only [List.nil_append, afterNumber, Bool.and_eq_true, hl, Bool.false_or] at h; exact h.1
  | c :: ds, r, v, l, h, hd, _ => by
    simp only [List.cons_append, afterNumber, Bool.and_eq_true] at h
    have h2 := h.2
    rw [decide_eq_true (hd c (by simp))] at h2
    have := afterNumber_run (ds := ds) (r := r) (by simpa using h2) (fun c hc => hd c (by simp [hc])) (by omega)
    rw [show l + (c :: ds).length = l + 1 + ds.length by simp; omega]
    exact this

theorem afterNumber_sound {k : Nat → Nat → Text → Bool} {ds r : Text} {n : Nat} (h : afterNumber k 0 0 (ds ++ r) = true) (hn : Number ds n) :
    k n ds.length r = true := by
  have := afterNumber_run h hn.2.1 (by have := List.length_pos_iff.2 hn.1; omega)
  rw [← hn.2.2, Nat.zero_add] at this
  exact this

/-- `k` holds of every end of the text. -/
def anywhere (k : Text → Bool) (t : Text) : Bool := t.tails.all k

theorem anywhere_sound {k : Text → Bool} {t w : Text} (h : anywhere k t = true) (hw : w <:+: t) : ∃ r, k (w ++ r) = true := by
  obtain ⟨a, b, rfl⟩ := hw
  exact ⟨b, List.all_eq_true.1 h _ ((List.mem_tails _ _).2 ⟨a, by simp⟩)⟩

/-- The ways of writing a month. -/
def monthWords : List (Text × Nat) :=
  (List.range 13).flatMap fun m =>
    let name := monthNames.getD (m - 1) []
    [(name, m), (name.take 3, m), (name.take 3 ++ txt!".", m), (name.take 4, m), (name.take 4 ++ txt!".", m)].filter fun p => monthWord p.1 p.2

theorem monthWords_all {w : Text} {m : Nat} (h : monthWord w m = true) : (w, m) ∈ monthWords := by
  have hw := h
  unfold monthWord at h
  simp only [Bool.and_eq_true, decide_eq_true_eq, Bool.or_eq_true, beq_iff_eq] at h
  obtain ⟨⟨h1, h2⟩, h3⟩ := h
  unfold monthWords
  rw [List.mem_flatMap]
  refine ⟨m, List.mem_range.2 (by omega), ?_⟩
  rw [List.mem_filter]
  refine ⟨?_, hw⟩
  rcases h3 with ((h | h) | h) | ⟨-, h | h⟩ <;> rw [h] <;> simp

def blankB (c : Nat) : Bool := decide (Blank c)
def gapCharB (c : Nat) : Bool := blankB c || c == 44 || c == 45 || c == 47

theorem blankB_all {g : Text} (h : Blanks g) : ∀ c ∈ g, blankB c = true := fun c hc => decide_eq_true (h c hc)
theorem gapCharB_all {g : Text} (h : Gap g) : ∀ c ∈ g, gapCharB c = true := by
  intro c hc
  unfold gapCharB blankB
  rcases h c hc with h | h | h | h
  · simp [h]
  all_goals simp [h]

/-- `k` holds of what follows a month, given the month. -/
def afterMonth (k : Nat → Text → Bool) (t : Text) : Bool := monthWords.all fun p => afterWord p.1 (afterRun gapCharB (k p.2)) t

theorem afterMonth_sound {k : Nat → Text → Bool} {w gap r : Text} {m : Nat} (h : afterMonth k (w ++ (gap ++ r)) = true) (hw : monthWord w m = true) (hg : Gap gap) :
    k m r = true :=
  afterRun_sound (afterWord_sound (List.all_eq_true.1 h (w, m) (monthWords_all hw))) (gapCharB_all hg)

/-- `k` holds of what follows a day, given the day. -/
def afterDay (k : Nat → Text → Bool) (t : Text) : Bool :=
  afterNumber (fun d l r => decide (2 < l) || d == 0 || decide (31 < d) || [txt!"", txt!"st", txt!"nd", txt!"rd", txt!"th"].all fun s => afterWord s (k d) r) 0 0 t &&
  (List.range (t.length + 1)).all fun n => let ws := words (t.take n); (List.range 32).all fun d => d == 0 || ws != ordinalName d || k d (t.drop n)

theorem afterDay_sound {k : Nat → Text → Bool} {o r : Text} {d : Nat} (h : afterDay k (o ++ r) = true) (ho : DayWritten o d) : k d r = true := by
  obtain ⟨h1, h2, ho⟩ := ho
  unfold afterDay at h
  rw [Bool.and_eq_true] at h
  rcases ho with ⟨ds, s, hs, rfl, hl, hn⟩ | ho
  · have h3 := h.1
    rw [List.append_assoc] at h3
    have h4 := afterNumber_sound h3 hn
    rw [decide_eq_false (by omega : ¬ 2 < ds.length), decide_eq_false (by omega : ¬ 31 < d), show (d == 0) = false by simp; omega] at h4
    simp only [Bool.false_or] at h4
    exact afterWord_sound (List.all_eq_true.1 h4 s hs)
  · have h3 := List.all_eq_true.1 h.2 o.length (List.mem_range.2 (by simp; omega))
    have h4 := List.all_eq_true.1 h3 d (List.mem_range.2 (by omega))
    rw [List.take_left, List.drop_left, ho, show (d == 0) = false by simp; omega] at h4
    simpa using h4

/-- `k` holds of what follows blanks and an era, given the era. -/
def afterEra (k : Era → Text → Bool) (t : Text) : Bool := afterRun blankB (fun r => [.unmarked, .be, .ad, .bc].all fun e => afterWord (Era.text e) (k e) r) t

theorem afterEra_sound {k : Era → Text → Bool} {bl r : Text} {e : Era} (h : afterEra k (bl ++ (Era.text e ++ r)) = true) (hb : Blanks bl) : k e r = true :=
  afterWord_sound (List.all_eq_true.1 (afterRun_sound h (blankB_all hb)) e (by cases e <;> simp))

def yearB (n : Nat) (e : Era) : Bool := decide (1401 ≤ writtenYear n e ∧ writtenYear n e ≤ 9998)
def digitNext : Text → Bool
  | [] => false
  | c :: _ => decide (48 ≤ c ∧ c ≤ 57)
def blankNext : Text → Bool
  | [] => false
  | c :: _ => blankB c
def halfNext : Text → Bool
  | [] => false
  | c :: _ => [97, 111, 112].contains c

/-- `k` holds of what follows a separator, minutes, a separator and seconds, given the minutes. -/
def afterHours (k : Nat → Text → Bool) (t : Text) : Bool :=
  [txt!".", txt!":", [239, 188, 154]].all fun sep => afterWord sep (afterNumber (fun mi _ r =>
    [txt!":", [239, 188, 154]].all fun sep' => afterWord sep' (afterNumber (fun _ _ r => k mi r) 0 0) r) 0 0) t

/-- `k` holds of what follows a time with seconds, given its hours and minutes. -/
def afterSeconds (k : Nat → Nat → Text → Bool) (t : Text) : Bool :=
  let rest := fun h => afterHours (k h)
  afterWord txt!"noon" (rest 0) t && afterWord txt!"midnight" (rest 0) t && afterNumber (fun h _ r => rest h r) 0 0 t

theorem afterSeconds_sound {k : Nat → Nat → Text → Bool} {hh sep mm sep' ss r : Text} {mi s : Nat}
    (hc : afterSeconds k (hh ++ (sep ++ (mm ++ (sep' ++ (ss ++ r))))) = true)
    (hhh : hh = txt!"noon" ∨ hh = txt!"midnight" ∨ ∃ h, Number hh h) (hsep : sep ∈ [txt!".", txt!":", [239, 188, 154]])
    (hmm : Number mm mi) (hsep' : sep' ∈ [txt!":", [239, 188, 154]]) (hss : Number ss s) :
    ∃ h, (∀ h', Number hh h' → h' = h) ∧ k h mi r = true := by
  have rest : ∀ h, afterHours (k h) (sep ++ (mm ++ (sep' ++ (ss ++ r)))) = true → k h mi r = true := by
    intro h hr
    have h1 := afterNumber_sound (afterWord_sound (List.all_eq_true.1 hr sep hsep)) hmm
    exact afterNumber_sound (afterWord_sound (List.all_eq_true.1 h1 sep' hsep')) hss
  unfold afterSeconds at hc
  simp only [Bool.and_eq_true] at hc
  rcases hhh with rfl | rfl | ⟨h, hh'⟩
  · refine ⟨0, fun h' hn => ?_, rest 0 (afterWord_sound hc.1.1)⟩
    have := hn.2.1 110 (by decide)
    omega
  · refine ⟨0, fun h' hn => ?_, rest 0 (afterWord_sound hc.1.2)⟩
    have := hn.2.1 109 (by decide)
    omega
  · exact ⟨h, fun h' hn => by rw [hn.2.2, hh'.2.2], rest h (afterNumber_sound hc.2 hh')⟩

/-- Checks of the conditions for a text to be ordinary, in the order of `Ordinary` (the last is for both conditions on seconds). -/
def ordinaryChecks (text : Text) : List Bool :=
  let t := toLower text
  [!text.contains 92,
  anywhere (fun s => !(txt!"may.").isPrefixOf s) t,
  anywhere (afterNumber (fun n _ _ => decide (n ≤ 2700)) 0 0) t,
  anywhere (fun s => rangeSigns.all fun sep => afterWord sep (afterRun blankB fun r => !digitNext r) s) t,
  rangesOk text,
  anywhere (afterMonth fun m => afterDay fun d _ => decide ((m = 2 → d ≤ 28) ∧ Civil 2001 m d)) t,
  anywhere (afterMonth fun _ => afterNumber (fun n l => if l = 4 then afterEra fun e _ => yearB n e else fun _ => true) 0 0) t,
  anywhere (afterMonth fun _ => afterDay fun _ => afterRun gapCharB (afterNumber (fun n l => if l ≤ 4 then
    afterEra fun e r => !(l == 4 || e == .ad || e == .bc) || !blankNext r || yearB n e else fun _ => true) 0 0)) t,
  anywhere (afterSeconds fun h mi r => decide (mi < 60 ∧ h ≤ 24) && (decide (h ≤ 12) ||
    (afterRun blankB (fun r => !halfNext r) r && afterWord txt!"." (afterNumber (fun _ _ => afterRun blankB (fun r => !halfNext r)) 0 0) r))) t]

/-- All the checks. -/
def ordinaryB (text : Text) : Bool := (ordinaryChecks text).all id

theorem ordinaryB_sound {text : Text} (h : ordinaryB text = true) : Ordinary text := by
  unfold ordinaryB ordinaryChecks at h
  simp only [List.all_cons, List.all_nil, Bool.and_true, Bool.and_eq_true, id] at h
  obtain ⟨h1, h2, h3, h4, h5, h6, h7, h8, h9⟩ := h
  refine ⟨?_, ?_, ?_, ?_, rangesOk_sound h5, ?_, ?_, ?_, ?_, ?_⟩
  · simpa using h1
  · intro hm
    obtain ⟨r, hr⟩ := anywhere_sound h2 hm
    rw [show (txt!"may.").isPrefixOf (txt!"may." ++ r) = true by rw [List.isPrefixOf_iff_prefix]; exact List.prefix_append _ _] at hr
    exact absurd hr (by simp)
  · intro ds n hn hd
    obtain ⟨r, hr⟩ := anywhere_sound h3 hd
    have := afterNumber_sound hr hn
    simpa using this
  · intro sep hsep gap c hg c1 c2 hi
    obtain ⟨r, hr⟩ := anywhere_sound h4 hi
    have := List.all_eq_true.1 hr sep hsep
    simp only [List.append_assoc] at this
    have := afterRun_sound (afterWord_sound this) (blankB_all hg)
    simp [digitNext, c1, c2] at this
  · intro w m gap o d hw hg ho hi y
    obtain ⟨r, hr⟩ := anywhere_sound h6 hi
    simp only [List.append_assoc] at hr
    have := afterDay_sound (afterMonth_sound hr hw hg) ho
    rw [decide_eq_true_eq] at this
    exact civil_year (y := 2001) this.1 this.2
  · intro w m gap ds n bl e hw hg hn hl hb hi
    obtain ⟨r, hr⟩ := anywhere_sound h7 hi
    simp only [List.append_assoc] at hr
    have := afterMonth_sound hr hw hg
    have := afterNumber_sound this hn
    rw [if_pos hl] at this
    have := afterEra_sound this hb
    unfold yearB at this
    simpa using this
  · intro w m gap o d gap' ds n bl e b hw hg ho hg' hn hl hb hbb hi
    obtain ⟨r, hr⟩ := anywhere_sound h8 hi
    simp only [List.append_assoc] at hr
    have := afterMonth_sound hr hw hg
    have := afterDay_sound this ho
    have := afterRun_sound this (gapCharB_all hg')
    have := afterNumber_sound this hn
    rw [if_pos (by omega)] at this
    have := afterEra_sound this hb
    have hle : (ds.length == 4 || e == .ad || e == .bc) = true := by
      rcases hl with h | ⟨-, h | h⟩ <;> simp [h]
    have hbn : blankNext ([b] ++ r) = true := decide_eq_true hbb
    rw [hle, hbn] at this
    simp only [Bool.not_true, Bool.false_or] at this
    unfold yearB at this
    simpa using this
  · intro hh sep mm mi sep' ss s hhh hsep hmm hsep' hss hi
    obtain ⟨r, hr⟩ := anywhere_sound h9 hi
    simp only [List.append_assoc] at hr
    obtain ⟨h, hu, hk⟩ := afterSeconds_sound hr hhh hsep hmm hsep' hss
    rw [Bool.and_eq_true, decide_eq_true_eq] at hk
    exact ⟨hk.1.1, fun h' hn => by rw [hu h' hn]; exact hk.1.2⟩
  · intro hh h' sep mm mi sep' ss s fr bl l hhh hsep hmm hsep' hss hfr hb hl hi
    obtain ⟨r, hr⟩ := anywhere_sound h9 hi
    simp only [List.append_assoc] at hr
    obtain ⟨h, hu, hk⟩ := afterSeconds_sound hr (.inr (.inr ⟨h', hhh⟩)) hsep hmm hsep' hss
    rw [hu h' hhh]
    rw [Bool.and_eq_true, Bool.or_eq_true, decide_eq_true_eq, Bool.and_eq_true] at hk
    have hn : halfNext ([l] ++ r) = true := by simpa [halfNext] using hl
    rcases hk.2 with hk | ⟨ha, hf⟩
    · simpa using hk
    · exfalso
      rcases hfr with rfl | ⟨ds, n, rfl, hn'⟩
      · rw [List.nil_append] at ha
        have := afterRun_sound ha (blankB_all hb)
        rw [hn] at this
        exact absurd this (by simp)
      · rw [List.append_assoc] at hf
        have := afterRun_sound (afterNumber_sound (afterWord_sound hf) hn') (blankB_all hb)
        rw [hn] at this
        exact absurd this (by simp)

/-- The program returned. -/
def answered (o : Out Text) : Bool := match o with | .ok _ => true | _ => false

/-- Ordinary texts: a date with a time of day and a deadline … -/
theorem ordinary_lunch : Ordinary txt!"Lunch on March 5, 2019 at 9:30 pm, or in 3 weeks" := ordinaryB_sound (by decide +kernel)
/-- … a time with seconds, an abbreviated month, an ordinal word and an era. -/
theorem ordinary_train : Ordinary txt!"train at 14:05:10; Sept 4th, or June twenty first 2560 BE maybe" := ordinaryB_sound (by decide +kernel)
/-- **C57: the conditions are needed.** For each of these texts exactly the indicated check fails (counted from 0; the last four fail the one
on seconds), and the program does not answer, at 2019-03-15 00:30: it dies, or (in the third) leaves the range of Boost's dates. -/
theorem c57_conditions_are_needed : ∀ p ∈ [(0, txt! r"jun\x"), (1, txt!"may."), (2, txt!"in 9999 years"), (3, txt!"march 5 to 40 x"),
      (4, txt!"march first to third x"), (5, txt!"february 30 x"), (6, txt!"march 1200"), (7, txt!"march 5 99 ad x"), (8, txt!"9:75:10"),
      (8, txt!"25:10:10"), (8, txt!"14:05:10 pm"), (8, txt!"noon:75:10")],
    ordinaryChecks p.2 = (List.range 9).map (fun i => decide (i ≠ p.1)) ∧ ∀ line, mainRun (Rt.usual 0) sortKeep p.2 exampleRef ≠ .ok line := by
  intro p hp
  have h : ∀ p ∈ [(0, txt! r"jun\x"), (1, txt!"may."), (2, txt!"in 9999 years"), (3, txt!"march 5 to 40 x"),
      (4, txt!"march first to third x"), (5, txt!"february 30 x"), (6, txt!"march 1200"), (7, txt!"march 5 99 ad x"), (8, txt!"9:75:10"),
      (8, txt!"25:10:10"), (8, txt!"14:05:10 pm"), (8, txt!"noon:75:10")],
      ordinaryChecks p.2 = (List.range 9).map (fun i => decide (i ≠ p.1)) ∧ answered (mainRun (Rt.usual 0) sortKeep p.2 exampleRef) = false := by decide +kernel
  exact ⟨(h p hp).1, fun line hl => by have := (h p hp).2; rw [hl] at this; cases this⟩

end Chrono.Props
