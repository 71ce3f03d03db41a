import Verif.Lemmas.First
import Verif.Props.P39_MilitaryTimes
import Verif.Props.P45_DateAndTime
import Verif.Props.P61_IsoInText
/-!
# C85: a clock time in any text
-/
namespace Chrono.Props
open Chrono Chrono.Spec Chrono.Boost

/-! ## The pattern -/

def digRe : Re := .one (.set true false [.cls .digit false])
def blankRe : Re := .one (.set true false [.cls .space false])
def d12 : Re := .seq digRe (.alt digRe .eps)
def d14 : Re := .seq digRe (.alt (.seq digRe (.alt (.seq digRe (.alt digRe .eps)) .eps)) .eps)
def wideColon : Re := .seq (.one (.ch true 239)) (.seq (.one (.ch true 188)) (.one (.ch true 154)))
def sep1 : Re := .alt (.alt (.one (.ch true 46)) (.one (.ch true 58))) wideColon
def sep2 : Re := .alt (.one (.ch true 58)) wideColon
/-- am, pm, o'clock -/
def merRe : Re :=
 (.alt (.alt (.alt (.alt (.seq (.one (.ch true 65))
 (.seq (.one (.ch true 46))
 (.seq (.one (.ch true 77))
 (.alt (.one (.ch true 46))
 .eps))))
 (.seq (.one (.ch true 80))
 (.seq (.one (.ch true 46))
 (.seq (.one (.ch true 77))
 (.alt (.one (.ch true 46))
 .eps)))))
 (.seq (.one (.ch true 65))
 (.alt (.one (.ch true 77))
 .eps)))
 (.seq (.one (.ch true 80))
 (.alt (.one (.ch true 77))
 .eps)))
 (.seq (.one (.ch true 79))
 (.seq (.star true (.one (.set true true [.cls .word false])))
 (.seq (.one (.ch true 67))
 (.seq (.one (.ch true 76))
 (.seq (.one (.ch true 79))
 (.seq (.one (.ch true 67))
 (.one (.ch true 75)))))))))
def minsRe (frac : Re) : Re :=
  .alt (.seq sep1 (.seq (.cap 3 d12) (.alt (.seq sep2 (.seq (.cap 4 (.seq digRe digRe)) (.alt frac .eps))) .eps))) .eps
def halfRe : Re := .alt (.seq (.star true blankRe) (.cap 6 merRe)) .eps
def aheadRe : Re := .look false (.alt (.one (.set true true [.cls .word false])) .eol)
/-- What follows the words before the time. -/
def clockRe (words frac range : Re) : Re :=
  .seq (.cap 2 words) (.seq (minsRe frac) (.seq halfRe (.seq aheadRe (.seq (.alt (.one (.ch true 32)) .eps) (.alt (.cap 7 range) .eps)))))

theorem timeExpr_whole : ∃ b n mn frac range, Ast.timeExpr = .seq (.cap 1 (.alt (.alt .bol blankRe) (.one (.ch true 84))))
      (.seq (.alt .eps (.seq b (.star true blankRe))) (clockRe (.alt (.alt d14 n) mn) frac range)) ∧
    b.words = some [txt!"at", txt!"from"] ∧ b.groups = [] ∧ frac.uses isDigitB = true ∧ range.uses isDigitB = true ∧
    (Re.seq (.cap 1 (.alt (.alt .bol blankRe) (.one (.ch true 84)))) (.seq (.alt .eps (.seq b (.star true blankRe))) (.alt n mn))).has (hits clockKeys false) (hits clockKeys false) [] = true :=
  ⟨_, _, _, _, _, rfl, by decide +kernel, by decide +kernel, by decide +kernel, by decide +kernel, by decide +kernel⟩

/-! ## Which match is found first -/

/-- `w` is what the executor takes first, and `C` are the groups it notes. -/
def Takes (r : Re) (s : St) (n : Nat) (R : Text) (C : List (Nat × Nat × Nat)) : Prop :=
  ∃ s', First r s s' ∧ s'.pos = s.pos + n ∧ s'.rest = R ∧ s'.caps = C ++ s.caps

theorem Takes.seq {a b : Re} {s : St} {n m : Nat} {R R' : Text} {C C' : List (Nat × Nat × Nat)} (ha : Takes a s n R C)
    (hb : ∀ s', s'.pos = s.pos + n → s'.rest = R → Takes b s' m R' C') : Takes (.seq a b) s (n + m) R' (C' ++ C) := by
  obtain ⟨s1, f1, p1, r1, c1⟩ := ha
  obtain ⟨s2, f2, p2, r2, c2⟩ := hb s1 p1 r1
  exact ⟨s2, f1.seq f2, by omega, r2, by rw [c2, c1, List.append_assoc]⟩

theorem Takes.cap {k : Nat} {r : Re} {s : St} {n : Nat} {R : Text} (h : Takes r s n R []) : Takes (.cap k r) s n R [(k, s.pos, s.pos + n)] := by
  obtain ⟨s1, f1, p1, r1, c1⟩ := h
  exact ⟨_, f1.cap, p1, r1, by simp [c1, p1]⟩

theorem Takes.altL {a b : Re} {s : St} {n : Nat} {R : Text} {C : List (Nat × Nat × Nat)} (h : Takes a s n R C) : Takes (.alt a b) s n R C := by
  obtain ⟨s1, f1, h1⟩ := h
  exact ⟨s1, f1.altL, h1⟩

theorem Takes.altR {a b : Re} {s : St} {n : Nat} {R : Text} {C : List (Nat × Nat × Nat)} (ha : ∀ s', ¬ Rel a s s') (h : Takes b s n R C) :
    Takes (.alt a b) s n R C := by
  obtain ⟨s1, f1, h1⟩ := h
  exact ⟨s1, f1.altR ha, h1⟩

theorem Takes.eps (s : St) : Takes .eps s 0 s.rest [] := ⟨s, .eps s, rfl, rfl, rfl⟩

theorem Takes.opt {a : Re} {s : St} {R : Text} (hr : s.rest = R) (ha : ∀ s', ¬ Rel a s s') : Takes (.alt a .eps) s 0 R [] := by
  subst hr
  exact .altR ha (.eps s)

theorem Takes.one {d : Single} {s : St} {c : Nat} {t : Text} (hr : s.rest = c :: t) (hd : d.test c = true) : Takes (.one d) s 1 t [] :=
  ⟨_, .one hr hd, rfl, rfl, rfl⟩

theorem dig_test {c : Nat} : (Single.set true false [.cls .digit false]).test c = isDigitB c := by
  unfold Single.test isDigitB
  simp only [List.any_cons, List.any_nil, Item.test, ClassK.test, isDigitB, Bool.or_false]
  by_cases h : 48 ≤ c ∧ c ≤ 57
  · simp [h]; omega
  · simp
    omega

theorem blank_test {c : Nat} : (Single.set true false [.cls .space false]).test c = isSpaceB c := by
  unfold Single.test
  simp only [List.any_cons, List.any_nil, Item.test, ClassK.test, Bool.or_false]
  unfold isSpaceB
  by_cases h : c = 32 ∨ 9 ≤ c ∧ c ≤ 13
  · simp [h]; omega
  · simp
    omega

theorem not_digit {s : St} (h : ∀ c, s.rest.head? = some c → isDigitB c = false) : ∀ s', ¬ Rel digRe s s' := by
  intro s' hr
  obtain ⟨c, t, h1, h2, -⟩ := rel_one.1 hr
  rw [dig_test, h c (by rw [h1]; rfl)] at h2
  cases h2

theorem not_digit_seq {r : Re} {s : St} (h : ∀ c, s.rest.head? = some c → isDigitB c = false) : ∀ s', ¬ Rel (.seq digRe r) s s' := by
  intro s' hr
  obtain ⟨s1, h1, -⟩ := rel_seq.1 hr
  exact not_digit h _ h1

theorem uses_none {r : Re} {s : St} (hr : r.uses isDigitB = true) (h : ∀ c ∈ s.rest, isDigitB c = false) : ∀ s', ¬ Rel r s s' := by
  intro s' hrel
  obtain ⟨c, hc, hd⟩ := hrel.uses hr
  rw [h c hc] at hd
  cases hd

/-- One to four digits. -/
theorem takes_hour {D R : Text} (hne : D ≠ []) (hD : ∀ c ∈ D, isDigitB c = true) (h4 : D.length ≤ 4) (hR : ∀ c, R.head? = some c → isDigitB c = false) {s : St}
    (hr : s.rest = D ++ R) : Takes d14 s D.length R [] := by
  have one : ∀ {s : St} {c : Nat} {t : Text}, s.rest = c :: t → isDigitB c = true → Takes digRe s 1 t [] := fun h1 h2 => .one h1 (by rw [dig_test]; exact h2)
  match D, hne, hD, h4 with
  | [a], _, hD, _ => exact (one hr (hD a (by simp))).seq (m := 0) (C' := []) fun s' _ h' => Takes.opt h' (not_digit_seq (by rw [h']; exact hR))
  | [a, b], _, hD, _ =>
    exact (one hr (hD a (by simp))).seq (m := 1) (C' := []) fun s' _ h' => .altL ((one h' (hD b (by simp))).seq (m := 0) (C' := []) fun s' _ h' =>
      Takes.opt h' (not_digit_seq (by rw [h']; exact hR)))
  | [a, b, c], _, hD, _ =>
    exact (one hr (hD a (by simp))).seq (m := 2) (C' := []) fun s' _ h' => .altL ((one h' (hD b (by simp))).seq (m := 1) (C' := []) fun s' _ h' =>
      .altL ((one h' (hD c (by simp))).seq (m := 0) (C' := []) fun s' _ h' => Takes.opt h' (not_digit (by rw [h']; exact hR))))
  | [a, b, c, d], _, hD, _ =>
    exact (one hr (hD a (by simp))).seq (m := 3) (C' := []) fun s' _ h' => .altL ((one h' (hD b (by simp))).seq (m := 2) (C' := []) fun s' _ h' =>
      .altL ((one h' (hD c (by simp))).seq (m := 1) (C' := []) fun s' _ h' => .altL (one h' (hD d (by simp)))))

/-- The groups of minutes and seconds. -/
def tailGroups (q : Nat) : Tail → List (Nat × Nat × Nat)
  | .none => []
  | .minutes _ => [(3, q + 1, q + 3)]
  | .seconds _ _ => [(4, q + 4, q + 6), (3, q + 1, q + 3)]

theorem takes_colon {s : St} {R : Text} (hr : s.rest = 58 :: R) : Takes sep1 s 1 R [] ∧ Takes sep2 s 1 R [] := by
  refine ⟨.altL (.altR ?_ (.one hr (by decide))), .altL (.one hr (by decide))⟩
  intro s' h
  obtain ⟨c, t, h1, h2, -⟩ := rel_one.1 h
  rw [hr] at h1
  cases h1
  revert h2
  decide

theorem takes_two {s : St} {n : Nat} {R : Text} (hr : s.rest = two n ++ R) : Takes d12 s 2 R [] ∧ Takes (.seq digRe digRe) s 2 R [] := by
  have one : ∀ {s : St} {c : Nat} {t : Text}, s.rest = c :: t → isDigitB c = true → Takes digRe s 1 t [] := fun h1 h2 => .one h1 (by rw [dig_test]; exact h2)
  constructor
  · exact (one hr (dig_digit _)).seq (m := 1) (C' := []) fun s' _ h' => .altL (one h' (dig_digit _))
  · exact (one hr (dig_digit _)).seq (m := 1) (C' := []) fun s' _ h' => one h' (dig_digit _)

theorem takes_mins {frac : Re} (hf : frac.uses isDigitB = true) {t : Tail} {R : Text} (hR : ∀ c ∈ R, isDigitB c = false) {s : St} (hr : s.rest = t.text ++ R) :
    Takes (minsRe frac) s t.text.length R (tailGroups s.pos t) := by
  cases t with
  | none =>
    have hr : s.rest = R := hr
    refine .opt hr (uses_none ?_ (by rw [hr]; exact hR))
    simp only [Re.uses]
    rw [show d12.uses isDigitB = true by decide +kernel]
    simp
  | minutes mi =>
    refine .altL ((takes_colon hr).1.seq (m := 2) (C := []) (C' := tailGroups s.pos (.minutes mi)) fun s1 p1 r1 => ?_)
    have := ((takes_two r1).1.cap (k := 3)).seq (m := 0) (C' := []) (b := (.alt (.seq sep2 (.seq (.cap 4 (.seq digRe digRe)) (.alt frac .eps))) .eps)) (R' := R) fun s2 p2 r2 => by
      refine .opt r2 (uses_none ?_ (by rw [r2]; exact hR))
      simp only [Re.uses]
      rw [show digRe.uses isDigitB = true by decide +kernel]
      simp
    rw [p1] at this
    exact this
  | seconds mi sec =>
    refine .altL ((takes_colon (R := two mi ++ (txt!":" ++ two sec ++ R)) (by rw [hr]; simp [Tail.text])).1.seq (m := 5) (C := []) (C' := tailGroups s.pos (.seconds mi sec)) fun s1 p1 r1 => ?_)
    have := ((takes_two r1).1.cap (k := 3)).seq (m := 3) (C' := [(4, s.pos + 4, s.pos + 6)]) (b := (.alt (.seq sep2 (.seq (.cap 4 (.seq digRe digRe)) (.alt frac .eps))) .eps)) (R' := R) fun s2 p2 r2 => by
      refine .altL ((takes_colon r2).2.seq (m := 2) (C := []) (C' := [(4, s.pos + 4, s.pos + 6)]) fun s3 p3 r3 => ?_)
      have := ((takes_two r3).2.cap (k := 4)).seq (m := 0) (C' := []) (b := .alt frac .eps) (R' := R) fun s4 p4 r4 => by
        exact .opt r4 (uses_none hf (by rw [r4]; exact hR))
      rw [p3, p2, p1] at this
      exact this
    rw [p1] at this
    exact this

/-! ### am and pm -/

theorem takes_mer {w : Text × Option Bool} (hw : w ∈ halves) {s : St} {S : Text} (hr : s.rest = w.1 ++ S) : Takes merRe s w.1.length S [] := by
  simp only [halves, List.mem_cons, List.not_mem_nil, or_false] at hw
  have o1 : ∀ {α : Type} (y : Unit → Option α), orElse' none y = y () := fun _ => rfl
  rcases hw with rfl | rfl | rfl | rfl | rfl
  · refine ⟨⟨s.pos + 2, some 109, S, s.caps⟩, .of fun k hk => ?_, rfl, rfl, rfl⟩
    simp only [List.cons_append, List.nil_append] at hr
    simp [merRe, Re.m, hr, St.adv, Single.test, lowerB, o1, orElse'_left _ hk]
  · refine ⟨⟨s.pos + 4, some 46, S, s.caps⟩, .of fun k hk => ?_, rfl, rfl, rfl⟩
    simp only [List.cons_append, List.nil_append] at hr
    simp [merRe, Re.m, hr, St.adv, Single.test, lowerB, o1, orElse'_left _ hk]
  · refine ⟨⟨s.pos + 2, some 109, S, s.caps⟩, .of fun k hk => ?_, rfl, rfl, rfl⟩
    simp only [List.cons_append, List.nil_append] at hr
    simp [merRe, Re.m, hr, St.adv, Single.test, lowerB, o1, orElse'_left _ hk]
  · refine ⟨⟨s.pos + 4, some 46, S, s.caps⟩, .of fun k hk => ?_, rfl, rfl, rfl⟩
    simp only [List.cons_append, List.nil_append] at hr
    simp [merRe, Re.m, hr, St.adv, Single.test, lowerB, o1, orElse'_left _ hk]
  · refine ⟨⟨s.pos + 7, some 107, S, s.caps⟩, .of fun k hk => ?_, rfl, rfl, rfl⟩
    simp only [List.cons_append, List.nil_append] at hr
    have hst := First.star (d := .set true true [.cls .word false]) (s := ⟨s.pos + 1, some 111, [39] ++ ([99, 108, 111, 99, 107] ++ S), s.caps⟩) (w := [39]) rfl
      (by decide) (t := [99, 108, 111, 99, 107] ++ S) (fun c hc => by cases hc; decide)
    have := hst.2 (fun s' => (Re.seq (.one (.ch true 67)) (.seq (.one (.ch true 76)) (.seq (.one (.ch true 79)) (.seq (.one (.ch true 67)) (.one (.ch true 75)))))).m s' k)
    simp only [St.advs, List.length_cons, List.length_nil] at this
    simp [Re.m, St.adv, Single.test, lowerB, hk] at this
    simp [merRe, Re.m, hr, St.adv, Single.test, lowerB, o1]
    exact this

theorem mer_word {w : Text} (h : Lang merRe w) (hl : toLower w = w) :
    w ∈ [txt!"a", txt!"p", txt!"am", txt!"pm", txt!"a.m", txt!"p.m", txt!"a.m.", txt!"p.m."] ∨ ∃ x, w = txt!"o" ++ x ++ txt!"clock" ∧ ∀ c ∈ x, ¬ WordChar c := by
  unfold merRe at h
  rcases lang_alt h with h | h
  · left
    have h1 := h.words _ rfl
    rw [hl] at h1
    revert h1
    generalize w = v
    intro h1
    have key : ∀ v ∈ ([[97, 46, 109, 46], [97, 46, 109]] ++ [[112, 46, 109, 46], [112, 46, 109]] ++ [[97, 109], [97]] ++ [[112, 109], [112]] : List Text),
        v ∈ [txt!"a", txt!"p", txt!"am", txt!"pm", txt!"a.m", txt!"p.m", txt!"a.m.", txt!"p.m."] := by decide
    exact key v h1
  · right
    obtain ⟨w1, v1, rfl, k1, x1⟩ := lang_seq h
    obtain ⟨w2, v2, rfl, k2, x2⟩ := lang_seq x1
    have e1 := k1.words _ rfl
    have e2 := x2.words _ rfl
    rw [toLower_append, toLower_append] at hl
    have hlen : ∀ t, (toLower t).length = t.length := fun t => by simp [toLower]
    have a1 := List.append_inj hl (hlen _)
    have a2 := List.append_inj a1.2 (hlen _)
    rw [a1.1] at e1
    rw [a2.2] at e2
    refine ⟨w2, ?_, fun c hc => ?_⟩
    · rw [List.mem_singleton.1 e1, List.mem_singleton.1 e2, List.append_assoc]
      rfl
    · have := k2.allB (fun c => !isWordB c) (by decide +kernel) c hc
      rw [wordChar_iff]
      simpa using this

theorem ahead_rel {s s' : St} (h : Rel aheadRe s s') : ∀ c, s.rest.head? = some c → ¬ WordChar c := by
  intro c hc
  obtain ⟨h, -⟩ := rel_look.1 h
  cases hr : s.rest with
  | nil => rw [hr] at hc; cases hc
  | cons a t =>
    rw [hr] at hc
    cases hc
    simp only [Re.m, hr, Single.test, List.any_cons, List.any_nil, Item.test, ClassK.test, orElse'] at h
    rw [wordChar_iff]
    cases hw : isWordB c with
    | false => simp
    | true => rw [hw] at h; simp at h

theorem takes_ahead {s : St} (hb : ∀ c ∈ s.rest, c < 256) (h : ∀ c, s.rest.head? = some c → ¬ WordChar c) : Takes aheadRe s 0 s.rest [] := by
  refine ⟨s, .look ?_, rfl, rfl, rfl⟩
  cases hr : s.rest with
  | nil => simp [Re.m, hr, orElse']
  | cons a t =>
    have h1 := h a (by rw [hr]; rfl)
    have h2 := hb a (by rw [hr]; simp)
    rw [wordChar_iff] at h1
    simp [Re.m, hr, Single.test, Item.test, ClassK.test, orElse', h1, h2]

theorem takes_blank (s : St) : ∃ e, e ≤ 1 ∧ (e = 1 ↔ s.rest.head? = some 32) ∧ Takes (.alt (.one (.ch true 32)) .eps) s e (s.rest.drop e) [] := by
  by_cases h : s.rest.head? = some 32
  · refine ⟨1, by omega, by simp [h], ?_⟩
    cases hr : s.rest with
    | nil => rw [hr] at h; cases h
    | cons a t =>
      rw [hr] at h
      cases h
      exact .altL (.one hr (by decide))
  · refine ⟨0, by omega, by simp [h], .opt rfl fun s' hrel => h ?_⟩
    obtain ⟨c, t, h1, h2, -⟩ := rel_one.1 hrel
    rw [h1]
    unfold Single.test lowerB at h2
    simp only [Bool.and_eq_true, decide_eq_true_eq, if_true, beq_iff_eq] at h2
    obtain ⟨-, h2⟩ := h2
    have : c = 32 := by
      split at h2
      · simp at h2
        omega
      · simpa using h2
    rw [this]
    rfl

/-- The group of am and pm. -/
inductive HalfGroups (q : Nat) (sfx : Text) (ap : Option Bool) : List (Nat × Nat × Nat) → Prop where
  | none : sfx = [] → ap = .none → HalfGroups q sfx ap []
  | some {b w : Text} : (w, ap) ∈ halves → sfx = b ++ w → HalfGroups q sfx ap [(6, q + b.length, q + b.length + w.length)]

/-- am, pm or nothing, and the look ahead. -/
theorem takes_half {sfx S : Text} {ap : Option Bool} (hw : HalfWritten sfx ap S) (hl : toLower S = S) (hb : ∀ c ∈ S, c < 256)
    (hS : ∀ c, S.head? = some c → ¬ WordChar c) {s : St} (hr : s.rest = sfx ++ S) {m : Nat} {R : Text} {r : Re} (h : ∀ s', s'.rest = S → Takes r s' m R []) :
    ∃ C, HalfGroups s.pos sfx ap C ∧ Takes (.seq halfRe (.seq aheadRe r)) s (sfx.length + m) R C := by
  have rest : ∀ s', s'.rest = S → Takes (.seq aheadRe r) s' m R [] := by
    intro s' hs
    have := (takes_ahead (s := s') (by rw [hs]; exact hb) (by rw [hs]; exact hS)).seq (m := m) (C' := []) (b := r) (R' := R) fun s2 _ r2 => h s2 (by rw [r2, hs])
    rwa [Nat.zero_add] at this
  rcases hw with ⟨rfl, rfl, hno⟩ | ⟨b, w, hb', hw, rfl⟩
  · refine ⟨[], .none rfl rfl, ?_⟩
    rw [List.nil_append] at hr
    obtain ⟨s1, f1, p1, r1, c1⟩ := rest s hr
    refine ⟨s1, ?_, by simpa using p1, r1, c1⟩
    refine First.seqAltR (fun s' hrel => hno ?_) (First.seq (.eps s) f1)
    obtain ⟨s2, h2, h3⟩ := rel_seq.1 hrel
    obtain ⟨s3, h3, -⟩ := rel_seq.1 h3
    obtain ⟨s4, h4, h5⟩ := rel_seq.1 h2
    obtain ⟨u, hu⟩ := h4.consumed
    obtain ⟨v, hv⟩ := h5.consumed
    have hub : Blanks u := blanks_of (show Lang (.star true blankRe) u from ⟨_, _, h4, hu⟩) (by decide +kernel)
    have hvl : Lang merRe v := lang_cap (show Lang (.cap 6 merRe) v from ⟨_, _, h5, hv⟩)
    have e : S = u ++ v ++ s2.rest := by rw [← hr, hu.rest, hv.rest, List.append_assoc]
    have hvlow : toLower v = v := by
      exact lower_of_infix (t := S) (w := v) (by rw [hl, e]; exact ⟨u, s2.rest, rfl⟩)
    exact ⟨u, v, s2.rest, hub, by rw [hl]; exact e, ahead_rel h3, mer_word hvl hvlow⟩
  · have hne : ∀ c, (w ++ S).head? = some c → (Single.set true false [.cls .space false]).test c = false := by
      intro c hc
      have key : ∀ w ∈ halves, w.1 ≠ [] ∧ ∀ c, w.1.head? = some c → isSpaceB c = false := by decide
      obtain ⟨k1, k2⟩ := key _ hw
      rw [blank_test]
      refine k2 c ?_
      cases w with
      | nil => exact absurd rfl k1
      | cons a w => exact hc
    have hr' : s.rest = b ++ (w ++ S) := by rw [hr, List.append_assoc]
    have f0 := First.star hr' (fun c hc => by rw [blank_test]; exact blank_isSpace (hb' c hc)) hne
    have t0 : Takes (.star true blankRe) s b.length (w ++ S) [] := ⟨_, f0, rfl, rfl, rfl⟩
    have t1 : Takes halfRe s (b.length + w.length) S [(6, s.pos + b.length, s.pos + b.length + w.length)] := by
      refine .altL (t0.seq (C := []) (C' := [(6, s.pos + b.length, s.pos + b.length + w.length)]) fun s1 p1 r1 => ?_)
      have := (takes_mer hw r1).cap (k := 6)
      rwa [p1] at this
    refine ⟨_, .some hw rfl, ?_⟩
    have := t1.seq (m := m) (C' := []) (b := .seq aheadRe r) (R' := R) fun s2 _ r2 => rest s2 r2
    rwa [List.length_append]

/-! ## The search -/

/-- Where a digit stands. -/
theorem digit_at {P H R : Text} (hP : ∀ c ∈ P, isDigitB c = false) (hR : ∀ c ∈ R, isDigitB c = false) {q c : Nat} {u : Text}
    (h : (P ++ (H ++ R)).drop q = c :: u) (hc : isDigitB c = true) : P.length ≤ q ∧ q < P.length + H.length := by
  have hm : (P ++ (H ++ R))[q]? = some c := by
    have : ((P ++ (H ++ R)).drop q)[0]? = some c := by rw [h]; rfl
    simpa [List.getElem?_drop] using this
  constructor
  · by_contra hlt
    rw [List.getElem?_append_left (by omega)] at hm
    have := hP c (List.mem_of_getElem? hm)
    rw [hc] at this; cases this
  · by_contra hlt
    rw [List.getElem?_append_right (by omega), List.getElem?_append_right (by omega)] at hm
    have := hR c (List.mem_of_getElem? hm)
    rw [hc] at this; cases this

theorem tail_chars {t : Tail} {c : Nat} (h : c ∈ t.text) : isDigitB c = true ∨ c = 58 := by
  cases t with
  | none => cases h
  | minutes mi =>
    simp only [Tail.text, two, List.cons_append, List.nil_append, List.mem_cons, List.not_mem_nil, or_false] at h
    rcases h with rfl | rfl | rfl
    · exact .inr rfl
    · exact .inl (dig_digit _)
    · exact .inl (dig_digit _)
  | seconds mi s =>
    simp only [Tail.text, two, List.cons_append, List.nil_append, List.mem_cons, List.not_mem_nil, or_false] at h
    rcases h with rfl | rfl | rfl | rfl | rfl | rfl
    · exact .inr rfl
    · exact .inl (dig_digit _)
    · exact .inl (dig_digit _)
    · exact .inr rfl
    · exact .inl (dig_digit _)
    · exact .inl (dig_digit _)

/-- A time written with the digits `D` for the hour (or the hour and minute), in the text `P ++ … ++ S`. -/
structure ClockAt (P D : Text) (t : Tail) (sfx : Text) (ap : Option Bool) (S : Text) : Prop where
  before : ∀ c ∈ P, isDigitB c = false
  after : ∀ c ∈ S, isDigitB c = false
  bytes : ∀ c ∈ S, c < 256
  lower : toLower S = S
  nonempty : D ≠ []
  digits : ∀ c ∈ D, isDigitB c = true
  short : D.length ≤ 4
  half : HalfWritten sfx ap S
  apart : ∀ c, S.head? = some c → ¬ WordChar c
  lead : ∀ c, P.getLast? = some c → Blank c
  clock : ∀ k ∈ clockKeys, ¬ Occurs k.atStart k.word k.atEnd (P ++ (D ++ (t.text ++ (sfx ++ S))))
  whole : toLower (P ++ (D ++ (t.text ++ (sfx ++ S)))) = P ++ (D ++ (t.text ++ (sfx ++ S)))

theorem half_chars {sfx S : Text} {ap : Option Bool} (h : HalfWritten sfx ap S) : ∀ c ∈ sfx, isDigitB c = false := by
  rcases h with ⟨rfl, -⟩ | ⟨b, w, hb, hw, rfl⟩
  · simp
  · intro c hc
    rcases List.mem_append.1 hc with hc | hc
    · have := hb c hc
      unfold Blank at this
      unfold isDigitB
      simp
      omega
    · have key : ∀ w ∈ halves, ∀ c ∈ w.1, isDigitB c = false := by decide
      exact key _ hw c hc

theorem half_head {sfx S : Text} {ap : Option Bool} (h : HalfWritten sfx ap S) (hs : ∀ c ∈ S, isDigitB c = false) : ∀ c ∈ sfx ++ S, isDigitB c = false := by
  intro c hc
  rcases List.mem_append.1 hc with hc | hc
  · exact half_chars h c hc
  · exact hs c hc

theorem takes_clock {n mn frac range : Re} (hf : frac.uses isDigitB = true) (hg : range.uses isDigitB = true) {P D S sfx : Text} {t : Tail} {ap : Option Bool}
    (h : ClockAt P D t sfx ap S) {s : St} (hr : s.rest = D ++ (t.text ++ (sfx ++ S))) :
    ∃ e C, e ≤ 1 ∧ (e = 1 ↔ S.head? = some 32) ∧ HalfGroups (s.pos + D.length + t.text.length) sfx ap C ∧
      Takes (clockRe (.alt (.alt d14 n) mn) frac range) s (D.length + (t.text.length + (sfx.length + e))) (S.drop e)
        (C ++ tailGroups (s.pos + D.length) t ++ [(2, s.pos, s.pos + D.length)]) := by
  have hR := half_head h.half h.after
  have t1 : Takes (.cap 2 (.alt (.alt d14 n) mn)) s D.length (t.text ++ (sfx ++ S)) [(2, s.pos, s.pos + D.length)] := by
    refine .cap (.altL (.altL (takes_hour h.nonempty h.digits h.short (fun c hc => ?_) hr)))
    cases t with
    | none => exact hR c (List.mem_of_head? hc)
    | minutes mi => cases hc; rfl
    | seconds mi sec => cases hc; rfl
  obtain ⟨e, he⟩ : ∃ e, e = (if S.head? = some 32 then 1 else 0) := ⟨_, rfl⟩
  have he1 : e ≤ 1 := by rw [he]; split <;> omega
  have he2 : e = 1 ↔ S.head? = some 32 := by rw [he]; split <;> simp_all
  have fin : ∀ s', s'.rest = S → Takes (.seq (.alt (.one (.ch true 32)) .eps) (.alt (.cap 7 range) .eps)) s' (e + 0) (S.drop e) [] := by
    intro s' hs
    obtain ⟨e', h1, h2, h3⟩ := takes_blank s'
    have : e' = e := by rw [hs] at h2; have := h2.trans he2.symm; omega
    subst this
    rw [hs] at h3
    exact h3.seq (m := 0) (C := []) (C' := []) fun s2 _ r2 => .opt r2 (uses_none (by simpa [Re.uses] using hg) (by
      rw [r2]; exact fun c hc => h.after c (List.mem_of_mem_drop hc)))
  have half : ∀ s', s'.rest = sfx ++ S → ∃ C, HalfGroups s'.pos sfx ap C ∧
      Takes (.seq halfRe (.seq aheadRe (.seq (.alt (.one (.ch true 32)) .eps) (.alt (.cap 7 range) .eps)))) s' (sfx.length + (e + 0)) (S.drop e) C :=
    fun s' hs => takes_half h.half h.lower h.bytes h.apart hs fin
  obtain ⟨s1, f1, p1, r1, c1⟩ := t1
  obtain ⟨s2, f2, p2, r2, c2⟩ := takes_mins hf hR r1
  obtain ⟨C, hC, s3, f3, p3, r3, c3⟩ := half s2 r2
  refine ⟨e, C, he1, he2, by rwa [p2, p1] at hC, s3, f1.seq (f2.seq f3), by omega, r3, ?_⟩
  rw [c3, c2, c1, p1]
  simp

/-- Whatever the clock-time pattern finds is that time. -/
theorem clock_m {P D S sfx : Text} {t : Tail} {ap : Option Bool} (h : ClockAt P D t sfx ap S) {T : Text} (hT : T = P ++ (D ++ (t.text ++ (sfx ++ S)))) {q : Nat}
    (hq : q ≤ T.length) {s' : St} (hm : Ast.timeExpr.m (startSt T q) some = some s') :
    ∃ e C b, e ≤ 1 ∧ (e = 1 ↔ S.head? = some 32) ∧ HalfGroups (P.length + D.length + t.text.length) sfx ap C ∧ q ≤ b ∧ b ≤ q + 1 ∧ b ≤ P.length ∧
      s'.pos = P.length + (D.length + (t.text.length + (sfx.length + e))) ∧ s'.rest = S.drop e ∧
      s'.caps = C ++ tailGroups (P.length + D.length) t ++ [(2, P.length, P.length + D.length), (1, q, b)] := by
  obtain ⟨b, n, mn, frac, range, hast, hbw, hbg, hf, hg, hk⟩ := timeExpr_whole
  have hlow := h.whole
  rw [← hT] at hlow
  rw [hast] at hm
  obtain ⟨s1, h1, hm⟩ := m_split hm
  obtain ⟨s2, h2, hm⟩ := m_split hm
  obtain ⟨s3, h3, -⟩ := Re.m_sound (clockRe _ _ _) _ _ _ hm
  have on0 := startSt_on T _ hq
  obtain ⟨u1, hu1⟩ := h1.consumed
  have on1 := (on0.of_consumed hu1).1
  obtain ⟨u2, hu2⟩ := h2.consumed
  have on2 := (on1.of_consumed hu2).1
  obtain ⟨s4, h4, -⟩ := rel_seq.1 h3
  have hH : T = P ++ ((D ++ t.text) ++ (sfx ++ S)) := by rw [hT]; simp
  have hplace : P.length ≤ s2.pos ∧ s2.pos < P.length + (D ++ t.text).length := by
    rcases rel_cap2 h4 with h4 | ⟨s'', h4⟩
    · obtain ⟨w, hw⟩ := h4.consumed
      obtain ⟨w1, w2⟩ := isDigits_of (lang_cap (show Lang (.cap 2 d14) w from ⟨_, _, h4, hw⟩)) (by decide +kernel) (by decide +kernel)
      cases w with
      | nil => exact absurd rfl w1
      | cons c w =>
        have hr := hw.rest
        rw [on2.rest, hH, List.cons_append] at hr
        have := w2 c (by simp)
        exact digit_at h.before (half_head h.half h.after) hr (by unfold isDigitB; simpa using this)
    · exfalso
      have := Re.search_needs hk (by decide +kernel) (text := T) (by rw [hlow, hT]; exact h.clock) (by simp)
      rw [hlow] at this
      exact Re.search_none this q hq _ (.seq h1 (.seq h2 h4))
  have hpos : s2.pos = P.length := by
    by_contra hne
    have hprev : ∃ c, s2.prev = some c ∧ (isDigitB c = true ∨ c = 58) := by
      obtain ⟨k, hk⟩ : ∃ k, s2.pos = P.length + (k + 1) := ⟨s2.pos - P.length - 1, by omega⟩
      have hkl : k < (D ++ t.text).length := by omega
      refine ⟨(D ++ t.text)[k], ?_, ?_⟩
      · rw [on2.prev, hk, hH, List.take_length_add_append, List.take_append_of_le_length (by omega), List.take_succ_eq_append_getElem hkl, ← List.append_assoc, List.getLast?_concat]
      · rcases List.mem_append.1 (List.getElem_mem hkl) with hc | hc
        · exact .inl (h.digits _ hc)
        · exact tail_chars hc
    obtain ⟨c, hc, hd⟩ := hprev
    have bad : ¬ (Blank c ∨ lowerB c = 116 ∨ c = 109) := by
      unfold Blank lowerB
      rcases hd with hd | rfl
      · unfold isDigitB at hd
        simp at hd
        rw [if_neg (by omega)]
        omega
      · simp
    have lead := lead_prev (sp := blankRe) (by decide +kernel) (by decide +kernel) h1
    rcases rel_alt.1 h2 with h2 | h2
    · rw [rel_eps] at h2
      subst h2
      rcases lead c hc with h | h
      · exact bad (.inl h)
      · exact bad (.inr (.inl h))
    · obtain ⟨x, v, rfl, hx, hv⟩ := lang_seq (show Lang (.seq b (.star true blankRe)) u2 from ⟨_, _, h2, hu2⟩)
      have hvb : Blanks v := blanks_of hv (by decide +kernel)
      have hxw := hx.words _ hbw
      have hxin : x <:+: toLower T := by
        rw [hlow]
        refine List.IsInfix.trans ⟨[], v ++ s2.rest, ?_⟩ (List.drop_suffix s1.pos T).isInfix
        rw [← on1.rest, hu2.rest]
        simp
      rw [lower_of_infix hxin] at hxw
      rw [hu2.prev] at hc
      by_cases hv0 : v = []
      · subst hv0
        simp only [List.mem_cons, List.not_mem_nil, or_false] at hxw
        rcases hxw with rfl | rfl
        · cases hc; exact bad (.inr (.inl rfl))
        · cases hc; exact bad (.inr (.inr rfl))
      · rw [List.getLast?_append, List.getLast?_eq_some_getLast hv0] at hc
        cases hc
        exact bad (.inl (hvb _ (List.getLast_mem _)))
  have hr2 : s2.rest = D ++ (t.text ++ (sfx ++ S)) := by rw [on2.rest, hpos, hT, List.drop_left]
  obtain ⟨e, C, e1, e2, hC, s5, f5, p5, r5, c5⟩ := takes_clock (n := n) (mn := mn) hf hg h hr2
  have := f5.2 some rfl
  rw [this] at hm
  cases hm
  have hl1 := (lang_cap (show Lang (.cap 1 _) u1 from ⟨_, _, h1, hu1⟩)).maxLen 1 (by decide +kernel)
  have hp1 : s1.pos = q + u1.length := hu1.pos
  have hp2 := hu2.pos
  obtain ⟨s0, h0, e0⟩ := rel_cap.1 h1
  have hc1 : s1.caps = [(1, q, s1.pos)] := by
    rw [e0]
    simp only [h0.caps_eq (by decide +kernel)]
    rfl
  have hc2 : s2.caps = s1.caps := h2.caps_eq (by simp [Re.groups, hbg, blankRe])
  refine ⟨e, C, s1.pos, e1, e2, by rwa [hpos] at hC, by omega, by omega, by omega, by omega, r5, ?_⟩
  rw [c5, hc2, hc1, hpos]
  simp

/-- The letters of am and pm, without the blanks. -/
inductive HalfText (sfx : Text) (ap : Option Bool) : Text → Prop where
  | none : sfx = [] → ap = .none → HalfText sfx ap []
  | some {b w : Text} : (w, ap) ∈ halves → sfx = b ++ w → HalfText sfx ap w

/-- **The search.** The clock-time pattern finds the time, and nothing after it. -/
theorem clock_in_text {P D S sfx : Text} {t : Tail} {ap : Option Bool} (h : ClockAt P D t sfx ap S) {T : Text} (hT : T = P ++ (D ++ (t.text ++ (sfx ++ S)))) :
    ∃ mt e, Ast.timeExpr.search T = some mt ∧ e ≤ 1 ∧ (e = 1 ↔ S.head? = some 32) ∧ mt.lengthOf 1 ≤ 1 ∧ mt.start + mt.lengthOf 1 ≤ P.length ∧
      mt.stop = P.length + (D.length + (t.text.length + (sfx.length + e))) ∧ mt.str 2 = D ∧
      mt.str 3 = (match t with | .none => [] | .minutes mi => two mi | .seconds mi _ => two mi) ∧
      mt.str 4 = (match t with | .seconds _ s => two s | _ => []) ∧ HalfText sfx ap (mt.str 6) ∧ mt.str 7 = [] ∧
      Ast.timeExpr.search (T.drop mt.stop) = none := by
  have hlow := h.whole
  rw [← hT] at hlow
  cases hs : Ast.timeExpr.search T with
  | none =>
    exfalso
    obtain ⟨b, n, mn, frac, range, hast, hbw, hbg, hf, hg, hk⟩ := timeExpr_whole
    have : ∃ q ≤ T.length, ∃ s1, Rel (.cap 1 (.alt (.alt .bol blankRe) (.one (.ch true 84)))) (startSt T q) s1 ∧ s1.rest = D ++ (t.text ++ (sfx ++ S)) := by
      rcases List.eq_nil_or_concat P with rfl | ⟨P', c, rfl⟩
      · exact ⟨0, by omega, _, .cap (.altL (.altL (.bol rfl))), by rw [hT]; rfl⟩
      · refine ⟨P'.length, by rw [hT]; simp, _, .cap (.altL (.altR (.one (c := c) (t := D ++ (t.text ++ (sfx ++ S))) ?_ ?_))), rfl⟩
        · rw [hT]
          simp [startSt]
        · rw [blank_test]
          exact blank_isSpace (h.lead c (by simp))
    obtain ⟨q, hq, s1, h1, r1⟩ := this
    obtain ⟨e, C, -, -, -, s2, f2, -⟩ := takes_clock (n := n) (mn := mn) hf hg h r1
    rw [hast] at hs
    exact Re.search_none hs q hq _ (.seq h1 (.seq (.altL (.eps s1)) f2.1))
  | some mt =>
    obtain ⟨hsub, hle, ⟨s', hm, hpos, hcaps, -⟩, -⟩ := Re.search_some hs
    obtain ⟨e, C, b, e1, e2, hC, b1, b2, b3, p1, r1, c1⟩ := clock_m h hT hle hm
    rw [hcaps] at c1
    have hstr : ∀ k, k ≠ 0 → mt.str k = (match capSpan k mt.caps with | some (a, b) => slice T a b | none => []) := by
      intro k hk
      unfold Match.str
      rw [if_neg hk, hsub]
      rcases capSpan k mt.caps with _ | ⟨a, b⟩ <;> rfl
    have hsl : ∀ X Y Z : Text, ∀ n, n = X.length → ∀ m, m = n + Y.length → T = X ++ (Y ++ Z) → slice T n m = Y := by
      rintro X Y Z _ rfl _ rfl e
      unfold slice
      rw [e, List.drop_left, Nat.add_sub_cancel_left, List.take_left]
    have hbT : b ≤ T.length := by rw [hT, List.length_append]; omega
    have hdrop : T.drop mt.stop = S.drop e := by
      rw [← hpos, p1, hT, ← List.drop_drop, List.drop_left, ← List.drop_drop, List.drop_left, ← List.drop_drop, List.drop_left, ← List.drop_drop, List.drop_left]
    have g1 : mt.str 1 = slice T mt.start b := by
      rw [hstr 1 (by decide), c1]
      cases hC <;> cases t <;> rfl
    have l1 : mt.lengthOf 1 = b - mt.start := by
      unfold Match.lengthOf
      rw [g1]
      unfold slice
      simp
      omega
    refine ⟨mt, e, rfl, e1, e2, by omega, by omega, by rw [← hpos, p1], ?_, ?_, ?_, ?_, ?_, ?_⟩
    · rw [hstr 2 (by decide), c1]
      have := hsl P D _ P.length rfl (P.length + D.length) rfl hT
      cases hC <;> cases t <;> exact this
    · rw [hstr 3 (by decide), c1]
      cases t with
      | none => cases hC <;> rfl
      | minutes mi =>
        have := hsl (P ++ D ++ txt!":") (two mi) (sfx ++ S) (P.length + D.length + 1) (by simp only [List.length_append, List.length_cons, List.length_nil]) (P.length + D.length + 3) (by simp only [two, List.length_cons, List.length_nil]) (by rw [hT]; simp [Tail.text])
        cases hC <;> exact this
      | seconds mi sec =>
        have := hsl (P ++ D ++ txt!":") (two mi) (txt!":" ++ two sec ++ sfx ++ S) (P.length + D.length + 1) (by simp only [List.length_append, List.length_cons, List.length_nil]) (P.length + D.length + 3) (by simp only [two, List.length_cons, List.length_nil]) (by rw [hT]; simp [Tail.text])
        cases hC <;> exact this
    · rw [hstr 4 (by decide), c1]
      cases t with
      | none => cases hC <;> rfl
      | minutes mi => cases hC <;> rfl
      | seconds mi sec =>
        have := hsl (P ++ D ++ txt!":" ++ two mi ++ txt!":") (two sec) (sfx ++ S) (P.length + D.length + 4) (by simp only [List.length_append, two, List.length_cons, List.length_nil]) (P.length + D.length + 6) (by simp only [two, List.length_cons, List.length_nil]) (by rw [hT]; simp [Tail.text])
        cases hC <;> exact this
    · rw [hstr 6 (by decide), c1]
      cases hC with
      | none h1 h2 =>
        have : HalfText sfx ap [] := .none h1 h2
        cases t <;> exact this
      | @some b w hw e =>
        have := hsl (P ++ D ++ t.text ++ b) w S (P.length + D.length + t.text.length + b.length) (by simp only [List.length_append]) (P.length + D.length + t.text.length + b.length + w.length) rfl (by rw [hT, e]; simp)
        have hw' : HalfText sfx ap w := .some hw e
        rw [← this] at hw'
        cases t <;> exact hw'
    · rw [hstr 7 (by decide), c1]
      cases hC <;> cases t <;> rfl
    · cases hs2 : Ast.timeExpr.search (T.drop mt.stop) with
      | none => rfl
      | some mt2 =>
        exfalso
        obtain ⟨-, hle2, ⟨s2, -, -, -, hrel⟩, -⟩ := Re.search_some hs2
        obtain ⟨b', n, mn, frac, range, hast, hbw, hbg, hf, hg, hk⟩ := timeExpr_whole
        rw [hast] at hrel
        obtain ⟨z1, h1, hrel⟩ := rel_seq.1 hrel
        obtain ⟨z2, h2, hrel⟩ := rel_seq.1 hrel
        obtain ⟨z3, h3, -⟩ := rel_seq.1 hrel
        have hlowS : toLower (S.drop e) = S.drop e := by
          have := congrArg (List.drop e) h.lower
          unfold toLower at *
          rw [List.map_drop]
          exact this
        rcases rel_cap2 h3 with h3 | ⟨s'', h3⟩
        · obtain ⟨c, hc, hd⟩ := h3.uses (p := isDigitB) (by decide +kernel)
          obtain ⟨u1, hu1⟩ := h1.consumed
          obtain ⟨u2, hu2⟩ := h2.consumed
          have hin : c ∈ (startSt (T.drop mt.stop) mt2.start).rest := by rw [hu1.rest, hu2.rest]; simp [hc]
          have hin : c ∈ S := by
            have := List.mem_of_mem_drop (show c ∈ (T.drop mt.stop).drop mt2.start from hin)
            rw [hdrop] at this
            exact List.mem_of_mem_drop this
          rw [h.after c hin] at hd
          cases hd
        · rw [hdrop] at h1 hle2
          have := Re.search_needs hk (by decide +kernel) (text := S.drop e) (fun k hkk hocc => h.clock k hkk ?_) (by simp)
          · rw [hlowS] at this
            exact Re.search_none this _ hle2 _ (.seq h1 (.seq h2 h3))
          · rw [hlowS] at hocc
            have hkw : (clockKeys.all fun k => k.word.head?.any isWordB) = true := by decide
            have hkw := List.all_eq_true.1 hkw k hkk
            have hS : Occurs k.atStart k.word k.atEnd S := by
              by_cases he : e = 1
              · have h32 := e2.1 he
                rw [he] at hocc
                cases S with
                | nil => cases h32
                | cons c S' =>
                  cases h32
                  obtain ⟨x, y, hx, h5, h6⟩ := hocc
                  refine ⟨32 :: x, y, by simpa using hx, fun ha c hc => ?_, h6⟩
                  cases x with
                  | nil =>
                    obtain rfl : 32 = c := by simpa using hc
                    unfold WordChar
                    omega
                  | cons a x => rw [List.getLast?_cons_cons] at hc; exact h5 ha c hc
              · have : e = 0 := by omega
                rwa [this] at hocc
            have := occurs_drop (P ++ (D ++ (t.text ++ sfx))) hkw h.apart hS
            simpa using this

/-! ## The other parsers -/

/-- What stands before a digit. -/
theorem before_digit {P H R : Text} (hP : ∀ c ∈ P, isDigitB c = false) (hH : ∀ c ∈ H, isDigitB c = true ∨ c = 58) (hR : ∀ c ∈ R, isDigitB c = false)
    {A B : Text} {x c : Nat} (h : P ++ (H ++ R) = A ++ x :: c :: B) (hc : isDigitB c = true) : A ++ [x] = P ∨ isDigitB x = true ∨ x = 58 := by
  have hd : (P ++ (H ++ R)).drop (A.length + 1) = c :: B := by rw [h, ← List.drop_drop, List.drop_left]; rfl
  obtain ⟨h1, h2⟩ := digit_at hP hR hd hc
  rcases Nat.lt_or_ge P.length (A.length + 1) with hlt | hge
  · right
    have hm : (P ++ (H ++ R))[A.length]? = some x := by rw [h]; simp
    rw [List.getElem?_append_right (by omega), List.getElem?_append_left (by omega)] at hm
    exact hH x (List.mem_of_getElem? hm)
  · left
    have : (P ++ (H ++ R)).take P.length = (A ++ x :: c :: B).take P.length := by rw [h]
    rw [List.take_left, show P.length = (A ++ [x]).length by simp; omega, show A ++ x :: c :: B = (A ++ [x]) ++ c :: B by simp, List.take_left] at this
    exact this.symm

theorem middleEndian_days : ∃ a w m g d r ws, Ast.middleEndian = .seq (.cap 1 a) (.seq w (.seq (.cap 3 m) (.seq g (.seq (.cap 4 d) r)))) ∧
    m.words = some ws ∧ (ws.all fun w => (List.range 13).any fun n => monthWord w n) = true ∧ g.allB gapB = true ∧ ordinalsOr d = true ∧
    ∃ x y, leftAlt d = .seq x y ∧ x.allB isDigitB = true ∧ 1 ≤ x.minLen :=
  ⟨_, _, _, _, _, _, _, rfl, rfl, by decide +kernel, by decide +kernel, by decide +kernel, _, _, rfl, by decide +kernel, by decide +kernel⟩

theorem month_last : ∀ m ≤ 12, ∀ w, monthWord w m = true → ∃ c, w.getLast? = some c ∧ isDigitB c = false ∧ c ≠ 58 := by
  have key : ∀ m ≤ 12, ∀ w ∈ (let name := monthNames.getD (m - 1) []; [name, name.take 3, name.take 3 ++ txt!".", name.take 4, name.take 4 ++ txt!"."]),
      w.getLast?.any (fun c => !isDigitB c && c != 58) = true := by decide
  intro m hm w hw
  have := key m hm w (by
    unfold monthWord at hw
    simp only [Bool.and_eq_true, Bool.or_eq_true, beq_iff_eq] at hw
    simp only [List.mem_cons, List.not_mem_nil, or_false]
    rcases hw.2 with ((h | h) | h) | ⟨-, h | h⟩
    · exact .inl h
    · exact .inr (.inl h)
    · exact .inr (.inr (.inl h))
    · exact .inr (.inr (.inr (.inl h)))
    · exact .inr (.inr (.inr (.inr h))))
  cases hl : w.getLast? with
  | none => rw [hl] at this; cases this
  | some c =>
    rw [hl] at this
    simp at this
    exact ⟨c, rfl, this⟩

theorem middleEndian_clock {text P H R : Text} (hP : ∀ c ∈ P, isDigitB c = false) (hH : ∀ c ∈ H, isDigitB c = true ∨ c = 58) (hR : ∀ c ∈ R, isDigitB c = false)
    (hT : toLower text = P ++ (H ++ R)) (hPl : toLower P = P)
    (h : ∀ w m gap o d, monthWord w m = true → Gap gap → 1 ≤ d → d ≤ 31 → words o = ordinalName d → ¬ w ++ gap ++ o <:+: toLower text) (hm : ¬ EndsWithMonth P) :
    Ast.middleEndian.search (toLower text) = none := by
  cases hs : Ast.middleEndian.search (toLower text) with
  | none => rfl
  | some mt =>
    exfalso
    obtain ⟨hsub, hle, ⟨s', -, -, -, hrel⟩, -⟩ := Re.search_some hs
    obtain ⟨a, w, m, g, d, r, ws, he, hmw, hws, hg, hord, dx, dy, hdl, hda, hdm⟩ := middleEndian_days
    rw [he] at hrel
    simp only [rel_seq] at hrel
    obtain ⟨s1, h1, s2, h2, s3, h3, s4, h4, s5, h5, h6⟩ := hrel
    obtain ⟨s6, h5', rfl⟩ := rel_cap.1 h5
    obtain ⟨u1, c1⟩ := h1.consumed
    obtain ⟨u2, c2⟩ := h2.consumed
    obtain ⟨u3, c3⟩ := h3.consumed
    obtain ⟨u4, c4⟩ := h4.consumed
    obtain ⟨u5, c5⟩ := h5'.consumed
    have e := ((((c1.trans c2).trans c3).trans c4).trans c5).rest
    have htext : toLower text = (toLower text).take mt.start ++ u1 ++ u2 ++ u3 ++ u4 ++ u5 ++ s6.rest := by
      have e' : (toLower text).drop mt.start = _ := e
      calc toLower text = (toLower text).take mt.start ++ (toLower text).drop mt.start := (List.take_append_drop _ _).symm
        _ = _ := by rw [e']; simp only [List.append_assoc]
    have i3 : u3 <:+: toLower text := ⟨(toLower text).take mt.start ++ u1 ++ u2, u4 ++ u5 ++ s6.rest, by rw [← List.append_assoc, ← List.append_assoc]; exact htext.symm⟩
    have i5 : u5 <:+: toLower text := ⟨_, _, htext.symm⟩
    have hmem := (lang_cap (show Lang (.cap 3 m) u3 from ⟨_, _, h3, c3⟩)).words _ hmw
    rw [lower_of_infix i3] at hmem
    obtain ⟨n, hnr, hn⟩ := List.any_eq_true.1 (List.all_eq_true.1 hws _ hmem)
    have hgap : Gap u4 := gap_of ⟨_, _, h4, c4⟩ hg
    rcases ordinals_rel hord h5' with hl | hw
    · rw [hdl] at hl
      obtain ⟨s7, h7, h8⟩ := rel_seq.1 hl
      obtain ⟨u7, c7⟩ := h7.consumed
      obtain ⟨u8, c8⟩ := h8.consumed
      obtain ⟨d1, d2⟩ := isDigits_of (show Lang dx u7 from ⟨_, _, h7, c7⟩) hda hdm
      have e5 : u5 = u7 ++ u8 := c5.word_eq (c7.trans c8)
      cases u7 with
      | nil => exact d1 rfl
      | cons c u7 =>
        have hdc : isDigitB c = true := by unfold isDigitB; simpa using d2 c (by simp)
        have hne : u3 ++ u4 ≠ [] := by
          obtain ⟨c', hc', -⟩ := month_last n (by simpa [Nat.lt_succ_iff] using List.mem_range.1 hnr) u3 hn
          intro h0
          rw [(List.append_eq_nil_iff.1 h0).1] at hc'
          cases hc'
        obtain ⟨A, x, hA⟩ : ∃ A x, u3 ++ u4 = A ++ [x] := by
          rcases List.eq_nil_or_concat (u3 ++ u4) with h0 | ⟨A, x, h0⟩
          · exact absurd h0 hne
          · exact ⟨A, x, by simpa using h0⟩
        rcases before_digit hP hH hR (A := (toLower text).take mt.start ++ u1 ++ u2 ++ A) (x := x) (c := c) (B := u7 ++ u8 ++ s6.rest) (by
          rw [← hT]
          refine htext.trans ?_
          rw [List.append_assoc _ u3 u4, hA, e5]
          simp) hdc with hx | hx
        · refine hm ⟨(toLower text).take mt.start ++ u1 ++ u2, u3, n, u4, hn, hgap, ?_⟩
          rw [hPl, ← hx, List.append_assoc _ u3 u4, hA]
          simp
        · have : x ∈ u4 ∨ u3.getLast? = some x := by
            have hl := congrArg List.getLast? hA
            rw [List.getLast?_concat, List.getLast?_append] at hl
            cases h4 : u4.getLast? with
            | none => rw [h4] at hl; exact .inr (by simpa using hl)
            | some y =>
              rw [h4] at hl
              simp at hl
              exact .inl (hl ▸ List.mem_of_getLast? h4)
          rcases this with h0 | h0
          · have := hgap x h0
            unfold Blank at this
            unfold isDigitB at hx
            simp at hx
            omega
          · obtain ⟨c', hc', k1, k2⟩ := month_last n (by simpa [Nat.lt_succ_iff] using List.mem_range.1 hnr) u3 hn
            rw [h0] at hc'
            cases hc'
            rcases hx with hx | hx
            · rw [hx] at k1; cases k1
            · exact k2 hx
    · obtain ⟨k, k1, k2, ho⟩ := hw u5 c5 (lower_of_infix i5)
      refine h u3 n u4 u5 k hn hgap k1 k2 ho ⟨(toLower text).take mt.start ++ u1 ++ u2, s6.rest, ?_⟩
      rw [← List.append_assoc, ← List.append_assoc]
      exact htext.symm

theorem iso_clock {text P H R : Text} (hP : ∀ c ∈ P, isDigitB c = false) (hH : ∀ c ∈ H, isDigitB c = true ∨ c = 58) (hR : ∀ c ∈ R, isDigitB c = false)
    (hT : toLower text = P ++ (H ++ R)) (hlead : ∀ c, P.getLast? = some c → Blank c) : Ast.iso.search (toLower text) = none := by
  cases hs : Ast.iso.search (toLower text) with
  | none => rfl
  | some mt =>
    exfalso
    obtain ⟨cs, hcl, -⟩ := Re.search_cl hs
    have h0 : mt.str 0 <:+: toLower text := str_infix hs 0
    obtain ⟨a, y, d, m, r, he, h1, h2, h3⟩ := iso_shape
    rw [he] at hcl
    obtain ⟨w1, v1, e0, -, l1⟩ := lang_seq hcl.lang
    obtain ⟨w2, v2, rfl, -, l2⟩ := lang_seq l1
    obtain ⟨w3, v3, rfl, k3, l3⟩ := lang_seq l2
    obtain ⟨w4, v4, rfl, k4, -⟩ := lang_seq l3
    rw [e0] at h0
    have hw3 := k3.words _ h1
    rw [lower_of_infix (t := text) (List.IsInfix.trans ⟨w1 ++ w2, w4 ++ v4, by simp⟩ h0), List.mem_singleton] at hw3
    obtain ⟨d1, d2⟩ := isDigits_of (lang_cap k4) h2 h3
    cases w4 with
    | nil => exact d1 rfl
    | cons c w4 =>
      obtain ⟨A, B, hAB⟩ := h0
      rw [hT] at hAB
      rcases before_digit hP hH hR (A := A ++ w1 ++ w2) (x := 45) (c := c) (B := w4 ++ v4 ++ B) (by rw [← hAB, hw3]; simp) (by
        unfold isDigitB; simpa using d2 c (by simp)) with h | h | h
      · have := hlead 45 (by rw [← h]; simp)
        unfold Blank at this
        omega
      · cases h
      · cases h

/-! ## The answer -/

/-- As `run_near`, for a mention that may be a clock time: no time zone follows it. -/
theorem run_alone {rt : Rt} (hrt : Rt.Defined rt) {sort : List PResult → List PResult} (hs : Sorts sort) {text : Text}
    (hlen : text.length < 4294967296) {ref : PTime} {r : PResult} (hr : ∃ P ∈ mainParsers, ∃ rs, ParserReturns rt ref text P rs ∧ r ∈ rs)
    (hall : ∀ P ∈ mainParsers, ∃ rs, ParserReturns rt ref text P rs ∧ ∀ x ∈ rs, x = r ∨ (Overlap x r ∧ x.textLength < r.textLength))
    (hz : ∀ abbr off, ¬ FollowedByZone (toLower text) r abbr off) : mainRun rt sort text ref = (do let d ← r.toDate; return foundLine ++ d) := by
  obtain ⟨rss, h4⟩ := forall₂_of_forall (fun P hP => (hall P hP).imp fun _ h => h.1)
  obtain ⟨g, hg⟩ := runParsers_main.2 ⟨rss, h4, rfl⟩
  obtain ⟨hp, hso⟩ := hs rss.flatten
  have hne := returned_nonEmpty hrt.stale hrt.stops hlen h4
  have ma := (mem_flatten_of_returns h4).2 hr
  rw [mainRun_eq hg]
  refine refine_single (overlapRefine_near hso (hp.mem_iff.2 ma) (hne r ma).1 fun x hx => ?_) (fun a o _ => hz a o)
  obtain ⟨P, hP, rs, h1, h2⟩ := (mem_flatten_of_returns h4).1 (hp.mem_iff.1 hx)
  obtain ⟨rs', h3, h5⟩ := hall P hP
  rw [parserReturns_unique h1 h3] at h2
  exact h5 x h2

theorem half_hour {sfx g6 : Text} {ap : Option Bool} (h : HalfText sfx ap g6) {n : Nat} (h12 : sfx ≠ [] → n ≤ 12) :
    g6 = [] ∧ hour24 n ap = n ∨ g6 ≠ [] ∧ n ≤ 12 ∧ meridiem (firstChar g6) n = ((hour24 n ap : Nat) : Int) := by
  cases h with
  | none h1 h2 => exact .inl ⟨rfl, by rw [h2]; rfl⟩
  | @some b w hw e =>
    have h12 : n ≤ 12 := h12 (by
      have key : ∀ w ∈ halves, w.1 ≠ [] := by decide
      have := key _ hw
      rw [e]
      simp [this])
    have m0 : ∀ c, c ≠ 97 → c ≠ 112 → meridiem c (n : Int) = n := by
      intro c h1 h2; unfold meridiem; rw [if_neg h1, if_neg h2]
    have m1 : meridiem 97 (n : Int) = ((n % 12 : Nat) : Int) := by
      unfold meridiem; rw [if_pos rfl]; split <;> omega
    have m2 : meridiem 112 (n : Int) = ((n % 12 + 12 : Nat) : Int) := by
      unfold meridiem; rw [if_neg (by decide), if_pos rfl]; split <;> omega
    right
    simp only [halves, List.mem_cons, List.not_mem_nil, or_false, Prod.mk.injEq] at hw
    rcases hw with ⟨rfl, rfl⟩ | ⟨rfl, rfl⟩ | ⟨rfl, rfl⟩ | ⟨rfl, rfl⟩ | ⟨rfl, rfl⟩
    · exact ⟨by simp, h12, m1⟩
    · exact ⟨by simp, h12, m1⟩
    · exact ⟨by simp, h12, m2⟩
    · exact ⟨by simp, h12, m2⟩
    · exact ⟨by simp, h12, m0 111 (by decide) (by decide)⟩

theorem written_last {D S sfx : Text} {t : Tail} {ap : Option Bool} (hne : D ≠ []) (hD : ∀ c ∈ D, isDigitB c = true) (hw : HalfWritten sfx ap S) :
    ∃ A c, D ++ (t.text ++ sfx) = A ++ [c] ∧ ¬ Blank c ∧ c ≠ 40 := by
  have num : ∀ X : Text, X ≠ [] → (∀ c ∈ X, isDigitB c = true ∨ c = 58) → ∃ A c, X = A ++ [c] ∧ ¬ Blank c ∧ c ≠ 40 := by
    intro X hX h
    rcases List.eq_nil_or_concat X with h0 | ⟨A, c, h0⟩
    · exact absurd h0 hX
    · refine ⟨A, c, by simpa using h0, ?_⟩
      have := h c (by rw [h0]; simp)
      unfold isDigitB at this
      unfold Blank
      simp at this
      omega
  rcases hw with ⟨rfl, -⟩ | ⟨b, w, hb, hw, rfl⟩
  · refine num _ (by simp [hne]) fun c hc => ?_
    rw [List.append_nil] at hc
    rcases List.mem_append.1 hc with hc | hc
    · exact .inl (hD c hc)
    · exact tail_chars hc
  · have key : ∀ w ∈ halves, ∃ A c, w.1 = A ++ [c] ∧ ¬ Blank c ∧ c ≠ 40 := by
      intro w hw
      simp only [halves, List.mem_cons, List.not_mem_nil, or_false] at hw
      rcases hw with rfl | rfl | rfl | rfl | rfl
      · exact ⟨txt!"a", 109, rfl, by decide⟩
      · exact ⟨txt!"a.m", 46, rfl, by decide⟩
      · exact ⟨txt!"p", 109, rfl, by decide⟩
      · exact ⟨txt!"p.m", 46, rfl, by decide⟩
      · exact ⟨txt!"o'cloc", 107, rfl, by decide⟩
    obtain ⟨A, c, e, h⟩ := key _ hw
    simp only at e
    exact ⟨D ++ (t.text ++ (b ++ A)), c, by rw [e]; simp, h⟩

/-- The digits of the minutes. -/
def tailMinutes : Tail → Text
  | .none => []
  | .minutes mi => two mi
  | .seconds mi _ => two mi

/-- The mention of a time in a text, whose hour is written with the digits `D`. -/
theorem clock_mention {rt : Rt} (hrt : Rt.Defined rt) {ref : PTime} {x : DateTime} (hx : RefReads ref x)
    {p v s D sfx : Text} {t : Tail} {ap : Option Bool} {h mi : Nat} {H : Int} (hv : toLower v = D ++ (t.text ++ sfx)) (hne : D ≠ []) (hD : ∀ c ∈ D, isDigitB c = true) (h4 : D.length ≤ 4)
    (hH : hourOf D = .ok H) (hM : minuteOf H (tailMinutes t) = .ok ((h : Int), (mi : Int)))
    (hh : h < 24) (h12 : sfx ≠ [] → h ≤ 12) (hmi : mi < 60) (hsec : t.second < 60) (hsf : HalfWritten sfx ap s)
    (hlead : ∀ c, p.getLast? = some c → Blank c) (hend : ∀ c, s.head? = some c → ¬ WordChar c) (hp : NoDigits p) (hd : NoDigits s)
    (hb : ∀ c ∈ s, c < 256) (hclk : ∀ k ∈ clockKeys, ¬ Occurs k.atStart k.word k.atEnd (toLower (p ++ v ++ s)))
    (hz : ¬ OnlyAZone s)
    (hlen : (p ++ v ++ s).length < 4294967296) :
    ∃ r e, ParserReturns rt ref (p ++ v ++ s) timeExprParser [r] ∧ DateIs r.startDate x.date ∧ TimeIs r.startDate (hour24 h ap) mi t.second ∧ r.hasEnd = false ∧ r.startDate.certain .hour = true ∧
      isTimeOnly r = true ∧ r.getTag .extractTZ = false ∧ e ≤ 1 ∧ (e = 1 → s.head? = some 32) ∧ stop r ≤ (p ++ v).length + e ∧ (p ++ v).length + e ≤ stop r + 1 ∧
      (∃ mt, Ast.timeExpr.search (toLower (p ++ v ++ s)) = some mt ∧ r.index = mt.start ∧ mt.start ≤ p.length) ∧ ∀ abbr off, ¬ FollowedByZone (toLower (p ++ v ++ s)) r abbr off := by
  have hlow : toLower (p ++ v ++ s) = toLower p ++ (D ++ (t.text ++ (sfx ++ toLower s))) := by
    rw [toLower_append, toLower_append, hv]; simp
  have hP := lower_noDigits hp
  have hS := lower_noDigits hd
  have hleadl : ∀ c, (toLower p).getLast? = some c → Blank c := by
    intro c hc
    unfold toLower at hc
    rw [List.getLast?_map] at hc
    obtain ⟨z, hz', rfl⟩ := Option.map_eq_some_iff.1 hc
    have := hlead z hz'
    unfold Blank at this
    unfold lowerB
    rw [if_neg (by omega)]
    exact this
  have hendl : ∀ c, (toLower s).head? = some c → ¬ WordChar c := by
    intro c hc
    unfold toLower at hc
    rw [List.head?_map] at hc
    obtain ⟨z, hz', rfl⟩ := Option.map_eq_some_iff.1 hc
    rw [wordChar_lower]
    exact hend z hz'
  have hsfl : HalfWritten sfx ap (toLower s) := by
    rcases hsf with ⟨a, b, c⟩ | h
    · exact .inl ⟨a, b, by unfold SaysHalf at c ⊢; rwa [toLower_toLower]⟩
    · exact .inr h
  have hca : ClockAt (toLower p) D t sfx ap (toLower s) :=
    { before := hP, after := hS, lower := toLower_toLower s, nonempty := hne, digits := hD, short := h4, half := hsfl, apart := hendl, lead := hleadl
      bytes := fun c hc => by
        unfold toLower at hc
        obtain ⟨z, hz', rfl⟩ := List.mem_map.1 hc
        have := hb z hz'
        unfold lowerB
        split <;> omega
      clock := by rw [← hlow]; exact hclk
      whole := by rw [← hlow, toLower_toLower] }
  obtain ⟨mt, e, hsr, e1, e2, l1, l2, hstop, g2, g3, g4, g6, g7, hn⟩ := clock_in_text hca hlow
  have hok := Re.search_ok hsr
  have hle := hok.le
  have hlenl : (toLower (p ++ v ++ s)).length = (p ++ v ++ s).length := by simp [toLower]
  have hl0 := hok.len
  have hDl : 1 ≤ D.length := List.length_pos_of_ne_nil hne
  have hT : (toLower (p ++ v ++ s)).length = (toLower p).length + (D.length + (t.text.length + (sfx.length + (toLower s).length))) := by
    rw [hlow]; simp
  have es : e ≤ (toLower s).length := by
    rcases Nat.lt_or_ge e 1 with h | h
    · omega
    · have := e2.1 (by omega)
      cases hs' : toLower s with
      | nil => rw [hs'] at this; cases this
      | cons a b => simp; omega
  have hpre : precededByWord mt (toLower (p ++ v ++ s)) = .ok false := by
    rcases Nat.eq_zero_or_pos mt.start with h0 | h0
    · unfold precededByWord Match.position; rw [if_neg (by omega)]; rfl
    · exact precededByWord_inside h0 (by omega)
  have hsub : substr (mt.str 0) (mt.lengthOf 1) = .ok ((mt.str 0).drop (mt.lengthOf 1)) := by
    unfold substr
    rw [if_pos (by rw [← hl0]; unfold Match.length; omega)]
  obtain ⟨res, r0, r1, r2, r3, r4, r5, r6, r7, r8, r9⟩ := clock_extract_at (rt := rt) (g := integerWords) (tx := toLower (p ++ v ++ s)) (idx := mt.start)
    (h := h) (mi := mi) (s := t.second) (k := hour24 h ap) hx hpre hsub (by rw [g2]; exact hH) (by rw [g3]; cases t <;> exact hM)
    (by rw [g4]; cases t with
      | none => exact .inl ⟨rfl, rfl⟩
      | minutes mi => exact .inl ⟨rfl, rfl⟩
      | seconds mi s => exact .inr ⟨two_ne _, stoi_two (by simp [Tail.second] at hsec; omega)⟩)
    (by omega) hmi hsec (half_hour g6 h12) g7
  have hdates : res.hasPossibleDates = true := by
    refine hasPossibleDates_of_year ?_
    rw [r3.1]
    have := hx.valid.1.1
    simp only [DateTime.date]
    omega
  have hret : ParserReturns rt ref (p ++ v ++ s) timeExprParser [res.copy] :=
    ⟨_, execute_one hrt.stale timeExpr_pattern timeExpr_min hsr (pureExtract_ok r0) hdates hn⟩
  have hx7 : res.copy.getTag .extractTZ = false := by
    have := (keeps_timeExpr (rt := rt) (g := integerWords) (tx := toLower (p ++ v ++ s)) (mt := mt) (ref := ref) (idx := mt.start) hrt.stops).of_ok r0
    rcases this.2.2 .extractTZ with h | h
    · show (res.tags .extractTZ).getD false = false
      rw [h]; rfl
    · exact absurd h.1 (by decide)
  have hstopr : stop res.copy = (toLower p ++ (D ++ (t.text ++ sfx))).length + e - mt.lengthOf 1 := by
    unfold stop PResult.textLength
    rw [copy_index, copy_text, r1, r2, List.length_drop, ← hl0]
    unfold PResult.toU32 Match.length
    simp only [List.length_append]
    omega
  have hcut : toLower (p ++ v ++ s) = (toLower p ++ (D ++ (t.text ++ sfx))) ++ toLower s := by rw [hlow]; simp
  have hzone : ∀ abbr off, ¬ FollowedByZone (toLower (p ++ v ++ s)) res.copy abbr off := by
    rintro abbr off ⟨-, z2, z3⟩
    rw [hstopr, hcut] at z2
    obtain ⟨A, c, hA, hc1, hc2⟩ := written_last (t := t) hne hD hsf
    rw [hA] at z2
    generalize mt.lengthOf 1 = a at z2 l1
    have fin : ∀ k, k = e → ZoneSuffix ((toLower s).drop k) abbr → False := by
      rintro k rfl hzs
      rcases Nat.lt_or_ge k 1 with h0 | h0
      · have : k = 0 := by omega
        subst this
        exact hz ⟨abbr, off, hzs, z3⟩
      · have : k = 1 := by omega
        subst this
        obtain ⟨bl, op, cl, q1, q2, q3⟩ := hzs
        refine hz ⟨abbr, off, ⟨32 :: bl, op, cl, ?_, ?_, q3⟩, z3⟩
        · have hh := e2.1 rfl
          cases hs' : toLower s with
          | nil => rw [hs'] at hh; cases hh
          | cons y ys =>
            rw [hs'] at hh q1
            cases hh
            simp only [List.drop_succ_cons, List.drop_zero] at q1
            rw [q1]; simp
        · intro c hc
          rcases List.mem_cons.1 hc with rfl | hc
          · unfold Blank; decide
          · exact q2 c hc
    rcases Nat.lt_or_ge a 1 with ha | ha
    · have : a = 0 := by omega
      subst this
      refine fin e rfl ?_
      rwa [Nat.sub_zero, ← List.drop_drop, List.drop_left] at z2
    · have : a = 1 := by omega
      subst this
      rcases Nat.lt_or_ge e 1 with he | he
      · have : e = 0 := by omega
        subst this
        obtain ⟨bl, op, cl, q1, q2, q3, q4, q5, q6, q7⟩ := z2
        rw [show (toLower p ++ (A ++ [c])) ++ toLower s = (toLower p ++ A) ++ (c :: toLower s) by simp,
          show (toLower p ++ (A ++ [c])).length + 0 - 1 = (toLower p ++ A).length by simp, List.drop_left] at q1
        have hbl : bl = [] := by
          cases bl with
          | nil => rfl
          | cons y ys =>
            simp only [List.cons_append, List.cons.injEq] at q1
            exact absurd (q2 c (by simp [q1.1])) hc1
        subst hbl
        rcases q3 with rfl | rfl
        · match abbr, q5, q7, q1 with
          | y :: z :: w, _, q7, q1 =>
            simp only [List.nil_append, List.cons_append, List.cons.injEq] at q1
            have := hendl z (by rw [q1.2]; rfl)
            have hl := q7 z (by simp)
            unfold Letter at hl
            unfold WordChar at this
            omega
        · simp only [List.nil_append, List.cons_append, List.cons.injEq] at q1
          exact hc2 q1.1
      · have : e = 1 := by omega
        subst this
        rw [Nat.add_sub_cancel, List.drop_left] at z2
        exact hz ⟨abbr, off, z2, z3⟩
  have hvl : v.length = D.length + (t.text.length + sfx.length) := by
    have := congrArg List.length hv
    simpa [toLower] using this
  have hpl : (toLower p).length = p.length := by simp [toLower]
  refine ⟨res.copy, e, hret, r3, r4, r5, r6, r9, hx7, e1, fun he => ?_, ?_, ?_, ⟨mt, hsr, ?_, ?_⟩, hzone⟩
  · have := e2.1 he
    unfold toLower at this
    rw [List.head?_map] at this
    obtain ⟨c, hc, hc'⟩ := Option.map_eq_some_iff.1 this
    rw [hc]
    unfold lowerB at hc'
    split at hc'
    · omega
    · rw [hc']
  · rw [hstopr]
    simp only [List.length_append]
    omega
  · rw [hstopr]
    simp only [List.length_append]
    omega
  · rw [copy_index, r1]
    unfold PResult.toU32
    omega
  · omega

/-- A time in a text, whose hour is written with the digits `D`. -/
theorem clock_prints_in {rt : Rt} (hrt : Rt.Defined rt) {sort : List PResult → List PResult} (hs : Sorts sort) {ref : PTime} {x : DateTime} (hx : RefReads ref x)
    {p v s D sfx : Text} {t : Tail} {ap : Option Bool} {h mi : Nat} {H : Int} (hv : toLower v = D ++ (t.text ++ sfx)) (hne : D ≠ []) (hD : ∀ c ∈ D, isDigitB c = true) (h4 : D.length ≤ 4)
    (hH : hourOf D = .ok H) (hM : minuteOf H (tailMinutes t) = .ok ((h : Int), (mi : Int)))
    (hh : h < 24) (h12 : sfx ≠ [] → h ≤ 12) (hmi : mi < 60) (hsec : t.second < 60) (hsf : HalfWritten sfx ap s)
    (hlead : ∀ c, p.getLast? = some c → Blank c) (hend : ∀ c, s.head? = some c → ¬ WordChar c) (hp : NoDigits p) (hd : NoDigits s)
    (hb : ∀ c ∈ s, c < 256) (hclk : ∀ k ∈ clockKeys, ¬ Occurs k.atStart k.word k.atEnd (toLower (p ++ v ++ s)))
    (hq : ∀ P ∈ mainParsers, P = timeExprParser ∨ silent P (toLower (p ++ v ++ s)) = true) (hz : ¬ OnlyAZone s)
    (hlen : (p ++ v ++ s).length < 4294967296) :
    mainRun rt sort (p ++ v ++ s) ref = .ok (foundLine ++ (DateTime.mk x.year x.month x.day (hour24 h ap) mi t.second).format) := by
  obtain ⟨r, e, hret, r3, r4, r5, -, -, hx7, -, -, -, -, -, hzone⟩ := clock_mention hrt hx hv hne hD h4 hH hM hh h12 hmi hsec hsf hlead hend hp hd hb hclk hz hlen
  have h24 : hour24 h ap < 24 := by
    unfold hour24
    rcases ap with _ | _ | _ <;> simp <;> omega
  rw [run_alone hrt hs hlen (r := r) ⟨timeExprParser, by simp [mainParsers], _, hret, by simp⟩ ?_ hzone]
  · have hv := hx.valid
    rw [c08_toDate_prints_start r ⟨x.year, x.month, x.day, hour24 h ap, mi, t.second⟩ ⟨hv.1, h24, hmi, hsec⟩
      ⟨r3.1, r3.2.1, r3.2.2, r4.1, r4.2.1, r4.2.2⟩ r5 hx7]
    rfl
  · intro P hPm
    rcases hq P hPm with rfl | hq
    · exact ⟨_, hret, fun y hy => .inl (by simpa using hy)⟩
    · exact ⟨[], silent_returns hq, by simp⟩

/-- The same, for a text without months before the time. -/
theorem clock_prints {rt : Rt} (hrt : Rt.Defined rt) {sort : List PResult → List PResult} (hs : Sorts sort) {ref : PTime} {x : DateTime} (hx : RefReads ref x)
    {p v s D sfx : Text} {t : Tail} {ap : Option Bool} {h mi : Nat} {H : Int} (hv : toLower v = D ++ (t.text ++ sfx)) (hne : D ≠ []) (hD : ∀ c ∈ D, isDigitB c = true) (h4 : D.length ≤ 4)
    (hH : hourOf D = .ok H) (hM : minuteOf H (tailMinutes t) = .ok ((h : Int), (mi : Int)))
    (hh : h < 24) (h12 : sfx ≠ [] → h ≤ 12) (hmi : mi < 60) (hsec : t.second < 60) (hsf : HalfWritten sfx ap s)
    (hlead : ∀ c, p.getLast? = some c → Blank c) (hend : ∀ c, s.head? = some c → ¬ WordChar c) (hp : NoDigits p) (hd : NoDigits s)
    (hb : ∀ c ∈ s, c < 256) (hw : FewDateWords [] (p ++ v ++ s)) (hm : ¬ EndsWithMonth p) (hz : ¬ OnlyAZone s)
    (hlen : (p ++ v ++ s).length < 4294967296) :
    mainRun rt sort (p ++ v ++ s) ref = .ok (foundLine ++ (DateTime.mk x.year x.month x.day (hour24 h ap) mi t.second).format) := by
  have hlow : toLower (p ++ v ++ s) = toLower p ++ (D ++ (t.text ++ (sfx ++ toLower s))) := by
    rw [toLower_append, toLower_append, hv]; simp
  have hlow' : toLower (p ++ v ++ s) = toLower p ++ ((D ++ t.text) ++ (sfx ++ toLower s)) := by rw [hlow]; simp
  have hP := lower_noDigits hp
  have hS := lower_noDigits hd
  have hclk : ∀ k ∈ clockKeys, ¬ Occurs k.atStart k.word k.atEnd (toLower (p ++ v ++ s)) := by
    intro k hk
    obtain ⟨w, hw', hk⟩ : ∃ w ∈ clockWords, k ∈ clockKeysOf w := by
      rcases List.mem_append.1 hk with hk | hk
      · exact ⟨_, by simp [clockWords], hk⟩
      · exact ⟨_, by simp [clockWords], hk⟩
    obtain ⟨c1, c2, c3⟩ := hw.clock w hw'
    simp only [clockKeysOf, List.mem_cons, List.not_mem_nil, or_false] at hk
    rcases hk with rfl | rfl | rfl
    · exact c1
    · exact not_infix c2
    · exact not_infix c3
  have hleadl : ∀ c, (toLower p).getLast? = some c → Blank c := by
    intro c hc
    unfold toLower at hc
    rw [List.getLast?_map] at hc
    obtain ⟨z, hz', rfl⟩ := Option.map_eq_some_iff.1 hc
    have := hlead z hz'
    unfold Blank at this
    unfold lowerB
    rw [if_neg (by omega)]
    exact this
  have hsfl : HalfWritten sfx ap (toLower s) := by
    rcases hsf with ⟨a, b, c⟩ | h
    · exact .inl ⟨a, b, by unfold SaysHalf at c ⊢; rwa [toLower_toLower]⟩
    · exact .inr h
  have hR := half_head hsfl hS
  have hHc : ∀ c ∈ D ++ t.text, isDigitB c = true ∨ c = 58 := by
    intro c hc
    rcases List.mem_append.1 hc with hc | hc
    · exact .inl (hD c hc)
    · exact tail_chars hc
  have quiet : ∀ {P : Parser} {r : Re}, P.pattern = some r → r.search (toLower (p ++ v ++ s)) = none → silent P (toLower (p ++ v ++ s)) = true := by
    intro P r hr hn
    unfold silent
    rw [hr]
    simp only [hn, Option.isNone_none]
  have hwd := no_wordy hw (by simp)
  have e6 := Re.search_needs_glued monthName_glued (by decide +kernel) (text := p ++ v ++ s) (by
    intro k hk
    rcases List.mem_append.1 hk with hk | hk
    · exact not_whole (fun w hw' => hw.months w hw' (by simp)) k hk
    · rw [List.mem_singleton] at hk; subst hk; exact no_backslash hw.backslash) (by
    intro a x' d' b h h1 h2
    rw [hlow'] at h
    by_contra hc
    have hc : isDigitB d' = true := by simpa using hc
    rcases before_digit hP hHc hR h hc with h3 | h3 | h3
    · have := blank_notWord (hleadl x' (by rw [← h3]; simp))
      exact this (wordChar_iff.2 h1)
    · rw [h2] at h3; cases h3
    · rw [h3] at h1; revert h1; decide)
  have e4 := middleEndian_clock hP hHc hR hlow' (toLower_toLower p) hw.dates (by
    rintro ⟨a, w, m, gap, k1, k2, k3⟩
    rw [toLower_toLower] at k3
    exact hm ⟨a, w, m, gap, k1, k2, k3⟩)
  have e9 := iso_clock hP hHc hR hlow' hleadl
  refine clock_prints_in hrt hs hx hv hne hD h4 hH hM hh h12 hmi hsec hsf hlead hend hp hd hb hclk (fun P hPm => ?_) hz hlen
  simp only [mainParsers, List.mem_cons, List.not_mem_nil, or_false] at hPm
  rcases hPm with rfl | rfl | rfl | rfl | rfl | rfl | rfl | rfl | rfl | rfl | rfl | rfl
  · exact .inr (quiet casualTime_pattern (no_casualTime hw (by simp)))
  · exact .inr (quiet deadline_pattern (hwd _ (by simp)))
  · exact .inr (by unfold silent; rw [dayOfWeek_pattern])
  · exact .inr (quiet casualDate_pattern (no_casualDate hw (by simp)))
  · exact .inr (quiet middleEndian_pattern e4)
  · exact .inr (quiet timeLater_pattern (hwd _ (by simp)))
  · exact .inr (quiet monthName_pattern e6)
  · exact .inr (quiet timeAgo_pattern (hwd _ (by simp)))
  · exact .inl rfl
  · exact .inr (quiet iso_pattern e9)
  · exact .inr (quiet holiday_pattern (hwd _ (by simp)))
  · exact .inr (quiet week_pattern (hwd _ (by simp)))

/-- **C85.** A clock time with the hour, perhaps the minutes, perhaps the seconds (`9`, `09:30`, `17:30:15`), and perhaps am, pm or o'clock (with any blanks before it),
in any letter case, in any text: if a blank (or nothing) stands before it and no letter, digit or `_` after it, if there are no other digits, none of the program's words
for dates and times, no name of a month right before it and not just a time zone after it, then what the program prints is that time on the day of the reference time. -/
theorem c85_clock_time_in_any_text (rt : Rt) (hrt : Rt.Defined rt) (sort : List PResult → List PResult) (hs : Sorts sort) (ref : PTime) (x : DateTime)
    (hx : RefReads ref x) (short : Bool) (h : Nat) (t : Tail) (sfx : Text) (ap : Option Bool) (p v s : Text) (hv : toLower v = clockText short h t sfx)
    (hh : h < 24) (h9 : short = true → h ≤ 9) (h12 : sfx ≠ [] → h ≤ 12) (hmi : t.minute < 60) (hsec : t.second < 60) (hsf : HalfWritten sfx ap s)
    (hlead : ∀ c, p.getLast? = some c → Blank c) (hend : ∀ c, s.head? = some c → ¬ WordChar c) (hp : NoDigits p) (hd : NoDigits s) (hb : ∀ c ∈ s, c < 256)
    (hw : FewDateWords [] (p ++ v ++ s)) (hm : ¬ EndsWithMonth p) (hz : ¬ OnlyAZone s) (hlen : (p ++ v ++ s).length < 4294967296) :
    mainRun rt sort (p ++ v ++ s) ref = .ok (foundLine ++ (DateTime.mk x.year x.month x.day (hour24 h ap) t.minute t.second).format) := by
  have hbh : h < (if short then 10 else 100) := by
    cases short
    · simp; omega
    · have := h9 rfl; simp; omega
  refine clock_prints hrt hs hx (D := hourText short h) (t := t) (H := (h : Int)) (by rw [hv]; unfold clockText; simp) ?_ ?_ ?_ (hourOf_text hbh) ?_
    hh h12 hmi hsec hsf hlead hend hp hd hb hw hm hz hlen
  · cases short <;> simp [hourText, two]
  · intro c hc
    cases short <;> simp only [hourText, two, Bool.false_eq_true, if_false, if_true, List.mem_cons, List.not_mem_nil, or_false] at hc
    · rcases hc with rfl | rfl <;> exact dig_digit _
    · rw [hc]; exact dig_digit _
  · cases short <;> simp [hourText, two]
  · unfold minuteOf
    cases t with
    | none =>
      simp only [tailMinutes, List.isEmpty_nil, Bool.not_true, Bool.false_eq_true, if_false, Tail.minute]
      rw [if_neg (by omega)]; rfl
    | minutes mi =>
      rw [if_pos (by simp [tailMinutes, two]), show tailMinutes (.minutes mi) = two mi from rfl, stoi_two (by simp [Tail.minute] at hmi; omega)]; rfl
    | seconds mi se =>
      rw [if_pos (by simp [tailMinutes, two]), show tailMinutes (.seconds mi se) = two mi from rfl, stoi_two (by simp [Tail.minute] at hmi; omega)]; rfl

/-- **C85 (no colon).** The same for the hour and the minute in three or four digits (`930`, `1730`), from `101` on. -/
theorem c85_military_time_in_any_text (rt : Rt) (hrt : Rt.Defined rt) (sort : List PResult → List PResult) (hs : Sorts sort) (ref : PTime) (x : DateTime)
    (hx : RefReads ref x) (short : Bool) (h mi : Nat) (sfx : Text) (ap : Option Bool) (p v s : Text) (hv : toLower v = hhmmText short h mi ++ sfx)
    (hh : h < 24) (h9 : short = true → h ≤ 9) (h12 : sfx ≠ [] → h ≤ 12) (hmi : mi < 60) (h100 : 100 < 100 * h + mi) (hsf : HalfWritten sfx ap s)
    (hlead : ∀ c, p.getLast? = some c → Blank c) (hend : ∀ c, s.head? = some c → ¬ WordChar c) (hp : NoDigits p) (hd : NoDigits s) (hb : ∀ c ∈ s, c < 256)
    (hw : FewDateWords [] (p ++ v ++ s)) (hm : ¬ EndsWithMonth p) (hz : ¬ OnlyAZone s) (hlen : (p ++ v ++ s).length < 4294967296) :
    mainRun rt sort (p ++ v ++ s) ref = .ok (foundLine ++ (DateTime.mk x.year x.month x.day (hour24 h ap) mi 0).format) := by
  have hbh : h < (if short then 10 else 100) := by
    cases short
    · simp; omega
    · have := h9 rfl; simp; omega
  refine clock_prints hrt hs hx (D := hhmmText short h mi) (t := .none) (by rw [hv]; simp [Tail.text]) ?_ ?_ ?_ (hourOf_hhmm hbh (by omega)) ?_
    hh h12 hmi (by decide) hsf hlead hend hp hd hb hw hm hz hlen
  · cases short <;> simp [hhmmText, hourText, two]
  · intro c hc
    cases short <;> simp only [hhmmText, hourText, two, Bool.false_eq_true, if_false, if_true, List.mem_cons, List.not_mem_nil, or_false, List.cons_append, List.nil_append] at hc
    · rcases hc with rfl | rfl | rfl | rfl <;> exact dig_digit _
    · rcases hc with rfl | rfl | rfl <;> exact dig_digit _
  · cases short <;> simp [hhmmText, hourText, two]
  · unfold minuteOf
    simp only [tailMinutes, List.isEmpty_nil, Bool.not_true, Bool.false_eq_true, if_false]
    rw [if_pos (by omega)]
    simp only [Out.pure_eq]
    congr 2
    · rw [Int.tdiv_eq_ediv_of_nonneg (by omega)]; omega
    · rw [Int.tmod_eq_emod_of_nonneg (by omega)]; omega

/-! ## The conditions can be met, and are needed -/

def monthWordsList : List Text :=
  (List.range 13).flatMap fun m => let name := monthNames.getD (m - 1) []; [name, name.take 3, name.take 3 ++ txt!".", name.take 4, name.take 4 ++ txt!"."]

def endsWithMonthB (text : Text) : Bool := monthWordsList.any fun w => w.reverse.isPrefixOf ((toLower text).reverse.dropWhile gapB)

theorem endsWithMonthB_sound {text : Text} (h : endsWithMonthB text = false) : ¬ EndsWithMonth text := by
  rintro ⟨a, w, m, gap, hw, hg, e⟩
  unfold endsWithMonthB at h
  have hm : m ≤ 12 := by
    unfold monthWord at hw
    simp only [Bool.and_eq_true, decide_eq_true_eq] at hw
    exact hw.1.2
  have hmem : w ∈ monthWordsList := by
    unfold monthWordsList
    refine List.mem_flatMap.2 ⟨m, List.mem_range.2 (by omega), ?_⟩
    unfold monthWord at hw
    simp only [Bool.and_eq_true, Bool.or_eq_true, beq_iff_eq] at hw
    simp only [List.mem_cons, List.not_mem_nil, or_false]
    rcases hw.2 with ((h | h) | h) | ⟨-, h | h⟩
    · exact .inl h
    · exact .inr (.inl h)
    · exact .inr (.inr (.inl h))
    · exact .inr (.inr (.inr (.inl h)))
    · exact .inr (.inr (.inr (.inr h)))
  have hgb : ∀ w ∈ monthWordsList, w.reverse.dropWhile gapB = w.reverse := by decide +kernel
  have h1 := List.any_eq_false.1 h w hmem
  apply h1
  rw [e, List.reverse_append, List.reverse_append, List.dropWhile_append_of_pos]
  · have hne : ∀ w ∈ monthWordsList, (w.reverse.head?.any fun c => !gapB c) = true := by decide +kernel
    have := hne w hmem
    cases hr : w.reverse with
    | nil => rw [hr] at this; cases this
    | cons c r =>
      rw [hr] at this
      rw [List.cons_append, List.dropWhile_cons_of_neg (by simpa using this), List.isPrefixOf_iff_prefix]
      exact ⟨a.reverse, by simp⟩
  · intro c hc
    have := hg c (List.mem_reverse.1 hc)
    unfold gapB
    unfold Blank at this
    unfold isSpaceB
    simp
    omega

/-- Enough for `¬ SaysHalf`: the text does not go on with a, p or o. -/
def halfB (text : Text) : Bool := ((toLower text).dropWhile isSpaceB).head?.any fun c => c == 97 || c == 112 || c == 111

theorem halfB_sound {text : Text} (h : halfB text = false) : ¬ SaysHalf text := by
  rintro ⟨g, w, r, hg, e, -, hw⟩
  unfold halfB at h
  obtain ⟨c, w', rfl, hc⟩ : ∃ c w', w = c :: w' ∧ (c = 97 ∨ c = 112 ∨ c = 111) := by
    rcases hw with hw | ⟨y, rfl, -⟩
    · simp only [List.mem_cons, List.not_mem_nil, or_false] at hw
      rcases hw with rfl | rfl | rfl | rfl | rfl | rfl | rfl | rfl
      · exact ⟨97, [], rfl, by simp⟩
      · exact ⟨112, [], rfl, by simp⟩
      · exact ⟨97, _, rfl, by simp⟩
      · exact ⟨112, _, rfl, by simp⟩
      · exact ⟨97, _, rfl, by simp⟩
      · exact ⟨112, _, rfl, by simp⟩
      · exact ⟨97, _, rfl, by simp⟩
      · exact ⟨112, _, rfl, by simp⟩
    · exact ⟨111, y ++ txt!"clock", rfl, by simp⟩
  rw [e, List.append_assoc, List.dropWhile_append_of_pos (fun c hc => blank_isSpace (hg c hc))] at h
  rcases hc with rfl | rfl | rfl <;> cases h

/-- Enough for `¬ OnlyAZone`: fewer than 2 or more than 6 characters that are not blanks. -/
def zoneB (text : Text) : Bool := let n := ((toLower text).filter fun c => !isSpaceB c).length; decide (2 ≤ n) && decide (n ≤ 6)

theorem zoneB_sound {text : Text} (h : zoneB text = false) : ¬ OnlyAZone text := by
  rintro ⟨abbr, off, ⟨bl, op, cl, e, hbl, hop, hcl, h2, h4, hab⟩, -⟩
  unfold zoneB at h
  have f1 : (bl.filter fun c => !isSpaceB c) = [] := List.filter_eq_nil_iff.2 fun c hc => by simp [blank_isSpace (hbl c hc)]
  have f2 : (abbr.filter fun c => !isSpaceB c) = abbr := List.filter_eq_self.2 fun c hc => by
    have := hab c hc
    unfold Letter at this
    unfold isSpaceB
    simp
    omega
  rw [e, List.filter_append, List.filter_append, List.filter_append, f1, f2] at h
  have l1 : (op.filter fun c => !isSpaceB c).length ≤ 1 := by rcases hop with rfl | rfl <;> decide
  have l2 : (cl.filter fun c => !isSpaceB c).length ≤ 1 := by rcases hcl with rfl | rfl <;> decide
  simp only [List.length_append, List.length_nil, Bool.and_eq_false_iff, decide_eq_false_iff_not] at h
  omega

def clockSamples : List (Text × Text × Bool × Nat × Tail × Text × Option Bool × Text) :=
  [(txt!"", txt!"9", true, 9, .none, txt!"", none, txt!""),
   (txt!"Let us meet at ", txt!"9:30 PM", true, 9, .minutes 30, txt!" pm", some true, txt!", if you can (or call me)"),
   (txt!"The train of ", txt!"17:30:15", false, 17, .seconds 30 15, txt!"", none, txt!" does not stop here."),
   (txt!"wake me at ", txt!"07 o'Clock", false, 7, .none, txt!" o'clock", none, txt!" sharp, thanks")]

/-- **C85: the conditions are met** in ordinary texts. -/
theorem c85_conditions_are_met : ∀ x ∈ clockSamples, match x with
    | (p, v, short, h, t, sfx, ap, s) => toLower v = clockText short h t sfx ∧ HalfWritten sfx ap s ∧ (∀ c, p.getLast? = some c → Blank c) ∧
        (∀ c, s.head? = some c → ¬ WordChar c) ∧ NoDigits p ∧ NoDigits s ∧ (∀ c ∈ s, c < 256) ∧ FewDateWords [] (p ++ v ++ s) ∧ ¬ EndsWithMonth p ∧ ¬ OnlyAZone s := by
  have hck : ∀ x ∈ clockSamples, match x with
    | (p, v, short, h, t, sfx, ap, s) => toLower v = clockText short h t sfx ∧
        ((sfx == [] && ap == none && !halfB s) || halves.any fun w => w.2 == ap && sfx == 32 :: w.1) = true ∧
        (p.getLast?.all isSpaceB && !s.head?.any isWordB) = true ∧ ((p ++ s).all fun c => !isDigitB c && decide (c < 256)) = true ∧
        ((dateWordChecks (p ++ v ++ s)).drop 1).all id = true ∧ endsWithMonthB p = false ∧ zoneB s = false := by decide +kernel
  rintro ⟨p, v, short, h, t, sfx, ap, s⟩ hx
  obtain ⟨h1, h2, h3, h4, h5, h6, h7⟩ := hck _ hx
  have h4 := List.all_eq_true.1 h4
  rw [Bool.and_eq_true] at h3
  have nd : ∀ c ∈ p ++ s, ¬ (48 ≤ c ∧ c ≤ 57) := fun c hc => by
    have := h4 c hc
    simp only [Bool.and_eq_true, isDigitB, Bool.not_eq_true', decide_eq_true_eq, Bool.and_eq_false_iff, decide_eq_false_iff_not] at this
    omega
  refine ⟨h1, ?_, fun c hc => ?_, fun c hc => ?_, fun c hc => nd c (by simp [hc]), fun c hc => nd c (by simp [hc]), fun c hc => ?_, fewDateWords_of h5,
    endsWithMonthB_sound h6, zoneB_sound h7⟩
  · rw [Bool.or_eq_true] at h2
    rcases h2 with h2 | h2
    · simp only [Bool.and_eq_true, beq_iff_eq, Bool.not_eq_true'] at h2
      exact .inl ⟨h2.1.1, h2.1.2, halfB_sound h2.2⟩
    · obtain ⟨w, hw, h2⟩ := List.any_eq_true.1 h2
      simp only [Bool.and_eq_true, beq_iff_eq] at h2
      exact .inr ⟨[32], w.1, by unfold Blanks Blank; decide, by rw [← h2.1]; exact hw, h2.2⟩
  · rw [hc] at h3
    exact isSpace_blank (by simpa using h3.1)
  · rw [hc] at h3; rw [wordChar_iff]; simpa using h3.2
  · have := h4 c (by simp [hc])
    simp only [Bool.and_eq_true, decide_eq_true_eq] at this
    exact this.2

/-- **C85: the conditions are needed.** With `dog` after it, 9 in the evening (`9 p`) is not the number 9; right before a time zone, right after the name of a month, beside another
number, inside a word and beside a word for a time of day, something else is printed than that time. -/
theorem c85_conditions_are_needed : ∀ x ∈ [(txt!"", txt!" p dog"), (txt!"at ", txt!" EST"), (txt!"on March ", txt!" we leave"), (txt!"", txt!" to 10"), (txt!"", txt!".30"), (txt!"x", txt!""),
      (txt!"noon or ", txt!"")],
    ∃ l, mainRun (Rt.usual 0) sortKeep (x.1 ++ txt!"9" ++ x.2) exampleRef = .ok l ∧ l ≠ foundLine ++ (DateTime.mk 2019 3 15 9 0 0).format := by
  have h : ∀ x ∈ [(txt!"", txt!" p dog"), (txt!"at ", txt!" EST"), (txt!"on March ", txt!" we leave"), (txt!"", txt!" to 10"), (txt!"", txt!".30"), (txt!"x", txt!""),
      (txt!"noon or ", txt!"")],
    (match mainRun (Rt.usual 0) sortKeep (x.1 ++ txt!"9" ++ x.2) exampleRef with
      | .ok l => l != foundLine ++ (DateTime.mk 2019 3 15 9 0 0).format | _ => false) = true := by decide +kernel
  intro x hx
  have := h x hx
  split at this
  · rename_i l hl
    exact ⟨l, hl, by simpa using this⟩
  · cases this

end Chrono.Props
