import Verif.Spec.DateWords
import Verif.Lemmas.Keys
import Verif.Props.P57_OrdinaryWitnesses
/-!
# C81: a text that names no date is answered `Invalid date`
-/
namespace Chrono.Props
open Chrono Chrono.Spec Chrono.Boost

def wholeKeys (l : List Text) : List KeyWord := l.map (⟨true, ·, true⟩)

theorem not_whole {l : List Text} {text : Text} (h : ∀ w ∈ l, ¬ WholeWord w text) : ∀ k ∈ wholeKeys l, ¬ Occurs k.atStart k.word k.atEnd text := by
  intro k hk
  obtain ⟨w, hw, rfl⟩ := List.mem_map.1 hk
  exact h w hw

theorem not_infix {w text : Text} (h : ¬ w <:+: text) : ¬ Occurs false w false text := by
  rintro ⟨a, b, e, -, -⟩
  exact h ⟨a, b, e.symm⟩

theorem no_backslash {text : Text} (h : 92 ∉ text) : ¬ Occurs false [92] false (toLower text) := by
  rintro ⟨a, b, e, -, -⟩
  have : (92 : Nat) ∈ toLower text := by rw [e]; simp
  unfold toLower at this
  obtain ⟨c, hc, hl⟩ := List.mem_map.1 this
  unfold lowerB at hl
  split at hl
  · rename_i hu
    omega
  · exact h (hl ▸ hc)

def casualTimeKeys : List KeyWord := wholeKeys (partsOfDay ++ partsOfDay.map (txt!"this" ++ ·))
def casualDateKeys : List KeyWord := wholeKeys (nearDays ++ [txt!"night", txt!"lastnight"])
def casualDateKeys₂ : List KeyWord := wholeKeys nearDays ++ [⟨true, txt!"last", false⟩]
def monthKeys : List KeyWord := wholeKeys monthForms ++ [⟨false, [92], false⟩]
def weekKeys₁ : List KeyWord := wholeKeys [txt!"last", txt!"next"] ++ [⟨true, txt!"this", false⟩]
def weekKeys₂ : List KeyWord := [⟨false, txt!"week", true⟩, ⟨false, txt!"weeks", true⟩]
def clockKeysOf (w : Text) : List KeyWord := [⟨true, w, false⟩, ⟨false, txt!"t" ++ w, false⟩, ⟨false, txt!"from" ++ w, false⟩]
def clockKeys : List KeyWord := clockKeysOf txt!"noon" ++ clockKeysOf txt!"midnight"
def deadlineKeys : List KeyWord := wholeKeys [txt!"in", txt!"within"]
def unitKeys : List KeyWord := wholeKeys unitWords
def holidayKeys (k : KeyWord) : List KeyWord :=
  wholeKeys holidayWords ++ [⟨false, txt!"year's", false⟩, ⟨false, txt!"luther", false⟩, ⟨false, [92], false⟩, k]
/-- The words of `except` that stand for the phrases of the holiday, week and deadline parsers. -/
def otherKeys : List Text := holidayWords ++ [txt!"week", txt!"in"] ++ monthForms
def backslashKey : List KeyWord := [⟨false, [92], false⟩]

theorem casualTime_needs : Ast.casualTime.has (hits casualTimeKeys false) (hits casualTimeKeys false) [] = true := by decide +kernel
theorem casualDate_needs : Ast.casualDate.has (hits casualDateKeys false) (hits casualDateKeys false) [] = true := by decide +kernel
theorem casualDate_needs₂ : Ast.casualDate.has (hits casualDateKeys₂ false) (hits casualDateKeys₂ false) [] = true := by decide +kernel
theorem monthName_needs : Ast.monthName.has (hits monthKeys true) (hits monthKeys true) [] = true := by decide +kernel
theorem week_needs₁ : Ast.week.has (hits weekKeys₁ false) (hits weekKeys₁ false) [] = true := by decide +kernel
theorem week_needs₂ : Ast.week.has (hits weekKeys₂ false) (hits weekKeys₂ false) [] = true := by decide +kernel
theorem timeExpr_needs : Ast.timeExpr.has (hits clockKeys true) (hits clockKeys true) [] = true := by decide +kernel
theorem iso_needs : Ast.iso.has (hits [] true) (hits [] true) [] = true := by decide +kernel
theorem deadline_needs₁ : Ast.deadline.has (hits deadlineKeys false) (hits deadlineKeys false) [] = true := by decide +kernel
theorem deadline_needs₂ : Ast.deadline.has (hits unitKeys false) (hits unitKeys false) [] = true := by decide +kernel
theorem holiday_needs₁ : Ast.holiday.has (hits (holidayKeys ⟨true, txt!"black", false⟩) false) (hits (holidayKeys ⟨true, txt!"black", false⟩) false) [] = true := by
  decide +kernel
theorem holiday_needs₂ : Ast.holiday.has (hits (holidayKeys ⟨false, txt!"friday", true⟩) false) (hits (holidayKeys ⟨false, txt!"friday", true⟩) false) [] = true := by
  decide +kernel
theorem timeAgo_needs : Ast.timeAgo.has (hits backslashKey false) (hits backslashKey false) [] = true := by decide +kernel
theorem timeLater_needs : Ast.timeLater.has (hits backslashKey false) (hits backslashKey false) [] = true := by decide +kernel

/-- Ordinal words, or digits. -/
def ordinalsOr : Re → Bool
  | .alt a b => ordinalsOr a && (match b.words with
      | none => false
      | some ws => ws.all fun w => decide (1 ≤ argToOrdinalValue w ∧ argToOrdinalValue w ≤ 31))
  | .seq (.cap _ d) _ => d.allB isDigitB && decide (1 ≤ d.minLen)
  | _ => false

theorem ordinalsOr_word {q : Re} (h : ordinalsOr q = true) {u : Text} (hl : Lang q u) (hlow : toLower u = u) :
    (∃ d, 1 ≤ d ∧ d ≤ 31 ∧ words u = ordinalName d) ∨ ∃ c ∈ u, 48 ≤ c ∧ c ≤ 57 := by
  induction q with
  | alt a b ia ib =>
    simp only [ordinalsOr, Bool.and_eq_true] at h
    obtain ⟨ha, hb⟩ := h
    rcases lang_alt hl with hl | hl
    · exact ia ha hl
    · left
      cases hw : b.words with
      | none => rw [hw] at hb; simp at hb
      | some ws =>
        rw [hw] at hb
        have hmem := hl.words ws hw
        rw [hlow] at hmem
        have h2 := List.all_eq_true.1 hb _ hmem
        simp only [decide_eq_true_eq] at h2
        have := (c32_ordinal u _ h2.1 h2.2).1 rfl
        rw [hlow] at this
        exact ⟨_, h2.1, h2.2, this⟩
  | seq a b =>
    right
    obtain ⟨v, w, rfl, hv, -⟩ := lang_seq hl
    cases a with
    | cap n d =>
      simp only [ordinalsOr, Bool.and_eq_true, decide_eq_true_eq] at h
      obtain ⟨h1, h2⟩ := isDigits_of (lang_cap hv) h.1 h.2
      cases v with
      | nil => exact absurd rfl h1
      | cons c v => exact ⟨c, by simp, h2 c (by simp)⟩
    | _ => simp [ordinalsOr] at h
  | _ => simp [ordinalsOr] at h

theorem middleEndian_begin : ∃ a w m g d r ws, Ast.middleEndian = .seq (.cap 1 a) (.seq w (.seq (.cap 3 m) (.seq g (.seq (.cap 4 d) r)))) ∧
    m.words = some ws ∧ (ws.all fun w => (List.range 13).any fun n => monthWord w n) = true ∧ g.allB gapB = true ∧ ordinalsOr d = true :=
  ⟨_, _, _, _, _, _, _, rfl, rfl, by decide +kernel, by decide +kernel, by decide +kernel⟩

/-- In a text without digits, the middle-endian pattern finds only months followed by an ordinal word. -/
theorem middleEndian_none {text : Text} (hd : NoDigits text)
    (h : ∀ w m gap o d, monthWord w m = true → Gap gap → 1 ≤ d → d ≤ 31 → words o = ordinalName d → ¬ w ++ gap ++ o <:+: toLower text) :
    Ast.middleEndian.search (toLower text) = none := by
  cases hs : Ast.middleEndian.search (toLower text) with
  | none => rfl
  | some mt =>
    exfalso
    obtain ⟨cs, hcl, -⟩ := Re.search_cl hs
    have h0 : mt.str 0 <:+: toLower text := str_infix hs 0
    obtain ⟨a, w, m, g, d, r, ws, he, hm, hws, hg, hord⟩ := middleEndian_begin
    have hl := hcl.lang
    rw [he] at hl
    generalize mt.str 0 = W at *
    obtain ⟨w1, v1, rfl, k1, x1⟩ := lang_seq hl
    obtain ⟨w2, v2, rfl, k2, x2⟩ := lang_seq x1
    obtain ⟨w3, v3, rfl, k3, x3⟩ := lang_seq x2
    obtain ⟨w4, v4, rfl, k4, x4⟩ := lang_seq x3
    obtain ⟨w5, v5, rfl, k5, x5⟩ := lang_seq x4
    have i3 : w3 <:+: toLower text := List.IsInfix.trans ⟨w1 ++ w2, w4 ++ (w5 ++ v5), by simp⟩ h0
    have i5 : w5 <:+: toLower text := List.IsInfix.trans ⟨w1 ++ w2 ++ w3 ++ w4, v5, by simp⟩ h0
    have hmem := (lang_cap k3).words _ hm
    rw [lower_of_infix i3] at hmem
    obtain ⟨n, -, hn⟩ := List.any_eq_true.1 (List.all_eq_true.1 hws _ hmem)
    rcases ordinalsOr_word hord (lang_cap k5) (lower_of_infix i5) with ⟨k, k1', k2', ho⟩ | ⟨c, hc, c1, c2⟩
    · exact h w3 n w4 w5 k hn (gap_of k4 hg) k1' k2' ho (List.IsInfix.trans ⟨w1 ++ w2, v5, by simp⟩ h0)
    · have hc' : c ∈ toLower text := i5.mem hc
      unfold toLower at hc'
      obtain ⟨x, hx, hl'⟩ := List.mem_map.1 hc'
      refine hd x hx ?_
      unfold lowerB at hl'
      split at hl'
      · rename_i hu
        omega
      · omega

theorem no_deadline_search {t : Text} (h : NoDeadline (toLower t)) : Ast.deadline.search (toLower t) = none := by
  rcases h with ⟨h1, h2⟩ | h1
  · refine Re.search_needs deadline_needs₁ (by decide +kernel) (not_whole fun w hw => ?_) (by simp)
    simp only [List.mem_cons, List.not_mem_nil, or_false] at hw
    rcases hw with rfl | rfl <;> assumption
  · exact Re.search_needs deadline_needs₂ (by decide +kernel) (not_whole h1) (by simp)

theorem no_week_search {t : Text} (h : NoWeek (toLower t)) : Ast.week.search (toLower t) = none := by
  rcases h with ⟨h1, h2, h3⟩ | ⟨h1, h2⟩
  · refine Re.search_needs week_needs₁ (by decide +kernel) (fun k hk => ?_) (by simp)
    simp only [weekKeys₁, wholeKeys, List.map_cons, List.map_nil, List.cons_append, List.nil_append, List.mem_cons, List.not_mem_nil, or_false] at hk
    rcases hk with rfl | rfl | rfl <;> assumption
  · refine Re.search_needs week_needs₂ (by decide +kernel) (fun k hk => ?_) (by simp)
    simp only [weekKeys₂, List.mem_cons, List.not_mem_nil, or_false] at hk
    rcases hk with rfl | rfl <;> assumption

section
variable {ex : List Text} {text : Text} (h : FewDateWords ex text)
include h

theorem no_casualTime (hx : ∀ w ∈ partsOfDay, w ∉ ex) : Ast.casualTime.search (toLower text) = none :=
  Re.search_needs casualTime_needs (by decide +kernel) (not_whole fun w hw => by
    rcases List.mem_append.1 hw with hw | hw
    · exact h.parts w hw (hx w hw)
    · obtain ⟨v, hv, rfl⟩ := List.mem_map.1 hw
      exact h.thisPart v hv) (by simp)

theorem no_casualDate (hx : ∀ w ∈ nearDays, w ∉ ex) : Ast.casualDate.search (toLower text) = none := by
  rcases h.lastNight with h1 | ⟨h1, h2⟩
  · refine Re.search_needs casualDate_needs₂ (by decide +kernel) (fun k hk => ?_) (by simp)
    rcases List.mem_append.1 hk with hk | hk
    · exact not_whole (fun w hw => h.days w hw (hx w hw)) k hk
    · rw [List.mem_singleton] at hk; subst hk; exact h1
  · refine Re.search_needs casualDate_needs (by decide +kernel) (not_whole fun w hw => ?_) (by simp)
    rcases List.mem_append.1 hw with hw | hw
    · exact h.days w hw (hx w hw)
    · simp only [List.mem_cons, List.not_mem_nil, or_false] at hw
      rcases hw with rfl | rfl
      · exact h2
      · exact h1

theorem no_slashes : ∀ r ∈ [Ast.timeLater, Ast.timeAgo], r.search (toLower text) = none := by
  have hb := no_backslash h.backslash
  have bs : ∀ k ∈ backslashKey, ¬ Occurs k.atStart k.word k.atEnd (toLower text) := by
    intro k hk
    simp only [backslashKey, List.mem_singleton] at hk
    subst hk; exact hb
  have e5 := Re.search_needs timeLater_needs (by decide +kernel) (text := text) bs (by simp)
  have e7 := Re.search_needs timeAgo_needs (by decide +kernel) (text := text) bs (by simp)
  intro r hr
  simp only [List.mem_cons, List.not_mem_nil, or_false] at hr
  rcases hr with rfl | rfl <;> assumption

theorem no_holiday (hx : ∀ w ∈ holidayWords, w ∉ ex) : Ast.holiday.search (toLower text) = none := by
  have hb := no_backslash h.backslash
  have hol : ∀ k : KeyWord, ¬ Occurs k.atStart k.word k.atEnd (toLower text) → ∀ x ∈ holidayKeys k, ¬ Occurs x.atStart x.word x.atEnd (toLower text) := by
    intro k hk x hx'
    unfold holidayKeys at hx'
    rcases List.mem_append.1 hx' with hx' | hx'
    · exact not_whole (fun w hw => h.holidays w hw (hx w hw)) x hx'
    · simp only [List.mem_cons, List.not_mem_nil, or_false] at hx'
      rcases hx' with rfl | rfl | rfl | rfl
      · exact not_infix h.newYear
      · exact not_infix h.luther
      · exact hb
      · exact hk
  rcases h.blackFriday with h1 | h1
  · exact Re.search_needs holiday_needs₁ (by decide +kernel) (hol _ h1) (by simp)
  · exact Re.search_needs holiday_needs₂ (by decide +kernel) (hol _ h1) (by simp)

/-- The parsers that read neither casual words nor digits. -/
theorem no_wordy (hx : ∀ w ∈ otherKeys, w ∉ ex) : ∀ r ∈ [Ast.deadline, Ast.timeLater, Ast.timeAgo, Ast.holiday, Ast.week], r.search (toLower text) = none := by
  have hs := no_slashes h
  intro r hr
  simp only [List.mem_cons, List.not_mem_nil, or_false] at hr
  rcases hr with rfl | rfl | rfl | rfl | rfl
  · exact no_deadline_search (h.deadlines (hx _ (by simp [otherKeys])))
  · exact hs _ (by simp)
  · exact hs _ (by simp)
  · exact no_holiday h (fun w hw => hx w (by simp [otherKeys, hw]))
  · exact no_week_search (h.weeks (hx _ (by simp [otherKeys])))

end

/-- No month is found in a text without months. -/
theorem no_months {ex : List Text} {text : Text} (h : NoDateWordsBut ex text) (hx : ∀ w ∈ monthForms, w ∉ ex) : Ast.monthName.search (toLower text) = none :=
  Re.search_needs monthName_needs (by decide +kernel) (text := text) (by
    intro k hk
    rcases List.mem_append.1 hk with hk | hk
    · exact not_whole (fun w hw => h.months w hw (hx w hw)) k hk
    · rw [List.mem_singleton] at hk; subst hk; exact no_backslash h.backslash) (fun _ => h.digits)

/-- No parser that reads digits or clock words finds anything in a text without them. -/
theorem no_numbers {ex : List Text} {text : Text} (h : NoDateWordsBut ex text) :
    ∀ r ∈ [Ast.middleEndian, Ast.timeExpr, Ast.iso], r.search (toLower text) = none := by
  have e8 := Re.search_needs timeExpr_needs (by decide +kernel) (text := text) (by
    intro k hk
    obtain ⟨w, hw, hk⟩ : ∃ w ∈ clockWords, k ∈ clockKeysOf w := by
      rcases List.mem_append.1 hk with hk | hk
      · exact ⟨_, by simp [clockWords], hk⟩
      · exact ⟨_, by simp [clockWords], hk⟩
    obtain ⟨c1, c2, c3⟩ := h.clock w hw
    simp only [clockKeysOf, List.mem_cons, List.not_mem_nil, or_false] at hk
    rcases hk with rfl | rfl | rfl
    · exact c1
    · exact not_infix c2
    · exact not_infix c3) (fun _ => h.digits)
  have e9 := Re.search_needs iso_needs (by decide +kernel) (text := text) (by simp) (fun _ => h.digits)
  have e4 := middleEndian_none h.digits h.dates
  intro r hr
  simp only [List.mem_cons, List.not_mem_nil, or_false] at hr
  rcases hr with rfl | rfl | rfl <;> assumption

/-- No parser but the two of casual words finds anything in a text without other date words. -/
theorem no_others {ex : List Text} {text : Text} (h : NoDateWordsBut ex text) (hx : ∀ w ∈ otherKeys, w ∉ ex) :
    ∀ r ∈ [Ast.deadline, Ast.middleEndian, Ast.timeLater, Ast.monthName, Ast.timeAgo, Ast.timeExpr, Ast.iso, Ast.holiday, Ast.week],
    r.search (toLower text) = none := by
  have h1 := no_wordy h.toFewDateWords hx
  have h2 := no_numbers h
  have h3 := no_months h (fun w hw => hx w (by simp [otherKeys, hw]))
  intro r hr
  simp only [List.mem_cons, List.not_mem_nil, or_false] at hr
  rcases hr with rfl | rfl | rfl | rfl | rfl | rfl | rfl | rfl | rfl
  exacts [h1 _ (by simp), h2 _ (by simp), h1 _ (by simp), h3, h1 _ (by simp), h2 _ (by simp), h2 _ (by simp), h1 _ (by simp), h1 _ (by simp)]

/-- Nothing is found in a text without date words. -/
theorem allSilent_of {text : Text} (h : NoDateWords text) : allSilent (toLower text) = true := by
  have ho := no_others h (by simp)
  simp only [allSilent, mainPatterns, List.all_cons, List.all_nil, no_casualTime h.toFewDateWords (by simp), no_casualDate h.toFewDateWords (by simp),
    ho Ast.deadline (by simp), ho Ast.middleEndian (by simp), ho Ast.timeLater (by simp), ho Ast.monthName (by simp), ho Ast.timeAgo (by simp),
    ho Ast.timeExpr (by simp), ho Ast.iso (by simp), ho Ast.holiday (by simp), ho Ast.week (by simp), Option.isNone_none, Bool.and_true]

/-- **C81.** A text that names no date and no time, however long, is answered with the line that says so, whatever the reference time. -/
theorem c81_no_date_words_no_date (rt : Rt) (sort : List PResult → List PResult) (hs : Sorts sort) (text : Text) (h : NoDateWords text)
    (ref : PTime) : mainRun rt sort text ref = .ok txt!"[???] -- Invalid date" :=
  prints_invalid hs (allSilent_of h)

/-! ## The conditions are met, and needed -/

/-- Decides `Occurs`. -/
def occursB (s : Bool) (w : Text) (e : Bool) (t : Text) : Bool :=
  (List.range (t.length + 1)).any fun i => w.isPrefixOf (t.drop i) && (!s || !(t.take i).getLast?.any isWordB) &&
    (!e || !((t.drop i).drop w.length).head?.any isWordB)

theorem occursB_sound {s e : Bool} {w t : Text} (h : occursB s w e t = false) : ¬ Occurs s w e t := by
  rintro ⟨a, b, rfl, h1, h2⟩
  unfold occursB at h
  have := List.any_eq_false.1 h a.length (List.mem_range.2 (by simp; omega))
  rw [List.append_assoc, List.take_left, List.drop_left, List.drop_left, show w.isPrefixOf (w ++ b) = true by
    rw [List.isPrefixOf_iff_prefix]; exact List.prefix_append _ _] at this
  apply this
  have hs : (!s || !a.getLast?.any isWordB) = true := by
    cases s
    · rfl
    · cases hc : a.getLast? with
      | none => rfl
      | some c => have := h1 rfl c hc; rw [wordChar_iff] at this; simpa using this
  have he : (!e || !b.head?.any isWordB) = true := by
    cases e
    · rfl
    · cases hc : b.head? with
      | none => rfl
      | some c => have := h2 rfl c hc; rw [wordChar_iff] at this; simpa using this
  rw [hs, he]; rfl

def noWeekB (t : Text) : Bool :=
  (!occursB true txt!"last" true t && !occursB true txt!"next" true t && !occursB true txt!"this" false t) ||
    (!occursB false txt!"week" true t && !occursB false txt!"weeks" true t)

def noDeadlineB (t : Text) : Bool :=
  (!occursB true txt!"in" true t && !occursB true txt!"within" true t) || unitWords.all fun w => !occursB true w true t

theorem noWeekB_sound {t : Text} (h : noWeekB t = true) : NoWeek t := by
  simp only [noWeekB, Bool.and_eq_true, Bool.not_eq_true', Bool.or_eq_true] at h
  exact h.imp (fun h => ⟨occursB_sound h.1.1, occursB_sound h.1.2, occursB_sound h.2⟩) (fun h => ⟨occursB_sound h.1, occursB_sound h.2⟩)

theorem noDeadlineB_sound {t : Text} (h : noDeadlineB t = true) : NoDeadline t := by
  simp only [noDeadlineB, Bool.and_eq_true, Bool.not_eq_true', Bool.or_eq_true, List.all_eq_true] at h
  exact h.imp (fun h => ⟨occursB_sound h.1, occursB_sound h.2⟩) (fun h w hw => occursB_sound (h w hw))

/-- Decides that the text does not begin with an ordinal from `first` to `thirty-first`. -/
def noOrdinalB (t : Text) : Bool := (List.range (t.length + 1)).all fun n => let ws := words (t.take n); (List.range 32).all fun d => d == 0 || ws != ordinalName d

theorem noOrdinalB_sound {o r : Text} {d : Nat} (h : noOrdinalB (o ++ r) = true) (h1 : 1 ≤ d) (h2 : d ≤ 31) : words o ≠ ordinalName d := by
  intro ho
  have h3 := List.all_eq_true.1 h o.length (List.mem_range.2 (by simp; omega))
  simp only [List.take_left] at h3
  have := List.all_eq_true.1 h3 d (List.mem_range.2 (by omega))
  rw [ho] at this
  simp at this
  omega

/-- Each field of `NoDateWordsBut`, decided. -/
def dateWordChecks (text : Text) (ex : List Text := []) : List Bool :=
  let t := toLower text
  [text.all (fun c => !(decide (48 ≤ c ∧ c ≤ 57))),
   !text.contains 92,
   nearDays.all fun w => ex.contains w || !occursB true w true t,
   partsOfDay.all fun w => ex.contains w || !occursB true w true t,
   partsOfDay.all fun w => !occursB true (txt!"this" ++ w) true t,
   !occursB true txt!"last" false t || (!occursB true txt!"lastnight" true t && !occursB true txt!"night" true t),
   clockWords.all fun w => !occursB true w false t && !occursB false (txt!"t" ++ w) false t && !occursB false (txt!"from" ++ w) false t,
   monthForms.all fun w => ex.contains w || !occursB true w true t,
   anywhere (afterMonth fun _ => noOrdinalB) t,
   holidayWords.all fun w => ex.contains w || !occursB true w true t,
   !occursB false txt!"year's" false t,
   !occursB false txt!"luther" false t,
   !occursB true txt!"black" false t || !occursB false txt!"friday" true t,
   ex.contains txt!"week" || noWeekB t,
   ex.contains txt!"in" || noDeadlineB t]

theorem fewDateWords_of {text : Text} {ex : List Text} (h : ((dateWordChecks text ex).drop 1).all id = true) : FewDateWords ex text := by
  have inf : ∀ {w t : Text}, occursB false w false t = false → ¬ w <:+: t := by
    rintro w t h ⟨a, b, e⟩
    exact occursB_sound h ⟨a, b, e.symm, by simp, by simp⟩
  simp only [dateWordChecks, List.drop_succ_cons, List.drop_zero, List.all_cons, List.all_nil, Bool.and_true, Bool.and_eq_true, id, Bool.not_eq_true', Bool.or_eq_true,
    List.all_eq_true] at h
  obtain ⟨h2, h3, h4, h4', h5, h6, h7, h8, h9, h10, h11, h12, h13, h14⟩ := h
  refine ⟨?_, fun w hw hx => occursB_sound ((h3 w hw).resolve_left fun h => hx (by simpa using h)),
    fun w hw hx => occursB_sound ((h4 w hw).resolve_left fun h => hx (by simpa using h)), fun w hw => occursB_sound (h4' w hw),
    h5.imp occursB_sound (fun h => ⟨occursB_sound h.1, occursB_sound h.2⟩),
    fun w hw => ⟨occursB_sound (h6 w hw).1.1, inf (h6 w hw).1.2, inf (h6 w hw).2⟩,
    fun w hw hx => occursB_sound ((h7 w hw).resolve_left fun h => hx (by simpa using h)), ?_,
    fun w hw hx => occursB_sound ((h9 w hw).resolve_left fun h => hx (by simpa using h)), inf h10, inf h11,
    h12.imp occursB_sound occursB_sound,
    fun hx => noWeekB_sound (h13.resolve_left fun h => hx (by simpa using h)), fun hx => noDeadlineB_sound (h14.resolve_left fun h => hx (by simpa using h))⟩
  · simpa using h2
  · intro w m gap o d hw hg d1 d2 ho hi
    obtain ⟨r, hr⟩ := anywhere_sound h8 hi
    simp only [List.append_assoc] at hr
    exact noOrdinalB_sound (afterMonth_sound hr hw hg) d1 d2 ho

theorem dateWordChecks_sound {text : Text} {ex : List Text} (h : (dateWordChecks text ex).all id = true) : NoDateWordsBut ex text := by
  have e : dateWordChecks text ex = text.all (fun c => !(decide (48 ≤ c ∧ c ≤ 57))) :: (dateWordChecks text ex).drop 1 := rfl
  rw [e, List.all_cons, Bool.and_eq_true] at h
  refine ⟨fewDateWords_of h.2, fun c hc => ?_⟩
  have := List.all_eq_true.1 h.1 c hc
  simp only [Bool.not_eq_true', decide_eq_false_iff_not] at this
  exact this

/-- Ordinary sentences meet the conditions; weekdays, `Jun`, `black` without Friday and units of time without `in` are not date words. -/
theorem noDateWords_examples : ∀ t ∈ [txt!"", txt!"See you on Friday on the second floor; the new years are long.", txt!"The black cat slept in my armchair!",
    txt!"Ten minutes ago, or a week later: Jun. said no"], NoDateWords t := by
  have h : ∀ t ∈ [txt!"", txt!"See you on Friday on the second floor; the new years are long.", txt!"The black cat slept in my armchair!",
    txt!"Ten minutes ago, or a week later: Jun. said no"], (dateWordChecks t).all id = true := by decide +kernel
  exact fun t ht => dateWordChecks_sound (h t ht)

/-- **C81: every condition is needed.** For each of these texts exactly the indicated condition fails (counted from 0), and the program prints a
date. -/
theorem c81_conditions_are_needed : ∀ p ∈ [(0, txt!"at 9pm"), (1, txt! r"two minutes\ago"), (2, txt!"now"), (3, txt!"this evening"), (4, txt!"thismorning"),
      (5, txt!"lastnight"), (6, txt!"midnight"), (7, txt!"june"), (8, txt!"decemberfirst x"), (9, txt!"labor day"), (10, txt!"new year's day"),
      (11, txt!"martin luther king jr day"), (12, txt!"black friday x"), (13, txt!"next week"), (14, txt!"in two days")],
    dateWordChecks p.2 = (List.range 15).map (fun i => decide (i ≠ p.1)) ∧
      ∃ d, mainRun (Rt.usual 0) sortKeep p.2 exampleRef = .ok (txt!"Date:\t" ++ d) := by
  have h : ∀ p ∈ [(0, txt!"at 9pm"), (1, txt! r"two minutes\ago"), (2, txt!"now"), (3, txt!"this evening"), (4, txt!"thismorning"),
      (5, txt!"lastnight"), (6, txt!"midnight"), (7, txt!"june"), (8, txt!"decemberfirst x"), (9, txt!"labor day"), (10, txt!"new year's day"),
      (11, txt!"martin luther king jr day"), (12, txt!"black friday x"), (13, txt!"next week"), (14, txt!"in two days")],
    dateWordChecks p.2 = (List.range 15).map (fun i => decide (i ≠ p.1)) ∧
      (match mainRun (Rt.usual 0) sortKeep p.2 exampleRef with | .ok l => (txt!"Date:\t").isPrefixOf l | _ => false) = true := by decide +kernel
  intro p hp
  refine ⟨(h p hp).1, ?_⟩
  have := (h p hp).2
  split at this
  · rename_i l hl
    obtain ⟨d, rfl⟩ := List.isPrefixOf_iff_prefix.1 this
    exact ⟨d, hl⟩
  · cases this

end Chrono.Props
