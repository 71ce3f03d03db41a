import Verif.Props.P76_ManyDays
import Verif.Props.P53_FromNow
/-!
# Instances for C95–C97
-/
namespace Chrono.Props
open Chrono Chrono.Spec Chrono.Boost

/-- What the parsers of `main` find in a text, for the usual machine at 2019-03-15 14:00. -/
def found (text : Text) : List PResult :=
  match runParsers (Rt.usual 0) afternoonRef mainParsers integerWords text with | .ok (rs, _) => rs | _ => []

/-- Every parser returns. -/
def foundAll (text : Text) : Bool :=
  match runParsers (Rt.usual 0) afternoonRef mainParsers integerWords text with | .ok _ => true | _ => false

theorem found_all {text : Text} (h : foundAll text = true) :
    AllReturn (Rt.usual 0) afternoonRef text ∧ ∀ x, Mention (Rt.usual 0) afternoonRef text x ↔ x ∈ found text := by
  unfold foundAll at h
  unfold found
  split at h
  · rename_i rs he
    obtain ⟨rs, g⟩ := rs
    rw [he]
    obtain ⟨rss, h1, rfl⟩ := runParsers_main.1 ⟨g, he⟩
    refine ⟨fun P hP => ?_, fun x => (mem_flatten_of_returns h1).symm⟩
    clear he
    generalize mainParsers = ps at h1 hP
    induction h1 with
    | nil => cases hP
    | cons a b ih =>
      rcases List.mem_cons.1 hP with rfl | hP
      · exact ⟨_, a⟩
      · exact ih hP
  · exact absurd h (by simp)

instance (a b : PResult) : Decidable (Before a b) := by unfold Before; infer_instance
instance (text : Text) (a b : PResult) : Decidable (Joined text a b) := by unfold Joined; infer_instance
instance (c : Comps) (t : DateTime) : Decidable (Reads c t) := by unfold Reads; infer_instance

theorem noZone_untagged {text : Text} {r : PResult} (h : r.getTag .timeExpression = false) : NoZone text r := by
  intro abbr off ht
  rw [h] at ht
  cases ht

/-- `See you today; or in march, at 9:30, or on 2018-07-04, or this week`: six mentions. -/
def sixMentions : Text := txt!"See you today; or in march, at 9:30, or on 2018-07-04, or this week"

/-- **C95: the conditions are met** by a text with six mentions, found by five parsers: a date, a month, a clock time that would be merged with the date if the month did not stand between
them, a date and the part of it that is also read as a time range, and a week. -/
theorem c95_conditions_are_met : AllReturn (Rt.usual 0) afternoonRef sixMentions ∧ (found sixMentions).length = 6 ∧
    ∃ r, Mention (Rt.usual 0) afternoonRef sixMentions r ∧ NoZone (toLower sixMentions) r ∧ r.toDate = .ok (DateTime.mk 2019 3 15 0 0 0).format ∧
      (∀ x, Mention (Rt.usual 0) afternoonRef sixMentions x → x = r ∨ Hidden r x ∨
        (Before r x ∧ (¬ DateTimePair r x ∧ (r.hasEnd = true ∨ ¬ Joined (toLower sixMentions) r x) ∨ Parted (Rt.usual 0) afternoonRef sixMentions r x))) ∧
      ∃ x, Mention (Rt.usual 0) afternoonRef sixMentions x ∧ DateTimePair r x := by
  have h : (foundAll sixMentions && match found sixMentions with
      | [a, b, c, d, e, f] => decide (a.getTag .timeExpression = false ∧ a.toDate = .ok (DateTime.mk 2019 3 15 0 0 0).format ∧ Before a b ∧ ¬ DateTimePair a b ∧ ¬ Joined (toLower sixMentions) a b ∧
          (∀ x ∈ [a, c, d, e, f], ¬ Overlap x b) ∧ (∀ x ∈ [c, d, e, f], Before b x) ∧ (∀ x ∈ [c, d, e, f], Before a x) ∧ DateTimePair a c)
      | _ => false) = true := by decide +kernel
  rw [Bool.and_eq_true] at h
  obtain ⟨h0, h⟩ := h
  obtain ⟨h1, h2⟩ := found_all h0
  obtain ⟨F, hF⟩ : ∃ F, F = found sixMentions := ⟨_, rfl⟩
  rw [← hF] at h h2 ⊢
  clear hF
  split at h
  · rename_i a b c d e f
    rw [decide_eq_true_eq] at h
    obtain ⟨h3, h4, h5, h6, h7, h8, h9, h10, h11⟩ := h
    have kb : Kept (Rt.usual 0) afternoonRef sixMentions b := by
      refine ⟨(h2 b).2 (by simp), fun y hy => ?_⟩
      have hy := (h2 y).1 hy
      by_cases hyb : y ∈ [a, c, d, e, f]
      · exact .inr (.inl (h8 y hyb))
      · left
        simp only [List.mem_cons, List.not_mem_nil, or_false] at hy
        rcases hy with h | h | h | h | h | h <;> first | exact h | exact absurd (by rw [h]; simp) hyb
    refine ⟨h1, rfl, a, (h2 a).2 (by simp), noZone_untagged h3, h4, fun x hx => ?_, c, (h2 c).2 (by simp), h11⟩
    rcases List.mem_cons.1 ((h2 x).1 hx) with rfl | hx
    · exact .inl rfl
    rcases List.mem_cons.1 hx with rfl | hx
    · exact .inr (.inr ⟨h5, .inl ⟨h6, .inr h7⟩⟩)
    · exact .inr (.inr ⟨h10 x hx, .inr ⟨b, kb, h5, h9 x hx⟩⟩)
  · exact absurd h (by simp)

/-- So the program prints today's date, or ends with a "not a date" exception; in fact it prints it. -/
theorem c95_example : OkOrNotADate (fun line => line = foundLine ++ (DateTime.mk 2019 3 15 0 0 0).format) (mainRun (Rt.usual 0) sortKeep sixMentions afternoonRef) ∧
    mainRun (Rt.usual 0) sortKeep sixMentions afternoonRef = .ok (foundLine ++ (DateTime.mk 2019 3 15 0 0 0).format) := by
  obtain ⟨h1, -, r, h2, h3, h4, h5, -⟩ := c95_conditions_are_met
  exact ⟨c95_first_mention_is_printed usual_defined sortKeep_sorts (by decide) h1 h2 h3 h5 h4, by decide +kernel⟩

/-- `from today to tomorrow, then in march, at 9:30 or this week`: five mentions. -/
def fiveMentions : Text := txt!"from today to tomorrow, then in march, at 9:30 or this week"

/-- **C96: the conditions are met** by a text with five mentions: two days joined by `to`, a month, a clock time and a week. -/
theorem c96_conditions_are_met : AllReturn (Rt.usual 0) afternoonRef fiveMentions ∧ (found fiveMentions).length = 5 ∧
    ∃ r s, Mention (Rt.usual 0) afternoonRef fiveMentions r ∧ Mention (Rt.usual 0) afternoonRef fiveMentions s ∧ Before r s ∧
      NoZone (toLower fiveMentions) r ∧ NoZone (toLower fiveMentions) s ∧ ¬ DateTimePair r s ∧ r.hasEnd = false ∧ s.hasEnd = false ∧ Joined (toLower fiveMentions) r s ∧
      r.getTag .extractTZ = false ∧ s.getTag .extractTZ = false ∧ Reads r.startDate ⟨2019, 3, 15, 0, 0, 0⟩ ∧ Reads s.startDate ⟨2019, 3, 16, 0, 0, 0⟩ ∧
      (∀ x, Mention (Rt.usual 0) afternoonRef fiveMentions x → x = r ∨ x = s ∨
        ((Overlap x r ∨ Overlap x s) ∧ (Overlap x r → x.textLength < r.textLength) ∧ (Overlap x s → x.textLength < s.textLength)) ∨
        (Before s x ∧ (¬ DateTimePair s x ∨ Parted (Rt.usual 0) afternoonRef fiveMentions s x))) ∧
      ∃ x, Mention (Rt.usual 0) afternoonRef fiveMentions x ∧ DateTimePair s x := by
  have h : (foundAll fiveMentions && match found fiveMentions with
      | [a, b, c, d, e] => decide (a.getTag .timeExpression = false ∧ b.getTag .timeExpression = false ∧ Before a b ∧ ¬ DateTimePair a b ∧ a.hasEnd = false ∧ b.hasEnd = false ∧
          Joined (toLower fiveMentions) a b ∧ a.getTag .extractTZ = false ∧ b.getTag .extractTZ = false ∧ Reads a.startDate ⟨2019, 3, 15, 0, 0, 0⟩ ∧ Reads b.startDate ⟨2019, 3, 16, 0, 0, 0⟩ ∧
          Before b c ∧ ¬ DateTimePair b c ∧ (∀ x ∈ [a, b, d, e], ¬ Overlap x c) ∧ (∀ x ∈ [d, e], Before c x) ∧ (∀ x ∈ [d, e], Before b x) ∧ DateTimePair b d)
      | _ => false) = true := by decide +kernel
  rw [Bool.and_eq_true] at h
  obtain ⟨h0, h⟩ := h
  obtain ⟨h1, h2⟩ := found_all h0
  obtain ⟨F, hF⟩ : ∃ F, F = found fiveMentions := ⟨_, rfl⟩
  rw [← hF] at h h2 ⊢
  clear hF
  split at h
  · rename_i a b c d e
    rw [decide_eq_true_eq] at h
    obtain ⟨h3, h4, h5, h6, h7, h8, h9, h10, h11, h12, h13, h14, h15, h16, h17, h18, h19⟩ := h
    have kc : Kept (Rt.usual 0) afternoonRef fiveMentions c := by
      refine ⟨(h2 c).2 (by simp), fun y hy => ?_⟩
      have hy := (h2 y).1 hy
      by_cases hyb : y ∈ [a, b, d, e]
      · exact .inr (.inl (h16 y hyb))
      · left
        simp only [List.mem_cons, List.not_mem_nil, or_false] at hy
        rcases hy with h | h | h | h | h <;> first | exact h | exact absurd (by rw [h]; simp) hyb
    refine ⟨h1, rfl, a, b, (h2 a).2 (by simp), (h2 b).2 (by simp), h5, noZone_untagged h3, noZone_untagged h4, h6, h7, h8, h9, h10, h11, h12, h13, fun x hx => ?_, d, (h2 d).2 (by simp), h19⟩
    rcases List.mem_cons.1 ((h2 x).1 hx) with rfl | hx
    · exact .inl rfl
    rcases List.mem_cons.1 hx with rfl | hx
    · exact .inr (.inl rfl)
    rcases List.mem_cons.1 hx with rfl | hx
    · exact .inr (.inr (.inr ⟨h14, .inl h15⟩))
    · exact .inr (.inr (.inr ⟨h18 x hx, .inr ⟨c, kc, h14, h17 x hx⟩⟩))
  · exact absurd h (by simp)

theorem c96_example : OkOrNotADate (fun line => line = foundLine ++ (DateTime.mk 2019 3 15 0 0 0).format ++ txt!" - " ++ (DateTime.mk 2019 3 16 0 0 0).format)
      (mainRun (Rt.usual 0) sortKeep fiveMentions afternoonRef) ∧
    mainRun (Rt.usual 0) sortKeep fiveMentions afternoonRef = .ok (foundLine ++ (DateTime.mk 2019 3 15 0 0 0).format ++ txt!" - " ++ (DateTime.mk 2019 3 16 0 0 0).format) := by
  obtain ⟨h1, -, r, s, m1, m2, h5, h3, h4, h6, h7, h8, h9, h10, h11, h12, h13, h14, -⟩ := c96_conditions_are_met
  refine ⟨?_, by decide +kernel⟩
  have := c96_first_two_joined_are_printed usual_defined sortKeep_sorts (by decide) h1 m1 m2 h5 h3 h4 h6 h7 h8 h9 h10 h11 h14 (by unfold DateTime.Valid; decide) (by unfold DateTime.Valid; decide) h12 h13
  rwa [if_pos (by decide +kernel)] at this

/-- `We met today, at 9:30, then in march, and this week`: four mentions. -/
def fourMentions : Text := txt!"We met today, at 9:30, then in march, and this week"

/-- **C97: the conditions are met** by a text with four mentions: a day, a clock time, a month, and a week after `and`. -/
theorem c97_conditions_are_met : AllReturn (Rt.usual 0) afternoonRef fourMentions ∧ (found fourMentions).length = 4 ∧
    ∃ a b, Mention (Rt.usual 0) afternoonRef fourMentions a ∧ Mention (Rt.usual 0) afternoonRef fourMentions b ∧ Before a b ∧
      NoZone (toLower fourMentions) a ∧ NoZone (toLower fourMentions) b ∧ a.getTag .extractTZ = false ∧ b.getTag .extractTZ = false ∧ a.hasEnd = false ∧ b.hasEnd = false ∧
      (∀ x, Mention (Rt.usual 0) afternoonRef fourMentions x → x = a ∨ x = b ∨
        ((Overlap x a ∨ Overlap x b) ∧ (Overlap x a → x.textLength < a.textLength) ∧ (Overlap x b → x.textLength < b.textLength)) ∨
        (Before b x ∧ (¬ Joined (toLower fourMentions) b x ∨ Parted (Rt.usual 0) afternoonRef fourMentions b x))) ∧
      (∃ x, Mention (Rt.usual 0) afternoonRef fourMentions x ∧ Before b x ∧ Joined (toLower fourMentions) b x) ∧
      NoTime a.startDate ∧ isTimeOnly a = false ∧ isTimeOnly b = true ∧ isDateOnly b = false ∧ DateIs a.startDate (2019, 3, 15) ∧ TimeIs b.startDate 9 30 0 := by
  have h : (foundAll fourMentions && match found fourMentions with
      | [a, c, b, d] => decide (a.getTag .timeExpression = false ∧ 8 ≤ ((toLower fourMentions).drop (stop b)).length ∧ ((toLower fourMentions).drop (stop b)).head?.all (fun c => !isSpaceB c) = true ∧
          Before a b ∧ a.hasEnd = false ∧ b.hasEnd = false ∧ a.getTag .extractTZ = false ∧ b.getTag .extractTZ = false ∧
          Before b c ∧ ¬ Joined (toLower fourMentions) b c ∧ (∀ x ∈ [a, b, d], ¬ Overlap x c) ∧ Before c d ∧ Before b d ∧ Joined (toLower fourMentions) b d ∧
          (a.startDate.certain .hour = false ∧ (a.startDate.known .min).1 = false ∧ (a.startDate.known .sec).1 = false) ∧ isTimeOnly a = false ∧ isTimeOnly b = true ∧ isDateOnly b = false ∧
          (a.startDate.get .year = 2019 ∧ a.startDate.get .month = 3 ∧ a.startDate.get .mday = 15) ∧ b.startDate.get .hour = 9 ∧ b.startDate.get .min = 30 ∧ b.startDate.get .sec = 0)
      | _ => false) = true := by decide +kernel
  rw [Bool.and_eq_true] at h
  obtain ⟨h0, h⟩ := h
  obtain ⟨h1, h2⟩ := found_all h0
  obtain ⟨F, hF⟩ : ∃ F, F = found fourMentions := ⟨_, rfl⟩
  rw [← hF] at h h2 ⊢
  clear hF
  split at h
  · rename_i a c b d
    rw [decide_eq_true_eq] at h
    obtain ⟨h3, h4, h4', h5, h6, h7, h8, h9, h10, h11, h12, h13, h14, h15, h16, h17, h18, h19, h20, h21⟩ := h
    have kc : Kept (Rt.usual 0) afternoonRef fourMentions c := by
      refine ⟨(h2 c).2 (by simp), fun y hy => ?_⟩
      have hy := (h2 y).1 hy
      by_cases hyb : y ∈ [a, b, d]
      · exact .inr (.inl (h12 y hyb))
      · left
        simp only [List.mem_cons, List.not_mem_nil, or_false] at hy
        rcases hy with h | h | h | h <;> first | exact h | exact absurd (by rw [h]; simp) hyb
    have nzb : NoZone (toLower fourMentions) b := by
      rintro abbr off - ⟨-, hz, -⟩
      refine noZone_long h4 ?_ hz
      cases hh : ((toLower fourMentions).drop (stop b)).head? with
      | none => rfl
      | some c =>
        rw [hh] at h4'
        simp only [Option.all_some, Bool.not_eq_true'] at h4' ⊢
        rw [decide_eq_false_iff_not]
        intro hbl
        rw [blank_isSpace hbl] at h4'
        cases h4'
    refine ⟨h1, rfl, a, b, (h2 a).2 (by simp), (h2 b).2 (by simp), h5, noZone_untagged h3, nzb, h8, h9, h6, h7, fun x hx => ?_, ⟨d, (h2 d).2 (by simp), h14, h15⟩, h16, h17, h18, h19, h20, h21⟩
    have hx := (h2 x).1 hx
    simp only [List.mem_cons, List.not_mem_nil, or_false] at hx
    rcases hx with rfl | rfl | rfl | rfl
    · exact .inl rfl
    · exact .inr (.inr (.inr ⟨h10, .inl h11⟩))
    · exact .inr (.inl rfl)
    · exact .inr (.inr (.inr ⟨h14, .inr ⟨c, kc, h10, h13⟩⟩))
  · exact absurd h (by simp)

theorem c97_example : OkOrNotADate (fun line => line = foundLine ++ (DateTime.mk 2019 3 15 9 30 0).format) (mainRun (Rt.usual 0) sortKeep fourMentions afternoonRef) ∧
    mainRun (Rt.usual 0) sortKeep fourMentions afternoonRef = .ok (foundLine ++ (DateTime.mk 2019 3 15 9 30 0).format) := by
  obtain ⟨h1, -, a, b, m1, m2, h5, h3, h4, h6, h7, h8, h9, h10, ⟨x, x1, x2, -⟩, h11, h12, h13, h14, h15, h16⟩ := c97_conditions_are_met
  exact ⟨c97_first_date_and_time_are_printed usual_defined sortKeep_sorts (by decide) h1 m1 m2 h5 h3 h4 h6 h7 h8 h9 h10 (.inl ⟨x, x1, x2⟩) (.inl ⟨rfl, rfl⟩) h11 h13 h15 h16
    (by unfold DateTime.Valid; decide), by decide +kernel⟩
end Chrono.Props
