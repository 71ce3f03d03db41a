import Verif.Lemmas.Phrase
import Verif.Lemmas.Sim
/-!
# Phrases with digits
-/
namespace Chrono
open Boost Spec

/-! ## Numbers -/

theorem isDigitB_iff {c : Nat} : isDigitB c = true ↔ 48 ≤ c ∧ c ≤ 57 := by
  unfold isDigitB; simp

theorem isDigitB_dig (n : Nat) : isDigitB (dig n) = true := by
  rw [isDigitB_iff]; unfold dig; omega

theorem digitPrefix_all {ds : Text} (h : ∀ c ∈ ds, isDigitB c = true) : digitPrefix ds = ds := by
  induction ds with
  | nil => rfl
  | cons c t ih =>
    unfold digitPrefix
    rw [if_pos (h c (by simp)), ih (fun x hx => h x (by simp [hx]))]

theorem takeSign_digit {c : Nat} {t : Text} (h : isDigitB c = true) : takeSign (c :: t) = (false, c :: t) := by
  rw [isDigitB_iff] at h
  unfold takeSign
  split
  · rename_i e; simp at e; omega
  · rename_i e; simp at e; omega
  · rfl

theorem dropSpaces_digit {c : Nat} {t : Text} (h : isDigitB c = true) : dropSpaces (c :: t) = c :: t := by
  rw [isDigitB_iff] at h
  unfold dropSpaces
  rw [if_neg]
  unfold isSpaceB; simp; omega

/-- `std::stoi` of a run of digits. -/
theorem stoi_digits {ds : Text} (hne : ds ≠ []) (h : ∀ c ∈ ds, isDigitB c = true) :
    stoi ds = if digitsVal 0 ds ≤ 2147483647 then .ok (digitsVal 0 ds : Int) else .exn .outOfRange := by
  cases ds with
  | nil => exact absurd rfl hne
  | cons c t =>
    have hc := h c (by simp)
    unfold stoi
    rw [dropSpaces_digit hc, takeSign_digit hc]
    simp only
    rw [digitPrefix_all h, if_neg (by simp)]
    simp only [Bool.false_eq_true, if_false]
    by_cases hv : digitsVal 0 (c :: t) ≤ 2147483647
    · rw [if_pos hv, if_neg (by omega)]
    · rw [if_neg hv, if_pos (by omega)]

/-- `std::stoi` of a signed run of digits. -/
theorem stoi_neg {ds : Text} (hne : ds ≠ []) (h : ∀ c ∈ ds, isDigitB c = true) (hv : digitsVal 0 ds ≤ 2147483648) :
    stoi (45 :: ds) = .ok (-(digitsVal 0 ds : Int)) := by
  unfold stoi
  have e1 : dropSpaces (45 :: ds) = 45 :: ds := rfl
  have e2 : takeSign (45 :: ds) = (true, ds) := rfl
  rw [e1, e2]
  simp only
  rw [digitPrefix_all h, if_neg (by simpa using hne)]
  simp only [if_true]
  rw [if_neg (by omega)]

theorem stoi_plus {ds : Text} (hne : ds ≠ []) (h : ∀ c ∈ ds, isDigitB c = true) (hv : digitsVal 0 ds ≤ 2147483647) :
    stoi (43 :: ds) = .ok (digitsVal 0 ds : Int) := by
  unfold stoi
  have e1 : dropSpaces (43 :: ds) = 43 :: ds := rfl
  have e2 : takeSign (43 :: ds) = (false, ds) := rfl
  rw [e1, e2]
  simp only
  rw [digitPrefix_all h, if_neg (by simpa using hne)]
  simp only [Bool.false_eq_true, if_false]
  rw [if_neg (by omega)]

theorem dig_val (n : Nat) : dig n - 48 = n % 10 := by unfold dig; omega

theorem digitsVal_two {n : Nat} (h : n < 100) : digitsVal 0 (two n) = n := by
  show (0 * 10 + (dig (n / 10) - 48)) * 10 + (dig n - 48) = n
  rw [dig_val, dig_val]; omega
theorem digitsVal_four {n : Nat} (h : n < 10000) : digitsVal 0 (four n) = n := by
  show (((0 * 10 + (dig (n / 1000) - 48)) * 10 + (dig (n / 100) - 48)) * 10 + (dig (n / 10) - 48)) * 10 + (dig n - 48) = n
  rw [dig_val, dig_val, dig_val, dig_val]; omega

theorem digits_two (n : Nat) : ∀ c ∈ two n, isDigitB c = true := by
  simp [two, isDigitB_dig]
theorem digits_four (n : Nat) : ∀ c ∈ four n, isDigitB c = true := by
  simp [four, isDigitB_dig]

theorem stoi_two {n : Nat} (h : n < 100) : stoi (two n) = .ok (n : Int) := by
  rw [stoi_digits (by simp [two]) (digits_two n), digitsVal_two h, if_pos (by omega)]
theorem stoi_four {n : Nat} (h : n < 10000) : stoi (four n) = .ok (n : Int) := by
  rw [stoi_digits (by simp [four]) (digits_four n), digitsVal_four h, if_pos (by omega)]

/-! ## Evaluating a pattern on a representative -/

/-- Equal, or both digits. -/
def DigitRel (c c' : Nat) : Prop := c = c' ∨ (isDigitB c = true ∧ isDigitB c' = true)

theorem Re.sameOn_refl (r : Re) (c : Nat) : r.sameOn c c = true := by
  induction r <;> simp_all [Re.sameOn]

/-- The pattern's tests do not tell one digit from another. -/
def Re.digitBlind (r : Re) : Bool := (List.range 10).all fun i => (List.range 10).all fun j => r.sameOn (48 + i) (48 + j)

theorem Re.digitBlind_sound {r : Re} (h : r.digitBlind = true) : ∀ c c', DigitRel c c' → r.sameOn c c' = true := by
  rintro c c' (rfl | ⟨h1, h2⟩)
  · exact r.sameOn_refl c
  · rw [isDigitB_iff] at h1 h2
    simp only [Re.digitBlind, List.all_eq_true, List.mem_range] at h
    have := h (c - 48) (by omega) (c' - 48) (by omega)
    rwa [show 48 + (c - 48) = c by omega, show 48 + (c' - 48) = c' by omega] at this

/-- The match of `r` in the representative `rep` begins at 0, nothing else is found after it, and the groups have
the given spans (`none`: empty). -/
def checkSpans (r : Re) (rep : Text) (stop : Nat) (gs : List (Nat × Option (Nat × Nat))) : Bool :=
  match r.search rep with
  | some mt => mt.start == 0 && mt.stop == stop && (r.search (rep.drop mt.stop)).isNone &&
      gs.all (fun x => capSpan x.1 mt.caps == x.2)
  | none => false

theorem OptRel.none_right {α β : Type} {Q : α → β → Prop} {x : Option α} (h : OptRel Q x Option.none) : x = Option.none := by
  cases h; rfl

theorem forall₂_drop {R : Nat → Nat → Prop} {t t' : Text} (h : List.Forall₂ R t t') (n : Nat) :
    List.Forall₂ R (t.drop n) (t'.drop n) := by
  induction h generalizing n with
  | nil => simp
  | cons hc ht ih =>
    cases n with
    | zero => exact .cons hc ht
    | succ n => exact ih n

/-- The text of a group span. -/
def spanText (phrase : Text) : Option (Nat × Nat) → Text
  | some x => slice phrase x.1 x.2
  | none => []

theorem foundSpans {r : Re} {phrase : Text} (rep : Text) (stop : Nat) (gs : List (Nat × Option (Nat × Nat)))
    (hb : r.digitBlind = true) (h : checkSpans r rep stop gs = true) (hp : List.Forall₂ DigitRel phrase rep) :
    ∃ mt, FoundAt0 r phrase mt ∧ mt.stop = stop ∧ mt.str 0 = phrase.take stop ∧
      ∀ x ∈ gs, x.1 ≠ 0 → mt.str x.1 = spanText phrase x.2 := by
  unfold checkSpans at h
  have h1 := Re.search_sim (Re.digitBlind_sound hb) hp
  cases hs : r.search rep with
  | none => rw [hs] at h; simp at h
  | some mt' =>
    rw [hs] at h h1
    simp only [Bool.and_eq_true, List.all_eq_true, beq_iff_eq, Option.isNone_iff_eq_none] at h
    obtain ⟨⟨⟨e1, e2⟩, e3⟩, e4⟩ := h
    generalize hm : r.search phrase = o at h1
    cases h1 with
    | @some mt _ h1 =>
      subst h1
      have h2 := Re.search_sim (Re.digitBlind_sound hb) (forall₂_drop hp mt'.stop)
      rw [e3] at h2
      refine ⟨_, ⟨hm, e1, h2.none_right⟩, e2, ?_, ?_⟩
      · unfold Match.str
        rw [if_pos rfl]
        simp only [slice, e1, e2, List.drop_zero, Nat.sub_zero]
      · intro x hx hx0
        unfold Match.str
        rw [if_neg hx0]
        simp only
        rw [e4 x hx]
        cases x.2 with
        | none => rfl
        | some p => rfl

theorem digitRel_dig (n : Nat) {c : Nat} (h : isDigitB c = true) : DigitRel (dig n) c := .inr ⟨isDigitB_dig n, h⟩

end Chrono
