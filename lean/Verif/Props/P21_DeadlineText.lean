import Verif.Props.P20_Phrases
import Verif.Lemmas.Months
import Verif.Lemmas.Run
import Verif.Lemmas.Template
/-!
# Deadlines ("in N days"): written numbers, what the pattern finds
-/
namespace Chrono.Props
open Chrono Chrono.Spec Chrono.Boost

/-! ## Specification: written numbers -/

/-- Value of a run of decimal digits. -/
def decimalValue (t : Text) : Nat := t.foldl (fun v c => 10 * v + (c - 48)) 0

/-- The numbers that are written as words. -/
def numberWords : List (Text × Nat) :=
  [(txt!"one", 1), (txt!"two", 2), (txt!"three", 3), (txt!"four", 4), (txt!"five", 5), (txt!"six", 6), (txt!"seven", 7),
   (txt!"eight", 8), (txt!"nine", 9), (txt!"ten", 10), (txt!"eleven", 11), (txt!"twelve", 12), (txt!"a", 1), (txt!"an", 1),
   (txt!"a few", 3)]

/-- A run of decimal digits. -/
def IsDigits (t : Text) : Prop := t ≠ [] ∧ ∀ c ∈ t, 48 ≤ c ∧ c ≤ 57

/-- `t` is a way to write `n`: in digits or as a word. -/
def IsNumeral (t : Text) (n : Nat) : Prop := (IsDigits t ∧ decimalValue t = n) ∨ (t, n) ∈ numberWords

/-- The deadline phrase. -/
def deadlineText (w num u : Text) : Text := w ++ txt!" " ++ num ++ txt!" " ++ u

/-- Spelled-out units, abbreviated units, words before the number. -/
def dateUnits : List Text := [txt!"day", txt!"days", txt!"week", txt!"weeks", txt!"month", txt!"months", txt!"year", txt!"years"]
def timeUnits : List Text := [txt!"hour", txt!"hours", txt!"minute", txt!"minutes", txt!"second", txt!"seconds"]
def shortUnits : List Text := [txt!"hr", txt!"hrs", txt!"min", txt!"mins", txt!"sec", txt!"secs", txt!"wk", txt!"wks", txt!"yr", txt!"yrs"]
def deadlineUnits : List Text := dateUnits ++ timeUnits ++ shortUnits
def deadlineWords : List Text := [txt!"in", txt!"within"]

/-! ## What the pattern finds -/

/-- The number and the unit are found where they are: number in digits. -/
theorem deadline_digits : (deadlineWords.all fun w => deadlineUnits.all fun u =>
    checkRun Ast.deadline (w ++ txt!" ") (txt!" " ++ u)
      [(3, some (w.length + 1, w.length + 2)), (4, some (w.length + 3, w.length + 3 + u.length))]) = true := by decide +kernel

/-- The same for a number word. -/
theorem deadline_words : (deadlineWords.all fun w => numberWords.all fun n => deadlineUnits.all fun u =>
    checkSpans Ast.deadline (deadlineText w n.1 u) (deadlineText w n.1 u).length
      [(3, some (w.length + 1, w.length + 1 + n.1.length)),
       (4, some (w.length + n.1.length + 2, w.length + n.1.length + 2 + u.length))]) = true := by decide +kernel

/-- Nothing is found, in any text of this shape, by any pattern but those of the parser at position `i` and of the
clock-time parser (position 8), which finds less than the text. -/
def othersShortT (i : Nat) (sl : List Slot) : Bool :=
  (List.range 12).all fun j => j == i ||
    match (mainPatterns[j]?).join with
    | none => true
    | some r => if j = 8 then r.notWhole sl else r.nowhere sl

theorem othersShortT_sound {i : Nat} {sl : List Slot} {t : Text} (h : othersShortT i sl = true) (hi : Inst sl t) (hne : t ≠ []) :
    othersShort i t = true := by
  unfold othersShortT at h
  unfold othersShort
  rw [List.all_eq_true] at *
  intro j hj
  have := h j hj
  rw [Bool.or_eq_true] at *
  refine this.imp id fun h => ?_
  cases hr : (mainPatterns[j]?).join with
  | none => rfl
  | some r =>
    rw [hr] at h
    simp only at h ⊢
    split at h
    · rename_i h8
      rw [if_pos h8]
      unfold shortFirst
      cases hs : r.search t with
      | none => rfl
      | some mt => simpa [hne] using Re.notWhole_sound h hi hs
    · rename_i h8
      rw [if_neg h8, Re.nowhere_sound h hi]
      rfl

/-- The shape of a deadline with a number in digits. -/
def deadlineShape (w u : Text) : List Slot := fixed (w ++ txt!" ") ++ [⟨[49], true⟩] ++ fixed (txt!" " ++ u)

theorem deadline_othersShort : (deadlineWords.all fun w => deadlineUnits.all fun u => othersShortT 1 (deadlineShape w u)) = true := by
  decide +kernel

theorem isDigits_digitB {t : Text} (h : IsDigits t) : ∀ c ∈ t, isDigitB c = true := fun c hc => isDigitB_iff.2 (h.2 c hc)

theorem dr_run {t : Text} (h : ∀ c ∈ t, isDigitB c = true) : List.Forall₂ DigitRel t (List.replicate t.length 49) := by
  induction t with
  | nil => exact .nil
  | cons c t ih =>
    exact .cons (.inr ⟨h c (by simp), by decide⟩) (ih fun x hx => h x (by simp [hx]))

theorem decimalValue_eq (t : Text) : decimalValue t = digitsVal 0 t := by
  unfold decimalValue
  generalize 0 = v
  induction t generalizing v with
  | nil => rfl
  | cons c t ih =>
    rw [List.foldl_cons, ih]
    show _ = digitsVal (v * 10 + (c - 48)) t
    rw [Nat.mul_comm]

theorem lowerB_digit {c : Nat} (h : isDigitB c = true) : lowerB c = c := by
  rw [isDigitB_iff] at h
  unfold lowerB; rw [if_neg (by omega)]

theorem toLower_digits {t : Text} (h : ∀ c ∈ t, isDigitB c = true) : toLower t = t := by
  unfold toLower
  conv_rhs => rw [← List.map_id t]
  exact List.map_congr_left fun c hc => lowerB_digit (h c hc)

theorem toLower_numeral {t : Text} {n : Nat} (h : IsNumeral t n) : toLower t = t := by
  rcases h with ⟨h, -⟩ | h
  · exact toLower_digits (isDigits_digitB h)
  · have : (numberWords.all fun p => toLower p.1 == p.1) = true := by decide
    simpa using List.all_eq_true.1 this _ h

theorem toLower_deadline {w num u : Text} {n : Nat} (hw : w ∈ deadlineWords) (hn : IsNumeral num n) (hu : u ∈ deadlineUnits) :
    toLower (deadlineText w num u) = deadlineText w num u := by
  have h1 : (deadlineWords.all fun p => toLower p == p) = true := by decide
  have h2 : (deadlineUnits.all fun p => toLower p == p) = true := by decide
  have e1 : toLower w = w := by simpa using List.all_eq_true.1 h1 _ hw
  have e2 : toLower u = u := by simpa using List.all_eq_true.1 h2 _ hu
  unfold deadlineText
  simp only [toLower_append, e1, e2, toLower_numeral hn]
  rfl

theorem slice_append_mid (a b c : Text) : slice (a ++ b ++ c) a.length (a.length + b.length) = b := by
  unfold slice
  rw [List.append_assoc, List.drop_left, Nat.add_sub_cancel_left, List.take_left]

theorem deadline_blind : Ast.deadline.digitBlind = true := by decide +kernel

theorem deadline_found {w num u : Text} {n : Nat} (hw : w ∈ deadlineWords) (hn : IsNumeral num n) (hu : u ∈ deadlineUnits) :
    ∃ mt, FoundAt0 Ast.deadline (deadlineText w num u) mt ∧ mt.str 0 = deadlineText w num u ∧ mt.str 3 = num ∧ mt.str 4 = u := by
  have s3 : slice (deadlineText w num u) (w.length + 1) (w.length + 1 + num.length) = num := by
    have := slice_append_mid (w ++ txt!" ") num (txt!" " ++ u)
    simpa [deadlineText] using this
  have s4 : slice (deadlineText w num u) (w.length + num.length + 2) (w.length + num.length + 2 + u.length) = u := by
    have := slice_append_mid (w ++ txt!" " ++ num ++ txt!" ") u []
    have e1 : (w ++ txt!" " ++ num ++ txt!" ").length = w.length + num.length + 2 := by simp; omega
    rw [e1] at this
    simpa [deadlineText] using this
  rcases hn with ⟨hn, -⟩ | hn
  · have hc := List.all_eq_true.1 (List.all_eq_true.1 deadline_digits w hw) u hu
    obtain ⟨mt, hf, h0, hg⟩ := foundRun (ds := num) _ hc hn.1 (isDigits_digitB hn)
    have e : w ++ txt!" " ++ num ++ (txt!" " ++ u) = deadlineText w num u := by unfold deadlineText; simp
    rw [e] at hf h0 hg
    have l1 : (w ++ txt!" ").length = w.length + 1 := by simp
    have hpos : 0 < num.length := List.length_pos_iff.2 hn.1
    refine ⟨mt, hf, h0, ?_, ?_⟩
    · rw [hg (3, _) List.mem_cons_self (by simp)]
      simp only [Option.map_some, spanText, l1, runOff]
      rw [if_pos (by omega), if_neg (by omega), show w.length + 2 - 1 + num.length = w.length + 1 + num.length by omega]
      exact s3
    · rw [hg (4, _) (List.mem_cons_of_mem _ List.mem_cons_self) (by simp)]
      simp only [Option.map_some, spanText, l1, runOff]
      rw [if_neg (by omega), if_neg (by omega), show w.length + 3 - 1 + num.length = w.length + num.length + 2 by omega,
        show w.length + 3 + u.length - 1 + num.length = w.length + num.length + 2 + u.length by omega]
      exact s4
  · have hc := List.all_eq_true.1 (List.all_eq_true.1 (List.all_eq_true.1 deadline_words w hw) _ hn) u hu
    obtain ⟨mt, hf, hst, h0, hg⟩ := foundSpans _ _ _ deadline_blind hc (dr_same _)
    refine ⟨mt, hf, by rw [h0, List.take_length], ?_, ?_⟩
    · rw [hg (3, _) List.mem_cons_self (by simp)]; exact s3
    · rw [hg (4, _) (List.mem_cons_of_mem _ List.mem_cons_self) (by simp)]; exact s4

theorem deadline_others {w num u : Text} (hw : w ∈ deadlineWords) (hn : IsDigits num) (hu : u ∈ deadlineUnits) :
    othersShort 1 (deadlineText w num u) = true := by
  have hdr : List.Forall₂ DigitRel (deadlineText w num u) (deadlineText w (List.replicate num.length 49) u) :=
    dr_append (dr_append (dr_append (dr_same _) (dr_run (isDigits_digitB hn))) (dr_same _)) (dr_same _)
  refine othersShort_sim hdr (othersShortT_sound (List.all_eq_true.1 (List.all_eq_true.1 deadline_othersShort w hw) u hu) ?_ ?_)
  · have e : deadlineText w (List.replicate num.length 49) u = (w ++ txt!" ") ++ List.replicate num.length 49 ++ (txt!" " ++ u) := by
      unfold deadlineText; simp
    rw [e]
    exact .append (.append (.fixed _) (.run (by simp))) (.fixed _)
  · unfold deadlineText; simp

/-! ## The number -/

theorem startsWith_no {p : Text} {c0 : Nat} (h0 : isDigitB c0 = false) : ∀ {t : Text}, (∀ c ∈ t, isDigitB c = true) →
    contains (c0 :: p) t = false := by
  intro t
  unfold contains
  induction t with
  | nil => intro _; rfl
  | cons c t ih =>
    intro h
    unfold find
    have hc : ¬ startsWith (c :: t) (c0 :: p) = true := by
      unfold startsWith
      have := h c (by simp)
      simp only [Bool.and_eq_true, beq_iff_eq]
      rintro ⟨rfl, -⟩
      rw [h0] at this; cases this
    rw [if_neg hc]
    have := ih (fun x hx => h x (by simp [hx]))
    cases hf : find (c0 :: p) t with
    | none => rfl
    | some n => rw [hf] at this; cases this

theorem lookup_none {m : WordMap} {t : Text} (h : ∀ p ∈ m, p.1 ≠ t) : WordMap.lookup m t = none := by
  induction m with
  | nil => rfl
  | cons p m ih =>
    unfold WordMap.lookup
    rw [if_neg (h p (by simp)), ih (fun q hq => h q (by simp [hq]))]

theorem integerWords_digits {t : Text} (hne : t ≠ []) (h : ∀ c ∈ t, isDigitB c = true) : WordMap.lookup integerWords t = none := by
  refine lookup_none fun p hp e => ?_
  have : (integerWords.all fun p => p.1.all fun c => ! isDigitB c) = true := by decide
  have h1 := List.all_eq_true.1 this p hp
  cases t with
  | nil => exact hne rfl
  | cons c t =>
    rw [e] at h1
    have := List.all_eq_true.1 h1 c (by simp)
    rw [h c (by simp)] at this
    cases this

theorem deadlineNumber_ok {g : Globals} {num : Text} {n : Nat} (hn : IsNumeral num n) (hsm : n ≤ 2147483647)
    (hg : WordMap.lookup g num = WordMap.lookup integerWords num) : deadlineNumber g num = .ok (some (FNum.ofNat n)) := by
  unfold deadlineNumber
  rw [hg]
  rcases hn with ⟨hn, rfl⟩ | hn
  · have hd := isDigits_digitB hn
    rw [integerWords_digits hn.1 hd]
    simp only []
    have ha : ¬ (num = txt!"a" ∨ num = txt!"an") := by
      rintro (rfl | rfl) <;> exact absurd (hd 97 (by simp)) (by decide)
    rw [if_neg ha, if_neg (by rw [startsWith_no (by decide) hd]; simp), if_neg (by rw [startsWith_no (by decide) hd]; simp),
      stoi_digits hn.1 hd, ← decimalValue_eq, if_pos hsm]
    simp
  · have : (numberWords.all fun p => decide ((match WordMap.lookup integerWords p.1 with
      | some n => Out.ok (some (FNum.ofNat n))
      | none => if p.1 = txt!"a" ∨ p.1 = txt!"an" then Out.ok (some (FNum.int 1)) else
        if contains txt!"few" p.1 then Out.ok (some (FNum.int 3)) else Out.ok none) = .ok (some (FNum.ofNat p.2)))) = true := by decide
    have h1 := List.all_eq_true.1 this _ hn
    simp only [decide_eq_true_eq] at h1
    revert h1
    cases WordMap.lookup integerWords num with
    | some k => exact id
    | none =>
      simp only []
      split
      · exact id
      · split
        · exact id
        · intro h; cases h

end Chrono.Props
