import Verif.Spec.History
import Verif.Lemmas.Tac
/-!
# C05-C07, C11: `ParsedResult` copies and tags
-/
namespace Chrono
open Chrono.Spec

theorem PResult.copy_copy (r : PResult) : r.copy.copy = r.copy := by
  cases r; simp only [PResult.copy]; split <;> simp_all

namespace Props

/-- Everything a caller can observe of a `ParsedResult`: position, text length, all tags, every start getter
and certainty answer, the `end()` flag, the end components when there is an end, and `toDate()`. -/
def SameObservation (a b : PResult) : Prop :=
  a.index = b.index ∧ a.textLength = b.textLength ∧ (∀ t, a.getTag t = b.getTag t) ∧
  (∀ k, a.startDate.get k = b.startDate.get k) ∧
  (∀ n, a.startDate.isCertainName n = b.startDate.isCertainName n) ∧
  a.hasEnd = b.hasEnd ∧
  (a.hasEnd = true → (∀ k, a.endDate.get k = b.endDate.get k) ∧
    ∀ n, a.endDate.isCertainName n = b.endDate.isCertainName n) ∧
  a.toDate = b.toDate ∧ a.hasPossibleDates = b.hasPossibleDates

/-- **C05.** Copy construction and assignment preserve everything observable, and the future effect of tag
operations as well (the stored tag map is equal); copying twice is the same as copying once. -/
theorem c05_copy_preserves_observation (r old : PResult) :
    SameObservation r.copy r ∧ SameObservation (PResult.assign old r) r ∧
    (∀ h : List TagCall, SameObservation (afterTagCalls r.copy h) (afterTagCalls r h)) ∧
    r.copy.copy = r.copy := by
  have key : ∀ (r : PResult), SameObservation r.copy r := by
    intro r
    unfold SameObservation
    refine ⟨rfl, rfl, fun _ => rfl, fun _ => rfl, fun _ => rfl, rfl, ?_, ?_, rfl⟩
    · intro h
      have h' : r.hasEnd = true := h
      simp [PResult.copy, h']
    · unfold PResult.toDate
      by_cases h : r.hasEnd = true
      · simp [PResult.copy, h, PResult.getTag]; rfl
      · simp [PResult.copy, h, PResult.getTag]; rfl
  have hrun : ∀ (x : TagCall) (r : PResult), x.run r.copy = (x.run r).copy := by
    intro x r
    cases x with
    | set u =>
      simp only [TagCall.run, PResult.setTag]
      cases hu : r.tags u <;> simp [PResult.copy, hu]
    | get u =>
      simp only [TagCall.run, PResult.touchTag]
      cases hu : r.tags u <;> simp [PResult.copy, hu]
  have hall : ∀ (h : List TagCall) (r : PResult), afterTagCalls r.copy h = (afterTagCalls r h).copy := by
    intro h
    induction h with
    | nil => intro r; rfl
    | cons x h ih =>
      intro r
      show afterTagCalls (x.run r.copy) h = _
      rw [hrun, ih]; rfl
  exact ⟨key r, key r, fun h => by rw [hall]; exact key _, PResult.copy_copy r⟩

/-- The end components are indeed dropped by a copy when there is no end: the hypothesis `hasEnd` matters. -/
example : ∃ r : PResult, r.hasEnd = false ∧ r.endDate.get .year = 5 ∧ r.copy.endDate.get .year = 0 :=
  ⟨{ PResult.default with endDate := Comps.empty.set .year 5 }, rfl, by decide, by decide⟩

theorem tags_after (r : PResult) (h : List TagCall) (t : Tag) :
    (afterTagCalls r h).tags t =
      match r.tags t with
      | some b => some b
      | none =>
        match h.find? (fun x => decide (x.tag = t)) with
        | some (.set _) => some true
        | some (.get _) => some false
        | none => none := by
  induction h generalizing r with
  | nil => simp [afterTagCalls]; cases r.tags t <;> rfl
  | cons x h ih =>
    show (afterTagCalls (x.run r) h).tags t = _
    rw [ih]
    by_cases hx : x.tag = t
    · subst hx
      rw [List.find?_cons_of_pos (by simp)]
      cases x with
      | set u =>
        simp only [TagCall.run, PResult.setTag, TagCall.tag]
        cases hu : r.tags u <;> simp [hu]
      | get u =>
        simp only [TagCall.run, PResult.touchTag, TagCall.tag]
        cases hu : r.tags u <;> simp [hu]
    · rw [List.find?_cons_of_neg (by simpa using hx)]
      have : (x.run r).tags t = r.tags t := by
        cases x with
        | set u =>
          have hne : t ≠ u := fun e => hx e.symm
          simp only [TagCall.run, PResult.setTag]
          split <;> simp [hne]
        | get u =>
          have hne : t ≠ u := fun e => hx e.symm
          simp only [TagCall.run, PResult.touchTag]
          split <;> simp [hne]
      rw [this]

/-- **C06.** After any history of tag calls on a fresh result, a tag reads true iff the first call in the
history that mentions it is `setTag`. -/
theorem c06_tag_true_iff_first_mention_is_set (anchor : Boost.PTime) (i : Nat) (tx : Text)
    (h : List TagCall) (t : Tag) :
    (afterTagCalls (PResult.mk' anchor i tx) h).getTag t = true ↔
      ∃ pre post, h = pre ++ TagCall.set t :: post ∧ ∀ x ∈ pre, x.tag ≠ t := by
  unfold PResult.getTag
  rw [tags_after]
  simp only [PResult.mk']
  cases hf : h.find? (fun x => decide (x.tag = t)) with
  | none =>
    simp only [Option.getD]
    constructor
    · intro e; exact absurd e (by decide)
    · rintro ⟨pre, post, rfl, -⟩
      rw [List.find?_eq_none] at hf
      exact absurd (hf (TagCall.set t) (by simp)) (by simp [TagCall.tag])
  | some x =>
    rw [List.find?_eq_some_iff_append] at hf
    obtain ⟨hx, pre, post, rfl, hpre⟩ := hf
    have hx' : x.tag = t := by simpa using hx
    cases x with
    | set u =>
      simp only [TagCall.tag] at hx'
      subst hx'
      simp only [Option.getD, true_iff]
      exact ⟨pre, post, rfl, fun y hy => by simpa using hpre y hy⟩
    | get u =>
      simp only [TagCall.tag] at hx'
      subst hx'
      simp only [Option.getD]
      constructor
      · intro e; exact absurd e (by decide)
      · rintro ⟨pre', post', he, hpre'⟩
        rw [List.append_eq_append_iff] at he
        rcases he with ⟨a, rfl, ha⟩ | ⟨a, rfl, ha⟩
        · cases a with
          | nil => simp at ha
          | cons y a =>
            simp only [List.cons_append, List.cons.injEq] at ha
            exact absurd (hpre' y (by simp)) (by simp [← ha.1, TagCall.tag])
        · cases a with
          | nil => simp at ha
          | cons y a =>
            simp only [List.cons_append, List.cons.injEq] at ha
            have := hpre y (by simp)
            rw [← ha.1] at this
            simp [TagCall.tag] at this

example : (afterTagCalls PResult.default [.get .iso, .set .timeAgo, .get .timeAgo, .set .iso]).getTag .timeAgo
    = true ∧ (afterTagCalls PResult.default [.get .iso, .set .timeAgo, .set .iso]).getTag .iso = false := by
  decide

/-- **C07 (partial).** `setTag(m)` makes `getTag(m)` true, provided `m` was not read before being set (if it was, the
next theorem shows that it has no effect). -/
theorem c07_setTag_effective_partial (anchor : Boost.PTime) (i : Nat) (tx : Text) (h : List TagCall) (t : Tag)
    (hnoread : TagCall.get t ∉ h) :
    (afterTagCalls (PResult.mk' anchor i tx) (h ++ [.set t])).getTag t = true := by
  rw [c06_tag_true_iff_first_mention_is_set]
  induction h with
  | nil => exact ⟨[], [], rfl, by simp⟩
  | cons x h ih =>
    by_cases hx : x.tag = t
    · cases x with
      | set u => simp only [TagCall.tag] at hx; subst hx; exact ⟨[], h ++ [.set u], rfl, by simp⟩
      | get u => simp only [TagCall.tag] at hx; subst hx; simp at hnoread
    · obtain ⟨pre, post, he, hp⟩ := ih (fun hm => hnoread (List.mem_cons_of_mem _ hm))
      refine ⟨x :: pre, post, by simp [he], ?_⟩
      intro y hy
      rcases List.mem_cons.1 hy with rfl | hy
      · exact hx
      · exact hp y hy

/-- **C07 (refutation).** In general `setTag` can be without effect: any tag that was read first stays false
for ever. -/
theorem c07_setTag_refuted (anchor : Boost.PTime) (i : Nat) (tx : Text) (t : Tag) (h : List TagCall) :
    (afterTagCalls (PResult.mk' anchor i tx) (TagCall.get t :: h ++ [.set t])).getTag t = false := by
  rw [← Bool.not_eq_true, c06_tag_true_iff_first_mention_is_set]
  rintro ⟨pre, post, he, hp⟩
  cases pre with
  | nil => simp at he
  | cons y pre =>
    simp only [List.cons_append, List.cons.injEq] at he
    exact hp y (by simp) (by rw [← he.1]; rfl)

/-- **C11.** `hasPossibleDates()` is false exactly for the all-zero result without an end. -/
theorem c11_hasPossibleDates_false_iff (r : PResult) :
    r.hasPossibleDates = false ↔
      r.startDate.get .year = 0 ∧ r.startDate.get .month = 0 ∧ r.startDate.get .mday = 0 ∧
      r.startDate.get .hour = 0 ∧ r.startDate.get .min = 0 ∧ r.startDate.get .sec = 0 ∧
      r.hasEnd = false := by
  unfold PResult.hasPossibleDates
  simp only [Bool.not_eq_false', Bool.and_eq_true, beq_iff_eq, Bool.not_eq_true']
  tauto

example : PResult.default.hasPossibleDates = false ∧
    (PResult.default.onStart (·.imply .sec 1)).hasPossibleDates = true ∧
    PResult.default.makeEndValid.hasPossibleDates = true := by decide

end Props
end Chrono
