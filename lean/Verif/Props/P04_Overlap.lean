import Verif.Spec.Spans
import Verif.Model.Refiners.Overlap
import Verif.Lemmas.Tac
/-!
# C42-C46: `OverlapRemover::refine`
-/
namespace Chrono.Props
open Chrono Chrono.Spec

theorem olrLoop_sublist (prev : PResult) (l : List PResult) : (olrLoop prev l).Sublist (prev :: l) := by
  induction l generalizing prev with
  | nil => unfold olrLoop; split <;> simp
  | cons t rest ih =>
    unfold olrLoop
    split
    · split
      · exact (ih t).trans (List.sublist_cons_self _ _)
      · exact (ih prev).trans (List.Sublist.cons_cons _ (List.sublist_cons_self _ _))
    · exact List.Sublist.cons_cons _ (ih t)

theorem overlapRefine_sublist (l : List PResult) : (overlapRefine l).Sublist l := by
  match l with
  | [] => simp [overlapRefine]
  | [r] => simp [overlapRefine]
  | r0 :: r1 :: rest => exact olrLoop_sublist r0 (r1 :: rest)

theorem olrLoop_disjoint (prev : PResult) (l : List PResult) (hs : SortedByIndex (prev :: l)) :
    (olrLoop prev l).Pairwise Before := by
  induction l generalizing prev with
  | nil => unfold olrLoop; split <;> simp
  | cons t rest ih =>
    have hs' : SortedByIndex (t :: rest) := (List.pairwise_cons.1 hs).2
    have hp : SortedByIndex (prev :: rest) := hs.sublist
      (List.Sublist.cons_cons _ (List.sublist_cons_self _ _))
    unfold olrLoop
    split
    · split
      · exact ih t hs'
      · exact ih prev hp
    · rename_i hn
      refine List.pairwise_cons.2 ⟨?_, ih t hs'⟩
      intro x hx
      have hm := (olrLoop_sublist t rest).mem hx
      have : t.index ≤ x.index := by
        rcases List.mem_cons.1 hm with rfl | hm
        · exact Nat.le_refl _
        · exact (List.pairwise_cons.1 hs').1 x hm
      unfold Before stop
      omega

/-- **C42.** On a list sorted by index the overlap remover returns a sub-sequence whose spans are disjoint and
in order. -/
theorem c42_sublist_and_disjoint (l : List PResult) (hs : SortedByIndex l) :
    (overlapRefine l).Sublist l ∧ (overlapRefine l).Pairwise Before := by
  refine ⟨overlapRefine_sublist l, ?_⟩
  match l with
  | [] => simp [overlapRefine]
  | [r] => simp [overlapRefine]
  | r0 :: r1 :: rest => exact olrLoop_disjoint r0 (r1 :: rest) hs

/-- Hypothesis met, with a genuine overlap: spans 0-5, 3-11, 12-14. -/
example : SortedByIndex [mention 0 5, mention 3 8, mention 12 2] ∧
    (overlapRefine [mention 0 5, mention 3 8, mention 12 2]).map (fun r => (r.index, r.textLength)) =
      [(3, 8), (12, 2)] := by
  constructor
  · simp [SortedByIndex, mention]
  · decide

theorem nonEmpty_not_isEmpty {r : PResult} (h : NonEmpty r) : r.isEmpty = false := by
  unfold NonEmpty PResult.textLength at h
  unfold PResult.isEmpty
  cases ht : r.text with
  | nil => simp [ht] at h
  | cons c t => simp

theorem olrLoop_keeps_longest (prev r : PResult) (l : List PResult) (hr : NonEmpty r)
    (hmem : r ∈ prev :: l) (hlong : ∀ x ∈ prev :: l, x = r ∨ x.textLength < r.textLength) :
    r ∈ olrLoop prev l := by
  induction l generalizing prev with
  | nil =>
    simp only [List.mem_cons, List.not_mem_nil, or_false] at hmem
    subst hmem
    unfold olrLoop
    rw [nonEmpty_not_isEmpty hr]; simp
  | cons t rest ih =>
    have hp := hlong prev (by simp)
    have ht := hlong t (by simp)
    unfold olrLoop
    split
    · split
      · rename_i hlt
        have hpr : prev ≠ r := by
          rintro rfl
          rcases ht with rfl | ht <;> omega
        apply ih t
        · rcases List.mem_cons.1 hmem with h | h
          · exact absurd h.symm hpr
          · exact h
        · intro x hx; exact hlong x (List.mem_cons_of_mem _ hx)
      · rename_i hlt
        apply ih prev
        · rcases List.mem_cons.1 hmem with h | h
          · rw [h]; simp
          · rcases List.mem_cons.1 h with h | h
            · subst h
              rcases hp with rfl | hp
              · simp
              · omega
            · exact List.mem_cons_of_mem _ h
        · intro x hx
          rcases List.mem_cons.1 hx with rfl | hx
          · exact hp
          · exact hlong x (by simp [hx])
    · rcases List.mem_cons.1 hmem with h | h
      · rw [h]; simp
      · apply List.mem_cons_of_mem
        apply ih t h
        intro x hx; exact hlong x (List.mem_cons_of_mem _ hx)

theorem olrLoop_ne_nil (prev : PResult) (l : List PResult) (h : ∀ x ∈ prev :: l, NonEmpty x) :
    olrLoop prev l ≠ [] := by
  induction l generalizing prev with
  | nil =>
    unfold olrLoop
    rw [nonEmpty_not_isEmpty (h prev (by simp))]; simp
  | cons t rest ih =>
    unfold olrLoop
    split
    · split
      · exact ih t (fun x hx => h x (List.mem_cons_of_mem _ hx))
      · refine ih prev (fun x hx => ?_)
        rcases List.mem_cons.1 hx with rfl | hx
        · exact h _ (by simp)
        · exact h x (by simp [hx])
    · simp

/-- **C43.** A non-empty result that is strictly longer than every other one is kept, and a non-empty list of
non-empty results never becomes empty (no assumption on the order). -/
theorem c43_longest_survives (l : List PResult) :
    (∀ r ∈ l, NonEmpty r → (∀ x ∈ l, x = r ∨ x.textLength < r.textLength) → r ∈ overlapRefine l) ∧
    ((∀ x ∈ l, NonEmpty x) → l ≠ [] → overlapRefine l ≠ []) := by
  constructor
  · intro r hm hr hl
    match l with
    | [] => simp at hm
    | [x] => simpa [overlapRefine] using hm
    | r0 :: r1 :: rest => exact olrLoop_keeps_longest r0 r (r1 :: rest) hr hm hl
  · intro h hne
    match l with
    | [] => exact absurd rfl hne
    | [x] => simp [overlapRefine]
    | r0 :: r1 :: rest => exact olrLoop_ne_nil r0 (r1 :: rest) h

example : NonEmpty (mention 3 8) ∧ (∀ x ∈ [mention 0 5, mention 3 8, mention 12 2],
    x = mention 3 8 ∨ x.textLength < (mention 3 8).textLength) := by
  refine ⟨by decide, ?_⟩
  intro x hx
  simp only [List.mem_cons, List.not_mem_nil, or_false] at hx
  rcases hx with rfl | rfl | rfl
  · right; decide
  · left; rfl
  · right; decide

theorem olrLoop_id (prev : PResult) (l : List PResult) (hd : (prev :: l).Pairwise Before)
    (hlast : ∀ x, (prev :: l).getLast? = some x → x.isEmpty = false) : olrLoop prev l = prev :: l := by
  induction l generalizing prev with
  | nil => unfold olrLoop; rw [hlast prev rfl]; simp
  | cons t rest ih =>
    have hb := (List.pairwise_cons.1 hd).1 t (by simp)
    unfold Before stop at hb
    unfold olrLoop
    rw [if_neg (by omega), ih t (List.pairwise_cons.1 hd).2]
    intro x hx
    exact hlast x (by rw [List.getLast?_cons_cons]; exact hx)

/-- **C44.** Applying the overlap remover twice to a sorted list of non-empty results is the same as
applying it once. -/
theorem c44_idempotent (l : List PResult) (hs : SortedByIndex l) (hne : ∀ x ∈ l, NonEmpty x) :
    overlapRefine (overlapRefine l) = overlapRefine l := by
  obtain ⟨hsub, hd⟩ := c42_sublist_and_disjoint l hs
  have hne' : ∀ x ∈ overlapRefine l, NonEmpty x := fun x hx => hne x (hsub.mem hx)
  generalize overlapRefine l = m at hd hne'
  match m with
  | [] => rfl
  | [r] => rfl
  | r0 :: r1 :: rest =>
    show olrLoop r0 (r1 :: rest) = _
    refine olrLoop_id r0 _ hd (fun x hx => nonEmpty_not_isEmpty (hne' x ?_))
    exact List.mem_of_getLast? hx

theorem olrLoop_linked (L : List PResult) (prev : PResult) (l : List PResult) (hs : SortedByIndex (prev :: l))
    (hne : ∀ x ∈ prev :: l, NonEmpty x) (hL : ∀ x ∈ prev :: l, x ∈ L) :
    ∀ x ∈ prev :: l, ∃ y ∈ olrLoop prev l, Linked L x y ∧ x.textLength ≤ y.textLength := by
  induction l generalizing prev with
  | nil =>
    intro x hx
    have : x = prev := by simpa using hx
    subst this
    refine ⟨x, ?_, .refl x, Nat.le_refl _⟩
    unfold olrLoop; rw [nonEmpty_not_isEmpty (hne x (by simp))]; simp
  | cons t rest ih =>
    have hs' : SortedByIndex (t :: rest) := (List.pairwise_cons.1 hs).2
    have hp : SortedByIndex (prev :: rest) := hs.sublist
      (List.Sublist.cons_cons _ (List.sublist_cons_self _ _))
    have hpt : prev.index ≤ t.index := (List.pairwise_cons.1 hs).1 t (by simp)
    have hnt := hne t (by simp)
    have hnp := hne prev (by simp)
    unfold NonEmpty at hnt hnp
    unfold olrLoop
    split
    · rename_i hov
      have hO : Overlap prev t := by unfold Overlap stop; omega
      have hO' : Overlap t prev := by unfold Overlap stop; omega
      split
      · rename_i hlt
        have IH := ih t hs' (fun x hx => hne x (List.mem_cons_of_mem _ hx))
          (fun x hx => hL x (List.mem_cons_of_mem _ hx))
        intro x hx
        rcases List.mem_cons.1 hx with rfl | hx
        · obtain ⟨y, hy, hl, hlen⟩ := IH t (by simp)
          exact ⟨y, hy, .step (hL x (by simp)) (hL t (by simp)) hO hl, by omega⟩
        · exact IH x hx
      · rename_i hlt
        have IH := ih prev hp
          (fun x hx => by
            rcases List.mem_cons.1 hx with rfl | hx
            · exact hne _ (by simp)
            · exact hne x (by simp [hx]))
          (fun x hx => by
            rcases List.mem_cons.1 hx with rfl | hx
            · exact hL _ (by simp)
            · exact hL x (by simp [hx]))
        intro x hx
        rcases List.mem_cons.1 hx with rfl | hx
        · exact IH x (by simp)
        · rcases List.mem_cons.1 hx with rfl | hx
          · obtain ⟨y, hy, hl, hlen⟩ := IH prev (by simp)
            exact ⟨y, hy, .step (hL x (by simp)) (hL prev (by simp)) hO' hl, by omega⟩
          · exact IH x (by simp [hx])
    · have IH := ih t hs' (fun x hx => hne x (List.mem_cons_of_mem _ hx))
        (fun x hx => hL x (List.mem_cons_of_mem _ hx))
      intro x hx
      rcases List.mem_cons.1 hx with rfl | hx
      · exact ⟨x, by simp, .refl x, Nat.le_refl _⟩
      · obtain ⟨y, hy, h⟩ := IH x hx
        exact ⟨y, List.mem_cons_of_mem _ hy, h⟩

/-- **C45 (partial).** Every result is linked to a kept result, at least as long, by a chain of overlaps
inside the list. (The wanted property asks for a *direct* overlap; see the refutation.) -/
theorem c45_discarded_linked_to_kept_partial (l : List PResult) (hs : SortedByIndex l)
    (hne : ∀ x ∈ l, NonEmpty x) :
    ∀ x ∈ l, ∃ y ∈ overlapRefine l, Linked l x y ∧ x.textLength ≤ y.textLength := by
  match l with
  | [] => simp
  | [r] => intro x hx; exact ⟨x, hx, .refl x, Nat.le_refl _⟩
  | r0 :: r1 :: rest =>
    exact olrLoop_linked (r0 :: r1 :: rest) r0 (r1 :: rest) hs hne (fun _ h => h)

/-- **C45 (refutation).** Spans 0-3, 2-6, 5-10: the first is discarded for the second, the second for the
third, and the first overlaps nothing that is kept. -/
theorem c45_direct_overlap_refuted :
    ∃ l : List PResult, SortedByIndex l ∧ (∀ x ∈ l, NonEmpty x) ∧
      ∃ x ∈ l, ∀ y ∈ overlapRefine l, x ≠ y ∧ ¬ Overlap x y := by
  refine ⟨[mention 0 3, mention 2 4, mention 5 5], ?_, ?_, mention 0 3, by simp, ?_⟩
  · simp [SortedByIndex, mention]
  · intro x hx
    simp only [List.mem_cons, List.not_mem_nil, or_false] at hx
    rcases hx with rfl | rfl | rfl <;> decide
  · have : overlapRefine [mention 0 3, mention 2 4, mention 5 5] = [mention 5 5] := rfl
    rw [this]
    intro y hy
    simp only [List.mem_cons, List.not_mem_nil, or_false] at hy
    subst hy
    constructor
    · intro h
      have := congrArg PResult.index h
      simp [mention] at this
    · unfold Overlap; decide

/-! ## C46 -/

theorem olrLoop_swap (prev a b : PResult) (l : List PResult) (hi : a.index = b.index)
    (ha : NonEmpty a) (hb : NonEmpty b) (hd : a.textLength ≠ b.textLength) :
    olrLoop prev (a :: b :: l) = olrLoop prev (b :: a :: l) := by
  unfold NonEmpty at ha hb
  have e : ∀ (p x : PResult) (m : List PResult), olrLoop p (x :: m) =
      if x.index < p.index + p.textLength then
        if x.textLength > p.textLength then olrLoop x m else olrLoop p m
      else p :: olrLoop x m := fun _ _ _ => rfl
  simp only [e]
  split_ifs <;> first | rfl | omega

theorem olrLoop_move (prev a : PResult) (p q : List PResult)
    (h : ∀ x ∈ p, x.index = a.index ∧ NonEmpty x ∧ x.textLength ≠ a.textLength) (ha : NonEmpty a) :
    olrLoop prev (p ++ a :: q) = olrLoop prev (a :: (p ++ q)) := by
  have key : ∀ (p q : List PResult), (∀ x ∈ p, x.index = a.index ∧ NonEmpty x ∧
      x.textLength ≠ a.textLength) → ∀ prev, olrLoop prev (p ++ a :: q) = olrLoop prev (a :: (p ++ q)) := by
    intro p
    induction p with
    | nil => intro q _ prev; rfl
    | cons x p ih =>
      intro q h prev
      have hx := h x (by simp)
      have h' : ∀ y ∈ p, y.index = a.index ∧ NonEmpty y ∧ y.textLength ≠ a.textLength :=
        fun y hy => h y (List.mem_cons_of_mem _ hy)
      have e : ∀ (p x : PResult) (m : List PResult), olrLoop p (x :: m) =
          if x.index < p.index + p.textLength then
            if x.textLength > p.textLength then olrLoop x m else olrLoop p m
          else p :: olrLoop x m := fun _ _ _ => rfl
      have step : olrLoop prev (x :: (p ++ a :: q)) = olrLoop prev (x :: a :: (p ++ q)) := by
        rw [e, e, ih q h' x, ih q h' prev]
      show olrLoop prev (x :: (p ++ a :: q)) = olrLoop prev (a :: x :: (p ++ q))
      rw [step]
      exact olrLoop_swap prev x a _ hx.1 hx.2.1 ha hx.2.2
  exact key p q h prev

theorem olrLoop_perm (l l' : List PResult) (hp : l'.Perm l) (hs : SortedByIndex l) (hs' : SortedByIndex l')
    (hne : ∀ x ∈ l, NonEmpty x)
    (hd : l.Pairwise (fun a b => ¬ (a.index = b.index ∧ a.textLength = b.textLength))) (prev : PResult) :
    olrLoop prev l' = olrLoop prev l := by
  induction l generalizing l' prev with
  | nil => rw [List.Perm.eq_nil hp]
  | cons a l ih =>
    have hmem : a ∈ l' := hp.symm.mem_iff.1 (by simp)
    obtain ⟨p, q, rfl⟩ := List.append_of_mem hmem
    have hpq : (p ++ q).Perm l := by
      have := (List.perm_middle (a := a) (l₁ := p) (l₂ := q)).symm.trans hp
      exact List.Perm.cons_inv this
    have hpin : ∀ x ∈ p, x ∈ l := fun x hx => hpq.mem_iff.1 (by simp [hx])
    have hd1 := (List.pairwise_cons.1 hd).1
    rw [olrLoop_move prev a p q ?_ (hne a (by simp))]
    · have e : ∀ (p x : PResult) (m : List PResult), olrLoop p (x :: m) =
          if x.index < p.index + p.textLength then
            if x.textLength > p.textLength then olrLoop x m else olrLoop p m
          else p :: olrLoop x m := fun _ _ _ => rfl
      have hsub : (p ++ q).Sublist (p ++ a :: q) :=
        List.Sublist.append (List.Sublist.refl p) (List.sublist_cons_self a q)
      have IH := ih (p ++ q) hpq (List.pairwise_cons.1 hs).2 (hs'.sublist hsub)
        (fun x hx => hne x (List.mem_cons_of_mem _ hx)) (List.pairwise_cons.1 hd).2
      rw [e, e, IH a, IH prev]
    · intro x hx
      have h1 : a.index ≤ x.index := (List.pairwise_cons.1 hs).1 x (hpin x hx)
      have h2 : x.index ≤ a.index := by
        have := List.pairwise_append.1 hs'
        exact this.2.2 x hx a (by simp)
      have h3 := hd1 x (hpin x hx)
      exact ⟨by omega, hne x (List.mem_cons_of_mem _ (hpin x hx)), fun he => h3 ⟨by omega, by omega⟩⟩

theorem overlapRefine_eq_tail (l : List PResult) (hne : ∀ x ∈ l, NonEmpty x) :
    overlapRefine l = (olrLoop (mention 0 0) l).tail := by
  match l with
  | [] => rfl
  | [r] =>
    have := nonEmpty_not_isEmpty (hne r (by simp))
    have e : olrLoop (mention 0 0) [r] = mention 0 0 :: olrLoop r [] := by
      show (if r.index < (mention 0 0).index + (mention 0 0).textLength then _ else _) = _
      rw [if_neg (by simp [mention, PResult.textLength])]
    rw [e, olrLoop, this]; rfl
  | r0 :: r1 :: rest =>
    have e : olrLoop (mention 0 0) (r0 :: r1 :: rest) = mention 0 0 :: olrLoop r0 (r1 :: rest) := by
      show (if r0.index < (mention 0 0).index + (mention 0 0).textLength then _ else _) = _
      rw [if_neg (by simp [mention, PResult.textLength])]
    rw [e]; rfl

/-- **C46.** If no two results have the same index and the same length, every two index-sorted arrangements of
them give the same list after overlap removal. -/
theorem c46_sort_order_irrelevant (l l' : List PResult) (hp : l'.Perm l) (hs : SortedByIndex l)
    (hs' : SortedByIndex l') (hne : ∀ x ∈ l, NonEmpty x)
    (hd : l.Pairwise (fun a b => ¬ (a.index = b.index ∧ a.textLength = b.textLength))) :
    overlapRefine l' = overlapRefine l := by
  rw [overlapRefine_eq_tail l hne,
    overlapRefine_eq_tail l' (fun x hx => hne x (hp.mem_iff.1 hx)), olrLoop_perm l l' hp hs hs' hne hd]

/-- Hypotheses met by two different arrangements of the same results. -/
example : ∃ l l' : List PResult, l'.Perm l ∧ SortedByIndex l ∧ SortedByIndex l' ∧ (∀ x ∈ l, NonEmpty x) ∧
    l.Pairwise (fun a b => ¬ (a.index = b.index ∧ a.textLength = b.textLength)) ∧
    l.map PResult.textLength ≠ l'.map PResult.textLength := by
  refine ⟨[mention 2 3, mention 2 4], [mention 2 4, mention 2 3], List.Perm.swap _ _ _, ?_, ?_, ?_, ?_, ?_⟩
  · simp [SortedByIndex, mention]
  · simp [SortedByIndex, mention]
  · intro x hx
    simp only [List.mem_cons, List.not_mem_nil, or_false] at hx
    rcases hx with rfl | rfl <;> decide
  · simp [mention, PResult.textLength]
  · decide

end Chrono.Props
