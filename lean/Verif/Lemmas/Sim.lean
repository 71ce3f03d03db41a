import Verif.Lemmas.Analysis
/-!
# Matching only depends on what the pattern's character tests see

Two texts whose bytes are pairwise indistinguishable for the tests of a pattern are matched alike; and matching the
rest of a text does not depend on how much has been consumed before.
-/
namespace Chrono

/-- Does every character test of `r` answer the same for `c` and `c'`? -/
def Re.sameOn (c c' : Nat) : Re → Bool
  | .one d => d.test c == d.test c'
  | .seq a b => a.sameOn c c' && b.sameOn c c'
  | .alt a b => a.sameOn c c' && b.sameOn c c'
  | .star _ r => r.sameOn c c'
  | .cap _ r => r.sameOn c c'
  | .look _ r => r.sameOn c c'
  | .wb _ => isWordB c == isWordB c'
  | _ => true

/-- Both absent, or both present and related. -/
inductive OptRel {α β : Type} (Q : α → β → Prop) : Option α → Option β → Prop where
  | none : OptRel Q none none
  | some {a b} : Q a b → OptRel Q (some a) (some b)

theorem OptRel.isSome {α β : Type} {Q : α → β → Prop} {x : Option α} {y : Option β} (h : OptRel Q x y) :
    x.isSome = y.isSome := by cases h <;> rfl

def shiftCap (δ : Nat) (x : Nat × Nat × Nat) : Nat × Nat × Nat := (x.1, x.2.1 + δ, x.2.2 + δ)

/-- States that look alike: `s` is `δ` further on, and has the groups of `base` in addition. -/
structure Sim (R : Nat → Nat → Prop) (δ : Nat) (base : List (Nat × Nat × Nat)) (s s' : St) : Prop where
  pos : s.pos = s'.pos + δ
  prev : OptRel R s.prev s'.prev
  rest : List.Forall₂ R s.rest s'.rest
  caps : s.caps = s'.caps.map (shiftCap δ) ++ base

theorem orElse'_rel {α β : Type} {Q : α → β → Prop} {x : Option α} {x' : Option β} {y : Unit → Option α} {y' : Unit → Option β}
    (h : OptRel Q x x') (h' : OptRel Q (y ()) (y' ())) : OptRel Q (orElse' x y) (orElse' x' y') := by
  cases h with
  | none => exact h'
  | some h => exact .some h

theorem atWordBoundary_sim {R : Nat → Nat → Prop} {δ : Nat} {base} {s s' : St} (h : Sim R δ base s s')
    (hw : ∀ c c', R c c' → isWordB c = isWordB c') : s.atWordBoundary = s'.atWordBoundary := by
  obtain ⟨-, h1, h2, -⟩ := h
  unfold St.atWordBoundary
  generalize s.prev = p at h1
  generalize s'.prev = p' at h1
  generalize s.rest = q at h2
  generalize s'.rest = q' at h2
  cases h1 with
  | none =>
    cases h2 with
    | nil => rfl
    | cons ha _ => simp only [hw _ _ ha]
  | some hp =>
    cases h2 with
    | nil => simp only [hw _ _ hp]
    | cons ha _ => simp only [hw _ _ hp, hw _ _ ha]

theorem starLoop_sim {α β : Type} {Q : α → β → Prop} {R : Nat → Nat → Prop} {δ : Nat} {base} {g : Bool}
    {f : St → (St → Option α) → Option α} {f' : St → (St → Option β) → Option β}
    (hf : ∀ s s' k k', Sim R δ base s s' → (∀ t t', Sim R δ base t t' → OptRel Q (k t) (k' t')) →
      OptRel Q (f s k) (f' s' k')) :
    ∀ n s s' k k', Sim R δ base s s' → (∀ t t', Sim R δ base t t' → OptRel Q (k t) (k' t')) →
      OptRel Q (starLoop g f n s k) (starLoop g f' n s' k') := by
  intro n
  induction n with
  | zero => intro s s' k k' hs hk; exact hk _ _ hs
  | succ n ih =>
    intro s s' k k' hs hk
    unfold starLoop
    have hm : OptRel Q (f s (fun t => if s.pos < t.pos then starLoop g f n t k else none))
        (f' s' (fun t => if s'.pos < t.pos then starLoop g f' n t k' else none)) := by
      refine hf _ _ _ _ hs ?_
      intro t t' ht
      have e : (s.pos < t.pos) ↔ (s'.pos < t'.pos) := by rw [hs.pos, ht.pos]; omega
      by_cases hp : s'.pos < t'.pos
      · rw [if_pos hp, if_pos (e.2 hp)]; exact ih _ _ _ _ ht hk
      · rw [if_neg hp, if_neg (fun h => hp (e.1 h))]; exact .none
    cases g with
    | true => exact orElse'_rel (y := fun _ => k s) (y' := fun _ => k' s') hm (hk _ _ hs)
    | false => exact orElse'_rel (y := fun _ => f s _) (y' := fun _ => f' s' _) (hk _ _ hs) hm

theorem Sim.adv {R : Nat → Nat → Prop} {δ : Nat} {base} {s s' : St} (h : Sim R δ base s s') {c c' : Nat} {t t' : Text}
    (hc : R c c') (ht : List.Forall₂ R t t') : Sim R δ base (s.adv c t) (s'.adv c' t') :=
  ⟨by simp only [St.adv]; rw [h.pos]; omega, .some hc, ht, h.caps⟩

theorem forall₂_length {R : Nat → Nat → Prop} {t t' : Text} (h : List.Forall₂ R t t') : t.length = t'.length := by
  induction h with
  | nil => rfl
  | cons _ _ ih => simp [ih]

/-- The simulation theorem. -/
theorem Re.m_sim (r : Re) : ∀ {α β : Type} {Q : α → β → Prop} {R : Nat → Nat → Prop} {δ : Nat} {base : List (Nat × Nat × Nat)},
    (∀ c c', R c c' → r.sameOn c c' = true) →
    ∀ (s s' : St) (k : St → Option α) (k' : St → Option β), Sim R δ base s s' →
      (∀ t t', Sim R δ base t t' → OptRel Q (k t) (k' t')) → OptRel Q (r.m s k) (r.m s' k') := by
  induction r with
  | eps => intro α β Q R δ base hR s s' k k' hs hk; exact hk _ _ hs
  | one d =>
    intro α β Q R δ base hR s s' k k' hs hk
    unfold Re.m
    have h2 := hs.rest
    generalize hq : s.rest = q at h2
    generalize hq' : s'.rest = q' at h2
    cases h2 with
    | nil => exact .none
    | @cons c c' t t' hc ht =>
      have := hR _ _ hc
      simp only [Re.sameOn, beq_iff_eq] at this
      simp only [this]
      split
      · exact hk _ _ (hs.adv hc ht)
      · exact .none
  | seq a b iha ihb =>
    intro α β Q R δ base hR s s' k k' hs hk
    have h1 : ∀ c c', R c c' → a.sameOn c c' = true := fun c c' h => by
      have := hR c c' h; simp only [Re.sameOn, Bool.and_eq_true] at this; exact this.1
    have h2 : ∀ c c', R c c' → b.sameOn c c' = true := fun c c' h => by
      have := hR c c' h; simp only [Re.sameOn, Bool.and_eq_true] at this; exact this.2
    unfold Re.m
    exact iha h1 _ _ _ _ hs (fun t t' ht => ihb h2 _ _ _ _ ht hk)
  | alt a b iha ihb =>
    intro α β Q R δ base hR s s' k k' hs hk
    have h1 : ∀ c c', R c c' → a.sameOn c c' = true := fun c c' h => by
      have := hR c c' h; simp only [Re.sameOn, Bool.and_eq_true] at this; exact this.1
    have h2 : ∀ c c', R c c' → b.sameOn c c' = true := fun c c' h => by
      have := hR c c' h; simp only [Re.sameOn, Bool.and_eq_true] at this; exact this.2
    unfold Re.m
    exact orElse'_rel (iha h1 _ _ _ _ hs hk) (ihb h2 _ _ _ _ hs hk)
  | star g r ih =>
    intro α β Q R δ base hR s s' k k' hs hk
    unfold Re.m
    rw [forall₂_length hs.rest]
    exact starLoop_sim (fun s s' k k' hs hk => ih hR s s' k k' hs hk) _ _ _ _ _ hs hk
  | cap n r ih =>
    intro α β Q R δ base hR s s' k k' hs hk
    unfold Re.m
    refine ih hR _ _ _ _ hs (fun t t' ht => hk _ _ ?_)
    refine ⟨ht.pos, ht.prev, ht.rest, ?_⟩
    simp only [List.map_cons, List.cons_append, shiftCap, ht.caps, hs.pos, ht.pos]
  | bol =>
    intro α β Q R δ base hR s s' k k' hs hk
    unfold Re.m
    have : s.prev.isNone = s'.prev.isNone := by
      have := hs.prev.isSome
      cases h1 : s.prev <;> cases h2 : s'.prev <;> simp_all
    rw [this]
    split
    · exact hk _ _ hs
    · exact .none
  | eol =>
    intro α β Q R δ base hR s s' k k' hs hk
    unfold Re.m
    have : s.rest.isEmpty = s'.rest.isEmpty := by
      have h2 := hs.rest
      generalize s.rest = q at h2
      generalize s'.rest = q' at h2
      cases h2 <;> rfl
    rw [this]
    split
    · exact hk _ _ hs
    · exact .none
  | wb neg =>
    intro α β Q R δ base hR s s' k k' hs hk
    unfold Re.m
    rw [atWordBoundary_sim hs (fun c c' h => by simpa [Re.sameOn] using hR c c' h)]
    split
    · exact hk _ _ hs
    · exact .none
  | look neg r ih =>
    intro α β Q R δ base hR s s' k k' hs hk
    unfold Re.m
    have := ih (Q := fun (_ _ : Unit) => True) (α := Unit) (β := Unit) hR s s' (fun _ => some ()) (fun _ => some ()) hs
      (fun _ _ _ => .some trivial)
    rw [this.isSome]
    split
    · exact hk _ _ hs
    · exact .none

/-- Same match on indistinguishable texts. -/
theorem Re.searchFrom_sim {r : Re} {R : Nat → Nat → Prop} (hR : ∀ c c', R c c' → r.sameOn c c' = true) :
    ∀ {t t' : Text} (_ : List.Forall₂ R t t') (p p' : Option Nat) (_ : OptRel R p p') (pos : Nat),
      OptRel (fun x y => x.1 = y.1 ∧ Sim R 0 [] x.2 y.2) (r.searchFrom p pos t) (r.searchFrom p' pos t') := by
  intro t t' ht
  induction ht with
  | nil =>
    intro p p' hp pos
    unfold Re.searchFrom
    have h := r.m_sim (Q := Sim R 0 []) hR ⟨pos, p, [], []⟩ ⟨pos, p', [], []⟩ some some ⟨rfl, hp, .nil, rfl⟩
      (fun t t' h => .some h)
    generalize r.m ⟨pos, p, [], []⟩ some = x at h
    generalize r.m ⟨pos, p', [], []⟩ some = y at h
    cases h with
    | none => exact .none
    | some h => exact .some ⟨rfl, h⟩
  | @cons c c' t t' hc ht ih =>
    intro p p' hp pos
    unfold Re.searchFrom
    have h := r.m_sim (Q := Sim R 0 []) hR ⟨pos, p, c :: t, []⟩ ⟨pos, p', c' :: t', []⟩ some some ⟨rfl, hp, .cons hc ht, rfl⟩
      (fun t t' h => .some h)
    generalize r.m ⟨pos, p, c :: t, []⟩ some = x at h
    generalize r.m ⟨pos, p', c' :: t', []⟩ some = y at h
    cases h with
    | none => exact ih _ _ (.some hc) _
    | some h => exact .some ⟨rfl, h⟩

theorem map_shiftCap_zero (l : List (Nat × Nat × Nat)) : l.map (shiftCap 0) = l := by
  induction l with
  | nil => rfl
  | cons x l ih => rw [List.map_cons, ih]; rfl

/-- Searching two indistinguishable texts: no match in either, or matches at the same offsets with the same groups. -/
theorem Re.search_sim {r : Re} {R : Nat → Nat → Prop} (hR : ∀ c c', R c c' → r.sameOn c c' = true) {t t' : Text}
    (ht : List.Forall₂ R t t') :
    OptRel (fun x y => x = { y with subject := t }) (r.search t) (r.search t') := by
  have h := r.searchFrom_sim hR ht none none .none 0
  unfold Re.search
  generalize r.searchFrom none 0 t = x at h
  generalize r.searchFrom none 0 t' = y at h
  cases h with
  | none => exact .none
  | @some a b h =>
    obtain ⟨h1, h2⟩ := h
    refine .some ?_
    simp only [h1, h2.pos, h2.caps, List.append_nil, map_shiftCap_zero, Nat.add_zero]

end Chrono
