import Verif.Lemmas.Analysis
/-!
# The branch of an expression in which a group lies
-/
namespace Chrono

/-- The outermost concatenations (or the groups themselves) that always set group `n`. -/
def Re.branches (n : Nat) : Re → List Re
  | .seq a b => if (Re.seq a b).mustCap n then [.seq a b] else a.branches n ++ b.branches n
  | .alt a b => a.branches n ++ b.branches n
  | .star _ r => r.branches n
  | .cap k r => if k = n then [.cap k r] else r.branches n
  | _ => []

/-- If group `n` is recorded then one of its branches matched, inside of what was consumed. -/
theorem Rel.branch {r : Re} {s s' : St} (h : Rel r s s') (n : Nat) :
    ∃ new w, s'.caps = new ++ s.caps ∧ Consumed s s' w ∧
      ((∃ a b, (n, a, b) ∈ new) → ∃ q ∈ r.branches n, ∃ u, Lang q u ∧ u <:+: w) := by
  induction h with
  | eps s => exact ⟨[], [], rfl, .nil s, by simp⟩
  | one hr hd =>
    obtain ⟨w, hw⟩ := (Rel.one hr hd).consumed
    exact ⟨[], w, rfl, hw, by simp⟩
  | @seq a b s s1 s2 h1 h2 i1 i2 =>
    obtain ⟨n1, w1, e1, c1, p1⟩ := i1
    obtain ⟨n2, w2, e2, c2, p2⟩ := i2
    refine ⟨n2 ++ n1, w1 ++ w2, by rw [e2, e1, List.append_assoc], c1.trans c2, ?_⟩
    rintro ⟨x, y, hxy⟩
    unfold Re.branches
    split
    · exact ⟨_, by simp, w1 ++ w2, ⟨s, s2, .seq h1 h2, c1.trans c2⟩, List.infix_refl _⟩
    · rcases List.mem_append.1 hxy with hm | hm
      · obtain ⟨q, hq, u, hl, hu⟩ := p2 ⟨x, y, hm⟩
        exact ⟨q, by simp [hq], u, hl, hu.trans (List.suffix_append _ _).isInfix⟩
      · obtain ⟨q, hq, u, hl, hu⟩ := p1 ⟨x, y, hm⟩
        exact ⟨q, by simp [hq], u, hl, hu.trans (List.prefix_append _ _).isInfix⟩
  | altL h1 i1 =>
    obtain ⟨n1, w1, e1, c1, p1⟩ := i1
    refine ⟨n1, w1, e1, c1, fun hx => ?_⟩
    obtain ⟨q, hq, u, hl, hu⟩ := p1 hx
    exact ⟨q, by simp [Re.branches, hq], u, hl, hu⟩
  | altR h1 i1 =>
    obtain ⟨n1, w1, e1, c1, p1⟩ := i1
    refine ⟨n1, w1, e1, c1, fun hx => ?_⟩
    obtain ⟨q, hq, u, hl, hu⟩ := p1 hx
    exact ⟨q, by simp [Re.branches, hq], u, hl, hu⟩
  | @star0 g r s => exact ⟨[], [], rfl, .nil s, by simp⟩
  | starS h1 hp h2 i1 i2 =>
    obtain ⟨n1, w1, e1, c1, p1⟩ := i1
    obtain ⟨n2, w2, e2, c2, p2⟩ := i2
    refine ⟨n2 ++ n1, w1 ++ w2, by rw [e2, e1, List.append_assoc], c1.trans c2, ?_⟩
    rintro ⟨x, y, hxy⟩
    rcases List.mem_append.1 hxy with hm | hm
    · obtain ⟨q, hq, u, hl, hu⟩ := p2 ⟨x, y, hm⟩
      exact ⟨q, hq, u, hl, hu.trans (List.suffix_append _ _).isInfix⟩
    · obtain ⟨q, hq, u, hl, hu⟩ := p1 ⟨x, y, hm⟩
      exact ⟨q, hq, u, hl, hu.trans (List.prefix_append _ _).isInfix⟩
  | @cap k r s s' h1 i1 =>
    obtain ⟨n1, w1, e1, c1, p1⟩ := i1
    have hc : Consumed s { s' with caps := (k, s.pos, s'.pos) :: s'.caps } w1 := ⟨c1.rest, c1.pos, c1.prev⟩
    refine ⟨(k, s.pos, s'.pos) :: n1, w1, by simp [e1], hc, ?_⟩
    rintro ⟨x, y, hxy⟩
    unfold Re.branches
    split
    · exact ⟨_, by simp, w1, ⟨s, _, .cap h1, hc⟩, List.infix_refl _⟩
    · rename_i hk
      rcases List.mem_cons.1 hxy with he | hm
      · simp only [Prod.mk.injEq] at he; exact absurd he.1.symm hk
      · exact p1 ⟨x, y, hm⟩
  | @bol s => exact ⟨[], [], rfl, .nil s, by simp⟩
  | @eol s => exact ⟨[], [], rfl, .nil s, by simp⟩
  | @wb _ s => exact ⟨[], [], rfl, .nil s, by simp⟩
  | @look _ _ s => exact ⟨[], [], rfl, .nil s, by simp⟩

theorem Re.search_branch {r : Re} {t : Text} {mt : Match} (h : r.search t = some mt) (n : Nat) (hn : n ≠ 0) (hne : mt.str n ≠ []) :
    ∃ q ∈ r.branches n, ∃ u, Lang q u ∧ u <:+: mt.str 0 := by
  have ok := Re.search_ok h
  have hcap : ∃ a b, (n, a, b) ∈ mt.caps := by
    rcases ok.group n hn with ⟨-, h'⟩ | ⟨a, b, h', -⟩
    · exact absurd h' hne
    · exact ⟨a, b, capSpan_some h'⟩
  obtain ⟨h1, h2, ⟨s', -, h4, h5, h6⟩, -⟩ := Re.search_some h
  obtain ⟨new, w, e, c, p⟩ := h6.branch n
  have hs := startSt_on t _ h2
  have hsl := (hs.of_consumed c).2
  have h0 : mt.str 0 = w := by unfold Match.str; rw [if_pos rfl, h1, ← hsl, ← h4]; rfl
  rw [h0]
  have hnew : new = mt.caps := by
    have : s'.caps = new ++ [] := e
    rw [List.append_nil] at this
    rw [← this, h5]
  exact p (by rw [hnew]; exact hcap)

end Chrono
