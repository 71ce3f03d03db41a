import Verif.Lemmas.Analysis
/-!
# Matches as text with groups

`CL r w cs`: `r` can match the word `w` and records the groups `cs` (latest first), given by their texts.
-/
namespace Chrono

/-- The numbers of the groups in an expression. -/
def Re.groups : Re → List Nat
  | .seq a b => a.groups ++ b.groups
  | .alt a b => a.groups ++ b.groups
  | .star _ r => r.groups
  | .cap n r => n :: r.groups
  | _ => []

inductive CL : Re → Text → List (Nat × Text) → Prop where
  | seq {a b u v c1 c2} : Lang (.seq a b) (u ++ v) → CL a u c1 → CL b v c2 → CL (.seq a b) (u ++ v) (c2 ++ c1)
  | altL {a b w c} : Lang (.alt a b) w → CL a w c → CL (.alt a b) w c
  | altR {a b w c} : Lang (.alt a b) w → CL b w c → CL (.alt a b) w c
  | cap {n r w c} : Lang (.cap n r) w → CL r w c → CL (.cap n r) w ((n, w) :: c)
  | eps : Lang .eps [] → CL .eps [] []
  | one {d w} : Lang (.one d) w → CL (.one d) w []
  | star {g r w c} : Lang (.star g r) w → (∀ p ∈ c, p.1 ∈ r.groups) → CL (.star g r) w c
  | bol : Lang .bol [] → CL .bol [] []
  | eol : Lang .eol [] → CL .eol [] []
  | wb {n} : Lang (.wb n) [] → CL (.wb n) [] []
  | look {n r} : Lang (.look n r) [] → CL (.look n r) [] []

theorem CL.lang {r : Re} {w : Text} {c : List (Nat × Text)} (h : CL r w c) : Lang r w := by
  cases h <;> assumption

theorem CL.keys {r : Re} {w : Text} {c : List (Nat × Text)} (h : CL r w c) : ∀ p ∈ c, p.1 ∈ r.groups := by
  induction h with
  | seq _ _ _ i1 i2 =>
    intro p hp
    rcases List.mem_append.1 hp with hp | hp
    · simp [Re.groups, i2 p hp]
    · simp [Re.groups, i1 p hp]
  | altL _ _ i => intro p hp; simp [Re.groups, i p hp]
  | altR _ _ i => intro p hp; simp [Re.groups, i p hp]
  | cap _ _ i =>
    intro p hp
    rcases List.mem_cons.1 hp with rfl | hp
    · simp [Re.groups]
    · simp [Re.groups, i p hp]
  | star _ h => exact h
  | _ => simp

/-- Groups by their text. -/
def named (t : Text) (caps : List (Nat × Nat × Nat)) : List (Nat × Text) := caps.map fun p => (p.1, slice t p.2.1 p.2.2)

theorem Rel.cl {t : Text} {r : Re} {s s' : St} (h : Rel r s s') (ht : OnSubj t s) :
    ∃ w new, Consumed s s' w ∧ s'.caps = new ++ s.caps ∧ CL r w (named t new) := by
  induction h with
  | eps s => exact ⟨[], [], .nil s, rfl, .eps ⟨s, s, .eps s, .nil s⟩⟩
  | one hr hd =>
    obtain ⟨w, hw⟩ := (Rel.one hr hd).consumed
    exact ⟨w, [], hw, rfl, .one ⟨_, _, .one hr hd, hw⟩⟩
  | @seq a b s s1 s2 h1 h2 i1 i2 =>
    obtain ⟨w1, n1, c1, e1, p1⟩ := i1 ht
    obtain ⟨w2, n2, c2, e2, p2⟩ := i2 (ht.of_consumed c1).1
    refine ⟨w1 ++ w2, n2 ++ n1, c1.trans c2, by rw [e2, e1, List.append_assoc], ?_⟩
    have : named t (n2 ++ n1) = named t n2 ++ named t n1 := by simp [named]
    rw [this]
    exact .seq ⟨s, s2, .seq h1 h2, c1.trans c2⟩ p1 p2
  | altL h1 i1 =>
    obtain ⟨w1, n1, c1, e1, p1⟩ := i1 ht
    exact ⟨w1, n1, c1, e1, .altL ⟨_, _, .altL h1, c1⟩ p1⟩
  | altR h1 i1 =>
    obtain ⟨w1, n1, c1, e1, p1⟩ := i1 ht
    exact ⟨w1, n1, c1, e1, .altR ⟨_, _, .altR h1, c1⟩ p1⟩
  | @star0 g r s => exact ⟨[], [], .nil s, rfl, .star ⟨s, s, .star0, .nil s⟩ (by simp [named])⟩
  | @starS g r s s1 s2 h1 hp h2 i1 i2 =>
    obtain ⟨w1, n1, c1, e1, p1⟩ := i1 ht
    obtain ⟨w2, n2, c2, e2, p2⟩ := i2 (ht.of_consumed c1).1
    refine ⟨w1 ++ w2, n2 ++ n1, c1.trans c2, by rw [e2, e1, List.append_assoc], .star ⟨s, s2, .starS h1 hp h2, c1.trans c2⟩ ?_⟩
    have : named t (n2 ++ n1) = named t n2 ++ named t n1 := by simp [named]
    rw [this]
    intro p hp
    rcases List.mem_append.1 hp with hp | hp
    · exact p2.keys p hp
    · exact p1.keys p hp
  | @cap k r s s' h1 i1 =>
    obtain ⟨w1, n1, c1, e1, p1⟩ := i1 ht
    have hc : Consumed s { s' with caps := (k, s.pos, s'.pos) :: s'.caps } w1 := ⟨c1.rest, c1.pos, c1.prev⟩
    refine ⟨w1, (k, s.pos, s'.pos) :: n1, hc, by simp [e1], ?_⟩
    have : named t ((k, s.pos, s'.pos) :: n1) = (k, w1) :: named t n1 := by
      simp [named, (ht.of_consumed c1).2]
    rw [this]
    exact .cap ⟨s, _, .cap h1, hc⟩ p1
  | @bol s hp => exact ⟨[], [], .nil s, rfl, .bol ⟨s, s, .bol hp, .nil s⟩⟩
  | @eol s hp => exact ⟨[], [], .nil s, rfl, .eol ⟨s, s, .eol hp, .nil s⟩⟩
  | @wb _ s hp => exact ⟨[], [], .nil s, rfl, .wb ⟨s, s, .wb hp, .nil s⟩⟩
  | @look _ _ s hp => exact ⟨[], [], .nil s, rfl, .look ⟨s, s, .look hp, .nil s⟩⟩

/-- The text of group `n` in a list of groups. -/
def groupText (n : Nat) : List (Nat × Text) → Text
  | [] => []
  | (k, w) :: r => if k == n then w else groupText n r

theorem groupText_append {n : Nat} {a b : List (Nat × Text)} (h : ∀ p ∈ a, p.1 ≠ n) : groupText n (a ++ b) = groupText n b := by
  induction a with
  | nil => rfl
  | cons p a ih =>
    have hp := h p (by simp)
    show (if p.1 == n then _ else _) = _
    rw [if_neg (by simpa using hp)]
    exact ih fun q hq => h q (by simp [hq])

theorem groupText_none {n : Nat} {a : List (Nat × Text)} (h : ∀ p ∈ a, p.1 ≠ n) : groupText n a = [] := by
  have := groupText_append (b := []) h
  simpa [groupText] using this

theorem groupText_append_ne {n : Nat} {a b : List (Nat × Text)} (h : ∀ p ∈ b, p.1 ≠ n) : groupText n (a ++ b) = groupText n a := by
  induction a with
  | nil => exact groupText_none h
  | cons p a ih =>
    show (if p.1 == n then _ else groupText n (a ++ b)) = (if p.1 == n then _ else groupText n a)
    rw [ih]

theorem groupText_named {t : Text} {n : Nat} (caps : List (Nat × Nat × Nat)) :
    groupText n (named t caps) = (match capSpan n caps with | some (a, b) => slice t a b | none => []) := by
  induction caps with
  | nil => rfl
  | cons p caps ih =>
    obtain ⟨k, a, b⟩ := p
    show (if k == n then _ else groupText n (named t caps)) = (match (if k == n then some (a, b) else capSpan n caps) with | some (a, b) => slice t a b | none => [])
    split
    · rfl
    · exact ih

/-- A successful search, as text with groups. -/
theorem Re.search_cl {r : Re} {t : Text} {mt : Match} (h : r.search t = some mt) :
    ∃ cs, CL r (mt.str 0) cs ∧ ∀ n, n ≠ 0 → mt.str n = groupText n cs := by
  obtain ⟨hsub, h2, ⟨s', -, h4, h5, h6⟩, -⟩ := Re.search_some h
  obtain ⟨w, new, hw, hnew, hcl⟩ := h6.cl (startSt_on t _ h2)
  have hn : mt.caps = new := by rw [← h5, hnew]; exact List.append_nil _
  have hsl := ((startSt_on t _ h2).of_consumed hw).2
  have h0 : mt.str 0 = w := by
    unfold Match.str; rw [if_pos rfl, hsub, ← h4, ← hsl]; rfl
  refine ⟨named t new, h0 ▸ hcl, fun n hn0 => ?_⟩
  rw [groupText_named, ← hn]
  unfold Match.str
  rw [if_neg hn0, hsub]
  cases capSpan n mt.caps <;> rfl

/-! ## Taking an expression apart -/

theorem cl_seq {a b : Re} {w : Text} {c : List (Nat × Text)} (h : CL (.seq a b) w c) :
    ∃ u v c1 c2, w = u ++ v ∧ c = c2 ++ c1 ∧ CL a u c1 ∧ CL b v c2 := by
  cases h with
  | seq _ h1 h2 => exact ⟨_, _, _, _, rfl, rfl, h1, h2⟩

theorem cl_alt {a b : Re} {w : Text} {c : List (Nat × Text)} (h : CL (.alt a b) w c) : CL a w c ∨ CL b w c := by
  cases h with
  | altL _ h => exact .inl h
  | altR _ h => exact .inr h

theorem cl_cap {n : Nat} {r : Re} {w : Text} {c : List (Nat × Text)} (h : CL (.cap n r) w c) : ∃ c', c = (n, w) :: c' ∧ CL r w c' := by
  cases h with
  | cap _ h => exact ⟨_, rfl, h⟩

theorem cl_eps {w : Text} {c : List (Nat × Text)} (h : CL .eps w c) : w = [] ∧ c = [] := by
  cases h; exact ⟨rfl, rfl⟩

/-- `r` has no group `n`. -/
theorem CL.lacks {r : Re} {w : Text} {c : List (Nat × Text)} (h : CL r w c) {n : Nat} (hn : r.groups.contains n = false) : ∀ p ∈ c, p.1 ≠ n := by
  rintro p hp rfl
  have := h.keys p hp
  simp at hn
  exact hn this

end Chrono
