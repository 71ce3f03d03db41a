import Verif.Lemmas.Analysis
/-!
# Which states of an automaton can a match of a regular expression lead to?

A sound over-approximation, computable by the kernel: used to show that no word of a pattern contains a given
word, or that every word containing one also contains another byte.
-/
namespace Chrono

/-- Run of an automaton over a word. -/
def runA (δ : Nat → Nat → Nat) (q : Nat) (w : Text) : Nat := w.foldl δ q

/-- `S := S ∪ f S`, `n` times. -/
def growSet (f : List Nat → Option (List Nat)) : Nat → List Nat → Option (List Nat)
  | 0, S => some S
  | n + 1, S => do
    let T ← f S
    growSet f n (S ++ T).eraseDups

/-- Possible states after a match of `r` begun in a state of `S`; `none` = don't know. -/
def Re.post (δ : Nat → Nat → Nat) (n : Nat) : Re → List Nat → Option (List Nat)
  | .one d, S => some (S.flatMap (fun q => ((List.range 256).filter d.test).map (δ q))).eraseDups
  | .seq a b, S => do
    let T ← a.post δ n S
    b.post δ n T
  | .alt a b, S => do
    let T ← a.post δ n S
    let U ← b.post δ n S
    return (T ++ U).eraseDups
  | .star _ r, S => do
    let T ← growSet (r.post δ n) n S
    let U ← r.post δ n T
    if S.all T.contains && U.all T.contains then return T else none
  | .cap _ r, S => r.post δ n S
  | _, S => some S

theorem Rel.star_inv {g : Bool} {r : Re} {s s' : St} (h : Rel (.star g r) s s') {δ : Nat → Nat → Nat} {T : List Nat}
    (hT : ∀ s s' q, Rel r s s' → q ∈ T → ∃ w, Consumed s s' w ∧ runA δ q w ∈ T) :
    ∀ q ∈ T, ∃ w, Consumed s s' w ∧ runA δ q w ∈ T := by
  generalize hR : Re.star g r = R at h
  induction h with
  | star0 => intro q hq; exact ⟨[], .nil _, hq⟩
  | starS h1 _ _ _ ih =>
    injection hR with _ h2
    subst h2
    intro q hq
    obtain ⟨w, hw, hw'⟩ := hT _ _ q h1 hq
    obtain ⟨v, hv, hv'⟩ := ih (by simp_all) _ hw'
    exact ⟨w ++ v, hw.trans hv, by unfold runA at *; rw [List.foldl_append]; exact hv'⟩
  | _ => simp at hR

theorem Rel.post {δ : Nat → Nat → Nat} {n : Nat} (r : Re) : ∀ {s s' : St}, Rel r s s' →
    ∀ S T q, r.post δ n S = some T → q ∈ S → ∃ w, Consumed s s' w ∧ runA δ q w ∈ T := by
  induction r with
  | one d =>
    intro s s' h S T q hT hq
    obtain ⟨c, t, hr, hd, rfl⟩ := rel_one.1 h
    refine ⟨[c], ⟨by simpa [St.adv] using hr, rfl, rfl⟩, ?_⟩
    simp only [Re.post, Option.some.injEq] at hT
    subst hT
    rw [List.mem_eraseDups, List.mem_flatMap]
    refine ⟨q, hq, ?_⟩
    rw [List.mem_map]
    exact ⟨c, by simp [hd, d.test_lt hd], rfl⟩
  | seq a b ih1 ih2 =>
    intro s s' h S T q hT hq
    obtain ⟨s1, h1, h2⟩ := rel_seq.1 h
    simp only [Re.post, Option.bind_eq_bind, Option.bind_eq_some_iff] at hT
    obtain ⟨U, hU, hT⟩ := hT
    obtain ⟨w, hw, hw'⟩ := ih1 h1 S U q hU hq
    obtain ⟨v, hv, hv'⟩ := ih2 h2 U T _ hT hw'
    exact ⟨w ++ v, hw.trans hv, by unfold runA at *; rw [List.foldl_append]; exact hv'⟩
  | alt a b ih1 ih2 =>
    intro s s' h S T q hT hq
    simp only [Re.post, Option.bind_eq_bind, Option.bind_eq_some_iff] at hT
    obtain ⟨U, hU, V, hV, hT⟩ := hT
    simp only [pure, Option.some.injEq] at hT
    rcases rel_alt.1 h with h | h
    · obtain ⟨w, hw, hw'⟩ := ih1 h S U q hU hq
      exact ⟨w, hw, by rw [← hT, List.mem_eraseDups]; exact List.mem_append_left _ hw'⟩
    · obtain ⟨w, hw, hw'⟩ := ih2 h S V q hV hq
      exact ⟨w, hw, by rw [← hT, List.mem_eraseDups]; exact List.mem_append_right _ hw'⟩
  | star g r ih =>
    intro s s' h S T q hT hq
    simp only [Re.post, Option.bind_eq_bind, Option.bind_eq_some_iff] at hT
    obtain ⟨U, hU, V, hV, hT⟩ := hT
    split at hT
    · rename_i hc
      simp only [pure, Option.some.injEq] at hT
      subst hT
      simp only [Bool.and_eq_true, List.all_eq_true, List.contains_iff_mem] at hc
      refine h.star_inv (fun s s' q h hq => ?_) q (hc.1 q hq)
      obtain ⟨w, hw, hw'⟩ := ih h U V q hV hq
      exact ⟨w, hw, hc.2 _ hw'⟩
    · simp at hT
  | cap k r ih =>
    intro s s' h S T q hT hq
    obtain ⟨s1, h1, h2⟩ := rel_cap.1 h
    obtain ⟨w, hw, hw'⟩ := ih h1 S T q hT hq
    subst h2
    exact ⟨w, ⟨hw.rest, hw.pos, hw.prev⟩, hw'⟩
  | _ =>
    intro s s' h S T q hT hq
    simp only [Re.post, Option.some.injEq] at hT
    subst hT
    cases h
    exact ⟨[], .nil _, hq⟩

/-- After any word of `r` the automaton, started in `q`, is in one of the computed states. -/
theorem Lang.post {r : Re} {w : Text} (h : Lang r w) {δ : Nat → Nat → Nat} (n q : Nat) {T : List Nat}
    (hT : r.post δ n [q] = some T) : runA δ q w ∈ T := by
  obtain ⟨s, s', h1, h2⟩ := h
  obtain ⟨w', h3, h4⟩ := h1.post r [q] T q hT (by simp)
  rw [h2.unique h3]; exact h4

/-- The automaton that looks for the word `p`, whose first byte occurs only at its beginning: states `0 .. |p|`,
the last one absorbing; the byte `b` leads to the absorbing state `|p| + 1`. -/
def findA (p : Text) (b : Nat) (q c : Nat) : Nat :=
  if q = p.length + 1 ∨ c = b then p.length + 1
  else if q = p.length then q
  else if p[q]? = some c then q + 1
  else if p[0]? = some c then 1
  else 0

theorem findA_le {p : Text} {b q c : Nat} (hq : q ≤ p.length) (hb : c ≠ b) (hp : p ≠ []) : findA p b q c ≤ p.length := by
  have : 0 < p.length := List.length_pos_iff.2 hp
  unfold findA
  rw [if_neg (by omega)]
  split
  · exact hq
  split
  · omega
  split <;> omega

theorem runA_findA_le {p : Text} {b : Nat} (hp : p ≠ []) : ∀ (w : Text) (q : Nat), q ≤ p.length → b ∉ w →
    runA (findA p b) q w ≤ p.length := by
  intro w
  induction w with
  | nil => intro q hq _; exact hq
  | cons c w ih =>
    intro q hq hb
    simp only [List.mem_cons, not_or] at hb
    exact ih _ (findA_le hq (fun h => hb.1 h.symm) hp) hb.2

theorem runA_findA_end {p : Text} {b : Nat} : ∀ w, b ∉ w → runA (findA p b) p.length w = p.length := by
  intro w
  induction w with
  | nil => intro _; rfl
  | cons c w ih =>
    intro hb
    simp only [List.mem_cons, not_or] at hb
    have : findA p b p.length c = p.length := by
      unfold findA; rw [if_neg (by omega)]; simp
    unfold runA at *
    rw [List.foldl_cons, this]
    exact ih hb.2

/-- No word of `r` without the byte `b` contains `p`, if the automaton cannot get into state `|p|`. -/
theorem Lang.lacks {r : Re} {w : Text} (h : Lang r w) (p : Text) (b n : Nat)
    (hp : p ≠ [] ∧ (List.range (p.length + 1)).all (fun q => runA (findA p b) q p == p.length) = true)
    (hT : ((r.post (findA p b) n [0]).any (fun T => !T.contains p.length)) = true) (hb : b ∉ w) : ¬ p <:+: w := by
  rintro ⟨u, v, rfl⟩
  simp only [List.mem_append, not_or] at hb
  rw [Option.any_eq_true] at hT
  obtain ⟨T, hT, hn⟩ := hT
  have h1 := h.post n 0 hT
  have h2 := runA_findA_le (b := b) hp.1 u 0 (Nat.zero_le _) hb.1.1
  have h3 : runA (findA p b) 0 (u ++ p ++ v) = p.length := by
    unfold runA at *
    rw [List.foldl_append, List.foldl_append]
    have h4 := hp.2
    simp only [List.all_eq_true, List.mem_range, beq_iff_eq] at h4
    have h5 := h4 _ (Nat.lt_succ_of_le h2)
    unfold runA at h5
    rw [h5]
    exact runA_findA_end v hb.2
  rw [h3] at h1
  simp [h1] at hn

end Chrono
