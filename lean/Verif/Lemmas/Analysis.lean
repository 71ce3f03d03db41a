import Verif.Lemmas.RelSimp
/-!
# Static analyses of regular expressions, sound for every match
-/
namespace Chrono

/-- `w` is a word that `r` can match in some context. -/
def Lang (r : Re) (w : Text) : Prop := ∃ s s', Rel r s s' ∧ Consumed s s' w

theorem Consumed.unique {s s' : St} {w w' : Text} (h : Consumed s s' w) (h' : Consumed s s' w') : w = w' :=
  List.append_cancel_right (h.rest.symm.trans h'.rest)

/-! ## Length -/

def Re.minLen : Re → Nat
  | .one _ => 1
  | .seq a b => a.minLen + b.minLen
  | .alt a b => min a.minLen b.minLen
  | .cap _ r => r.minLen
  | _ => 0

def Re.maxLen : Re → Option Nat
  | .one _ => some 1
  | .seq a b => do let x ← a.maxLen; let y ← b.maxLen; return x + y
  | .alt a b => do let x ← a.maxLen; let y ← b.maxLen; return max x y
  | .cap _ r => r.maxLen
  | .star _ _ => none
  | _ => some 0

theorem Rel.minLen {r : Re} {s s' : St} (h : Rel r s s') : s.pos + r.minLen ≤ s'.pos := by
  induction h with
  | one hr hd => simp [Re.minLen, St.adv]
  | seq _ _ ih1 ih2 => simp only [Re.minLen]; omega
  | altL _ ih => simp only [Re.minLen]; omega
  | altR _ ih => simp only [Re.minLen]; omega
  | starS h1 _ h2 _ ih2 => have := h1.pos_le; simp only [Re.minLen] at *; omega
  | cap _ ih => simpa [Re.minLen] using ih
  | _ => simp [Re.minLen]

theorem Lang.minLen {r : Re} {w : Text} (h : Lang r w) : r.minLen ≤ w.length := by
  obtain ⟨s, s', h1, h2⟩ := h
  have := h1.minLen; rw [h2.pos] at this; omega

theorem Rel.maxLen {r : Re} {s s' : St} (h : Rel r s s') : ∀ n, r.maxLen = some n → s'.pos ≤ s.pos + n := by
  induction h with
  | one hr hd => intro n hn; simp [Re.maxLen] at hn; simp [St.adv]; omega
  | @seq a b s s1 s2 _ _ ih1 ih2 =>
    intro n hn
    simp only [Re.maxLen] at hn
    cases ha : a.maxLen with
    | none => simp [ha] at hn
    | some x =>
      cases hb : b.maxLen with
      | none => simp [ha, hb] at hn
      | some y => simp [ha, hb] at hn; have := ih1 x ha; have := ih2 y hb; omega
  | @altL a b s s1 _ ih =>
    intro n hn
    simp only [Re.maxLen] at hn
    cases ha : a.maxLen with
    | none => simp [ha] at hn
    | some x =>
      cases hb : b.maxLen with
      | none => simp [ha, hb] at hn
      | some y => simp [ha, hb] at hn; have := ih x ha; omega
  | @altR a b s s1 _ ih =>
    intro n hn
    simp only [Re.maxLen] at hn
    cases ha : a.maxLen with
    | none => simp [ha] at hn
    | some x =>
      cases hb : b.maxLen with
      | none => simp [ha, hb] at hn
      | some y => simp [ha, hb] at hn; have := ih y hb; omega
  | cap _ ih => intro n hn; exact ih n hn
  | star0 => intro n hn; simp [Re.maxLen] at hn
  | starS => intro n hn; simp [Re.maxLen] at hn
  | _ => intro n hn; omega

theorem Lang.maxLen {r : Re} {w : Text} (h : Lang r w) (n : Nat) (hn : r.maxLen = some n) : w.length ≤ n := by
  obtain ⟨s, s', h1, h2⟩ := h
  have := h1.maxLen n hn; rw [h2.pos] at this; omega

/-! ## Which bytes -/

/-- Every byte a match consumes satisfies `p`. -/
def Re.allB (p : Nat → Bool) : Re → Bool
  | .one d => (List.range 256).all (fun c => !d.test c || p c)
  | .seq a b => a.allB p && b.allB p
  | .alt a b => a.allB p && b.allB p
  | .star _ r => r.allB p
  | .cap _ r => r.allB p
  | _ => true

theorem Rel.allB {p : Nat → Bool} {r : Re} {s s' : St} (h : Rel r s s') (hp : r.allB p = true) :
    ∃ w, Consumed s s' w ∧ ∀ c ∈ w, p c = true := by
  induction h with
  | @one d s c t hr hd =>
    refine ⟨[c], ⟨by simpa [St.adv] using hr, rfl, rfl⟩, ?_⟩
    simp only [Re.allB, List.all_eq_true, List.mem_range] at hp
    have := hp c (d.test_lt hd)
    simp [hd] at this
    simpa using this
  | seq _ _ ih1 ih2 =>
    simp only [Re.allB, Bool.and_eq_true] at hp
    obtain ⟨w, h1, h1'⟩ := ih1 hp.1
    obtain ⟨w', h2, h2'⟩ := ih2 hp.2
    exact ⟨_, h1.trans h2, fun c hc => (List.mem_append.1 hc).elim (h1' c) (h2' c)⟩
  | altL _ ih => simp only [Re.allB, Bool.and_eq_true] at hp; exact ih hp.1
  | altR _ ih => simp only [Re.allB, Bool.and_eq_true] at hp; exact ih hp.2
  | starS _ _ _ ih1 ih2 =>
    obtain ⟨w, h1, h1'⟩ := ih1 (by simpa [Re.allB] using hp)
    obtain ⟨w', h2, h2'⟩ := ih2 hp
    exact ⟨_, h1.trans h2, fun c hc => (List.mem_append.1 hc).elim (h1' c) (h2' c)⟩
  | cap _ ih => obtain ⟨w, h, h'⟩ := ih (by simpa [Re.allB] using hp); exact ⟨w, ⟨h.rest, h.pos, h.prev⟩, h'⟩
  | _ => exact ⟨[], .nil _, by simp⟩

theorem Lang.allB {r : Re} {w : Text} (h : Lang r w) (p : Nat → Bool) (hp : r.allB p = true) :
    ∀ c ∈ w, p c = true := by
  obtain ⟨s, s', h1, h2⟩ := h
  obtain ⟨w', h3, h4⟩ := h1.allB hp
  rw [h2.unique h3]; exact h4

/-- Every match consumes the byte `b`. -/
def Re.needs (b : Nat) : Re → Bool
  | .one d => (List.range 256).all (fun c => !d.test c || c == b)
  | .seq x y => x.needs b || y.needs b
  | .alt x y => x.needs b && y.needs b
  | .cap _ r => r.needs b
  | _ => false

theorem Rel.needs {b : Nat} {r : Re} {s s' : St} (h : Rel r s s') (hp : r.needs b = true) :
    ∃ w, Consumed s s' w ∧ b ∈ w := by
  induction h with
  | @one d s c t hr hd =>
    refine ⟨[c], ⟨by simpa [St.adv] using hr, rfl, rfl⟩, ?_⟩
    simp only [Re.needs, List.all_eq_true, List.mem_range] at hp
    have := hp c (d.test_lt hd)
    simp [hd] at this
    simp [this]
  | seq h1 h2 ih1 ih2 =>
    simp only [Re.needs, Bool.or_eq_true] at hp
    rcases hp with hp | hp
    · obtain ⟨w, h1, h1'⟩ := ih1 hp
      obtain ⟨w', h2⟩ := h2.consumed
      exact ⟨_, h1.trans h2, by simp [h1']⟩
    · obtain ⟨w, h1⟩ := h1.consumed
      obtain ⟨w', h2, h2'⟩ := ih2 hp
      exact ⟨_, h1.trans h2, by simp [h2']⟩
  | altL _ ih => simp only [Re.needs, Bool.and_eq_true] at hp; exact ih hp.1
  | altR _ ih => simp only [Re.needs, Bool.and_eq_true] at hp; exact ih hp.2
  | cap _ ih => obtain ⟨w, h, h'⟩ := ih (by simpa [Re.needs] using hp); exact ⟨w, ⟨h.rest, h.pos, h.prev⟩, h'⟩
  | _ => simp [Re.needs] at hp

theorem Lang.needs {r : Re} {w : Text} (h : Lang r w) (b : Nat) (hp : r.needs b = true) : b ∈ w := by
  obtain ⟨s, s', h1, h2⟩ := h
  obtain ⟨w', h3, h4⟩ := h1.needs hp
  rw [h2.unique h3]; exact h4

/-! ## Finite languages -/

/-- The words of a star-free expression, lower-cased; `none` if there is a star. -/
def Re.words : Re → Option (List Text)
  | .one (.ch _ d) => some [[lowerB d]]
  | .one d => some (((List.range 256).filter d.test).map (fun c => [lowerB c]))
  | .seq a b => do
    let x ← a.words
    let y ← b.words
    return x.flatMap (fun u => y.map (fun v => u ++ v))
  | .alt a b => do
    let x ← a.words
    let y ← b.words
    return x ++ y
  | .cap _ r => r.words
  | .star _ _ => none
  | _ => some [[]]

theorem Rel.words {r : Re} {s s' : St} (h : Rel r s s') : ∀ L, r.words = some L →
    ∃ w, Consumed s s' w ∧ toLower w ∈ L := by
  induction h with
  | @one d s c t hr hd =>
    intro L hL
    refine ⟨[c], ⟨by simpa [St.adv] using hr, rfl, rfl⟩, ?_⟩
    have hc := d.test_lt hd
    cases d with
    | ch ic x =>
      simp only [Re.words, Option.some.injEq] at hL
      subst hL
      simp only [toLower, List.map_cons, List.map_nil, List.mem_singleton, List.cons.injEq, and_true]
      simp only [Single.test, Bool.and_eq_true] at hd
      split at hd <;> simp at hd
      · exact hd.2
      · rw [hd.2]
    | set ic neg items =>
      simp only [Re.words, Option.some.injEq] at hL
      subst hL
      simp only [toLower, List.map_cons, List.map_nil, List.mem_map, List.mem_filter, List.mem_range]
      exact ⟨c, ⟨hc, hd⟩, rfl⟩
    | any =>
      simp only [Re.words, Option.some.injEq] at hL
      subst hL
      simp only [toLower, List.map_cons, List.map_nil, List.mem_map, List.mem_filter, List.mem_range]
      exact ⟨c, ⟨hc, hd⟩, rfl⟩
  | @seq a b s s1 s2 _ _ ih1 ih2 =>
    intro L hL
    simp only [Re.words] at hL
    cases ha : a.words with
    | none => simp [ha] at hL
    | some x =>
      cases hb : b.words with
      | none => simp [ha, hb] at hL
      | some y =>
        simp [ha, hb] at hL
        subst hL
        obtain ⟨w, h1, h1'⟩ := ih1 x ha
        obtain ⟨w', h2, h2'⟩ := ih2 y hb
        refine ⟨_, h1.trans h2, ?_⟩
        rw [List.mem_flatMap]
        refine ⟨_, h1', List.mem_map.2 ⟨_, h2', ?_⟩⟩
        simp [toLower]
  | @altL a b s s1 _ ih =>
    intro L hL
    simp only [Re.words] at hL
    cases ha : a.words with
    | none => simp [ha] at hL
    | some x =>
      cases hb : b.words with
      | none => simp [ha, hb] at hL
      | some y =>
        simp [ha, hb] at hL
        subst hL
        obtain ⟨w, h1, h1'⟩ := ih x ha
        exact ⟨w, h1, by simp [h1']⟩
  | @altR a b s s1 _ ih =>
    intro L hL
    simp only [Re.words] at hL
    cases ha : a.words with
    | none => simp [ha] at hL
    | some x =>
      cases hb : b.words with
      | none => simp [ha, hb] at hL
      | some y =>
        simp [ha, hb] at hL
        subst hL
        obtain ⟨w, h1, h1'⟩ := ih y hb
        exact ⟨w, h1, by simp [h1']⟩
  | cap _ ih =>
    intro L hL
    obtain ⟨w, h, h'⟩ := ih L hL
    exact ⟨w, ⟨h.rest, h.pos, h.prev⟩, h'⟩
  | star0 => intro L hL; simp [Re.words] at hL
  | starS => intro L hL; simp [Re.words] at hL
  | _ =>
    intro L hL
    simp only [Re.words, Option.some.injEq] at hL
    subst hL
    exact ⟨[], .nil _, by simp [toLower]⟩

theorem Lang.words {r : Re} {w : Text} (h : Lang r w) (L : List Text) (hL : r.words = some L) :
    toLower w ∈ L := by
  obtain ⟨s, s', h1, h2⟩ := h
  obtain ⟨w', h3, h4⟩ := h1.words L hL
  rw [h2.unique h3]; exact h4

/-! ## Capture groups -/

/-- The bodies of the groups numbered `n`. -/
def Re.bodies (n : Nat) : Re → List Re
  | .seq a b => a.bodies n ++ b.bodies n
  | .alt a b => a.bodies n ++ b.bodies n
  | .star _ r => r.bodies n
  | .cap k r => if k = n then r :: r.bodies n else r.bodies n
  | _ => []

/-- Group `n` takes part in every match. -/
def Re.mustCap (n : Nat) : Re → Bool
  | .seq a b => a.mustCap n || b.mustCap n
  | .alt a b => a.mustCap n && b.mustCap n
  | .cap k r => k == n || r.mustCap n
  | _ => false

/-- When group `n` takes part in a match, so does group `k`. -/
def Re.impCap (n k : Nat) : Re → Bool
  | .seq a b => (.seq a b : Re).mustCap k || (a.impCap n k && b.impCap n k)
  | .alt a b => a.impCap n k && b.impCap n k
  | .star _ r => (r.bodies n).isEmpty
  | .cap j r => (Re.cap j r).mustCap k || (j != n && r.impCap n k)
  | _ => true

/-- The groups recorded during a match. -/
theorem Rel.caps {t : Text} {r : Re} {s s' : St} (h : Rel r s s') (ht : OnSubj t s) :
    OnSubj t s' ∧ ∃ new, s'.caps = new ++ s.caps ∧
      (∀ n a b, (n, a, b) ∈ new → s.pos ≤ a ∧ b ≤ s'.pos ∧ a ≤ b ∧
        ∃ body ∈ r.bodies n, Lang body (slice t a b)) ∧
      (∀ n, r.mustCap n = true → ∃ a b, (n, a, b) ∈ new) ∧
      (∀ n k, r.impCap n k = true → (∃ a b, (n, a, b) ∈ new) → ∃ a b, (k, a, b) ∈ new) := by
  obtain ⟨w, hw⟩ := h.consumed
  refine ⟨(ht.of_consumed hw).1, ?_⟩
  clear hw w
  induction h with
  | one hr hd => exact ⟨[], rfl, by simp, by simp [Re.mustCap], by simp⟩
  | @seq a b s s1 s2 h1 h2 ih1 ih2 =>
    obtain ⟨n1, e1, p1, m1, i1⟩ := ih1 ht
    obtain ⟨w, hw⟩ := h1.consumed
    have ht1 := (ht.of_consumed hw).1
    obtain ⟨n2, e2, p2, m2, i2⟩ := ih2 ht1
    have l1 := h1.pos_le
    have l2 := h2.pos_le
    have hm : ∀ n, (Re.seq a b).mustCap n = true → ∃ x y, (n, x, y) ∈ n2 ++ n1 := by
      intro n hn
      simp only [Re.mustCap, Bool.or_eq_true] at hn
      rcases hn with hn | hn
      · obtain ⟨x, y, h⟩ := m1 n hn; exact ⟨x, y, by simp [h]⟩
      · obtain ⟨x, y, h⟩ := m2 n hn; exact ⟨x, y, by simp [h]⟩
    refine ⟨n2 ++ n1, by rw [e2, e1, List.append_assoc], ?_, hm, ?_⟩
    · intro n x y hxy
      rcases List.mem_append.1 hxy with h | h
      · obtain ⟨q1, q2, q3, body, hb, hl⟩ := p2 n x y h
        exact ⟨by omega, q2, q3, body, by simp [Re.bodies, hb], hl⟩
      · obtain ⟨q1, q2, q3, body, hb, hl⟩ := p1 n x y h
        exact ⟨q1, by omega, q3, body, by simp [Re.bodies, hb], hl⟩
    · intro n k hi hex
      simp only [Re.impCap, Bool.or_eq_true, Bool.and_eq_true] at hi
      rcases hi with hi | ⟨ha, hb⟩
      · exact hm k hi
      · obtain ⟨x, y, hxy⟩ := hex
        rcases List.mem_append.1 hxy with h | h
        · obtain ⟨u, v, huv⟩ := i2 n k hb ⟨x, y, h⟩; exact ⟨u, v, by simp [huv]⟩
        · obtain ⟨u, v, huv⟩ := i1 n k ha ⟨x, y, h⟩; exact ⟨u, v, by simp [huv]⟩
  | @altL a b s s1 _ ih =>
    obtain ⟨n1, e1, p1, m1, i1⟩ := ih ht
    refine ⟨n1, e1, fun n x y h => ?_, fun n hn => ?_, fun n k hi => ?_⟩
    · obtain ⟨q1, q2, q3, body, hb, hl⟩ := p1 n x y h
      exact ⟨q1, q2, q3, body, by simp [Re.bodies, hb], hl⟩
    · simp only [Re.mustCap, Bool.and_eq_true] at hn; exact m1 n hn.1
    · simp only [Re.impCap, Bool.and_eq_true] at hi; exact i1 n k hi.1
  | @altR a b s s1 _ ih =>
    obtain ⟨n1, e1, p1, m1, i1⟩ := ih ht
    refine ⟨n1, e1, fun n x y h => ?_, fun n hn => ?_, fun n k hi => ?_⟩
    · obtain ⟨q1, q2, q3, body, hb, hl⟩ := p1 n x y h
      exact ⟨q1, q2, q3, body, by simp [Re.bodies, hb], hl⟩
    · simp only [Re.mustCap, Bool.and_eq_true] at hn; exact m1 n hn.2
    · simp only [Re.impCap, Bool.and_eq_true] at hi; exact i1 n k hi.2
  | @starS g r s s1 s2 h1 hp h2 ih1 ih2 =>
    obtain ⟨n1, e1, p1, m1, i1⟩ := ih1 ht
    obtain ⟨w, hw⟩ := h1.consumed
    have ht1 := (ht.of_consumed hw).1
    obtain ⟨n2, e2, p2, m2, i2⟩ := ih2 ht1
    have l1 := h1.pos_le
    have l2 := h2.pos_le
    have hb : ∀ n x y, (n, x, y) ∈ n2 ++ n1 → s.pos ≤ x ∧ y ≤ s2.pos ∧ x ≤ y ∧
        ∃ body ∈ (Re.star g r).bodies n, Lang body (slice t x y) := by
      intro n x y hxy
      rcases List.mem_append.1 hxy with h | h
      · obtain ⟨q1, q2, q3, body, hb, hl⟩ := p2 n x y h
        exact ⟨by omega, q2, q3, body, hb, hl⟩
      · obtain ⟨q1, q2, q3, body, hb, hl⟩ := p1 n x y h
        exact ⟨q1, by omega, q3, body, by simpa [Re.bodies] using hb, hl⟩
    refine ⟨n2 ++ n1, by rw [e2, e1, List.append_assoc], hb, by simp [Re.mustCap], ?_⟩
    intro n k hi ⟨x, y, hxy⟩
    obtain ⟨-, -, -, body, hb, -⟩ := hb n x y hxy
    simp only [Re.impCap, List.isEmpty_iff] at hi
    simp [Re.bodies, hi] at hb
  | @cap j r s s1 h ih =>
    obtain ⟨n1, e1, p1, m1, i1⟩ := ih ht
    have l1 := h.pos_le
    obtain ⟨w, hw⟩ := h.consumed
    have hsl := (ht.of_consumed hw).2
    have hm : ∀ n, (Re.cap j r).mustCap n = true → ∃ x y, (n, x, y) ∈ (j, s.pos, s1.pos) :: n1 := by
      intro n hn
      simp only [Re.mustCap, Bool.or_eq_true, beq_iff_eq] at hn
      rcases hn with rfl | hn
      · exact ⟨s.pos, s1.pos, by simp⟩
      · obtain ⟨x, y, h⟩ := m1 n hn; exact ⟨x, y, by simp [h]⟩
    refine ⟨(j, s.pos, s1.pos) :: n1, by simp [e1], ?_, hm, ?_⟩
    · intro n x y hxy
      rcases List.mem_cons.1 hxy with he | h'
      · simp only [Prod.mk.injEq] at he
        obtain ⟨rfl, rfl, rfl⟩ := he
        exact ⟨Nat.le_refl _, Nat.le_refl _, l1, r, by simp [Re.bodies], s, s1, h, by rw [hsl]; exact hw⟩
      · obtain ⟨q1, q2, q3, body, hb, hl⟩ := p1 n x y h'
        refine ⟨q1, q2, q3, body, ?_, hl⟩
        simp only [Re.bodies]
        split <;> simp [hb]
    · intro n k hi hex
      simp only [Re.impCap, Bool.or_eq_true, Bool.and_eq_true, bne_iff_ne] at hi
      rcases hi with hi | ⟨hj, hi⟩
      · exact hm k hi
      · obtain ⟨x, y, hxy⟩ := hex
        rcases List.mem_cons.1 hxy with he | h'
        · simp only [Prod.mk.injEq] at he; exact absurd he.1.symm hj
        · obtain ⟨u, v, huv⟩ := i1 n k hi ⟨x, y, h'⟩; exact ⟨u, v, by simp [huv]⟩
  | _ => exact ⟨[], rfl, by simp, by simp [Re.mustCap], by simp⟩

theorem capSpan_some {n a b : Nat} {l : List (Nat × Nat × Nat)} (h : capSpan n l = some (a, b)) :
    (n, a, b) ∈ l := by
  induction l with
  | nil => simp [capSpan] at h
  | cons x l ih =>
    obtain ⟨k, u, v⟩ := x
    unfold capSpan at h
    split at h
    · rename_i hk; simp only [Option.some.injEq, Prod.mk.injEq] at h; simp at hk; simp [hk, h]
    · simp [ih h]

theorem capSpan_none {n : Nat} {l : List (Nat × Nat × Nat)} (h : capSpan n l = none) (a b : Nat) :
    (n, a, b) ∉ l := by
  induction l with
  | nil => simp
  | cons x l ih =>
    obtain ⟨k, u, v⟩ := x
    unfold capSpan at h
    split at h
    · simp at h
    · rename_i hk
      intro hm
      rcases List.mem_cons.1 hm with he | hm
      · simp only [Prod.mk.injEq] at he; simp at hk; exact hk he.1.symm
      · exact ih h hm

/-- Everything about the result of a successful search. -/
structure MatchOk (r : Re) (t : Text) (mt : Match) : Prop where
  subject : mt.subject = t
  le : mt.start ≤ mt.stop
  stop_le : mt.stop ≤ t.length
  lang : Lang r (mt.str 0)
  len : mt.length = (mt.str 0).length
  group : ∀ n, n ≠ 0 → (capSpan n mt.caps = none ∧ mt.str n = []) ∨
    ∃ a b, capSpan n mt.caps = some (a, b) ∧ mt.start ≤ a ∧ a ≤ b ∧ b ≤ mt.stop ∧ mt.str n = slice t a b ∧
      ∃ body ∈ r.bodies n, Lang body (mt.str n)
  must : ∀ n, r.mustCap n = true → ∃ a b, capSpan n mt.caps = some (a, b)
  imp : ∀ n k, r.impCap n k = true → (capSpan n mt.caps).isSome = true → (capSpan k mt.caps).isSome = true

theorem MatchOk.of_rel {r : Re} {t : Text} {mt : Match} {s s' : St} (hsub : mt.subject = t)
    (hs : OnSubj t s) (hp : s.pos = mt.start) (hc : s.caps = []) (hrel : Rel r s s')
    (hp' : s'.pos = mt.stop) (hc' : s'.caps = mt.caps) : MatchOk r t mt := by
  obtain ⟨hs', new, hnew, c1, c2, c3⟩ := hrel.caps hs
  rw [hc, List.append_nil, hc'] at hnew
  obtain ⟨w, hw⟩ := hrel.consumed
  have hsl := (hs.of_consumed hw).2
  have hle := hrel.pos_le
  have h0 : mt.str 0 = w := by unfold Match.str; rw [if_pos rfl, hsub, ← hp, ← hp', hsl]
  refine ⟨hsub, by omega, by rw [← hp']; exact hs'.le, ?_, ?_, ?_, ?_, ?_⟩
  · rw [h0]; exact ⟨s, s', hrel, hw⟩
  · rw [h0]; unfold Match.length; rw [← hp, ← hp', hw.pos]; omega
  · intro n hn
    unfold Match.str
    rw [if_neg hn, hsub]
    cases hcs : capSpan n mt.caps with
    | none => left; exact ⟨rfl, rfl⟩
    | some ab =>
      obtain ⟨a, b⟩ := ab
      right
      have hm := capSpan_some hcs
      rw [hnew] at hm
      obtain ⟨q1, q2, q3, q4⟩ := c1 n a b hm
      exact ⟨a, b, rfl, by omega, q3, by omega, rfl, q4⟩
  · intro n hn
    obtain ⟨a, b, hab⟩ := c2 n hn
    cases hcs : capSpan n mt.caps with
    | none => rw [← hnew] at hab; exact absurd hab (capSpan_none hcs a b)
    | some ab => exact ⟨ab.1, ab.2, rfl⟩
  · intro n k hi hn
    cases hcs : capSpan n mt.caps with
    | none => simp [hcs] at hn
    | some ab =>
      have hm := capSpan_some (a := ab.1) (b := ab.2) hcs
      rw [hnew] at hm
      obtain ⟨a, b, hab⟩ := c3 n k hi ⟨_, _, hm⟩
      cases hk : capSpan k mt.caps with
      | none => rw [← hnew] at hab; exact absurd hab (capSpan_none hk a b)
      | some _ => rfl

theorem Re.search_ok {r : Re} {t : Text} {mt : Match} (h : r.search t = some mt) : MatchOk r t mt := by
  obtain ⟨h1, h2, ⟨s', -, h4, h5, h6⟩, -⟩ := Re.search_some h
  exact .of_rel h1 (startSt_on t _ h2) rfl rfl h6 h4 h5

/-- A group that takes part matches one of its bodies. -/
theorem MatchOk.group_lang {r : Re} {t : Text} {mt : Match} (h : MatchOk r t mt) (n : Nat) (hn : n ≠ 0) :
    mt.str n = [] ∨ ∃ body ∈ r.bodies n, Lang body (mt.str n) := by
  rcases h.group n hn with h | ⟨_, _, _, _, _, _, _, h⟩
  · exact .inl h.2
  · exact .inr h

theorem MatchOk.must_lang {r : Re} {t : Text} {mt : Match} (h : MatchOk r t mt) (n : Nat) (hn : n ≠ 0)
    (hm : r.mustCap n = true) : ∃ body ∈ r.bodies n, Lang body (mt.str n) := by
  rcases h.group n hn with h' | ⟨_, _, _, _, _, _, _, h'⟩
  · obtain ⟨a, b, hab⟩ := h.must n hm
    rw [h'.1] at hab; simp at hab
  · exact h'

/-- If group `n` matched something non-empty then group `k` took part. -/
theorem MatchOk.imp_lang {r : Re} {t : Text} {mt : Match} (h : MatchOk r t mt) (n k : Nat) (hn : n ≠ 0)
    (hk : k ≠ 0) (hi : r.impCap n k = true) (hne : mt.str n ≠ []) : ∃ body ∈ r.bodies k, Lang body (mt.str k) := by
  have h1 : (capSpan n mt.caps).isSome = true := by
    rcases h.group n hn with h' | ⟨_, _, h', _⟩
    · exact absurd h'.2 hne
    · rw [h']; rfl
  have h2 := h.imp n k hi h1
  rcases h.group k hk with h' | ⟨_, _, _, _, _, _, _, h'⟩
  · rw [h'.1] at h2; simp at h2
  · exact h'

end Chrono
