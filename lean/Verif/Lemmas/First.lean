import Verif.Lemmas.RelSimp
import Verif.Lemmas.Analysis
import Verif.Lemmas.CapLang
/-!
# Which of the possible matches the executor finds first
-/
namespace Chrono

/-- The first thing the executor tries for `r` at `s` leads to `s'`: if the continuation accepts `s'`, that is the answer. -/
def First (r : Re) (s s' : St) : Prop := Rel r s s' ∧ ∀ {α : Type} (k : St → Option α), (k s').isSome = true → r.m s k = k s'

theorem First.of {r : Re} {s s' : St} (h : ∀ {α : Type} (k : St → Option α), (k s').isSome = true → r.m s k = k s') : First r s s' := by
  refine ⟨?_, h⟩
  obtain ⟨s1, h1, h2⟩ := r.m_sound s some s' (h some rfl)
  cases h2
  exact h1

theorem orElse'_left {α : Type} {x : Option α} (y : Unit → Option α) (h : x.isSome = true) : orElse' x y = x := by
  cases x with
  | none => cases h
  | some a => rfl

theorem First.eps (s : St) : First .eps s s := ⟨.eps s, fun _ _ => rfl⟩

theorem First.one {d : Single} {s : St} {c : Nat} {t : Text} (hr : s.rest = c :: t) (hd : d.test c = true) : First (.one d) s (s.adv c t) :=
  ⟨.one hr hd, fun k _ => by simp [Re.m, hr, hd]⟩

theorem First.seq {a b : Re} {s s1 s2 : St} (ha : First a s s1) (hb : First b s1 s2) : First (.seq a b) s s2 :=
  ⟨.seq ha.1 hb.1, fun k hk => by
    have h2 := hb.2 k hk
    show a.m s (fun s' => b.m s' k) = k s2
    rw [ha.2 _ (by rw [h2]; exact hk), h2]⟩

theorem First.altL {a b : Re} {s s1 : St} (ha : First a s s1) : First (.alt a b) s s1 :=
  ⟨.altL ha.1, fun k hk => by
    show orElse' (a.m s k) _ = _
    rw [ha.2 k hk]
    cases h : k s1 with
    | none => rw [h] at hk; cases hk
    | some x => rfl⟩

theorem m_none {r : Re} {s : St} (h : ∀ s', ¬ Rel r s s') {α : Type} (k : St → Option α) : r.m s k = none := by
  cases hm : r.m s k with
  | none => rfl
  | some x =>
    obtain ⟨s', h1, -⟩ := r.m_sound s k x hm
    exact absurd h1 (h s')

theorem First.altR {a b : Re} {s s1 : St} (ha : ∀ s', ¬ Rel a s s') (hb : First b s s1) : First (.alt a b) s s1 :=
  ⟨.altR hb.1, fun k hk => by
    show orElse' (a.m s k) _ = _
    rw [m_none ha k]
    exact hb.2 k hk⟩

theorem First.cap {n : Nat} {r : Re} {s s1 : St} (h : First r s s1) : First (.cap n r) s { s1 with caps := (n, s.pos, s1.pos) :: s1.caps } :=
  ⟨.cap h.1, fun _ hk => h.2 _ hk⟩

/-- The second alternative, when the first leads nowhere. -/
theorem First.seqAltR {a b c : Re} {s s2 : St} (ha : ∀ s', ¬ Rel (.seq a c) s s') (hb : First (.seq b c) s s2) : First (.seq (.alt a b) c) s s2 := by
  refine ⟨?_, fun k hk => ?_⟩
  · obtain ⟨s1, h1, h2⟩ := rel_seq.1 hb.1
    exact .seq (.altR h1) h2
  · show orElse' ((Re.seq a c).m s k) (fun _ => (Re.seq b c).m s k) = _
    rw [m_none ha k]
    exact hb.2 k hk

theorem First.look {neg : Bool} {r : Re} {s : St} (h : ((Re.m (α := Unit) r s (fun _ => some ())).isSome != neg) = true) : First (.look neg r) s s :=
  ⟨.look h, fun k _ => by simp [Re.m, h]⟩

/-- A greedy loop over single characters takes as many as it can. -/
theorem First.star {d : Single} : ∀ {s : St} {w t : Text}, s.rest = w ++ t → (∀ c ∈ w, d.test c = true) → (∀ c, t.head? = some c → d.test c = false) →
    First (.star true (.one d)) s (s.advs w t) := by
  intro s w t hr hw ht
  refine ⟨rel_star_one.2 ⟨w, t, hr, hw, rfl⟩, fun k hk => ?_⟩
  show starLoop true _ s.rest.length s k = _
  rw [hr]
  have key : ∀ (w : Text) (s : St), s.rest = w ++ t → (∀ c ∈ w, d.test c = true) → ∀ n, w.length ≤ n → (k (s.advs w t)).isSome = true →
      starLoop true (Re.one d).m n s k = k (s.advs w t) := by
    intro w
    induction w with
    | nil =>
      intro s hr _ n _ hk
      have e : s.advs [] t = s := by
        simp only [List.nil_append] at hr
        simp [St.advs, ← hr]
      rw [e] at hk ⊢
      cases n with
      | zero => rfl
      | succ n =>
        have : (Re.one d).m s (fun s' => if s.pos < s'.pos then starLoop true (Re.one d).m n s' k else none) = none := by
          refine m_none (fun s' h => ?_) _
          obtain ⟨c, u, h1, h2, -⟩ := rel_one.1 h
          rw [List.nil_append, h1] at hr
          rw [ht c (by rw [← hr]; rfl)] at h2
          cases h2
        unfold starLoop
        simp only [if_true, this]
        rfl
    | cons c w ih =>
      intro s hr hw n hn hk
      cases n with
      | zero => simp at hn
      | succ n =>
        have e : (s.adv c (w ++ t)).advs w t = s.advs (c :: w) t := by
          simp only [St.advs, St.adv, List.length_cons]
          congr 1
          · omega
          · cases w with
            | nil => rfl
            | cons a w =>
              rw [List.getLast?_cons_cons, List.getLast?_eq_some_getLast (by simp)]
              rfl
        have : (Re.one d).m s (fun s' => if s.pos < s'.pos then starLoop true (Re.one d).m n s' k else none) = k (s.advs (c :: w) t) := by
          rw [(First.one (d := d) (t := w ++ t) hr (hw c (by simp))).2]
          · rw [if_pos (by simp [St.adv]), ih (s.adv c (w ++ t)) rfl (fun x hx => hw x (by simp [hx])) n (by simpa using hn) (by rw [e]; exact hk), e]
          · rw [if_pos (by simp [St.adv]), ih (s.adv c (w ++ t)) rfl (fun x hx => hw x (by simp [hx])) n (by simpa using hn) (by rw [e]; exact hk), e]
            exact hk
        unfold starLoop
        simp only [if_true, this]
        cases h : k (s.advs (c :: w) t) with
        | none => rw [h] at hk; cases hk
        | some x => rfl
  exact key w s hr hw _ (by simp) hk

theorem m_split {a b : Re} {s : St} {α : Type} {k : St → Option α} {x : α} (h : (Re.seq a b).m s k = some x) : ∃ s1, Rel a s s1 ∧ b.m s1 k = some x :=
  a.m_sound s (fun s' => b.m s' k) x h

/-- A pattern without groups notes none. -/
theorem Rel.caps_eq {r : Re} {s s' : St} (h : Rel r s s') (hg : r.groups = []) : s'.caps = s.caps := by
  induction h with
  | one _ _ => rfl
  | seq _ _ i1 i2 => simp only [Re.groups, List.append_eq_nil_iff] at hg; rw [i2 hg.2, i1 hg.1]
  | altL _ i => simp only [Re.groups, List.append_eq_nil_iff] at hg; exact i hg.1
  | altR _ i => simp only [Re.groups, List.append_eq_nil_iff] at hg; exact i hg.2
  | starS _ _ _ i1 i2 => rw [i2 hg, i1 hg]
  | cap _ _ => simp [Re.groups] at hg
  | _ => rfl

/-! ## Patterns that need a certain kind of character -/

/-- Every match consumes a character with the property `p`. -/
def Re.uses (p : Nat → Bool) : Re → Bool
  | .one d => (List.range 256).all (fun c => !d.test c || p c)
  | .seq x y => x.uses p || y.uses p
  | .alt x y => x.uses p && y.uses p
  | .cap _ r => r.uses p
  | _ => false

theorem Rel.uses {p : Nat → Bool} {r : Re} {s s' : St} (h : Rel r s s') (hp : r.uses p = true) : ∃ c ∈ s.rest, p c = true := by
  induction h with
  | @one d s c t hr hd =>
    simp only [Re.uses, List.all_eq_true, List.mem_range] at hp
    have := hp c (d.test_lt hd)
    simp only [hd, Bool.not_true, Bool.false_or] at this
    exact ⟨c, by rw [hr]; simp, this⟩
  | seq h1 h2 ih1 ih2 =>
    simp only [Re.uses, Bool.or_eq_true] at hp
    rcases hp with hp | hp
    · exact ih1 hp
    · obtain ⟨c, h3, h4⟩ := ih2 hp
      obtain ⟨w, hw⟩ := h1.consumed
      exact ⟨c, by rw [hw.rest]; simp [h3], h4⟩
  | altL _ ih => simp only [Re.uses, Bool.and_eq_true] at hp; exact ih hp.1
  | altR _ ih => simp only [Re.uses, Bool.and_eq_true] at hp; exact ih hp.2
  | cap _ ih => exact ih (by simpa [Re.uses] using hp)
  | _ => simp [Re.uses] at hp

/-! ## The groups of a match, and its end -/

theorem Rel.caps_in {r : Re} {s s' : St} (h : Rel r s s') : ∃ C, s'.caps = C ++ s.caps ∧ ∀ x ∈ C, x.1 ∈ r.groups := by
  induction h with
  | seq _ _ i1 i2 =>
    obtain ⟨C1, e1, h1⟩ := i1
    obtain ⟨C2, e2, h2⟩ := i2
    refine ⟨C2 ++ C1, by rw [e2, e1, List.append_assoc], fun x hx => ?_⟩
    rcases List.mem_append.1 hx with hx | hx
    · exact List.mem_append.2 (.inr (h2 x hx))
    · exact List.mem_append.2 (.inl (h1 x hx))
  | altL _ i =>
    obtain ⟨C1, e1, h1⟩ := i
    exact ⟨C1, e1, fun x hx => List.mem_append.2 (.inl (h1 x hx))⟩
  | altR _ i =>
    obtain ⟨C1, e1, h1⟩ := i
    exact ⟨C1, e1, fun x hx => List.mem_append.2 (.inr (h1 x hx))⟩
  | starS _ _ _ i1 i2 =>
    obtain ⟨C1, e1, h1⟩ := i1
    obtain ⟨C2, e2, h2⟩ := i2
    refine ⟨C2 ++ C1, by rw [e2, e1, List.append_assoc], fun x hx => ?_⟩
    rcases List.mem_append.1 hx with hx | hx
    · exact h2 x hx
    · exact h1 x hx
  | @cap n _ s s' _ i =>
    obtain ⟨C1, e1, h1⟩ := i
    refine ⟨(n, s.pos, s'.pos) :: C1, by simp [e1], fun x hx => ?_⟩
    rcases List.mem_cons.1 hx with rfl | hx
    · simp [Re.groups]
    · simp [Re.groups, h1 x hx]
  | _ => exact ⟨[], rfl, by simp⟩

theorem capSpan_skip {n : Nat} {C K : List (Nat × Nat × Nat)} (h : ∀ x ∈ C, x.1 ≠ n) : capSpan n (C ++ K) = capSpan n K := by
  induction C with
  | nil => rfl
  | cons x C ih =>
    obtain ⟨k, a, b⟩ := x
    rw [List.cons_append, capSpan, if_neg (by simpa using h (k, a, b) (by simp)), ih fun y hy => h y (by simp [hy])]

theorem Rel.span {r : Re} {s s' : St} (h : Rel r s s') {n : Nat} (hn : r.groups.contains n = false) : capSpan n s'.caps = capSpan n s.caps := by
  obtain ⟨C, e, hC⟩ := h.caps_in
  rw [e]
  refine capSpan_skip fun x hx => ?_
  rintro rfl
  have := hC x hx
  rw [← List.contains_iff_mem, hn] at this
  cases this

/-- The pattern ends with `\b`. -/
def Re.endsWb : Re → Bool
  | .wb neg => !neg
  | .cap _ r => r.endsWb
  | .seq _ b => b.endsWb
  | _ => false

theorem Rel.endsWb {r : Re} {s s' : St} (h : Rel r s s') (hr : r.endsWb = true) : s'.atWordBoundary = true := by
  induction h with
  | seq _ _ _ i2 => exact i2 hr
  | @cap n r s s' _ i => rw [← i hr]; rfl
  | @wb neg s hb => cases neg with
    | false => simpa using hb
    | true => cases hr
  | _ => cases hr

end Chrono
