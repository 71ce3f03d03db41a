import Verif.Regex.Re
import Verif.Lemmas.Tac
/-!
# Declarative semantics of regular expressions, and soundness / completeness of the executor
-/
namespace Chrono

/-- `Rel r s s'`: `r` can match from `s` and end in `s'` (ignoring which alternative the executor prefers). -/
inductive Rel : Re → St → St → Prop where
  | eps (s) : Rel .eps s s
  | one {d s c t} : s.rest = c :: t → d.test c = true → Rel (.one d) s (s.adv c t)
  | seq {a b s s1 s2} : Rel a s s1 → Rel b s1 s2 → Rel (.seq a b) s s2
  | altL {a b s s'} : Rel a s s' → Rel (.alt a b) s s'
  | altR {a b s s'} : Rel b s s' → Rel (.alt a b) s s'
  | star0 {g r s} : Rel (.star g r) s s
  | starS {g r s s1 s2} : Rel r s s1 → s.pos < s1.pos → Rel (.star g r) s1 s2 → Rel (.star g r) s s2
  | cap {n r s s'} : Rel r s s' → Rel (.cap n r) s { s' with caps := (n, s.pos, s'.pos) :: s'.caps }
  | bol {s} : s.prev = none → Rel .bol s s
  | eol {s} : s.rest = [] → Rel .eol s s
  | wb {neg s} : (s.atWordBoundary != neg) = true → Rel (.wb neg) s s
  | look {neg r s} : ((Re.m (α := Unit) r s (fun _ => some ())).isSome != neg) = true →
      Rel (.look neg r) s s

theorem orElse'_eq_some {α : Type} {x : Option α} {y : Unit → Option α} {a : α}
    (h : orElse' x y = some a) : x = some a ∨ (x = none ∧ y () = some a) := by
  unfold orElse' at h
  cases x with
  | none => right; exact ⟨rfl, h⟩
  | some b => left; simpa using h

theorem orElse'_isSome {α : Type} {x : Option α} {y : Unit → Option α} :
    (orElse' x y).isSome = (x.isSome || (y ()).isSome) := by
  unfold orElse'; cases x <;> simp

theorem starLoop_sound {α : Type} {g : Bool} {r : Re}
    (ih : ∀ (s : St) (k : St → Option α) (x : α), r.m s k = some x → ∃ s', Rel r s s' ∧ k s' = some x) :
    ∀ (n : Nat) (s : St) (k : St → Option α) (x : α), starLoop g r.m n s k = some x →
      ∃ s', Rel (.star g r) s s' ∧ k s' = some x := by
  intro n
  induction n with
  | zero => intro s k x h; exact ⟨s, .star0, h⟩
  | succ n ihn =>
    intro s k x h
    have more : r.m s (fun s' => if s.pos < s'.pos then starLoop g r.m n s' k else none) = some x →
        ∃ s', Rel (.star g r) s s' ∧ k s' = some x := by
      intro h
      obtain ⟨s1, h1, h2⟩ := ih _ _ _ h
      split at h2
      · rename_i hp
        obtain ⟨s2, h3, h4⟩ := ihn _ _ _ h2
        exact ⟨s2, .starS h1 hp h3, h4⟩
      · simp at h2
    unfold starLoop at h
    simp only at h
    split at h
    · rcases orElse'_eq_some h with h | ⟨-, h⟩
      · exact more h
      · exact ⟨s, .star0, h⟩
    · rcases orElse'_eq_some h with h | ⟨-, h⟩
      · exact ⟨s, .star0, h⟩
      · exact more h

/-- Soundness: whatever the executor finds is a match of the declarative semantics. -/
theorem Re.m_sound {α : Type} (r : Re) : ∀ (s : St) (k : St → Option α) (x : α),
    r.m s k = some x → ∃ s', Rel r s s' ∧ k s' = some x := by
  induction r with
  | eps => intro s k x h; exact ⟨s, .eps s, h⟩
  | one d =>
    intro s k x h
    unfold Re.m at h
    split at h
    · simp at h
    · rename_i c t hr
      split at h
      · rename_i hd; exact ⟨_, .one hr hd, h⟩
      · simp at h
  | seq a b iha ihb =>
    intro s k x h
    unfold Re.m at h
    obtain ⟨s1, h1, h2⟩ := iha _ _ _ h
    obtain ⟨s2, h3, h4⟩ := ihb _ _ _ h2
    exact ⟨s2, .seq h1 h3, h4⟩
  | alt a b iha ihb =>
    intro s k x h
    unfold Re.m at h
    rcases orElse'_eq_some h with h | ⟨-, h⟩
    · obtain ⟨s1, h1, h2⟩ := iha _ _ _ h; exact ⟨s1, .altL h1, h2⟩
    · obtain ⟨s1, h1, h2⟩ := ihb _ _ _ h; exact ⟨s1, .altR h1, h2⟩
  | star g r ih =>
    intro s k x h
    unfold Re.m at h
    exact starLoop_sound ih _ _ _ _ h
  | cap n r ih =>
    intro s k x h
    unfold Re.m at h
    obtain ⟨s1, h1, h2⟩ := ih _ _ _ h
    exact ⟨_, .cap h1, h2⟩
  | bol =>
    intro s k x h
    unfold Re.m at h
    split at h
    · rename_i hp; exact ⟨s, .bol (by simpa using hp), h⟩
    · simp at h
  | eol =>
    intro s k x h
    unfold Re.m at h
    split at h
    · rename_i hp; exact ⟨s, .eol (by simpa using hp), h⟩
    · simp at h
  | wb neg =>
    intro s k x h
    unfold Re.m at h
    split at h
    · rename_i hp; exact ⟨s, .wb hp, h⟩
    · simp at h
  | look neg r _ =>
    intro s k x h
    unfold Re.m at h
    split at h
    · rename_i hp; exact ⟨s, .look hp, h⟩
    · simp at h

/-- What a match consumes. -/
structure Consumed (s s' : St) (w : Text) : Prop where
  rest : s.rest = w ++ s'.rest
  pos : s'.pos = s.pos + w.length
  prev : s'.prev = (w.getLast?).or s.prev

theorem Consumed.nil (s : St) : Consumed s s [] := ⟨rfl, rfl, by simp⟩

theorem Consumed.trans {s s1 s2 : St} {w w' : Text} (h : Consumed s s1 w) (h' : Consumed s1 s2 w') :
    Consumed s s2 (w ++ w') := by
  refine ⟨by rw [h.rest, h'.rest, List.append_assoc], ?_, ?_⟩
  · rw [h'.pos, h.pos, List.length_append]; omega
  · rw [h'.prev, h.prev]
    rw [List.getLast?_append, Option.or_assoc]

theorem Rel.consumed {r : Re} {s s' : St} (h : Rel r s s') : ∃ w, Consumed s s' w := by
  induction h with
  | eps s => exact ⟨[], .nil s⟩
  | @one d s c t hr hd => exact ⟨[c], ⟨by simpa [St.adv] using hr, rfl, rfl⟩⟩
  | seq _ _ ih1 ih2 =>
    obtain ⟨w, h1⟩ := ih1; obtain ⟨w', h2⟩ := ih2; exact ⟨_, h1.trans h2⟩
  | altL _ ih => exact ih
  | altR _ ih => exact ih
  | star0 => exact ⟨[], .nil _⟩
  | starS _ _ _ ih1 ih2 =>
    obtain ⟨w, h1⟩ := ih1; obtain ⟨w', h2⟩ := ih2; exact ⟨_, h1.trans h2⟩
  | cap _ ih => obtain ⟨w, h⟩ := ih; exact ⟨w, ⟨h.rest, h.pos, h.prev⟩⟩
  | bol _ => exact ⟨[], .nil _⟩
  | eol _ => exact ⟨[], .nil _⟩
  | wb _ => exact ⟨[], .nil _⟩
  | look _ => exact ⟨[], .nil _⟩

theorem Rel.pos_le {r : Re} {s s' : St} (h : Rel r s s') : s.pos ≤ s'.pos := by
  obtain ⟨w, hw⟩ := h.consumed; rw [hw.pos]; omega

theorem Rel.rest_length {r : Re} {s s' : St} (h : Rel r s s') :
    s.rest.length + s.pos = s'.rest.length + s'.pos := by
  obtain ⟨w, hw⟩ := h.consumed
  rw [hw.pos, hw.rest, List.length_append]; omega

/-- Completeness: if the declarative semantics has a match after which the continuation succeeds, then the
executor succeeds (possibly with another match). -/
theorem Re.m_complete {α : Type} (r : Re) : ∀ (s s' : St) (k : St → Option α),
    Rel r s s' → (k s').isSome = true → (r.m s k).isSome = true := by
  induction r with
  | eps => intro s s' k h hk; cases h; exact hk
  | one d =>
    intro s s' k h hk
    cases h with
    | one hr hd => unfold Re.m; rw [hr]; simp only [hd, if_true]; exact hk
  | seq a b iha ihb =>
    intro s s' k h hk
    cases h with
    | seq h1 h2 => unfold Re.m; exact iha _ _ _ h1 (ihb _ _ _ h2 hk)
  | alt a b iha ihb =>
    intro s s' k h hk
    unfold Re.m
    rw [orElse'_isSome]
    cases h with
    | altL h => rw [iha _ _ _ h hk]; rfl
    | altR h => rw [ihb _ _ _ h hk]; simp
  | star g r ih =>
    intro s s' k h hk
    have key : ∀ (R : Re) (s s' : St), Rel R s s' → R = .star g r → (k s').isSome = true →
        ∀ n, s.rest.length ≤ n → (starLoop g r.m n s k).isSome = true := by
      intro R s s' h
      induction h with
      | @star0 g' r' s =>
        intro hR hk n hn
        cases n with
        | zero => exact hk
        | succ n =>
          unfold starLoop
          simp only
          split
          · rw [orElse'_isSome, hk]; simp
          · rw [orElse'_isSome, hk]; simp
      | @starS g' r' s s1 s2 h1 hp h2 _ ih2 =>
        intro hR hk n hn
        have hl := h1.rest_length
        cases n with
        | zero => omega
        | succ n =>
          have e : r' = r := by cases hR; rfl
          subst e
          have hm : (r'.m s (fun s' => if s.pos < s'.pos then starLoop g r'.m n s' k else none)).isSome
              = true := by
            apply ih _ _ _ h1
            rw [if_pos hp]
            exact ih2 hR hk n (by omega)
          unfold starLoop
          simp only
          split
          · rw [orElse'_isSome, hm]; rfl
          · rw [orElse'_isSome, hm]; simp
      | _ => intro hR; cases hR
    unfold Re.m
    exact key _ _ _ h rfl hk _ (Nat.le_refl _)
  | cap n r ih =>
    intro s s' k h hk
    cases h with
    | cap h => unfold Re.m; exact ih _ _ _ h hk
  | bol => intro s s' k h hk; cases h with | bol hp => unfold Re.m; simp [hp, hk]
  | eol => intro s s' k h hk; cases h with | eol hp => unfold Re.m; simp [hp, hk]
  | wb neg => intro s s' k h hk; cases h with | wb hp => unfold Re.m; rw [if_pos hp]; exact hk
  | look neg r _ => intro s s' k h hk; cases h with | look hp => unfold Re.m; rw [if_pos hp]; exact hk

/-! ## Search -/

/-- The state is a position in the subject `t`. -/
structure OnSubj (t : Text) (s : St) : Prop where
  le : s.pos ≤ t.length
  rest : s.rest = t.drop s.pos
  prev : s.prev = (t.take s.pos).getLast?

theorem OnSubj.of_consumed {t : Text} {s s' : St} {w : Text} (h : OnSubj t s) (hc : Consumed s s' w) :
    OnSubj t s' ∧ slice t s.pos s'.pos = w := by
  have h1 : t.drop s.pos = w ++ s'.rest := by rw [← h.rest]; exact hc.rest
  have hlen : t.length - s.pos = w.length + s'.rest.length := by
    rw [← List.length_drop, h1, List.length_append]
  have hdrop : t.drop s'.pos = s'.rest := by
    rw [hc.pos, ← List.drop_drop, h1, List.drop_left]
  have hle := h.le
  refine ⟨⟨by rw [hc.pos]; omega, hdrop.symm, ?_⟩, ?_⟩
  · have ht : t.take s'.pos = t.take s.pos ++ w := by
      rw [hc.pos, List.take_add, h1, List.take_left]
    rw [ht, hc.prev, h.prev]
    rw [List.getLast?_append]
  · unfold slice
    rw [h1, hc.pos]
    have : s.pos + w.length - s.pos = w.length := by omega
    rw [this, List.take_left]

/-- The state at the start of a match attempt at offset `p` of `t`. -/
def startSt (t : Text) (p : Nat) : St := ⟨p, (t.take p).getLast?, t.drop p, []⟩

theorem startSt_on (t : Text) (p : Nat) (h : p ≤ t.length) : OnSubj t (startSt t p) := ⟨h, rfl, rfl⟩

theorem Re.searchFrom_spec (r : Re) (t : Text) : ∀ (n p : Nat), t.length - p = n → p ≤ t.length →
    match r.searchFrom (t.take p).getLast? p (t.drop p) with
    | some (q, s) => p ≤ q ∧ q ≤ t.length ∧ r.m (startSt t q) some = some s ∧
        (∀ j, p ≤ j → j < q → r.m (startSt t j) some = none)
    | none => ∀ j, p ≤ j → j ≤ t.length → r.m (startSt t j) some = none := by
  intro n
  induction n with
  | zero =>
    intro p hn hp
    have hd : t.drop p = [] := List.drop_eq_nil_of_le (by omega)
    have hst : startSt t p = ⟨p, (t.take p).getLast?, [], []⟩ := by unfold startSt; rw [hd]
    rw [hd]
    unfold Re.searchFrom
    rw [← hst]
    cases hm : r.m (startSt t p) some with
    | some s => simp only; exact ⟨Nat.le_refl _, hp, hm, fun j h1 h2 => by omega⟩
    | none =>
      simp only
      intro j h1 h2
      have : j = p := by omega
      rw [this]; exact hm
  | succ n ih =>
    intro p hn hp
    obtain ⟨c, hc⟩ : ∃ c, t[p]? = some c := ⟨t[p], by rw [List.getElem?_eq_getElem (by omega)]⟩
    have hlt : p < t.length := by omega
    have hd : t.drop p = t[p] :: t.drop (p + 1) := List.drop_eq_getElem_cons hlt
    have htk : (t.take (p + 1)).getLast? = some t[p] := by
      rw [List.getLast?_take]; simp [List.getElem?_eq_getElem hlt]
    have hst : startSt t p = ⟨p, (t.take p).getLast?, t[p] :: t.drop (p + 1), []⟩ := by
      unfold startSt; rw [hd]
    rw [hd]
    unfold Re.searchFrom
    rw [← hst]
    cases hm : r.m (startSt t p) some with
    | some s => simp only; exact ⟨Nat.le_refl _, hp, hm, fun j h1 h2 => by omega⟩
    | none =>
      simp only
      have := ih (p + 1) (by omega) (by omega)
      rw [htk] at this
      cases hs : r.searchFrom (some t[p]) (p + 1) (t.drop (p + 1)) with
      | none =>
        rw [hs] at this
        simp only at this ⊢
        intro j h1 h2
        by_cases hj : j = p
        · rw [hj]; exact hm
        · exact this j (by omega) h2
      | some qs =>
        obtain ⟨q, s⟩ := qs
        rw [hs] at this
        simp only at this ⊢
        obtain ⟨a, b, c', d⟩ := this
        refine ⟨by omega, b, c', fun j h1 h2 => ?_⟩
        by_cases hj : j = p
        · rw [hj]; exact hm
        · exact d j (by omega) h2

/-- What a successful search means. -/
theorem Re.search_some {r : Re} {t : Text} {mt : Match} (h : r.search t = some mt) :
    mt.subject = t ∧ mt.start ≤ t.length ∧
    (∃ s', r.m (startSt t mt.start) some = some s' ∧ s'.pos = mt.stop ∧ s'.caps = mt.caps ∧
      Rel r (startSt t mt.start) s') ∧
    (∀ j < mt.start, r.m (startSt t j) some = none) := by
  have sp := r.searchFrom_spec t t.length 0 (by omega) (by omega)
  unfold Re.search at h
  simp only [List.take_zero, List.getLast?_nil, List.drop_zero] at sp
  cases hs : r.searchFrom none 0 t with
  | none => rw [hs] at h; simp at h
  | some qs =>
    obtain ⟨q, s⟩ := qs
    rw [hs] at h sp
    simp only [Option.some.injEq] at h
    subst h
    simp only at sp ⊢
    obtain ⟨-, b, c, d⟩ := sp
    obtain ⟨s', h1, h2⟩ := r.m_sound _ _ _ c
    simp only [Option.some.injEq] at h2
    subst h2
    exact ⟨by trivial, b, ⟨s', c, by trivial, by trivial, h1⟩, fun j hj => d j (by omega) hj⟩

theorem Re.search_none {r : Re} {t : Text} (h : r.search t = none) :
    ∀ p ≤ t.length, ∀ s', ¬ Rel r (startSt t p) s' := by
  have sp := r.searchFrom_spec t t.length 0 (by omega) (by omega)
  unfold Re.search at h
  simp only [List.take_zero, List.getLast?_nil, List.drop_zero] at sp
  cases hs : r.searchFrom none 0 t with
  | some qs => rw [hs] at h; simp at h
  | none =>
    rw [hs] at sp
    simp only at sp
    intro p hp s' hrel
    have := r.m_complete _ _ some hrel rfl
    rw [sp p (by omega) hp] at this
    simp at this

/-- If the executor succeeds at offset 0, the search reports exactly that. -/
theorem Re.search_at_zero {r : Re} {t : Text} {s' : St} (h : r.m ⟨0, none, t, []⟩ some = some s') :
    r.search t = some ⟨0, s'.pos, s'.caps, t⟩ := by
  unfold Re.search Re.searchFrom
  cases t <;> rw [h]

theorem Re.fullMatch_some {r : Re} {t : Text} {mt : Match} (h : r.fullMatch t = some mt) :
    mt.subject = t ∧ mt.start = 0 ∧ mt.stop = t.length ∧
    ∃ s', Rel r (startSt t 0) s' ∧ s'.rest = [] ∧ s'.caps = mt.caps ∧ s'.pos = mt.stop := by
  unfold Re.fullMatch at h
  split at h
  · rename_i s hs
    simp only [Option.some.injEq] at h
    subst h
    obtain ⟨s', h1, h2⟩ := r.m_sound _ _ _ hs
    split at h2
    · rename_i he
      simp only [Option.some.injEq] at h2
      subst h2
      have hrest : s'.rest = [] := by simpa using he
      have h3 : Rel r (startSt t 0) s' := h1
      have hl := h3.rest_length
      simp [startSt, hrest] at hl
      exact ⟨rfl, rfl, hl.symm, s', h3, hrest, rfl, rfl⟩
    · simp at h2
  · simp at h

theorem Re.fullMatch_none {r : Re} {t : Text} (h : r.fullMatch t = none) :
    ∀ s', Rel r (startSt t 0) s' → s'.rest ≠ [] := by
  intro s' hrel hrest
  unfold Re.fullMatch at h
  have := r.m_complete (startSt t 0) s' (fun s => if s.rest.isEmpty then some s else none) hrel
    (by simp [hrest])
  have e : startSt t 0 = ⟨0, none, t, []⟩ := by simp [startSt]
  rw [e] at this
  split at h
  · simp at h
  · rename_i hs; rw [hs] at this; simp at this

end Chrono
