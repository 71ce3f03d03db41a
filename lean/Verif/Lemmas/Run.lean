import Verif.Lemmas.Digits
/-!
# Matching a text with a run of digits of any length

The run is represented by a single token.  `Re.mr` executes a pattern on the text with the token; where the outcome
would depend on the length of the run it gives up (`unk`).  What it finds is what the executor finds on the text with
any run of digits in the place of the token (`foundRun`).
-/
namespace Chrono

inductive Tri (α : Type) where
  | unk | no | yes (a : α)

def Tri.orElse {α : Type} (x : Tri α) (y : Unit → Tri α) : Tri α :=
  match x with
  | .unk => .unk
  | .no => y ()
  | .yes a => .yes a

/-- The token: not a byte. -/
def runTok : Nat := 256

/-- `d` does not accept what comes after the run. -/
def stopsAt (d : Single) : Text → Bool
  | [] => true
  | c :: _ => c != runTok && !d.test c

/-- The loop `[0-9]+` or `[0-9]*`. -/
def Re.plusOf : Re → Re → Option Single
  | .one d, .star true (.one d') => if d = d' then some d else none
  | _, _ => none

def Re.starOf (g : Bool) : Re → Option Single
  | .one d => if g then some d else none
  | _ => none

/-- If the run can be consumed by `d`, and only as a whole, the state after it. -/
def overRun (o : Option Single) (s : St) : Option St :=
  match o, s.rest with
  | some d, c :: t => if c = runTok ∧ d.test 49 = true ∧ stopsAt d t = true then some (s.adv c t) else none
  | _, _ => none

def commit {α : Type} : Tri α → Tri α
  | .yes a => .yes a
  | _ => .unk

def loop3 {α : Type} (greedy : Bool) (body : St → (St → Tri α) → Tri α) : Nat → St → (St → Tri α) → Tri α
  | 0, _, _ => .unk
  | n + 1, s, k =>
    let more : Unit → Tri α := fun _ => body s (fun s' => if s.pos < s'.pos then loop3 greedy body n s' k else .no)
    if greedy then (more ()).orElse (fun _ => k s) else (k s).orElse more

def tokWord (c : Nat) : Bool := c == runTok || isWordB c

def St.boundary3 (s : St) : Bool :=
  let l := match s.prev with
    | some c => tokWord c
    | none => false
  let r := match s.rest with
    | c :: _ => tokWord c
    | [] => false
  l != r

def Re.mr {α : Type} : Re → St → (St → Tri α) → Tri α
  | .eps, s, k => k s
  | .one d, s, k =>
    match s.rest with
    | [] => .no
    | c :: t => if c = runTok then (if d.test 49 then .unk else .no) else if d.test c then k (s.adv c t) else .no
  | .seq a b, s, k =>
    match overRun (Re.plusOf a b) s with
    | some s' => commit (k s')
    | none => a.mr s (fun s' => b.mr s' k)
  | .alt a b, s, k => (a.mr s k).orElse (fun _ => b.mr s k)
  | .star g r, s, k =>
    match overRun (Re.starOf g r) s with
    | some s' => commit (k s')
    | none => loop3 g r.mr (s.rest.length + 1) s k
  | .cap n r, s, k => r.mr s (fun s' => k { s' with caps := (n, s.pos, s'.pos) :: s'.caps })
  | .bol, s, k => if s.prev.isNone then k s else .no
  | .eol, s, k => if s.rest.isEmpty then k s else .no
  | .wb neg, s, k => if s.boundary3 != neg then k s else .no
  | .look neg r, s, k =>
    match Re.mr (α := Unit) r s (fun _ => .yes ()) with
    | .unk => .unk
    | .no => if neg then k s else .no
    | .yes _ => if neg then .no else k s

/-! ## Soundness -/

/-- `t` is `z` with the tokens replaced by runs of digits; `φ` maps the offsets of `z` to those of `t`. -/
inductive Exp (φ : Nat → Nat) : Nat → Text → Text → Prop where
  | nil {q} : Exp φ q [] []
  | same {q c z t} : c ≠ runTok → φ (q + 1) = φ q + 1 → Exp φ (q + 1) z t → Exp φ q (c :: z) (c :: t)
  | run {q ds z t} : ds ≠ [] → (∀ c ∈ ds, isDigitB c = true) → φ (q + 1) = φ q + ds.length → Exp φ (q + 1) z t →
      Exp φ q (runTok :: z) (ds ++ t)

inductive PrevRel : Option Nat → Option Nat → Prop where
  | none : PrevRel none none
  | same {c} : c ≠ runTok → PrevRel (some c) (some c)
  | digit {c} : isDigitB c = true → PrevRel (some c) (some runTok)

def mapCap (φ : Nat → Nat) (x : Nat × Nat × Nat) : Nat × Nat × Nat := (x.1, φ x.2.1, φ x.2.2)

structure SimR (φ : Nat → Nat) (L : Nat) (s z : St) : Prop where
  pos : s.pos = φ z.pos
  len : s.pos + s.rest.length = L
  rest : Exp φ z.pos z.rest s.rest
  prev : PrevRel s.prev z.prev
  caps : s.caps = z.caps.map (mapCap φ)

inductive TriRel {α β : Type} (Q : α → β → Prop) : Option α → Tri β → Prop where
  | unk {x} : TriRel Q x .unk
  | no : TriRel Q none .no
  | yes {a b} : Q a b → TriRel Q (some a) (.yes b)

theorem TriRel.orElse {α β : Type} {Q : α → β → Prop} {x : Option α} {x' : Tri β} {y : Unit → Option α} {y' : Unit → Tri β}
    (h : TriRel Q x x') (h' : TriRel Q (y ()) (y' ())) : TriRel Q (orElse' x y) (x'.orElse y') := by
  cases h with
  | unk => exact .unk
  | no => exact h'
  | yes h => exact .yes h

theorem SimR.adv {φ : Nat → Nat} {L : Nat} {s z : St} {c : Nat} {t u : Text} (h : SimR φ L s z) (hs : s.rest = c :: t)
    (hc : c ≠ runTok) (hφ : φ (z.pos + 1) = φ z.pos + 1) (he : Exp φ (z.pos + 1) u t) : SimR φ L (s.adv c t) (z.adv c u) := by
  have := h.len
  rw [hs] at this
  simp only [List.length_cons] at this
  exact ⟨by simp only [St.adv]; rw [h.pos, hφ], by simp only [St.adv]; omega, he, .same hc, h.caps⟩

theorem digit_ne_tok {c : Nat} (h : isDigitB c = true) : c ≠ runTok := by
  rw [isDigitB_iff] at h; unfold runTok; omega

theorem isWordB_tok_digit {c : Nat} (h : isDigitB c = true) : isWordB c = true := by
  rw [isDigitB_iff] at h
  have : ∀ i < 10, isWordB (48 + i) = true := by decide
  have := this (c - 48) (by omega)
  rwa [show 48 + (c - 48) = c by omega] at this

theorem boundary3_sim {φ : Nat → Nat} {L : Nat} {s z : St} (h : SimR φ L s z) : s.atWordBoundary = z.boundary3 := by
  have hp := h.prev
  have hr := h.rest
  have h1 : (match s.prev with | some c => isWordB c | none => false) = (match z.prev with | some c => tokWord c | none => false) := by
    generalize s.prev = p at hp
    generalize z.prev = p' at hp
    cases hp with
    | none => rfl
    | same hc => simp [tokWord, hc]
    | digit hc => simp [tokWord, isWordB_tok_digit hc]
  have h2 : (match s.rest with | c :: _ => isWordB c | [] => false) = (match z.rest with | c :: _ => tokWord c | [] => false) := by
    generalize s.rest = p at hr
    generalize z.rest = p' at hr
    cases hr with
    | nil => rfl
    | same hc => simp [tokWord, hc]
    | @run _ ds _ _ hne hd =>
      cases ds with
      | nil => exact absurd rfl hne
      | cons c ds => simp [tokWord, isWordB_tok_digit (hd c (by simp))]
  unfold St.atWordBoundary St.boundary3
  exact congrArg₂ (fun a b : Bool => a != b) h1 h2

/-- A loop over one character class consumes a run up to its end. -/
theorem starLoop_run {α : Type} {d : Single} {t : Text} (ht : ∀ c u, t = c :: u → d.test c = false) :
    ∀ (ds : Text) (n : Nat) (s : St) (k : St → Option α) (x : α), (∀ c ∈ ds, d.test c = true) → s.rest = ds ++ t →
      ds.length ≤ n → k ⟨s.pos + ds.length, ds.getLast?.or s.prev, t, s.caps⟩ = some x →
      starLoop true (Re.one d).m n s k = some x := by
  intro ds
  induction ds with
  | nil =>
    intro n s k x _ hr _ hk
    have e : (⟨s.pos + ([] : Text).length, ([] : Text).getLast?.or s.prev, t, s.caps⟩ : St) = s := by
      simp only [List.nil_append] at hr
      cases s; simp_all
    rw [e] at hk
    cases n with
    | zero => exact hk
    | succ n =>
      unfold starLoop
      have : ∀ k' : St → Option α, (Re.one d).m s k' = none := by
        intro k'
        unfold Re.m
        rw [hr]
        simp only [List.nil_append]
        cases t with
        | nil => rfl
        | cons c u => simp [ht c u rfl]
      simp only [if_true]
      rw [this]
      exact hk
  | cons c ds ih =>
    intro n s k x hd hr hn hk
    cases n with
    | zero => simp at hn
    | succ n =>
      unfold starLoop
      simp only [if_true]
      have : (Re.one d).m s (fun s' => if s.pos < s'.pos then starLoop true (Re.one d).m n s' k else none) = some x := by
        unfold Re.m
        rw [hr]
        simp only [List.cons_append]
        rw [if_pos (hd c (by simp)), if_pos (by simp [St.adv])]
        refine ih n _ k x (fun c hc => hd c (by simp [hc])) (by simp [St.adv]) (by simpa using hn) ?_
        rw [← hk]
        congr 1
        simp only [St.adv, List.length_cons, St.mk.injEq, and_true]
        refine ⟨by omega, ?_⟩
        cases ds with
        | nil => simp
        | cons a l =>
          rw [show c :: a :: l = [c] ++ (a :: l) from rfl, List.getLast?_append]
          have : (a :: l).getLast? = some ((a :: l).getLast (by simp)) := List.getLast?_eq_some_getLast (by simp)
          rw [this]; rfl
      rw [this]; rfl

theorem overRun_some {o : Option Single} {s s' : St} (h : overRun o s = some s') :
    ∃ d t, o = some d ∧ s.rest = runTok :: t ∧ d.test 49 = true ∧ stopsAt d t = true ∧ s' = s.adv runTok t := by
  unfold overRun at h
  split at h
  · rename_i d c t hr
    split at h
    · rename_i hc
      obtain ⟨rfl, h2, h3⟩ := hc
      simp only [Option.some.injEq] at h
      exact ⟨d, t, rfl, hr, h2, h3, h.symm⟩
    · cases h
  · cases h

theorem blind_one {d : Single} (h : (Re.one d).digitBlind = true) {c : Nat} (hc : isDigitB c = true) : d.test c = d.test 49 := by
  have := Re.digitBlind_sound h c 49 (.inr ⟨hc, by decide⟩)
  simpa [Re.sameOn] using this

/-- The run, seen from both sides. -/
theorem SimR.run {φ : Nat → Nat} {L : Nat} {s z : St} {d : Single} {u : Text} (h : SimR φ L s z) (hz : z.rest = runTok :: u)
    (hd : (Re.one d).digitBlind = true) (h49 : d.test 49 = true) (hst : stopsAt d u = true) :
    ∃ ds t, ds ≠ [] ∧ s.rest = ds ++ t ∧ (∀ c ∈ ds, d.test c = true) ∧ (∀ c v, t = c :: v → d.test c = false) ∧
      SimR φ L ⟨s.pos + ds.length, ds.getLast?.or s.prev, t, s.caps⟩ (z.adv runTok u) := by
  have hr := h.rest
  rw [hz] at hr
  generalize hs : s.rest = r at hr
  cases hr with
  | same hc => exact absurd rfl hc
  | @run _ ds _ t hne hdig hφ he =>
    refine ⟨ds, t, hne, rfl, fun c hc => by rw [blind_one hd (hdig c hc), h49], ?_, ?_⟩
    · intro c v hv
      cases he with
      | nil => cases hv
      | same hc =>
        cases hv
        simp only [stopsAt, Bool.and_eq_true, Bool.not_eq_true'] at hst
        exact hst.2
      | @run _ ds' _ _ hne' hd' =>
        simp [stopsAt] at hst
    · have hl := h.len
      rw [hs, List.length_append] at hl
      refine ⟨by simp only [St.adv]; rw [h.pos, hφ], by simp only; omega, he, ?_, h.caps⟩
      simp only [St.adv]
      rw [List.getLast?_eq_some_getLast hne]
      exact .digit (hdig _ (List.getLast_mem hne))

theorem TriRel.commit {α β : Type} {Q : α → β → Prop} {x y : Option α} {v : Tri β} (h : TriRel Q x v)
    (hxy : ∀ a, x = some a → y = some a) : TriRel Q y (commit v) := by
  cases h with
  | unk => exact .unk
  | no => exact .unk
  | yes h => rw [hxy _ rfl]; exact .yes h

theorem loop3_sim {α β : Type} {Q : α → β → Prop} {φ : Nat → Nat} (hφ : ∀ a b, φ a < φ b ↔ a < b) {L : Nat} {g : Bool} {r : Re}
    {f' : St → (St → Tri β) → Tri β}
    (hf : ∀ s z (k : St → Option α) k', SimR φ L s z → (∀ t t', SimR φ L t t' → TriRel Q (k t) (k' t')) →
      TriRel Q (r.m s k) (f' z k')) :
    ∀ m n s z k k', SimR φ L s z → s.rest.length ≤ n → (∀ t t', SimR φ L t t' → TriRel Q (k t) (k' t')) →
      TriRel Q (starLoop g r.m n s k) (loop3 g f' m z k') := by
  intro m
  induction m with
  | zero => intro n s z k k' _ _ _; exact .unk
  | succ m ih =>
    intro n s z k k' hs hn hk
    cases n with
    | zero =>
      have h0 : s.rest.length = 0 := by omega
      have hm : TriRel Q none (f' z (fun t => if z.pos < t.pos then loop3 g f' m t k' else .no)) := by
        have e : r.m s (fun _ => (none : Option α)) = none := by
          cases hx : r.m s (fun _ => (none : Option α)) with
          | none => rfl
          | some x => obtain ⟨s', -, h⟩ := r.m_sound _ _ _ hx; cases h
        rw [← e]
        refine hf _ _ _ _ hs fun t t' ht => ?_
        rw [if_neg]
        · exact .no
        · intro hlt
          have h1 := (hφ _ _).2 hlt
          rw [← hs.pos, ← ht.pos] at h1
          have h2 := hs.len
          have h3 := ht.len
          omega
      unfold starLoop loop3
      cases g with
      | true =>
        simp only [if_true]
        exact TriRel.orElse (x := none) (y := fun _ => k s) (y' := fun _ => k' z) hm (hk _ _ hs)
      | false =>
        simp only [Bool.false_eq_true, if_false]
        have h1 := hk _ _ hs
        have := TriRel.orElse (y := fun _ => none) (y' := fun _ => f' z (fun t => if z.pos < t.pos then loop3 false f' m t k' else .no)) h1 hm
        have e : orElse' (k s) (fun _ => none) = k s := by unfold orElse'; cases k s <;> rfl
        rw [e] at this
        exact this
    | succ n =>
      have hm : TriRel Q (r.m s (fun t => if s.pos < t.pos then starLoop g r.m n t k else none))
          (f' z (fun t => if z.pos < t.pos then loop3 g f' m t k' else .no)) := by
        refine hf _ _ _ _ hs fun t t' ht => ?_
        have e : (s.pos < t.pos) ↔ (z.pos < t'.pos) := by rw [hs.pos, ht.pos]; exact hφ _ _
        by_cases hp : z.pos < t'.pos
        · rw [if_pos hp, if_pos (e.2 hp)]
          refine ih _ _ _ _ _ ht ?_ hk
          have h2 := hs.len
          have h3 := ht.len
          have := e.2 hp
          omega
        · rw [if_neg hp, if_neg (fun h => hp (e.1 h))]; exact .no
      unfold starLoop loop3
      cases g with
      | true => exact TriRel.orElse (y := fun _ => k s) (y' := fun _ => k' z) hm (hk _ _ hs)
      | false => exact TriRel.orElse (y := fun _ => r.m s _) (y' := fun _ => f' z _) (hk _ _ hs) hm

theorem blind_seq {a b : Re} (h : (Re.seq a b).digitBlind = true) : a.digitBlind = true ∧ b.digitBlind = true := by
  simp only [Re.digitBlind, Re.sameOn, List.all_eq_true, Bool.and_eq_true] at *
  exact ⟨fun x hx y hy => (h x hx y hy).1, fun x hx y hy => (h x hx y hy).2⟩
theorem blind_alt {a b : Re} (h : (Re.alt a b).digitBlind = true) : a.digitBlind = true ∧ b.digitBlind = true := by
  simp only [Re.digitBlind, Re.sameOn, List.all_eq_true, Bool.and_eq_true] at *
  exact ⟨fun x hx y hy => (h x hx y hy).1, fun x hx y hy => (h x hx y hy).2⟩

theorem Re.mr_sim (r : Re) : ∀ {α β : Type} {Q : α → β → Prop} {φ : Nat → Nat} (_ : ∀ a b, φ a < φ b ↔ a < b) {L : Nat}
    (_ : r.digitBlind = true) (s z : St) (k : St → Option α) (k' : St → Tri β), SimR φ L s z →
    (∀ t t', SimR φ L t t' → TriRel Q (k t) (k' t')) → TriRel Q (r.m s k) (r.mr z k') := by
  induction r with
  | eps => intro α β Q φ hφ L hb s z k k' hs hk; exact hk _ _ hs
  | one d =>
    intro α β Q φ hφ L hb s z k k' hs hk
    unfold Re.m Re.mr
    have hr := hs.rest
    generalize hq : s.rest = q at hr
    generalize hq' : z.rest = q' at hr
    cases hr with
    | nil => exact .no
    | @same _ c u t hc h1 h2 =>
      simp only
      rw [if_neg hc]
      split
      · exact hk _ _ (hs.adv hq hc h1 h2)
      · exact .no
    | @run _ ds u t hne hd h1 h2 =>
      simp only [if_true]
      cases ds with
      | nil => exact absurd rfl hne
      | cons c ds =>
        simp only [List.cons_append]
        rw [blind_one hb (hd c (by simp))]
        split
        · exact .unk
        · exact .no
  | seq a b iha ihb =>
    intro α β Q φ hφ L hb s z k k' hs hk
    unfold Re.mr
    split
    · rename_i z' ho
      obtain ⟨d, u, h1, h2, h3, h4, rfl⟩ := overRun_some ho
      have e : a = .one d ∧ b = .star true (.one d) := by
        unfold Re.plusOf at h1
        split at h1
        · split at h1
          · rename_i e; subst e; cases h1; exact ⟨rfl, rfl⟩
          · cases h1
        · cases h1
      obtain ⟨rfl, rfl⟩ := e
      obtain ⟨ds, t, g1, g2, g3, g4, g5⟩ := hs.run h2 (blind_seq hb).1 h3 h4
      refine (hk _ _ g5).commit fun x hx => ?_
      cases ds with
      | nil => exact absurd rfl g1
      | cons c ds =>
        unfold Re.m
        show (Re.one d).m s _ = some x
        unfold Re.m
        rw [g2]
        simp only [List.cons_append]
        rw [if_pos (g3 c (by simp))]
        show starLoop true (Re.one d).m _ _ _ = some x
        refine starLoop_run g4 ds _ _ _ _ (fun c hc => g3 c (by simp [hc])) (by simp [St.adv]) (by simp [St.adv]) ?_
        rw [← hx]
        congr 1
        simp only [St.adv, List.length_cons, St.mk.injEq, and_true]
        refine ⟨by omega, ?_⟩
        cases ds with
        | nil => simp
        | cons a l =>
          rw [show c :: a :: l = [c] ++ (a :: l) from rfl, List.getLast?_append]
          have : (a :: l).getLast? = some ((a :: l).getLast (by simp)) := List.getLast?_eq_some_getLast (by simp)
          rw [this]; rfl
    · unfold Re.m
      exact iha hφ (blind_seq hb).1 _ _ _ _ hs (fun t t' ht => ihb hφ (blind_seq hb).2 _ _ _ _ ht hk)
  | alt a b iha ihb =>
    intro α β Q φ hφ L hb s z k k' hs hk
    unfold Re.m Re.mr
    exact TriRel.orElse (iha hφ (blind_alt hb).1 _ _ _ _ hs hk) (ihb hφ (blind_alt hb).2 _ _ _ _ hs hk)
  | star g r ih =>
    intro α β Q φ hφ L hb s z k k' hs hk
    have hb' : r.digitBlind = true := hb
    unfold Re.mr
    split
    · rename_i z' ho
      obtain ⟨d, u, h1, h2, h3, h4, rfl⟩ := overRun_some ho
      have e : r = .one d ∧ g = true := by
        unfold Re.starOf at h1
        split at h1
        · split at h1
          · rename_i e; cases h1; exact ⟨rfl, e⟩
          · cases h1
        · cases h1
      obtain ⟨rfl, rfl⟩ := e
      obtain ⟨ds, t, g1, g2, g3, g4, g5⟩ := hs.run h2 hb' h3 h4
      refine (hk _ _ g5).commit fun x hx => ?_
      show starLoop true (Re.one d).m _ _ _ = some x
      exact starLoop_run g4 ds _ _ _ _ g3 g2 (by rw [g2]; simp) hx
    · show TriRel Q (starLoop g r.m _ s k) _
      exact loop3_sim hφ (fun s z k k' hs hk => ih hφ hb' s z k k' hs hk) _ _ _ _ _ _ hs (Nat.le_refl _) hk
  | cap n r ih =>
    intro α β Q φ hφ L hb s z k k' hs hk
    unfold Re.m Re.mr
    refine ih hφ hb _ _ _ _ hs (fun t t' ht => hk _ _ ?_)
    refine ⟨ht.pos, ht.len, ht.rest, ht.prev, ?_⟩
    simp only [List.map_cons, mapCap, ht.caps, hs.pos, ht.pos]
  | bol =>
    intro α β Q φ hφ L hb s z k k' hs hk
    unfold Re.m Re.mr
    have : s.prev.isNone = z.prev.isNone := by
      have := hs.prev
      generalize s.prev = p at this
      generalize z.prev = p' at this
      cases this <;> rfl
    rw [this]
    split
    · exact hk _ _ hs
    · exact .no
  | eol =>
    intro α β Q φ hφ L hb s z k k' hs hk
    unfold Re.m Re.mr
    have : s.rest.isEmpty = z.rest.isEmpty := by
      have := hs.rest
      generalize s.rest = p at this
      generalize z.rest = p' at this
      cases this with
      | nil => rfl
      | same => rfl
      | @run _ ds _ _ hne =>
        cases ds with
        | nil => exact absurd rfl hne
        | cons => rfl
    rw [this]
    split
    · exact hk _ _ hs
    · exact .no
  | wb neg =>
    intro α β Q φ hφ L hb s z k k' hs hk
    unfold Re.m Re.mr
    rw [boundary3_sim hs]
    split
    · exact hk _ _ hs
    · exact .no
  | look neg r ih =>
    intro α β Q φ hφ L hb s z k k' hs hk
    unfold Re.m Re.mr
    have := ih (Q := fun (_ _ : Unit) => True) (α := Unit) (β := Unit) hφ hb s z (fun _ => some ()) (fun _ => .yes ()) hs
      (fun _ _ _ => .yes trivial)
    generalize Re.m (α := Unit) r s (fun _ => some ()) = x at this
    generalize Re.mr (α := Unit) r z (fun _ => .yes ()) = y at this
    cases this with
    | unk => exact .unk
    | no =>
      cases neg
      · exact .no
      · exact hk _ _ hs
    | yes =>
      cases neg
      · exact hk _ _ hs
      · exact .no

/-! ## One run in a text -/

/-- Offsets in `a ++ [token] ++ b` to offsets in `a ++ ds ++ b`. -/
def runOff (i n : Nat) (q : Nat) : Nat := if q ≤ i then q else q - 1 + n

theorem exp_fixed {φ : Nat → Nat} : ∀ (t : Text) (q : Nat), (∀ c ∈ t, c < 256) → (∀ j, q ≤ j → j < q + t.length → φ (j + 1) = φ j + 1) →
    ∀ {z u : Text}, Exp φ (q + t.length) z u → Exp φ q (t ++ z) (t ++ u) := by
  intro t
  induction t with
  | nil => intro q _ _ z u h; simpa using h
  | cons c t ih =>
    intro q hc hφ z u h
    refine .same (by have := hc c (by simp); unfold runTok; omega) (hφ q (Nat.le_refl _) (by simp)) ?_
    refine ih (q + 1) (fun x hx => hc x (by simp [hx])) (fun j h1 h2 => hφ j (by omega) (by simp; omega)) ?_
    rw [show q + 1 + t.length = q + (c :: t).length by simp; omega]
    exact h

/-- The pattern matches the whole text with the token, the groups at the given places. -/
def checkRun (r : Re) (a b : Text) (gs : List (Nat × Option (Nat × Nat))) : Bool :=
  (match r.mr ⟨0, none, a ++ runTok :: b, []⟩ Tri.yes with
  | .yes s => s.pos == a.length + 1 + b.length && gs.all (fun x => capSpan x.1 s.caps == x.2)
  | _ => false) && a.all (· < 256) && b.all (· < 256) && (r.search []).isNone && r.digitBlind

theorem capSpan_map {φ : Nat → Nat} (n : Nat) (l : List (Nat × Nat × Nat)) :
    capSpan n (l.map (mapCap φ)) = (capSpan n l).map fun x => (φ x.1, φ x.2) := by
  induction l with
  | nil => rfl
  | cons x l ih =>
    obtain ⟨k, p, q⟩ := x
    simp only [List.map_cons, mapCap, capSpan]
    split
    · rfl
    · exact ih

theorem foundRun {r : Re} {a b ds : Text} (gs : List (Nat × Option (Nat × Nat))) (hc : checkRun r a b gs = true)
    (hne : ds ≠ []) (hd : ∀ c ∈ ds, isDigitB c = true) :
    ∃ mt, FoundAt0 r (a ++ ds ++ b) mt ∧ mt.str 0 = a ++ ds ++ b ∧
      ∀ x ∈ gs, x.1 ≠ 0 → mt.str x.1 = spanText (a ++ ds ++ b) (x.2.map fun p => (runOff a.length ds.length p.1, runOff a.length ds.length p.2)) := by
  unfold checkRun at hc
  simp only [Bool.and_eq_true, Option.isNone_iff_eq_none, List.all_eq_true, decide_eq_true_eq] at hc
  obtain ⟨⟨⟨⟨h1, h2⟩, h3⟩, h4⟩, h5⟩ := hc
  have hn1 : 1 ≤ ds.length := by
    have := List.length_pos_iff.2 hne; omega
  have hφ : ∀ x y, runOff a.length ds.length x < runOff a.length ds.length y ↔ x < y := by
    intro x y
    unfold runOff
    split <;> split <;> omega
  have hexp : Exp (runOff a.length ds.length) 0 (a ++ runTok :: b) (a ++ (ds ++ b)) := by
    refine exp_fixed a 0 h2 (fun j _ hj => ?_) ?_
    · unfold runOff; rw [if_pos (by omega), if_pos (by omega)]
    · refine .run hne hd ?_ ?_
      · unfold runOff; rw [if_neg (by omega), if_pos (by omega)]; omega
      · have := exp_fixed (φ := runOff a.length ds.length) b (0 + a.length + 1) h3 (fun j h _ => by
          unfold runOff; rw [if_neg (by omega), if_neg (by omega)]; omega) (z := []) (u := []) .nil
        simpa using this
  have hsim : SimR (runOff a.length ds.length) (a ++ (ds ++ b)).length ⟨0, none, a ++ (ds ++ b), []⟩ ⟨0, none, a ++ runTok :: b, []⟩ :=
    ⟨by simp [runOff], by simp, hexp, .none, rfl⟩
  have key := r.mr_sim (Q := fun s z => SimR (runOff a.length ds.length) (a ++ (ds ++ b)).length s z) hφ h5 _ _ some Tri.yes hsim
    (fun t t' h => .yes h)
  generalize hm : r.m ⟨0, none, a ++ (ds ++ b), []⟩ some = o at key
  cases ho : r.mr ⟨0, none, a ++ runTok :: b, []⟩ Tri.yes with
  | unk => rw [ho] at h1; simp at h1
  | no => rw [ho] at h1; simp at h1
  | yes z =>
    rw [ho] at h1 key
    simp only [Bool.and_eq_true, beq_iff_eq, List.all_eq_true] at h1
    cases key with
    | @yes s _ hs =>
      have hpos : s.pos = (a ++ ds ++ b).length := by
        rw [hs.pos, h1.1]
        unfold runOff
        rw [if_neg (by omega)]
        simp only [List.length_append]; omega
      rw [List.append_assoc] at *
      refine ⟨⟨0, s.pos, s.caps, a ++ (ds ++ b)⟩, ⟨Re.search_at_zero hm, rfl, ?_⟩, ?_, ?_⟩
      · simp only
        rw [hpos, List.drop_length]
        exact h4
      · unfold Match.str slice
        rw [if_pos rfl]
        simp only [hpos, List.drop_zero, Nat.sub_zero, List.take_length]
      · intro x hx hx0
        unfold Match.str
        rw [if_neg hx0]
        simp only
        rw [hs.caps, capSpan_map, h1.2 x hx]
        cases x.2 <;> rfl

end Chrono
