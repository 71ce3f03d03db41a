import Verif.Lemmas.RelSimp
import Verif.Model.Tables
/-!
# What `regex_replace(value, "^ +| +$|( ) +", "$1")` does to a string

`collapseBlanks` of `utils.cpp:15`: every maximal run of blanks becomes one blank, and disappears at the start and at
the end of the string.
-/
namespace Chrono

/-- The pattern letter `" "`. -/
abbrev blank : Single := .ch false 32

theorem blank_test (c : Nat) : blank.test c = true ↔ c = 32 := by
  simp only [Single.test, Bool.and_eq_true, decide_eq_true_eq, Bool.false_eq_true, if_false, beq_iff_eq]
  omega

theorem blank_test' (c : Nat) : blank.test c = (c == 32) := by
  rw [Bool.eq_iff_iff, blank_test, beq_iff_eq]

theorem m_blank {α : Type} {k : St → Option α} {p : Nat} {pr : Option Nat} {t : Text} {cs : List (Nat × Nat × Nat)} :
    (Re.one blank).m ⟨p, pr, 32 :: t, cs⟩ k = k ⟨p + 1, some 32, t, cs⟩ := rfl

theorem m_seq {α : Type} {a b : Re} {s : St} {k : St → Option α} : (Re.seq a b).m s k = a.m s (fun s' => b.m s' k) := rfl

theorem m_cap {α : Type} {n : Nat} {r : Re} {s : St} {k : St → Option α} :
    (Re.cap n r).m s k = r.m s (fun s' => k { s' with caps := (n, s.pos, s'.pos) :: s'.caps }) := rfl

/-- Length of the run of blanks at the front. -/
def run32 : Text → Nat
  | [] => 0
  | c :: t => if c = 32 then run32 t + 1 else 0

theorem run32_le (t : Text) : run32 t ≤ t.length := by
  induction t with
  | nil => simp [run32]
  | cons c t ih => unfold run32; split <;> (simp; try omega)

/-- State after the run of blanks. -/
def St.overBlanks (s : St) : St :=
  ⟨s.pos + run32 s.rest, if run32 s.rest = 0 then s.prev else some 32, s.rest.drop (run32 s.rest), s.caps⟩

theorem overBlanks_cons {p : Nat} {pr : Option Nat} {t : Text} {cs : List (Nat × Nat × Nat)} :
    (⟨p, pr, 32 :: t, cs⟩ : St).overBlanks = (⟨p + 1, some 32, t, cs⟩ : St).overBlanks := by
  unfold St.overBlanks
  simp only [run32, if_true, List.drop_succ_cons]
  by_cases h : run32 t = 0
  · simp [h]
  · simp only [h, if_false, Nat.add_eq_zero_iff, false_and]
    congr 1
    omega

theorem starLoop_blanks {α : Type} {k : St → Option α} : ∀ (n : Nat) (s : St), s.rest.length ≤ n → ∀ x,
    k s.overBlanks = some x → starLoop true (Re.one blank).m n s k = some x := by
  intro n
  induction n with
  | zero =>
    intro s hs x hk
    have : s.rest = [] := List.length_eq_zero_iff.1 (Nat.le_zero.1 hs)
    have e : s.overBlanks = s := by unfold St.overBlanks; rw [this]; simp [run32, ← this]
    rw [e] at hk
    exact hk
  | succ n ih =>
    intro s hs x hk
    obtain ⟨p, pr, rest, cs⟩ := s
    unfold starLoop
    simp only [if_true]
    cases rest with
    | nil =>
      have e : (⟨p, pr, [], cs⟩ : St).overBlanks = ⟨p, pr, [], cs⟩ := by unfold St.overBlanks; simp [run32]
      rw [e] at hk
      simp [Re.m, orElse', hk]
    | cons c t =>
      by_cases hc : c = 32
      · subst hc
        rw [overBlanks_cons] at hk
        have := ih ⟨p + 1, some 32, t, cs⟩ (by simpa using hs) x hk
        simp only [m_blank]
        rw [if_pos (by omega), this]
        rfl
      · have e : (⟨p, pr, c :: t, cs⟩ : St).overBlanks = ⟨p, pr, c :: t, cs⟩ := by
          unfold St.overBlanks; simp [run32, hc]
        rw [e] at hk
        simp [Re.m, blank_test', hc, orElse', hk]

theorem star_blanks {α : Type} {k : St → Option α} (s : St) {x : α} (hk : k s.overBlanks = some x) :
    (Re.star true (.one blank)).m s k = some x := by
  show starLoop true (Re.one blank).m s.rest.length s k = some x
  exact starLoop_blanks _ s (Nat.le_refl _) x hk

/-- After fewer blanks than there are, a blank follows; so the string is not at its end. -/
theorem star_blanks_eol {s : St} (h : s.overBlanks.rest ≠ []) :
    (Re.star true (.one blank)).m s (fun s' => (Re.eol).m s' some) = none := by
  cases hm : (Re.star true (.one blank)).m s (fun s' => (Re.eol).m s' some) with
  | none => rfl
  | some x =>
    exfalso
    obtain ⟨s', hr, hk⟩ := Re.m_sound _ _ _ _ hm
    obtain ⟨w, t, h1, h2, rfl⟩ := rel_star_one.1 hr
    have ht : t = [] := by
      simp only [Re.m, St.advs, List.isEmpty_iff] at hk
      by_cases e : t = []
      · exact e
      · rw [if_neg e] at hk; cases hk
    subst ht
    rw [List.append_nil] at h1
    apply h
    have : ∀ w : Text, (∀ c ∈ w, blank.test c = true) → run32 w = w.length := by
      intro w
      induction w with
      | nil => intro; rfl
      | cons c w ih =>
        intro hw
        have hc := (blank_test c).1 (hw c (.head _))
        simp only [run32, hc, if_true, List.length_cons, ih (fun c h => hw c (.tail _ h))]
    show s.rest.drop (run32 s.rest) = []
    rw [h1, this w h2, List.drop_length]

/-- The pattern at one position of the string. -/
theorem collapse_at (p : Nat) (pr : Option Nat) (t : Text) :
    Ast.collapse.m ⟨p, pr, t, []⟩ some =
      if run32 t = 0 then none
      else if pr = none ∨ t.drop (run32 t) = [] then some ⟨p + run32 t, some 32, t.drop (run32 t), []⟩
      else if 2 ≤ run32 t then some ⟨p + run32 t, some 32, t.drop (run32 t), [(1, p, p + 1)]⟩
      else none := by
  cases t with
  | nil => simp [Ast.collapse, Re.m, run32, orElse']
  | cons c t =>
    by_cases hc : c = 32
    · subst hc
      have hr : run32 (32 :: t) = run32 t + 1 := by simp [run32]
      rw [if_neg (by omega)]
      have hd : (32 :: t).drop (run32 (32 :: t)) = t.drop (run32 t) := by rw [hr]; rfl
      rw [hd]
      have hov : ∀ cs, (⟨p + 1, some 32, t, cs⟩ : St).overBlanks =
          ⟨p + run32 (32 :: t), some 32, t.drop (run32 t), cs⟩ := by
        intro cs
        unfold St.overBlanks
        rw [hr]
        simp only [ite_self, St.mk.injEq, and_true]
        omega
      have h1 : pr = none → (Re.seq .bol (.seq (.one blank) (.star true (.one blank)))).m ⟨p, pr, 32 :: t, []⟩ some =
          some ⟨p + run32 (32 :: t), some 32, t.drop (run32 t), []⟩ := by
        intro hp
        subst hp
        rw [m_seq, show (Re.bol).m ⟨p, none, 32 :: t, []⟩ (fun s' => (Re.seq (.one blank) (.star true (.one blank))).m s' some)
          = (Re.seq (.one blank) (.star true (.one blank))).m ⟨p, none, 32 :: t, []⟩ some from rfl, m_seq, m_blank]
        exact star_blanks _ (by rw [hov])
      have h1' : pr ≠ none → (Re.seq .bol (.seq (.one blank) (.star true (.one blank)))).m ⟨p, pr, 32 :: t, []⟩ some =
          none := by
        intro hp
        simp only [Re.m]
        rw [if_neg (by simpa using hp)]
      have h2 : t.drop (run32 t) = [] →
          (Re.seq (.seq (.one blank) (.star true (.one blank))) .eol).m ⟨p, pr, 32 :: t, []⟩ some =
          some ⟨p + run32 (32 :: t), some 32, t.drop (run32 t), []⟩ := by
        intro he
        rw [m_seq, m_seq, m_blank]
        exact star_blanks _ (by rw [hov]; simp [Re.m, he])
      have h2' : t.drop (run32 t) ≠ [] →
          (Re.seq (.seq (.one blank) (.star true (.one blank))) .eol).m ⟨p, pr, 32 :: t, []⟩ some = none := by
        intro he
        have := star_blanks_eol (s := ⟨p + 1, some 32, t, []⟩) (by rw [hov]; exact he)
        rw [m_seq, m_seq, m_blank]
        exact this
      have h3 : 2 ≤ run32 (32 :: t) →
          (Re.seq (.cap 1 (.one blank)) (.seq (.one blank) (.star true (.one blank)))).m ⟨p, pr, 32 :: t, []⟩ some =
          some ⟨p + run32 (32 :: t), some 32, t.drop (run32 t), [(1, p, p + 1)]⟩ := by
        intro h
        cases t with
        | nil => simp [run32] at h
        | cons d t =>
          have hd : d = 32 := by
            by_cases e : d = 32
            · exact e
            · simp [run32, e] at h
          subst hd
          rw [m_seq, m_cap, m_blank, m_seq, m_blank]
          refine star_blanks _ ?_
          have := hov [(1, p, p + 1)]
          rw [overBlanks_cons] at this
          rw [this]
      have h3' : ¬ 2 ≤ run32 (32 :: t) →
          (Re.seq (.cap 1 (.one blank)) (.seq (.one blank) (.star true (.one blank)))).m ⟨p, pr, 32 :: t, []⟩ some =
          none := by
        intro h
        cases t with
        | nil => simp [Re.m, blank_test', St.adv]
        | cons d t =>
          have hd : d ≠ 32 := by
            intro e
            subst e
            simp [run32] at h
          simp [Re.m, blank_test', St.adv, hd]
      show orElse' (orElse' ((Re.seq .bol (.seq (.one blank) (.star true (.one blank)))).m ⟨p, pr, 32 :: t, []⟩ some)
          (fun _ => (Re.seq (.seq (.one blank) (.star true (.one blank))) .eol).m ⟨p, pr, 32 :: t, []⟩ some))
          (fun _ => (Re.seq (.cap 1 (.one blank)) (.seq (.one blank) (.star true (.one blank)))).m ⟨p, pr, 32 :: t, []⟩
            some) = _
      by_cases hp : pr = none
      · rw [h1 hp, if_pos (.inl hp)]; rfl
      · rw [h1' hp]
        by_cases he : t.drop (run32 t) = []
        · rw [h2 he, if_pos (.inr he)]; rfl
        · rw [h2' he, if_neg (by simp [hp, he])]
          by_cases h : 2 ≤ run32 (32 :: t)
          · rw [h3 h, if_pos h]; rfl
          · rw [h3' h, if_neg h]; rfl
    · have hr : run32 (c :: t) = 0 := by simp [run32, hc]
      rw [if_pos hr]
      simp [Ast.collapse, Re.m, blank_test', hc, orElse']

/-- First run of blanks (not at the start of the string) that the pattern changes: offset, length, and whether it is at
the end. -/
def findRun : Text → Option (Nat × Nat × Bool)
  | [] => none
  | c :: t =>
    if run32 (c :: t) ≠ 0 ∧ (c :: t).drop (run32 (c :: t)) = [] then some (0, run32 (c :: t), true)
    else if 2 ≤ run32 (c :: t) then some (0, run32 (c :: t), false)
    else (findRun t).map fun x => (x.1 + 1, x.2.1, x.2.2)

theorem collapse_searchFrom : ∀ (t : Text) (p d : Nat), Ast.collapse.searchFrom (some d) p t =
    (findRun t).map fun x => (p + x.1, ⟨p + x.1 + x.2.1, some 32, t.drop (x.1 + x.2.1),
      if x.2.2 then [] else [(1, p + x.1, p + x.1 + 1)]⟩) := by
  intro t
  induction t with
  | nil => intro p d; unfold Re.searchFrom; rw [collapse_at]; simp [run32, findRun]
  | cons c t ih =>
    intro p d
    unfold Re.searchFrom
    rw [collapse_at]
    unfold findRun
    simp only [reduceCtorEq, false_or]
    by_cases h0 : run32 (c :: t) = 0
    · rw [if_pos h0, if_neg (by simp [h0]), if_neg (by omega)]
      simp only [ih, Option.map_map]
      refine congrArg (fun f => Option.map f (findRun t)) (funext fun x => ?_)
      simp only [Function.comp]
      rw [show p + (x.1 + 1) = p + 1 + x.1 by omega, show x.1 + 1 + x.2.1 = x.1 + x.2.1 + 1 by omega, List.drop_succ_cons]
    · rw [if_neg h0]
      by_cases h1 : (c :: t).drop (run32 (c :: t)) = []
      · rw [if_pos h1, if_pos ⟨h0, h1⟩]
        simp
      · rw [if_neg h1, if_neg (show ¬ (run32 (c :: t) ≠ 0 ∧ _ = []) from fun h => h1 h.2)]
        by_cases h2 : 2 ≤ run32 (c :: t)
        · rw [if_pos h2, if_pos h2]
          simp
        · rw [if_neg h2, if_neg h2]
          simp only [ih, Option.map_map]
          refine congrArg (fun f => Option.map f (findRun t)) (funext fun x => ?_)
          simp only [Function.comp]
          rw [show p + (x.1 + 1) = p + 1 + x.1 by omega, show x.1 + 1 + x.2.1 = x.1 + x.2.1 + 1 by omega, List.drop_succ_cons]

/-- A blank followed by another blank, or by nothing, is dropped. -/
def dropBlanks : Text → Text
  | [] => []
  | c :: t =>
    if c = 32 then
      match t with
      | [] => []
      | d :: _ => if d = 32 then dropBlanks t else 32 :: dropBlanks t
    else c :: dropBlanks t

/-- A run of blanks at the front. -/
theorem dropBlanks_run (t : Text) (h : run32 t ≠ 0) :
    dropBlanks t = if t.drop (run32 t) = [] then [] else 32 :: dropBlanks (t.drop (run32 t)) := by
  induction t with
  | nil => simp [run32] at h
  | cons c t ih =>
    have hc : c = 32 := by
      by_cases e : c = 32
      · exact e
      · simp [run32, e] at h
    subst hc
    have hr : run32 (32 :: t) = run32 t + 1 := by simp [run32]
    rw [hr, List.drop_succ_cons]
    cases t with
    | nil => simp [dropBlanks]
    | cons d t =>
      by_cases hd : d = 32
      · have : run32 (d :: t) ≠ 0 := by simp [run32, hd]
        rw [← ih this]
        simp [dropBlanks, hd]
      · have : run32 (d :: t) = 0 := by simp [run32, hd]
        rw [this, List.drop_zero, if_neg (by simp)]
        rw [show dropBlanks (32 :: d :: t) = if d = 32 then dropBlanks (d :: t) else 32 :: dropBlanks (d :: t) from rfl, if_neg hd]

theorem dropBlanks_findRun (t : Text) : dropBlanks t = match findRun t with
    | none => t
    | some (p, j, e) => t.take p ++ ((if e then [] else [32]) ++ dropBlanks (t.drop (p + j))) := by
  induction t with
  | nil => rfl
  | cons c t ih =>
    unfold findRun
    by_cases h0 : run32 (c :: t) = 0
    · have hc : c ≠ 32 := by intro e; simp [run32, e] at h0
      rw [if_neg (by simp [h0]), if_neg (by omega)]
      have : dropBlanks (c :: t) = c :: dropBlanks t := by simp [dropBlanks, hc]
      rw [this, ih]
      cases findRun t with
      | none => rfl
      | some x => simp [Nat.add_right_comm]
    · rw [dropBlanks_run _ h0]
      by_cases h1 : (c :: t).drop (run32 (c :: t)) = []
      · rw [if_pos h1, if_pos ⟨h0, h1⟩]
        simp [h1, dropBlanks]
      · rw [if_neg h1, if_neg (show ¬ (run32 (c :: t) ≠ 0 ∧ _ = []) from fun h => h1 h.2)]
        by_cases h2 : 2 ≤ run32 (c :: t)
        · rw [if_pos h2]; simp
        · rw [if_neg h2]
          have h1' : run32 (c :: t) = 1 := by omega
          have hc : c = 32 := by
            by_cases e : c = 32
            · exact e
            · simp [run32, e] at h0
          subst hc
          rw [h1', List.drop_succ_cons, List.drop_zero, ih]
          cases findRun t with
          | none => rfl
          | some x => simp [Nat.add_right_comm]

theorem findRun_pos : ∀ {t : Text} {p j : Nat} {e : Bool}, findRun t = some (p, j, e) → 0 < j ∧ p + j ≤ t.length := by
  intro t
  induction t with
  | nil => intro p j e h; cases h
  | cons c t ih =>
    intro p j e h
    unfold findRun at h
    have hle := run32_le (c :: t)
    split at h
    · rename_i h1; cases h; exact ⟨Nat.pos_of_ne_zero h1.1, by omega⟩
    · split at h
      · cases h; omega
      · simp only [Option.map_eq_some_iff] at h
        obtain ⟨⟨p', j', e'⟩, hx, hy⟩ := h
        cases hy
        obtain ⟨a, b⟩ := ih hx
        simp only [List.length_cons]
        omega

theorem findRun_head {t : Text} {p j : Nat} (h : findRun t = some (p, j, false)) :
    slice t p (p + 1) = [32] := by
  induction t generalizing p j with
  | nil => cases h
  | cons c t ih =>
    unfold findRun at h
    split at h
    · cases h
    · split at h
      · rename_i h2
        cases h
        have hc : c = 32 := by
          by_cases e : c = 32
          · exact e
          · simp [run32, e] at h2
        simp [slice, hc]
      · simp only [Option.map_eq_some_iff] at h
        obtain ⟨⟨p', j', e'⟩, hx, hy⟩ := h
        cases hy
        have := ih hx
        simp only [slice, List.drop_succ_cons] at this ⊢
        rw [show p' + 1 + 1 - (p' + 1) = p' + 1 - p' by omega]
        exact this

theorem replaceAll_mid : ∀ (n : Nat) (t : Text) (d : Nat), t.length < n →
    Ast.collapse.replaceAll (fun mt => mt.str 1) n (some d) t = dropBlanks t := by
  intro n
  induction n with
  | zero => intro t d h; omega
  | succ n ih =>
    intro t d h
    unfold Re.replaceAll
    rw [collapse_searchFrom, dropBlanks_findRun]
    cases hf : findRun t with
    | none => rfl
    | some x =>
      obtain ⟨p, j, e⟩ := x
      obtain ⟨hj, hp⟩ := findRun_pos hf
      simp only [Option.map_some, Nat.zero_add]
      rw [if_pos (by omega), ih _ _ (by simp only [List.length_drop]; omega), List.append_assoc]
      congr 2
      cases e with
      | true => simp [Match.str, capSpan]
      | false => simp [Match.str, capSpan, findRun_head hf]

/-- `regex_replace(value, "^ +| +$|( ) +", "$1")`, for every string. -/
theorem collapseBlanks_eq (t : Text) : collapseBlanks t = dropBlanks (t.drop (run32 t)) := by
  unfold collapseBlanks Re.replaceAll
  cases t with
  | nil => unfold Re.searchFrom; rw [collapse_at]; simp [run32, dropBlanks]
  | cons c t =>
    unfold Re.searchFrom
    rw [collapse_at]
    by_cases h0 : run32 (c :: t) = 0
    · have hc : c ≠ 32 := by intro e; simp [run32, e] at h0
      rw [if_pos h0, h0, List.drop_zero]
      simp only [collapse_searchFrom]
      have : dropBlanks (c :: t) = c :: dropBlanks t := by simp [dropBlanks, hc]
      rw [this, dropBlanks_findRun]
      cases hf : findRun t with
      | none => rfl
      | some x =>
        obtain ⟨p, j, e⟩ := x
        obtain ⟨hj, hp⟩ := findRun_pos hf
        simp only [Option.map_some, Nat.zero_add]
        rw [if_pos (by omega), replaceAll_mid _ _ _ (by simp only [List.length_drop, List.length_cons]; omega),
          List.append_assoc, show 1 + p = p + 1 by omega, List.take_succ_cons, List.cons_append]
        congr 3
        cases e with
        | true => simp [Match.str, capSpan]
        | false =>
          have := findRun_head hf
          simp only [Match.str, capSpan, Bool.false_eq_true, if_false, beq_self_eq_true, if_true, slice,
            List.drop_succ_cons, Nat.one_ne_zero] at this ⊢
          rw [show p + 1 + 1 - (p + 1) = p + 1 - p by omega]
          exact this
    · rw [if_neg h0, if_pos (.inl rfl)]
      simp only [Nat.zero_add]
      have hle := run32_le (c :: t)
      rw [if_pos (by omega), replaceAll_mid _ _ _ (by simp only [List.length_drop]; omega)]
      simp [Match.str, capSpan]

end Chrono
