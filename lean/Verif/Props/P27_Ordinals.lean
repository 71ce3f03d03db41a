import Verif.Lemmas.Blanks
import Verif.Spec.Words
/-!
# C32: ordinal words
-/
namespace Chrono.Props
open Chrono Chrono.Spec

theorem words_nil : words [] = [] := rfl

/-- Head of the split: empty iff the string is empty or starts with a separator. -/
theorem splitOnP_head (P : Nat → Bool) : ∀ t : Text, ∃ h r, t.splitOnP P = h :: r ∧
    (h = [] ↔ (t = [] ∨ ∃ c u, t = c :: u ∧ P c = true)) := by
  intro t
  cases t with
  | nil => exact ⟨[], [], rfl, by simp⟩
  | cons c t =>
    rw [List.splitOnP_cons_eq_if_modifyHead]
    by_cases hc : P c = true
    · rw [if_pos hc]
      exact ⟨[], _, rfl, by simp [hc]⟩
    · rw [if_neg hc]
      have hne := List.splitOnP_ne_nil P t
      cases hs : t.splitOnP P with
      | nil => exact absurd hs hne
      | cons h r => exact ⟨c :: h, r, rfl, by simp [hc]⟩

theorem words_sep {c : Nat} {t : Text} (h : separator c = true) : words (c :: t) = words t := by
  unfold words
  rw [List.splitOnP_cons_eq_if_modifyHead, if_pos h]
  rfl

theorem words_one {c : Nat} (h : separator c = false) : words [c] = [[c]] := by
  unfold words
  rw [List.splitOnP_cons_eq_if_modifyHead, if_neg (by simp [h])]
  rfl

theorem words_end {c d : Nat} {t : Text} (h : separator c = false) (hd : separator d = true) :
    words (c :: d :: t) = [c] :: words (d :: t) := by
  unfold words
  rw [List.splitOnP_cons_eq_if_modifyHead, if_neg (by simp [h]), List.splitOnP_cons_eq_if_modifyHead, if_pos hd]
  rfl

theorem words_more {c d : Nat} {t : Text} (h : separator c = false) (hd : separator d = false) :
    ∃ w ws, words (d :: t) = w :: ws ∧ words (c :: d :: t) = (c :: w) :: ws := by
  unfold words
  obtain ⟨w, r, h1, h2⟩ := splitOnP_head separator (d :: t)
  have hw : w ≠ [] := fun e => by simpa [hd] using h2.1 e
  rw [List.splitOnP_cons_eq_if_modifyHead (x := c), if_neg (by simp [h]), h1]
  refine ⟨w, r.filter fun w => !w.isEmpty, ?_, rfl⟩
  rw [List.filter_cons, if_pos (by simpa using hw)]

/-- Blanks instead of hyphens. -/
def spaced (ws : List Text) : Text := List.intercalate [32] ws

theorem spaced_cons {w : Text} {ws : List Text} (h : ws ≠ []) : spaced (w :: ws) = w ++ 32 :: spaced ws := by
  cases ws with
  | nil => exact absurd rfl h
  | cons v vs => simp [spaced, List.intercalate, List.intersperse]

theorem spaced_one (w : Text) : spaced [w] = w := by simp [spaced, List.intercalate]

theorem spaced_grow (c : Nat) (w : Text) (ws : List Text) : spaced ((c :: w) :: ws) = c :: spaced (w :: ws) := by
  cases ws with
  | nil => simp [spaced_one]
  | cons v vs => rw [spaced_cons (w := c :: w) (by simp), spaced_cons (w := w) (by simp)]; rfl

/-- Separators are blanks once the hyphens are gone. -/
def NoDash (t : Text) : Prop := ∀ c ∈ t, c ≠ 45

theorem sep_noDash {c : Nat} (h : c ≠ 45) : separator c = true ↔ c = 32 := by simp [separator, h]

theorem dropBlanks_words : ∀ t : Text, NoDash t →
    dropBlanks t = (if t.head? = some 32 ∧ words t ≠ [] then [32] else []) ++ spaced (words t) := by
  intro t
  induction t with
  | nil => intro _; rfl
  | cons c t ih =>
    intro hn
    have hnt : NoDash t := fun c h => hn c (.tail _ h)
    have ih := ih hnt
    by_cases hc : c = 32
    · subst hc
      rw [words_sep rfl]
      cases t with
      | nil => rfl
      | cons d t =>
        by_cases hd : d = 32
        · subst hd
          rw [show dropBlanks (32 :: 32 :: t) = dropBlanks (32 :: t) from rfl, ih]
          simp
        · have hd' : separator d = false := by
            rw [Bool.eq_false_iff]; intro e; exact hd ((sep_noDash (hnt d (.head _))).1 e)
          have hw : words (d :: t) ≠ [] := by
            cases t with
            | nil => rw [words_one hd']; simp
            | cons e t =>
              by_cases he : separator e = true
              · rw [words_end hd' he]; simp
              · obtain ⟨w, ws, h1, h2⟩ := words_more (t := t) hd' (Bool.not_eq_true _ ▸ he)
                rw [h2]; simp
          rw [show dropBlanks (32 :: d :: t) = if d = 32 then dropBlanks (d :: t) else 32 :: dropBlanks (d :: t) from rfl,
            if_neg hd, ih, if_neg (by simp [hd]), if_pos ⟨rfl, hw⟩]
          rfl
    · have hc' : separator c = false := by
        rw [Bool.eq_false_iff]; intro e; exact hc ((sep_noDash (hn c (.head _))).1 e)
      rw [show dropBlanks (c :: t) = if c = 32 then (match t with | [] => [] | d :: _ => if d = 32 then dropBlanks t else 32 :: dropBlanks t) else c :: dropBlanks t from by cases t <;> rfl, if_neg hc, if_neg (by simp [hc]), ih]
      cases t with
      | nil => rw [words_one hc', spaced_one]; rfl
      | cons d t =>
        by_cases hd : separator d = true
        · have hd32 := (sep_noDash (hnt d (.head _))).1 hd
          rw [words_end hc' hd]
          by_cases hw : words (d :: t) = []
          · rw [hw, spaced_one]; simp [spaced]
          · rw [if_pos ⟨by simp [hd32], hw⟩, spaced_cons hw]
            rfl
        · have hd' : separator d = false := Bool.not_eq_true _ ▸ hd
          obtain ⟨w, ws, h1, h2⟩ := words_more (t := t) hc' hd'
          have hd32 : d ≠ 32 := fun e => by subst e; exact hd rfl
          rw [h2, h1, spaced_grow, if_neg (by simp [hd32])]
          rfl

/-- The string that is looked up. -/
theorem collapseBlanks_words (t : Text) (h : NoDash t) : collapseBlanks t = spaced (words t) := by
  rw [collapseBlanks_eq]
  have hw : words (t.drop (run32 t)) = words t := by
    clear h
    induction t with
    | nil => rfl
    | cons c t ih =>
      by_cases hc : c = 32
      · subst hc
        rw [show run32 (32 :: t) = run32 t + 1 by simp [run32], List.drop_succ_cons, ih, words_sep rfl]
      · rw [show run32 (c :: t) = 0 by simp [run32, hc], List.drop_zero]
  have hh : (t.drop (run32 t)).head? ≠ some 32 := by
    clear h hw
    induction t with
    | nil => simp
    | cons c t ih =>
      by_cases hc : c = 32
      · subst hc
        rw [show run32 (32 :: t) = run32 t + 1 by simp [run32], List.drop_succ_cons]
        exact ih
      · rw [show run32 (c :: t) = 0 by simp [run32, hc], List.drop_zero]
        simpa using hc
  rw [dropBlanks_words _ (fun c hc => h c (List.mem_of_mem_drop hc)), if_neg (fun e => hh e.1), hw]
  rfl

theorem noDash_dashToSpace (t : Text) : NoDash (dashToSpace t) := by
  intro c hc e
  subst e
  simp only [dashToSpace, List.mem_map] at hc
  obtain ⟨a, -, h⟩ := hc
  by_cases ha : a = 45
  · simp [ha] at h
  · rw [if_neg (by simpa using ha)] at h; exact ha h

theorem splitOnP_map (f : Nat → Nat) (hf : ∀ c, separator (f c) = separator c) (g : Nat → Nat)
    (hg : ∀ c, separator c = false → f c = g c) (t : Text) :
    words (t.map f) = (words t).map (List.map g) := by
  induction t with
  | nil => rfl
  | cons c t ih =>
    by_cases hc : separator c = true
    · rw [List.map_cons, words_sep (by rw [hf, hc]), words_sep hc, ih]
    · have hc' : separator c = false := Bool.not_eq_true _ ▸ hc
      have hfc : separator (f c) = false := by rw [hf, hc']
      cases t with
      | nil => rw [List.map_cons, List.map_nil, words_one hfc, words_one hc', hg c hc']; rfl
      | cons d t =>
        rw [List.map_cons, List.map_cons]
        by_cases hd : separator d = true
        · rw [words_end hfc (by rw [hf, hd]), words_end hc' hd, ← List.map_cons, ih, hg c hc']
          rfl
        · have hd' : separator d = false := Bool.not_eq_true _ ▸ hd
          have hfd : separator (f d) = false := by rw [hf, hd']
          obtain ⟨w, ws, h1, h2⟩ := words_more (t := t) hc' hd'
          obtain ⟨w', ws', h1', h2'⟩ := words_more (t := t.map f) hfc hfd
          rw [← List.map_cons, ih, h1] at h1'
          cases h1'
          rw [h2, h2', hg c hc']
          rfl

theorem sep_lower (c : Nat) : separator (lowerB c) = separator c := by
  unfold lowerB separator
  split
  · have h1 : c + 32 ≠ 32 := by omega
    have h2 : c + 32 ≠ 45 := by omega
    have h3 : c ≠ 32 := by omega
    have h4 : c ≠ 45 := by omega
    rw [beq_eq_false_iff_ne.2 h1, beq_eq_false_iff_ne.2 h2, beq_eq_false_iff_ne.2 h3, beq_eq_false_iff_ne.2 h4]
  · rfl

theorem words_lower (t : Text) : words (toLower t) = (words t).map toLower :=
  splitOnP_map lowerB sep_lower lowerB (fun _ _ => rfl) t

theorem words_dash (t : Text) : words (dashToSpace t) = words t := by
  have := splitOnP_map (fun c => if c == 45 then 32 else c) (fun c => by
    by_cases h : c = 45
    · subst h; rfl
    · simp [h]) id (fun c hc => by
      have : c ≠ 45 := fun e => by subst e; cases hc
      simp [this]) t
  rw [dashToSpace, this]
  simp

theorem toLower_spaced (ws : List Text) : toLower (spaced ws) = spaced (ws.map toLower) := by
  induction ws with
  | nil => rfl
  | cons w ws ih =>
    cases ws with
    | nil => simp [spaced_one]
    | cons v vs =>
      rw [List.map_cons, spaced_cons (w := w) (by simp), spaced_cons (w := toLower w) (by simp), ← ih]
      simp [toLower, lowerB]

/-- The words of a string put together by single blanks are the words it was made of. -/
theorem words_spaced {ws : List Text} (h : ∀ w ∈ ws, w ≠ [] ∧ ∀ c ∈ w, separator c = false) : words (spaced ws) = ws := by
  induction ws with
  | nil => rfl
  | cons w ws ih =>
    have ih := ih (fun v hv => h v (.tail _ hv))
    obtain ⟨hne, hw⟩ := h w (.head _)
    clear h
    induction w with
    | nil => exact absurd rfl hne
    | cons c w ihw =>
      rw [spaced_grow]
      have hc := hw c (.head _)
      cases w with
      | nil =>
        cases ws with
        | nil => rw [spaced_one]; exact words_one hc
        | cons v vs =>
          rw [spaced_cons (by simp), List.nil_append, words_end hc rfl, words_sep rfl, ih]
      | cons d w =>
        have := ihw (by simp) (fun c h => hw c (.tail _ h))
        rw [spaced_grow] at this ⊢
        obtain ⟨a, b, h1, h2⟩ := words_more (t := spaced (w :: ws)) hc (hw d (.tail _ (.head _)))
        rw [h2]
        rw [h1] at this
        cases this
        rfl

theorem words_clean (t : Text) : ∀ w ∈ words t, w ≠ [] ∧ ∀ c ∈ w, separator c = false := by
  induction t with
  | nil => intro w h; cases h
  | cons c t ih =>
    by_cases hc : separator c = true
    · rw [words_sep hc]; exact ih
    · have hc' : separator c = false := Bool.not_eq_true _ ▸ hc
      cases t with
      | nil => rw [words_one hc']; intro w h; cases h with
        | head => exact ⟨by simp, fun d hd => by cases hd with | head => exact hc' | tail _ h => cases h⟩
        | tail _ h => cases h
      | cons d t =>
        by_cases hd : separator d = true
        · rw [words_end hc' hd]
          intro w h
          cases h with
          | head => exact ⟨by simp, fun d hd => by cases hd with | head => exact hc' | tail _ h => cases h⟩
          | tail _ h => exact ih w h
        · obtain ⟨a, b, h1, h2⟩ := words_more (t := t) hc' (Bool.not_eq_true _ ▸ hd)
          rw [h1] at ih
          rw [h2]
          intro w h
          cases h with
          | head =>
            obtain ⟨-, x⟩ := ih a (.head _)
            exact ⟨by simp, fun e he => by cases he with | head => exact hc' | tail _ h => exact x e h⟩
          | tail _ h => exact ih w (.tail _ h)

/-- What `argToOrdinalValue` looks up. -/
theorem argToOrdinalValue_eq (t : Text) : argToOrdinalValue t = ordinalWords.get (spaced (words (toLower t))) := by
  unfold argToOrdinalValue
  rw [collapseBlanks_words _ (noDash_dashToSpace t), words_dash, toLower_spaced, words_lower]

theorem lookup_mem {m : WordMap} {k : Text} {v : Nat} (h : m.lookup k = some v) : (k, v) ∈ m := by
  induction m with
  | nil => cases h
  | cons a m ih =>
    obtain ⟨k', v'⟩ := a
    unfold WordMap.lookup at h
    split at h
    · rename_i e; cases h; subst e; exact .head _
    · exact .tail _ (ih h)

/-- **C32.** `argToOrdinalValue(t)` is `n` for `1 ≤ n ≤ 31` exactly if the words of `t` (its pieces between blanks and
hyphens, letter case ignored) are the English ordinal of `n`; -/
theorem c32_ordinal (t : Text) (n : Nat) (h1 : 1 ≤ n) (h2 : n ≤ 31) :
    argToOrdinalValue t = n ↔ words (toLower t) = ordinalName n := by
  rw [argToOrdinalValue_eq]
  constructor
  · intro h
    unfold WordMap.get at h
    cases hl : WordMap.lookup ordinalWords (spaced (words (toLower t))) with
    | none => rw [hl] at h; simp at h; omega
    | some v =>
      rw [hl] at h
      have hv : v = n := h
      subst hv
      have hm := lookup_mem hl
      have key : ordinalWords.all (fun p => decide (words p.1 = ordinalName p.2)) = true := by decide +kernel
      have := of_decide_eq_true (List.all_eq_true.1 key _ hm)
      simp only at this
      rw [words_spaced (words_clean _)] at this
      exact this
  · intro h
    rw [h]
    have key : (List.range 31).all (fun n => decide (ordinalWords.get (spaced (ordinalName (n + 1))) = n + 1)) = true := by
      decide +kernel
    have := of_decide_eq_true (List.all_eq_true.1 key (n - 1) (List.mem_range.2 (by omega)))
    rw [show n - 1 + 1 = n by omega] at this
    exact this

/-- **C32.** ... and it is 0 for every other string. -/
theorem c32_other (t : Text) (h : ∀ n, 1 ≤ n → n ≤ 31 → words (toLower t) ≠ ordinalName n) : argToOrdinalValue t = 0 := by
  rw [argToOrdinalValue_eq]
  unfold WordMap.get
  cases hl : WordMap.lookup ordinalWords (spaced (words (toLower t))) with
  | none => rfl
  | some v =>
    exfalso
    have hm := lookup_mem hl
    have key : ordinalWords.all (fun p => decide (words p.1 = ordinalName p.2 ∧ 1 ≤ p.2 ∧ p.2 ≤ 31)) = true := by
      decide +kernel
    obtain ⟨a, b, c⟩ := of_decide_eq_true (List.all_eq_true.1 key _ hm)
    simp only at a
    rw [words_spaced (words_clean _)] at a
    exact h v b c a

/-- Letter case, hyphens, and blanks anywhere between and around the words. -/
example : argToOrdinalValue txt!"  Twenty--FIRST - " = 21 := (c32_ordinal _ 21 (by decide) (by decide)).2 (by decide +kernel)
example : argToOrdinalValue txt!"twenty" = 0 := c32_other _ fun n h1 h2 => by
  have : ∀ n ≤ 31, words (toLower txt!"twenty") ≠ ordinalName n := by decide +kernel
  exact this n h2
end Chrono.Props
