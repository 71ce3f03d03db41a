import Verif.Lemmas.Keys
/-!
# A word in a sentence: where it stands, and what a pattern sees of it
-/
namespace Chrono
open Spec

/-! ## Patterns that do not look around -/

/-- No anchors and no lookahead. -/
def Re.free : Re → Bool
  | .eps => true
  | .one _ => true
  | .seq a b => a.free && b.free
  | .alt a b => a.free && b.free
  | .star _ r => r.free
  | .cap _ r => r.free
  | _ => false

theorem Consumed.word_eq {s s' : St} {w w' : Text} (h : Consumed s s' w) (h' : Consumed s s' w') : w = w' :=
  List.append_cancel_right (h.rest.symm.trans h'.rest)

/-- A pattern that does not look around matches the same text anywhere. -/
theorem Rel.move {r : Re} {s s' : St} (h : Rel r s s') (hf : r.free = true) :
    ∃ w, Consumed s s' w ∧ ∀ z v, z.rest = w ++ v → ∃ z', Rel r z z' ∧ Consumed z z' w ∧ z'.rest = v := by
  induction h with
  | eps s => exact ⟨[], .nil s, fun z v hz => ⟨z, .eps z, .nil z, by simpa using hz⟩⟩
  | @one d s c t hr hd =>
    refine ⟨[c], ⟨by rw [hr]; rfl, rfl, rfl⟩, fun z v hz => ⟨z.adv c v, .one (by simpa using hz) hd, ⟨by rw [hz]; rfl, rfl, rfl⟩, rfl⟩⟩
  | seq _ _ ia ib =>
    simp only [Re.free, Bool.and_eq_true] at hf
    obtain ⟨w, c1, m1⟩ := ia hf.1
    obtain ⟨w', c2, m2⟩ := ib hf.2
    refine ⟨w ++ w', c1.trans c2, fun z v hz => ?_⟩
    obtain ⟨z1, r1, d1, e1⟩ := m1 z (w' ++ v) (by rw [hz, List.append_assoc])
    obtain ⟨z2, r2, d2, e2⟩ := m2 z1 v e1
    exact ⟨z2, .seq r1 r2, d1.trans d2, e2⟩
  | altL _ ia =>
    simp only [Re.free, Bool.and_eq_true] at hf
    obtain ⟨w, c1, m1⟩ := ia hf.1
    exact ⟨w, c1, fun z v hz => let ⟨z', a, b, c⟩ := m1 z v hz; ⟨z', .altL a, b, c⟩⟩
  | altR _ ia =>
    simp only [Re.free, Bool.and_eq_true] at hf
    obtain ⟨w, c1, m1⟩ := ia hf.2
    exact ⟨w, c1, fun z v hz => let ⟨z', a, b, c⟩ := m1 z v hz; ⟨z', .altR a, b, c⟩⟩
  | star0 => exact ⟨[], .nil _, fun z v hz => ⟨z, .star0, .nil z, by simpa using hz⟩⟩
  | @starS g r s s1 s2 _ hp _ ia ib =>
    obtain ⟨w, c1, m1⟩ := ia (by simpa [Re.free] using hf)
    obtain ⟨w', c2, m2⟩ := ib hf
    refine ⟨w ++ w', c1.trans c2, fun z v hz => ?_⟩
    obtain ⟨z1, r1, d1, e1⟩ := m1 z (w' ++ v) (by rw [hz, List.append_assoc])
    obtain ⟨z2, r2, d2, e2⟩ := m2 z1 v e1
    exact ⟨z2, .starS r1 (by have := c1.pos; have := d1.pos; omega) r2, d1.trans d2, e2⟩
  | @cap n r s s' _ ia =>
    obtain ⟨w, c1, m1⟩ := ia (by simpa [Re.free] using hf)
    refine ⟨w, ⟨c1.rest, c1.pos, c1.prev⟩, fun z v hz => ?_⟩
    obtain ⟨z', a, b, c⟩ := m1 z v hz
    exact ⟨_, .cap a, ⟨b.rest, b.pos, b.prev⟩, c⟩
  | bol => simp [Re.free] at hf
  | eol => simp [Re.free] at hf
  | wb => simp [Re.free] at hf
  | look => simp [Re.free] at hf

/-- A text of the language is matched anywhere. -/
theorem Lang.rel {r : Re} {w : Text} (h : Lang r w) (hf : r.free = true) {z : St} {v : Text} (hz : z.rest = w ++ v) :
    ∃ z', Rel r z z' ∧ Consumed z z' w ∧ z'.rest = v := by
  obtain ⟨s, s', hr, hc⟩ := h
  obtain ⟨w', hc', m⟩ := hr.move hf
  obtain rfl := hc.word_eq hc'
  exact m z v hz

theorem lang_of_fullMatch {r : Re} {w : Text} (h : (r.fullMatch w).isSome = true) : Lang r w := by
  obtain ⟨mt, hm⟩ := Option.isSome_iff_exists.1 h
  obtain ⟨-, -, -, s', hr, he, -, -⟩ := Re.fullMatch_some hm
  obtain ⟨u, hc⟩ := hr.consumed
  refine ⟨_, _, hr, ?_⟩
  have : u = w := by
    have := hc.rest
    rw [he] at this
    simpa [startSt] using this.symm
  rwa [this] at hc

/-! ## Maximal words -/

/-- The character at `i` belongs to a word. -/
def inWord (T : Text) (i : Nat) : Bool := T[i]?.any isWordB

/-- A word of length `n` stands at `q`. -/
structure WordAt (T : Text) (q n : Nat) : Prop where
  pos : 0 < n
  mem : ∀ i, q ≤ i → i < q + n → inWord T i = true
  before : ∀ i, i + 1 = q → inWord T i = false
  after : inWord T (q + n) = false

/-- Two words of a text are the same or do not meet. -/
theorem WordAt.cases {T : Text} {a m q n : Nat} (h : WordAt T a m) (h' : WordAt T q n) : q + n < a ∨ (q = a ∧ n = m) ∨ a + m < q := by
  obtain ⟨p1, m1, b1, a1⟩ := h
  obtain ⟨p2, m2, b2, a2⟩ := h'
  rcases Nat.lt_trichotomy q a with hq | rfl | hq
  · left
    by_contra hc
    by_cases e : q + n = a
    · have := m1 a (by omega) (by omega)
      rw [← e] at this
      rw [this] at a2; cases a2
    · have := m2 (a - 1) (by omega) (by omega)
      rw [b1 (a - 1) (by omega)] at this; cases this
  · right; left
    refine ⟨rfl, ?_⟩
    rcases Nat.lt_trichotomy n m with hn | hn | hn
    · have := m1 (q + n) (by omega) (by omega)
      rw [this] at a2; cases a2
    · exact hn
    · have := m2 (q + m) (by omega) (by omega)
      rw [this] at a1; cases a1
  · right; right
    by_contra hc
    by_cases e : a + m = q
    · have := m2 q (by omega) (by omega)
      rw [← e] at this
      rw [this] at a1; cases a1
    · have := m1 (q - 1) (by omega) (by omega)
      rw [b2 (q - 1) (by omega)] at this; cases this

/-- `w` written between `a` and `b`. -/
theorem wordAt_of {a w b : Text} (hw : w ≠ []) (hall : ∀ c ∈ w, isWordB c = true) (h1 : ∀ c, a.getLast? = some c → ¬ WordChar c)
    (h2 : ∀ c, b.head? = some c → ¬ WordChar c) : WordAt (a ++ w ++ b) a.length w.length := by
  refine ⟨List.length_pos_iff.2 hw, fun i hi hi' => ?_, fun i hi => ?_, ?_⟩
  · unfold inWord
    rw [List.append_assoc, List.getElem?_append_right hi, List.getElem?_append_left (by omega), List.getElem?_eq_getElem (by omega)]
    exact hall _ (List.getElem_mem _)
  · unfold inWord
    rw [List.append_assoc, List.getElem?_append_left (by omega)]
    cases hc : a[i]? with
    | none => rfl
    | some c =>
      have : a.getLast? = some c := by rw [List.getLast?_eq_getElem?, ← hi]; simpa using hc
      have := h1 c this
      rw [wordChar_iff] at this
      simpa using this
  · unfold inWord
    rw [List.getElem?_append_right (by simp)]
    simp only [List.length_append, Nat.sub_self]
    cases hc : b[0]? with
    | none => rfl
    | some c =>
      have := h2 c (by rw [List.head?_eq_getElem?]; exact hc)
      rw [wordChar_iff] at this
      simpa using this

/-- A word that is not the one in the middle stands on the left or on the right. -/
theorem word_elsewhere {p w s a v b : Text} (hw : w ≠ []) (hwa : ∀ c ∈ w, isWordB c = true) (hv : v ≠ []) (hva : ∀ c ∈ v, isWordB c = true)
    (hps : StandsApart p s) (ha : ∀ c, a.getLast? = some c → ¬ WordChar c) (hb : ∀ c, b.head? = some c → ¬ WordChar c)
    (e : p ++ w ++ s = a ++ v ++ b) : WholeWord v p ∨ (a = p ∧ v = w ∧ b = s) ∨ WholeWord v s := by
  have h1 := wordAt_of hw hwa hps.1 hps.2
  have h2 := wordAt_of hv hva ha hb
  rw [← e] at h2
  rcases h1.cases h2 with h | ⟨h, h'⟩ | h
  · left
    obtain ⟨d, hd⟩ : ∃ d, p = a ++ v ++ d := by
      have : a ++ v <+: p ++ w ++ s := ⟨b, by rw [e]⟩
      rw [List.append_assoc] at this
      obtain ⟨d, hd⟩ := List.prefix_of_prefix_length_le this (List.prefix_append p (w ++ s)) (by simp; omega)
      exact ⟨d, hd.symm⟩
    refine ⟨a, d, hd, fun _ => ha, fun _ c hc => hb c ?_⟩
    have : b = d ++ (w ++ s) := by
      rw [hd] at e
      simp only [List.append_assoc] at e
      exact (List.append_cancel_left (List.append_cancel_left e)).symm
    rw [this, List.head?_append, hc]; rfl
  · right; left
    have e1 := List.append_inj (by simpa only [List.append_assoc] using e) h.symm
    obtain ⟨rfl, e2⟩ := e1
    obtain ⟨rfl, rfl⟩ := List.append_inj e2 (by omega)
    exact ⟨rfl, rfl, rfl⟩
  · right; right
    obtain ⟨d, hd⟩ : ∃ d, a = p ++ w ++ d := by
      have : p ++ w <+: a ++ v ++ b := ⟨s, by rw [e]⟩
      rw [List.append_assoc] at this
      obtain ⟨d, hd⟩ := List.prefix_of_prefix_length_le this (List.prefix_append a (v ++ b)) (by simp; omega)
      exact ⟨d, hd.symm⟩
    refine ⟨d, b, ?_, fun _ c hc => ha c ?_, fun _ => hb⟩
    · rw [hd] at e
      simp only [List.append_assoc] at e ⊢
      exact List.append_cancel_left (List.append_cancel_left e)
    · rw [hd, List.getLast?_append, hc]; rfl

end Chrono
