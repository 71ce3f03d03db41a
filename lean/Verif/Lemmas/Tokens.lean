import Verif.Lemmas.Sentence
import Verif.Spec.Ordinary
/-!
# Words separated by blanks, in a text
-/
namespace Chrono
open Spec

/-- Letters, digits and underscores only. -/
def IsWord (w : Text) : Prop := w ≠ [] ∧ ∀ c ∈ w, isWordB c = true

/-- `u` consists of the words `ts`, separated by blanks. -/
inductive Toks : List Text → Text → Prop where
  | one {w} : IsWord w → Toks [w] w
  | more {w g ts u} : IsWord w → Blanks g → g ≠ [] → Toks ts u → Toks (w :: ts) (w ++ g ++ u)

/-- The text does not go on with a word character. -/
abbrev Ends (x : Text) : Prop := ∀ c, x.head? = some c → ¬ WordChar c

/-- The text does not end with a word character. -/
abbrev Open (x : Text) : Prop := ∀ c, x.getLast? = some c → ¬ WordChar c

theorem notWord_of_blank {c : Nat} (h : Blank c) : ¬ WordChar c := by
  unfold Blank at h
  unfold WordChar
  omega

theorem Ends.blanks {g x : Text} (hg : Blanks g) (h : g ≠ []) : Ends (g ++ x) := by
  cases g with
  | nil => exact absurd rfl h
  | cons c g => intro d hd; cases hd; exact notWord_of_blank (hg c (by simp))

theorem IsWord.head {w x : Text} (h : IsWord w) : ∃ c, (w ++ x).head? = some c ∧ WordChar c := by
  cases w with
  | nil => exact absurd rfl h.1
  | cons c w => exact ⟨c, rfl, wordChar_iff.2 (h.2 c (by simp))⟩

theorem IsWord.not_ends {w x : Text} (h : IsWord w) : ¬ Ends (w ++ x) := by
  obtain ⟨c, hc, hw⟩ := h.head (x := x)
  exact fun he => he c hc hw

theorem Toks.head {ts : List Text} {u x : Text} (h : Toks ts u) : ∃ c, (u ++ x).head? = some c ∧ WordChar c := by
  cases h with
  | one h => exact h.head
  | more h => rw [List.append_assoc, List.append_assoc]; exact h.head

theorem Toks.last {ts : List Text} {u : Text} (h : Toks ts u) : ∃ c, u.getLast? = some c ∧ WordChar c := by
  induction h with
  | @one w h => exact ⟨w.getLast h.1, List.getLast?_eq_some_getLast h.1, wordChar_iff.2 (h.2 _ (List.getLast_mem _))⟩
  | more _ _ _ _ ih =>
    obtain ⟨c, hc, hw⟩ := ih
    exact ⟨c, by rw [List.getLast?_append, hc]; rfl, hw⟩

theorem Toks.ne {ts : List Text} {u : Text} (h : Toks ts u) : u ≠ [] := by
  obtain ⟨c, hc, -⟩ := h.last
  rintro rfl
  cases hc

theorem word_split {a b x y : Text} (ha : IsWord a) (hb : IsWord b) (hx : Ends x) (hy : Ends y) (e : a ++ x = b ++ y) : a = b ∧ x = y := by
  have inner : ∀ {a b x y d : Text}, IsWord b → Ends x → b = a ++ d → x = d ++ y → d = [] := by
    intro a b x y d hb hx h1 h2
    cases d with
    | nil => rfl
    | cons c d =>
      exact absurd (wordChar_iff.2 (hb.2 c (by rw [h1]; simp))) (hx c (by rw [h2]; rfl))
  rcases List.append_eq_append_iff.1 e with ⟨d, h1, h2⟩ | ⟨d, h1, h2⟩
  · obtain rfl := inner hb hx h1 h2
    simp_all
  · obtain rfl := inner ha hy h1 h2
    simp_all

theorem gap_split {g h x y : Text} (hg : Blanks g) (hh : Blanks h) (hx : ∀ c, x.head? = some c → ¬ Blank c) (hy : ∀ c, y.head? = some c → ¬ Blank c)
    (e : g ++ x = h ++ y) : g = h ∧ x = y := by
  have inner : ∀ {a b x y d : Text}, Blanks b → (∀ c, x.head? = some c → ¬ Blank c) → b = a ++ d → x = d ++ y → d = [] := by
    intro a b x y d hb hx h1 h2
    cases d with
    | nil => rfl
    | cons c d => exact absurd (hb c (by rw [h1]; simp)) (hx c (by rw [h2]; rfl))
  rcases List.append_eq_append_iff.1 e with ⟨d, h1, h2⟩ | ⟨d, h1, h2⟩
  · obtain rfl := inner hh hx h1 h2
    simp_all
  · obtain rfl := inner hg hy h1 h2
    simp_all

theorem Toks.notBlank {ts : List Text} {u x : Text} (h : Toks ts u) : ∀ c, (u ++ x).head? = some c → ¬ Blank c := by
  obtain ⟨d, hd, hw⟩ := h.head (x := x)
  intro c hc hb
  rw [hd] at hc; cases hc
  exact notWord_of_blank hb hw

/-- Two ways to read words from the same place agree as far as they go. -/
theorem Toks.agree {ts vs : List Text} {u v x y : Text} (hu : Toks ts u) (hv : Toks vs v) (hx : Ends x) (hy : Ends y) (e : u ++ x = v ++ y) :
    (ts <+: vs ∨ vs <+: ts) ∧ (ts = vs → u = v ∧ x = y) := by
  induction hu generalizing vs v with
  | @one w hw =>
    cases hv with
    | @one w' hw' =>
      obtain ⟨rfl, rfl⟩ := word_split hw hw' hx hy e
      exact ⟨.inl (List.prefix_refl _), fun _ => ⟨rfl, rfl⟩⟩
    | @more w' g vs v hw' hg hg0 hv =>
      rw [List.append_assoc, List.append_assoc] at e
      obtain ⟨rfl, -⟩ := word_split hw hw' hx (Ends.blanks hg hg0) e
      refine ⟨.inl (by simp), fun h => ?_⟩
      cases h
      cases hv
  | @more w g ts u hw hg hg0 hu ih =>
    rw [List.append_assoc, List.append_assoc] at e
    cases hv with
    | @one w' hw' =>
      obtain ⟨rfl, -⟩ := word_split hw hw' (Ends.blanks hg hg0) hy e
      refine ⟨.inr (by simp), fun h => ?_⟩
      cases h
      cases hu
    | @more w' g' vs v hw' hg' hg0' hv =>
      rw [List.append_assoc, List.append_assoc] at e
      obtain ⟨rfl, e1⟩ := word_split hw hw' (Ends.blanks hg hg0) (Ends.blanks hg' hg0') e
      obtain ⟨rfl, e2⟩ := gap_split hg hg' hu.notBlank hv.notBlank e1
      obtain ⟨h1, h2⟩ := ih hv e2
      refine ⟨by simpa [List.cons_prefix_cons] using h1, fun h => ?_⟩
      cases h
      obtain ⟨rfl, rfl⟩ := h2 rfl
      exact ⟨rfl, rfl⟩

theorem open_tail {x w x' : Text} (h : Open x) (e : x = w ++ x') : Open x' := by
  intro c hc
  exact h c (by rw [e, List.getLast?_append, hc]; rfl)

theorem peel_word {x w Y V : Text} (hx : x ≠ []) (ho : Open x) (hw : IsWord w) (e : x ++ V = w ++ Y) : ∃ x', x = w ++ x' ∧ Y = x' ++ V ∧ x' ≠ [] := by
  rcases List.append_eq_append_iff.1 e with ⟨d, h1, h2⟩ | ⟨d, h1, h2⟩
  · exfalso
    have hl := List.getLast?_eq_some_getLast hx
    exact ho _ hl (wordChar_iff.2 (hw.2 _ (by rw [h1]; simp)))
  · refine ⟨d, h1, h2, ?_⟩
    rintro rfl
    rw [List.append_nil] at h1
    subst h1
    exact ho _ (List.getLast?_eq_some_getLast hx) (wordChar_iff.2 (hw.2 _ (List.getLast_mem _)))

/-- Words read from a place `x` before the word `z`: they stop before `z`, or `z` is one of them. -/
theorem Toks.cross {ts : List Text} {u : Text} (hu : Toks ts u) {x z Z r : Text} (hx : x ≠ []) (ho : Open x) (hz : IsWord z) (hZ : Ends Z) (hr : Ends r)
    (e : x ++ (z ++ Z) = u ++ r) : (z ∈ ts.tail ∧ ∃ as w bs a g, ts = as ++ w :: z :: bs ∧ Blanks g ∧ x = a ++ w ++ g) ∨ ∃ y, x = u ++ y ∧ y ≠ [] ∧ r = y ++ (z ++ Z) := by
  induction hu generalizing x with
  | @one w hw =>
    obtain ⟨x', h1, h2, h3⟩ := peel_word hx ho hw e
    exact .inr ⟨x', h1, h3, h2⟩
  | @more w g ts u hw hg hg0 hu ih =>
    rw [List.append_assoc, List.append_assoc] at e
    obtain ⟨x', h1, h2, h3⟩ := peel_word hx ho hw e
    have ho' := open_tail ho h1
    have hzb : ∀ c, (z ++ Z).head? = some c → ¬ Blank c := (Toks.one hz).notBlank
    obtain ⟨x2, e2, e3⟩ : ∃ x2, x' = g ++ x2 ∧ u ++ r = x2 ++ (z ++ Z) := by
      rcases List.append_eq_append_iff.1 h2 with ⟨d, k1, k2⟩ | ⟨d, k1, k2⟩
      · exact ⟨d, k1, k2⟩
      · cases d with
        | nil => exact ⟨[], by simpa using k1.symm, by simpa using k2.symm⟩
        | cons c d => exact absurd (hg c (by rw [k1]; simp)) (hzb c (by rw [k2]; rfl))
    by_cases hx2 : x2 = []
    · subst hx2
      left
      rw [List.nil_append] at e3
      have := (hu.agree (.one hz) hr hZ e3).1
      have hm : ∃ bs, ts = z :: bs := by
        rcases this with h | h
        · cases hu with
          | one => simp only [List.cons_prefix_cons] at h; simp [h.1]
          | more => simp only [List.cons_prefix_cons] at h; simp [h.1]
        · obtain ⟨bs, hb⟩ := h
          exact ⟨bs, hb.symm⟩
      obtain ⟨bs, rfl⟩ := hm
      exact ⟨by simp, [], w, bs, [], g, rfl, hg, by rw [h1, e2]; simp⟩
    · have ho2 := open_tail ho' e2
      rcases ih hx2 ho2 e3.symm with h | ⟨y, h, hy, hr⟩
      · left
        obtain ⟨h, as, w2, bs, a, g2, k1, k2, k3⟩ := h
        exact ⟨List.mem_of_mem_tail h, w :: as, w2, bs, w ++ g ++ a, g2, by rw [k1]; rfl, k2, by rw [h1, e2, k3]; simp⟩
      · right
        exact ⟨y, by rw [h1, e2, h]; simp, hy, hr⟩

/-- Words read in a text in which the words `vs` stand between `P` and `S`, from a place not after `P`: they are read from the same place, or one of them
but the first is the first of `vs`, or they stand before. -/
theorem Toks.locate {ts vs : List Text} {u v P S A R z : Text} (hu : Toks ts u) (hv : Toks (z :: vs) v) (hps : StandsApart P S) (hR : Ends R)
    (e : P ++ v ++ S = A ++ u ++ R) (hle : A.length ≤ P.length) :
    (A = P ∧ (ts <+: z :: vs ∨ z :: vs <+: ts) ∧ (ts = z :: vs → u = v ∧ R = S)) ∨
    (z ∈ ts.tail ∧ ∃ as w bs a g, ts = as ++ w :: z :: bs ∧ Blanks g ∧ P = a ++ w ++ g) ∨ ∃ y, P = A ++ u ++ y ∧ Ends y := by
  rw [List.append_assoc, List.append_assoc] at e
  rcases List.append_eq_append_iff.1 e with ⟨d, h1, h2⟩ | ⟨d, h1, h2⟩
  · have : d = [] := by
      have := congrArg List.length h1
      simp only [List.length_append] at this
      exact List.eq_nil_of_length_eq_zero (by omega)
    subst this
    left
    rw [List.append_nil] at h1
    rw [List.nil_append] at h2
    obtain ⟨k1, k2⟩ := hu.agree hv hR hps.2 h2.symm
    exact ⟨h1, k1, k2⟩
  · by_cases hd : d = []
    · subst hd
      left
      rw [List.append_nil] at h1
      rw [List.nil_append] at h2
      obtain ⟨k1, k2⟩ := hu.agree hv hR hps.2 h2
      exact ⟨h1.symm, k1, k2⟩
    · right
      have ho := open_tail hps.1 h1
      obtain ⟨Z, hZ, hz, ez⟩ : ∃ Z, Ends Z ∧ IsWord z ∧ v ++ S = z ++ Z := by
        cases hv with
        | one h => exact ⟨S, hps.2, h, rfl⟩
        | @more _ g _ v h hg hg0 hv => exact ⟨g ++ (v ++ S), Ends.blanks hg hg0, h, by simp⟩
      rw [ez] at h2
      rcases hu.cross hd ho hz hZ hR h2.symm with h | ⟨y, h, hy, hr⟩
      · obtain ⟨h, as, w2, bs, a, g2, k1, k2, k3⟩ := h
        exact .inl ⟨h, as, w2, bs, A ++ a, g2, k1, k2, by rw [h1, k3]; simp⟩
      · refine .inr ⟨y, by rw [h1, h]; simp, fun c hc => ?_⟩
        refine hR c ?_
        rw [hr, List.head?_append, hc]; rfl

theorem Toks.word {ts : List Text} {u : Text} (h : Toks ts u) : ∀ t ∈ ts, IsWord t := by
  induction h with
  | one h => simpa using h
  | more h _ _ _ ih => simpa using ⟨h, ih⟩

/-- Each of the words is a word of the text. -/
theorem Toks.whole {ts : List Text} {u A R : Text} (hu : Toks ts u) (hA : Open A) (hR : Ends R) : ∀ t ∈ ts, WholeWord t (A ++ u ++ R) := by
  induction hu generalizing A with
  | one h =>
    intro t ht
    rw [List.mem_singleton] at ht
    subst ht
    exact ⟨A, R, rfl, fun _ => hA, fun _ => hR⟩
  | @more w g ts u hw hg hg0 hu ih =>
    intro t ht
    rcases List.mem_cons.1 ht with rfl | ht
    · exact ⟨A, g ++ (u ++ R), by simp, fun _ => hA, fun _ => Ends.blanks hg hg0⟩
    · have := ih (A := A ++ (w ++ g)) (fun c hc => by
        rw [List.getLast?_append, List.getLast?_append, List.getLast?_eq_some_getLast hg0] at hc
        simp only [Option.some_or, Option.some.injEq] at hc
        subst hc
        exact notWord_of_blank (hg _ (List.getLast_mem _))) t ht
      simpa using this

theorem Toks.append {ts ts' : List Text} {u u' g : Text} (h : Toks ts u) (hg : Blanks g) (hg0 : g ≠ []) (h' : Toks ts' u') : Toks (ts ++ ts') (u ++ g ++ u') := by
  induction h with
  | one h => exact .more h hg hg0 h'
  | @more w g2 ts u hw hg2 hg20 hu ih =>
    have := Toks.more hw hg2 hg20 ih
    simpa using this

/-! ## Patterns that are a choice of words and blanks -/

/-- Bytes (in lower case) and nonempty runs of blanks. -/
inductive Fits : List (Option Nat) → Text → Prop where
  | nil : Fits [] []
  | ch {x l u} : Fits l u → Fits (some (lowerB x) :: l) (x :: u)
  | gap {g l u} : Blanks g → g ≠ [] → Fits l u → Fits (none :: l) (g ++ u)

theorem Fits.append {l l' : List (Option Nat)} {u u' : Text} (h : Fits l u) (h' : Fits l' u') : Fits (l ++ l') (u ++ u') := by
  induction h with
  | nil => exact h'
  | ch _ ih => exact .ch ih
  | gap hg hg0 _ ih => rw [List.append_assoc]; exact .gap hg hg0 ih

theorem Fits.of_word (u : Text) : Fits ((toLower u).map some) u := by
  induction u with
  | nil => exact .nil
  | cons c u ih => exact .ch ih

/-- All the ways through a pattern made of letters and blanks. -/
def Re.lex : Re → Option (List (List (Option Nat)))
  | .eps => some [[]]
  | .one d => (Re.one d).words.map fun L => L.map fun w => w.map some
  | .seq a b =>
    if (Re.seq a b).allB isSpaceB && decide (1 ≤ (Re.seq a b).minLen) then some [[none]]
    else a.lex.bind fun la => b.lex.map fun lb => la.flatMap fun x => lb.map (x ++ ·)
  | .alt a b => a.lex.bind fun la => b.lex.map fun lb => la ++ lb
  | .cap _ r => r.lex
  | .star _ r => if r.allB isSpaceB then some [[], [none]] else none
  | _ => none

theorem isSpaceB_blank {c : Nat} (h : isSpaceB c = true) : Blank c := by
  unfold isSpaceB at h
  simp only [Bool.or_eq_true, beq_iff_eq, Bool.and_eq_true, decide_eq_true_eq] at h
  exact h

theorem Lang.seq_cases {a b : Re} {w : Text} (h : Lang (.seq a b) w) : ∃ u v, w = u ++ v ∧ Lang a u ∧ Lang b v := by
  obtain ⟨s, s', hr, hc⟩ := h
  cases hr with
  | seq h1 h2 =>
    obtain ⟨u, hu⟩ := h1.consumed
    obtain ⟨v, hv⟩ := h2.consumed
    exact ⟨u, v, hc.unique (hu.trans hv), ⟨_, _, h1, hu⟩, ⟨_, _, h2, hv⟩⟩

theorem Lang.alt_cases {a b : Re} {w : Text} (h : Lang (.alt a b) w) : Lang a w ∨ Lang b w := by
  obtain ⟨s, s', hr, hc⟩ := h
  cases hr with
  | altL h => exact .inl ⟨_, _, h, hc⟩
  | altR h => exact .inr ⟨_, _, h, hc⟩

theorem Lang.cap_cases {n : Nat} {r : Re} {w : Text} (h : Lang (.cap n r) w) : Lang r w := by
  obtain ⟨s, s', hr, hc⟩ := h
  cases hr with
  | cap h1 => exact ⟨_, _, h1, ⟨hc.rest, hc.pos, hc.prev⟩⟩

theorem Lang.lex {r : Re} {u : Text} (h : Lang r u) : ∀ {L}, r.lex = some L → ∃ l ∈ L, Fits l u := by
  induction r generalizing u with
  | eps =>
    intro L hL
    cases hL
    obtain ⟨s, s', hr, hc⟩ := h
    cases hr
    rw [hc.word_eq (.nil _)]
    exact ⟨[], by simp, .nil⟩
  | one d =>
    intro L hL
    simp only [Re.lex, Option.map_eq_some_iff] at hL
    obtain ⟨W, hW, rfl⟩ := hL
    exact ⟨_, List.mem_map.2 ⟨_, h.words W hW, rfl⟩, Fits.of_word u⟩
  | seq a b ia ib =>
    intro L hL
    unfold Re.lex at hL
    split at hL
    · rename_i hc
      rw [Bool.and_eq_true, decide_eq_true_eq] at hc
      cases hL
      refine ⟨[none], by simp, ?_⟩
      have hm := h.minLen
      have := Fits.gap (g := u) (l := []) (u := []) (fun c hc' => isSpaceB_blank (h.allB _ hc.1 c hc')) (by rintro rfl; simp at hm; omega) .nil
      rwa [List.append_nil] at this
    · simp only [Option.bind_eq_some_iff, Option.map_eq_some_iff] at hL
      obtain ⟨la, ea, lb, eb, rfl⟩ := hL
      obtain ⟨v, w, rfl, hv, hw⟩ := h.seq_cases
      obtain ⟨x, hx, fx⟩ := ia hv ea
      obtain ⟨y, hy, fy⟩ := ib hw eb
      exact ⟨x ++ y, List.mem_flatMap.2 ⟨x, hx, List.mem_map.2 ⟨y, hy, rfl⟩⟩, fx.append fy⟩
  | alt a b ia ib =>
    intro L hL
    unfold Re.lex at hL
    simp only [Option.bind_eq_some_iff, Option.map_eq_some_iff] at hL
    obtain ⟨la, ea, lb, eb, rfl⟩ := hL
    rcases h.alt_cases with h | h
    · obtain ⟨x, hx, fx⟩ := ia h ea
      exact ⟨x, by simp [hx], fx⟩
    · obtain ⟨x, hx, fx⟩ := ib h eb
      exact ⟨x, by simp [hx], fx⟩
  | cap n r ih => intro L hL; exact ih h.cap_cases hL
  | star g r _ =>
    intro L hL
    unfold Re.lex at hL
    split at hL
    · rename_i hc
      cases hL
      by_cases hu : u = []
      · subst hu; exact ⟨[], by simp, .nil⟩
      · refine ⟨[none], by simp, ?_⟩
        have := Fits.gap (g := u) (l := []) (u := []) (fun c hc' => isSpaceB_blank (h.allB isSpaceB (by simpa [Re.allB] using hc) c hc')) hu .nil
        rwa [List.append_nil] at this
    · cases hL
  | _ => intro L hL; cases hL

/-- The words of a way through. -/
def tokens : List (Option Nat) → Option (List Text)
  | some c :: l =>
    if isWordB c then
      match l with
      | [] => some [[c]]
      | none :: l => (tokens l).map ([c] :: ·)
      | some d :: l =>
        match tokens (some d :: l) with
        | some (t :: ts) => some ((c :: t) :: ts)
        | _ => none
    else none
  | _ => none

theorem Toks.cons {t : Text} {ts : List Text} {u : Text} (h : Toks (t :: ts) u) {c : Nat} (hc : isWordB c = true) : Toks ((c :: t) :: ts) (c :: u) := by
  cases h with
  | one h => exact .one ⟨by simp, by simpa [hc] using h.2⟩
  | more h hg hg0 hu => exact .more (w := c :: t) ⟨by simp, by simpa [hc] using h.2⟩ hg hg0 hu

theorem Fits.toks {l : List (Option Nat)} : ∀ {u : Text}, Fits l u → toLower u = u → ∀ {ts}, tokens l = some ts → Toks ts u := by
  induction l using tokens.induct with
  | case1 c hw =>
    intro u h hl ts ht
    simp only [tokens, hw, if_true, Option.some.injEq] at ht
    subst ht
    cases h with
    | ch h =>
      cases h
      simp only [toLower, List.map_cons, List.map_nil, List.cons.injEq, and_true] at hl
      rw [hl] at hw ⊢
      exact .one ⟨by simp, by simpa using hw⟩
  | case2 c hw l ih =>
    intro u h hl ts ht
    simp only [tokens, hw, if_true, Option.map_eq_some_iff] at ht
    obtain ⟨ts, ht, rfl⟩ := ht
    cases h with
    | @ch x _ _ h =>
      cases h with
      | @gap g _ u hg hg0 h =>
        simp only [toLower, List.map_cons, List.cons.injEq, List.map_append] at hl
        have h2 : toLower u = u := (List.append_inj hl.2 (by simp)).2
        rw [hl.1] at hw ⊢
        exact Toks.more (w := [x]) ⟨by simp, by simpa using hw⟩ hg hg0 (ih h h2 ht)
  | case3 c hw d l t ts' hd ih =>
    intro u h hl ts ht
    simp only [tokens, hw, if_true] at ht
    rw [hd] at ht
    simp only [Option.some.injEq] at ht
    subst ht
    cases h with
    | @ch x _ u h =>
      simp only [toLower, List.map_cons, List.cons.injEq] at hl
      rw [hl.1] at hw ⊢
      exact (ih h hl.2 hd).cons hw
  | case4 c hw d l hno ih =>
    intro u h hl ts ht
    exfalso
    rw [tokens.eq_def] at ht
    simp only [hw, if_true] at ht
    cases ht
  | case5 c l hw =>
    intro u h hl ts ht
    rw [tokens.eq_def] at ht
    simp [hw] at ht
  | case6 l hl =>
    intro u h _ ts ht
    rw [tokens.eq_def] at ht
    cases l with
    | nil => cases ht
    | cons a l =>
      cases a with
      | none => cases ht
      | some c => exact absurd rfl (hl c l)

/-- The words of a pattern made of letters and blanks. -/
def Re.toks (r : Re) : Option (List (List Text)) := r.lex.bind fun L => L.mapM tokens

theorem Lang.toks {r : Re} {u : Text} (h : Lang r u) (hu : toLower u = u) {L : List (List Text)} (hL : r.toks = some L) : ∃ ts ∈ L, Toks ts u := by
  unfold Re.toks at hL
  obtain ⟨M, hM, hL⟩ := Option.bind_eq_some_iff.1 hL
  obtain ⟨l, hl, hf⟩ := h.lex hM
  have : ∀ {M : List (List (Option Nat))} {L}, M.mapM tokens = some L → ∀ l ∈ M, ∃ ts ∈ L, tokens l = some ts := by
    intro M
    induction M with
    | nil => intro L _ l hl; simp at hl
    | cons m M ih =>
      intro L hL l hl
      rw [List.mapM_cons] at hL
      simp only [Option.bind_eq_bind, Option.bind_eq_some_iff, Option.pure_def, Option.some.injEq] at hL
      obtain ⟨t, ht, ts, hts, rfl⟩ := hL
      rcases List.mem_cons.1 hl with rfl | hl
      · exact ⟨t, by simp, ht⟩
      · obtain ⟨x, hx, e⟩ := ih hts l hl
        exact ⟨x, by simp [hx], e⟩
  obtain ⟨ts, hts, e⟩ := this hL l hl
  exact ⟨ts, hts, hf.toks hu e⟩

end Chrono
