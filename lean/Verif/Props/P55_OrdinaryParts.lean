import Verif.Spec.Ordinary
import Verif.Lemmas.CapLang
import Verif.Props.P50_NoDigits
/-!
# C57: ordinary texts, what the matches look like
-/
namespace Chrono.Props
open Chrono Chrono.Spec Chrono.Boost

theorem number_of {ds : Text} (h : IsDigits ds) : Number ds (decimalValue ds) := ⟨h.1, h.2, rfl⟩

theorem blanks_of {r : Re} {u : Text} (h : Lang r u) (ha : r.allB isSpaceB = true) : Blanks u := by
  intro c hc
  have := h.allB _ ha c hc
  unfold isSpaceB at this
  simp only [Bool.or_eq_true, beq_iff_eq, Bool.and_eq_true, decide_eq_true_eq] at this
  exact this

/-- A byte of a gap. -/
def gapB (c : Nat) : Bool := isSpaceB c || c == 44 || c == 45 || c == 47

theorem gap_of {r : Re} {u : Text} (h : Lang r u) (ha : r.allB gapB = true) : Gap u := by
  intro c hc
  have := h.allB _ ha c hc
  unfold gapB isSpaceB at this
  simp only [Bool.or_eq_true, beq_iff_eq, Bool.and_eq_true, decide_eq_true_eq] at this
  rcases this with ((h | h) | h) | h
  · exact .inl h
  · exact .inr (.inl h)
  · exact .inr (.inr (.inl h))
  · exact .inr (.inr (.inr h))

theorem gap_append {a b : Text} (ha : Gap a) (hb : Gap b) : Gap (a ++ b) := by
  intro c hc
  rcases List.mem_append.1 hc with h | h
  · exact ha c h
  · exact hb c h

theorem gap_blanks {a : Text} (h : Blanks a) : Gap a := fun c hc => .inl (h c hc)

theorem groupText_cons_eq (n : Nat) (w : Text) (cs : List (Nat × Text)) : groupText n ((n, w) :: cs) = w := by
  simp [groupText]

theorem groupText_cons_ne {n k : Nat} (h : k ≠ n) (w : Text) (cs : List (Nat × Text)) : groupText n ((k, w) :: cs) = groupText n cs := by
  simp [groupText, h]

theorem isDigits_of {r : Re} {u : Text} (h : Lang r u) (ha : r.allB isDigitB = true) (h1 : 1 ≤ r.minLen) : IsDigits u := by
  have hm := h.minLen
  refine ⟨?_, fun c hc => isDigitB_iff.1 (h.allB _ ha c hc)⟩
  rintro rfl
  simp at hm
  omega

/-! ## Month names -/

theorem monthName_shape : ∃ a b s1 g s2 c d l, Ast.monthName = .seq (.cap 1 a) (.seq (.cap 2 b) (.seq s1
      (.seq (.alt (.seq g (.seq s2 (.seq (.cap 3 c) (.alt (.cap 4 d) .eps)))) .eps) l))) ∧
    a.groups = [] ∧ b.groups = [] ∧ s1.groups = [] ∧ g.groups = [] ∧ s2.groups = [] ∧ c.groups = [] ∧ d.groups = [] ∧ l.groups = [] ∧
    s1.allB isSpaceB = true ∧ g.allB gapB = true ∧ s2.allB isSpaceB = true :=
  ⟨_, _, _, _, _, _, _, _, rfl, by decide +kernel, by decide +kernel, by decide +kernel, by decide +kernel, by decide +kernel,
    by decide +kernel, by decide +kernel, by decide +kernel, by decide +kernel, by decide +kernel, by decide +kernel⟩

theorem cl_none {r : Re} {w : Text} {c : List (Nat × Text)} (h : CL r w c) (hg : r.groups = []) : c = [] := by
  cases c with
  | nil => rfl
  | cons p c => have := h.keys p (by simp); rw [hg] at this; simp at this

theorem cl_word {n : Nat} {r : Re} {w : Text} {c : List (Nat × Text)} (h : CL (.cap n r) w c) (hg : r.groups = []) :
    c = [(n, w)] ∧ Lang r w := by
  obtain ⟨c', rfl, h'⟩ := cl_cap h
  exact ⟨by rw [cl_none h' hg], h'.lang⟩

theorem monthName_written {t : Text} {mt : Match} (hs : Ast.monthName.search t = some mt) (h3 : mt.str 3 ≠ []) :
    ∃ gap, Gap gap ∧ mt.str 2 ++ gap ++ mt.str 3 ++ mt.str 4 <:+: mt.str 0 := by
  obtain ⟨cs, hcl, hgr⟩ := Re.search_cl hs
  obtain ⟨a, b, s1, g, s2, c, d, l, he, ga, gb, gs1, gg, gs2, gc, gd, gl, b1, b2, b3⟩ := monthName_shape
  rw [he] at hcl
  rw [hgr 2 (by decide), hgr 4 (by decide), hgr 3 (by decide)]
  rw [hgr 3 (by decide)] at h3
  obtain ⟨w1, v, c1, c2, e0, rfl, h1, x1⟩ := cl_seq hcl
  obtain ⟨rfl, jh1⟩ := cl_word h1 ga
  obtain ⟨w2, v, c3, c4, rfl, rfl, h2, x2⟩ := cl_seq x1
  obtain ⟨rfl, jh2⟩ := cl_word h2 gb
  obtain ⟨w3, v, c5, c6, rfl, rfl, k3, x3⟩ := cl_seq x2
  obtain rfl := cl_none k3 gs1
  obtain ⟨w4, w9, c7, c8, rfl, rfl, k4, k9⟩ := cl_seq x3
  obtain rfl := cl_none k9 gl
  rcases cl_alt k4 with m4 | m4
  · obtain ⟨w5, v, c9, c10, rfl, rfl, k5, x5⟩ := cl_seq m4
    obtain rfl := cl_none k5 gg
    obtain ⟨w6, v, c11, c12, rfl, rfl, k6, x4⟩ := cl_seq x5
    obtain rfl := cl_none k6 gs2
    obtain ⟨w7, w8, c13, c14, rfl, rfl, k7, k8⟩ := cl_seq x4
    obtain ⟨rfl, jk7⟩ := cl_word k7 gc
    refine ⟨w3 ++ w5 ++ w6, gap_append (gap_append (gap_blanks (blanks_of k3.lang b1)) (gap_of k5.lang b2)) (gap_blanks (blanks_of k6.lang b3)), ?_⟩
    rw [e0]
    rcases cl_alt k8 with m8 | m8
    · obtain ⟨rfl, jk8⟩ := cl_word m8 gd
      exact ⟨w1, w9, by simp [groupText]⟩
    · obtain ⟨rfl, rfl⟩ := cl_eps m8
      exact ⟨w1, w9, by simp [groupText]⟩
  · obtain ⟨rfl, rfl⟩ := cl_eps m4
    exact absurd (by simp [groupText]) h3

/-- The era of the month-name pattern. -/
theorem monthName_era {t : Text} {mt : Match} (h : Ast.monthName.search t = some mt) (hl : toLower (mt.str 4) = mt.str 4) :
    ∃ e : Era, ∃ gap, Blanks gap ∧ mt.str 4 = gap ++ e.text ∧ (e ≠ .be → gap = []) := by
  have ok := Re.search_ok h
  rcases ok.group_lang 4 (by decide) with h4 | ⟨body, hb, hl'⟩
  · exact ⟨.unmarked, [], by simp [Blanks], by rw [h4]; rfl, fun _ => rfl⟩
  · rw [monthName_bodies4] at hb
    simp only [List.mem_singleton] at hb
    subst hb
    rcases lang_alt hl' with hl' | hl'
    · rcases lang_alt hl' with hl' | hl'
      · obtain ⟨u, v, e, hu, hv⟩ := lang_seq hl'
        have hb := blanks_of hu (by decide +kernel)
        have := hv.words [txt!"be"] (by decide)
        rw [List.mem_singleton] at this
        have hv' : toLower v = v := by
          rw [e] at hl
          have : toLower u ++ toLower v = u ++ v := by rw [← hl]; simp [toLower]
          exact (List.append_inj this (by simp [toLower])).2
        exact ⟨.be, u, hb, by rw [e, ← hv', this]; rfl, fun h => absurd rfl h⟩
      · have := hl'.words [txt!"ad"] (by decide)
        rw [List.mem_singleton, hl] at this
        exact ⟨.ad, [], by simp [Blanks], this, fun _ => rfl⟩
    · have := hl'.words [txt!"bc"] (by decide)
      rw [List.mem_singleton, hl] at this
      exact ⟨.bc, [], by simp [Blanks], this, fun _ => rfl⟩

/-! ## Months and days -/

/-- The first place of a date: digits with a suffix, or words. -/
def dayForm (k : Nat) : Re → Bool
  | .alt a b => dayForm k a && (b.groups == [])
  | .seq (.cap n d) s => n == k && d.allB isDigitB && decide (1 ≤ d.minLen) && (d.maxLen == some 2) && (d.groups == []) &&
      (s.words == some [txt!"st", txt!"nd", txt!"rd", txt!"th", txt!""]) && (s.groups == [])
  | _ => false

theorem dayForm_cl {k : Nat} {q : Re} (h : dayForm k q = true) {u : Text} {cs : List (Nat × Text)} (hl : CL q u cs) (hlow : toLower u = u) :
    groupText k cs = [] ∨ ∃ suffix ∈ [txt!"", txt!"st", txt!"nd", txt!"rd", txt!"th"], u = groupText k cs ++ suffix ∧
      IsDigits (groupText k cs) ∧ (groupText k cs).length ≤ 2 := by
  induction q with
  | alt a b ia ib =>
    simp only [dayForm, Bool.and_eq_true, beq_iff_eq] at h
    rcases cl_alt hl with hl | hl
    · exact ia h.1 hl
    · left
      rw [cl_none hl h.2]; rfl
  | seq a s =>
    right
    cases a with
    | cap n d =>
      simp only [dayForm, Bool.and_eq_true, beq_iff_eq, decide_eq_true_eq] at h
      obtain ⟨⟨⟨⟨⟨⟨h1, h2⟩, h3⟩, h4⟩, h5⟩, h6⟩, h7⟩ := h
      subst h1
      obtain ⟨v, w, c1, c2, rfl, rfl, hv, hw⟩ := cl_seq hl
      obtain ⟨rfl, jhv⟩ := cl_word hv h5
      obtain rfl := cl_none hw h7
      have hw' := hw.lang.words _ h6
      have hlw : toLower w = w := lower_of_infix (t := v ++ w) (by rw [hlow]; exact (List.suffix_append _ _).isInfix)
      rw [hlw] at hw'
      rw [List.nil_append, groupText_cons_eq]
      refine ⟨w, ?_, rfl, isDigits_of jhv h2 h3, jhv.maxLen _ h4⟩
      simp only [List.mem_cons, List.not_mem_nil, or_false] at hw' ⊢
      tauto
    | _ => simp [dayForm] at h
  | _ => simp [dayForm] at h

/-- What a second place of a range can be. -/
theorem ordinalsOf_digit {q : Re} (h : ordinalsOf q = true) {u : Text} (hl : Lang q u) (hlow : toLower u = u) :
    OrdinalWord u ∨ ∃ c r, u = c :: r ∧ 48 ≤ c ∧ c ≤ 57 := by
  induction q with
  | alt a b ia ib =>
    simp only [ordinalsOf, Bool.and_eq_true] at h
    obtain ⟨ha, hb⟩ := h
    rcases lang_alt hl with hl | hl
    · exact ia ha hl
    · left
      cases hw : b.words with
      | none => rw [hw] at hb; simp at hb
      | some ws =>
        rw [hw] at hb
        have hmem := hl.words ws hw
        rw [hlow] at hmem
        have h2 := List.all_eq_true.1 hb _ hmem
        simp only [Bool.or_eq_true, decide_eq_true_eq, beq_iff_eq] at h2
        rcases h2 with h2 | ⟨h2, h3⟩
        · exact .inr h2
        · left
          have := (c32_ordinal u _ h2 h3).1 rfl
          rw [hlow] at this
          exact ⟨_, h2, h3, this⟩
  | seq a b =>
    right
    obtain ⟨v, w, rfl, hv, -⟩ := lang_seq hl
    cases a with
    | cap n d =>
      by_cases hn : n = 7
      · subst hn
        simp only [ordinalsOf, Bool.and_eq_true, decide_eq_true_eq] at h
        obtain ⟨h1, h2⟩ := isDigits_of (lang_cap hv) h.1 h.2
        cases v with
        | nil => exact absurd rfl h1
        | cons c v => exact ⟨c, _, rfl, h2 c (by simp)⟩
      · unfold ordinalsOf at h
        split at h <;> simp_all
    | _ => simp [ordinalsOf] at h
  | _ => simp [ordinalsOf] at h

/-- No range of days in an ordinary text. -/
theorem no_day_range {text : Text} (h : Ordinary text) {q : Re} (hq : rangeBranch q = true) {u : Text} (hl : Lang q u) (hinf : u <:+: toLower text) : False := by
  unfold rangeBranch at hq
  split at hq
  · rename_i a b c d
    simp only [Bool.and_eq_true, beq_iff_eq] at hq
    obtain ⟨⟨h1, h2⟩, h3⟩ := hq
    obtain ⟨ua, v, rfl, la, lv⟩ := lang_seq hl
    obtain ⟨ub, v, rfl, lb, lv⟩ := lang_seq lv
    obtain ⟨uc, v, rfl, lc, -⟩ := lang_seq lv
    have ia : ua <:+: toLower text := (List.prefix_append ua _).isInfix.trans hinf
    have ic : ua ++ ub ++ uc <:+: toLower text := by
      refine List.IsInfix.trans ?_ hinf
      exact ⟨[], v, by simp⟩
    have hma := la.words _ h1
    rw [lower_of_infix ia] at hma
    rcases ordinalsOf_digit h3 (lang_cap lc) (lower_of_infix ((List.suffix_append (ua ++ ub) uc).isInfix.trans ic)) with ho | ⟨c, r, rfl, c1, c2⟩
    · exact h.ordinalRanges ua hma ub uc (blanks_of lb h2) ho ic
    · refine h.ranges ua ?_ ub c (blanks_of lb h2) c1 c2 (List.IsInfix.trans ⟨[], r, by simp⟩ ic)
      simp only [List.mem_cons, List.not_mem_nil, or_false] at hma
      rcases hma with rfl | rfl <;> decide
  · simp at hq

theorem groupText_app (n : Nat) (a b : List (Nat × Text)) :
    groupText n (a ++ b) = if a.any (fun p => p.1 == n) then groupText n a else groupText n b := by
  induction a with
  | nil => simp
  | cons p a ih =>
    obtain ⟨k, w⟩ := p
    by_cases hk : k = n
    · simp [groupText, hk]
    · rw [List.cons_append, groupText_cons_ne hk, groupText_cons_ne hk, ih, List.any_cons, beq_false_of_ne hk, Bool.false_or]

theorem cl_any {r : Re} {w : Text} {c : List (Nat × Text)} (h : CL r w c) {n : Nat} {l : List Nat} (hg : r.groups = l) (hn : l.contains n = false) :
    c.any (fun p => p.1 == n) = false := by
  rw [List.any_eq_false]
  intro p hp
  have := h.lacks (n := n) (by rw [hg]; exact hn) p hp
  simpa using this

theorem middleEndian_shape : ∃ a w m g d l s r y1 y8 yb y9 y10 yc y11 yb' n z, Ast.middleEndian =
    .seq (.cap 1 a) (.seq w (.seq (.cap 3 m) (.seq g (.seq (.cap 4 d) (.seq l (.seq s (.seq (.alt r .eps)
      (.seq (.alt (.seq y1 (.seq (.alt (.seq (.cap 8 y8) (.seq yb (.alt (.cap 9 y9) .eps))) (.seq (.cap 10 y10) (.seq yc (.cap 11 y11)))) yb')) .eps)
        (.seq (.cap 12 n) z))))))))) ∧
    a.groups = [] ∧ w.groups = [2] ∧ m.groups = [] ∧ g.groups = [] ∧ d.groups = [5] ∧ l.groups = [] ∧ s.groups = [] ∧
    rangeBranch r = true ∧ y1.groups = [] ∧ y8.groups = [] ∧ yb.groups = [] ∧ y9.groups = [] ∧ y10.groups = [] ∧ yc.groups = [] ∧
    y11.groups = [] ∧ yb'.groups = [] ∧ n.groups = [] ∧ z.groups = [] ∧
    g.allB gapB = true ∧ dayForm 5 d = true ∧ l.maxLen = some 0 ∧ s.allB isSpaceB = true ∧ y1.allB gapB = true ∧ yb.allB isSpaceB = true ∧
    yc.allB isSpaceB = true ∧ yb'.allB isSpaceB = true ∧ 1 ≤ yb'.minLen ∧ 1 ≤ y8.minLen ∧ 1 ≤ y10.minLen :=
  ⟨_, _, _, _, _, _, _, _, _, _, _, _, _, _, _, _, _, _, rfl, by decide +kernel, by decide +kernel, by decide +kernel, by decide +kernel, by decide +kernel,
    by decide +kernel, by decide +kernel, by decide +kernel, by decide +kernel, by decide +kernel, by decide +kernel, by decide +kernel,
    by decide +kernel, by decide +kernel, by decide +kernel, by decide +kernel, by decide +kernel, by decide +kernel, by decide +kernel,
    by decide +kernel, by decide +kernel, by decide +kernel, by decide +kernel, by decide +kernel, by decide +kernel, by decide +kernel, by decide +kernel,
    by decide +kernel, by decide +kernel⟩

/-- What a match of the middle-endian pattern looks like in an ordinary text. -/
theorem middleEndian_written {text : Text} (h : Ordinary text) {t : Text} (ht : t <:+: toLower text) {mt : Match}
    (hs : Ast.middleEndian.search t = some mt) :
    ∃ gap, Gap gap ∧ mt.str 3 ++ gap ++ mt.str 4 <:+: toLower text ∧
      (mt.str 5 = [] ∨ ∃ suffix ∈ [txt!"", txt!"st", txt!"nd", txt!"rd", txt!"th"], mt.str 4 = mt.str 5 ++ suffix ∧ IsDigits (mt.str 5) ∧
        (mt.str 5).length ≤ 2) ∧ mt.str 6 = [] ∧
      (mt.str 8 = [] ∧ mt.str 10 = [] ∨ ∃ gap' blanks b, Gap gap' ∧ Blanks blanks ∧ Blank b ∧
        ((mt.str 8 ≠ [] ∧ mt.str 10 = [] ∧ mt.str 11 = [] ∧
            mt.str 3 ++ gap ++ mt.str 4 ++ gap' ++ mt.str 8 ++ blanks ++ mt.str 9 ++ [b] <:+: toLower text) ∨
          (mt.str 10 ≠ [] ∧ mt.str 3 ++ gap ++ mt.str 4 ++ gap' ++ mt.str 10 ++ blanks ++ mt.str 11 ++ [b] <:+: toLower text))) := by
  obtain ⟨cs, hcl, hgr⟩ := Re.search_cl hs
  have h0 : mt.str 0 <:+: toLower text := (str_infix hs 0).trans ht
  obtain ⟨a, w, m, g, d, l, s, r, y1, y8, yb, y9, y10, yc, y11, yb', n, z, he, ga, gw, gm, gg, gd, gl, gs, hr, gy1, gy8, gyb, gy9, gy10, gyc,
    gy11, gyb', gn, gz, b1, b2, b3, b4, b5, b6, b7, b8, b9, b10, b11⟩ := middleEndian_shape
  rw [he] at hcl
  clear he hs
  generalize mt.str 0 = W at hcl h0
  obtain ⟨w1, v1, c1, t1, rfl, rfl, k1, x1⟩ := cl_seq hcl
  obtain ⟨rfl, -⟩ := cl_word k1 ga
  obtain ⟨w2, v2, c2, t2, rfl, rfl, k2, x2⟩ := cl_seq x1
  obtain ⟨w3, v3, c3, t3, rfl, rfl, k3, x3⟩ := cl_seq x2
  obtain ⟨rfl, -⟩ := cl_word k3 gm
  obtain ⟨w4, v4, c4, t4, rfl, rfl, k4, x4⟩ := cl_seq x3
  obtain rfl := cl_none k4 gg
  obtain ⟨w5, v5, c5, t5, rfl, rfl, k5, x5⟩ := cl_seq x4
  obtain ⟨c5, rfl, k5'⟩ := cl_cap k5
  obtain ⟨w6, v6, c6, t6, rfl, rfl, k6, x6⟩ := cl_seq x5
  obtain rfl := cl_none k6 gl
  obtain rfl : w6 = [] := List.eq_nil_of_length_eq_zero (by have := k6.lang.maxLen _ b3; omega)
  obtain ⟨w7, v7, c7, t7, rfl, rfl, k7, x7⟩ := cl_seq x6
  obtain rfl := cl_none k7 gs
  obtain ⟨w8, v8, c8, t8, rfl, rfl, k8, x8⟩ := cl_seq x7
  have hw5 : toLower w5 = w5 := lower_of_infix (t := text) (List.IsInfix.trans ⟨w1 ++ w2 ++ w3 ++ w4, _, by simp only [List.append_assoc]; rfl⟩ h0)
  have hday := dayForm_cl b2 k5' hw5
  have e2 : ∀ n, n ≠ 2 → c2.any (fun p => p.1 == n) = false := fun n hn => cl_any k2 gw (by simpa using hn)
  have e5 : ∀ n, n ≠ 5 → c5.any (fun p => p.1 == n) = false := fun n hn => cl_any k5' gd (by simpa using hn)
  rcases cl_alt k8 with m8 | m8
  · exact (no_day_range h hr m8.lang (List.IsInfix.trans ⟨w1 ++ w2 ++ w3 ++ w4 ++ w5 ++ w7, v8, by simp⟩ h0)).elim
  obtain ⟨rfl, rfl⟩ := cl_eps m8
  obtain ⟨w9, v9, c9, t9, rfl, rfl, k9, x9⟩ := cl_seq x8
  obtain ⟨w10, v10, c10, t10, rfl, rfl, k10, x10⟩ := cl_seq x9
  obtain ⟨rfl, -⟩ := cl_word k10 gn
  obtain rfl := cl_none x10 gz
  have c5none : ∀ n, n ≠ 5 → groupText n c5 = [] := fun n hn => groupText_none (by
    intro p hp; have := List.any_eq_false.1 (e5 n hn) p hp; simpa using this)
  have c2none : ∀ n, n ≠ 2 → groupText n c2 = [] := fun n hn => groupText_none (by
    intro p hp; have := List.any_eq_false.1 (e2 n hn) p hp; simpa using this)
  have hg : Gap w4 := gap_of k4.lang b1
  have i0 : w3 ++ w4 ++ w5 <:+: toLower text := List.IsInfix.trans ⟨w1 ++ w2, w7 ++ w9 ++ w10 ++ v10, by simp⟩ h0
  have hg7 := gap_blanks (blanks_of k7.lang b4)
  clear hcl x1 x2 x3 x4 x5 x6 x7 x8
  have g3 : mt.str 3 = w3 := by
    rw [hgr 3 (by decide)]
    have : c9.any (fun p => p.1 == 3) = false := cl_any k9 rfl (by simp [Re.groups, gy1, gy8, gyb, gy9, gy10, gyc, gy11, gyb'])
    simp [groupText_app, groupText, e2, e5, this]
  have g4 : mt.str 4 = w5 := by
    rw [hgr 4 (by decide)]
    have : c9.any (fun p => p.1 == 4) = false := cl_any k9 rfl (by simp [Re.groups, gy1, gy8, gyb, gy9, gy10, gyc, gy11, gyb'])
    simp [groupText_app, groupText, e2, e5, this]
  have g5 : mt.str 5 = groupText 5 c5 := by
    rw [hgr 5 (by decide)]
    have : c9.any (fun p => p.1 == 5) = false := cl_any k9 rfl (by simp [Re.groups, gy1, gy8, gyb, gy9, gy10, gyc, gy11, gyb'])
    have hc : c5.any (fun p => p.1 == 5) = false → groupText 5 c5 = [] := fun hc => groupText_none (by
      intro p hp; have := List.any_eq_false.1 hc p hp; simpa using this)
    cases hb : c5.any (fun p => p.1 == 5) with
    | false => rw [hc hb]; simp [groupText_app, groupText, e2, this, hb]
    | true => simp [groupText_app, groupText, e2, this, hb]
  have g6 : mt.str 6 = [] := by
    rw [hgr 6 (by decide)]
    have : c9.any (fun p => p.1 == 6) = false := cl_any k9 rfl (by simp [Re.groups, gy1, gy8, gyb, gy9, gy10, gyc, gy11, gyb'])
    simp [groupText_app, groupText, e2, e5, this]
  have g9 : ∀ n, n ∈ [8, 9, 10, 11] → mt.str n = groupText n c9 := by
    intro n hn
    rw [hgr n (by rintro rfl; simp at hn)]
    have hc : c9.any (fun p => p.1 == n) = false → groupText n c9 = [] := fun hc => groupText_none (by
      intro p hp; have := List.any_eq_false.1 hc p hp; simpa using this)
    simp only [List.mem_cons, List.not_mem_nil, or_false] at hn
    cases hb : c9.any (fun p => p.1 == n) with
    | false => rw [hc hb]; rcases hn with rfl | rfl | rfl | rfl <;> simp [groupText_app, groupText, e2, e5, hb]
    | true => rcases hn with rfl | rfl | rfl | rfl <;> simp [groupText_app, groupText, hb]
  rw [g3, g4, g5, g6, g9 8 (by decide), g9 9 (by decide), g9 10 (by decide), g9 11 (by decide)]
  refine ⟨w4, hg, i0, hday, rfl, ?_⟩
  rcases cl_alt k9 with m9 | m9
  · right
    obtain ⟨u1, q1, d1, r1, rfl, rfl, j1, z1⟩ := cl_seq m9
    obtain rfl := cl_none j1 gy1
    obtain ⟨u2, u3, d2, r2, rfl, rfl, j2, z2⟩ := cl_seq z1
    obtain rfl := cl_none z2 gyb'
    have hbl := blanks_of z2.lang b8
    have hne := z2.lang.minLen
    obtain ⟨b, u3, rfl⟩ : ∃ b u, u3 = b :: u := by
      cases u3 with
      | nil => simp at hne; omega
      | cons b u => exact ⟨b, u, rfl⟩
    have hb := hbl b (by simp)
    have hgap := gap_append hg7 (gap_of j1.lang b5)
    rcases cl_alt j2 with j3 | j3
    · obtain ⟨u4, q4, d4, r4, rfl, rfl, j4, z4⟩ := cl_seq j3
      obtain ⟨rfl, l4⟩ := cl_word j4 gy8
      obtain ⟨u5, u6, d5, r5, rfl, rfl, j5, z5⟩ := cl_seq z4
      obtain rfl := cl_none j5 gyb
      have hn4 : u4 ≠ [] := by rintro rfl; have := l4.minLen; simp at this; omega
      refine ⟨w7 ++ u1, u5, b, hgap, blanks_of j5.lang b6, hb, .inl ?_⟩
      rcases cl_alt z5 with j6 | j6
      · obtain ⟨rfl, -⟩ := cl_word j6 gy9
        simp only [groupText_app, groupText]
        exact ⟨by simpa using hn4, by simp, by simp, List.IsInfix.trans ⟨w1 ++ w2, u3 ++ w10 ++ v10, by simp⟩ h0⟩
      · obtain ⟨rfl, rfl⟩ := cl_eps j6
        simp only [groupText_app, groupText]
        exact ⟨by simpa using hn4, by simp, by simp, List.IsInfix.trans ⟨w1 ++ w2, u3 ++ w10 ++ v10, by simp⟩ h0⟩
    · obtain ⟨u4, q4, d4, r4, rfl, rfl, j4, z4⟩ := cl_seq j3
      obtain ⟨rfl, l4⟩ := cl_word j4 gy10
      obtain ⟨u5, u6, d5, r5, rfl, rfl, j5, z5⟩ := cl_seq z4
      obtain rfl := cl_none j5 gyc
      obtain ⟨rfl, -⟩ := cl_word z5 gy11
      have hn4 : u4 ≠ [] := by rintro rfl; have := l4.minLen; simp at this; omega
      refine ⟨w7 ++ u1, u5, b, hgap, blanks_of j5.lang b7, hb, .inr ?_⟩
      simp only [groupText_app, groupText]
      exact ⟨by simpa using hn4, List.IsInfix.trans ⟨w1 ++ w2, u3 ++ w10 ++ v10, by simp⟩ h0⟩
  · obtain ⟨rfl, rfl⟩ := cl_eps m9
    exact .inl ⟨rfl, rfl⟩

/-! ## Times -/

/-- The word begins with `a`, `o` or `p`. -/
def headIn : Re → Bool
  | .alt a b => headIn a && headIn b
  | .seq a _ => match a.words with
      | none => false
      | some ws => ws.all fun w => w == txt!"a" || w == txt!"o" || w == txt!"p"
  | _ => false

theorem headIn_lang {q : Re} (h : headIn q = true) {u : Text} (hl : Lang q u) (hlow : toLower u = u) : ∃ c r, u = c :: r ∧ c ∈ [97, 111, 112] := by
  induction q with
  | alt a b ia ib =>
    simp only [headIn, Bool.and_eq_true] at h
    rcases lang_alt hl with hl | hl
    · exact ia h.1 hl
    · exact ib h.2 hl
  | seq a b =>
    obtain ⟨v, w, rfl, hv, -⟩ := lang_seq hl
    unfold headIn at h
    cases hw : a.words with
    | none => rw [hw] at h; simp at h
    | some ws =>
      rw [hw] at h
      have hmem := hv.words ws hw
      rw [lower_of_infix (t := v ++ w) (by rw [hlow]; exact (List.prefix_append _ _).isInfix)] at hmem
      have h2 := List.all_eq_true.1 h _ hmem
      simp only [Bool.or_eq_true, beq_iff_eq] at h2
      rcases h2 with (rfl | rfl) | rfl
      · exact ⟨97, w, rfl, by decide⟩
      · exact ⟨111, w, rfl, by decide⟩
      · exact ⟨112, w, rfl, by decide⟩
  | _ => simp [headIn] at h

theorem timeExpr_shape : ∃ a o b p c q d f fd sp e l o' r8 r9 rb r10 rr, Ast.timeExpr =
    .seq (.cap 1 a) (.seq o (.seq (.cap 2 b) (.seq (.alt (.seq p (.seq (.cap 3 c) (.alt (.seq q (.seq (.cap 4 d) (.alt (.seq f (.cap 5 fd)) .eps))) .eps))) .eps)
      (.seq (.alt (.seq sp (.cap 6 e)) .eps) (.seq l (.seq o' (.alt (.cap 7 (.seq (.cap 8 r8) (.seq (.cap 9 r9) (.seq rb (.seq (.cap 10 r10) rr))))) .eps))))))) ∧
    a.groups = [] ∧ o.groups = [] ∧ b.groups = [] ∧ p.groups = [] ∧ c.groups = [] ∧ q.groups = [] ∧ d.groups = [] ∧ f.groups = [] ∧ fd.groups = [] ∧
    sp.groups = [] ∧ e.groups = [] ∧ l.groups = [] ∧ o'.groups = [] ∧
    p.words = some [txt!".", txt!":", [239, 188, 154]] ∧ q.words = some [txt!":", [239, 188, 154]] ∧ f.words = some [txt!"."] ∧
    fd.allB isDigitB = true ∧ 1 ≤ fd.minLen ∧ sp.allB isSpaceB = true ∧ r9.words = some rangeSigns ∧ rb.allB isSpaceB = true ∧
    r10.allB isDigitB = true ∧ 1 ≤ r10.minLen ∧ headIn e = true ∧ c.allB isDigitB = true ∧ 1 ≤ c.minLen ∧ d.allB isDigitB = true ∧ 1 ≤ d.minLen :=
  ⟨_, _, _, _, _, _, _, _, _, _, _, _, _, _, _, _, _, _, rfl, by decide +kernel, by decide +kernel, by decide +kernel, by decide +kernel, by decide +kernel,
    by decide +kernel, by decide +kernel, by decide +kernel, by decide +kernel, by decide +kernel, by decide +kernel, by decide +kernel,
    by decide +kernel, by decide +kernel, by decide +kernel, by decide +kernel, by decide +kernel, by decide +kernel, by decide +kernel,
    by decide +kernel, by decide +kernel, by decide +kernel, by decide +kernel, by decide +kernel, by decide +kernel, by decide +kernel, by decide +kernel, by decide +kernel⟩

/-- What a match of the time pattern looks like in an ordinary text. -/
theorem timeExpr_written {text : Text} (h : Ordinary text) {t : Text} (ht : t <:+: toLower text) {mt : Match}
    (hs : Ast.timeExpr.search t = some mt) :
    mt.str 7 = [] ∧ (mt.str 4 = [] ∨ IsDigits (mt.str 3) ∧ IsDigits (mt.str 4) ∧ ∃ sep sep' fraction blanks, sep ∈ [txt!".", txt!":", [239, 188, 154]] ∧
      sep' ∈ [txt!":", [239, 188, 154]] ∧ (fraction = [] ∨ ∃ ds n, fraction = txt!"." ++ ds ∧ Number ds n) ∧ Blanks blanks ∧
      (mt.str 6 = [] ∨ ∃ l r, mt.str 6 = l :: r ∧ l ∈ [97, 111, 112]) ∧
      mt.str 2 ++ sep ++ mt.str 3 ++ sep' ++ mt.str 4 ++ fraction ++ blanks ++ mt.str 6 <:+: toLower text) := by
  obtain ⟨cs, hcl, hgr⟩ := Re.search_cl hs
  have h0 : mt.str 0 <:+: toLower text := (str_infix hs 0).trans ht
  obtain ⟨a, o, b, p, c, q, d, f, fd, sp, e, l, o', r8, r9, rb, r10, rr, he, ga, go, gb, gp, gc, gq, gd, gf, gfd, gsp, ge, gl, go',
    b1, b2, b3, b4, b5, b6, b7, b8, b9, b10, b11, b12, b13, b14, b15⟩ := timeExpr_shape
  rw [he] at hcl
  clear he hs
  generalize mt.str 0 = W at hcl h0
  obtain ⟨w1, v1, c1, t1, rfl, rfl, k1, x1⟩ := cl_seq hcl
  obtain ⟨rfl, -⟩ := cl_word k1 ga
  obtain ⟨w2, v2, c2, t2, rfl, rfl, k2, x2⟩ := cl_seq x1
  obtain rfl := cl_none k2 go
  obtain ⟨w3, v3, c3, t3, rfl, rfl, k3, x3⟩ := cl_seq x2
  obtain ⟨rfl, -⟩ := cl_word k3 gb
  obtain ⟨w4, v4, c4, t4, rfl, rfl, k4, x4⟩ := cl_seq x3
  obtain ⟨w5, v5, c5, t5, rfl, rfl, k5, x5⟩ := cl_seq x4
  obtain ⟨w6, v6, c6, t6, rfl, rfl, k6, x6⟩ := cl_seq x5
  obtain rfl := cl_none k6 gl
  obtain ⟨w7, v7, c7, t7, rfl, rfl, k7, x7⟩ := cl_seq x6
  obtain rfl := cl_none k7 go'
  rcases cl_alt x7 with m | m
  · exfalso
    obtain ⟨c8, rfl, m1⟩ := cl_cap m
    obtain ⟨u1, q1, rfl, -, m2⟩ := lang_seq m1.lang
    obtain ⟨u2, q2, rfl, n2, m3⟩ := lang_seq m2
    obtain ⟨u3, q3, rfl, n3, m4⟩ := lang_seq m3
    obtain ⟨u4, q4, rfl, n4, m5⟩ := lang_seq m4
    have i2 : u2 ++ u3 ++ u4 <:+: toLower text :=
      List.IsInfix.trans ⟨w1 ++ w2 ++ w3 ++ w4 ++ w5 ++ w6 ++ w7 ++ u1, q4, by simp⟩ h0
    have l2 := (lang_cap n2).words _ b7
    rw [lower_of_infix (List.IsInfix.trans ⟨[], u3 ++ u4, by simp⟩ i2)] at l2
    obtain ⟨d1, d2⟩ := isDigits_of (lang_cap n4) b9 b10
    cases u4 with
    | nil => exact d1 rfl
    | cons c4 u4 =>
      have hc := d2 c4 (by simp)
      exact h.ranges u2 l2 u3 c4 (blanks_of n3 b8) hc.1 hc.2 (List.IsInfix.trans ⟨[], u4, by simp⟩ i2)
  obtain ⟨rfl, rfl⟩ := cl_eps m
  clear hcl x1 x2 x3 x4 x5 x6 x7
  have g5c : ∀ n, n ≠ 6 → c5.any (fun p => p.1 == n) = false := fun n hn =>
    cl_any k5 rfl (by simp [Re.groups, gsp, ge]; exact hn)
  have g4c : ∀ n, n ∉ [3, 4, 5] → c4.any (fun p => p.1 == n) = false := fun n hn =>
    cl_any k4 rfl (by simp [Re.groups, gp, gc, gq, gd, gf, gfd]; simpa using hn)
  have f4 : ∀ n, c4.any (fun p => p.1 == n) = false → groupText n c4 = [] := fun n hc => groupText_none (by
      intro p hp; have := List.any_eq_false.1 hc p hp; simpa using this)
  have f5 : ∀ n, c5.any (fun p => p.1 == n) = false → groupText n c5 = [] := fun n hc => groupText_none (by
      intro p hp; have := List.any_eq_false.1 hc p hp; simpa using this)
  have g2 : mt.str 2 = w3 := by
    rw [hgr 2 (by decide)]
    simp [groupText_app, groupText, g5c, g4c]
  have g7 : mt.str 7 = [] := by
    rw [hgr 7 (by decide)]
    simp [groupText_app, groupText, g5c, g4c]
  have g6 : mt.str 6 = groupText 6 c5 := by
    rw [hgr 6 (by decide)]
    cases hb : c5.any (fun p => p.1 == 6) with
    | false => rw [f5 6 hb]; simp [groupText_app, groupText, g4c, hb]
    | true => simp [groupText_app, groupText, hb]
  have g34 : ∀ n, n = 3 ∨ n = 4 → mt.str n = groupText n c4 := by
    intro n hn
    rw [hgr n (by omega)]
    cases hb : c4.any (fun p => p.1 == n) with
    | false => rw [f4 n hb]; rcases hn with rfl | rfl <;> simp [groupText_app, groupText, g5c, hb]
    | true => rcases hn with rfl | rfl <;> simp [groupText_app, groupText, g5c, hb]
  rw [g2, g7, g6, g34 3 (.inl rfl), g34 4 (.inr rfl)]
  refine ⟨rfl, ?_⟩
  rcases cl_alt k4 with m4 | m4
  swap
  · obtain ⟨rfl, rfl⟩ := cl_eps m4
    exact .inl rfl
  obtain ⟨u1, q1, d1, e1, rfl, rfl, n1, y1⟩ := cl_seq m4
  obtain rfl := cl_none n1 gp
  obtain ⟨u2, q2, d2, e2, rfl, rfl, n2, y2⟩ := cl_seq y1
  obtain ⟨rfl, l2⟩ := cl_word n2 gc
  rcases cl_alt y2 with m5 | m5
  swap
  · obtain ⟨rfl, rfl⟩ := cl_eps m5
    exact .inl rfl
  right
  obtain ⟨u3, q3, d3, e3, rfl, rfl, n3, y3⟩ := cl_seq m5
  obtain rfl := cl_none n3 gq
  obtain ⟨u4, q4, d4, e4, rfl, rfl, n4, y4⟩ := cl_seq y3
  obtain ⟨rfl, l4⟩ := cl_word n4 gd
  have e4c : ∀ n, n ≠ 5 → e4.any (fun p => p.1 == n) = false := fun n hn =>
    cl_any y4 rfl (by simp [Re.groups, gf, gfd]; exact hn)
  have t3 : groupText 3 (e4 ++ [(4, u4)] ++ [] ++ [(3, u2)] ++ []) = u2 := by simp [groupText_app, groupText, e4c]
  have t4 : groupText 4 (e4 ++ [(4, u4)] ++ [] ++ [(3, u2)] ++ []) = u4 := by simp [groupText_app, groupText, e4c]
  rw [t3, t4]
  have hfr : q4 = [] ∨ ∃ ds n, q4 = txt!"." ++ ds ∧ Number ds n := by
    rcases cl_alt y4 with m6 | m6
    · right
      obtain ⟨z1, z2, rfl, k1, k2⟩ := lang_seq m6.lang
      have hd := isDigits_of (lang_cap k2) b4 b5
      have hw := k1.words _ b3
      have hz : toLower z1 = z1 := lower_of_infix (t := text) (List.IsInfix.trans ⟨w1 ++ w2 ++ w3 ++ u1 ++ u2 ++ u3 ++ u4, z2 ++ (w5 ++ (w6 ++ (w7 ++ []))), by simp⟩ h0)
      rw [hz, List.mem_singleton] at hw
      exact ⟨z2, _, by rw [hw], number_of hd⟩
    · exact .inl (cl_eps m6).1
  have low : ∀ u pre post : Text, pre ++ u ++ post = w1 ++ (w2 ++ (w3 ++ ((u1 ++ (u2 ++ (u3 ++ (u4 ++ q4)))) ++ (w5 ++ (w6 ++ (w7 ++ [])))))) → toLower u = u :=
    fun u pre post hu => lower_of_infix (t := text) (List.IsInfix.trans ⟨pre, post, hu⟩ h0)
  have hu1 := n1.lang.words _ b1
  rw [low u1 (w1 ++ w2 ++ w3) (u2 ++ u3 ++ u4 ++ q4 ++ w5 ++ w6 ++ w7) (by simp)] at hu1
  have hu3 := n3.lang.words _ b2
  rw [low u3 (w1 ++ w2 ++ w3 ++ u1 ++ u2) (u4 ++ q4 ++ w5 ++ w6 ++ w7) (by simp)] at hu3
  refine ⟨isDigits_of l2 b12 b13, isDigits_of l4 b14 b15, u1, u3, q4, ?_⟩
  rcases cl_alt k5 with m7 | m7
  · obtain ⟨z1, z2, f1, f2, rfl, rfl, s1, s2⟩ := cl_seq m7
    obtain rfl := cl_none s1 gsp
    obtain ⟨rfl, l6⟩ := cl_word s2 ge
    have hz2 := low z2 (w1 ++ w2 ++ w3 ++ u1 ++ u2 ++ u3 ++ u4 ++ q4 ++ z1) (w6 ++ w7) (by simp)
    refine ⟨z1, hu1, hu3, hfr, blanks_of s1.lang b6, .inr ?_, ?_⟩
    · simpa [groupText] using headIn_lang b11 l6 hz2
    · exact List.IsInfix.trans ⟨w1 ++ w2, w6 ++ w7, by simp [groupText]⟩ h0
  · obtain ⟨rfl, rfl⟩ := cl_eps m7
    refine ⟨[], hu1, hu3, hfr, by simp [Blanks], .inl rfl, ?_⟩
    exact List.IsInfix.trans ⟨w1 ++ w2, w6 ++ w7, by simp [groupText]⟩ h0

end Chrono.Props
