import Verif.Props.P62_PhraseInText
import Verif.Props.P24_Week
/-!
# C84: weeks in the middle of a sentence
-/
namespace Chrono.Props
open Chrono Chrono.Spec Chrono.Boost

theorem week_parts : ∃ L G1 D X G2 W B, Ast.week =
      .seq (.cap 1 (.wb false)) (.seq (.cap 2 (.alt (.seq L (.seq G1 (.seq (.alt (.alt (.cap 3 D) (.cap 4 X)) .eps) (.seq G2 W)))) B)) (.cap 5 (.wb false))) ∧
    (L.free && G1.free && X.free && G2.free && W.free && B.free) = true ∧ (G1.allB isSpaceB && G2.allB isSpaceB && X.allB isWordB && D.allB isDigitB) = true ∧
    1 ≤ G1.minLen ∧ 1 ≤ D.minLen ∧ 3 ≤ X.minLen ∧
    (L.groups = [] ∧ G1.groups = [] ∧ X.groups = [] ∧ D.groups = [] ∧ G2.groups = [] ∧ W.groups = [] ∧ B.groups = []) ∧
    L.words = some [txt!"last", txt!"next"] ∧ W.words = some [txt!"weeks", txt!"week"] ∧ B.toks = some [[txt!"thisweek"], [txt!"this", txt!"week"]] ∧
    (∀ w ∈ [txt!"next", txt!"last"], (L.fullMatch w).isSome = true) ∧ (∀ g ∈ [G1, G2], (g.fullMatch txt!" ").isSome = true) ∧ (G2.fullMatch []).isSome = true ∧
    (∀ n ∈ weekWords, (X.fullMatch n.1).isSome = true) ∧
    (∀ u ∈ weekNouns, (W.fullMatch u).isSome = true) ∧ (B.fullMatch txt!"this week").isSome = true :=
  ⟨_, _, _, _, _, _, _, rfl, by decide +kernel, by decide +kernel, by decide +kernel, by decide +kernel, by decide +kernel, ⟨rfl, rfl, rfl, rfl, rfl, rfl, rfl⟩, by decide +kernel,
    by decide +kernel, by decide +kernel, by decide +kernel, by decide +kernel, by decide +kernel, by decide +kernel, by decide +kernel, by decide +kernel⟩

def lastNext : List Text := [txt!"last", txt!"next"]

theorem week_isWord : ∀ w ∈ lastNext ++ weekNouns ++ [txt!"this", txt!"thisweek"] ++ weekWords.map (·.1), IsWord w := by
  have h : ∀ w ∈ lastNext ++ weekNouns ++ [txt!"this", txt!"thisweek"] ++ weekWords.map (·.1), w ≠ [] ∧ w.all isWordB = true := by decide
  intro w hw
  exact ⟨(h w hw).1, by simpa using (h w hw).2⟩

/-- The words that a match of the week pattern consists of, with its fourth group. -/
inductive WeekToks : List Text → Text → Prop where
  | this : WeekToks [txt!"this", txt!"week"] []
  | thisGlued : WeekToks [txt!"thisweek"] []
  | bare {l u} : l ∈ lastNext → u ∈ weekNouns → WeekToks [l, u] []
  | many {l x u} : l ∈ lastNext → u ∈ weekNouns → 3 ≤ x.length → WeekToks [l, x, u] x
  | glued {l x u} : l ∈ lastNext → u ∈ weekNouns → 3 ≤ x.length → WeekToks [l, x ++ u] x

theorem isWord_append {a b : Text} (ha : IsWord a) (hb : IsWord b) : IsWord (a ++ b) := by
  refine ⟨by simp [ha.1], fun c hc => ?_⟩
  rcases List.mem_append.1 hc with h | h
  · exact ha.2 c h
  · exact hb.2 c h

/-- What the week pattern finds, in lower case and without digits. -/
theorem week_reads {T : Text} (hT : toLower T = T) (hd : ∀ c ∈ T, isDigitB c = false) {mt : Match} (h : Ast.week.search T = some mt) :
    ∃ ts, Toks ts (mt.str 0) ∧ WeekToks ts (mt.str 4) ∧ mt.str 2 = mt.str 0 ∧ mt.str 3 = [] ∧ Open (T.take mt.start) ∧ Ends (T.drop mt.stop) := by
  obtain ⟨L, G1, D, X, G2, W, B, he, -, hg, hg1, hd1, hx3, ⟨z1, z2, z3, z4, z5, z6, z7⟩, hL, hW, hB, -⟩ := week_parts
  simp only [Bool.and_eq_true] at hg
  obtain ⟨⟨⟨ha1, ha2⟩, hax⟩, had⟩ := hg
  obtain ⟨hpl, s', hrel, hprev, hrest⟩ := search_place h
  obtain ⟨cs, hcl, hgr⟩ := Re.search_cl h
  have hlow : toLower (mt.str 0) = mt.str 0 := lower_of_infix (t := T) (by rw [hT]; exact str_infix h 0)
  have hdig : ∀ c ∈ mt.str 0, isDigitB c = false := fun c hc => hd c ((str_infix h 0).subset hc)
  have hst : (T.take mt.start).length = mt.start := by
    have := (Re.search_some h).2.1
    rw [List.length_take]; omega
  rw [he] at hcl hrel
  simp only [rel_seq, rel_cap, rel_wb] at hrel
  obtain ⟨s1, ⟨s0, ⟨hb0, rfl⟩, rfl⟩, s6, -, s7, ⟨hb7, e7⟩, e8⟩ := hrel
  have hb0' : (startSt T (T.take mt.start).length).atWordBoundary = true := by rw [hst]; simpa using hb0
  have hb7' : s'.atWordBoundary = true := by
    rw [e8, e7]
    have : s6.atWordBoundary = true := by simpa using hb7
    exact this
  have g3 := hgr 3 (by decide)
  have g4 := hgr 4 (by decide)
  have g2 := hgr 2 (by decide)
  suffices hh : ∃ ts, Toks ts (mt.str 0) ∧ WeekToks ts (mt.str 4) ∧ mt.str 2 = mt.str 0 ∧ mt.str 3 = [] by
    obtain ⟨ts, ht, r1, r2, r3⟩ := hh
    refine ⟨ts, ht, r1, r2, r3, ?_, ?_⟩
    · obtain ⟨c, hc, hcw⟩ := ht.head (x := [])
      rw [List.append_nil] at hc
      exact open_of_boundary hpl hb0' hc hcw
    · rw [← hrest]
      obtain ⟨c, hc, hcw⟩ := ht.last
      refine ends_of_boundary hb7' (c := c) ?_ hcw
      rw [hprev]
      have : T.take mt.stop = T.take mt.start ++ mt.str 0 := by
        have e2 := List.take_append_drop mt.stop T
        exact List.append_cancel_right (e2.trans hpl)
      rw [this, List.getLast?_append, hc]; rfl
  generalize hW0 : mt.str 0 = M at hcl hpl hlow hdig
  rw [g2, g3, g4]
  clear g2 g3 g4 hgr hpl hb0' hb0 hb7 hb7' hrest hprev
  obtain ⟨w1, v1, c1, d1, rfl, rfl, h1, x1⟩ := cl_seq hcl
  obtain ⟨w2, v2, c2, d2, rfl, rfl, h2, x2⟩ := cl_seq x1
  obtain ⟨rfl, k1⟩ := cl_word h1 rfl
  obtain ⟨rfl, k2⟩ := cl_word x2 rfl
  obtain rfl := lang_wb k1
  obtain rfl := lang_wb k2
  simp only [List.append_nil, List.nil_append] at hlow hdig ⊢
  obtain ⟨c', rfl, h2'⟩ := cl_cap h2
  rcases cl_alt h2' with h8 | h8
  · obtain ⟨l, y1, c3, e3, rfl, rfl, h3, x3⟩ := cl_seq h8
    obtain ⟨g1, y2, c4, e4, rfl, rfl, h4, x4⟩ := cl_seq x3
    obtain ⟨x, y3, c5, e5, rfl, rfl, h5, x5⟩ := cl_seq x4
    obtain ⟨g2, u, c6, e6, rfl, rfl, h6, h7⟩ := cl_seq x5
    obtain rfl := cl_none h3 z1
    obtain rfl := cl_none h4 z2
    obtain rfl := cl_none h6 z5
    obtain rfl := cl_none h7 z6
    simp only [toLower, List.map_append] at hlow
    obtain ⟨q1, hlow⟩ := List.append_inj hlow (by simp)
    obtain ⟨-, hlow⟩ := List.append_inj hlow (by simp)
    obtain ⟨q2, hlow⟩ := List.append_inj hlow (by simp)
    obtain ⟨-, q3⟩ := List.append_inj hlow (by simp)
    have ml : l ∈ lastNext := by
      have := h3.lang.words _ hL
      unfold toLower at this
      rw [q1] at this
      exact this
    have mu : u ∈ weekNouns := by
      have := h7.lang.words _ hW
      unfold toLower at this
      rw [q3] at this
      simpa [weekNouns, or_comm] using this
    have il := week_isWord l (by simp [ml])
    have iu := week_isWord u (by simp [mu])
    have bg1 : Blanks g1 := blanks_of h4.lang ha1
    have ng1 : g1 ≠ [] := by
      rintro rfl
      have := h4.lang.minLen
      simp at this
      omega
    have bg2 : Blanks g2 := blanks_of h6.lang ha2
    rcases cl_alt h5 with h5 | h5
    · rcases cl_alt h5 with h5 | h5
      · exfalso
        obtain ⟨-, k⟩ := cl_word h5 z4
        have q1 := k.minLen
        cases x with
        | nil => simp at q1; omega
        | cons c x =>
          have := hdig c (by simp)
          rw [k.allB _ had c (by simp)] at this
          cases this
      · obtain ⟨rfl, k⟩ := cl_word h5 z3
        have lx : 3 ≤ x.length := le_trans hx3 k.minLen
        have ix : IsWord x := ⟨by rintro rfl; simp at lx, fun c hc => k.allB _ hax c hc⟩
        by_cases hg2 : g2 = []
        · subst hg2
          refine ⟨[l, x ++ u], ?_, .glued ml mu lx, rfl, rfl⟩
          have := Toks.more il bg1 ng1 (.one (isWord_append ix iu))
          simpa using this
        · refine ⟨[l, x, u], ?_, .many ml mu lx, rfl, rfl⟩
          have := Toks.more il bg1 ng1 (.more ix bg2 hg2 (.one iu))
          simpa using this
    · obtain ⟨rfl, rfl⟩ := cl_eps h5
      refine ⟨[l, u], ?_, .bare ml mu, rfl, rfl⟩
      have := Toks.more il (g := g1 ++ g2) (fun c hc => (List.mem_append.1 hc).elim (bg1 c) (bg2 c)) (by simp [ng1]) (.one iu)
      simpa using this
  · obtain rfl := cl_none h8 z7
    obtain ⟨ts, hts, ht⟩ := h8.lang.toks hlow hB
    simp only [List.mem_cons, List.not_mem_nil, or_false] at hts
    rcases hts with rfl | rfl
    · exact ⟨_, ht, .thisGlued, rfl, rfl⟩
    · exact ⟨_, ht, .this, rfl, rfl⟩

/-- `this week`, `next week`, `last weeks`, `next two weeks`. -/
def weekPhrases : List Text :=
  txt!"this week" :: lastNext.flatMap fun l => weekNouns.flatMap fun u => (l ++ txt!" " ++ u) :: weekWords.map fun n => weeksText l n.1 u

theorem weekPhrase_toks {v : Text} (hv : v ∈ weekPhrases) :
    ∃ ts n, Toks ts v ∧ WeekToks ts n ∧ (ts = [txt!"this", txt!"week"] ∨ (∃ l u, ts = [l, u] ∧ l ∈ lastNext ∧ u ∈ weekNouns) ∨ ∃ l x u, ts = [l, x, u] ∧ l ∈ lastNext ∧ x ∈ weekWords.map (·.1)) := by
  simp only [weekPhrases, List.mem_cons, List.mem_flatMap, List.mem_map] at hv
  rcases hv with rfl | ⟨l, hl, u, hu, rfl | ⟨n, hn, rfl⟩⟩
  · refine ⟨_, _, ?_, .this, .inl rfl⟩
    have := Toks.more (week_isWord txt!"this" (by simp)) blank_gap.1 blank_gap.2 (.one (week_isWord txt!"week" (by simp [weekNouns])))
    exact this
  · have il := week_isWord l (by simp [hl])
    have iu := week_isWord u (by simp [hu])
    exact ⟨_, _, .more il blank_gap.1 blank_gap.2 (.one iu), .bare hl hu, .inr (.inl ⟨l, u, rfl, hl, hu⟩)⟩
  · have il := week_isWord l (by simp [hl])
    have iu := week_isWord u (by simp [hu])
    have ix := week_isWord n.1 (by simp only [List.mem_append]; exact .inr (List.mem_map_of_mem hn))
    have lx : ∀ n ∈ weekWords, 3 ≤ n.1.length := by decide
    refine ⟨_, _, ?_, .many hl hu (lx n hn), .inr (.inr ⟨l, n.1, u, rfl, hl, List.mem_map_of_mem hn⟩)⟩
    have := Toks.more il blank_gap.1 blank_gap.2 (.more ix blank_gap.1 blank_gap.2 (.one iu))
    unfold weeksText
    simpa using this

/-- A pattern between two word boundaries matches its words where they stand. -/
theorem framed_matches {R : Re} {P v S : Text} {ts : List Text} {i j k : Nat} (hf : R.free = true) (hm : (R.fullMatch v).isSome = true) (ht : Toks ts v) (hps : StandsApart P S) :
    ∃ s', Rel (.seq (.cap i (.wb false)) (.seq (.cap j R) (.cap k (.wb false)))) (startSt (P ++ v ++ S) P.length) s' := by
  have hrest : (startSt (P ++ v ++ S) P.length).rest = v ++ S := by
    show (P ++ v ++ S).drop P.length = _
    rw [List.append_assoc, List.drop_left]
  have hb : (startSt (P ++ v ++ S) P.length).atWordBoundary = true := by
    obtain ⟨c, hc, hcw⟩ := ht.head (x := S)
    obtain ⟨y, hy⟩ : ∃ y, v ++ S = c :: y := by
      cases hv : v ++ S with
      | nil => rw [hv] at hc; cases hc
      | cons d y => rw [hv] at hc; cases hc; exact ⟨y, rfl⟩
    refine boundary_start (hrest.trans hy) (wordChar_iff.1 hcw) ?_
    show ∀ x, ((P ++ v ++ S).take P.length).getLast? = some x → _
    rw [List.append_assoc, List.take_left]; exact hps.1
  generalize startSt (P ++ v ++ S) P.length = z at hrest hb
  have cap : ∀ {r : Re} {k : Nat} {z z' : St}, Rel r z z' → ∃ z'', Rel (.cap k r) z z'' ∧ z''.rest = z'.rest ∧ z''.prev = z'.prev :=
    fun h => ⟨_, .cap h, rfl, rfl⟩
  obtain ⟨z0, r0, e0, p0⟩ := cap (k := i) (Rel.wb (neg := false) (s := z) (by rw [hb]; rfl))
  obtain ⟨z1, r1, c1, e1⟩ := (lang_of_fullMatch hm).rel hf (z := z0) (by rw [e0, hrest])
  obtain ⟨z1', r1', e1', p1⟩ := cap (k := j) r1
  have hend : z1'.atWordBoundary = true := by
    obtain ⟨c, hc, hcw⟩ := ht.last
    refine boundary_end (c := c) ?_ (wordChar_iff.1 hcw) ?_
    · rw [p1, c1.prev, hc]; rfl
    · rw [e1', e1]; exact hps.2
  obtain ⟨z2, r2, -, -⟩ := cap (k := k) (Rel.wb (neg := false) (s := z1') (by rw [hend]; rfl))
  exact ⟨_, .seq r0 (.seq r1' r2)⟩

theorem week_frame : ∃ R i j k, Ast.week = .seq (.cap i (.wb false)) (.seq (.cap j R) (.cap k (.wb false))) ∧ R.free = true ∧ ∀ v ∈ weekPhrases, (R.fullMatch v).isSome = true :=
  ⟨_, _, _, _, rfl, by decide +kernel, by decide +kernel⟩

theorem begins_of {a b t : Text} (h : WholeWord (a ++ b) t) : BeginsAWord a t := by
  obtain ⟨x, y, rfl, h1, -⟩ := h
  exact ⟨x, b ++ y, by simp, h1, by simp⟩

theorem ends_of {a b t : Text} (h : WholeWord (a ++ b) t) : EndsAWord b t := by
  obtain ⟨x, y, rfl, -, h2⟩ := h
  exact ⟨x ++ a, y, by simp, by simp, h2⟩

theorem noWeek_toks {ts : List Text} {n t : Text} (h : WeekToks ts n) (hw : ∀ w ∈ ts, WholeWord w t) : ¬ NoWeek t := by
  have key : ∀ {l : Text}, l ∈ lastNext → WholeWord l t → WholeWord txt!"last" t ∨ WholeWord txt!"next" t := by
    intro l hl h
    simp only [lastNext, List.mem_cons, List.not_mem_nil, or_false] at hl
    rcases hl with rfl | rfl
    · exact .inl h
    · exact .inr h
  have key2 : ∀ {u : Text}, u ∈ weekNouns → EndsAWord u t → EndsAWord txt!"week" t ∨ EndsAWord txt!"weeks" t := by
    intro u hu h
    simp only [weekNouns, List.mem_cons, List.not_mem_nil, or_false] at hu
    rcases hu with rfl | rfl
    · exact .inl h
    · exact .inr h
  have e0 : ∀ {u : Text}, WholeWord u t → EndsAWord u t := fun h => ends_of (a := []) h
  have b0 : ∀ {u : Text}, WholeWord u t → BeginsAWord u t := fun {u} h => begins_of (a := u) (b := []) (by rwa [List.append_nil])
  have fin : (WholeWord txt!"last" t ∨ WholeWord txt!"next" t) ∨ BeginsAWord txt!"this" t := by
    cases h with
    | this => exact .inr (b0 (hw _ (by simp)))
    | thisGlued => exact .inr (begins_of (a := txt!"this") (b := txt!"week") (hw _ (by simp)))
    | bare hl hu => exact .inl (key hl (hw _ (by simp)))
    | many hl hu => exact .inl (key hl (hw _ (by simp)))
    | glued hl hu => exact .inl (key hl (hw _ (by simp)))
  have fin2 : EndsAWord txt!"week" t ∨ EndsAWord txt!"weeks" t := by
    cases h with
    | this => exact .inl (e0 (hw _ (by simp)))
    | thisGlued => exact .inl (ends_of (a := txt!"this") (b := txt!"week") (hw _ (by simp)))
    | bare hl hu => exact key2 hu (e0 (hw _ (by simp)))
    | many hl hu => exact key2 hu (e0 (hw _ (by simp)))
    | @glued l _ u hl hu => exact key2 hu (ends_of (a := n) (hw (n ++ u) (by simp)))
  rintro (⟨h1, h2, h3⟩ | ⟨h1, h2⟩)
  · rcases fin with (f | f) | f
    exacts [h1 f, h2 f, h3 f]
  · exact fin2.elim h1 h2

theorem week_sizes : (∀ u ∈ weekNouns, 4 ≤ u.length ∧ u.length ≤ 5) ∧ (∀ l ∈ txt!"this" :: lastNext, l.length = 4) ∧ (∀ x ∈ weekWords.map (·.1), x.length ≤ 6) ∧
    (∀ u ∈ weekNouns, u ∉ txt!"this" :: lastNext) ∧ (∀ x ∈ weekWords.map (·.1), x ∉ weekNouns) ∧ txt!"this" ∉ lastNext ∧ (∀ u ∈ weekNouns, ∃ b, u = txt!"week" ++ b) := by
  refine ⟨by decide, by decide, by decide, by decide, by decide, by decide, ?_⟩
  intro u hu
  simp only [weekNouns, List.mem_cons, List.not_mem_nil, or_false] at hu
  rcases hu with rfl | rfl
  · exact ⟨[], rfl⟩
  · exact ⟨txt!"s", rfl⟩

/-- The words of the phrases. -/
def WeekShape (ts : List Text) : Prop :=
  ts = [txt!"this", txt!"week"] ∨ (∃ l u, ts = [l, u] ∧ l ∈ lastNext ∧ u ∈ weekNouns) ∨ ∃ l x u, ts = [l, x, u] ∧ l ∈ lastNext ∧ x ∈ weekWords.map (·.1)

theorem weekToks_unique {ts : List Text} {n n' : Text} (hs : WeekShape ts) (h : WeekToks ts n) (h' : WeekToks ts n') : n = n' := by
  obtain ⟨b1, b2, b3, b4, b5, b6, b7⟩ := week_sizes
  have long : ∀ {x u t : Text}, u ∈ weekNouns → 3 ≤ x.length → t ∈ weekNouns → x ++ u ≠ t := by
    intro x u t hu hx ht e
    have q1 := b1 _ hu
    have q2 := b1 _ ht
    have := congrArg List.length e
    simp only [List.length_append] at this
    omega
  have det : ∀ {n}, WeekToks ts n → (n = [] ∧ ts.length = 2) ∨ ∃ l u, ts = [l, n, u] := by
    intro n h
    rcases hs with rfl | ⟨l, u, rfl, hl, hu⟩ | ⟨l, x, u, rfl, hl, hx⟩
    · left
      generalize he : [txt!"this", txt!"week"] = ts at h
      cases h with
      | this => exact ⟨rfl, rfl⟩
      | thisGlued => cases he
      | bare hl hu => exact ⟨rfl, rfl⟩
      | many => cases he
      | glued hl hu hx => simp only [List.cons.injEq] at he; exact absurd (he.1 ▸ hl) b6
    · left
      generalize he : [l, u] = ts at h
      cases h with
      | this => exact ⟨rfl, rfl⟩
      | thisGlued => cases he
      | bare hl hu => exact ⟨rfl, rfl⟩
      | many => cases he
      | glued hl hu' hx => simp only [List.cons.injEq] at he; exact absurd he.2.1.symm (long hu' hx hu)
    · right
      generalize he : [l, x, u] = ts at h
      cases h with
      | this => cases he
      | thisGlued => cases he
      | bare => cases he
      | many => exact ⟨_, _, rfl⟩
      | glued => cases he
  rcases det h with ⟨rfl, e⟩ | ⟨l, u, rfl⟩ <;> rcases det h' with ⟨rfl, e'⟩ | ⟨l', u', e'⟩
  · rfl
  · rw [e'] at e; cases e
  · cases e'
  · simp only [List.cons.injEq] at e'; exact e'.2.1

/-- The words of a match that begins where the phrase begins are the words of the phrase. -/
theorem week_words_same {ts vs : List Text} {n u v S R : Text} (hwt : WeekToks ts n) (hshape : WeekShape vs) (ht : Toks ts u) (hv : Toks vs v) (hpre : ts <+: vs ∨ vs <+: ts)
    (he : v ++ S = u ++ R) (hS : ¬ BeginsWithWord txt!"week" S) : ts = vs := by
  obtain ⟨b1, b2, b3, b4, b5, b6, b7⟩ := week_sizes
  have hd : ∀ {a b : Text} {as bs : List Text}, (a :: as <+: b :: bs ∨ b :: bs <+: a :: as) → a = b ∧ (as <+: bs ∨ bs <+: as) := by
    intro a b as bs h
    simp only [List.cons_prefix_cons] at h
    rcases h with ⟨rfl, h⟩ | ⟨rfl, h⟩
    · exact ⟨rfl, .inl h⟩
    · exact ⟨rfl, .inr h⟩
  have long : ∀ {x u t : Text}, u ∈ weekNouns → 3 ≤ x.length → t.length ≤ 6 → x ++ u ≠ t := by
    intro x u t hu hx ht e
    have q1 := b1 _ hu
    have := congrArg List.length e
    simp only [List.length_append] at this
    omega
  rcases hshape with rfl | ⟨l, y, rfl, hl, hy⟩ | ⟨l, x, y, rfl, hl, hx⟩
  · cases hwt with
    | this => rfl
    | thisGlued => exact absurd (hd hpre).1 (by decide)
    | bare h => exact absurd ((hd hpre).1 ▸ h) b6
    | many h => exact absurd ((hd hpre).1 ▸ h) b6
    | glued h => exact absurd ((hd hpre).1 ▸ h) b6
  · cases hwt with
    | this => exact absurd ((hd hpre).1.symm ▸ hl) b6
    | thisGlued => have := b2 l (by simp [hl]); rw [← (hd hpre).1] at this; cases this
    | bare h h' =>
      obtain ⟨rfl, hp⟩ := hd hpre
      obtain ⟨rfl, -⟩ := hd hp
      rfl
    | @many _ _ u' h h' =>
      exfalso
      obtain ⟨rfl, hp⟩ := hd hpre
      obtain ⟨rfl, -⟩ := hd hp
      cases ht with
      | @more _ g1 _ y1 i1 hg1 hg1' ht =>
        cases ht with
        | @more _ g2 _ y2 i2 hg2 hg2' ht =>
          cases ht with
          | more _ _ _ ht => cases ht
          | one i3 =>
            cases hv with
            | @more _ k1 _ y1 j1 hk1 hk1' hv =>
              cases hv with
              | more _ _ _ hv => cases hv
              | one j2 =>
                simp only [List.append_assoc] at he
                have he := List.append_cancel_left he
                obtain ⟨-, he⟩ := gap_split hk1 hg1 (Toks.one i2).notBlank (Toks.one i2).notBlank he
                have he := List.append_cancel_left he
                obtain ⟨b, rfl⟩ := b7 _ h'
                exact hS ⟨g2, b ++ R, hg2, by rw [he]; simp⟩
    | glued h h' hx =>
      obtain ⟨rfl, hp⟩ := hd hpre
      exact absurd (hd hp).1 (long h' hx (by have := (b1 _ hy).2; omega))
  · cases hwt with
    | this => exact absurd ((hd hpre).1.symm ▸ hl) b6
    | thisGlued => have := b2 l (by simp [hl]); rw [← (hd hpre).1] at this; cases this
    | bare h h' =>
      obtain ⟨rfl, hp⟩ := hd hpre
      exact absurd ((hd hp).1 ▸ h') (b5 _ hx)
    | many h h' =>
      obtain ⟨e1, hp⟩ := hd hpre
      obtain ⟨e2, hp⟩ := hd hp
      obtain ⟨e3, -⟩ := hd hp
      rw [e1, e2, e3]
    | glued h h' h3 =>
      obtain ⟨rfl, hp⟩ := hd hpre
      exact absurd (hd hp).1 (long h' h3 (b3 _ hx))

/-- The week pattern finds the phrase, and nothing else. -/
theorem week_place {text P S v : Text} (hv : v ∈ weekPhrases) (hT : toLower text = P ++ v ++ S) (hps : StandsApart P S) (hd : NoDigits text)
    (hP : NoWeek P) (hS : NoWeek S) (hP' : ¬ EndsWithOneOf lastNext P) (hS' : ¬ BeginsWithWord txt!"week" S)
    {ts : List Text} {n : Text} (ht : Toks ts v) (hwt : WeekToks ts n) (hshape : WeekShape ts) :
    ∃ mt, Ast.week.search (toLower text) = some mt ∧ mt.str 2 = v ∧ mt.str 3 = [] ∧ mt.str 4 = n ∧ Ast.week.search ((toLower text).drop mt.stop) = none := by
  obtain ⟨R, i, j, k, he, hfr, hfm⟩ := week_frame
  obtain ⟨s', hrel⟩ := framed_matches (i := i) (j := j) (k := k) hfr (hfm v hv) ht hps
  rw [← hT, ← he] at hrel
  obtain ⟨mt, hm, hle⟩ := search_before (by rw [hT]; simp only [List.length_append]; omega) hrel
  obtain ⟨ts', ht', hwt', h2, h3, ho, hend⟩ := week_reads (toLower_toLower text) (lower_noDigits hd) hm
  obtain ⟨hpl, -⟩ := search_place hm
  have hst : ((toLower text).take mt.start).length ≤ P.length := by rw [List.length_take]; omega
  have hs : P ++ v ++ S = (toLower text).take mt.start ++ mt.str 0 ++ (toLower text).drop mt.stop := hT.symm.trans hpl
  obtain ⟨b1, b2, b3, b4, b5, b6, b7⟩ := week_sizes
  obtain ⟨z, vs, rfl, hz⟩ : ∃ z vs, ts = z :: vs ∧ z ∈ txt!"this" :: lastNext := by
    have hsh := hshape
    rcases hsh with rfl | ⟨l, u, rfl, hl, hu⟩ | ⟨l, x, u, rfl, hl, hx⟩
    · exact ⟨_, _, rfl, by simp⟩
    · exact ⟨_, _, rfl, by simp [hl]⟩
    · exact ⟨_, _, rfl, by simp [hl]⟩
  rcases ht'.locate ht hps hend hs hst with ⟨hA, hpre, heq⟩ | ⟨hin, as, w, bs, a, g, e1, e2, e3⟩ | ⟨y, hy, hye⟩
  · have htok : ts' = z :: vs := week_words_same hwt' hshape ht' ht hpre (by rw [hA] at hs; simpa [List.append_assoc] using hs) hS'
    obtain ⟨e1, e2⟩ := heq htok
    refine ⟨mt, hm, h2.trans e1, h3, weekToks_unique hshape (htok ▸ hwt') hwt, ?_⟩
    rw [e2]
    have hSl : toLower S = S := lower_of_infix (t := text) (by rw [hT]; exact (List.suffix_append _ _).isInfix)
    rw [← hSl] at hS ⊢
    exact no_week_search hS
  · exfalso
    generalize mt.str 4 = n4 at hwt'
    cases hwt' with
    | this => simp only [List.tail_cons, List.mem_singleton] at hin; exact b4 _ (by simp [weekNouns]) (hin ▸ hz)
    | thisGlued => simp at hin
    | bare hl hu => simp only [List.tail_cons, List.mem_singleton] at hin; exact b4 _ hu (hin ▸ hz)
    | @many l x u hl hu hx =>
      simp only [List.tail_cons, List.mem_cons, List.not_mem_nil, or_false] at hin
      have hzu : z ≠ u := fun h => b4 _ hu (h ▸ hz)
      cases as with
      | nil =>
        simp only [List.nil_append, List.cons.injEq] at e1
        exact hP' ⟨a, w, e1.1 ▸ hl, g, e2, e3⟩
      | cons q as =>
        cases as with
        | nil => simp only [List.cons_append, List.nil_append, List.cons.injEq] at e1; exact hzu e1.2.2.1.symm
        | cons q2 as => 
          have := congrArg List.length e1
          simp only [List.length_append, List.length_cons, List.length_nil] at this
          omega
    | @glued l x u hl hu hx =>
      simp only [List.tail_cons, List.mem_singleton] at hin
      have q1 := b2 _ hz
      have q2 := b1 _ hu
      have := congrArg List.length hin
      simp only [List.length_append] at this
      omega
  · exfalso
    have hwh := ht'.whole ho hye
    rw [← hy] at hwh
    exact noWeek_toks hwt' hwh hP

/-- What is read from the modifier and the number. -/
def weekRead (ref : PTime) (t n : Text) : Out PResult := do
  let (n, _) ← weekCount integerWords [] n
  let tmp ← weekShift ref t n
  implyDate (PResult.mk' ref 0 []) tmp

theorem week_extract {rt : Rt} {tx : Text} {mt : Match} {ref : PTime} {idx : Nat} {v n : Text} (h2 : mt.str 2 = v) (h3 : mt.str 3 = []) (h4 : mt.str 4 = n) :
    ∃ g, weekExtract rt integerWords tx mt ref idx = (weekRead ref v n >>= fun x => .ok (placed (PResult.toU32 idx) (mt.str 0) x, g)) := by
  have e : weekNumber integerWords mt = weekCount integerWords [] n := by
    unfold weekNumber weekCount
    rw [h3, h4]
  unfold weekExtract weekRead
  simp only [e, h2]
  have hc : ∃ m g, weekCount integerWords [] n = .ok (m, g) := by
    unfold weekCount
    simp only [List.isEmpty_nil, Bool.not_true, Bool.false_eq_true, if_false]
    split <;> exact ⟨_, _, rfl⟩
  obtain ⟨m, g, hc⟩ := hc
  refine ⟨g, ?_⟩
  rw [hc]
  simp only [Out.bind_ok]
  cases weekShift ref v m with
  | ok d =>
    simp only [Out.bind_ok]
    have := implyDate_placed (PResult.toU32 idx) (mt.str 0) (PResult.mk' ref 0 []) d
    have e2 : placed (PResult.toU32 idx) (mt.str 0) (PResult.mk' ref 0 []) = PResult.mk' ref idx (mt.str 0) := rfl
    rw [e2] at this
    rw [this]
    cases implyDate (PResult.mk' ref 0 []) d <;> rfl
  | _ => rfl

theorem week_others : (∀ w ∈ partsOfDay, w ∉ [txt!"week"]) ∧ (∀ w ∈ nearDays, w ∉ [txt!"week"]) ∧ (∀ w ∈ holidayWords, w ∉ [txt!"week"]) ∧ txt!"in" ∉ [txt!"week"] := by decide

theorem week_run {rt : Rt} (hrt : rt.Benign) {sort : List PResult → List PResult} (hs : Sorts sort) {text P S v : Text} (hv : v ∈ weekPhrases)
    (hT : toLower text = P ++ v ++ S) (hps : StandsApart P S)
    (h : NoDateWordsBut [txt!"week"] text) (hP : NoWeek P) (hS : NoWeek S) (hP' : ¬ EndsWithOneOf lastNext P) (hS' : ¬ BeginsWithWord txt!"week" S)
    {ts : List Text} {n : Text} (ht : Toks ts v) (hwt : WeekToks ts n) (hshape : WeekShape ts) (ref : PTime) : mainRun rt sort text ref = (weekRead ref v n >>= answer) := by
  obtain ⟨mt, hm, h2, h3, h4, hno⟩ := week_place hv hT hps h.digits hP hS hP' hS' ht hwt hshape
  have hf := h.toFewDateWords
  obtain ⟨i1, i2, i3, i4⟩ := week_others
  have ho : othersSilent 11 (toLower text) = true := by
    have a := no_numbers h
    have b := no_slashes hf
    unfold othersSilent
    simp [List.range_succ, mainPatterns, no_casualTime hf i1, no_casualDate hf i2, no_holiday hf i3, no_deadline_search (hf.deadlines i4),
      a Ast.middleEndian (by simp), no_months h (by decide), a Ast.timeExpr (by simp), a Ast.iso (by simp), b Ast.timeLater (by simp), b Ast.timeAgo (by simp)]
  obtain ⟨g, hx⟩ := week_extract (rt := rt) (tx := toLower text) (ref := ref) (idx := mt.start) h2 h3 h4
  have hx' : weekParser.extract rt integerWords (toLower text) mt ref mt.start = _ := hx
  rw [only_run_any hrt hs 11 rfl week_pattern week_min ho hm hno, hx']
  · cases weekRead ref v n with
    | ok c => exact answer_placed _ _ _
    | _ => rfl
  · intro res g' hr
    rw [hx'] at hr
    obtain ⟨c, hc, hr⟩ := Out.bind_eq_ok.1 hr
    cases hr
    unfold weekRead at hc
    obtain ⟨⟨m, g2⟩, -, hc⟩ := Out.bind_eq_ok.1 hc
    obtain ⟨d, -, hc⟩ := Out.bind_eq_ok.1 hc
    have hp := plain_implyDate hc (plain_mk _ _ _)
    exact hp

theorem noWeek_nil : NoWeek [] := by
  refine .inr ⟨?_, ?_⟩ <;> rintro ⟨a, b, e, -⟩ <;> simp at e

theorem weekPhrase_lower : ∀ v ∈ weekPhrases, toLower v = v := by decide +kernel

/-- **C84 (weeks).** If the only words for a time in a text are `this week`, `next week`, `last week` or such a phrase with a number (`next two weeks`), upper or
lower case, then the program does with the text what it does with the phrase alone: the words around it are ignored. `last` or `next` must not stand directly
before the phrase, nor a word beginning with `week` directly after it. -/
theorem c84_week_in_a_sentence (rt : Rt) (hrt : rt.Benign) (sort : List PResult → List PResult) (hs : Sorts sort) (p v s : Text) (hv : toLower v ∈ weekPhrases)
    (hps : StandsApart p s) (h : NoDateWordsBut [txt!"week"] (p ++ v ++ s)) (hp : NoWeek (toLower p)) (hns : NoWeek (toLower s))
    (hp' : ¬ EndsWithOneOf lastNext (toLower p)) (hs' : ¬ BeginsWithWord txt!"week" (toLower s)) (ref : PTime) :
    mainRun rt sort (p ++ v ++ s) ref = mainRun rt sort (toLower v) ref := by
  have hT : toLower (p ++ v ++ s) = toLower p ++ toLower v ++ toLower s := by simp [toLower]
  have ha := noDateWords_lower (noDateWords_mid hps h)
  obtain ⟨ts, n, ht, hwt, hsh⟩ := weekPhrase_toks hv
  rw [week_run hrt hs hv hT (standsApart_lower hps) h hp hns hp' hs' ht hwt hsh,
    week_run hrt hs (P := []) (S := []) hv (by rw [toLower_toLower]; simp) ⟨by simp, by simp⟩ ha noWeek_nil noWeek_nil ?_ ?_ ht hwt hsh]
  · rintro ⟨a, w, hw, g, -, e⟩
    have : ∀ w ∈ lastNext, w ≠ [] := by decide
    exact this w hw (by simp at e; exact e.2.1)
  · rintro ⟨g, b, -, e⟩
    simp at e

end Chrono.Props
