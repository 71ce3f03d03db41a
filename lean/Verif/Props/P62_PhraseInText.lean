import Verif.Lemmas.Tokens
import Verif.Props.P60_CasualInText
import Verif.Props.P61_IsoInText
import Verif.Props.P22_Deadline
/-!
# C84: deadlines, weeks and holidays in the middle of a sentence
-/
namespace Chrono.Props
open Chrono Chrono.Spec Chrono.Boost

/-! ## Deadlines -/

theorem deadline_parts : ∃ A G1 N G2 U, Ast.deadline =
      .seq (.cap 1 (.wb false)) (.seq (.cap 2 A) (.seq G1 (.seq (.cap 3 N) (.seq G2 (.seq (.cap 4 U) (.cap 5 (.wb false))))))) ∧
    (A.free && G1.free && N.free && G2.free && U.free) = true ∧ (G1.allB isSpaceB && G2.allB isSpaceB) = true ∧ 1 ≤ G1.minLen ∧ 1 ≤ G2.minLen ∧
    (A.groups = [] ∧ G1.groups = [] ∧ N.groups = [] ∧ G2.groups = [] ∧ U.groups = []) ∧
    A.words = some [txt!"within", txt!"in"] ∧ (∃ us, U.words = some us ∧ ∀ u ∈ us, u ∈ unitWords) ∧
    (∃ a d f h, N = .alt (.alt (.alt a d) f) h ∧ d.allB isDigitB = true ∧ 1 ≤ d.minLen ∧
      (Re.alt (.alt a f) h).toks = some ([txt!"one", txt!"two", txt!"three", txt!"four", txt!"five", txt!"six", txt!"seven", txt!"eight", txt!"nine", txt!"ten",
        txt!"eleven", txt!"twelve"].map (fun w => [w]) ++ [[txt!"an", txt!"few"], [txt!"an"], [txt!"a", txt!"few"], [txt!"a"], [txt!"half", txt!"an"], [txt!"half", txt!"a"], [txt!"half"]])) ∧
    (∀ w ∈ deadlineWords, (A.fullMatch w).isSome = true) ∧ (∀ g ∈ [G1, G2], (g.fullMatch txt!" ").isSome = true) ∧ (∀ n ∈ numberWords.map (·.1) ++ halfWords, (N.fullMatch n).isSome = true) ∧
    (∀ u ∈ deadlineUnits, (U.fullMatch u).isSome = true) :=
  ⟨_, _, _, _, _, rfl, by decide +kernel, by decide +kernel, by decide +kernel, by decide +kernel, ⟨rfl, rfl, rfl, rfl, rfl⟩, by decide +kernel,
    ⟨_, rfl, by decide +kernel⟩, ⟨_, _, _, _, rfl, by decide +kernel, by decide +kernel, by decide +kernel⟩, by decide +kernel, by decide +kernel, by decide +kernel, by decide +kernel⟩

/-- The words of the numbers that can be written. -/
def numToks : List (List Text) :=
  [txt!"one", txt!"two", txt!"three", txt!"four", txt!"five", txt!"six", txt!"seven", txt!"eight", txt!"nine", txt!"ten",
    txt!"eleven", txt!"twelve"].map (fun w => [w]) ++ [[txt!"an", txt!"few"], [txt!"an"], [txt!"a", txt!"few"], [txt!"a"], [txt!"half", txt!"an"], [txt!"half", txt!"a"], [txt!"half"]]

/-- Where a match begins and ends. -/
theorem search_place {r : Re} {T : Text} {mt : Match} (h : r.search T = some mt) :
    T = T.take mt.start ++ mt.str 0 ++ T.drop mt.stop ∧ ∃ s', Rel r (startSt T mt.start) s' ∧ s'.prev = (T.take mt.stop).getLast? ∧ s'.rest = T.drop mt.stop := by
  have ok := Re.search_ok h
  obtain ⟨hsub, hle, ⟨s', -, hpos, -, hr⟩, -⟩ := Re.search_some h
  refine ⟨?_, s', hr, ?_⟩
  · have e : mt.str 0 = slice T mt.start mt.stop := by unfold Match.str; rw [if_pos rfl, hsub]
    rw [e, List.append_assoc]
    unfold slice
    have h1 := ok.le
    have h3 : (T.drop mt.start).take (mt.stop - mt.start) ++ T.drop mt.stop = T.drop mt.start := by
      have := List.take_append_drop (mt.stop - mt.start) (T.drop mt.start)
      rw [List.drop_drop, Nat.add_sub_cancel' h1] at this
      exact this
    rw [h3, List.take_append_drop]
  · obtain ⟨w, hc⟩ := hr.consumed
    have hon := ((startSt_on T _ hle).of_consumed hc).1
    exact ⟨by rw [hon.prev, hpos], by rw [hon.rest, hpos]⟩

/-- What begins with a word character at a word boundary. -/
theorem open_of_boundary {T A u R : Text} (hT : T = A ++ u ++ R) (hb : (startSt T A.length).atWordBoundary = true) {c : Nat} (hc : u.head? = some c) (hw : WordChar c) : Open A := by
  cases u with
  | nil => cases hc
  | cons d u =>
    cases hc
    have := boundary_before (u := u ++ R) hb (by rw [hT, List.append_assoc, List.drop_left]; rfl) (wordChar_iff.1 hw)
    rw [hT, List.append_assoc, List.take_left] at this
    exact this

theorem ends_of_boundary {s : St} (hb : s.atWordBoundary = true) {c : Nat} (hp : s.prev = some c) (hw : WordChar c) : Ends s.rest := by
  intro x hx
  unfold St.atWordBoundary at hb
  rw [hp] at hb
  cases hr : s.rest with
  | nil => rw [hr] at hx; cases hx
  | cons y t =>
    rw [hr] at hx hb
    cases hx
    rw [wordChar_iff] at hw ⊢
    simp only [hw] at hb
    simpa using hb

theorem words_isWord : ∀ w ∈ deadlineWords ++ unitWords, IsWord w := by
  have h : ∀ w ∈ deadlineWords ++ unitWords, w ≠ [] ∧ w.all isWordB = true := by decide
  intro w hw
  exact ⟨(h w hw).1, by simpa using (h w hw).2⟩

/-- What the deadline pattern finds, in lower case and without digits. -/
theorem deadline_reads {T : Text} (hT : toLower T = T) (hd : ∀ c ∈ T, isDigitB c = false) {mt : Match} (h : Ast.deadline.search T = some mt) :
    ∃ w g1 n g2 u ns, mt.str 0 = w ++ g1 ++ n ++ g2 ++ u ∧ w ∈ deadlineWords ∧ (Blanks g1 ∧ g1 ≠ []) ∧ (Blanks g2 ∧ g2 ≠ []) ∧ u ∈ unitWords ∧ ns ∈ numToks ∧ Toks ns n ∧
      mt.str 3 = n ∧ mt.str 4 = u ∧ Open (T.take mt.start) ∧ Ends (T.drop mt.stop) := by
  obtain ⟨A, G1, N, G2, U, he, -, hg, hg1, hg2, ⟨z1, z2, z3, z4, z5⟩, hA, ⟨us, hU, hus⟩, ⟨a, d, f, k, rfl, hdd, hd1, hN⟩, -⟩ := deadline_parts
  rw [Bool.and_eq_true] at hg
  obtain ⟨hpl, s', hrel, hprev, hrest⟩ := search_place h
  obtain ⟨cs, hcl, hgr⟩ := Re.search_cl h
  have hlow : toLower (mt.str 0) = mt.str 0 := lower_of_infix (t := T) (by rw [hT]; exact str_infix h 0)
  have hdig : ∀ c ∈ mt.str 0, isDigitB c = false := fun c hc => hd c ((str_infix h 0).subset hc)
  have hlen := (Re.search_ok h).le
  have hst : (T.take mt.start).length = mt.start := by
    have := (Re.search_some h).2.1
    rw [List.length_take]; omega
  rw [he] at hcl hrel
  simp only [rel_seq, rel_cap, rel_wb] at hrel
  obtain ⟨s1, ⟨s0, ⟨hb0, rfl⟩, rfl⟩, -, -, -, -, -, -, -, -, s6, -, s7, ⟨hb7, e7⟩, e8⟩ := hrel
  have hb0' : (startSt T (T.take mt.start).length).atWordBoundary = true := by rw [hst]; simpa using hb0
  have hb7' : s'.atWordBoundary = true := by
    rw [e8, e7]
    have : s6.atWordBoundary = true := by simpa using hb7
    exact this
  generalize hW : mt.str 0 = W at hcl hpl hlow hdig
  obtain ⟨w1, v1, c1, e1, rfl, rfl, h1, x1⟩ := cl_seq hcl
  obtain ⟨w2, v2, c2, e2, rfl, rfl, h2, x2⟩ := cl_seq x1
  obtain ⟨w3, v3, c3, e3, rfl, rfl, h3, x3⟩ := cl_seq x2
  obtain ⟨w4, v4, c4, e4, rfl, rfl, h4, x4⟩ := cl_seq x3
  obtain ⟨w5, v5, c5, e5, rfl, rfl, h5, x5⟩ := cl_seq x4
  obtain ⟨w6, w7, c6, c7, rfl, rfl, h6, h7⟩ := cl_seq x5
  obtain ⟨rfl, k1⟩ := cl_word h1 rfl
  obtain ⟨rfl, k2⟩ := cl_word h2 z1
  obtain rfl := cl_none h3 z2
  obtain ⟨rfl, k4⟩ := cl_word h4 z3
  obtain rfl := cl_none h5 z4
  obtain ⟨rfl, k6⟩ := cl_word h6 z5
  obtain ⟨rfl, k7⟩ := cl_word h7 rfl
  obtain rfl := lang_wb k1
  obtain rfl := lang_wb k7
  simp only [List.append_nil, List.nil_append] at hlow hdig hW hpl
  have hl : ∀ x ∈ [w2, w4, w6], toLower x = x := by
    simp only [toLower, List.map_append] at hlow
    obtain ⟨q1, hlow⟩ := List.append_inj hlow (by simp)
    obtain ⟨-, hlow⟩ := List.append_inj hlow (by simp)
    obtain ⟨q2, hlow⟩ := List.append_inj hlow (by simp)
    obtain ⟨-, q3⟩ := List.append_inj hlow (by simp)
    simp [toLower, q1, q2, q3]
  have m2 : w2 ∈ deadlineWords := by
    have := k2.words _ hA
    rw [hl _ (by simp)] at this
    simpa [deadlineWords, or_comm] using this
  have m6 : w6 ∈ unitWords := by
    have := k6.words _ hU
    rw [hl _ (by simp)] at this
    exact hus _ this
  have i2 := words_isWord _ (List.mem_append_left _ m2)
  have i6 := words_isWord _ (List.mem_append_right _ m6)
  have m4 : ∃ ns ∈ numToks, Toks ns w4 := by
    have kk : Lang (.alt (.alt a f) k) w4 := by
      have up : ∀ {r r' : Re} {w}, Lang r w → Lang (.alt r r') w := fun ⟨s, s', hr, hc⟩ => ⟨s, s', .altL hr, hc⟩
      have up' : ∀ {r r' : Re} {w}, Lang r' w → Lang (.alt r r') w := fun ⟨s, s', hr, hc⟩ => ⟨s, s', .altR hr, hc⟩
      rcases lang_alt k4 with k | k
      · rcases lang_alt k with k | k
        · rcases lang_alt k with k | k
          · exact up (up k)
          · exfalso
            have q1 := k.minLen
            cases w4 with
            | nil => simp at q1; omega
            | cons c w4 =>
              have := hdig c (by simp)
              rw [k.allB _ hdd c (by simp)] at this
              cases this
        · exact up (up' k)
      · exact up' k
    exact kk.toks (hl _ (by simp)) hN
  obtain ⟨ns, hns, hnt⟩ := m4
  have blk : ∀ {r : Re} {x : Text}, Lang r x → r.allB isSpaceB = true → 1 ≤ r.minLen → Blanks x ∧ x ≠ [] := by
    intro r x hx ha hm
    refine ⟨blanks_of hx ha, ?_⟩
    rintro rfl
    have := hx.minLen
    simp at this
    omega
  refine ⟨w2, w3, w4, w5, w6, ns, by simp, m2, blk h3.lang hg.1 hg1, blk h5.lang hg.2 hg2, m6, hns, hnt, ?_, ?_, ?_, ?_⟩
  · rw [hgr _ (by decide)]; rfl
  · rw [hgr _ (by decide)]; rfl
  · obtain ⟨c, hc, hcw⟩ := i2.head (x := w3 ++ (w4 ++ (w5 ++ w6)))
    exact open_of_boundary hpl hb0' hc hcw
  · rw [← hrest]
    have hlast := List.getLast?_eq_some_getLast i6.1
    refine ends_of_boundary hb7' (c := w6.getLast i6.1) ?_ (wordChar_iff.2 (i6.2 _ (List.getLast_mem _)))
    rw [hprev]
    have : T.take mt.stop = T.take mt.start ++ (w2 ++ (w3 ++ (w4 ++ (w5 ++ w6)))) := by
      have e2 := List.take_append_drop mt.stop T
      exact List.append_cancel_right (e2.trans hpl)
    rw [this]
    simp only [List.getLast?_append, hlast, Option.some_or]

/-- The numbers that are written as words. -/
def writtenNumbers : List Text := numberWords.map (·.1) ++ halfWords

theorem wordsOf_num : ∀ n ∈ writtenNumbers, ∃ ns ∈ numToks, Toks ns n := by
  intro n hn
  obtain ⟨-, -, N, -, -, -, -, -, -, -, -, -, -, ⟨a, d, f, k, rfl, hdd, -, hN⟩, -, -, hm, -⟩ := deadline_parts
  have hl : ∀ n ∈ writtenNumbers, toLower n = n ∧ n.all (fun c => !isDigitB c) = true ∧ n ≠ [] := by decide
  obtain ⟨l1, l2, l3⟩ := hl n hn
  have k4 := lang_of_fullMatch (hm n hn)
  have kk : Lang (.alt (.alt a f) k) n := by
    have up : ∀ {r r' : Re} {w}, Lang r w → Lang (.alt r r') w := fun ⟨s, s', hr, hc⟩ => ⟨s, s', .altL hr, hc⟩
    have up' : ∀ {r r' : Re} {w}, Lang r' w → Lang (.alt r r') w := fun ⟨s, s', hr, hc⟩ => ⟨s, s', .altR hr, hc⟩
    rcases lang_alt k4 with k | k
    · rcases lang_alt k with k | k
      · rcases lang_alt k with k | k
        · exact up (up k)
        · exfalso
          cases n with
          | nil => exact l3 rfl
          | cons c n =>
            have := List.all_eq_true.1 l2 c (by simp)
            rw [k.allB _ hdd c (by simp)] at this
            cases this
      · exact up (up' k)
    · exact up' k
  exact kk.toks l1 hN

theorem units_same : ∀ u ∈ deadlineUnits, u ∈ unitWords := by decide

theorem blank_gap : Blanks txt!" " ∧ txt!" " ≠ [] := by
  refine ⟨?_, by decide⟩
  intro c hc
  simp only [List.mem_singleton] at hc
  subst hc
  exact .inl rfl

theorem deadlineText_toks {w n u : Text} (hw : w ∈ deadlineWords) (hu : u ∈ deadlineUnits) {ns : List Text} (hn : Toks ns n) : Toks (w :: (ns ++ [u])) (deadlineText w n u) := by
  have h1 := hn.append blank_gap.1 blank_gap.2 (.one (words_isWord _ (List.mem_append_right _ (units_same u hu))))
  have := Toks.more (words_isWord w (List.mem_append_left _ hw)) blank_gap.1 blank_gap.2 h1
  unfold deadlineText
  simpa using this

/-- The phrase is matched where it stands. -/
theorem deadline_matches {P S w n u : Text} (hps : StandsApart P S) (hw : w ∈ deadlineWords) (hn : n ∈ writtenNumbers) (hu : u ∈ deadlineUnits) :
    ∃ s', Rel Ast.deadline (startSt (P ++ deadlineText w n u ++ S) P.length) s' := by
  obtain ⟨A, G1, N, G2, U, he, hfr, -, -, -, -, -, -, -, mA, mG, mN, mU⟩ := deadline_parts
  simp only [Bool.and_eq_true] at hfr
  obtain ⟨⟨⟨⟨f1, f2⟩, f3⟩, f4⟩, f5⟩ := hfr
  have iw := words_isWord w (List.mem_append_left _ hw)
  have iu := words_isWord u (List.mem_append_right _ (units_same u hu))
  have hrest : (startSt (P ++ deadlineText w n u ++ S) P.length).rest = w ++ (txt!" " ++ (n ++ (txt!" " ++ (u ++ S)))) := by
    show (P ++ deadlineText w n u ++ S).drop P.length = _
    rw [List.append_assoc, List.drop_left]
    simp [deadlineText]
  have hb : (startSt (P ++ deadlineText w n u ++ S) P.length).atWordBoundary = true := by
    obtain ⟨c, w', rfl⟩ := List.exists_cons_of_ne_nil iw.1
    refine boundary_start hrest (iw.2 c (by simp)) ?_
    show ∀ x, ((P ++ deadlineText (c :: w') n u ++ S).take P.length).getLast? = some x → _
    rw [List.append_assoc, List.take_left]; exact hps.1
  generalize startSt (P ++ deadlineText w n u ++ S) P.length = z at hrest hb
  have cap : ∀ {r : Re} {k : Nat} {z z' : St}, Rel r z z' → ∃ z'', Rel (.cap k r) z z'' ∧ z''.rest = z'.rest ∧ z''.prev = z'.prev :=
    fun h => ⟨_, .cap h, rfl, rfl⟩
  obtain ⟨z0, r0, e0, p0⟩ := cap (k := 1) (Rel.wb (neg := false) (s := z) (by rw [hb]; rfl))
  obtain ⟨z1, r1, c1, e1⟩ := (lang_of_fullMatch (mA w hw)).rel f1 (z := z0) (by rw [e0, hrest])
  obtain ⟨z1', r1', e1', p1⟩ := cap (k := 2) r1
  obtain ⟨z2, r2, c2, e2⟩ := (lang_of_fullMatch (mG G1 (by simp))).rel f2 (z := z1') (by rw [e1', e1])
  obtain ⟨z3, r3, c3, e3⟩ := (lang_of_fullMatch (mN n hn)).rel f3 (z := z2) e2
  obtain ⟨z3', r3', e3', p3⟩ := cap (k := 3) r3
  obtain ⟨z4, r4, c4, e4⟩ := (lang_of_fullMatch (mG G2 (by simp))).rel f4 (z := z3') (by rw [e3', e3])
  obtain ⟨z5, r5, c5, e5⟩ := (lang_of_fullMatch (mU u hu)).rel f5 (z := z4) e4
  obtain ⟨z5', r5', e5', p5⟩ := cap (k := 4) r5
  have hend : z5'.atWordBoundary = true := by
    refine boundary_end (c := u.getLast iu.1) ?_ (iu.2 _ (List.getLast_mem _)) ?_
    · rw [p5, c5.prev, List.getLast?_eq_some_getLast iu.1]; rfl
    · rw [e5', e5]; exact hps.2
  obtain ⟨z6, r6, -, -⟩ := cap (k := 5) (Rel.wb (neg := false) (s := z5') (by rw [hend]; rfl))
  rw [he]
  exact ⟨_, .seq r0 (.seq r1' (.seq r2 (.seq r3' (.seq r4 (.seq r5' r6)))))⟩

theorem num_tokens : ∀ w ∈ deadlineWords, ∀ ns ∈ numToks, w ∉ ns := by decide
theorem num_units : ∀ u ∈ unitWords, ∀ ns ∈ numToks, u ∉ ns := by decide
theorem word_notUnit : ∀ w ∈ deadlineWords, w ∉ unitWords := by decide

/-- A match of a parser that stands at the place of another one, or before. -/
theorem search_before {r : Re} {T : Text} {k : Nat} (hk : k ≤ T.length) {s' : St} (h : Rel r (startSt T k) s') : ∃ mt, r.search T = some mt ∧ mt.start ≤ k := by
  cases hs : r.search T with
  | none => exact absurd h (Re.search_none hs k hk s')
  | some mt =>
    refine ⟨mt, rfl, ?_⟩
    obtain ⟨-, -, -, hmin⟩ := Re.search_some hs
    by_contra hc
    have := Re.m_complete _ _ _ some h rfl
    rw [hmin k (by omega)] at this
    cases this

/-- The deadline pattern finds the phrase, and nothing else. -/
theorem deadline_place {text P S w n u : Text} (hw : w ∈ deadlineWords) (hn : n ∈ writtenNumbers) (hu : u ∈ deadlineUnits) (hT : toLower text = P ++ deadlineText w n u ++ S)
    (hps : StandsApart P S) (hd : NoDigits text) (hP : NoDeadline P) (hS : NoDeadline S) :
    ∃ mt, Ast.deadline.search (toLower text) = some mt ∧ mt.str 3 = n ∧ mt.str 4 = u ∧ Ast.deadline.search ((toLower text).drop mt.stop) = none := by
  obtain ⟨s', hrel⟩ := deadline_matches hps hw hn hu
  rw [← hT] at hrel
  obtain ⟨mt, hm, hle⟩ := search_before (by rw [hT]; simp only [List.length_append]; omega) hrel
  obtain ⟨w', g1, n', g2, u', ns', h0, hw', ⟨hg1, hg1'⟩, ⟨hg2, hg2'⟩, hu', hns', hnt', h3, h4, ho, hend⟩ := deadline_reads (toLower_toLower text) (lower_noDigits hd) hm
  obtain ⟨ns, hns, hnt⟩ := wordsOf_num n hn
  have ht := deadlineText_toks hw hu hnt
  have iw' := words_isWord w' (List.mem_append_left _ hw')
  have iu' := words_isWord u' (List.mem_append_right _ hu')
  have ht' : Toks (w' :: (ns' ++ [u'])) (mt.str 0) := by
    rw [h0]
    have := Toks.more iw' hg1 hg1' (hnt'.append hg2 hg2' (.one iu'))
    simpa using this
  obtain ⟨hpl, -⟩ := search_place hm
  have hst : ((toLower text).take mt.start).length ≤ P.length := by rw [List.length_take]; omega
  have hs : P ++ deadlineText w n u ++ S = (toLower text).take mt.start ++ mt.str 0 ++ (toLower text).drop mt.stop := hT.symm.trans hpl
  rcases ht'.locate ht hps hend hs hst with ⟨hA, hpre, heq⟩ | ⟨hin, -⟩ | ⟨y, hy, hye⟩
  · have htok : w' :: (ns' ++ [u']) = w :: (ns ++ [u]) := by
      have key : ∀ {a b : Text} {xs ys : List Text} {c d : Text}, ys ∈ numToks → c ∈ unitWords → a :: (xs ++ [c]) <+: b :: (ys ++ [d]) → a :: (xs ++ [c]) = b :: (ys ++ [d]) := by
        intro a b xs ys c d hy hc hp
        rw [List.cons_prefix_cons] at hp
        obtain ⟨rfl, hp⟩ := hp
        rcases List.prefix_concat_iff.1 hp with h | h
        · rw [h]
        · exact absurd (h.subset (by simp)) (num_units c hc ys hy)
      rcases hpre with h | h
      · exact key hns hu' h
      · exact (key hns' (units_same u hu) h).symm
    obtain ⟨e1, e2⟩ := heq htok
    simp only [List.cons.injEq] at htok
    obtain ⟨rfl, htok⟩ := htok
    obtain ⟨rfl, htok2⟩ := List.append_inj' htok rfl
    cases htok2
    have e3 : n' = n ∧ mt.str 4 = u := by
      rw [h0, deadlineText] at e1
      simp only [List.append_assoc] at e1
      have e1 := List.append_cancel_left e1
      obtain ⟨-, e1⟩ := gap_split hg1 blank_gap.1 hnt'.notBlank hnt.notBlank e1
      obtain ⟨-, e1⟩ := hnt'.agree hnt (Ends.blanks hg2 hg2') (Ends.blanks blank_gap.1 blank_gap.2) e1
      exact ⟨(e1 rfl).1, h4⟩
    refine ⟨mt, hm, h3.trans e3.1, e3.2, ?_⟩
    rw [e2]
    have hSl : toLower S = S := lower_of_infix (t := text) (by rw [hT]; exact (List.suffix_append _ _).isInfix)
    rw [← hSl] at hS ⊢
    exact no_deadline_search hS
  · exfalso
    simp only [List.tail_cons, List.mem_append, List.mem_singleton] at hin
    rcases hin with h | h
    · exact num_tokens w hw ns' hns' h
    · rw [h] at hw; exact word_notUnit _ hw hu'
  · exfalso
    have hwh := ht'.whole ho hye
    rw [← hy] at hwh
    rcases hP with ⟨q1, q2⟩ | q
    · have := hwh w' (by simp)
      simp only [deadlineWords, List.mem_cons, List.not_mem_nil, or_false] at hw'
      rcases hw' with rfl | rfl
      · exact q1 this
      · exact q2 this
    · exact q u' hu' (hwh u' (by simp))

/-- The same mention at another place. -/
def placed (i : Nat) (t : Text) (r : PResult) : PResult := { r with index := i, text := t }

theorem answer_placed (i : Nat) (t : Text) (r : PResult) : answer (placed i t r) = answer r := answer_congr rfl rfl rfl fun _ => rfl

theorem setTag_placed (i : Nat) (t : Text) (r : PResult) (T : Tag) : (placed i t r).setTag T = placed i t (r.setTag T) := by
  unfold PResult.setTag placed
  simp only
  cases r.tags T <;> rfl

theorem implyDate_placed (i : Nat) (t : Text) (r : PResult) (d : Date) : implyDate (placed i t r) d = (implyDate r d >>= fun x => .ok (placed i t x)) := by
  unfold implyDate
  cases d.year <;> try rfl
  cases d.month <;> try rfl
  cases d.day <;> rfl

theorem deadlineDate_placed (i : Nat) (t : Text) (r : PResult) (ref : PTime) (u : Text) (num : FNum) :
    deadlineDate (placed i t r) ref u num = (deadlineDate r ref u num >>= fun x => .ok (placed i t x)) := by
  have step : ∀ (o : Out Date), (o >>= fun d => implyDate (placed i t r) d) = ((o >>= fun d => implyDate r d) >>= fun x => .ok (placed i t x)) := by
    intro o
    cases o with
    | ok d => exact implyDate_placed i t r d
    | _ => rfl
  unfold deadlineDate
  simp only [implyDate_placed]
  split
  · split
    · cases num.toLong <;> try rfl
      simp only [Out.bind_ok]
      cases (ref.date.addDays _) <;> rfl
    · cases (implyDate r (ref.addHours 12).date) <;> rfl
  split
  · split
    · cases num.toLong <;> try rfl
      simp only [Out.bind_ok]
      cases (ref.date.addDays _) <;> rfl
    · cases (ref.date.addDays _) <;> rfl
  split
  · split
    · cases num.toInt <;> try rfl
      simp only [Out.bind_ok]
      cases (ref.date.addMonths _) <;> rfl
    · cases (ref.date.addDays _) <;> rfl
  split
  · split
    · cases num.toInt <;> try rfl
      simp only [Out.bind_ok]
      cases (ref.date.addMonths _) <;> rfl
    · cases (ref.date.addMonths _) <;> rfl
  · rfl

/-- What is read from the number and the unit. -/
def deadlineRead (r : PResult) (ref : PTime) (n u : Text) : Out PResult := do
  match ← deadlineNumber integerWords n with
  | none => return r
  | some num =>
    if ← searches false Pat.dwmy u then
      deadlineDate r ref u num
    else
      let tmpTime ← deadlineTime ref u num
      let result ← implyDate r ref.date
      let result := result.onStart (fun c =>
        ((c.imply .hour tmpTime.hours).imply .min tmpTime.minutes).imply .sec tmpTime.seconds)
      return result.setTag .deadline

theorem deadlineRead_placed (i : Nat) (t : Text) (r : PResult) (ref : PTime) (n u : Text) :
    deadlineRead (placed i t r) ref n u = (deadlineRead r ref n u >>= fun x => .ok (placed i t x)) := by
  unfold deadlineRead
  cases deadlineNumber integerWords n with
  | ok o =>
    simp only [Out.bind_ok]
    cases o with
    | none => rfl
    | some num =>
      simp only
      cases searches false Pat.dwmy u with
      | ok b =>
        simp only [Out.bind_ok]
        cases b with
        | true => simp only [if_true]; exact deadlineDate_placed i t r ref u num
        | false =>
          simp only [Bool.false_eq_true, if_false, implyDate_placed]
          cases deadlineTime ref u num <;> try rfl
          simp only [Out.bind_ok]
          cases implyDate r ref.date <;> try rfl
          simp only [Out.bind_ok, Out.pure_eq, ← setTag_placed]
          rfl
      | _ => rfl
  | _ => rfl

theorem deadline_extract {rt : Rt} {tx : Text} {mt : Match} {ref : PTime} {idx : Nat} :
    deadlineExtract rt integerWords tx mt ref idx =
      (deadlineRead (PResult.mk' ref 0 []) ref (mt.str 3) (mt.str 4) >>= fun x => .ok (placed (PResult.toU32 idx) (mt.str 0) x)) := by
  rw [← deadlineRead_placed]
  rfl

/-- No end, and not tagged as a clock time. -/
def Plain (r : PResult) : Prop := r.getTag .timeExpression = false ∧ r.hasEnd = false ∧ r.endDate = Comps.empty

theorem plain_implyDate {r x : PResult} {d : Date} (h : implyDate r d = .ok x) (hr : Plain r) : Plain x := by
  unfold implyDate at h
  obtain ⟨_, -, h⟩ := Out.bind_eq_ok.1 h
  obtain ⟨_, -, h⟩ := Out.bind_eq_ok.1 h
  obtain ⟨_, -, h⟩ := Out.bind_eq_ok.1 h
  cases h
  exact hr

theorem plain_setTag {r : PResult} {T : Tag} (hT : T ≠ .timeExpression) (hr : Plain r) : Plain (r.setTag T) := by
  unfold PResult.setTag
  split
  · exact hr
  · refine ⟨?_, hr.2⟩
    have := hr.1
    unfold PResult.getTag at this ⊢
    simp only [if_neg (Ne.symm hT)]
    exact this

theorem plain_deadlineDate {r x : PResult} {ref : PTime} {u : Text} {num : FNum} (h : deadlineDate r ref u num = .ok x) (hr : Plain r) : Plain x := by
  unfold deadlineDate at h
  simp only at h
  split at h
  · split at h
    · obtain ⟨_, -, h⟩ := Out.bind_eq_ok.1 h
      obtain ⟨_, -, h⟩ := Out.bind_eq_ok.1 h
      exact plain_implyDate h hr
    · obtain ⟨y, hy, h⟩ := Out.bind_eq_ok.1 h
      cases h
      have hp := plain_implyDate hy hr
      exact hp
  split at h
  · split at h
    · obtain ⟨_, -, h⟩ := Out.bind_eq_ok.1 h
      obtain ⟨_, -, h⟩ := Out.bind_eq_ok.1 h
      exact plain_implyDate h hr
    · obtain ⟨_, -, h⟩ := Out.bind_eq_ok.1 h
      exact plain_implyDate h hr
  split at h
  · split at h
    · obtain ⟨_, -, h⟩ := Out.bind_eq_ok.1 h
      obtain ⟨_, -, h⟩ := Out.bind_eq_ok.1 h
      exact plain_implyDate h hr
    · obtain ⟨_, -, h⟩ := Out.bind_eq_ok.1 h
      exact plain_implyDate h hr
  split at h
  · split at h
    · obtain ⟨_, -, h⟩ := Out.bind_eq_ok.1 h
      obtain ⟨_, -, h⟩ := Out.bind_eq_ok.1 h
      exact plain_implyDate h hr
    · obtain ⟨_, -, h⟩ := Out.bind_eq_ok.1 h
      exact plain_implyDate h hr
  · exact plain_implyDate h hr

theorem plain_mk (ref : PTime) (i : Nat) (t : Text) : Plain (PResult.mk' ref i t) := ⟨rfl, rfl, rfl⟩

theorem plain_deadlineRead {r x : PResult} {ref : PTime} {n u : Text} (h : deadlineRead r ref n u = .ok x) (hr : Plain r) : Plain x := by
  unfold deadlineRead at h
  obtain ⟨o, -, h⟩ := Out.bind_eq_ok.1 h
  cases o with
  | none => cases h; exact hr
  | some num =>
    simp only at h
    obtain ⟨b, -, h⟩ := Out.bind_eq_ok.1 h
    cases b with
    | true => exact plain_deadlineDate h hr
    | false =>
      simp only [Bool.false_eq_true, if_false] at h
      obtain ⟨_, -, h⟩ := Out.bind_eq_ok.1 h
      obtain ⟨y, hy, h⟩ := Out.bind_eq_ok.1 h
      cases h
      have hp := plain_implyDate hy hr
      exact plain_setTag (by decide) hp

/-- What the program prints for a deadline. -/
def deadlineAnswer (n u : Text) (ref : PTime) : Out Text := deadlineRead (PResult.mk' ref 0 []) ref n u >>= answer

theorem in_others : (∀ w ∈ partsOfDay, w ∉ [txt!"in"]) ∧ (∀ w ∈ nearDays, w ∉ [txt!"in"]) ∧ (∀ w ∈ holidayWords, w ∉ [txt!"in"]) ∧ txt!"week" ∉ [txt!"in"] := by decide

theorem deadline_run {rt : Rt} (hrt : rt.Benign) {sort : List PResult → List PResult} (hs : Sorts sort) {text P S w n u : Text} (hw : w ∈ deadlineWords)
    (hn : n ∈ writtenNumbers) (hu : u ∈ deadlineUnits) (hT : toLower text = P ++ deadlineText w n u ++ S) (hps : StandsApart P S)
    (h : NoDateWordsBut [txt!"in"] text) (hP : NoDeadline P) (hS : NoDeadline S) (ref : PTime) : mainRun rt sort text ref = deadlineAnswer n u ref := by
  obtain ⟨mt, hm, h3, h4, hno⟩ := deadline_place hw hn hu hT hps h.digits hP hS
  have hf := h.toFewDateWords
  obtain ⟨i1, i2, i3, i4⟩ := in_others
  have ho : othersSilent 1 (toLower text) = true := by
    have a := no_numbers h
    have b := no_slashes hf
    unfold othersSilent
    simp [List.range_succ, mainPatterns, no_casualTime hf i1, no_casualDate hf i2, no_holiday hf i3, no_week_search (hf.weeks i4),
      a Ast.middleEndian (by simp), no_months h (by decide), a Ast.timeExpr (by simp), a Ast.iso (by simp), b Ast.timeLater (by simp), b Ast.timeAgo (by simp)]
  rw [only_run hrt hs 1 rfl deadline_pattern deadline_min rfl ho hm hno, deadline_extract, h3, h4]
  · unfold deadlineAnswer
    cases deadlineRead (PResult.mk' ref 0 []) ref n u with
    | ok c => exact answer_placed _ _ _
    | _ => rfl
  · intro res hr
    rw [deadline_extract] at hr
    obtain ⟨c, hc, hr⟩ := Out.bind_eq_ok.1 hr
    cases hr
    have hp := plain_deadlineRead hc (plain_mk _ _ _)
    exact hp

/-! ## A part of a text without date words -/

theorem occurs_mid {a e : Bool} {k p v s : Text} (hps : StandsApart p s) (h : Occurs a k e v) : Occurs a k e (p ++ v ++ s) := by
  obtain ⟨x, y, rfl, h1, h2⟩ := h
  refine ⟨p ++ x, y ++ s, by simp, fun ha c hc => ?_, fun he c hc => ?_⟩
  · cases hx : x.getLast? with
    | some d => rw [List.getLast?_append, hx] at hc; cases hc; exact h1 ha c hx
    | none =>
      rw [List.getLast?_eq_none_iff] at hx
      subst hx
      rw [List.append_nil] at hc
      exact hps.1 c hc
  · cases y with
    | cons d y => cases hc; exact h2 he _ rfl
    | nil => exact hps.2 c hc

theorem noDateWords_mid {ex : List Text} {p v s : Text} (hps : StandsApart p s) (h : NoDateWordsBut ex (p ++ v ++ s)) : NoDateWordsBut ex v := by
  have hlow : toLower (p ++ v ++ s) = toLower p ++ toLower v ++ toLower s := by simp [toLower]
  have up : ∀ {a e : Bool} {k : Text}, Occurs a k e (toLower v) → Occurs a k e (toLower (p ++ v ++ s)) := by
    intro a e k ho
    rw [hlow]
    exact occurs_mid (standsApart_lower hps) ho
  have inf : ∀ {k : Text}, k <:+: toLower v → k <:+: toLower (p ++ v ++ s) := by
    intro k hk
    rw [hlow]
    exact hk.trans ⟨toLower p, toLower s, rfl⟩
  refine ⟨⟨fun hb => h.backslash (by simp [hb]), fun w hw hx ho => h.days w hw hx (up ho), fun w hw hx ho => h.parts w hw hx (up ho),
    fun w hw ho => h.thisPart w hw (up ho), ?_, fun w hw => ⟨fun ho => (h.clock w hw).1 (up ho), fun ho => (h.clock w hw).2.1 (inf ho), fun ho => (h.clock w hw).2.2 (inf ho)⟩,
    fun w hw hx ho => h.months w hw hx (up ho), fun w m g o d h1 h2 h3 h4 h5 ho => h.dates w m g o d h1 h2 h3 h4 h5 (inf ho), fun w hw hx ho => h.holidays w hw hx (up ho),
    fun ho => h.newYear (inf ho), fun ho => h.luther (inf ho), ?_, fun hx => ?_, fun hx => ?_⟩, fun c hc => h.digits c (by simp [hc])⟩
  · exact h.lastNight.imp (fun k ho => k (up ho)) (fun k => ⟨fun ho => k.1 (up ho), fun ho => k.2 (up ho)⟩)
  · exact h.blackFriday.imp (fun k ho => k (up ho)) (fun k ho => k (up ho))
  · exact (h.weeks hx).imp (fun k => ⟨fun ho => k.1 (up ho), fun ho => k.2.1 (up ho), fun ho => k.2.2 (up ho)⟩) (fun k => ⟨fun ho => k.1 (up ho), fun ho => k.2 (up ho)⟩)
  · exact (h.deadlines hx).imp (fun k => ⟨fun ho => k.1 (up ho), fun ho => k.2 (up ho)⟩) (fun k w hw ho => k w hw (up ho))

theorem noDeadline_nil : NoDeadline [] := .inl ⟨not_in_nil (by decide), not_in_nil (by decide)⟩

/-- `NoDateWordsBut` reads the text in lower case only. -/
theorem noDateWords_lower {ex : List Text} {v : Text} (h : NoDateWordsBut ex v) : NoDateWordsBut ex (toLower v) := by
  obtain ⟨⟨f1, f2, f3, f4, f5, f6, f7, f8, f9, f10, f11, f12, f13, f14⟩, f15⟩ := h
  refine ⟨⟨fun hb => ?_, ?_, ?_, ?_, ?_, ?_, ?_, ?_, ?_, ?_, ?_, ?_, ?_, ?_⟩, fun c hc => ?_⟩
  · exact no_backslash f1 ⟨[], [], by
      exfalso
      unfold toLower at hb
      obtain ⟨c, hc, hl⟩ := List.mem_map.1 hb
      unfold lowerB at hl
      split at hl
      · omega
      · subst hl; exact f1 hc, by simp, by simp⟩
  all_goals try (rw [toLower_toLower]; assumption)
  have := lower_noDigits f15 c hc
  unfold isDigitB at this
  intro hd
  simp only [Bool.and_eq_false_iff, decide_eq_false_iff_not] at this
  omega

theorem deadlineText_lower {w n u : Text} (hw : w ∈ deadlineWords) (hn : n ∈ writtenNumbers) (hu : u ∈ deadlineUnits) : toLower (deadlineText w n u) = deadlineText w n u := by
  have h : ∀ w ∈ deadlineWords ++ writtenNumbers ++ deadlineUnits, toLower w = w := by decide
  have e : ∀ a b : Text, toLower (a ++ b) = toLower a ++ toLower b := by simp [toLower]
  unfold deadlineText
  rw [e, e, e, e, h w (by simp [hw]), h n (by simp [hn]), h u (by simp [hu])]
  rfl

/-- **C84 (deadlines).** If the only words for a time in a text are a deadline, such as `in two weeks`, `within half an hour` or `in a few days`, upper or lower
case, then the program does with the text what it does with the deadline alone: the words around it are ignored. -/
theorem c84_deadline_in_a_sentence (rt : Rt) (hrt : rt.Benign) (sort : List PResult → List PResult) (hs : Sorts sort) (p v s w n u : Text) (hw : w ∈ deadlineWords)
    (hn : n ∈ writtenNumbers) (hu : u ∈ deadlineUnits) (hv : toLower v = deadlineText w n u) (hps : StandsApart p s)
    (h : NoDateWordsBut [txt!"in"] (p ++ v ++ s)) (hp : NoDeadline (toLower p)) (hns : NoDeadline (toLower s)) (ref : PTime) :
    mainRun rt sort (p ++ v ++ s) ref = mainRun rt sort (deadlineText w n u) ref := by
  have hT : toLower (p ++ v ++ s) = toLower p ++ deadlineText w n u ++ toLower s := by rw [← hv]; simp [toLower]
  have ha := noDateWords_lower (noDateWords_mid hps h)
  rw [hv] at ha
  rw [deadline_run hrt hs hw hn hu hT (standsApart_lower hps) h hp hns,
    deadline_run hrt hs (P := []) (S := []) hw hn hu (by rw [deadlineText_lower hw hn hu]; simp) ⟨by simp, by simp⟩ ha noDeadline_nil noDeadline_nil]

end Chrono.Props
