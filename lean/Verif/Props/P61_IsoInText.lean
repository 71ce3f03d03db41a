import Verif.Props.P44_IsoRanges
import Verif.Props.P60_CasualInText
/-!
# C83: an ISO date in the middle of a text
-/
namespace Chrono.Props
open Chrono Chrono.Spec Chrono.Boost

theorem rel_assoc {a b c : Re} {s s' : St} : Rel (.seq a (.seq b c)) s s' ↔ Rel (.seq (.seq a b) c) s s' := by
  simp only [rel_seq]
  constructor
  · rintro ⟨s1, h1, s2, h2, h3⟩; exact ⟨s2, ⟨s1, h1, h2⟩, h3⟩
  · rintro ⟨s2, ⟨s1, h1, h2⟩, h3⟩; exact ⟨s1, h1, s2, h2, h3⟩

/-! ## The ISO pattern -/

def isoMid (y m d o : Re) : Re :=
  .seq (.seq (.seq (.seq (.seq (.cap 2 y) (.one (.ch true 45))) (.cap 3 m)) (.one (.ch true 45))) (.cap 4 d)) (.alt (.seq (.one (.ch true 84)) o) .eps)

theorem iso_parts : ∃ y m d o, Ast.iso = .seq (.cap 1 (.wb false)) (.seq (.cap 2 y) (.seq (.one (.ch true 45)) (.seq (.cap 3 m) (.seq (.one (.ch true 45))
      (.seq (.cap 4 d) (.seq (.alt (.seq (.one (.ch true 84)) o) .eps) (.cap 11 (.wb false)))))))) ∧
    (isoMid y m d o).free = true ∧ (y.allB isDigitB = true ∧ y.minLen = 4 ∧ y.maxLen = some 4 ∧ y.groups = []) ∧
    (m.allB isDigitB = true ∧ m.minLen = 1 ∧ m.maxLen = some 2 ∧ m.groups = []) ∧ (d.allB isDigitB = true ∧ d.minLen = 1 ∧ d.maxLen = some 2 ∧ d.groups = []) ∧
    (Re.alt (.seq (.one (.ch true 84)) o) .eps).groups.all (5 ≤ ·) = true :=
  ⟨_, _, _, _, rfl, by decide +kernel, by decide +kernel, by decide +kernel, by decide +kernel, by decide +kernel⟩

theorem iso_rel {y m d o : Re} (h : Ast.iso = .seq (.cap 1 (.wb false)) (.seq (.cap 2 y) (.seq (.one (.ch true 45)) (.seq (.cap 3 m) (.seq (.one (.ch true 45))
      (.seq (.cap 4 d) (.seq (.alt (.seq (.one (.ch true 84)) o) .eps) (.cap 11 (.wb false))))))))) {s s' : St} :
    Rel Ast.iso s s' ↔ Rel (.seq (.cap 1 (.wb false)) (.seq (isoMid y m d o) (.cap 11 (.wb false)))) s s' := by
  rw [h, rel_seq, rel_seq]
  unfold isoMid
  have e : ∀ s1, Rel (.seq (.cap 2 y) (.seq (.one (.ch true 45)) (.seq (.cap 3 m) (.seq (.one (.ch true 45))
      (.seq (.cap 4 d) (.seq (.alt (.seq (.one (.ch true 84)) o) .eps) (.cap 11 (.wb false)))))))) s1 s' ↔
      Rel (.seq (.seq (.seq (.seq (.seq (.seq (.cap 2 y) (.one (.ch true 45))) (.cap 3 m)) (.one (.ch true 45))) (.cap 4 d)) (.alt (.seq (.one (.ch true 84)) o) .eps))
        (.cap 11 (.wb false))) s1 s' := by
    intro s1
    rw [rel_assoc, rel_assoc, rel_assoc, rel_assoc, rel_assoc]
  simp only [e]

theorem boundary_start {s : St} {c : Nat} {u : Text} (hr : s.rest = c :: u) (hc : isWordB c = true) (hp : ∀ x, s.prev = some x → ¬ WordChar x) :
    s.atWordBoundary = true := by
  unfold St.atWordBoundary
  rw [hr]
  cases h : s.prev with
  | none => simp [hc]
  | some x => have := hp x h; rw [wordChar_iff] at this; simp [hc, this]

theorem boundary_end {s : St} {c : Nat} (hp : s.prev = some c) (hc : isWordB c = true) (hr : ∀ x, s.rest.head? = some x → ¬ WordChar x) :
    s.atWordBoundary = true := by
  unfold St.atWordBoundary
  rw [hp]
  cases h : s.rest with
  | nil => simp [hc]
  | cons x u => have := hr x (by rw [h]; rfl); rw [wordChar_iff] at this; simp [hc, this]

theorem dig_word (n : Nat) : isWordB (dig n) = true := by
  have h : ∀ k < 10, isWordB (48 + k) = true := by decide
  exact h _ (Nat.mod_lt _ (by decide))

theorem dig_digit (n : Nat) : isDigitB (dig n) = true := by
  have h : ∀ k < 10, isDigitB (48 + k) = true := by decide
  exact h _ (Nat.mod_lt _ (by decide))

/-- The date is matched where it stands. -/
theorem iso_matches {P S : Text} (hps : StandsApart P S) (y m d : Nat) :
    ∃ s', Rel Ast.iso (startSt (P ++ isoDate y m d ++ S) P.length) s' := by
  obtain ⟨mt, ⟨hf, h0, -⟩, hstop, -, -⟩ := foundSpans (r := Ast.iso) (phrase := isoDate y m d) txt!"1111-11-11" 10
    [(2, some (0, 4)), (3, some (5, 7)), (4, some (8, 10)), (5, none)] iso_blind (by decide +kernel) dr_isoDate
  obtain ⟨ry, rm, rd, ro, he, hfree, -⟩ := iso_parts
  obtain ⟨-, -, ⟨s', -, hpos, -, hr⟩, -⟩ := Re.search_some hf
  rw [h0] at hr
  have hcons : Consumed (startSt (isoDate y m d) 0) s' (isoDate y m d) := by
    obtain ⟨w, hc⟩ := hr.consumed
    have hw : w.length = 10 := by have := hc.pos; rw [hpos, hstop] at this; simp [startSt] at this; omega
    have hl := isoDate_length y m d
    have hr := hc.rest
    simp only [startSt, List.drop_zero] at hr
    have := List.append_inj (show isoDate y m d ++ [] = w ++ s'.rest by rw [List.append_nil]; exact hr) (by omega)
    exact (by have h := hc; rw [← this.1] at h; exact h)
  rw [iso_rel he] at hr
  simp only [rel_seq, rel_cap, rel_wb] at hr
  obtain ⟨s1, ⟨s0, ⟨-, rfl⟩, rfl⟩, s2, hmid, s3, ⟨-, rfl⟩, rfl⟩ := hr
  obtain ⟨w, hc, hmove⟩ := hmid.move hfree
  have hw : w = isoDate y m d := by
    have h1 := hc.rest
    have h2 := hcons.rest
    simp only [startSt, List.drop_zero] at h1 h2
    exact List.append_cancel_right (h1.symm.trans h2)
  subst hw
  obtain ⟨z', zr, zc, zrest⟩ := hmove ⟨P.length, ((P ++ isoDate y m d ++ S).take P.length).getLast?, (P ++ isoDate y m d ++ S).drop P.length,
    [(1, P.length, P.length)]⟩ S (by rw [List.append_assoc, List.drop_left])
  refine ⟨_, (iso_rel he).2 (.seq (.cap (.wb ?_)) (.seq zr (.cap (.wb ?_))))⟩
  · have b := boundary_start (s := startSt (P ++ isoDate y m d ++ S) P.length) (c := dig (y / 1000)) (u := dig (y / 100) :: dig (y / 10) :: dig y :: txt!"-" ++ two m ++ txt!"-" ++ two d ++ S) (by
      show (P ++ isoDate y m d ++ S).drop P.length = _
      rw [List.append_assoc, List.drop_left]; simp [isoDate, four]) (dig_word _) (by
      show ∀ x, ((P ++ isoDate y m d ++ S).take P.length).getLast? = some x → _
      rw [List.append_assoc, List.take_left]; exact hps.1)
    rw [b]; rfl
  · rw [boundary_end (c := dig d) ?_ (dig_word _) ?_]; rfl
    · rw [zc.prev]; rfl
    · rw [zrest]; exact hps.2

theorem iso_cl {T : Text} {mt : Match} (h : Ast.iso.search T = some mt) : ∃ w2 w3 w4 w5, mt.str 0 = w2 ++ 45 :: w3 ++ 45 :: w4 ++ w5 ∧
    (∀ c ∈ w2, isDigitB c = true) ∧ (∀ c ∈ w3, isDigitB c = true) ∧ (∀ c ∈ w4, isDigitB c = true) ∧ w2.length = 4 ∧ 1 ≤ w3.length ∧ w3.length ≤ 2 ∧
    1 ≤ w4.length ∧ w4.length ≤ 2 ∧ (w5 = [] ∧ mt.str 5 = [] ∨ ∃ c u, w5 = c :: u ∧ (c = 84 ∨ c = 116)) ∧ mt.str 2 = w2 ∧ mt.str 3 = w3 ∧ mt.str 4 = w4 ∧
    (startSt T mt.stop).atWordBoundary = true := by
  have hT : (startSt T mt.stop).atWordBoundary = true := by
    obtain ⟨hsub, hle, ⟨s', -, hpos, -, hr⟩, -⟩ := Re.search_some h
    obtain ⟨w, hc⟩ := hr.consumed
    have hon := ((startSt_on T _ hle).of_consumed hc).1
    rw [boundary_congr (s := startSt T mt.stop) (z := s') (by rw [hon.prev, hpos]; rfl) (by rw [hon.rest, hpos]; rfl)]
    obtain ⟨ry, rm, rd, ro, he, -⟩ := iso_parts
    rw [iso_rel he] at hr
    simp only [rel_seq, rel_cap, rel_wb] at hr
    obtain ⟨s1, -, s2, -, s3, ⟨hb, e⟩, e'⟩ := hr
    rw [e', e]
    have : s2.atWordBoundary = true := by simpa using hb
    exact this
  obtain ⟨cs, hcl, hgr⟩ := Re.search_cl h
  obtain ⟨ry, rm, rd, ro, he, -, ⟨y1, y2, y3, y4⟩, ⟨m1, m2, m3, m4⟩, ⟨d1, d2, d3, d4⟩, og⟩ := iso_parts
  rw [he] at hcl
  have dash : ∀ {w : Text} {c}, CL (.one (.ch true 45)) w c → w = [45] ∧ c = [] := by
    intro w c hc
    refine ⟨?_, cl_none hc rfl⟩
    have := hc.lang.words [[45]] rfl
    rw [List.mem_singleton] at this
    unfold toLower at this
    obtain ⟨a, rfl, ha⟩ := List.map_eq_singleton_iff.1 this
    unfold lowerB at ha
    split at ha <;> simp_all
  have tee : ∀ {w : Text}, Lang (.one (.ch true 84)) w → ∃ c, w = [c] ∧ (c = 84 ∨ c = 116) := by
    intro w hc
    have := hc.words [[116]] rfl
    rw [List.mem_singleton] at this
    unfold toLower at this
    obtain ⟨a, rfl, ha⟩ := List.map_eq_singleton_iff.1 this
    refine ⟨a, rfl, ?_⟩
    unfold lowerB at ha
    split at ha <;> omega
  generalize mt.str 0 = W at hcl
  obtain ⟨w1, v1, c1, e1, rfl, rfl, h1, x1⟩ := cl_seq hcl
  obtain ⟨w2, v2, c2, e2, rfl, rfl, h2, x2⟩ := cl_seq x1
  obtain ⟨w3, v3, c3, e3, rfl, rfl, h3, x3⟩ := cl_seq x2
  obtain ⟨w4, v4, c4, e4, rfl, rfl, h4, x4⟩ := cl_seq x3
  obtain ⟨w5, v5, c5, e5, rfl, rfl, h5, x5⟩ := cl_seq x4
  obtain ⟨w6, v6, c6, e6, rfl, rfl, h6, x6⟩ := cl_seq x5
  obtain ⟨w7, v7, c7, e7, rfl, rfl, h7, x7⟩ := cl_seq x6
  obtain ⟨rfl, k1⟩ := cl_word h1 rfl
  obtain ⟨rfl, k2⟩ := cl_word h2 y4
  obtain ⟨rfl, rfl⟩ := dash h3
  obtain ⟨rfl, k4⟩ := cl_word h4 m4
  obtain ⟨rfl, rfl⟩ := dash h5
  obtain ⟨rfl, k6⟩ := cl_word h6 d4
  obtain ⟨rfl, k7⟩ := cl_word x7 rfl
  obtain rfl := lang_wb k1
  obtain rfl := lang_wb k7
  refine ⟨w2, w4, w6, w7, by simp, k2.allB _ y1, k4.allB _ m1, k6.allB _ d1, ?_, ?_, ?_, ?_, ?_, ?_, ?_, ?_, ?_, hT⟩
  · have a := k2.minLen; have b := k2.maxLen _ y3; omega
  · have a := k4.minLen; omega
  · exact k4.maxLen _ m3
  · have a := k6.minLen; omega
  · exact k6.maxLen _ d3
  · rcases cl_alt h7 with h7 | h7
    · right
      obtain ⟨a, b, _, _, rfl, -, ha, -⟩ := cl_seq h7
      obtain ⟨c, rfl, hc⟩ := tee ha.lang
      exact ⟨c, b, rfl, hc⟩
    · left
      obtain ⟨rfl, rfl⟩ := cl_eps h7
      exact ⟨rfl, by rw [hgr 5 (by decide)]; rfl⟩
  all_goals
    rw [hgr _ (by decide)]
    have lack : ∀ n < 5, ∀ p ∈ c7, p.1 ≠ n := by
      intro n hn p hp e
      have := List.all_eq_true.1 og _ (h7.keys p hp)
      simp only [decide_eq_true_eq] at this
      omega
    simp only [List.append_assoc, List.cons_append, List.nil_append, groupText]
    first
      | (rw [groupText_append (lack 2 (by decide))]; rfl)
      | (rw [groupText_append (lack 3 (by decide))]; rfl)
      | (rw [groupText_append (lack 4 (by decide))]; rfl)

theorem lower_noDigits {t : Text} (h : NoDigits t) : ∀ c ∈ toLower t, isDigitB c = false := by
  intro c hc
  unfold toLower at hc
  obtain ⟨x, hx, rfl⟩ := List.mem_map.1 hc
  have := h x hx
  unfold isDigitB lowerB
  split <;> simp <;> omega

/-- The ISO pattern finds the date where it stands. -/
theorem iso_found {P S : Text} (hps : StandsApart P S) (hP : ∀ c ∈ P, isDigitB c = false) (y m d : Nat) :
    ∃ mt, Ast.iso.search (P ++ isoDate y m d ++ S) = some mt ∧ mt.start = P.length ∧ mt.stop = P.length + 10 ∧ mt.str 0 = isoDate y m d ∧
      mt.str 2 = four y ∧ mt.str 3 = two m ∧ mt.str 4 = two d ∧ mt.str 5 = [] := by
  obtain ⟨s', hrel⟩ := iso_matches hps y m d
  cases hs : Ast.iso.search (P ++ isoDate y m d ++ S) with
  | none => exact absurd hrel (Re.search_none hs P.length (by simp) s')
  | some mt =>
    refine ⟨mt, rfl, ?_⟩
    obtain ⟨hsub, hle, -, hmin⟩ := Re.search_some hs
    have ok := Re.search_ok hs
    obtain ⟨w2, w3, w4, w5, h0, d2, d3, d4, l2, l3, l3', l4, l4', h5, g2, g3, g4, hb⟩ := iso_cl hs
    have hle1 : mt.start ≤ P.length := by
      by_contra hlt
      have := Ast.iso.m_complete _ _ some hrel rfl
      rw [hmin _ (by omega)] at this
      cases this
    have hsl : (P ++ isoDate y m d ++ S).drop mt.start = mt.str 0 ++ (P ++ isoDate y m d ++ S).drop mt.stop := by
      have e : mt.str 0 = slice (P ++ isoDate y m d ++ S) mt.start mt.stop := by unfold Match.str; rw [if_pos rfl, hsub]
      rw [e]
      unfold slice
      have := List.take_append_drop (mt.stop - mt.start) ((P ++ isoDate y m d ++ S).drop mt.start)
      rw [List.drop_drop, Nat.add_sub_cancel' ok.le] at this
      exact this.symm
    obtain ⟨a, b, c, e, rfl⟩ : ∃ a b c e, w2 = [a, b, c, e] := by
      match w2, l2 with
      | [a, b, c, e], _ => exact ⟨a, b, c, e, rfl⟩
    have hst : mt.start = P.length := by
      by_contra hne
      have hlt : mt.start < P.length := by omega
      have hx : (P ++ isoDate y m d ++ S).drop mt.start = P[mt.start] :: (P.drop (mt.start + 1) ++ isoDate y m d ++ S) := by
        rw [List.append_assoc, List.drop_append_of_le_length hle1, List.drop_eq_getElem_cons hlt, List.append_assoc]; rfl
      rw [hx, h0] at hsl
      simp only [List.cons_append, List.cons.injEq] at hsl
      have := hP P[mt.start] (List.getElem_mem _)
      rw [hsl.1, d2 a (by simp)] at this
      cases this
    rw [hst, List.append_assoc, List.drop_left, h0] at hsl
    have hlen : mt.stop = mt.start + (mt.str 0).length := by
      have := ok.len; have h1 := ok.le; unfold Match.length at this; omega
    generalize hR : (P ++ (isoDate y m d ++ S)).drop mt.stop = R at hsl
    have nd : isDigitB 45 = false := rfl
    rw [h0] at hlen ⊢
    have fin : w3 = two m → w4 = two d → w5 = [] → [a, b, c, e] = four y → mt.start = P.length ∧ mt.stop = P.length + 10 ∧
        [a, b, c, e] ++ 45 :: w3 ++ 45 :: w4 ++ w5 = isoDate y m d ∧ mt.str 2 = four y ∧ mt.str 3 = two m ∧ mt.str 4 = two d ∧ mt.str 5 = [] := by
      rintro rfl rfl rfl e2
      refine ⟨hst, ?_, ?_, g2.trans e2, g3, g4, ?_⟩
      · rw [hlen, hst]; simp [two]
      · rw [e2]; simp [isoDate]
      · rcases h5 with h5 | ⟨x, u, h5, -⟩
        · exact h5.2
        · cases h5
    have dd := dig_digit
    match w3, l3, l3', d3 with
    | [p], _, _, d3 =>
      exfalso
      simp only [isoDate, four, two, List.cons_append, List.nil_append, List.cons.injEq] at hsl
      have := dd m
      rw [hsl.2.2.2.2.2.2.1, nd] at this
      cases this
    | [p, q], _, _, d3 =>
      match w4, l4, l4', d4 with
      | [u, v], _, _, d4 =>
        simp only [isoDate, four, two, List.cons_append, List.nil_append, List.cons.injEq] at hsl
        obtain ⟨e1, e2, e3, e4, -, e5, e6, -, e7, e8, e9⟩ := hsl
        refine fin ?_ ?_ ?_ ?_
        · simp [two, e5, e6]
        · simp [two, e7, e8]
        · rcases h5 with h5 | ⟨x, t, h5, hx⟩
          · exact h5.1
          · exfalso
            refine hps.2 x (by rw [e9, h5]; rfl) ?_
            unfold WordChar; omega
        · simp [four, e1, e2, e3, e4]
      | [u], _, _, d4 =>
        exfalso
        simp only [isoDate, four, two, List.cons_append, List.nil_append, List.cons.injEq] at hsl
        obtain ⟨e1, e2, e3, e4, -, e5, e6, -, e7, e8⟩ := hsl
        rcases h5 with ⟨rfl, -⟩ | ⟨x, t, rfl, hx⟩
        · have hst' : mt.stop = P.length + 9 := by rw [hlen, hst]; simp
          have hT : P ++ isoDate y m d ++ S = (P ++ (four y ++ txt!"-" ++ two m ++ txt!"-" ++ [dig (d / 10)])) ++ dig d :: S := by
            simp [isoDate, two]
          have hl9 : (P ++ (four y ++ txt!"-" ++ two m ++ txt!"-" ++ [dig (d / 10)])).length = mt.stop := by rw [hst']; simp [four, two]
          unfold St.atWordBoundary startSt at hb
          simp only at hb
          rw [hT, ← hl9, List.drop_left, List.take_left] at hb
          rw [List.getLast?_append, List.getLast?_append] at hb
          simp [dig_word] at hb
        · simp only [List.cons_append, List.cons.injEq] at e8
          have := dd d
          rw [e8.1] at this
          rcases hx with rfl | rfl <;> simp [isDigitB] at this

/-- The ISO parser finds this date, and nothing else. -/
theorem iso_returns {rt : Rt} (hrt : Rt.Defined rt) (ref : PTime) {p s : Text} (hps : StandsApart p s) (hp : NoDigits p) (hs : NoDigits s)
    (hlen : p.length < 4294967296) {y m d : Nat} (hc : CivilInRange y m d) :
    ParserReturns rt ref (p ++ isoDate y m d ++ s) isoParser [(isoMention ref p.length y m d).copy] := by
  have hlow : toLower (p ++ isoDate y m d ++ s) = toLower p ++ isoDate y m d ++ toLower s := by rw [toLower_append, toLower_append, toLower_isoDate]
  obtain ⟨mt, h1, h2, h3, h0, g2, g3, g4, g5⟩ := iso_found (standsApart_lower hps) (lower_noDigits hp) y m d
  have hpl : (toLower p).length = p.length := by simp [toLower]
  rw [hpl] at h2 h3
  obtain ⟨u1, u2, u3, u4, u5, u6⟩ := hc
  have ul := monthLength_bounds y m u3 u4
  have x1 := iso_date_extract (rt := rt) (g := integerWords) (tx := toLower (p ++ isoDate y m d ++ s)) (mt := mt) (ref := ref) (idx := mt.start)
    u3 u4 u5 (by omega)
    (by rw [g2]; exact stoi_four (by omega)) (by rw [g3]; exact stoi_two (by omega)) (by rw [g4]; exact stoi_two (by omega)) g5
  rw [h2, h0] at x1
  refine ⟨integerWords, execute_one (mt := mt) hrt.stale iso_pattern iso_min (by rw [hlow]; exact h1) (by rw [h2]; exact pureExtract_ok x1)
    (isoMention_ok hlen (by omega)).1 ?_⟩
  rw [hlow, h3, show p.length + 10 = (toLower p ++ isoDate y m d).length by rw [List.length_append, isoDate_length, hpl], List.drop_left]
  exact Re.search_needs iso_needs (by decide +kernel) (text := s) (by simp) (fun _ => hs)

/-! ## The clock-time pattern -/

def nonDig : List Nat := (List.range 256).filter fun c => !isDigitB c
def digs : List Nat := (List.range 10).map (· + 48)
def isoSlots : List Slot := [⟨nonDig, true⟩] ++ [⟨digs, false⟩, ⟨digs, false⟩, ⟨digs, false⟩, ⟨digs, false⟩, ⟨[45], false⟩, ⟨digs, false⟩, ⟨digs, false⟩,
  ⟨[45], false⟩, ⟨digs, false⟩, ⟨digs, false⟩] ++ [⟨nonDig, true⟩]

theorem dig_slot (n : Nat) : dig n ∈ digs := by
  have h : ∀ k < 10, 48 + k ∈ digs := by decide
  exact h _ (Nat.mod_lt _ (by decide))

theorem iso_inst {P S : Text} (hP : ∀ c ∈ P, isDigitB c = false) (hS : ∀ c ∈ S, isDigitB c = false) (hb : ∀ c ∈ P ++ S, c < 256) (y m d : Nat) :
    Inst isoSlots (P ++ isoDate y m d ++ S) := by
  refine .append (.append (.run fun c hc => ?_) ?_) (.run fun c hc => ?_)
  · unfold nonDig; simp [hP c hc, hb c (by simp [hc])]
  · have := dig_slot
    unfold isoDate four two
    simp only [List.cons_append, List.nil_append]
    repeat (first | exact .nil | refine .one (dig_slot _) ?_ | refine .one (by simp) ?_)
  · unfold nonDig; simp [hS c hc, hb c (by simp [hc])]

theorem timeExpr_parts : ∃ l b sp d n mn t, Ast.timeExpr = .seq (.cap 1 l) (.seq (.alt .eps (.seq b (.star true sp))) (.seq (.cap 2 (.alt (.alt d n) mn)) t)) ∧
    l = .alt (.alt .bol sp) (.one (.ch true 84)) ∧ l.maxLen = some 1 ∧ b.words = some [txt!"at", txt!"from"] ∧ (sp.allB isSpaceB = true ∧ 1 ≤ sp.minLen) ∧
    ((Re.seq (.cap 1 l) (.seq (.cap 2 d) t)).reach isoSlots (List.range (isoSlots.length + 1))).all (fun j => j == 5 || j == 8) = true ∧
    (Re.seq (.cap 1 l) (.seq (.alt .eps (.seq b (.star true sp))) (.seq (.cap 2 d) t))).nowhere (isoSlots.drop 5) = true ∧
    (Re.seq (.cap 1 l) (.seq (.alt .eps (.seq b (.star true sp))) (.seq (.cap 2 d) t))).nowhere (isoSlots.drop 8) = true ∧
    (d.allB isDigitB = true ∧ 1 ≤ d.minLen) ∧
    (Re.seq (.cap 1 l) (.seq (.alt .eps (.seq b (.star true sp))) (.alt n mn))).has (hits clockKeys false) (hits clockKeys false) [] = true :=
  ⟨_, _, _, _, _, _, _, rfl, rfl, by decide +kernel, by decide +kernel, by decide +kernel, by decide +kernel, by decide +kernel, by decide +kernel, by decide +kernel,
    by decide +kernel⟩

theorem rel_cap2 {d n mn : Re} {s s' : St} (h : Rel (.cap 2 (.alt (.alt d n) mn)) s s') : Rel (.cap 2 d) s s' ∨ ∃ s'', Rel (.alt n mn) s s'' := by
  rw [rel_cap] at h
  obtain ⟨s1, h, rfl⟩ := h
  rcases rel_alt.1 h with h | h
  · rcases rel_alt.1 h with h | h
    · exact .inl (.cap h)
    · exact .inr ⟨_, .altL h⟩
  · exact .inr ⟨_, .altR h⟩

/-- Digits, or a word for a time of day. -/
theorem timeExpr_cases {l b d n mn t : Re} {s s' : St} (h : Rel (.seq (.cap 1 l) (.seq (.alt .eps b) (.seq (.cap 2 (.alt (.alt d n) mn)) t))) s s') :
    Rel (.seq (.cap 1 l) (.seq (.cap 2 d) t)) s s' ∨ Rel (.seq (.cap 1 l) (.seq b (.seq (.cap 2 d) t))) s s' ∨
      ∃ s'', Rel (.seq (.cap 1 l) (.seq (.alt .eps b) (.alt n mn))) s s'' := by
  rw [rel_seq] at h
  obtain ⟨s1, h1, h⟩ := h
  rw [rel_seq] at h
  obtain ⟨s2, h2, h⟩ := h
  rw [rel_seq] at h
  obtain ⟨s3, h3, h4⟩ := h
  rcases rel_cap2 h3 with h3 | ⟨s'', h3⟩
  · rcases rel_alt.1 h2 with h2 | h2
    · rw [rel_eps] at h2
      subst h2
      exact .inl (.seq h1 (.seq h3 h4))
    · exact .inr (.inl (.seq h1 (.seq h2 (.seq h3 h4))))
  · exact .inr (.inr ⟨s'', .seq h1 (.seq h2 h3)⟩)

def Slot.plain (s : Slot) : Bool := s.chars.all (fun c => !isDigitB c) || (!s.loop && s.chars.all isDigitB)

theorem inst_count {sl : List Slot} {t : Text} (h : Inst sl t) (hp : sl.all Slot.plain = true) :
    t.countP isDigitB = (sl.filter fun s => !s.loop && s.chars.all isDigitB).length := by
  induction h with
  | nil => rfl
  | @one cs sl c t hc _ ih =>
    simp only [List.all_cons, Bool.and_eq_true] at hp
    rw [List.countP_cons, ih hp.2]
    unfold Slot.plain at hp
    simp only [Bool.or_eq_true, List.all_eq_true, Bool.not_eq_true', Bool.and_eq_true] at hp
    rcases hp.1 with h | h
    · rw [List.filter_cons_of_neg (by
        simp only [Bool.not_false, Bool.true_and, List.all_eq_true]; intro hh; have := hh c hc; rw [h c hc] at this; cases this), h c hc]; rfl
    · rw [List.filter_cons_of_pos (by simp only [Bool.not_false, Bool.true_and, List.all_eq_true]; exact h.2), h.2 c hc]; rfl
  | @skip cs sl t _ ih =>
    simp only [List.all_cons, Bool.and_eq_true] at hp
    rw [ih hp.2, List.filter_cons_of_neg (by simp)]
  | @more cs sl c t hc _ ih =>
    rw [List.countP_cons, ih hp]
    simp only [List.all_cons, Bool.and_eq_true] at hp
    have : isDigitB c = false := by
      have h1 := hp.1
      unfold Slot.plain at h1
      simp only [Bool.not_true, Bool.false_and, Bool.or_false, List.all_eq_true, Bool.not_eq_true'] at h1
      exact h1 c hc
    rw [this]; rfl

/-- A digit stands inside the date. -/
theorem digit_place {P S : Text} (hP : ∀ c ∈ P, isDigitB c = false) (hS : ∀ c ∈ S, isDigitB c = false) {y m d q c : Nat} {u : Text}
    (h : (P ++ isoDate y m d ++ S).drop q = c :: u) (hc : isDigitB c = true) : P.length ≤ q ∧ q < P.length + 10 := by
  have hl := isoDate_length y m d
  have hm : (P ++ isoDate y m d ++ S)[q]? = some c := by
    have : ((P ++ isoDate y m d ++ S).drop q)[0]? = some c := by rw [h]; rfl
    simpa [List.getElem?_drop] using this
  constructor
  · by_contra hlt
    rw [List.append_assoc, List.getElem?_append_left (by omega)] at hm
    have := hP c (List.mem_of_getElem? hm)
    rw [hc] at this; cases this
  · by_contra hlt
    rw [List.getElem?_append_right (by rw [List.length_append]; omega)] at hm
    have := hS c (List.mem_of_getElem? hm)
    rw [hc] at this; cases this

theorem digits_left {P S : Text} (hS : ∀ c ∈ S, isDigitB c = false) (y m d : Nat) (k : Nat) :
    ((P ++ isoDate y m d ++ S).drop (P.length + k)).countP isDigitB = ((isoDate y m d).drop k).countP isDigitB := by
  rw [List.append_assoc, ← List.drop_drop, List.drop_left, List.drop_append, List.countP_append]
  have : (S.drop (k - (isoDate y m d).length)).countP isDigitB = 0 := by
    rw [List.countP_eq_zero]
    intro c hc
    rw [hS c (List.mem_of_mem_drop hc)]; simp
  omega

theorem digits_bound {P S : Text} (hS : ∀ c ∈ S, isDigitB c = false) {y m d q : Nat}
    (h : ((P ++ isoDate y m d ++ S).drop q).countP isDigitB = 2 ∨ ((P ++ isoDate y m d ++ S).drop q).countP isDigitB = 4) :
    P.length + 4 ≤ q ∧ q ≤ P.length + 8 := by
  have mono : ∀ a b, a ≤ b → ((P ++ isoDate y m d ++ S).drop b).countP isDigitB ≤ ((P ++ isoDate y m d ++ S).drop a).countP isDigitB := by
    intro a b hab
    obtain ⟨k, rfl⟩ := Nat.exists_eq_add_of_le hab
    rw [← List.drop_drop]
    exact (List.drop_sublist _ _).countP_le
  have e3 := digits_left (P := P) hS y m d 3
  have e9 := digits_left (P := P) hS y m d 9
  have k3 : ((isoDate y m d).drop 3).countP isDigitB = 5 := by
    simp [isoDate, four, two, dig_digit, show isDigitB 45 = false from rfl]
  have k9 : ((isoDate y m d).drop 9).countP isDigitB = 1 := by
    simp [isoDate, four, two, dig_digit]
  constructor
  · by_contra hlt
    have := mono q (P.length + 3) (by omega)
    omega
  · by_contra hlt
    have := mono (P.length + 9) q (by omega)
    omega

theorem isSpace_blank {c : Nat} (h : isSpaceB c = true) : Blank c := by
  unfold isSpaceB at h
  unfold Blank
  simp at h
  omega

theorem lead_prev {sp : Re} (hsp : sp.allB isSpaceB = true) (hsp' : 1 ≤ sp.minLen) {s s1 : St} (h : Rel (.cap 1 (.alt (.alt .bol sp) (.one (.ch true 84)))) s s1) :
    ∀ c, s1.prev = some c → Blank c ∨ lowerB c = 116 := by
  intro c hc
  rw [rel_cap] at h
  obtain ⟨s2, h, rfl⟩ := h
  simp only at hc
  rcases rel_alt.1 h with h | h
  · rcases rel_alt.1 h with h | h
    · cases h with
      | bol hp => rw [hp] at hc; cases hc
    · left
      obtain ⟨w, hw⟩ := h.consumed
      have hl : Lang sp w := ⟨_, _, h, hw⟩
      have h1 := hl.minLen
      have hne : w ≠ [] := by rintro rfl; simp at h1; omega
      rw [hw.prev, List.getLast?_eq_some_getLast hne] at hc
      simp only [Option.some_or, Option.some.injEq] at hc
      exact isSpace_blank (hl.allB _ hsp c (by rw [← hc]; exact List.getLast_mem _))
  · right
    obtain ⟨x, u, hr, hd, rfl⟩ := rel_one.1 h
    simp only [St.adv, Option.some.injEq] at hc
    subst hc
    unfold Single.test at hd
    simp only [Bool.and_eq_true] at hd
    exact (by simpa using hd.2 : lowerB x = lowerB 84).trans rfl

theorem iso_chars {y m d c : Nat} (h : c ∈ isoDate y m d) : isDigitB c = true ∨ c = 45 := by
  have hd := dig_digit
  simp only [isoDate, four, two, List.cons_append, List.nil_append, List.mem_cons, List.not_mem_nil, or_false] at h
  rcases h with rfl | rfl | rfl | rfl | rfl | rfl | rfl | rfl | rfl | rfl
  all_goals first
    | exact .inl (hd _)
    | exact .inr rfl

theorem occurs_drop {a e : Bool} {k s : Text} (x : Text) (hk : k.head?.any isWordB = true) (hs : ∀ c, s.head? = some c → ¬ WordChar c)
    (h : Occurs a k e s) : Occurs a k e (x ++ s) := by
  cases a with
  | true => exact occurs_right x hk hs h
  | false =>
    obtain ⟨u, v, rfl, -, h2⟩ := h
    exact ⟨x ++ u, v, by simp, by simp, h2⟩

/-- What the clock-time pattern finds near the date. -/
theorem clock_near {P S : Text} (hP : ∀ c ∈ P, isDigitB c = false) (hS : ∀ c ∈ S, isDigitB c = false) (hb : ∀ c ∈ P ++ S, c < 256) {y m d : Nat}
    {text : Text} (hT : toLower text = P ++ isoDate y m d ++ S) (hat : ¬ EndsWithAt P) (hPl : toLower P = P)
    (hclk : ∀ k ∈ clockKeys, ¬ Occurs k.atStart k.word k.atEnd (toLower text)) {mt : Match} (h : Ast.timeExpr.search (toLower text) = some mt) :
    P.length ≤ mt.start + 1 ∧ P.length + 4 ≤ mt.stop ∧ mt.stop ≤ P.length + 8 ∧ mt.lengthOf 1 ≤ 1 ∧ Ast.timeExpr.search ((toLower text).drop mt.stop) = none := by
  obtain ⟨l, b, sp, dg, n, mn, t, he, hl, hl1, hbw, ⟨hsp, hsp'⟩, hr1, hr2, hr3, ⟨hd1, hd2⟩, hk⟩ := timeExpr_parts
  obtain ⟨hsub, hle, ⟨s', -, hpos, -, hrel⟩, -⟩ := Re.search_some h
  have ok := Re.search_ok h
  have hinst := iso_inst hP hS hb y m d
  rw [he] at hrel
  have on0 := startSt_on (toLower text) _ hle
  have digit : ∀ {s1 s2 : St}, OnSubj (toLower text) s1 → Rel (.cap 2 dg) s1 s2 → P.length ≤ s1.pos ∧ s1.pos < P.length + 10 := by
    intro s1 s2 on h
    obtain ⟨w, hw⟩ := h.consumed
    have hlw : Lang (.cap 2 dg) w := ⟨_, _, h, hw⟩
    obtain ⟨w1, w2⟩ := isDigits_of (lang_cap hlw) hd1 hd2
    cases w with
    | nil => exact absurd rfl w1
    | cons c w =>
      have hr := hw.rest
      rw [on.rest, hT, List.cons_append] at hr
      have := w2 c (by simp)
      exact digit_place hP hS hr (by unfold isDigitB; simpa using this)
  have noon : ∀ text' : Text, (∀ k ∈ clockKeys, ¬ Occurs k.atStart k.word k.atEnd (toLower text')) → ∀ q ≤ (toLower text').length, ∀ s'',
      ¬ Rel (.seq (.cap 1 l) (.seq (.alt .eps (.seq b (.star true sp))) (.alt n mn))) (startSt (toLower text') q) s'' := by
    intro text' hk' q hq s''
    exact Re.search_none (Re.search_needs hk (by decide +kernel) (text := text') hk' (by simp)) q hq s''
  have main : P.length ≤ mt.start + 1 ∧ (Inst (isoSlots.drop 5) ((toLower text).drop mt.stop) ∨ Inst (isoSlots.drop 8) ((toLower text).drop mt.stop)) := by
    rcases timeExpr_cases hrel with hA | hB | ⟨s'', hC⟩
    · constructor
      · rw [rel_seq] at hA
        obtain ⟨s1, h1, h2⟩ := hA
        rw [rel_seq] at h2
        obtain ⟨s2, h2, -⟩ := h2
        obtain ⟨w, hw⟩ := h1.consumed
        have on1 := (on0.of_consumed hw).1
        have := digit on1 h2
        have hlen := (lang_cap (show Lang (.cap 1 l) w from ⟨_, _, h1, hw⟩)).maxLen _ hl1
        have := hw.pos
        simp only [startSt] at this
        omega
      · obtain ⟨j, hj⟩ := At.start (hT ▸ hinst) mt.start hle
        obtain ⟨j', hj', ha'⟩ := hA.reach _ _ j hj.mem_range hj
        have := List.all_eq_true.1 hr1 j' hj'
        obtain ⟨w, hw⟩ := hrel.consumed
        have on1 := (on0.of_consumed hw).1
        have hi := ha'.rest
        rw [on1.rest, hpos] at hi
        simp only [Bool.or_eq_true, beq_iff_eq] at this
        rcases this with rfl | rfl
        · exact .inl hi
        · exact .inr hi
    · exfalso
      rw [rel_seq] at hB
      obtain ⟨s1, h1, h2⟩ := hB
      rw [rel_seq] at h2
      obtain ⟨s2, h2, h3⟩ := h2
      rw [rel_seq] at h3
      obtain ⟨s3, h3, -⟩ := h3
      obtain ⟨w, hw⟩ := h1.consumed
      have on1 := (on0.of_consumed hw).1
      obtain ⟨u, hu⟩ := h2.consumed
      obtain ⟨on2, hsl⟩ := on1.of_consumed hu
      have hq := digit on2 h3
      obtain ⟨x, v, rfl, hx, hv⟩ := lang_seq (show Lang (.seq b (.star true sp)) u from ⟨_, _, h2, hu⟩)
      have htake : (toLower text).take s2.pos = (toLower text).take s1.pos ++ (x ++ v) := by
        rw [hu.pos, List.take_add, ← on1.rest, hu.rest, List.take_left]
      have hxin : x <:+: toLower text := List.IsInfix.trans ⟨(toLower text).take s1.pos, v, by rw [htake, List.append_assoc]⟩ (List.take_prefix _ _).isInfix
      have hxw := hx.words _ hbw
      rw [lower_of_infix hxin] at hxw
      have hvb : Blanks v := blanks_of hv (by unfold Re.allB; exact hsp)
      have hxne : x ≠ [] := by rintro rfl; simp at hxw
      have hun : ∀ c ∈ x ++ v, ¬ (isDigitB c = true ∨ c = 45) := by
        intro c hc
        rcases List.mem_append.1 hc with hc | hc
        · have key : ∀ x ∈ [txt!"at", txt!"from"], ∀ c ∈ x, ¬ (isDigitB c = true ∨ c = 45) := by decide
          exact key x hxw c hc
        · have := hvb c hc
          unfold Blank at this
          unfold isDigitB
          simp
          omega
      have hpe : s2.pos = P.length := by
        by_contra hne
        obtain ⟨k, hk⟩ : ∃ k, s2.pos = P.length + k := ⟨s2.pos - P.length, by omega⟩
        rw [hT, hk, List.append_assoc, List.take_add, List.take_left, List.drop_left,
          List.take_append_of_le_length (by rw [isoDate_length]; omega)] at htake
        have hne' : x ++ v ≠ [] := by simp [hxne]
        have e1 : (P ++ (isoDate y m d).take k).getLast? = ((isoDate y m d).take k).getLast? := by
          rw [List.getLast?_append]
          cases hg : ((isoDate y m d).take k).getLast? with
          | some _ => rfl
          | none =>
            rw [List.getLast?_eq_none_iff, List.take_eq_nil_iff] at hg
            rcases hg with hg | hg
            · omega
            · have := isoDate_length y m d; rw [hg] at this; cases this
        rw [htake, List.getLast?_append, List.getLast?_eq_some_getLast hne'] at e1
        have hmem := List.mem_of_mem_take (List.mem_of_getLast? e1.symm)
        exact hun _ (List.getLast_mem hne') (iso_chars hmem)
      refine hat ⟨(toLower text).take s1.pos, x, hxw, v, hvb, ?_, fun c hc => ?_⟩
      · rw [hPl, List.append_assoc, ← htake, hpe, hT, List.append_assoc, List.take_left]
      · rw [← on1.prev] at hc
        subst hl
        rcases lead_prev hsp hsp' h1 c hc with h | h
        · exact .inl h
        · right
          rw [on1.prev] at hc
          have hc' := List.mem_of_mem_take (List.mem_of_getLast? hc)
          unfold toLower at hc'
          obtain ⟨z, -, rfl⟩ := List.mem_map.1 hc'
          rw [← h]
          unfold lowerB
          by_cases hu : 65 ≤ z ∧ z ≤ 90
          · rw [if_pos hu, if_neg (by omega)]
          · rw [if_neg hu, if_neg hu]
    · exact absurd hC (noon text hclk _ hle s'')
  have bound : P.length + 4 ≤ mt.stop ∧ mt.stop ≤ P.length + 8 := by
    refine digits_bound hS (y := y) (m := m) (d := d) ?_
    rw [← hT]
    rcases main.2 with h | h
    · exact .inr (inst_count h (by decide +kernel))
    · exact .inl (inst_count h (by decide +kernel))
  refine ⟨main.1, bound.1, bound.2, ?_, ?_⟩
  · rcases ok.group 1 (by decide) with ⟨-, h⟩ | ⟨_, _, -, -, -, -, -, body, hbody, hlang⟩
    · unfold Match.lengthOf; rw [h]; simp
    · have key : ((Ast.timeExpr.bodies 1).all fun b => b.maxLen == some 1) = true := by decide +kernel
      exact hlang.maxLen _ (by simpa using List.all_eq_true.1 key body hbody)
  · have hdl : (toLower text).drop mt.stop = toLower (text.drop mt.stop) := by unfold toLower; rw [List.map_drop]
    cases hs : Ast.timeExpr.search ((toLower text).drop mt.stop) with
    | none => rfl
    | some mt' =>
      exfalso
      obtain ⟨-, hle', ⟨s1, -, -, -, hrel'⟩, -⟩ := Re.search_some hs
      rw [he] at hrel'
      have low : ∀ {s2}, Rel (.seq (.cap 1 l) (.seq (.alt .eps (.seq b (.star true sp))) (.seq (.cap 2 dg) t))) (startSt ((toLower text).drop mt.stop) mt'.start) s2 → False := by
        intro s2 hr
        rcases main.2 with hi | hi
        · exact Re.search_none (Re.nowhere_sound hr2 hi) _ hle' _ hr
        · exact Re.search_none (Re.nowhere_sound hr3 hi) _ hle' _ hr
      rcases timeExpr_cases hrel' with hA | hB | ⟨s'', hC⟩
      · rw [rel_seq] at hA
        obtain ⟨s2, h1, h2⟩ := hA
        exact low (.seq h1 (.seq (.altL (.eps _)) h2))
      · rw [rel_seq] at hB
        obtain ⟨s2, h1, h2⟩ := hB
        rw [rel_seq] at h2
        obtain ⟨s3, h2, h3⟩ := h2
        exact low (.seq h1 (.seq (.altR h2) h3))
      · rw [hdl] at hC hle'
        refine noon _ (fun k hk hocc => hclk k hk ?_) _ hle' _ hC
        rw [← hdl] at hocc
        have hkw : (clockKeys.all fun k => k.word.head?.any isWordB) = true := by decide
        have hhd : ((toLower text).drop mt.stop).head? = some 45 := by
          rcases main.2 with h | h <;> (have h' := nextChars_of h; revert h'; generalize ((toLower text).drop mt.stop).head? = o; intro h'; simpa [isoSlots, nextChars] using h')
        have := occurs_drop ((toLower text).take mt.stop) (List.all_eq_true.1 hkw k hk) (fun c hc => by
          rw [hhd] at hc; cases hc; unfold WordChar; omega) hocc
        rwa [List.take_append_drop] at this

/-! ## Months -/

def leftAlt : Re → Re
  | .alt a _ => leftAlt a
  | r => r

theorem ordinals_rel {q : Re} (h : ordinalsOr q = true) {s s' : St} (hr : Rel q s s') :
    Rel (leftAlt q) s s' ∨ ∀ u, Consumed s s' u → toLower u = u → ∃ d, 1 ≤ d ∧ d ≤ 31 ∧ words u = ordinalName d := by
  induction q generalizing s s' with
  | alt a b ia ib =>
    simp only [ordinalsOr, Bool.and_eq_true] at h
    obtain ⟨ha, hb⟩ := h
    rcases rel_alt.1 hr with hr | hr
    · exact ia ha hr
    · right
      intro u hu hlow
      cases hw : b.words with
      | none => rw [hw] at hb; simp at hb
      | some ws =>
        rw [hw] at hb
        have hmem := (show Lang b u from ⟨_, _, hr, hu⟩).words ws hw
        rw [hlow] at hmem
        have h2 := List.all_eq_true.1 hb _ hmem
        simp only [decide_eq_true_eq] at h2
        have := (c32_ordinal u _ h2.1 h2.2).1 rfl
        rw [hlow] at this
        exact ⟨_, h2.1, h2.2, this⟩
  | _ => exact .inl hr

theorem middleEndian_digits : ∃ a w m g d r ws, Ast.middleEndian = .seq (.cap 1 a) (.seq w (.seq (.cap 3 m) (.seq g (.seq (.cap 4 d) r)))) ∧
    m.words = some ws ∧ (ws.all fun w => (List.range 13).any fun n => monthWord w n) = true ∧ g.allB gapB = true ∧ ordinalsOr d = true ∧
    (Re.seq (.cap 1 a) (.seq w (.seq (.cap 3 m) (.seq g (.seq (.cap 4 (leftAlt d)) r))))).nowhere isoSlots = true :=
  ⟨_, _, _, _, _, _, _, rfl, rfl, by decide +kernel, by decide +kernel, by decide +kernel, by decide +kernel⟩

theorem middleEndian_away {text : Text} (hi : Inst isoSlots (toLower text))
    (h : ∀ w m gap o d, monthWord w m = true → Gap gap → 1 ≤ d → d ≤ 31 → words o = ordinalName d → ¬ w ++ gap ++ o <:+: toLower text) :
    Ast.middleEndian.search (toLower text) = none := by
  cases hs : Ast.middleEndian.search (toLower text) with
  | none => rfl
  | some mt =>
    exfalso
    obtain ⟨hsub, hle, ⟨s', -, -, -, hrel⟩, -⟩ := Re.search_some hs
    obtain ⟨a, w, m, g, d, r, ws, he, hm, hws, hg, hord, hno⟩ := middleEndian_digits
    rw [he] at hrel
    simp only [rel_seq] at hrel
    obtain ⟨s1, h1, s2, h2, s3, h3, s4, h4, s5, h5, h6⟩ := hrel
    obtain ⟨s6, h5', rfl⟩ := rel_cap.1 h5
    rcases ordinals_rel hord h5' with hl | hw
    · exact Re.search_none (Re.nowhere_sound hno hi) _ hle _ (.seq h1 (.seq h2 (.seq h3 (.seq h4 (.seq (.cap hl) h6)))))
    · obtain ⟨u1, c1⟩ := h1.consumed
      obtain ⟨u2, c2⟩ := h2.consumed
      obtain ⟨u3, c3⟩ := h3.consumed
      obtain ⟨u4, c4⟩ := h4.consumed
      obtain ⟨u5, c5⟩ := h5'.consumed
      have hinf : u3 ++ (u4 ++ u5) <:+: toLower text := by
        have e := ((((c1.trans c2).trans c3).trans c4).trans c5).rest
        refine List.IsInfix.trans ⟨u1 ++ u2, s6.rest, ?_⟩ (List.drop_suffix mt.start _).isInfix
        rw [show (toLower text).drop mt.start = (startSt (toLower text) mt.start).rest from rfl, e]
        simp
      have i3 : u3 <:+: toLower text := List.IsInfix.trans (List.prefix_append _ _).isInfix hinf
      have i5 : u5 <:+: toLower text := List.IsInfix.trans ⟨u3 ++ u4, [], by simp⟩ hinf
      obtain ⟨k, k1, k2, ho⟩ := hw u5 c5 (lower_of_infix i5)
      have hmem := (lang_cap (show Lang (.cap 3 m) u3 from ⟨_, _, h3, c3⟩)).words _ hm
      rw [lower_of_infix i3] at hmem
      obtain ⟨n, -, hn⟩ := List.any_eq_true.1 (List.all_eq_true.1 hws _ hmem)
      exact h u3 n u4 u5 k hn (gap_of ⟨_, _, h4, c4⟩ hg) k1 k2 ho (by rw [List.append_assoc]; exact hinf)

theorem monthName_glued : Ast.monthName.has (hitsGlued monthKeys) (hitsGlued monthKeys) [] = true := by decide +kernel

theorem not_glued {P S : Text} (hps : StandsApart P S) (hP : ∀ c ∈ P, isDigitB c = false) (hS : ∀ c ∈ S, isDigitB c = false) {y m d : Nat} {a b : Text} {x c : Nat}
    (h : P ++ isoDate y m d ++ S = a ++ x :: c :: b) (hx : isWordB x = true) (hx' : isDigitB x = false) : isDigitB c = false := by
  by_contra hc
  have hc : isDigitB c = true := by simpa using hc
  have hl := isoDate_length y m d
  have hd : (P ++ isoDate y m d ++ S).drop (a.length + 1) = c :: b := by rw [h, ← List.drop_drop, List.drop_left]; rfl
  obtain ⟨h1, h2⟩ := digit_place hP hS hd hc
  have hm : (P ++ isoDate y m d ++ S)[a.length]? = some x := by rw [h]; simp
  rcases Nat.lt_or_ge a.length P.length with hlt | hge
  · rw [List.append_assoc, List.getElem?_append_left hlt] at hm
    have : P.getLast? = some x := by rw [List.getLast?_eq_getElem?, show P.length - 1 = a.length by omega]; exact hm
    exact hps.1 x this (wordChar_iff.2 hx)
  · rw [List.append_assoc, List.getElem?_append_right hge, List.getElem?_append_left (by omega)] at hm
    rcases iso_chars (List.mem_of_getElem? hm) with h | h
    · rw [h] at hx'; cases hx'
    · rw [h] at hx; cases hx

/-! ## The answer -/

/-- A mention that is longer than everything else found, all of which it overlaps, is what remains. -/
theorem overlapRefine_near {l : List PResult} {r : PResult} (hso : SortedByIndex l) (hr : r ∈ l) (hne : NonEmpty r)
    (h : ∀ x ∈ l, x = r ∨ (Overlap x r ∧ x.textLength < r.textLength)) : overlapRefine l = [r] := by
  have kr : r ∈ overlapRefine l := c43_locally_longest_survives l hso r hr hne (fun x hx => (h x hx).imp id fun h => .inr h.2)
  obtain ⟨hsub, hpw⟩ := c42_sublist_and_disjoint l hso
  have only : ∀ x ∈ overlapRefine l, x = r := by
    intro x hx
    rcases h x (hsub.mem hx) with h | ⟨ho, hl⟩
    · exact h
    · exfalso
      have hp := List.pairwise_iff_getElem.1 hpw
      obtain ⟨i, hi, rfl⟩ := List.getElem_of_mem hx
      obtain ⟨j, hj, rfl⟩ := List.getElem_of_mem kr
      rcases Nat.lt_trichotomy i j with hij | rfl | hij
      · have := hp i j hi hj hij; unfold Before Overlap at *; omega
      · omega
      · have := hp j i hj hi hij; unfold Before Overlap at *; omega
  match hL : overlapRefine l with
  | [] => rw [hL] at kr; cases kr
  | [q] => rw [hL] at only; rw [only q (by simp)]
  | q :: q' :: t =>
    exfalso
    rw [hL] at only hpw
    have h1 := only q (by simp)
    have h2 := only q' (by simp)
    subst h1; subst h2
    have := (List.pairwise_cons.1 hpw).1 q' (by simp)
    unfold Before stop NonEmpty at *
    omega

/-- One mention, and others that are shorter and overlap it: the answer is that mention's. -/
theorem run_near {rt : Rt} (hrt : Rt.Defined rt) {sort : List PResult → List PResult} (hs : Sorts sort) {text : Text}
    (hlen : text.length < 4294967296) {ref : PTime} {r : PResult} (hr : ∃ P ∈ mainParsers, ∃ rs, ParserReturns rt ref text P rs ∧ r ∈ rs)
    (hall : ∀ P ∈ mainParsers, ∃ rs, ParserReturns rt ref text P rs ∧ ∀ x ∈ rs, x = r ∨ (Overlap x r ∧ x.textLength < r.textLength))
    (hz : r.getTag .timeExpression = false) : mainRun rt sort text ref = (do let d ← r.toDate; return foundLine ++ d) := by
  obtain ⟨rss, h4⟩ := forall₂_of_forall (fun P hP => (hall P hP).imp fun _ h => h.1)
  obtain ⟨g, hg⟩ := runParsers_main.2 ⟨rss, h4, rfl⟩
  obtain ⟨hp, hso⟩ := hs rss.flatten
  have hne := returned_nonEmpty hrt.stale hrt.stops hlen h4
  have ma := (mem_flatten_of_returns h4).2 hr
  rw [mainRun_eq hg]
  refine refine_single (overlapRefine_near hso (hp.mem_iff.2 ma) (hne r ma).1 fun x hx => ?_) (fun _ _ h => by rw [hz] at h; cases h)
  obtain ⟨P, hP, rs, h1, h2⟩ := (mem_flatten_of_returns h4).1 (hp.mem_iff.1 hx)
  obtain ⟨rs', h3, h5⟩ := hall P hP
  rw [parserReturns_unique h1 h3] at h2
  exact h5 x h2

/-- **C83.** An ISO date is answered with that date, whatever stands before and after it: text of any length without other dates, times and digits, that
does not end with `at` or `from` before the date. -/
theorem c83_iso_date_in_any_text (rt : Rt) (hrt : Rt.Defined rt) (sort : List PResult → List PResult) (hs : Sorts sort) (ref : PTime) (x : DateTime)
    (hx : RefReads ref x) (y m d : Nat) (hc : CivilInRange y m d) (p s : Text) (hps : StandsApart p s) (hp : NoDigits p) (hd : NoDigits s)
    (hb : ∀ c ∈ p ++ s, c < 256) (hw : FewDateWords [] (p ++ isoDate y m d ++ s)) (hat : ¬ EndsWithAt p)
    (hlen : (p ++ isoDate y m d ++ s).length < 4294967296) :
    mainRun rt sort (p ++ isoDate y m d ++ s) ref = .ok (foundLine ++ (DateTime.mk y m d 0 0 0).format) := by
  have hlow : toLower (p ++ isoDate y m d ++ s) = toLower p ++ isoDate y m d ++ toLower s := by rw [toLower_append, toLower_append, toLower_isoDate]
  have hpl : (toLower p).length = p.length := by simp [toLower]
  have hplen : p.length < 4294967296 := by simp only [List.length_append] at hlen; omega
  have hy : 1 ≤ y := by have := hc.1; omega
  have hP := lower_noDigits hp
  have hS := lower_noDigits hd
  have hbl : ∀ c ∈ toLower p ++ toLower s, c < 256 := by
    intro c hc
    rw [← toLower_append] at hc
    unfold toLower at hc
    obtain ⟨z, hz, rfl⟩ := List.mem_map.1 hc
    have := hb z hz
    unfold lowerB
    split <;> omega
  obtain ⟨m1, m2, m3, m4, m5, m6, m7⟩ := isoMention_ok (ref := ref) (m := m) (d := d) hplen hy
  have hret := iso_returns hrt ref hps hp hd hplen hc
  have hclk : ∀ k ∈ clockKeys, ¬ Occurs k.atStart k.word k.atEnd (toLower (p ++ isoDate y m d ++ s)) := by
    intro k hk
    obtain ⟨w, hw', hk⟩ : ∃ w ∈ clockWords, k ∈ clockKeysOf w := by
      rcases List.mem_append.1 hk with hk | hk
      · exact ⟨_, by simp [clockWords], hk⟩
      · exact ⟨_, by simp [clockWords], hk⟩
    obtain ⟨c1, c2, c3⟩ := hw.clock w hw'
    simp only [clockKeysOf, List.mem_cons, List.not_mem_nil, or_false] at hk
    rcases hk with rfl | rfl | rfl
    · exact c1
    · exact not_infix c2
    · exact not_infix c3
  have hwd := no_wordy hw (by simp)
  have e6 := Re.search_needs_glued monthName_glued (by decide +kernel) (text := p ++ isoDate y m d ++ s) (by
    intro k hk
    rcases List.mem_append.1 hk with hk | hk
    · exact not_whole (fun w hw' => hw.months w hw' (by simp)) k hk
    · rw [List.mem_singleton] at hk; subst hk; exact no_backslash hw.backslash) (by
    intro a x' d' b h h1 h2
    rw [hlow] at h
    exact not_glued (standsApart_lower hps) hP hS h h1 h2)
  have e4 := middleEndian_away (text := p ++ isoDate y m d ++ s) (by rw [hlow]; exact iso_inst hP hS hbl y m d) hw.dates
  have quiet : ∀ {P : Parser} {r : Re}, P.pattern = some r → r.search (toLower (p ++ isoDate y m d ++ s)) = none →
      ∃ rs, ParserReturns rt ref (p ++ isoDate y m d ++ s) P rs ∧ ∀ x ∈ rs, x = (isoMention ref p.length y m d).copy ∨
        (Overlap x (isoMention ref p.length y m d).copy ∧ x.textLength < (isoMention ref p.length y m d).copy.textLength) := by
    intro P r hr hn
    refine ⟨[], silent_returns ?_, by simp⟩
    unfold silent
    rw [hr]
    simp only [hn, Option.isNone_none]
  have hml : (isoMention ref p.length y m d).copy.textLength = 10 := by unfold PResult.textLength; rw [m3, isoDate_length]
  rw [run_near hrt hs hlen (r := (isoMention ref p.length y m d).copy) ⟨isoParser, by simp [mainParsers], _, hret, by simp⟩ ?_ ?_]
  · rw [c08_toDate_prints_start _ ⟨y, m, d, 0, 0, 0⟩ ⟨hc, by simp, by simp, by simp⟩ m5 m4 (by
      rw [← Bool.not_eq_true]; intro h; cases m7 _ h)]
    rfl
  · intro P hPm
    simp only [mainParsers, List.mem_cons, List.not_mem_nil, or_false] at hPm
    rcases hPm with rfl | rfl | rfl | rfl | rfl | rfl | rfl | rfl | rfl | rfl | rfl | rfl
    · exact quiet casualTime_pattern (no_casualTime hw (by simp))
    · exact quiet deadline_pattern (hwd _ (by simp))
    · refine ⟨[], silent_returns (by unfold silent; rw [dayOfWeek_pattern]), by simp⟩
    · exact quiet casualDate_pattern (no_casualDate hw (by simp))
    · exact quiet middleEndian_pattern e4
    · exact quiet timeLater_pattern (hwd _ (by simp))
    · exact quiet monthName_pattern e6
    · exact quiet timeAgo_pattern (hwd _ (by simp))
    · obtain ⟨rs, hrs⟩ := clock_returns hrt hx (p ++ isoDate y m d ++ s)
      refine ⟨rs, hrs, fun z hz => .inr ?_⟩
      have hm := execute_mentions hrt.stale hrt.stops timeExpr_exact timeExpr_pattern timeExpr_min hlen hrs z hz
      unfold mentions at hm
      rw [List.drop_zero] at hm
      cases hsr : Ast.timeExpr.search (toLower (p ++ isoDate y m d ++ s)) with
      | none => rw [hsr] at hm; simp at hm
      | some mt =>
        rw [hsr] at hm
        obtain ⟨k1, k2, k3, k4, k5⟩ := clock_near hP hS hbl hlow (by
          unfold EndsWithAt at hat ⊢; rw [toLower_toLower]; exact hat) (toLower_toLower p) hclk hsr
        rw [hpl] at k1 k2 k3
        simp only [Nat.zero_add] at hm
        have hnil : mentions Ast.timeExpr true (toLower (p ++ isoDate y m d ++ s)) (p ++ isoDate y m d ++ s).length mt.stop = [] := by
          cases hn : (p ++ isoDate y m d ++ s).length with
          | zero => rfl
          | succ n => unfold mentions; rw [k5]
        rw [hnil, List.mem_singleton] at hm
        simp only [if_true, Prod.mk.injEq, Match.length] at hm
        have hle := (Re.search_ok hsr).le
        unfold Overlap stop
        rw [m2, hml]
        omega
    · exact ⟨_, hret, fun z hz => .inl (by simpa using hz)⟩
    · exact quiet holiday_pattern (hwd _ (by simp))
    · exact quiet week_pattern (hwd _ (by simp))
  · rw [← Bool.not_eq_true]; intro h; cases m7 _ h

/-- Decides `EndsWithAt`, from the end of the text: blanks, the word, and what stands before it. -/
def endsWithAtB (text : Text) : Bool :=
  let t := (toLower text).reverse.dropWhile isSpaceB
  [txt!"at", txt!"from"].any fun w => w.reverse.isPrefixOf t && !((t.drop w.length).head?.any fun c => !(isSpaceB c || c == 116))

theorem blank_isSpace {c : Nat} (h : Blank c) : isSpaceB c = true := by
  unfold Blank at h
  unfold isSpaceB
  simp
  omega

theorem endsWithAtB_sound {text : Text} (h : endsWithAtB text = false) : ¬ EndsWithAt text := by
  rintro ⟨a, w, hw, b, hb, e, hl⟩
  unfold endsWithAtB at h
  have e1 : (toLower text).reverse.dropWhile isSpaceB = w.reverse ++ a.reverse := by
    rw [e, List.append_assoc, List.reverse_append, List.reverse_append, List.append_assoc, List.dropWhile_append_of_pos]
    · simp only [List.mem_cons, List.not_mem_nil, or_false] at hw
      rcases hw with rfl | rfl <;> rfl
    · intro c hc
      exact blank_isSpace (hb c (List.mem_reverse.1 hc))
  simp only [e1] at h
  have h1 := List.any_eq_false.1 h w hw
  rw [show w.reverse.isPrefixOf (w.reverse ++ a.reverse) = true by rw [List.isPrefixOf_iff_prefix]; exact List.prefix_append _ _,
    show (w.reverse ++ a.reverse).drop w.length = a.reverse from List.drop_left' (by simp), List.head?_reverse] at h1
  apply h1
  cases hc : a.getLast? with
  | none => rfl
  | some c =>
    rcases hl c hc with h | h
    · simp [blank_isSpace h]
    · simp [h]

/-- The conditions are met by ordinary texts. -/
theorem c83_conditions_are_met : ∀ x ∈ [(txt!"", txt!""), (txt!"Please send the report of ", txt!", or the (new) one: thank you!"), (txt!"[", txt!"]"), (txt!"the flat ", txt!" is free")],
    StandsApart x.1 x.2 ∧ NoDigits x.1 ∧ NoDigits x.2 ∧ (∀ c ∈ x.1 ++ x.2, c < 256) ∧ FewDateWords [] (x.1 ++ isoDate 2019 3 5 ++ x.2) ∧ ¬ EndsWithAt x.1 := by
  have h : ∀ x ∈ [(txt!"", txt!""), (txt!"Please send the report of ", txt!", or the (new) one: thank you!"), (txt!"[", txt!"]"), (txt!"the flat ", txt!" is free")],
    (!x.1.getLast?.any isWordB && !x.2.head?.any isWordB) = true ∧ ((x.1 ++ x.2).all fun c => !isDigitB c && decide (c < 256)) = true ∧
      ((dateWordChecks (x.1 ++ isoDate 2019 3 5 ++ x.2)).drop 1).all id = true ∧ endsWithAtB x.1 = false := by decide +kernel
  intro x hx
  obtain ⟨h1, h2, h3, h4⟩ := h x hx
  have h2 := List.all_eq_true.1 h2
  rw [Bool.and_eq_true] at h1
  have nd : ∀ c ∈ x.1 ++ x.2, ¬ (48 ≤ c ∧ c ≤ 57) := fun c hc => by
    have := h2 c hc
    simp only [Bool.and_eq_true, isDigitB, Bool.not_eq_true', decide_eq_true_eq, Bool.and_eq_false_iff, decide_eq_false_iff_not] at this
    omega
  refine ⟨⟨fun c hc => ?_, fun c hc => ?_⟩, fun c hc => nd c (by simp [hc]), fun c hc => nd c (by simp [hc]), fun c hc => ?_, fewDateWords_of h3, endsWithAtB_sound h4⟩
  · rw [hc] at h1; rw [wordChar_iff]; simpa using h1.1
  · rw [hc] at h1; rw [wordChar_iff]; simpa using h1.2
  · have := h2 c hc
    simp only [Bool.and_eq_true, decide_eq_true_eq] at this
    exact this.2

/-- **C83: the conditions are needed.** After `at` (even that of `stat`), inside a word, beside a number, and beside a word for a day, something else is
printed than the date of the 5th of March 2019. -/
theorem c83_conditions_are_needed : ∀ x ∈ [(txt!"see you at ", txt!""), (txt!"the stat ", txt!""), (txt!"from", txt!""), (txt!"v", txt!""), (txt!"", txt!"x"), (txt!"", txt!" 9:30"),
      (txt!"tomorrow or ", txt!"")],
    ∃ l, mainRun (Rt.usual 0) sortKeep (x.1 ++ isoDate 2019 3 5 ++ x.2) exampleRef = .ok l ∧ l ≠ foundLine ++ (DateTime.mk 2019 3 5 0 0 0).format := by
  have h : ∀ x ∈ [(txt!"see you at ", txt!""), (txt!"the stat ", txt!""), (txt!"from", txt!""), (txt!"v", txt!""), (txt!"", txt!"x"), (txt!"", txt!" 9:30"),
      (txt!"tomorrow or ", txt!"")],
    (match mainRun (Rt.usual 0) sortKeep (x.1 ++ isoDate 2019 3 5 ++ x.2) exampleRef with
      | .ok l => l != foundLine ++ (DateTime.mk 2019 3 5 0 0 0).format | _ => false) = true := by decide +kernel
  intro x hx
  have := h x hx
  split at this
  · rename_i l hl
    exact ⟨l, hl, by simpa using this⟩
  · cases this

end Chrono.Props
