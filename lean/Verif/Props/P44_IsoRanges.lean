import Verif.Lemmas.Seq
import Verif.Props.P43_TwoMentions
import Verif.Props.P20_Phrases
/-!
# C76: two ISO dates in one text
-/
namespace Chrono.Props
open Chrono Chrono.Spec Chrono.Boost

/-! ## What the other parsers find beside two mentions -/

/-- The place `p` (index, length) is within reach of one of the places `A`, `B` and shorter than those it overlaps. -/
def beside (A B p : Nat × Nat) : Bool :=
  let ov (X : Nat × Nat) : Bool := p.1 < X.1 + X.2 && X.1 < p.1 + p.2
  (ov A || ov B) && (!ov A || p.2 < A.2) && (!ov B || p.2 < B.2)

/-- Every parser but those in `own` finds nothing in the text, or (the clock-time parser) only shorter mentions
overlapping the places `A` and `B`. -/
def othersBeside (own : List Nat) (A B : Nat × Nat) (t : Text) : Bool :=
  (List.range 12).all fun j => own.contains j ||
    match (mainPatterns[j]?).join with
    | none => true
    | some r => if j = 8 then (mentions r true t (t.length + 1) 0).all (beside A B) else (r.search t).isNone

theorem othersBeside_sim {own : List Nat} {A B : Nat × Nat} {phrase rep : Text} (hp : List.Forall₂ DigitRel phrase rep)
    (h : othersBeside own A B rep = true) : othersBeside own A B phrase = true := by
  unfold othersBeside at *
  rw [List.all_eq_true] at *
  intro j hj
  have := h j hj
  rw [Bool.or_eq_true] at *
  refine this.imp id fun h => ?_
  cases hr : (mainPatterns[j]?).join with
  | none => rfl
  | some r =>
    rw [hr] at h
    have hb : r.digitBlind = true := by
      obtain ⟨o, ho, h2⟩ := Option.join_eq_some_iff.1 hr |> fun h => (⟨_, h, rfl⟩ : ∃ o, mainPatterns[j]? = some o ∧ o = some r)
      exact mainPatterns_blind o (List.mem_of_getElem? ho) r h2
    simp only at h ⊢
    split
    · rw [if_pos (by assumption)] at h
      rw [mentions_sim hb true hp, forall₂_length hp]
      exact h
    · rw [if_neg (by assumption)] at h
      exact search_sim_none hb hp h

theorem beside_sound {a b x : PResult} {A B : Nat × Nat} (ha : (a.index, a.textLength) = A) (hb : (b.index, b.textLength) = B)
    (h : beside A B (x.index, x.textLength) = true) :
    (Overlap x a ∨ Overlap x b) ∧ (Overlap x a → x.textLength < a.textLength) ∧ (Overlap x b → x.textLength < b.textLength) := by
  subst ha; subst hb
  unfold beside at h
  simp only [Bool.and_eq_true, Bool.or_eq_true, Bool.not_eq_true', decide_eq_true_eq, Bool.and_eq_false_iff, decide_eq_false_iff_not] at h
  unfold Overlap stop
  omega

theorem others_beside {rt : Rt} (hrt : Rt.Defined rt) {text : Text} (hlen : text.length < 4294967296) {ref : PTime} {x : DateTime}
    (hx : RefReads ref x) {a b : PResult} {own : List Nat}
    (ho : othersBeside own (a.index, a.textLength) (b.index, b.textLength) (toLower text) = true)
    (hown : ∀ j ∈ own, ∀ P, mainParsers[j]? = some P → ∃ rs, ParserReturns rt ref text P rs ∧ ∀ x ∈ rs, x = a ∨ x = b ∨
      ((Overlap x a ∨ Overlap x b) ∧ (Overlap x a → x.textLength < a.textLength) ∧ (Overlap x b → x.textLength < b.textLength))) :
    ∀ P ∈ mainParsers, ∃ rs, ParserReturns rt ref text P rs ∧ ∀ x ∈ rs, x = a ∨ x = b ∨
      ((Overlap x a ∨ Overlap x b) ∧ (Overlap x a → x.textLength < a.textLength) ∧ (Overlap x b → x.textLength < b.textLength)) := by
  intro Q hQ
  obtain ⟨j, hj⟩ := List.getElem?_of_mem hQ
  by_cases hji : j ∈ own
  · exact hown j hji Q hj
  unfold othersBeside at ho
  have hj12 : j < 12 := (List.getElem?_eq_some_iff.1 hj).1
  have h1 := List.all_eq_true.1 ho j (by simp [hj12])
  rw [mainPatterns_get, hj] at h1
  simp only [Option.bind_some, Bool.or_eq_true, List.contains_iff_mem, hji, false_or] at h1
  by_cases h8 : j = 8
  · subst h8
    have e : Q = timeExprParser := (Option.some.inj hj).symm
    subst e
    obtain ⟨rs, hrs⟩ := clock_returns hrt hx text
    refine ⟨rs, hrs, fun x hx => .inr (.inr (beside_sound rfl rfl ?_))⟩
    have hm := execute_mentions hrt.stale hrt.stops timeExpr_exact timeExpr_pattern timeExpr_min hlen hrs x hx
    revert h1
    rw [timeExpr_pattern]
    simp only [if_true]
    intro h1
    refine List.all_eq_true.1 h1 _ ?_
    have hl : (toLower text).length = text.length := by simp [toLower]
    rw [hl]
    exact hm
  · refine ⟨[], silent_returns ?_, by simp⟩
    unfold silent
    cases hr : Q.pattern with
    | none => rfl
    | some r => rw [hr] at h1; simpa [h8] using h1

/-! ## Two ISO dates -/

/-- Two ISO dates with `sep` between them. -/
def isoPair (y1 m1 d1 : Nat) (sep : Text) (y2 m2 d2 : Nat) : Text := isoDate y1 m1 d1 ++ sep ++ isoDate y2 m2 d2

/-- What may stand between the dates of a range. -/
def dateRangeSeps : List Text := [txt!" - ", txt!"-", txt!" -", txt!" to ", txt!" through ", txt!" and "]

/-- Separators that do not make a range. -/
def plainSeps : List Text := [txt!" ", txt!", ", txt!"; ", txt!" or ", txt!" until ", txt!" till "]

def isoPairCheck (sep : Text) : Bool :=
  let rep := txt!"1111-11-11" ++ sep ++ txt!"1111-11-11"
  let k := 10 + sep.length
  othersBeside [9] (0, 10) (k, 10) rep &&
  checkStep Ast.iso (rep.drop 0) 0 10 [(2, some (0, 4)), (3, some (5, 7)), (4, some (8, 10)), (5, none)] &&
  checkStep Ast.iso (rep.drop 10) sep.length k
    [(2, some (sep.length, sep.length + 4)), (3, some (sep.length + 5, sep.length + 7)), (4, some (sep.length + 8, sep.length + 10)), (5, none)] &&
  (Ast.iso.search (rep.drop (10 + k))).isNone && toLower sep == sep && decide (sep.length < 20)

theorem isoPair_checks {sep : Text} (h : sep ∈ dateRangeSeps ++ plainSeps) : isoPairCheck sep = true := by
  simp only [dateRangeSeps, plainSeps, List.cons_append, List.nil_append, List.mem_cons, List.not_mem_nil, or_false] at h
  rcases h with rfl | rfl | rfl | rfl | rfl | rfl | rfl | rfl | rfl | rfl | rfl | rfl <;> decide +kernel

/-- The mention of an ISO date at `idx`. -/
def isoMention (ref : PTime) (idx y m d : Nat) : PResult :=
  ((PResult.mk' ref idx (isoDate y m d)).onStart (fun c => ((c.set .year y).set .month m).set .mday d)).setTag .iso

theorem isoMention_ok {ref : PTime} {idx y m d : Nat} (hidx : idx < 4294967296) (hy : 1 ≤ y) :
    (isoMention ref idx y m d).hasPossibleDates = true ∧ (isoMention ref idx y m d).copy.index = idx ∧
    (isoMention ref idx y m d).copy.text = isoDate y m d ∧ (isoMention ref idx y m d).copy.hasEnd = false ∧
    Reads (isoMention ref idx y m d).copy.startDate ⟨y, m, d, 0, 0, 0⟩ ∧
    isTimeOnly (isoMention ref idx y m d).copy = false ∧
    (∀ t, (isoMention ref idx y m d).copy.getTag t = true → t = .iso) := by
  unfold isoMention
  refine ⟨hasPossibleDates_of_year (by simp; omega), by
      simp [PResult.copy, PResult.mk', PResult.toU32]; omega, by simp [PResult.copy], by simp [PResult.copy],
    by simp [PResult.copy, Reads], ?_, ?_⟩
  · simp [PResult.copy, isTimeOnly, Comps.certain, Comps.certainKey]
  · intro t
    simp [PResult.copy, PResult.getTag, PResult.setTag]
    split
    · intro _; assumption
    · intro h; cases h

theorem isoDate_length (y m d : Nat) : (isoDate y m d).length = 10 := by simp [isoDate, four, two]

theorem slice_isoPair1 (y1 m1 d1 : Nat) (sep : Text) (y2 m2 d2 : Nat) (a b : Nat) (hb : b ≤ 10) :
    slice (isoPair y1 m1 d1 sep y2 m2 d2) a b = slice (isoDate y1 m1 d1) a b := by
  unfold isoPair slice
  rw [List.append_assoc]
  rcases Nat.le_total a 10 with h | h
  · rw [List.drop_append_of_le_length (by rw [isoDate_length]; omega), List.take_append_of_le_length (by rw [List.length_drop, isoDate_length]; omega)]
  · rw [show b - a = 0 by omega]; simp

theorem slice_isoPair2 (y1 m1 d1 : Nat) (sep : Text) (y2 m2 d2 : Nat) (a b : Nat) :
    slice ((isoPair y1 m1 d1 sep y2 m2 d2).drop 10) (sep.length + a) (sep.length + b) = slice (isoDate y2 m2 d2) a b := by
  have h : (isoPair y1 m1 d1 sep y2 m2 d2).drop 10 = sep ++ isoDate y2 m2 d2 := by
    unfold isoPair
    rw [List.append_assoc, List.drop_append_of_le_length (by rw [isoDate_length]), List.drop_of_length_le (by rw [isoDate_length])]
    rfl
  rw [h]
  unfold slice
  rw [List.drop_append, List.drop_of_length_le (by omega)]
  simp [Nat.add_sub_add_left]

/-- Both mentions are found by the ISO parser, in this order. -/
theorem isoPair_returns {rt : Rt} (hrt : Rt.Defined rt) (ref : PTime) {sep : Text} (hsep : sep ∈ dateRangeSeps ++ plainSeps) {y1 m1 d1 y2 m2 d2 : Nat}
    (h1 : CivilInRange y1 m1 d1) (h2 : CivilInRange y2 m2 d2) :
    ParserReturns rt ref (isoPair y1 m1 d1 sep y2 m2 d2) isoParser
      [(isoMention ref 0 y1 m1 d1).copy, (isoMention ref (10 + sep.length) y2 m2 d2).copy] := by
  have hck := isoPair_checks hsep
  unfold isoPairCheck at hck
  simp only [Bool.and_eq_true, beq_iff_eq, decide_eq_true_eq] at hck
  obtain ⟨⟨⟨⟨⟨c0, c1⟩, c2⟩, c3⟩, c4⟩, c5⟩ := hck
  have hdr : List.Forall₂ DigitRel (isoPair y1 m1 d1 sep y2 m2 d2) (txt!"1111-11-11" ++ sep ++ txt!"1111-11-11") :=
    dr_append (dr_append dr_isoDate (dr_same _)) dr_isoDate
  have hlow : toLower (isoPair y1 m1 d1 sep y2 m2 d2) = isoPair y1 m1 d1 sep y2 m2 d2 := by
    unfold isoPair; simp only [toLower_append, toLower_isoDate, c4]
  obtain ⟨mt1, s1, a1, b1, z1, g1⟩ := foundStep _ 0 _ _ _ iso_blind c1 hdr
  obtain ⟨mt2, s2, a2, b2, z2, g2⟩ := foundStep _ 10 _ _ _ iso_blind c2 hdr
  rw [List.drop_zero] at s1 z1 g1
  have e12 : mt1.str 2 = four y1 := (g1 (2, some (0, 4)) (by simp) (by decide)).trans (slice_isoPair1 _ _ _ _ _ _ _ _ _ (by omega))
  have e13 : mt1.str 3 = two m1 := (g1 (3, some (5, 7)) (by simp) (by decide)).trans (slice_isoPair1 _ _ _ _ _ _ _ _ _ (by omega))
  have e14 : mt1.str 4 = two d1 := (g1 (4, some (8, 10)) (by simp) (by decide)).trans (slice_isoPair1 _ _ _ _ _ _ _ _ _ (by omega))
  have e15 : mt1.str 5 = [] := g1 (5, none) (by simp) (by decide)
  have e10 : mt1.str 0 = isoDate y1 m1 d1 := z1.trans (slice_isoPair1 _ _ _ _ _ _ _ _ _ (by omega))
  have e22 : mt2.str 2 = four y2 := (g2 (2, some (sep.length, sep.length + 4)) (by simp) (by simp)).trans (slice_isoPair2 _ _ _ _ _ _ _ 0 4)
  have e23 : mt2.str 3 = two m2 := (g2 (3, some (sep.length + 5, sep.length + 7)) (by simp) (by simp)).trans (slice_isoPair2 _ _ _ _ _ _ _ 5 7)
  have e24 : mt2.str 4 = two d2 := (g2 (4, some (sep.length + 8, sep.length + 10)) (by simp) (by simp)).trans (slice_isoPair2 _ _ _ _ _ _ _ 8 10)
  have e25 : mt2.str 5 = [] := g2 (5, none) (by simp) (by simp)
  have e20 : mt2.str 0 = isoDate y2 m2 d2 := by
    rw [z2, Nat.add_comm 10]; exact slice_isoPair2 _ _ _ _ _ _ _ 0 10
  obtain ⟨u1, u2, u3, u4, u5, u6⟩ := h1
  obtain ⟨v1, v2, v3, v4, v5, v6⟩ := h2
  have ul := monthLength_bounds y1 m1 u3 u4
  have vl := monthLength_bounds y2 m2 v3 v4
  have x1 := iso_date_extract (rt := rt) (g := integerWords) (tx := isoPair y1 m1 d1 sep y2 m2 d2) (mt := mt1) (ref := ref) (idx := mt1.start)
    u3 u4 u5 (by omega)
    (by rw [e12]; exact stoi_four (by omega)) (by rw [e13]; exact stoi_two (by omega)) (by rw [e14]; exact stoi_two (by omega)) e15
  have x2 := iso_date_extract (rt := rt) (g := integerWords) (tx := (isoPair y1 m1 d1 sep y2 m2 d2).drop mt1.stop) (mt := mt2) (ref := ref)
    (idx := mt1.stop + mt2.start) v3 v4 v5 (by omega)
    (by rw [e22]; exact stoi_four (by omega)) (by rw [e23]; exact stoi_two (by omega)) (by rw [e24]; exact stoi_two (by omega)) e25
  rw [a1, e10] at x1
  rw [b1, a2, e20] at x2
  refine ⟨integerWords, ?_⟩
  refine execute_two (g1 := integerWords) (mt1 := mt1) (mt2 := mt2) hrt.stale iso_pattern iso_min (by rw [hlow]; exact s1) ?_ (isoMention_ok (by omega) (by omega)).1
    (by rw [hlow, b1]; exact s2) ?_ (isoMention_ok (by omega) (by omega)).1 ?_
  · rw [hlow, a1]; exact pureExtract_ok x1
  · rw [hlow, b1, a2]; exact pureExtract_ok x2
  · rw [hlow, b1, b2]; exact foundEnd _ _ iso_blind c3 hdr

/-- The program on two ISO dates: the refiners get exactly these two mentions. -/
theorem isoPair_run {rt : Rt} (hrt : Rt.Defined rt) {sort : List PResult → List PResult} (hs : Sorts sort) {ref : PTime} {x : DateTime}
    (hx : RefReads ref x) {sep : Text} (hsep : sep ∈ dateRangeSeps ++ plainSeps) {y1 m1 d1 y2 m2 d2 : Nat}
    (h1 : CivilInRange y1 m1 d1) (h2 : CivilInRange y2 m2 d2) :
    toLower (isoPair y1 m1 d1 sep y2 m2 d2) = isoPair y1 m1 d1 sep y2 m2 d2 ∧
    ∃ a b, a = (isoMention ref 0 y1 m1 d1).copy ∧ b = (isoMention ref (10 + sep.length) y2 m2 d2).copy ∧ a.index = 0 ∧ b.index = 10 + sep.length ∧
    NonEmpty a ∧ NonEmpty b ∧ Inside (isoPair y1 m1 d1 sep y2 m2 d2) a ∧ Inside (isoPair y1 m1 d1 sep y2 m2 d2) b ∧ Before a b ∧
    slice (isoPair y1 m1 d1 sep y2 m2 d2) (stop a) b.index = sep ∧
    mainRun rt sort (isoPair y1 m1 d1 sep y2 m2 d2) ref = (do
      let rs ← tzRefine [a, b] (isoPair y1 m1 d1 sep y2 m2 d2)
      let rs ← mdtRefine rs (isoPair y1 m1 d1 sep y2 m2 d2)
      let rs ← mdrRefine rs (isoPair y1 m1 d1 sep y2 m2 d2)
      printResult rs) := by
  have hret := isoPair_returns hrt ref hsep h1 h2
  have hck := isoPair_checks hsep
  unfold isoPairCheck at hck
  simp only [Bool.and_eq_true, beq_iff_eq, decide_eq_true_eq] at hck
  obtain ⟨⟨⟨⟨⟨c0, -⟩, -⟩, -⟩, c4⟩, c5⟩ := hck
  have hlow : toLower (isoPair y1 m1 d1 sep y2 m2 d2) = isoPair y1 m1 d1 sep y2 m2 d2 := by
    unfold isoPair; simp only [toLower_append, toLower_isoDate, c4]
  have hdr : List.Forall₂ DigitRel (isoPair y1 m1 d1 sep y2 m2 d2) (txt!"1111-11-11" ++ sep ++ txt!"1111-11-11") :=
    dr_append (dr_append dr_isoDate (dr_same _)) dr_isoDate
  have hl : (isoPair y1 m1 d1 sep y2 m2 d2).length = 20 + sep.length := by
    unfold isoPair; simp only [List.length_append, isoDate_length]; omega
  obtain ⟨-, a1, a2, -⟩ := isoMention_ok (ref := ref) (idx := 0) (y := y1) (m := m1) (d := d1) (by omega) (by have := h1.1; omega)
  obtain ⟨-, b1, b2, -⟩ := isoMention_ok (ref := ref) (idx := 10 + sep.length) (y := y2) (m := m2) (d := d2) (by omega) (by have := h2.1; omega)
  generalize ha : (isoMention ref 0 y1 m1 d1).copy = a at *
  generalize hb : (isoMention ref (10 + sep.length) y2 m2 d2).copy = b at *
  have la : a.textLength = 10 := by unfold PResult.textLength; rw [a2, isoDate_length]
  have lb : b.textLength = 10 := by unfold PResult.textLength; rw [b2, isoDate_length]
  have hbef : Before a b := by unfold Before stop; omega
  refine ⟨hlow, a, b, rfl, rfl, a1, b1, ?_⟩
  obtain ⟨r1, r2, r3, r4, r5⟩ := run_two hrt hs (text := isoPair y1 m1 d1 sep y2 m2 d2) (by omega) (ref := ref) (a := a) (b := b)
    ⟨isoParser, by simp [mainParsers], _, hret, by simp⟩ ⟨isoParser, by simp [mainParsers], _, hret, by simp⟩ hbef
    (others_beside hrt (by omega) hx (own := [9]) (by rw [hlow, a1, la, b1, lb]; exact othersBeside_sim hdr c0) (by
      intro j hj P hP
      simp only [List.mem_cons, List.not_mem_nil, or_false] at hj
      subst hj
      have e : P = isoParser := (Option.some.inj hP).symm
      subst e
      refine ⟨_, hret, fun x hx => ?_⟩
      simp only [List.mem_cons, List.not_mem_nil, or_false] at hx
      rcases hx with h | h
      · exact .inl h
      · exact .inr (.inl h)))
  rw [hlow] at r3 r4 r5
  refine ⟨r1, r2, r3, r4, hbef, ?_, r5⟩
  unfold stop
  rw [a1, la, b1]
  have := isoDate_length y1 m1 d1
  unfold isoPair slice
  rw [List.append_assoc, List.drop_append_of_le_length (by omega), List.drop_of_length_le (by omega)]
  simp

/-- **C76 (range).** For all pairs of civil dates of the years 1400 to 9999, the program run on their ISO forms with one of
` - `, `-`, ` -`, ` to `, ` through `, ` and ` between them prints the range from the first date to the second - or from the first
date to itself, if the second is earlier. -/
theorem c76_iso_range_printed (rt : Rt) (hrt : Rt.Defined rt) (sort : List PResult → List PResult) (hs : Sorts sort) (ref : PTime) (x : DateTime)
    (hx : RefReads ref x) (sep : Text) (hsep : sep ∈ dateRangeSeps) (y1 m1 d1 y2 m2 d2 : Nat) (h1 : CivilInRange y1 m1 d1) (h2 : CivilInRange y2 m2 d2) :
    mainRun rt sort (isoDate y1 m1 d1 ++ sep ++ isoDate y2 m2 d2) ref = .ok (foundLine ++ (DateTime.mk y1 m1 d1 0 0 0).format ++ txt!" - " ++
      (if instant ⟨y1, m1, d1, 0, 0, 0⟩ ≤ instant ⟨y2, m2, d2, 0, 0, 0⟩ then DateTime.mk y2 m2 d2 0 0 0 else ⟨y1, m1, d1, 0, 0, 0⟩).format) := by
  obtain ⟨hlow, a, b, ea, eb, i1, i2, na, nb, ia, ib, hab, hsl, hrun⟩ := isoPair_run hrt hs hx (List.mem_append_left _ hsep) h1 h2
  obtain ⟨-, -, -, a3, a4, a5, a6⟩ := isoMention_ok (ref := ref) (idx := 0) (y := y1) (m := m1) (d := d1) (by omega) (by have := h1.1; omega)
  have hsl20 : sep.length < 20 := by
    have hck := isoPair_checks (List.mem_append_left plainSeps hsep)
    unfold isoPairCheck at hck
    simp only [Bool.and_eq_true, decide_eq_true_eq] at hck
    exact hck.2
  obtain ⟨-, -, -, b3, b4, b5, b6⟩ := isoMention_ok (ref := ref) (idx := 10 + sep.length) (y := y2) (m := m2) (d := d2) (by omega) (by have := h2.1; omega)
  rw [← ea] at a3 a4 a5 a6
  rw [← eb] at b3 b4 b5 b6
  have hno : ∀ {r : PResult} {t : Tag}, (∀ t, r.getTag t = true → t = .iso) → t ≠ .iso → r.getTag t = false := by
    intro r t h hne
    cases hh : r.getTag t with
    | false => rfl
    | true => exact absurd (h t hh) hne
  refine prints_joined (text := isoPair y1 m1 d1 sep y2 m2 d2) na nb (by rw [hlow]; exact ia) (by rw [hlow]; exact ib) hab (by rw [hlow]; exact hrun)
    (hno a6 (by decide)) (hno b6 (by decide)) (hno a6 (by decide)) (hno b6 (by decide)) a5 b5 a3 b3 ?_
    ⟨h1, by simp, by simp, by simp⟩ ⟨h2, by simp, by simp, by simp⟩ a4 b4
  unfold Joined
  rw [hlow, hsl]
  simp only [dateRangeSeps, List.mem_cons, List.not_mem_nil, or_false] at hsep
  rcases hsep with rfl | rfl | rfl | rfl | rfl | rfl <;> decide

/-- **C76 (no range).** With ` `, `, `, `; `, ` or `, ` until ` or ` till ` between the dates, the first is printed alone: the
second date is lost. -/
theorem c76_iso_pair_first_printed (rt : Rt) (hrt : Rt.Defined rt) (sort : List PResult → List PResult) (hs : Sorts sort) (ref : PTime)
    (x : DateTime) (hx : RefReads ref x) (sep : Text) (hsep : sep ∈ plainSeps) (y1 m1 d1 y2 m2 d2 : Nat) (h1 : CivilInRange y1 m1 d1)
    (h2 : CivilInRange y2 m2 d2) :
    mainRun rt sort (isoDate y1 m1 d1 ++ sep ++ isoDate y2 m2 d2) ref = .ok (foundLine ++ (DateTime.mk y1 m1 d1 0 0 0).format) := by
  obtain ⟨hlow, a, b, ea, eb, i1, i2, na, nb, ia, ib, hab, hsl, hrun⟩ := isoPair_run hrt hs hx (List.mem_append_right _ hsep) h1 h2
  obtain ⟨-, -, -, a3, a4, a5, a6⟩ := isoMention_ok (ref := ref) (idx := 0) (y := y1) (m := m1) (d := d1) (by omega) (by have := h1.1; omega)
  have hsl20 : sep.length < 20 := by
    have hck := isoPair_checks (List.mem_append_right dateRangeSeps hsep)
    unfold isoPairCheck at hck
    simp only [Bool.and_eq_true, decide_eq_true_eq] at hck
    exact hck.2
  obtain ⟨-, -, -, b3, b4, b5, b6⟩ := isoMention_ok (ref := ref) (idx := 10 + sep.length) (y := y2) (m := m2) (d := d2) (by omega) (by have := h2.1; omega)
  rw [← ea] at a3 a4 a5 a6
  rw [← eb] at b3 b4 b5 b6
  have hno : ∀ {r : PResult} {t : Tag}, (∀ t, r.getTag t = true → t = .iso) → t ≠ .iso → r.getTag t = false := by
    intro r t h hne
    cases hh : r.getTag t with
    | false => rfl
    | true => exact absurd (h t hh) hne
  refine prints_separate (text := isoPair y1 m1 d1 sep y2 m2 d2) na nb (by rw [hlow]; exact ia) (by rw [hlow]; exact ib) hab (by rw [hlow]; exact hrun)
    (hno a6 (by decide)) (hno b6 (by decide)) (hno a6 (by decide)) a5 b5 a3 ?_ ⟨h1, by simp, by simp, by simp⟩ a4
  unfold Joined
  rw [hlow, hsl]
  simp only [plainSeps, List.mem_cons, List.not_mem_nil, or_false] at hsep
  rcases hsep with rfl | rfl | rfl | rfl | rfl | rfl <;> decide

/-- Both theorems on concrete texts: the model itself, evaluated by the kernel, prints this. -/
example : printed (mainRun (Rt.usual 0) sortKeep txt!"2019-03-05 to 2019-04-09" exampleRef)
    txt!"Date:\t2019-Mar-05 00:00:00 - 2019-Apr-09 00:00:00" = true := by decide +kernel
example : printed (mainRun (Rt.usual 0) sortKeep txt!"2019-03-05, 2019-04-09" exampleRef) txt!"Date:\t2019-Mar-05 00:00:00" = true := by decide +kernel

end Chrono.Props
