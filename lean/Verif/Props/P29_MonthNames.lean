import Verif.Props.P24_Week
import Verif.Props.P27_Ordinals
import Verif.Props.P28_Nearest
/-!
# C30, C31: month names, with and without a year, on every text
-/
namespace Chrono.Props
open Chrono Chrono.Spec Chrono.Boost

theorem contains_suffix (p t : Text) : contains p (t ++ p) = true := by
  induction t with
  | nil => rw [List.nil_append]; have := contains_append p []; rwa [List.append_nil] at this
  | cons c t ih =>
    unfold contains at ih ⊢
    rw [List.cons_append]
    unfold find
    split
    · rfl
    · rw [Option.isSome_map]; exact ih

theorem lower_of_infix {t w : Text} (h : w <:+: toLower t) : toLower w = w := by
  have hl : ∀ c, lowerB (lowerB c) = lowerB c := by
    intro c
    unfold lowerB
    split
    · rw [if_neg (by omega)]
    · rfl
  obtain ⟨a, b, e⟩ := h
  have : ∀ c ∈ w, lowerB c = c := by
    intro c hc
    have : c ∈ toLower t := by rw [← e]; simp [hc]
    simp only [toLower, List.mem_map] at this
    obtain ⟨d, -, rfl⟩ := this
    exact hl d
  unfold toLower
  conv => rhs; rw [← List.map_id w]
  exact List.map_congr_left this

/-- A group lies inside the match. -/
theorem group_infix0 {r : Re} {t : Text} {mt : Match} (h : MatchOk r t mt) (n : Nat) : mt.str n <:+: mt.str 0 := by
  by_cases hn : n = 0
  · subst hn; exact List.infix_refl _
  · rcases h.group n hn with ⟨-, h'⟩ | ⟨a, b, -, h1, h2, h3, h4, -⟩
    · rw [h']; exact List.nil_infix
    · rw [h4]
      unfold Match.str
      rw [if_pos rfl, h.subject]
      have h5 := h.stop_le
      have : slice t a b = slice (slice t mt.start mt.stop) (a - mt.start) (b - mt.start) := by
        unfold slice
        rw [List.drop_take, List.drop_drop, List.take_take]
        congr 1
        · omega
        · rw [show mt.start + (a - mt.start) = a by omega]
      rw [this]
      unfold slice
      exact (List.take_prefix _ _).isInfix.trans (List.drop_suffix _ _).isInfix

/-- Letters of an era. -/
theorem eraYear_written {era : Text} {e : Era} {v : Nat} (h : ∃ gap, toLower era = gap ++ e.text ∧ (e ≠ .be → gap = [])) :
    eraYear v era = writtenYear v e := by
  obtain ⟨gap, h, hg⟩ := h
  unfold eraYear
  have hemp : era.isEmpty = (toLower era).isEmpty := by cases era <;> rfl
  rw [hemp, h]
  cases e with
  | unmarked =>
    rw [hg (by simp)]
    rw [show (!([] ++ Era.unmarked.text : Text).isEmpty) = false from rfl, if_neg (by simp)]
    show (if (v : Int) < 100 then (v : Int) + 2000 else v) = if v < 100 then (v : Int) + 2000 else v
    by_cases hv : v < 100
    · rw [if_pos hv, if_pos (by omega)]
    · rw [if_neg hv, if_neg (by omega)]
  | be =>
    rw [if_pos (show (!(gap ++ Era.be.text).isEmpty) = true by cases gap <;> rfl), if_pos (show contains txt!"be" (gap ++ Era.be.text) = true from contains_suffix txt!"be" gap)]
    rfl
  | ad =>
    rw [hg (by simp)]
    rw [if_pos (show (!([] ++ Era.ad.text : Text).isEmpty) = true from rfl), if_neg (by decide), if_neg (by decide)]
    rfl
  | bc =>
    rw [hg (by simp)]
    rw [if_pos (show (!([] ++ Era.bc.text : Text).isEmpty) = true from rfl), if_neg (by decide), if_pos (by decide)]
    rfl

/-- A group of at most four digits. -/
theorem year_digits {body : Re} {w : Text} {k : Nat} (h : Lang body w) (hd : body.allB isDigitB = true) (h1 : 1 ≤ body.minLen)
    (hk : body.maxLen = some k) (hk4 : k ≤ 9) : IsDigits w ∧ w.length ≤ k ∧ body.minLen ≤ w.length ∧
      stoiCaught w = .ok (some (decimalValue w : Int)) ∧ stoi w = .ok (decimalValue w : Int) := by
  have ha := h.allB _ hd
  have hl := h.maxLen k hk
  have hm := h.minLen
  have hne : w ≠ [] := by rintro rfl; simp at hm; omega
  have hv := digitsVal_lt ha 0
  have hp : 10 ^ w.length ≤ 10 ^ k := Nat.pow_le_pow_right (by decide) hl
  have hp9 : 10 ^ k ≤ 10 ^ 9 := Nat.pow_le_pow_right (by decide) hk4
  have hst : stoi w = .ok (decimalValue w : Int) := by
    rw [stoi_digits hne ha, if_pos (by omega), decimalValue_eq]
  refine ⟨⟨hne, fun c hc => isDigitB_iff.1 (ha c hc)⟩, hl, hm, ?_, hst⟩
  unfold stoiCaught
  rw [hst]

/-- A written year found in `t`: its digits and its era, both occurring in `t`; without era it has four digits. -/
def YearIn (t : Text) (y : Int) : Prop :=
  ∃ ds e, IsDigits ds ∧ ds.length ≤ 4 ∧ ds <:+: t ∧ Era.text e <:+: t ∧ (e = .unmarked ∨ e = .be → ds.length = 4) ∧
    y = writtenYear (decimalValue ds) e

theorem lang_seq {a b : Re} {w : Text} (h : Lang (.seq a b) w) : ∃ u v, w = u ++ v ∧ Lang a u ∧ Lang b v := by
  obtain ⟨s, s', hr, hc⟩ := h
  obtain ⟨s1, h1, h2⟩ := rel_seq.1 hr
  obtain ⟨u, hu⟩ := h1.consumed
  obtain ⟨v, hv⟩ := h2.consumed
  exact ⟨u, v, hc.unique (hu.trans hv), ⟨s, s1, h1, hu⟩, ⟨s1, s', h2, hv⟩⟩

/-! ## The month-name parser -/

/-- The table of month names agrees with English. -/
theorem monthConstants_word {w : Text} (h : monthConstants.get w ≠ 0) : monthWord w (monthConstants.get w) = true := by
  unfold WordMap.get at h ⊢
  cases hl : WordMap.lookup monthConstants w with
  | none => rw [hl] at h; exact absurd rfl h
  | some v =>
    have hm := lookup_mem hl
    have : monthConstants.all (fun p => monthWord p.1 p.2) = true := by decide +kernel
    exact List.all_eq_true.1 this (w, v) hm

theorem monthName_bodies3 : (Ast.monthName.bodies 3).all (fun b => b.allB isDigitB && (b.minLen == 4) && (b.maxLen == some 4)) = true := by
  decide +kernel

theorem monthName_bodies4 : Ast.monthName.bodies 4 =
    [.alt (.alt (.seq (.star true (.one (.set true false [.cls .space false]))) (.seq (.one (.ch true 66)) (.one (.ch true 69))))
      (.seq (.one (.ch true 65)) (.one (.ch true 68)))) (.seq (.one (.ch true 66)) (.one (.ch true 67)))] := by decide +kernel

theorem monthName_year {t : Text} {mt : Match} (h : Ast.monthName.search t = some mt) (hne : mt.str 3 ≠ []) :
    ∃ e, IsDigits (mt.str 3) ∧ (mt.str 3).length = 4 ∧ Era.text e <:+: toLower (mt.str 4) ∧
      stoiCaught (mt.str 3) = .ok (some (decimalValue (mt.str 3) : Int)) ∧
      eraYear (decimalValue (mt.str 3)) (mt.str 4) = writtenYear (decimalValue (mt.str 3)) e := by
  have ok := Re.search_ok h
  rcases ok.group_lang 3 (by decide) with h3 | ⟨body, hb, hl⟩
  · exact absurd h3 hne
  have := List.all_eq_true.1 monthName_bodies3 body hb
  simp only [Bool.and_eq_true, beq_iff_eq] at this
  obtain ⟨d1, d2, d3, d4, -⟩ := year_digits hl this.1.1 (by omega) this.2 (by decide)
  have hera : ∃ e : Era, ∃ gap, toLower (mt.str 4) = gap ++ e.text ∧ (e ≠ .be → gap = []) := by
    rcases ok.group_lang 4 (by decide) with h4 | ⟨body, hb, hl⟩
    · exact ⟨.unmarked, [], by rw [h4]; rfl, fun _ => rfl⟩
    · rw [monthName_bodies4] at hb
      simp only [List.mem_singleton] at hb
      subst hb
      rcases lang_alt hl with hl | hl
      · rcases lang_alt hl with hl | hl
        · obtain ⟨u, v, e, -, hv⟩ := lang_seq hl
          refine ⟨.be, toLower u, ?_, fun h => absurd rfl h⟩
          have := hv.words [txt!"be"] (by decide)
          rw [List.mem_singleton] at this
          rw [e, show toLower (u ++ v) = toLower u ++ toLower v from by simp [toLower], this]
          rfl
        · have := hl.words [txt!"ad"] (by decide)
          rw [List.mem_singleton] at this
          exact ⟨.ad, [], this, fun _ => rfl⟩
      · have := hl.words [txt!"bc"] (by decide)
        rw [List.mem_singleton] at this
        exact ⟨.bc, [], this, fun _ => rfl⟩
  obtain ⟨e, gap, he, hg⟩ := hera
  exact ⟨e, d1, by omega, by rw [he]; exact (List.suffix_append _ _).isInfix, d4, eraYear_written ⟨gap, he, hg⟩⟩

/-- What the month-name parser makes of a match. -/
theorem monthName_extracted {rt : Rt} {g : Globals} {t : Text} {mt : Match} {ref : PTime} {idx : Nat} {res : PResult}
    {x : DateTime} (hx : RefReads ref x) (hs : Ast.monthName.search t = some mt)
    (h : monthNameExtract rt g t mt ref idx = .ok res) :
    (res.startDate.get .mday = 1 ∧ (res.startDate.get .month = 0 ∨
      ∃ w m, w <:+: t ∧ monthWord w m = true ∧ res.startDate.get .month = (m : Nat))) ∧
    (res.startDate.certain .year = false →
      ∃ w m y, w <:+: t ∧ monthWord w m = true ∧ DateIs res.startDate (y, m, 1) ∧ NearestYear x.date m 1 y) ∧
    (res.startDate.certain .year = true → ∃ ds e, IsDigits ds ∧ ds.length = 4 ∧ ds <:+: t ∧ Era.text e <:+: toLower t ∧
      res.startDate.get .year = writtenYear (decimalValue ds) e) := by
  unfold monthNameExtract at h
  obtain ⟨tx, -, h⟩ := Out.bind_eq_ok.1 h
  have near : ∀ y : Int, nearestYear ref ((monthConstants.get (mt.str 2) : Nat) : Int) ((1 : Nat) : Int) = .ok y →
      ∃ m y' : Nat, (monthConstants.get (mt.str 2)) = m ∧ y = y' ∧ 1 ≤ m ∧ NearestYear x.date m 1 y' := by
    intro y hy
    obtain ⟨hc, -, -, y', rfl, -, hn⟩ := nearestYear_sound hx hy
    exact ⟨_, y', rfl, rfl, hc.1, hn (fun _ => by decide) (by omega)⟩
  have hw2 : monthConstants.get (mt.str 2) ≠ 0 → mt.str 2 <:+: t ∧ monthWord (mt.str 2) (monthConstants.get (mt.str 2)) = true :=
    fun h0 => ⟨str_infix hs 2, monthConstants_word h0⟩
  have hmw : ∀ c : Comps, c.get .month = ((monthConstants.get (mt.str 2) : Nat) : Int) → (c.get .month = 0 ∨
      ∃ w m, w <:+: t ∧ monthWord w m = true ∧ c.get .month = (m : Nat)) := by
    intro c hc
    by_cases h0 : monthConstants.get (mt.str 2) = 0
    · left; rw [hc, h0]; rfl
    · exact .inr ⟨_, _, (hw2 h0).1, (hw2 h0).2, hc⟩
  have fin : ∀ year : Int, (year = -1 ∨ ∃ ds e, IsDigits ds ∧ ds.length = 4 ∧ ds <:+: t ∧ Era.text e <:+: toLower t ∧
        year = writtenYear (decimalValue ds) e) →
      (if year ≠ -1 then (pure (((PResult.mk' ref idx tx).onStart
          (fun c => ((c.imply .mday 1).set .month ((monthConstants.get (mt.str 2) : Nat) : Int)).set .year year)).setTag .monthName) : Out PResult)
        else do
          let y ← nearestYear ref ((monthConstants.get (mt.str 2) : Nat) : Int) 1
          pure (((PResult.mk' ref idx tx).onStart
            (fun c => ((c.imply .mday 1).set .month ((monthConstants.get (mt.str 2) : Nat) : Int)).imply .year y)).setTag .monthName)) = .ok res →
      (res.startDate.get .mday = 1 ∧ (res.startDate.get .month = 0 ∨
        ∃ w m, w <:+: t ∧ monthWord w m = true ∧ res.startDate.get .month = (m : Nat))) ∧
      (res.startDate.certain .year = false →
        ∃ w m y, w <:+: t ∧ monthWord w m = true ∧ DateIs res.startDate (y, m, 1) ∧ NearestYear x.date m 1 y) ∧
      (res.startDate.certain .year = true → ∃ ds e, IsDigits ds ∧ ds.length = 4 ∧ ds <:+: t ∧ Era.text e <:+: toLower t ∧
        res.startDate.get .year = writtenYear (decimalValue ds) e) := by
    intro year hy h
    by_cases hyr : year = -1
    · rw [if_neg (by simp [hyr])] at h
      obtain ⟨y, hy, h⟩ := Out.bind_eq_ok.1 h
      obtain ⟨m, y', hm, rfl, m1, hn⟩ := near y hy
      cases h
      have hw := hw2 (by omega)
      refine ⟨⟨rfl, hmw _ rfl⟩, fun _ => ⟨mt.str 2, m, y', hw.1, hm ▸ hw.2, ⟨rfl, ?_, rfl⟩, hn⟩, fun hc => ?_⟩
      · rw [← hm]; rfl
      · cases hc
    · rw [if_pos hyr] at h
      cases h
      rcases hy with hy | ⟨ds, e, a, b, c, d, f⟩
      · exact absurd hy hyr
      · exact ⟨⟨rfl, hmw _ rfl⟩, fun hc => (by cases hc), fun _ => ⟨ds, e, a, b, c, d, f⟩⟩
  by_cases h3 : mt.str 3 = []
  · rw [h3] at h
    exact fin (-1) (.inl rfl) h
  · rw [if_neg (by simpa using h3)] at h
    obtain ⟨e, d1, d2, d3, d4, d5⟩ := monthName_year hs h3
    rw [d4] at h
    refine fin (eraYear (decimalValue (mt.str 3)) (mt.str 4)) (.inr ⟨mt.str 3, e, d1, d2, str_infix hs 3, ?_, d5⟩) h
    refine d3.trans ?_
    obtain ⟨a, b, hab⟩ := str_infix hs 4
    exact ⟨toLower a, toLower b, by rw [← hab]; simp [toLower]⟩

/-- Every result of the month-name parser comes from a match. -/
theorem monthName_results {rt : Rt} (hrt : rt.Benign) {g g' : Globals} {text : Text} {ref : PTime} {x : DateTime}
    (hx : RefReads ref x) {rs : List PResult} (h : execute rt monthNameParser g text ref = .ok (rs, g')) {r : PResult} (hr : r ∈ rs) :
    (r.startDate.get .mday = 1 ∧ (r.startDate.get .month = 0 ∨
      ∃ w m, w <:+: toLower text ∧ monthWord w m = true ∧ r.startDate.get .month = (m : Nat))) ∧
    (r.startDate.certain .year = false →
      ∃ w m y, w <:+: toLower text ∧ monthWord w m = true ∧ DateIs r.startDate (y, m, 1) ∧ NearestYear x.date m 1 y) ∧
    (r.startDate.certain .year = true → ∃ ds e, IsDigits ds ∧ ds.length = 4 ∧ ds <:+: toLower text ∧
      Era.text e <:+: toLower text ∧ r.startDate.get .year = writtenYear (decimalValue ds) e) := by
  obtain ⟨k, g1, g2, mt, res, -, hs, he, -, rfl⟩ :=
    (execute_scan hrt monthName_pattern (by decide +kernel) g text ref).mem rs g' h r hr
  have he := pure_inv he
  obtain ⟨h1, h2, h3⟩ := monthName_extracted hx hs he
  have hd : (toLower text).drop k <:+: toLower text := (List.drop_suffix _ _).isInfix
  refine ⟨⟨h1.1, h1.2.imp id fun ⟨w, m, a, b, c⟩ => ⟨w, m, a.trans hd, b, c⟩⟩, fun hc => ?_, fun hc => ?_⟩
  · obtain ⟨w, m, y, a, b, c, d⟩ := h2 hc
    exact ⟨w, m, y, a.trans hd, b, c, d⟩
  obtain ⟨ds, e, a, b, c, d, f⟩ := h3 hc
  refine ⟨ds, e, a, b, c.trans hd, ?_, f⟩
  rw [lower_of_infix hd] at d
  exact d.trans hd

/-- **C30 (month names, every text).** Whatever the text, a result of the month-name parser whose year is not certain
is the first of a month named in the text, in the year (previous, same or next) that puts it nearest to the reference date. -/
theorem c30_month_without_year (rt : Rt) (hrt : rt.Benign) (g g' : Globals) (text : Text) (ref : PTime) (x : DateTime)
    (hx : RefReads ref x) (rs : List PResult) (h : execute rt monthNameParser g text ref = .ok (rs, g')) (r : PResult) (hr : r ∈ rs)
    (hc : r.startDate.certain .year = false) :
    ∃ w m y, w <:+: toLower text ∧ monthWord w m = true ∧ DateIs r.startDate (y, m, 1) ∧ NearestYear x.date m 1 y :=
  (monthName_results hrt hx h hr).2.1 hc

/-- **C31 (month names, every text).** A certain year of a result of the month-name parser is the meaning of four digits
that occur in the text, with an era that occurs in the text (or none); the day is the first, and the month is one named in
the text, or 0 (for the word `may.`, see C57). -/
theorem c31_month_with_year (rt : Rt) (hrt : rt.Benign) (g g' : Globals) (text : Text) (ref : PTime) (x : DateTime)
    (hx : RefReads ref x) (rs : List PResult) (h : execute rt monthNameParser g text ref = .ok (rs, g')) (r : PResult) (hr : r ∈ rs)
    (hc : r.startDate.certain .year = true) :
    ∃ ds e, IsDigits ds ∧ ds.length = 4 ∧ ds <:+: toLower text ∧ Era.text e <:+: toLower text ∧
      r.startDate.get .year = writtenYear (decimalValue ds) e ∧ r.startDate.get .mday = 1 ∧
      (r.startDate.get .month = 0 ∨ ∃ w m, w <:+: toLower text ∧ monthWord w m = true ∧ r.startDate.get .month = (m : Nat)) := by
  obtain ⟨h1, -, h3⟩ := monthName_results hrt hx h hr
  obtain ⟨ds, e, a, b, c, d, f⟩ := h3 hc
  exact ⟨ds, e, a, b, c, d, f, h1.1, h1.2⟩

/-! ## The middle-endian parser -/

theorem middleEndian_bodies8 : (Ast.middleEndian.bodies 8).all (fun b => b.allB isDigitB && (b.minLen == 4) && (b.maxLen == some 4)) = true := by
  decide +kernel
theorem middleEndian_bodies10 : (Ast.middleEndian.bodies 10).all (fun b => b.allB isDigitB && (b.minLen == 1) && (b.maxLen == some 4)) = true := by
  decide +kernel
theorem middleEndian_bodies5 : (Ast.middleEndian.bodies 5).all (fun b => b.allB isDigitB && (b.minLen == 1) && (b.maxLen == some 2)) = true := by
  decide +kernel
theorem middleEndian_bodies7 : (Ast.middleEndian.bodies 7).all (fun b => b.allB isDigitB && (b.minLen == 1) && (b.maxLen == some 2)) = true := by
  decide +kernel
theorem middleEndian_bodies9 : (Ast.middleEndian.bodies 9).all (fun b => b.words == some [txt!"be", txt!"ad", txt!"bc"]) = true := by
  decide +kernel
theorem middleEndian_bodies11 : (Ast.middleEndian.bodies 11).all (fun b => b.words == some [txt!"ad", txt!"bc"]) = true := by
  decide +kernel

theorem era_mem {w : Text} (h : w ∈ [txt!"be", txt!"ad", txt!"bc"]) : ∃ e : Era, e ≠ .unmarked ∧ w = e.text := by
  simp only [List.mem_cons, List.not_mem_nil, or_false] at h
  rcases h with rfl | rfl | rfl
  · exact ⟨.be, by decide, rfl⟩
  · exact ⟨.ad, by decide, rfl⟩
  · exact ⟨.bc, by decide, rfl⟩

/-- The explicit year of a match, or `-1` for none. -/
theorem middleEndian_year {t : Text} {mt : Match} (h : Ast.middleEndian.search t = some mt) :
    middleEndianYear mt = .ok (some (-1)) ∨
    ∃ y : Int, middleEndianYear mt = .ok (some y) ∧ ∃ ds e, IsDigits ds ∧ ds.length ≤ 4 ∧ ds <:+: mt.str 0 ∧
      Era.text e <:+: toLower (mt.str 0) ∧ (e = .unmarked ∨ e = .be → ds.length = 4) ∧ y = writtenYear (decimalValue ds) e := by
  have ok := Re.search_ok h
  unfold middleEndianYear
  have lowInf : ∀ n, toLower (mt.str n) <:+: toLower (mt.str 0) := by
    intro n
    obtain ⟨a, b, hab⟩ := group_infix0 ok n
    exact ⟨toLower a, toLower b, by rw [← hab]; simp [toLower]⟩
  by_cases h10 : mt.str 10 = []
  · have h11 : mt.str 11 = [] := by
      by_contra hne
      obtain ⟨body, hb, hl⟩ := ok.imp_lang 11 10 (by decide) (by decide) (by decide +kernel) hne
      have := List.all_eq_true.1 middleEndian_bodies10 body hb
      simp only [Bool.and_eq_true, beq_iff_eq] at this
      have hm := hl.minLen
      rw [h10, this.1.2] at hm
      simp at hm
    by_cases h8 : mt.str 8 = []
    · left
      rw [h8, h10]
      rfl
    · right
      rcases ok.group_lang 8 (by decide) with h8' | ⟨body, hb, hl⟩
      · exact absurd h8' h8
      have := List.all_eq_true.1 middleEndian_bodies8 body hb
      simp only [Bool.and_eq_true, beq_iff_eq] at this
      obtain ⟨d1, d2, d3, d4, -⟩ := year_digits hl this.1.1 (by omega) this.2 (by decide)
      rw [if_pos (by simp [h8]), h10, h11]
      simp only [List.isEmpty_nil, Bool.not_true, Bool.false_eq_true, if_false, d4, Out.bind_ok]
      refine ⟨_, rfl, mt.str 8, ?_⟩
      rcases ok.group_lang 9 (by decide) with h9 | ⟨body, hb, hl⟩
      · exact ⟨.unmarked, d1, d2, group_infix0 ok 8, List.nil_infix, fun _ => by omega,
          eraYear_written ⟨[], by rw [h9]; rfl, fun _ => rfl⟩⟩
      · have := List.all_eq_true.1 middleEndian_bodies9 body hb
        simp only [beq_iff_eq] at this
        obtain ⟨e, he, hw⟩ := era_mem (hl.words _ this)
        exact ⟨e, d1, d2, group_infix0 ok 8, hw ▸ lowInf 9, fun _ => by omega, eraYear_written ⟨[], hw, fun _ => rfl⟩⟩
  · right
    rcases ok.group_lang 10 (by decide) with h10' | ⟨body, hb, hl⟩
    · exact absurd h10' h10
    have := List.all_eq_true.1 middleEndian_bodies10 body hb
    simp only [Bool.and_eq_true, beq_iff_eq] at this
    obtain ⟨d1, d2, d3, d4, -⟩ := year_digits hl this.1.1 (by omega) this.2 (by decide)
    obtain ⟨body, hb, hl⟩ := ok.imp_lang 10 11 (by decide) (by decide) (by decide +kernel) h10
    have := List.all_eq_true.1 middleEndian_bodies11 body hb
    simp only [beq_iff_eq] at this
    have hw' := hl.words _ this
    have h11 : mt.str 11 ≠ [] := by
      intro e
      rw [e] at hw'
      exact absurd hw' (by decide)
    obtain ⟨e, he, hw⟩ := era_mem (.tail _ hw')
    rw [if_pos (by simp [h10]), if_pos (by simp [h10]), if_pos (by simp [h11])]
    simp only [d4, Out.bind_ok]
    refine ⟨_, rfl, mt.str 10, e, d1, d2, group_infix0 ok 10, hw ▸ lowInf 11, ?_, eraYear_written ⟨[], hw, fun _ => rfl⟩⟩
    rintro (rfl | rfl)
    · exact absurd rfl he
    · rw [hw] at hw'; exact absurd hw' (by decide)

/-- The day `d` is written in `t`, in digits or as an English ordinal. -/
def DayIn (t : Text) (d : Nat) : Prop :=
  (∃ ds, IsDigits ds ∧ ds.length ≤ 2 ∧ ds <:+: t ∧ d = decimalValue ds) ∨
  ∃ o, o <:+: t ∧ words (toLower o) = ordinalName d

/-- The day of a match. -/
theorem middleEndian_day {t : Text} {mt : Match} (h : Ast.middleEndian.search t = some mt) :
    ∃ d : Nat, middleEndianDay mt = .ok (d : Int) ∧ (1 ≤ d → d ≤ 31 → DayIn (mt.str 0) d) := by
  have ok := Re.search_ok h
  unfold middleEndianDay
  by_cases h5 : mt.str 5 = []
  · rw [if_pos (by simp [h5])]
    exact ⟨_, rfl, fun a b => .inr ⟨mt.str 4, group_infix0 ok 4, (c32_ordinal _ _ a b).1 rfl⟩⟩
  · rw [if_neg (by simpa using h5)]
    rcases ok.group_lang 5 (by decide) with h5' | ⟨body, hb, hl⟩
    · exact absurd h5' h5
    have := List.all_eq_true.1 middleEndian_bodies5 body hb
    simp only [Bool.and_eq_true, beq_iff_eq] at this
    obtain ⟨d1, d2, d3, -, d4⟩ := year_digits hl this.1.1 (by omega) this.2 (by decide)
    rw [d4]
    have hv : decimalValue (mt.str 5) < 100 := by
      have := digitsVal_lt (hl.allB _ this.1.1) 0
      have hp : 10 ^ (mt.str 5).length ≤ 10 ^ 2 := Nat.pow_le_pow_right (by decide) d2
      rw [decimalValue_eq]
      omega
    refine ⟨decimalValue (mt.str 5), ?_, fun _ _ => .inl ⟨mt.str 5, d1, d2, group_infix0 ok 5, rfl⟩⟩
    simp only [Out.bind_ok]
    rw [show toU16 (decimalValue (mt.str 5)) = (decimalValue (mt.str 5) : Nat) by unfold toU16; omega]
    rfl

/-- The month and the day read from the text, and the year: written in the text, or the nearest. -/
def MonthDay (x : DateTime) (c : Comps) (t : Text) : Prop :=
  ∃ m d : Nat, (∃ w, w <:+: t ∧ monthWord w m = true) ∧ DayIn t d ∧ 1 ≤ d ∧ d ≤ 31 ∧ c.get .month = m ∧ c.get .mday = d ∧
    (YearIn t (c.get .year) ∨
      Civil x.year m d ∧ ∃ y : Nat, c.get .year = y ∧ (y + 1 = x.year ∨ y = x.year ∨ y = x.year + 1) ∧
        (EveryYear m d → ¬ (m = 2 ∧ d = 28 ∧ Leap (x.year + 1)) → NearestYear x.date m d y))

theorem middleEndian_extracted {rt : Rt} {g : Globals} {t : Text} {mt : Match} {ref : PTime} {idx : Nat} {res : PResult}
    {x : DateTime} (hx : RefReads ref x) (hs : Ast.middleEndian.search t = some mt)
    (h : middleEndianExtract rt g t mt ref idx = .ok res) (hp : res.hasPossibleDates = true) (hlow : toLower (mt.str 0) = mt.str 0) :
    MonthDay x res.startDate res.text := by
  unfold middleEndianExtract at h
  obtain ⟨d, hd, hdin⟩ := middleEndian_day hs
  simp only at h
  obtain ⟨d', hd', h⟩ := Out.bind_eq_ok.1 h
  rw [hd] at hd'
  cases hd'
  by_cases hbad : ((monthConstants.get (mt.str 3) : Nat) : Int) = 0 ∨ ((monthConstants.get (mt.str 3) : Nat) : Int) > 12 ∨ (d : Int) = 0 ∨ (d : Int) > 31
  · rw [if_pos hbad] at h
    cases h
    exact absurd (show false = true from hp) (by decide)
  · rw [if_neg hbad] at h
    have hmw : ∃ w, w <:+: mt.str 0 ∧ monthWord w (monthConstants.get (mt.str 3)) = true :=
      ⟨mt.str 3, group_infix0 (Re.search_ok hs) 3, monthConstants_word (by omega)⟩
    generalize hm : monthConstants.get (mt.str 3) = m at h hbad hmw
    have hdi := hdin (by omega) (by omega)
    have key : ∀ (year : Int) (res : PResult), (do
        let y ← (if year ≠ -1 then pure year else nearestYear ref (m : Int) (d : Int) : Out Int)
        let result ← middleEndianRange mt
          (if (mt.str 2).isEmpty then (PResult.mk' ref idx (mt.str 0)).onStart (fun c => ((c.set .mday d).set .month m).set .year y)
          else ((PResult.mk' ref idx (mt.str 0)).onStart (fun c => ((c.set .mday d).set .month m).set .year y)).onStart
            (·.set .wday (weekdayOffset.get (toLower (mt.str 2)))))
        pure (result.setTag .middleEndian) : Out PResult) = .ok res →
        ∃ y : Int, (if year ≠ -1 then (pure year : Out Int) else nearestYear ref (m : Int) (d : Int)) = .ok y ∧ res.text = mt.str 0 ∧
          res.startDate.get .year = y ∧ res.startDate.get .month = m ∧ res.startDate.get .mday = d := by
      intro year res h
      obtain ⟨y, hy, h⟩ := Out.bind_eq_ok.1 h
      refine ⟨y, hy, ?_⟩
      obtain ⟨r1, hr1, h⟩ := Out.bind_eq_ok.1 h
      cases h
      unfold middleEndianRange at hr1
      by_cases h6 : mt.str 6 = []
      · rw [if_pos (by simp [h6])] at hr1
        cases hr1
        split <;> exact ⟨rfl, rfl, rfl, rfl⟩
      · rw [if_neg (by simpa using h6)] at hr1
        obtain ⟨ed, -, hr1⟩ := Out.bind_eq_ok.1 hr1
        cases hr1
        split <;> exact ⟨rfl, rfl, rfl, rfl⟩
    rcases middleEndian_year hs with hy | ⟨yw, hy, ds, e, a1, a2, a3, a4, a5, a6⟩
    · rw [hy] at h
      simp only [Out.bind_ok] at h
      obtain ⟨y, h1, h2, h3, h4, h5⟩ := key _ _ h
      rw [if_neg (by simp)] at h1
      obtain ⟨hc, -, -, y', rfl, hn1, hn2⟩ := nearestYear_sound hx h1
      exact ⟨m, d, h2 ▸ hmw, h2 ▸ hdi, hc.2.2.1, by omega, h4, h5, .inr ⟨hc, y', h3, hn1, hn2⟩⟩
    · rw [hy] at h
      simp only [Out.bind_ok] at h
      obtain ⟨y, h1, h2, h3, h4, h5⟩ := key _ _ h
      by_cases hyr : yw = -1
      · rw [if_neg (by simp [hyr])] at h1
        obtain ⟨hc, -, -, y', rfl, hn1, hn2⟩ := nearestYear_sound hx h1
        exact ⟨m, d, h2 ▸ hmw, h2 ▸ hdi, hc.2.2.1, by omega, h4, h5, .inr ⟨hc, y', h3, hn1, hn2⟩⟩
      · rw [if_pos hyr] at h1
        cases h1
        refine ⟨m, d, h2 ▸ hmw, h2 ▸ hdi, by omega, by omega, h4, h5, .inl ⟨ds, e, a1, a2, ?_, ?_, a5, by rw [h3, a6]⟩⟩
        · rw [h2]; exact a3
        · rw [h2, ← hlow]; exact a4

/-- **C31 (month and day, every text).** Whatever the text, a result of the middle-endian parser has a month and a day
1..31 that are written in the text of the result, and a year that is either written in the text of the result (with its era) or the nearest one. -/
theorem c31_month_day (rt : Rt) (hrt : rt.Benign) (g g' : Globals) (text : Text) (ref : PTime) (x : DateTime)
    (hx : RefReads ref x) (rs : List PResult) (h : execute rt middleEndianParser g text ref = .ok (rs, g')) (r : PResult) (hr : r ∈ rs) :
    MonthDay x r.startDate r.text := by
  obtain ⟨k, g1, g2, mt, res, -, hs, he, hp, rfl⟩ :=
    (execute_scan hrt middleEndian_pattern (by decide +kernel) g text ref).mem rs g' h r hr
  have he := pure_inv he
  have := middleEndian_extracted hx hs he hp
    (lower_of_infix ((str_infix hs 0).trans (List.drop_suffix _ _).isInfix))
  exact this

/-- **C30 (month and day, every text).** If the text of a result of the middle-endian parser has no four digits in a row
and neither `ad` nor `bc` in it, then its month and day exist in the year of the reference and it is put into the
previous, the same or the next year, whichever is nearest to the reference date -- except for 28 February in a year before a
leap year, and 29 February (see below). -/
theorem c30_month_day_partial (rt : Rt) (hrt : rt.Benign) (g g' : Globals) (text : Text) (ref : PTime) (x : DateTime)
    (hx : RefReads ref x) (rs : List PResult) (h : execute rt middleEndianParser g text ref = .ok (rs, g')) (r : PResult) (hr : r ∈ rs)
    (h4 : ∀ ds, ds <:+: r.text → ds.length = 4 → ¬ IsDigits ds) (had : ¬ txt!"ad" <:+: r.text) (hbc : ¬ txt!"bc" <:+: r.text) :
    ∃ m d y, (∃ w, w <:+: r.text ∧ monthWord w m = true) ∧ DayIn r.text d ∧ DateIs r.startDate (y, m, d) ∧ Civil x.year m d ∧ (y + 1 = x.year ∨ y = x.year ∨ y = x.year + 1) ∧
      ((m = 2 → d ≤ 28) → ¬ (m = 2 ∧ d = 28 ∧ Leap (x.year + 1)) → NearestYear x.date m d y) := by
  obtain ⟨m, d, hw, hdi, -, -, hm, hd, hy | ⟨hc, y, h1, h2, h3⟩⟩ := c31_month_day rt hrt g g' text ref x hx rs h r hr
  · exfalso
    obtain ⟨ds, e, a1, a2, a3, a4, a5, -⟩ := hy
    cases e with
    | unmarked => exact h4 ds a3 (a5 (.inl rfl)) a1
    | be => exact h4 ds a3 (a5 (.inr rfl)) a1
    | ad => exact had a4
    | bc => exact hbc a4
  · exact ⟨m, d, y, hw, hdi, ⟨h1, hm, hd⟩, hc, h2, h3⟩

end Chrono.Props
