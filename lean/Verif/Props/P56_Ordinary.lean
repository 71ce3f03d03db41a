import Verif.Props.P55_OrdinaryParts
/-!
# C57: ordinary texts never kill the program
-/
namespace Chrono.Props
open Chrono Chrono.Spec Chrono.Boost

section
variable {ref : PTime} {x : DateTime}

/-- The reference time and its year, with room for 2700 years. -/
structure WideRef (ref : PTime) (x : DateTime) : Prop where
  reads : RefReads ref x
  early : 1500 ≤ x.year
  late : x.year ≤ 6900

theorem WideRef.good (h : WideRef ref x) : GoodRef ref x :=
  ⟨h.reads, by have := h.early; omega, by have := h.late; omega⟩

theorem dn_wide {y m d : Nat} (hc : Civil y m d) (h1 : 1500 ≤ y) (h2 : y ≤ 6900) :
    minDN + 20000 ≤ dayNumber y m d ∧ dayNumber y m d + 20000 ≤ maxDN := by
  obtain ⟨c1, c2, c3, c4⟩ := hc
  have hb := monthLength_bounds y m c1 c2
  have k := dayNumber_eq y m d c1 c2 c3
  generalize dayNumber y m d = A at *
  unfold minDN maxDN
  interval_cases m <;> simp at k <;> omega

theorem usable_between {D : Date} (h1 : (minDN : Int) + 400 < D.dn) (h2 : D.dn + 400 < maxDN) : Usable D := by
  have hr : D.inRange := by
    unfold Date.inRange
    unfold minDN maxDN at *
    omega
  obtain ⟨y, m, d, hcd, hdn, hymd⟩ := Date.civil hr
  refine ⟨y, m, d, hymd, hcd.2.2, ?_, ?_⟩
  · by_contra hlt
    have := dn_early hcd.2.2 (by omega)
    generalize dayNumber y m d = B at *
    omega
  · by_contra hlt
    have := dn_late hcd.2.2 (by omega)
    generalize dayNumber y m d = B at *
    omega

theorem wide_addDays (h : WideRef ref x) {n : Int} (h1 : -19000 ≤ n) (h2 : n ≤ 19000) : Normal Usable (ref.date.addDays n) := by
  obtain ⟨⟨-, -, hc⟩, -, -, -, us, -, -, -, hd⟩ := refReads_us h.reads
  obtain ⟨a, b⟩ := dn_wide hc h.early h.late
  rw [hd]
  unfold Date.addDays
  generalize hA : dayNumber x.year x.month x.day = A at *
  rw [if_pos (by simp only; unfold minDN maxDN at *; omega)]
  refine normal_ok (usable_between ?_ ?_) <;> simp only <;> omega

theorem wide_addMonths (h : WideRef ref x) {n : Nat} (hn : n ≤ 32400) : Normal Usable (ref.date.addMonths n) := by
  obtain ⟨⟨-, -, hc⟩, -⟩ := refReads_us h.reads
  obtain ⟨c1, c2, c3, c4⟩ := hc
  have e1 := h.early
  have e2 := h.late
  obtain ⟨k, hk⟩ : ∃ k : Nat, k = 12 * x.year + (x.month - 1) + n := ⟨_, rfl⟩
  obtain ⟨D, hD, hy⟩ := addMonths_count h.reads.date (n := n) (by omega) (by omega) (k := k) (by omega) (by omega) (by omega)
  obtain ⟨⟨-, -, hcd⟩, -⟩ := Date.of_ymd hy
  exact ⟨D, hD, _, _, _, hy, hcd, by omega, by omega⟩

variable {idx : Nat} {t : Text}

theorem wide_deadlineDate (hx : WideRef ref x) (unit : Text) {num : FNum} (hn : num = .half ∨ ∃ n : Nat, n ≤ 2700 ∧ num = .int n) :
    Normal (fun r => Presentable r ∧ NoTimeRange r) (deadlineDate (PResult.mk' ref idx t) ref unit num) := by
  rcases hn with rfl | ⟨n, hn, rfl⟩
  · exact deadlineDate_words hx.good unit (.inl rfl)
  unfold deadlineDate
  have e1 : FNum.toLong (.int n) = .ok (n : Int) := if_pos (by omega)
  have e2 : FNum.toInt (.int n) = .ok (n : Int) := if_pos (by omega)
  simp only [FNum.isWhole, if_true, e1, e2, Out.bind_ok]
  refine normal_ite (fun _ => ?_) fun _ => ?_
  · exact normal_bind (wide_addDays hx (by omega) (by omega)) fun D hD => dated_plain hD
  refine normal_ite (fun _ => ?_) fun _ => ?_
  · exact normal_bind (wide_addDays hx (by omega) (by omega)) fun D hD => dated_plain hD
  refine normal_ite (fun _ => ?_) fun _ => ?_
  · exact normal_bind (wide_addMonths hx (by omega)) fun D hD => dated_plain hD
  refine normal_ite (fun _ => ?_) fun _ => ?_
  · have e : (12 * (n : Int)) = ((12 * n : Nat) : Int) := by push_cast; ring
    rw [e]
    exact normal_bind (wide_addMonths hx (by omega)) fun D hD => dated_plain hD
  · exact dated_plain (usable_ref hx.good)

theorem wide_deadlineTime (ref : PTime) (unit : Text) {num : FNum} (hn : num = .half ∨ ∃ n : Nat, n ≤ 2700 ∧ num = .int n) :
    Normal (fun _ => True) (deadlineTime ref unit num) := by
  rcases hn with rfl | ⟨n, hn, rfl⟩
  · exact deadlineTime_words ref unit (.inl rfl)
  unfold deadlineTime
  have e2 : FNum.toInt (.int n) = .ok (n : Int) := if_pos (by omega)
  have e3 : FNum.ceilInt (.int n) = .ok (n : Int) := if_pos (by omega)
  simp only [FNum.isWhole, if_true, e2, e3, Out.bind_ok]
  repeat' refine normal_ite (fun _ => ?_) fun _ => ?_
  all_goals exact normal_ok trivial
end

/-! ## Numbers -/

/-- Digits of an ordinary text. -/
theorem ordinary_stoi {text : Text} (h : Ordinary text) {ds : Text} (hd : IsDigits ds) (hi : ds <:+: toLower text) :
    ∃ n : Nat, n ≤ 2700 ∧ stoi ds = .ok (n : Int) := by
  have hn := h.numbers ds _ (number_of hd) hi
  refine ⟨_, hn, ?_⟩
  rw [stoi_digits hd.1 (fun c hc => isDigitB_iff.2 (hd.2 c hc)), if_pos (by rw [decimalValue_eq] at hn; omega), decimalValue_eq]

theorem deadline_bodies3 : ∃ a b c d, Ast.deadline.bodies 3 = [.alt (.alt (.alt a b) c) d] ∧ a.allB (fun c => !isDigitB c) = true ∧
    b.allB isDigitB = true ∧ 1 ≤ b.minLen ∧ c.allB (fun c => !isDigitB c) = true ∧ d.allB (fun c => !isDigitB c) = true :=
  ⟨_, _, _, _, rfl, by decide +kernel, by decide +kernel, by decide +kernel, by decide +kernel, by decide +kernel⟩

theorem lookup_digits {t : Text} (h : IsDigits t) : WordMap.lookup integerWords t = none := by
  cases hl : WordMap.lookup integerWords t with
  | none => rfl
  | some v =>
    have hm := lookup_mem hl
    have : integerWords.all (fun p => p.1.all fun c => !(isDigitB c)) = true := by decide +kernel
    have h1 := List.all_eq_true.1 this _ hm
    cases t with
    | nil => exact absurd rfl h.1
    | cons c t =>
      have h2 := List.all_eq_true.1 h1 c (by simp)
      rw [isDigitB_iff.2 (h.2 c (by simp))] at h2
      simp at h2

theorem contains_mem {p t : Text} (h : contains p t = true) : ∀ c ∈ p, c ∈ t := by
  intro c hc
  exact (contains_infix h).subset hc

theorem deadlineNumber_ordinary {text : Text} (h : Ordinary text) {t : Text} (ht : t <:+: toLower text) {mt : Match}
    (hs : Ast.deadline.search t = some mt) :
    deadlineNumber integerWords (mt.str 3) = .ok none ∨ deadlineNumber integerWords (mt.str 3) = .ok (some .half) ∨
      ∃ n : Nat, n ≤ 2700 ∧ deadlineNumber integerWords (mt.str 3) = .ok (some (.int n)) := by
  have widen : (∀ c ∈ mt.str 3, isDigitB c = false) → deadlineNumber integerWords (mt.str 3) = .ok none ∨ deadlineNumber integerWords (mt.str 3) = .ok (some .half) ∨
      ∃ n : Nat, n ≤ 2700 ∧ deadlineNumber integerWords (mt.str 3) = .ok (some (.int n)) := by
    intro hd
    rcases deadlineNumber_words hd with e | e | ⟨n, hn, e⟩
    · exact .inl e
    · exact .inr (.inl e)
    · exact .inr (.inr ⟨n, by omega, e⟩)
  rcases (Re.search_ok hs).group_lang 3 (by decide) with h3 | ⟨body, hb, hl⟩
  · exact widen (by rw [h3]; simp)
  obtain ⟨a, b, c, d, he, h1, h2, h3, h4, h5⟩ := deadline_bodies3
  rw [he, List.mem_singleton] at hb
  subst hb
  have no : ∀ r : Re, Lang r (mt.str 3) → r.allB (fun c => !isDigitB c) = true → ∀ c ∈ mt.str 3, isDigitB c = false := by
    intro r hr ha c hc
    simpa using hr.allB _ ha c hc
  rcases lang_alt hl with hl | hl
  · rcases lang_alt hl with hl | hl
    · rcases lang_alt hl with hl | hl
      · exact widen (no _ hl h1)
      · right; right
        have hd := isDigits_of hl h2 h3
        obtain ⟨n, hn, hst⟩ := ordinary_stoi h hd ((str_infix hs 3).trans ht)
        refine ⟨n, hn, ?_⟩
        have nod : ∀ c ∈ mt.str 3, 48 ≤ c ∧ c ≤ 57 := hd.2
        unfold deadlineNumber
        rw [lookup_digits hd]
        simp only
        rw [if_neg ?_, if_neg ?_, if_neg ?_, hst]
        · simp only [Int.toNat_natCast]; rw [f32_small (by omega)]
        · intro hc; have := nod 104 (contains_mem hc 104 (by decide)); omega
        · intro hc; have := nod 102 (contains_mem hc 102 (by decide)); omega
        · rintro (hc | hc) <;> (rw [hc] at nod; have := nod 97 (by decide); omega)
    · exact widen (no _ hl h4)
  · exact widen (no _ hl h5)

theorem deadline_ordinary {rt : Rt} (hrt : rt.Benign) {ref : PTime} {x : DateTime} (hx : WideRef ref x) {text : Text} (ho : Ordinary text) :
    Lives rt ref text deadlineParser := by
  refine lives_pure hrt rfl deadline_pattern deadline_min fun k mt hs => ?_
  unfold deadlineExtract
  have num : ∀ num : FNum, (num = .half ∨ ∃ n : Nat, n ≤ 2700 ∧ num = .int n) →
      Normal (fun res => res.hasPossibleDates = true → Presentable res ∧ NoTimeRange res) (do
        if ← searches false Pat.dwmy (mt.str 4) then
          deadlineDate (PResult.mk' ref (k + mt.start) (mt.str 0)) ref (mt.str 4) num
        else
          let tmpTime ← deadlineTime ref (mt.str 4) num
          let result ← implyDate (PResult.mk' ref (k + mt.start) (mt.str 0)) ref.date
          let result := result.onStart (fun c =>
            ((c.imply .hour tmpTime.hours).imply .min tmpTime.minutes).imply .sec tmpTime.seconds)
          return result.setTag .deadline) := by
    intro num hn
    unfold searches
    rw [Ast.compile_dwmy]
    simp only [Out.bind_ok]
    refine normal_ite (fun _ => normal_mono (wide_deadlineDate hx _ hn) fun _ h _ => h) fun _ => ?_
    refine normal_bind (wide_deadlineTime ref _ hn) fun T _ => ?_
    obtain ⟨r, h1, h2⟩ := dated_present (ref := ref) (idx := k + mt.start) (t := mt.str 0) (usable_ref hx.good)
      (fun c => ((c.imply .hour T.hours).imply .min T.minutes).imply .sec T.seconds)
      (by intro c k hk; rcases hk with rfl | rfl | rfl | rfl <;> simp [get_imply])
      (by intro c h1 h2; simp [get_imply, h1]; exact upTo_hours _)
      (by intro c h1 h2; simp [get_imply, known_imply, h1]; exact upTo_minutes _)
      (by intro c h1 h2; simp [get_imply, known_imply, h1]; exact upTo_seconds _)
    rw [h1, Out.bind_ok]
    refine normal_ok fun _ => ?_
    obtain ⟨⟨p1, p2, p3⟩, p4⟩ := h2
    refine ⟨⟨by rw [setTag_startDate]; exact p1, fun he => ?_, by rw [setTag_startDate]; exact p3⟩, fun ht => ?_⟩
    · rw [setTag_endDate]; exact p2 (by rw [setTag_hasEnd] at he; exact he)
    · rw [setTag_hasEnd]; exact p4 ⟨by have := ht.1; rwa [setTag_startDate] at this, by have := ht.2; rwa [setTag_startDate] at this⟩
  rcases deadlineNumber_ordinary ho (List.drop_suffix _ _).isInfix hs with e | e | ⟨n, hn, e⟩
  · rw [e]
    exact normal_ok fun h => absurd h (by simp [PResult.hasPossibleDates])
  · rw [e]; exact num _ (.inl rfl)
  · rw [e]; exact num _ (.inr ⟨n, hn, rfl⟩)

theorem week_ordinary {rt : Rt} (hrt : rt.Benign) {ref : PTime} {x : DateTime} (hx : WideRef ref x) {text : Text} (ho : Ordinary text) :
    Lives rt ref text weekParser := by
  refine lives_of hrt week_pattern week_min (fun g => ∀ p ∈ g, p.2 ≤ 12) (by decide) fun k g mt hg hs => ?_
  have hw : ∃ (n : Nat) (g' : Globals), weekNumber g mt = .ok ((n : Int), g') ∧ n ≤ 2700 ∧ ∀ p ∈ g', p.2 ≤ 12 := by
    unfold weekNumber
    by_cases h3 : mt.str 3 = []
    · rw [h3]
      simp only [List.isEmpty_nil, Bool.not_true, Bool.false_eq_true, if_false]
      split
      · obtain ⟨h1, h2⟩ := wordMap_get_touch g (mt.str 4) hg
        exact ⟨_, _, rfl, by omega, h2⟩
      · exact ⟨1, g, rfl, by decide, hg⟩
    · rw [if_pos (by simpa using h3)]
      rcases (Re.search_ok hs).group_lang 3 (by decide) with h' | ⟨body, hb, hl⟩
      · exact absurd h' h3
      have hall : (Ast.week.bodies 3).all (fun b => b.allB isDigitB && decide (1 ≤ b.minLen)) = true := by decide +kernel
      have ha := List.all_eq_true.1 hall body hb
      simp only [Bool.and_eq_true, decide_eq_true_eq] at ha
      obtain ⟨n, hn, hst⟩ := ordinary_stoi ho (isDigits_of hl ha.1 ha.2) ((str_infix hs 3).trans (List.drop_suffix _ _).isInfix)
      rw [hst]
      exact ⟨n, g, rfl, hn, hg⟩
  obtain ⟨n, g', hn, hn12, hg'⟩ := hw
  have hshift : Normal Usable (weekShift ref (mt.str 2) n) := by
    unfold weekShift
    refine normal_ite (fun _ => wide_addDays hx (by omega) (by omega)) fun _ => ?_
    refine normal_ite (fun _ => wide_addDays hx (by omega) (by omega)) fun _ => ?_
    exact normal_ok (usable_ref hx.good)
  obtain ⟨D, hD, hu⟩ := hshift
  obtain ⟨r, hr, hp⟩ := dated_plain (ref := ref) (idx := k + mt.start) (t := mt.str 0) hu
  refine ⟨r, g', ?_, hg', fun _ => hp⟩
  show weekExtract rt g ((toLower text).drop k) mt ref (k + mt.start) = _
  unfold weekExtract
  rw [hn]
  simp only [Out.bind_ok]
  rw [hD]
  simp only [Out.bind_ok]
  rw [hr]
  rfl

/-! ## ISO dates -/

theorem iso_shape : ∃ a y d m r, Ast.iso = .seq (.cap 1 a) (.seq (.cap 2 y) (.seq d (.seq (.cap 3 m) r))) ∧
    d.words = some [txt!"-"] ∧ m.allB isDigitB = true ∧ 1 ≤ m.minLen :=
  ⟨_, _, _, _, _, rfl, by decide +kernel, by decide +kernel, by decide +kernel⟩

theorem iso_ordinary {rt : Rt} (hrt : rt.Benign) {ref : PTime} {text : Text} (ho : Ordinary text) : Lives rt ref text isoParser := by
  refine lives_pure hrt rfl iso_pattern iso_min fun k mt hs => ?_
  exfalso
  obtain ⟨cs, hcl, -⟩ := Re.search_cl hs
  have h0 : mt.str 0 <:+: toLower text := (str_infix hs 0).trans (List.drop_suffix _ _).isInfix
  obtain ⟨a, y, d, m, r, he, h1, h2, h3⟩ := iso_shape
  rw [he] at hcl
  obtain ⟨w1, v1, e0, -, l1⟩ := lang_seq hcl.lang
  obtain ⟨w2, v2, rfl, -, l2⟩ := lang_seq l1
  obtain ⟨w3, v3, rfl, k3, l3⟩ := lang_seq l2
  obtain ⟨w4, v4, rfl, k4, -⟩ := lang_seq l3
  rw [e0] at h0
  have hw3 := k3.words _ h1
  rw [lower_of_infix (t := text) (List.IsInfix.trans ⟨w1 ++ w2, w4 ++ v4, by simp⟩ h0), List.mem_singleton] at hw3
  obtain ⟨d1, d2⟩ := isDigits_of (lang_cap k4) h2 h3
  cases w4 with
  | nil => exact d1 rfl
  | cons c w4 =>
    have hc := d2 c (by simp)
    refine ho.ranges w3 (by rw [hw3]; decide) [] c (by simp [Blanks]) hc.1 hc.2 (List.IsInfix.trans ⟨w1 ++ w2, w4 ++ v4, by simp⟩ h0)

/-! ## Months -/

theorem monthName_ordinary {rt : Rt} (hrt : rt.Benign) {ref : PTime} {x : DateTime} (hx : WideRef ref x) {text : Text} (ho : Ordinary text) :
    Lives rt ref text monthNameParser := by
  refine lives_pure hrt rfl monthName_pattern (by decide +kernel) fun k mt hs => ?_
  obtain ⟨m1, m2⟩ := monthName_word ho.backslash ho.may hs
  have hmw := monthConstants_word (w := mt.str 2) (by omega)
  have inf : ∀ n, mt.str n <:+: toLower text := fun n => (str_infix hs n).trans (List.drop_suffix _ _).isInfix
  unfold monthNameExtract
  rw [show substr (mt.str 0) (mt.lengthOf 1) = .ok ((mt.str 0).drop (mt.lengthOf 1)) by
    unfold substr; rw [if_pos (lengthOf_one (Re.search_ok hs))]]
  simp only [Out.bind_ok]
  have e1 := hx.early
  have e2 := hx.late
  by_cases h3 : mt.str 3 = []
  · rw [h3]
    simp only [List.isEmpty_nil, if_true]
    generalize monthConstants.get (mt.str 2) = m at *
    obtain ⟨y, hy⟩ := nearestYear_ok (m := m) (d := 1) hx.reads (firstDay m1 m2) (by omega) (by omega)
    obtain ⟨-, -, -, y', rfl, hn, -⟩ := nearestYear_sound hx.reads hy
    show Normal _ (nearestYear ref (m : Int) 1 >>= _)
    rw [show nearestYear ref (m : Int) 1 = nearestYear ref (m : Int) ((1 : Nat) : Int) from rfl, hy]
    refine normal_ok fun _ => present_start ?_ (by simp) (by simp [get_imply])
    refine printable_of (firstDay m1 m2) (y := y') (by omega) (by omega) ⟨?_, ?_, ?_⟩ ?_ ?_ ?_ <;> simp [get_imply] <;> exact upTo_zero _
  · rw [if_neg (by simpa using h3)]
    obtain ⟨-, d1, d2, -, d4, -⟩ := monthName_year hs h3
    obtain ⟨gap, hg, hinf⟩ := monthName_written hs h3
    obtain ⟨e, blanks, hb, h4, hbe⟩ := monthName_era hs (lower_of_infix (inf 4))
    have hy : eraYear (decimalValue (mt.str 3)) (mt.str 4) = writtenYear (decimalValue (mt.str 3)) e :=
      eraYear_written ⟨blanks, by rw [lower_of_infix (inf 4), h4], hbe⟩
    have hr := ho.years (mt.str 2) _ gap (mt.str 3) _ blanks e hmw hg (number_of d1) d2 hb (by
      rw [List.append_assoc, ← h4]; exact hinf.trans (inf 0))
    rw [d4]
    simp only [Out.bind_ok]
    rw [show (pure (some (eraYear (decimalValue (mt.str 3)) (mt.str 4))) : Out (Option Int)) = .ok (some (eraYear (decimalValue (mt.str 3)) (mt.str 4))) from rfl]
    simp only [Out.bind_ok]
    rw [hy]
    obtain ⟨Y, hY⟩ : ∃ Y : Nat, writtenYear (decimalValue (mt.str 3)) e = Y := ⟨(writtenYear (decimalValue (mt.str 3)) e).toNat, by omega⟩
    rw [hY] at hr ⊢
    rw [if_pos (by omega)]
    generalize monthConstants.get (mt.str 2) = m at *
    refine normal_ok fun _ => present_start ?_ (by simp) (by simp [get_imply])
    refine printable_of (firstDay m1 m2) (y := Y) (by omega) (by omega) ⟨?_, ?_, ?_⟩ ?_ ?_ ?_ <;> simp [get_imply] <;> exact upTo_zero _

/-- The explicit year of a match in an ordinary text, or `-1` for none. -/
theorem middleEndianYear_ordinary {text : Text} (ho : Ordinary text) {t : Text} (ht : t <:+: toLower text) {mt : Match}
    (hs : Ast.middleEndian.search t = some mt) {m d : Nat} (hm : monthWord (mt.str 3) m = true) (hd : DayWritten (mt.str 4) d) :
    middleEndianYear mt = .ok (some (-1)) ∨ ∃ Y : Nat, 1401 ≤ Y ∧ Y ≤ 9998 ∧ middleEndianYear mt = .ok (some (Y : Int)) := by
  have ok := Re.search_ok hs
  obtain ⟨gap, hg, -, -, -, hy⟩ := middleEndian_written ho ht hs
  have low : ∀ n, toLower (mt.str n) = mt.str n := fun n => lower_of_infix ((str_infix hs n).trans ht)
  have fin : ∀ ds (n : Nat) e, writtenYear n e = eraYear n ds → 1401 ≤ writtenYear n e ∧ writtenYear n e ≤ 9998 →
      ∃ Y : Nat, 1401 ≤ Y ∧ Y ≤ 9998 ∧ eraYear n ds = Y := by
    intro ds n e h1 h2
    exact ⟨(writtenYear n e).toNat, by omega, by omega, by rw [← h1]; omega⟩
  unfold middleEndianYear
  rcases hy with ⟨h8, h10⟩ | ⟨gap', blanks, b, hg', hbl, hb, ⟨h8, h10, h11, hinf⟩ | ⟨h10, hinf⟩⟩
  · left
    rw [h8, h10]; rfl
  · right
    rcases ok.group_lang 8 (by decide) with h8' | ⟨body, hbm, hl⟩
    · exact absurd h8' h8
    have := List.all_eq_true.1 middleEndian_bodies8 body hbm
    simp only [Bool.and_eq_true, beq_iff_eq] at this
    obtain ⟨d1, d2, d3, d4, -⟩ := year_digits hl this.1.1 (by omega) this.2 (by decide)
    rw [if_pos (by simp [h8]), h10, h11]
    simp only [List.isEmpty_nil, Bool.not_true, Bool.false_eq_true, if_false, d4, Out.bind_ok]
    have hera : ∃ e : Era, mt.str 9 = e.text := by
      rcases ok.group_lang 9 (by decide) with h9 | ⟨body, hbm, hl⟩
      · exact ⟨.unmarked, h9⟩
      · have := List.all_eq_true.1 middleEndian_bodies9 body hbm
        simp only [beq_iff_eq] at this
        obtain ⟨e, -, hw⟩ := era_mem (hl.words _ this)
        rw [low 9] at hw
        exact ⟨e, hw⟩
    obtain ⟨e, he⟩ := hera
    rw [he] at hinf
    have hr := ho.fullDates _ _ _ _ _ _ _ _ _ e b hm hg hd hg' (number_of d1) (.inl (by omega)) hbl hb hinf
    obtain ⟨Y, y1, y2, y3⟩ := fin (mt.str 9) _ e (eraYear_written ⟨[], by rw [low 9, he]; rfl, fun _ => rfl⟩).symm hr
    exact ⟨Y, y1, y2, by rw [y3]; rfl⟩
  · right
    rcases ok.group_lang 10 (by decide) with h10' | ⟨body, hbm, hl⟩
    · exact absurd h10' h10
    have := List.all_eq_true.1 middleEndian_bodies10 body hbm
    simp only [Bool.and_eq_true, beq_iff_eq] at this
    obtain ⟨d1, d2, d3, d4, -⟩ := year_digits hl this.1.1 (by omega) this.2 (by decide)
    obtain ⟨body, hbm, hl⟩ := ok.imp_lang 10 11 (by decide) (by decide) (by decide +kernel) h10
    have := List.all_eq_true.1 middleEndian_bodies11 body hbm
    simp only [beq_iff_eq] at this
    have hw' := hl.words _ this
    rw [low 11] at hw'
    have hera : ∃ e : Era, (e = .ad ∨ e = .bc) ∧ mt.str 11 = e.text := by
      simp only [List.mem_cons, List.not_mem_nil, or_false] at hw'
      rcases hw' with h | h
      · exact ⟨.ad, .inl rfl, h⟩
      · exact ⟨.bc, .inr rfl, h⟩
    obtain ⟨e, hee, he⟩ := hera
    have h11 : mt.str 11 ≠ [] := by
      rw [he]; rcases hee with rfl | rfl <;> decide
    rw [if_pos (by simp [h10]), if_pos (by simp [h10]), if_pos (by simp [h11])]
    simp only [d4, Out.bind_ok]
    have hinf' := hinf
    rw [he] at hinf'
    have hr := ho.fullDates _ _ _ _ _ _ _ _ _ e b hm hg hd hg' (number_of d1) (by
      by_cases h4 : (mt.str 10).length = 4
      · exact .inl h4
      · exact .inr ⟨by omega, hee⟩) hbl hb hinf'
    obtain ⟨Y, y1, y2, y3⟩ := fin (mt.str 11) _ e (eraYear_written ⟨[], by rw [low 11, he]; rfl, fun _ => rfl⟩).symm hr
    exact ⟨Y, y1, y2, by rw [y3]; rfl⟩

/-- The day of a match in an ordinary text. -/
theorem middleEndianDay_ordinary {text : Text} (ho : Ordinary text) {t : Text} (ht : t <:+: toLower text) {mt : Match}
    (hs : Ast.middleEndian.search t = some mt) :
    ∃ d : Nat, middleEndianDay mt = .ok (d : Int) ∧ (1 ≤ d → d ≤ 31 → DayWritten (mt.str 4) d) := by
  obtain ⟨gap, hg, -, h5, -⟩ := middleEndian_written ho ht hs
  unfold middleEndianDay
  by_cases h5' : mt.str 5 = []
  · rw [if_pos (by simp [h5'])]
    refine ⟨_, rfl, fun a b => ⟨a, b, .inr ?_⟩⟩
    have := (c32_ordinal _ _ a b).1 rfl
    rwa [lower_of_infix ((str_infix hs 4).trans ht)] at this
  · rw [if_neg (by simpa using h5')]
    rcases h5 with h5 | ⟨suffix, hsf, h4, hd, hlen⟩
    · exact absurd h5 h5'
    have hv : decimalValue (mt.str 5) < 100 := by
      have := digitsVal_lt (fun c hc => isDigitB_iff.2 (hd.2 c hc)) 0
      have hp : 10 ^ (mt.str 5).length ≤ 10 ^ 2 := Nat.pow_le_pow_right (by decide) hlen
      rw [decimalValue_eq]
      omega
    have hst : stoi (mt.str 5) = .ok (decimalValue (mt.str 5) : Int) := by
      rw [stoi_digits hd.1 (fun c hc => isDigitB_iff.2 (hd.2 c hc)), if_pos (by rw [decimalValue_eq] at hv; omega), decimalValue_eq]
    rw [hst]
    refine ⟨decimalValue (mt.str 5), ?_, fun a b => ⟨a, b, .inl ⟨mt.str 5, suffix, hsf, h4, hlen, number_of hd⟩⟩⟩
    simp only [Out.bind_ok]
    rw [show toU16 (decimalValue (mt.str 5)) = (decimalValue (mt.str 5) : Nat) by unfold toU16; omega]
    rfl

theorem middleEndian_ordinary {rt : Rt} (hrt : rt.Benign) {ref : PTime} {x : DateTime} (hx : WideRef ref x) {text : Text} (ho : Ordinary text) :
    Lives rt ref text middleEndianParser := by
  refine lives_pure hrt rfl middleEndian_pattern (by decide +kernel) fun k mt hs => ?_
  have ht : (toLower text).drop k <:+: toLower text := (List.drop_suffix _ _).isInfix
  obtain ⟨d, hday, hdw⟩ := middleEndianDay_ordinary ho ht hs
  obtain ⟨gap, hg, hinf, -, h6, -⟩ := middleEndian_written ho ht hs
  have hyear := fun m => middleEndianYear_ordinary ho ht hs (m := m) (d := d)
  unfold middleEndianExtract
  rw [hday]
  simp only [Out.bind_ok]
  have hmw := monthConstants_word (w := mt.str 3)
  generalize monthConstants.get (mt.str 3) = m at *
  refine normal_ite (fun _ => normal_ok fun h => ?_) fun hc => ?_
  · exact absurd h (by simp [PResult.hasPossibleDates])
  · have hw := hmw (by omega)
    have hdw := hdw (by omega) (by omega)
    have hcy := ho.days _ m _ _ d hw hg hdw hinf
    have e1 := hx.early
    have e2 := hx.late
    have fin : ∀ y : Nat, 1401 ≤ y → y ≤ 9998 → Normal (fun res => res.hasPossibleDates = true → Presentable res ∧ NoTimeRange res) (do
        let result ← middleEndianRange mt
          (if (mt.str 2).isEmpty then (PResult.mk' ref (k + mt.start) (mt.str 0)).onStart (fun c => ((c.set .mday (d : Int)).set .month (m : Int)).set .year (y : Int))
          else ((PResult.mk' ref (k + mt.start) (mt.str 0)).onStart (fun c => ((c.set .mday (d : Int)).set .month (m : Int)).set .year (y : Int))).onStart
            (·.set .wday (weekdayOffset.get (toLower (mt.str 2)))))
        pure (result.setTag .middleEndian) : Out PResult) := by
      intro y y1 y2
      unfold middleEndianRange
      rw [h6]
      refine normal_ok fun _ => present_start ?_ ?_ ?_
      · refine printable_of (hcy y) y1 y2 ⟨?_, ?_, ?_⟩ ?_ ?_ ?_ <;>
          rw [setTag_startDate] <;> split <;> simp <;> exact upTo_zero _
      · split <;> rfl
      · rw [setTag_startDate]; split <;> rfl
    rcases hyear m hw hdw with hy | ⟨Y, y1, y2, hy⟩
    · rw [hy]
      simp only [Out.bind_ok]
      obtain ⟨y, hy⟩ := nearestYear_ok hx.reads (hcy x.year) (by omega) (by omega)
      obtain ⟨-, -, -, y', rfl, hn, -⟩ := nearestYear_sound hx.reads hy
      rw [if_neg (by simp), hy]
      simp only [Out.bind_ok]
      exact fin y' (by omega) (by omega)
    · rw [hy]
      simp only [Out.bind_ok]
      rw [if_pos (by omega), show (pure (Y : Int) : Out Int) = .ok (Y : Int) from rfl]
      simp only [Out.bind_ok]
      exact fin Y y1 y2

/-! ## Times -/

theorem timeExpr_hour {t : Text} {mt : Match} (hs : Ast.timeExpr.search t = some mt) (hl : toLower (mt.str 2) = mt.str 2) :
    mt.str 2 = txt!"noon" ∨ mt.str 2 = txt!"midnight" ∨ IsDigits (mt.str 2) := by
  obtain ⟨body, hm, hlang⟩ := (Re.search_ok hs).must_lang 2 (by decide) (by decide +kernel)
  have hb : ∃ a b c, Ast.timeExpr.bodies 2 = [.alt (.alt a b) c] ∧ a.allB isDigitB = true ∧ 1 ≤ a.minLen ∧
      b.words = some [txt!"noon"] ∧ c.words = some [txt!"midnight"] :=
    ⟨_, _, _, rfl, by decide +kernel, by decide +kernel, by decide +kernel, by decide +kernel⟩
  obtain ⟨a, b, c, hb, h1, h2, h4, h5⟩ := hb
  rw [hb, List.mem_singleton] at hm
  subst hm
  rcases lang_alt hlang with hx | hx
  · rcases lang_alt hx with hx | hx
    · exact .inr (.inr (isDigits_of hx h1 h2))
    · have := hx.words _ h4
      rw [hl, List.mem_singleton] at this
      exact .inl this
  · have := hx.words _ h5
    rw [hl, List.mem_singleton] at this
    exact .inr (.inl this)

theorem hourOf_digits {t : Text} (h : IsDigits t) : hourOf t = stoi t := by
  unfold hourOf
  have := h.2
  rw [if_neg ?_, if_neg ?_]
  · rintro rfl; have := this 109 (by decide); omega
  · rintro rfl; have := this 110 (by decide); omega

/-- The hour and the minute of a time with seconds in an ordinary text. -/
theorem seconds_ordinary {text : Text} (ho : Ordinary text) {t : Text} (ht : t <:+: toLower text) {mt : Match}
    (hs : Ast.timeExpr.search t = some mt) (h4 : mt.str 4 ≠ []) :
    ∃ h mi : Nat, hourOf (mt.str 2) = .ok (h : Int) ∧ mt.str 3 ≠ [] ∧ stoi (mt.str 3) = .ok (mi : Int) ∧ mi < 60 ∧ h ≤ 24 ∧ (mt.str 6 ≠ [] → h ≤ 12) := by
  obtain ⟨-, h4' | ⟨d3, d4, sep, sep', fr, bl, hsep, hsep', hfr, hbl, h6, hinf⟩⟩ := timeExpr_written ho ht hs
  · exact absurd h4' h4
  have hl : ∀ n, toLower (mt.str n) = mt.str n := fun n => lower_of_infix ((str_infix hs n).trans ht)
  obtain ⟨mi, -, hmi⟩ := ordinary_stoi ho d3 ((str_infix hs 3).trans ht)
  have hval : ∀ ds : Text, IsDigits ds → ∀ n : Nat, stoi ds = .ok (n : Int) → n = decimalValue ds := by
    intro ds hd n hn
    rw [stoi_digits hd.1 (fun c hc => isDigitB_iff.2 (hd.2 c hc))] at hn
    split at hn
    · cases hn; rw [decimalValue_eq]
    · cases hn
  have hinf1 : mt.str 2 ++ sep ++ mt.str 3 ++ sep' ++ mt.str 4 <:+: toLower text := List.IsInfix.trans ⟨[], fr ++ bl ++ mt.str 6, by simp⟩ hinf
  rcases timeExpr_hour hs (hl 2) with h2 | h2 | h2
  · obtain ⟨a, -⟩ := ho.seconds _ sep _ _ sep' _ _ (.inl h2) hsep (number_of d3) hsep' (number_of d4) hinf1
    refine ⟨12, mi, by rw [h2]; rfl, d3.1, hmi, by rw [hval _ d3 _ hmi]; exact a, by decide, fun _ => by decide⟩
  · obtain ⟨a, -⟩ := ho.seconds _ sep _ _ sep' _ _ (.inr (.inl h2)) hsep (number_of d3) hsep' (number_of d4) hinf1
    refine ⟨0, mi, by rw [h2]; rfl, d3.1, hmi, by rw [hval _ d3 _ hmi]; exact a, by decide, fun _ => by decide⟩
  · obtain ⟨a, b⟩ := ho.seconds _ sep _ _ sep' _ _ (.inr (.inr ⟨_, number_of h2⟩)) hsep (number_of d3) hsep' (number_of d4) hinf1
    obtain ⟨h, -, hh⟩ := ordinary_stoi ho h2 ((str_infix hs 2).trans ht)
    refine ⟨h, mi, by rw [hourOf_digits h2, hh], d3.1, hmi, by rw [hval _ d3 _ hmi]; exact a, by rw [hval _ h2 _ hh]; exact b _ (number_of h2), fun h6' => ?_⟩
    rcases h6 with h6 | ⟨l, r, h6, hl6⟩
    · exact absurd h6 h6'
    · rw [hval _ h2 _ hh]
      rw [h6] at hinf
      exact ho.secondsHalf _ _ sep _ _ sep' _ _ fr bl l (number_of h2) hsep (number_of d3) hsep' (number_of d4) hfr hbl hl6
        (List.IsInfix.trans ⟨[], r, by simp⟩ hinf)

theorem timeExpr_ordinary {rt : Rt} (hrt : rt.Benign) {ref : PTime} {x : DateTime} (hx : WideRef ref x) {text : Text} (ho : Ordinary text) :
    Lives rt ref text timeExprParser := by
  refine lives_pure hrt rfl timeExpr_pattern timeExpr_min fun k mt hs => ?_
  have ht : (toLower text).drop k <:+: toLower text := (List.drop_suffix _ _).isInfix
  obtain ⟨h7, -⟩ := timeExpr_written ho ht hs
  have hsec := seconds_ordinary ho ht hs
  obtain ⟨⟨h, -, hh⟩, hg, -, hlen, hst⟩ := clock_groups hs (toLower_drop (toLower_toLower text) k)
  obtain ⟨⟨-, -, hc⟩, -⟩ := refReads_us hx.reads
  obtain ⟨y1, y2, y3, -⟩ := Date.year_of_ymd hx.reads.date
  have e1 := hx.early
  have e2 := hx.late
  have hempty : ∀ {t' : Text}, (PResult.mk' ref (k + mt.start) t').hasPossibleDates = true → False := by
    intro t' h; simp [PResult.hasPossibleDates] at h
  unfold timeExprExtract
  rw [show substr (mt.str 0) (mt.lengthOf 1) = .ok ((mt.str 0).drop (mt.lengthOf 1)) by unfold substr; rw [if_pos hlen]]
  simp only [Out.bind_ok]
  have hp : Normal (fun _ => True) (precededByWord mt ((toLower text).drop k)) := by
    unfold precededByWord
    refine normal_ite (fun _ => ?_) fun _ => normal_ok trivial
    have : substr ((toLower text).drop k) (mt.position - 1) = .ok (((toLower text).drop k).drop (mt.position - 1)) := by
      unfold substr Match.position; rw [if_pos (by omega)]
    rw [this]
    exact normal_ok trivial
  refine normal_bind hp fun b _ => normal_ite (fun _ => normal_ok fun h => (hempty h).elim) fun _ => ?_
  have hf : Normal (fun o => ∀ s : Int, o = some s → mt.str 4 = [] ∨ mt.str 4 ≠ [] ∧ UpTo 59 s) (fromSecond mt) := by
    unfold fromSecond
    rcases hg 4 (by simp) with h | ⟨hne, v, hv, hv'⟩
    · rw [h]; exact normal_ok fun s _ => .inl rfl
    · rw [if_neg (by simpa using hne), hv']
      simp only [Out.bind_ok]
      rw [toU16_small (by omega)]
      refine normal_ite (fun _ => normal_ok fun s hs => by cases hs) fun _ => normal_ok ?_
      intro s hs; cases hs; exact .inr ⟨hne, v, by omega, rfl⟩
  refine normal_bind hf fun o hsome => ?_
  cases o with
  | none => exact normal_ok fun h => (hempty h).elim
  | some s =>
    simp only
    have hsome := hsome s rfl
    generalize hr0 : (if (mt.str 4).isEmpty = true then PResult.mk' ref (k + mt.start) ((mt.str 0).drop (mt.lengthOf 1))
      else (PResult.mk' ref (k + mt.start) ((mt.str 0).drop (mt.lengthOf 1))).onStart (·.set .sec s)) = r0
    have tail : ∀ (r0 : PResult), (r0.startDate = Comps.empty ∨ ∃ s : Int, UpTo 59 s ∧ r0.startDate = Comps.empty.set .sec s) → r0.hasEnd = false →
        ∀ a b : Nat, a ≤ 24 → b < 60 → Normal (fun res => res.hasPossibleDates = true → Presentable res ∧ NoTimeRange res)
          (setStart ref r0 (a : Int) (b : Int) >>= fun result => pure result) := by
      intro r0 h0 he a b ha hb
      unfold setStart
      rw [y1, y2, y3]
      simp only [Out.bind_ok]
      refine normal_ok fun _ => ?_
      rcases h0 with h0 | ⟨s, hs, h0⟩
      · refine present_start ?_ (by simp [he]) (by simp [get_imply, h0])
        refine printable_of hc (by omega) (by omega) ⟨?_, ?_, ?_⟩ ?_ ?_ ?_ <;> simp [get_imply, h0] <;>
          first | exact upTo_zero _ | exact ⟨a, by omega, rfl⟩ | exact ⟨b, by omega, rfl⟩
      · refine present_start ?_ (by simp [he]) (by simp [get_imply, h0])
        refine printable_of hc (by omega) (by omega) ⟨?_, ?_, ?_⟩ ?_ ?_ ?_ <;> simp [get_imply, h0] <;>
          first | exact hs | exact ⟨a, by omega, rfl⟩ | exact ⟨b, by omega, rfl⟩
    have ampm : ∀ (r0 : PResult), (r0.startDate = Comps.empty ∨ ∃ s : Int, UpTo 59 s ∧ r0.startDate = Comps.empty.set .sec s) → r0.hasEnd = false →
        ∀ a b : Nat, a ≤ 24 → ¬ ((!(mt.str 6).isEmpty) = true ∧ (a : Int) > 12) → b < 60 → Normal (fun res => res.hasPossibleDates = true → Presentable res ∧ NoTimeRange res)
          (setStart ref r0 (match (if (mt.str 6).isEmpty then none else some (firstChar (mt.str 6)) : Option Nat) with
              | none => (a : Int)
              | some c => meridiem c (a : Int)) (b : Int) >>= fun result => pure result) := by
      intro r0 h0 he a b ha hn hb
      by_cases h6 : (mt.str 6).isEmpty = true
      · rw [if_pos h6]
        exact tail r0 h0 he a b ha hb
      · rw [if_neg h6]
        obtain ⟨k, e, hk⟩ := meridiem_le (c := firstChar (mt.str 6)) (h := a) (by simp [h6] at hn; omega)
        simp only [e]
        exact tail r0 h0 he k b hk hb
    rw [h7]
    simp only [List.isEmpty_nil, if_true]
    by_cases h4 : mt.str 4 = []
    · rw [h4] at hr0
      simp only [List.isEmpty_nil, if_true] at hr0
      subst hr0
      rw [hh]
      simp only [Out.bind_ok]
      obtain ⟨⟨a', b'⟩, hab, ⟨a, b, he⟩⟩ := sat_total (F := fun _ => False) (minuteOf_sat (h := h) (hg 3 (by simp))) (fun _ h => h)
      rw [hab, he]
      simp only [Out.bind_ok]
      refine normal_ite (fun _ => normal_ok fun h => (hempty h).elim) fun n1 => normal_ite (fun _ => normal_ok fun h => (hempty h).elim) fun n2 =>
        normal_ite (fun _ => normal_ok fun h => (hempty h).elim) fun n3 => ?_
      exact ampm _ (.inl rfl) rfl a b (by omega) n3 (by omega)
    · rw [if_neg (by simpa using h4)] at hr0
      subst hr0
      obtain ⟨a, b, h2, h3, hb, hb60, ha24, ha12⟩ := hsec h4
      rcases hsome with h4' | ⟨-, hs59⟩
      · exact absurd h4' h4
      rw [h2]
      simp only [Out.bind_ok]
      have hm : minuteOf (a : Int) (mt.str 3) = .ok ((a : Int), (b : Int)) := by
        unfold minuteOf
        rw [if_pos (by simpa using h3), hb]
        rfl
      rw [hm]
      simp only [Out.bind_ok]
      have hn : ¬ ((!(mt.str 6).isEmpty) = true ∧ (a : Int) > 12) := by
        rintro ⟨h6, h12⟩
        have := ha12 (by simpa using h6)
        omega
      rw [if_neg (by omega), if_neg (by omega), if_neg hn]
      exact ampm _ (.inr ⟨s, hs59, rfl⟩) rfl a b ha24 hn hb60

/-- **C57 (what lives).** A text that is ordinary -- without backslash or `may.`, without ranges, with numbers up to 2700, with days
that exist in the months they stand after, with years 1401..9998, and with proper times wherever there are seconds --
is always answered, for any reference time in the years 1500..6900. -/
theorem c57_ordinary_texts_live_partial (rt : Rt) (hrt : rt.Benign) (hst : rt.Stops) (sort : List PResult → List PResult) (hs : Sorts sort)
    (text : Text) (hlen : text.length < 4294967296) (ref : PTime) (x : DateTime) (hx : RefReads ref x) (h1 : 1500 ≤ x.year) (h2 : x.year ≤ 6900)
    (ho : Ordinary text) : ∃ line, mainRun rt sort text ref = .ok line := by
  refine c78_program_prints_presentable_mentions rt hrt hst sort hs text hlen ref fun P hP => ?_
  have hx : WideRef ref x := ⟨hx, h1, h2⟩
  simp only [mainParsers, List.mem_cons, List.not_mem_nil, or_false] at hP
  rcases hP with rfl | rfl | rfl | rfl | rfl | rfl | rfl | rfl | rfl | rfl | rfl | rfl
  · exact casualTime_lives hrt hx.good text
  · exact deadline_ordinary hrt hx ho
  · exact dayOfWeek_lives
  · exact casualDate_lives hrt hx.good text
  · exact middleEndian_ordinary hrt hx ho
  · exact later_lives ho.backslash
  · exact monthName_ordinary hrt hx ho
  · exact ago_lives ho.backslash
  · exact timeExpr_ordinary hrt hx ho
  · exact iso_ordinary hrt ho
  · exact holiday_lives hrt hx.good text
  · exact week_ordinary hrt hx ho

end Chrono.Props
