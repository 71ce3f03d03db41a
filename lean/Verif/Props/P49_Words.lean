import Verif.Props.P48_Lives
import Verif.Props.P29_MonthNames
import Verif.Props.P16_Clock
import Verif.Props.P11_BlackFriday
import Verif.Props.P22_Deadline
import Verif.Lemmas.Branches
/-!
# C78: texts without digits, parser by parser
-/
namespace Chrono.Props
open Chrono Chrono.Spec Chrono.Boost

/-! ## From extraction to a parser that lives -/

theorem normal_ite {α : Type} {P : α → Prop} {c : Prop} [Decidable c] {x y : Out α} (hx : c → Normal P x) (hy : ¬ c → Normal P y) :
    Normal P (if c then x else y) := by
  by_cases h : c
  · rw [if_pos h]; exact hx h
  · rw [if_neg h]; exact hy h

theorem presentable_copy {r : PResult} (h : Presentable r ∧ NoTimeRange r) : Presentable r.copy ∧ NoTimeRange r.copy := by
  obtain ⟨⟨h1, h2, h3⟩, h4⟩ := h
  refine ⟨⟨h1, fun he => ?_, h3⟩, h4⟩
  have he' : r.hasEnd = true := he
  have : r.copy.endDate = r.endDate := by unfold PResult.copy; simp [he']
  rw [this]; exact h2 he'

theorem scan_lives {rt : Rt} {P : Parser} {r : Re} {text : Text} {ref : PTime} {k : Nat} {g : Globals}
    {o : Out (List PResult × Globals)} (h : Scan rt P r text ref k g o) {I : Globals → Prop} (hg : I g)
    (hx : ∀ k g mt, I g → r.search (text.drop k) = some mt →
      ∃ res g', P.extract rt g (text.drop k) mt ref (k + mt.start) = .ok (res, g') ∧ I g' ∧
        (res.hasPossibleDates = true → Presentable res ∧ NoTimeRange res)) :
    ∃ rs g', o = .ok (rs, g') ∧ ∀ r ∈ rs, Presentable r ∧ NoTimeRange r := by
  induction h with
  | done => exact ⟨_, _, rfl, by simp⟩
  | @step k g mt res g' out hs hx' _ ih =>
    obtain ⟨res2, g2, he, hI, hp⟩ := hx k g mt hg hs
    rw [hx'] at he
    simp only [Out.ok.injEq, Prod.mk.injEq] at he
    rw [← he.2] at hI
    rw [← he.1] at hp
    obtain ⟨rs, g3, rfl, hI'⟩ := ih hI
    refine ⟨_, _, rfl, ?_⟩
    split
    · rename_i hd
      intro q hq
      rcases List.mem_cons.1 hq with rfl | hq
      · exact presentable_copy (hp hd)
      · exact hI' q hq
    · exact hI'
  | @fail k g mt hs hx' =>
    obtain ⟨res2, g2, he, -⟩ := hx k g mt hg hs
    exact absurd he (hx' _)

theorem lives_of {rt : Rt} (hrt : rt.Benign) {P : Parser} {r : Re} (hr : P.pattern = some r) (hmin : 1 ≤ r.minLen) {text : Text}
    {ref : PTime} (I : Globals → Prop) (hI : I integerWords)
    (hx : ∀ k g mt, I g → r.search ((toLower text).drop k) = some mt →
      ∃ res g', P.extract rt g ((toLower text).drop k) mt ref (k + mt.start) = .ok (res, g') ∧ I g' ∧
        (res.hasPossibleDates = true → Presentable res ∧ NoTimeRange res)) : Lives rt ref text P := by
  obtain ⟨rs, g', h1, h2⟩ := scan_lives (execute_scan hrt hr hmin integerWords text ref) hI hx
  exact ⟨rs, ⟨g', h1⟩, h2⟩

theorem lives_pure {rt : Rt} (hrt : rt.Benign) {P : Parser} {f : Rt → Globals → Text → Match → PTime → Nat → Out PResult}
    (hP : P.extract = pureExtract f) {r : Re} (hr : P.pattern = some r) (hmin : 1 ≤ r.minLen) {text : Text} {ref : PTime}
    (hx : ∀ k mt, r.search ((toLower text).drop k) = some mt →
      Normal (fun res => res.hasPossibleDates = true → Presentable res ∧ NoTimeRange res)
        (f rt integerWords ((toLower text).drop k) mt ref (k + mt.start))) : Lives rt ref text P := by
  refine lives_of hrt hr hmin (fun g => g = integerWords) rfl ?_
  rintro k g mt rfl hs
  obtain ⟨res, h1, h2⟩ := hx k mt hs
  refine ⟨res, integerWords, ?_, rfl, h2⟩
  rw [hP]
  show (f rt integerWords _ mt ref (k + mt.start) >>= _) = _
  rw [h1]; rfl

theorem lives_nil {rt : Rt} {P : Parser} {text : Text} {ref : PTime} {g : Globals}
    (h : execute rt P integerWords text ref = .ok ([], g)) : Lives rt ref text P := ⟨[], ⟨g, h⟩, by simp⟩

/-! ## Dates near the reference -/

theorem dn_early {y m d : Nat} (hc : Civil y m d) (h : y ≤ 1400) : dayNumber y m d ≤ minDN + 400 := by
  obtain ⟨c1, c2, c3, c4⟩ := hc
  have hb := monthLength_bounds y m c1 c2
  have k := dayNumber_eq y m d c1 c2 c3
  generalize dayNumber y m d = A at *
  unfold minDN
  interval_cases m <;> simp at k <;> omega

theorem dn_late {y m d : Nat} (hc : Civil y m d) (h : 9999 ≤ y) : maxDN ≤ dayNumber y m d + 400 := by
  obtain ⟨c1, c2, c3, c4⟩ := hc
  have hb := monthLength_bounds y m c1 c2
  have k := dayNumber_eq y m d c1 c2 c3
  generalize dayNumber y m d = A at *
  unfold maxDN
  interval_cases m <;> simp at k <;> omega

theorem dn_middle {y m d : Nat} (hc : Civil y m d) (h1 : 1404 ≤ y) (h2 : y ≤ 9980) :
    minDN + 1000 ≤ dayNumber y m d ∧ dayNumber y m d + 1000 ≤ maxDN := by
  obtain ⟨c1, c2, c3, c4⟩ := hc
  have hb := monthLength_bounds y m c1 c2
  have k := dayNumber_eq y m d c1 c2 c3
  generalize dayNumber y m d = A at *
  unfold minDN maxDN
  interval_cases m <;> simp at k <;> omega

/-- A date object of the years 1401..9998. -/
def Usable (D : Date) : Prop := ∃ y m d : Nat, D.ymd = .ok ⟨y, m, d⟩ ∧ Civil y m d ∧ 1401 ≤ y ∧ y ≤ 9998

theorem usable_near {x : DateTime} (hc : Civil x.year x.month x.day) (h1 : 1404 ≤ x.year) (h2 : x.year ≤ 9980) {D : Date}
    (hn : (dayNumber x.year x.month x.day : Int) - 400 ≤ D.dn ∧ D.dn ≤ dayNumber x.year x.month x.day + 400) : Usable D := by
  obtain ⟨a, b⟩ := dn_middle hc h1 h2
  have hr : D.inRange := by
    unfold Date.inRange
    generalize dayNumber x.year x.month x.day = A at *
    unfold minDN maxDN at *
    omega
  obtain ⟨y, m, d, hcd, hdn, hymd⟩ := Date.civil hr
  refine ⟨y, m, d, hymd, hcd.2.2, ?_, ?_⟩
  · by_contra hlt
    have := dn_early hcd.2.2 (by omega)
    generalize dayNumber x.year x.month x.day = A at *
    generalize dayNumber y m d = B at *
    omega
  · by_contra hlt
    have := dn_late hcd.2.2 (by omega)
    generalize dayNumber x.year x.month x.day = A at *
    generalize dayNumber y m d = B at *
    omega

/-- The reference time and its year. -/
structure GoodRef (ref : PTime) (x : DateTime) : Prop where
  reads : RefReads ref x
  early : 1404 ≤ x.year
  late : x.year ≤ 9980

section
variable {ref : PTime} {x : DateTime}

theorem usable_addDays (h : GoodRef ref x) {n : Int} (h1 : -400 ≤ n) (h2 : n ≤ 400) : Normal Usable (ref.date.addDays n) := by
  obtain ⟨⟨-, -, hc⟩, -, -, -, us, -, -, -, hd⟩ := refReads_us h.reads
  obtain ⟨a, b⟩ := dn_middle hc h.early h.late
  rw [hd]
  unfold Date.addDays
  generalize hA : dayNumber x.year x.month x.day = A at *
  rw [if_pos (by simp only; unfold minDN maxDN at *; omega)]
  refine normal_ok (usable_near hc h.early h.late ?_)
  rw [hA]; simp only; omega

theorem usable_ref (h : GoodRef ref x) : Usable ref.date := by
  obtain ⟨⟨-, -, hc⟩, -⟩ := refReads_us h.reads
  exact ⟨_, _, _, h.reads.date, hc, by have := h.early; omega, by have := h.late; omega⟩

theorem usable_shift (h : GoodRef ref x) {n : Int} (h1 : -34000000 ≤ n) (h2 : n ≤ 34000000) : Usable (ref.addSeconds n).date := by
  obtain ⟨⟨-, -, hc⟩, -, -, -, us, -, -, -, hd⟩ := refReads_us h.reads
  refine usable_near hc h.early h.late ?_
  have hd' : ref.date.dn = dayNumber x.year x.month x.day := by rw [hd]
  unfold PTime.date at hd'
  unfold PTime.date PTime.addSeconds
  generalize dayNumber x.year x.month x.day = A at *
  simp only at *
  omega

theorem usable_addMonths (h : GoodRef ref x) {n : Nat} (hn : n ≤ 144) : Normal Usable (ref.date.addMonths n) := by
  obtain ⟨⟨-, -, hc⟩, -⟩ := refReads_us h.reads
  obtain ⟨c1, c2, c3, c4⟩ := hc
  have e1 := h.early
  have e2 := h.late
  obtain ⟨k, hk⟩ : ∃ k : Nat, k = 12 * x.year + (x.month - 1) + n := ⟨_, rfl⟩
  obtain ⟨D, hD, hy⟩ := addMonths_count h.reads.date (n := n) (by omega) (by omega) (k := k) (by omega) (by omega) (by omega)
  obtain ⟨⟨-, -, hcd⟩, -⟩ := Date.of_ymd hy
  exact ⟨D, hD, _, _, _, hy, hcd, by omega, by omega⟩

theorem clock_bounds (t : PTime) : (∃ k : Nat, k ≤ 36 ∧ t.hours = k) ∧ (∃ k : Nat, k < 60 ∧ t.minutes = k) ∧ ∃ k : Nat, k < 60 ∧ t.seconds = k := by
  refine ⟨⟨t.hours.toNat, ?_, ?_⟩, ⟨t.minutes.toNat, ?_, ?_⟩, t.seconds.toNat, ?_, ?_⟩ <;>
    simp only [PTime.hours, PTime.minutes, PTime.seconds] <;> omega
end

/-- A start that can be printed, no end, no zone. -/
theorem present_start {r : PResult} (h : Printable r.startDate) (he : r.hasEnd = false) (hz : r.startDate.get .tzoffset = 0) :
    Presentable r ∧ NoTimeRange r :=
  ⟨⟨h, fun h' => by rw [he] at h'; simp at h', by rw [hz]; decide⟩, fun _ => he⟩

/-- A small number. -/
def UpTo (n : Nat) (v : Int) : Prop := ∃ k : Nat, k ≤ n ∧ v = k

theorem upTo_zero (n : Nat) : UpTo n 0 := ⟨0, by omega, rfl⟩
theorem upTo_hours (t : PTime) : UpTo 36 t.hours := (clock_bounds t).1
theorem upTo_minutes (t : PTime) : UpTo 59 t.minutes := by
  obtain ⟨k, h, e⟩ := (clock_bounds t).2.1
  exact ⟨k, by omega, e⟩
theorem upTo_seconds (t : PTime) : UpTo 59 t.seconds := by
  obtain ⟨k, h, e⟩ := (clock_bounds t).2.2
  exact ⟨k, by omega, e⟩

theorem printable_of {c : Comps} {y m d : Nat} (hc : Civil y m d) (y1 : 1401 ≤ y) (y2 : y ≤ 9998) (hd : DateIs c (y, m, d))
    (h1 : UpTo 36 (c.get .hour)) (h2 : UpTo 59 (c.get .min)) (h3 : UpTo 59 (c.get .sec)) : Printable c := by
  obtain ⟨h, hh, eh⟩ := h1
  obtain ⟨mi, hm, em⟩ := h2
  obtain ⟨s, hs, es⟩ := h3
  exact ⟨y, m, d, h, mi, s, y1, y2, hc, hh, by omega, by omega, hd, eh, em, es⟩

/-! ## Casual dates and times: any text -/

theorem casualDay_cases (r : PResult) (text : Text) {ref : PTime} {x : DateTime} (hx : GoodRef ref x) (ln : Bool)
    (h0 : r.startDate = Comps.empty) (he : r.hasEnd = false) :
    Usable (casualDay r text ref ln).2.date ∧ (casualDay r text ref ln).1.hasEnd = false ∧
      UpTo 36 ((casualDay r text ref ln).1.startDate.get .hour) ∧ UpTo 59 ((casualDay r text ref ln).1.startDate.get .min) ∧
      UpTo 59 ((casualDay r text ref ln).1.startDate.get .sec) ∧ (casualDay r text ref ln).1.startDate.get .tzoffset = 0 := by
  have u0 := usable_ref hx
  have u1 : ∀ n : Int, -2 ≤ n → n ≤ 2 → Usable (ref.addDays n).date := by
    intro n n1 n2
    have : ref.addDays n = ref.addSeconds (86400 * n) := by unfold PTime.addDays PTime.addSeconds; congr 1; ring
    rw [this]; exact usable_shift hx (by omega) (by omega)
  have z : ∀ k : Nat, UpTo k (Comps.empty.get .hour) ∧ UpTo k (Comps.empty.get .min) ∧ UpTo k (Comps.empty.get .sec) :=
    fun k => ⟨upTo_zero k, upTo_zero k, upTo_zero k⟩
  unfold casualDay
  split
  · refine ⟨u0, he, ?_⟩
    simp only [onStart_startDate, h0]
    exact ⟨⟨22, by decide, rfl⟩, (z _).2.1, (z _).2.2, rfl⟩
  split
  · refine ⟨?_, he, ?_⟩
    · simp only; split
      · exact u1 1 (by decide) (by decide)
      · exact u0
    · simp only [h0]
      exact ⟨(z _).1, (z _).2.1, (z _).2.2, rfl⟩
  split
  · refine ⟨u1 (-1) (by decide) (by decide), he, ?_⟩
    simp only [onStart_startDate, h0]
    exact ⟨upTo_hours ref, (z _).2.1, (z _).2.2, rfl⟩
  split
  · refine ⟨?_, he, ?_⟩
    · simp only; split
      · exact u1 (-1) (by decide) (by decide)
      · exact u0
    · simp only [onStart_startDate, h0]
      exact ⟨upTo_zero _, (z _).2.1, (z _).2.2, rfl⟩
  split
  · refine ⟨u0, he, ?_⟩
    simp only [onStart_startDate, h0]
    exact ⟨upTo_hours ref, upTo_minutes ref, upTo_seconds ref, rfl⟩
  · refine ⟨u0, he, ?_⟩
    simp only [h0]
    exact ⟨(z _).1, (z _).2.1, (z _).2.2, rfl⟩

theorem casualDate_lives {rt : Rt} (hrt : rt.Benign) {ref : PTime} {x : DateTime} (hx : GoodRef ref x) (text : Text) :
    Lives rt ref text casualDateParser := by
  refine lives_pure hrt rfl casualDate_pattern casualDate_min fun k mt hs => ?_
  unfold casualDateExtract searches
  rw [Ast.compile_lastNight]
  simp only [Out.bind_ok]
  obtain ⟨⟨y, m, d, hymd, hc, y1, y2⟩, c2, c3, c4, c5, c6⟩ := casualDay_cases (PResult.mk' ref (k + mt.start) (mt.str 0)) (mt.str 0) hx
    ((Ast.lastNight.search (mt.str 0)).isSome) rfl rfl
  generalize casualDay (PResult.mk' ref (k + mt.start) (mt.str 0)) (mt.str 0) ref (Ast.lastNight.search (mt.str 0)).isSome = p at *
  obtain ⟨e1, e2, e3, -⟩ := Date.year_of_ymd hymd
  rw [e1, e2, e3]
  refine normal_ok fun _ => present_start ?_ (by simpa using c2) (by simpa [get_set] using c6)
  refine printable_of hc y1 y2 ⟨?_, ?_, ?_⟩ ?_ ?_ ?_ <;> simp <;> assumption

theorem casualTime_lives {rt : Rt} (hrt : rt.Benign) {ref : PTime} {x : DateTime} (hx : GoodRef ref x) (text : Text) :
    Lives rt ref text casualTimeParser := by
  refine lives_pure hrt rfl casualTime_pattern casualTime_min fun k mt hs => ?_
  unfold casualTimeExtract
  simp only
  generalize (toLower (mt.str (if (mt.str 4).isEmpty = true then 3 else 4))) = subs
  obtain ⟨y, m, d, hymd, hc, y1, y2⟩ := usable_ref hx
  obtain ⟨e1, e2, e3, e4⟩ := Date.year_of_ymd hymd
  rw [e1, e2, e3, e4]
  have fin : ∀ r : PResult, r.hasEnd = false → (∃ h : Int, UpTo 36 h ∧ (r.startDate = Comps.empty.imply .hour h ∨ r.startDate = Comps.empty)) →
      Presentable ((r.onStart fun c => ((((c.imply .year y).imply .month m).imply .mday d).imply .wday (dayOfWeekYmd y m d : Nat)).imply .min ref.minutes).setTag .casualTime) ∧
      NoTimeRange ((r.onStart fun c => ((((c.imply .year y).imply .month m).imply .mday d).imply .wday (dayOfWeekYmd y m d : Nat)).imply .min ref.minutes).setTag .casualTime) := by
    rintro r he ⟨h, hh, hr⟩
    refine present_start ?_ (by simpa using he) ?_
    · refine printable_of hc y1 y2 ⟨?_, ?_, ?_⟩ ?_ ?_ ?_
      · rw [setTag_startDate, onStart_startDate]; rcases hr with hr | hr <;> rw [hr] <;> rfl
      · rw [setTag_startDate, onStart_startDate]; rcases hr with hr | hr <;> rw [hr] <;> rfl
      · rw [setTag_startDate, onStart_startDate]; rcases hr with hr | hr <;> rw [hr] <;> rfl
      · rw [setTag_startDate, onStart_startDate]; rcases hr with hr | hr <;> rw [hr]
        · exact hh
        · exact upTo_zero _
      · rw [setTag_startDate, onStart_startDate]; rcases hr with hr | hr <;> rw [hr] <;> exact upTo_minutes ref
      · rw [setTag_startDate, onStart_startDate]; rcases hr with hr | hr <;> rw [hr] <;> exact upTo_zero _
    · rw [setTag_startDate, onStart_startDate]; rcases hr with hr | hr <;> rw [hr] <;> rfl
  refine normal_ok fun _ => fin _ ?_ ?_
  · split
    · rfl
    split
    · rfl
    split
    · rfl
    split
    · rfl
    · rfl
  · split
    · exact ⟨15, ⟨15, by decide, rfl⟩, .inl rfl⟩
    split
    · exact ⟨20, ⟨20, by decide, rfl⟩, .inl rfl⟩
    split
    · exact ⟨6, ⟨6, by decide, rfl⟩, .inl rfl⟩
    split
    · exact ⟨12, ⟨12, by decide, rfl⟩, .inl rfl⟩
    · exact ⟨0, upTo_zero _, .inr rfl⟩

/-! ## Holidays: any text -/

/-- On some day of the calendar in year `y`, or untouched. -/
def OnADay (y : Nat) (r : PResult) : Prop :=
  r.hasEnd = false ∧ r.startDate.get .tzoffset = 0 ∧ r.startDate.get .sec = 0 ∧
    (r.startDate = Comps.empty ∨ ∃ m d : Nat, Civil y m d ∧ DateIs r.startDate (y, m, d))

theorem onADay_fixed {y : Nat} {p : PResult} (h0 : p.startDate = Comps.empty) (he : p.hasEnd = false) {m d : Nat} (hc : Civil y m d) :
    OnADay y (setFixed p y m d) := by
  refine ⟨he, ?_, ?_, .inr ⟨m, d, hc, ?_⟩⟩ <;> simp only [setFixed, onStart_startDate, h0]
  · rfl
  · rfl
  · exact ⟨rfl, rfl, rfl⟩

theorem onADay_set {y : Nat} {p : PResult} (h0 : p.startDate = Comps.empty) (he : p.hasEnd = false) {m d k : Nat} {D : Date}
    (hD : D.ymd = .ok ⟨y, m, d⟩) (hc : Civil y m (d + k)) : Normal (OnADay y) (setDay p D (k : Int)) := by
  obtain ⟨h1, h2, h3, h4⟩ := Date.year_of_ymd hD
  unfold setDay
  rw [h1, h2, h3, h4]
  simp only [Out.bind_ok]
  refine normal_ok ⟨he, ?_, ?_, .inr ⟨m, d + k, hc, ?_⟩⟩ <;> simp only [onStart_startDate, h0]
  · rfl
  · rfl
  · exact ⟨rfl, rfl, rfl⟩

theorem holidayDate_normal {ref : PTime} {y : Nat} (hy : ref.date.year = .ok (y : Int)) (hy1 : 1400 ≤ y) (hy2 : y ≤ 9999)
    {p : PResult} (h0 : p.startDate = Comps.empty) (he : p.hasEnd = false) (text : Text) :
    Normal (OnADay y) (holidayDate p text ref) := by
  have fixed : ∀ m d : Nat, Civil y m d → Normal (OnADay y) (pure (setFixed p y m d)) := fun m d hc => normal_ok (onADay_fixed h0 he hc)
  have nth : ∀ n w m : Nat, 1 ≤ n → n ≤ 4 → w < 7 → 1 ≤ m → m ≤ 12 →
      Normal (OnADay y) (do setDay p (← nthKday n w m (y : Int)) 0) := by
    intro n w m a b c d e
    obtain ⟨dd, D, h1, h2, h3⟩ := nth_ymd (n := n) (w := w) (m := m) a b c hy1 hy2 d e
    rw [h2, Out.bind_ok]
    exact onADay_set (k := 0) h0 he h3 h1.1
  unfold holidayDate
  rw [hy, Out.bind_ok]
  refine normal_ite (fun _ => ?_) fun _ => ?_
  · exact fixed 7 4 (civil_year (y := 2019) (fun h => absurd h (by decide)) (by decide))
  refine normal_ite (fun _ => ?_) fun _ => ?_
  · refine normal_ite (fun _ => ?_) fun _ => ?_
    · exact fixed 12 31 (civil_year (y := 2019) (fun h => absurd h (by decide)) (by decide))
    · exact fixed 1 1 (civil_year (y := 2019) (fun h => absurd h (by decide)) (by decide))
  refine normal_ite (fun _ => ?_) fun _ => ?_
  · exact fixed 11 11 (civil_year (y := 2019) (fun h => absurd h (by decide)) (by decide))
  refine normal_ite (fun _ => ?_) fun _ => ?_
  · refine normal_ite (fun _ => ?_) fun _ => ?_
    · exact fixed 12 24 (civil_year (y := 2019) (fun h => absurd h (by decide)) (by decide))
    · exact fixed 12 25 (civil_year (y := 2019) (fun h => absurd h (by decide)) (by decide))
  refine normal_ite (fun _ => ?_) fun _ => ?_
  · exact nth 3 1 1 (by decide) (by decide) (by decide) (by decide) (by decide)
  refine normal_ite (fun _ => ?_) fun _ => ?_
  · exact nth 1 1 9 (by decide) (by decide) (by decide) (by decide) (by decide)
  refine normal_ite (fun _ => ?_) fun _ => ?_
  · exact nth 3 1 2 (by decide) (by decide) (by decide) (by decide) (by decide)
  refine normal_ite (fun _ => ?_) fun _ => ?_
  · exact nth 4 4 11 (by decide) (by decide) (by decide) (by decide) (by decide)
  refine normal_ite (fun _ => ?_) fun _ => ?_
  · obtain ⟨d, D, h1, h2, h3⟩ := nth_ymd (n := 4) (w := 4) (m := 11) (by decide) (by decide) (by decide) hy1 hy2 (by decide) (by decide)
    obtain ⟨hd1, hd2, hw⟩ := fourth_thursday_le h1
    have hc1 : CivilInRange y 11 (d + 1) := nov_day hy1 hy2 (by omega) (by omega)
    rw [h2, Out.bind_ok, addDays_one h3 (by decide) (by decide) hd1, Out.bind_ok]
    exact onADay_set (k := 1) h0 he (Date.ymd_of_civil hc1) (nov_day hy1 hy2 (by omega) (by omega)).2.2
  refine normal_ite (fun _ => ?_) fun _ => ?_
  · obtain ⟨d, D, h1, h2, h3⟩ := last_ymd (w := 1) (m := 5) (by decide) hy1 hy2 (by decide) (by decide)
    rw [show lastKday 1 5 (y : Int) = .ok D from h2, Out.bind_ok]
    exact onADay_set (k := 0) h0 he h3 h1.1
  refine normal_ite (fun _ => ?_) fun _ => ?_
  · exact nth 2 1 10 (by decide) (by decide) (by decide) (by decide) (by decide)
  · exact normal_ok ⟨he, by rw [h0]; rfl, by rw [h0]; rfl, .inl h0⟩

theorem holiday_lives {rt : Rt} (hrt : rt.Benign) {ref : PTime} {x : DateTime} (hx : GoodRef ref x) (text : Text) :
    Lives rt ref text holidayParser := by
  refine lives_pure hrt rfl holiday_pattern holiday_min fun k mt hs => ?_
  unfold holidayExtract
  have e1 := hx.early
  have e2 := hx.late
  simp only
  refine normal_bind (holidayDate_normal (Date.year_of_ymd hx.reads.date).1 (by omega) (by omega) rfl rfl (mt.str 0)) fun q hq => ?_
  obtain ⟨h1, h2, h3, h4⟩ := hq
  refine normal_ok fun hp => ?_
  rcases h4 with h4 | ⟨m, d, hc, hd⟩
  · simp [PResult.hasPossibleDates, h1, h4] at hp
  · refine present_start ?_ (by simpa using h1) (by simpa [get_set] using h2)
    refine printable_of hc (by omega) (by omega) ⟨?_, ?_, ?_⟩ ?_ ?_ ?_
    · simpa [get_set] using hd.1
    · simpa [get_set] using hd.2.1
    · simpa [get_set] using hd.2.2
    · simp; exact upTo_zero _
    · simp; exact upTo_zero _
    · simp [h3]; exact upTo_zero _

/-! ## Deadlines and weeks: texts without digits -/

theorem stoi_without_digits {t : Text} (h : ∀ c ∈ t, isDigitB c = false) : stoi t = .exn .invalidArgument := by
  unfold stoi
  have hsub : ∀ c ∈ (takeSign (dropSpaces t)).2, c ∈ t := by
    intro c hc
    have hd : ∀ (t : Text), ∀ c ∈ dropSpaces t, c ∈ t := by
      intro t
      induction t with
      | nil => simp [dropSpaces]
      | cons a t ih =>
        intro c hc
        unfold dropSpaces at hc
        split at hc
        · exact List.mem_cons_of_mem _ (ih c hc)
        · exact hc
    refine hd t c ?_
    unfold takeSign at hc
    split at hc <;> simp_all
  have hp : digitPrefix (takeSign (dropSpaces t)).2 = [] := by
    cases hq : (takeSign (dropSpaces t)).2 with
    | nil => rfl
    | cons c q =>
      have := h c (hsub c (by rw [hq]; simp))
      unfold digitPrefix
      simp [this]
  simp only
  rw [hp]
  rfl

theorem integerWords_small (w : Text) : ∀ n, WordMap.lookup integerWords w = some n → n ≤ 12 := by
  intro n hn
  have hm := lookup_mem hn
  have : integerWords.all (fun p => decide (p.2 ≤ 12)) = true := by decide +kernel
  simpa using List.all_eq_true.1 this (w, n) hm

/-- The numbers a text without digits can ask for. -/
theorem deadlineNumber_words {t : Text} (h : ∀ c ∈ t, isDigitB c = false) :
    deadlineNumber integerWords t = .ok none ∨ deadlineNumber integerWords t = .ok (some .half) ∨
      ∃ n : Nat, n ≤ 12 ∧ deadlineNumber integerWords t = .ok (some (.int n)) := by
  unfold deadlineNumber
  cases hl : WordMap.lookup integerWords t with
  | some n =>
    have := integerWords_small t n hl
    exact .inr (.inr ⟨n, this, by simp only; rw [f32_small (by omega)]⟩)
  | none =>
    simp only
    split
    · exact .inr (.inr ⟨1, by decide, rfl⟩)
    split
    · exact .inr (.inr ⟨3, by decide, rfl⟩)
    split
    · exact .inr (.inl rfl)
    · rw [stoi_without_digits h]; exact .inl rfl

/-- A fresh mention with a date and a time of day. -/
theorem dated_present {ref : PTime} {idx : Nat} {t : Text} {D : Date} (hD : Usable D) (f : Comps → Comps)
    (hk : ∀ (c : Comps) k, k = .year ∨ k = .month ∨ k = .mday ∨ k = .tzoffset → (f c).get k = c.get k)
    (hh : ∀ c : Comps, (c.known .hour).1 = false → c.get .hour = 0 → UpTo 36 ((f c).get .hour))
    (hm : ∀ c : Comps, (c.known .min).1 = false → c.get .min = 0 → UpTo 59 ((f c).get .min))
    (hs : ∀ c : Comps, (c.known .sec).1 = false → c.get .sec = 0 → UpTo 59 ((f c).get .sec)) :
    Normal (fun r => Presentable (r.onStart f) ∧ NoTimeRange (r.onStart f)) (implyDate (PResult.mk' ref idx t) D) := by
  obtain ⟨y, m, d, hymd, hc, y1, y2⟩ := hD
  rw [implyDate_ok hymd]
  refine normal_ok (present_start ?_ rfl ?_)
  · refine printable_of hc y1 y2 ⟨?_, ?_, ?_⟩ ?_ ?_ ?_
    · rw [onStart_startDate, hk _ _ (by simp)]; rfl
    · rw [onStart_startDate, hk _ _ (by simp)]; rfl
    · rw [onStart_startDate, hk _ _ (by simp)]; rfl
    · exact hh _ rfl rfl
    · exact hm _ rfl rfl
    · exact hs _ rfl rfl
  · rw [onStart_startDate, hk _ _ (by simp)]; rfl

theorem dated_plain {ref : PTime} {idx : Nat} {t : Text} {D : Date} (hD : Usable D) :
    Normal (fun r => Presentable r ∧ NoTimeRange r) (implyDate (PResult.mk' ref idx t) D) :=
  dated_present hD id (fun _ _ _ => rfl) (fun c _ h => by rw [id, h]; exact upTo_zero _) (fun c _ h => by rw [id, h]; exact upTo_zero _)
    (fun c _ h => by rw [id, h]; exact upTo_zero _)

section
variable {ref : PTime} {x : DateTime} {idx : Nat} {t : Text}

theorem deadlineDate_words (hx : GoodRef ref x) (unit : Text) {num : FNum} (hn : num = .half ∨ ∃ n : Nat, n ≤ 12 ∧ num = .int n) :
    Normal (fun r => Presentable r ∧ NoTimeRange r) (deadlineDate (PResult.mk' ref idx t) ref unit num) := by
  unfold deadlineDate
  rcases hn with rfl | ⟨n, hn, rfl⟩
  · simp only [FNum.isWhole, Bool.false_eq_true, if_false]
    refine normal_ite (fun _ => ?_) fun _ => ?_
    · have hu : Usable (ref.addHours 12).date := usable_shift hx (n := 3600 * 12) (by decide) (by decide)
      obtain ⟨r, h1, h2⟩ := dated_present (ref := ref) (idx := idx) (t := t) hu
        (fun c => (c.imply .hour (ref.addHours 12).hours).imply .min (ref.addHours 12).minutes)
        (by intro c k hk; rcases hk with rfl | rfl | rfl | rfl <;> simp [get_imply])
        (by intro c h1 h2; simp [get_imply, h1]; exact upTo_hours _)
        (by intro c h1 h2; simp [get_imply, known_imply, h1]; exact upTo_minutes _)
        (by intro c h1 h2; simp [get_imply, h2]; exact upTo_zero _)
      rw [h1, Out.bind_ok]
      exact normal_ok h2
    refine normal_ite (fun _ => ?_) fun _ => ?_
    · exact normal_bind (usable_addDays hx (by decide) (by decide)) fun D hD => dated_plain hD
    refine normal_ite (fun _ => ?_) fun _ => ?_
    · exact normal_bind (usable_addDays hx (by decide) (by decide)) fun D hD => dated_plain hD
    refine normal_ite (fun _ => ?_) fun _ => ?_
    · exact normal_bind (usable_addMonths hx (n := 6) (by decide)) fun D hD => dated_plain hD
    · exact dated_plain (usable_ref hx)
  · have e1 : FNum.toLong (.int n) = .ok (n : Int) := if_pos (by omega)
    have e2 : FNum.toInt (.int n) = .ok (n : Int) := if_pos (by omega)
    simp only [FNum.isWhole, if_true, e1, e2, Out.bind_ok]
    refine normal_ite (fun _ => ?_) fun _ => ?_
    · exact normal_bind (usable_addDays hx (by omega) (by omega)) fun D hD => dated_plain hD
    refine normal_ite (fun _ => ?_) fun _ => ?_
    · exact normal_bind (usable_addDays hx (by omega) (by omega)) fun D hD => dated_plain hD
    refine normal_ite (fun _ => ?_) fun _ => ?_
    · exact normal_bind (usable_addMonths hx (by omega)) fun D hD => dated_plain hD
    refine normal_ite (fun _ => ?_) fun _ => ?_
    · have e : (12 * (n : Int)) = ((12 * n : Nat) : Int) := by push_cast; ring
      rw [e]
      exact normal_bind (usable_addMonths hx (by omega)) fun D hD => dated_plain hD
    · exact dated_plain (usable_ref hx)

theorem deadlineTime_words (ref : PTime) (unit : Text) {num : FNum} (hn : num = .half ∨ ∃ n : Nat, n ≤ 12 ∧ num = .int n) :
    Normal (fun _ => True) (deadlineTime ref unit num) := by
  unfold deadlineTime
  rcases hn with rfl | ⟨n, hn, rfl⟩
  · simp only [FNum.isWhole, Bool.false_eq_true, if_false, FNum.ceilInt, Out.bind_ok]
    repeat' refine normal_ite (fun _ => ?_) fun _ => ?_
    all_goals exact normal_ok trivial
  · have e2 : FNum.toInt (.int n) = .ok (n : Int) := if_pos (by omega)
    have e3 : FNum.ceilInt (.int n) = .ok (n : Int) := if_pos (by omega)
    simp only [FNum.isWhole, if_true, e2, e3, Out.bind_ok]
    repeat' refine normal_ite (fun _ => ?_) fun _ => ?_
    all_goals exact normal_ok trivial
end

theorem noDigits_group {text : Text} (h : NoDigits text) {r : Re} {k : Nat} {mt : Match} (hs : r.search ((toLower text).drop k) = some mt) (n : Nat) :
    ∀ c ∈ mt.str n, isDigitB c = false := by
  intro c hc
  have hm : c ∈ (toLower text).drop k := (str_infix hs n).subset hc
  have hm := List.mem_of_mem_drop hm
  simp only [toLower, List.mem_map] at hm
  obtain ⟨b, hb, rfl⟩ := hm
  have := h b hb
  unfold lowerB isDigitB
  split <;> simp <;> omega

theorem deadline_lives {rt : Rt} (hrt : rt.Benign) {ref : PTime} {x : DateTime} (hx : GoodRef ref x) {text : Text} (hd : NoDigits text) :
    Lives rt ref text deadlineParser := by
  refine lives_pure hrt rfl deadline_pattern deadline_min fun k mt hs => ?_
  unfold deadlineExtract
  have num : ∀ num : FNum, (num = .half ∨ ∃ n : Nat, n ≤ 12 ∧ num = .int n) →
      Normal (fun res => res.hasPossibleDates = true → Presentable res ∧ NoTimeRange res) (do
        if ← searches false Pat.dwmy (mt.str 4) then
          deadlineDate (PResult.mk' ref (k + mt.start) (mt.str 0)) ref (mt.str 4) num
        else
          let tmpTime ← deadlineTime ref (mt.str 4) num
          let result ← implyDate (PResult.mk' ref (k + mt.start) (mt.str 0)) ref.date
          let result := result.onStart (fun c =>
            ((c.imply .hour tmpTime.hours).imply .min tmpTime.minutes).imply .sec tmpTime.seconds)
          return result.setTag .deadline) := by
    intro num hn
    unfold searches
    rw [Ast.compile_dwmy]
    simp only [Out.bind_ok]
    refine normal_ite (fun _ => normal_mono (deadlineDate_words hx _ hn) fun _ h _ => h) fun _ => ?_
    refine normal_bind (deadlineTime_words ref _ hn) fun T _ => ?_
    obtain ⟨r, h1, h2⟩ := dated_present (ref := ref) (idx := k + mt.start) (t := mt.str 0) (usable_ref hx)
      (fun c => ((c.imply .hour T.hours).imply .min T.minutes).imply .sec T.seconds)
      (by intro c k hk; rcases hk with rfl | rfl | rfl | rfl <;> simp [get_imply])
      (by intro c h1 h2; simp [get_imply, h1]; exact upTo_hours _)
      (by intro c h1 h2; simp [get_imply, known_imply, h1]; exact upTo_minutes _)
      (by intro c h1 h2; simp [get_imply, known_imply, h1]; exact upTo_seconds _)
    rw [h1, Out.bind_ok]
    refine normal_ok fun _ => ?_
    obtain ⟨⟨p1, p2, p3⟩, p4⟩ := h2
    refine ⟨⟨by rw [setTag_startDate]; exact p1, fun he => ?_, by rw [setTag_startDate]; exact p3⟩, fun ht => ?_⟩
    · rw [setTag_endDate]; exact p2 (by rw [setTag_hasEnd] at he; exact he)
    · rw [setTag_hasEnd]; exact p4 ⟨by have := ht.1; rwa [setTag_startDate] at this, by have := ht.2; rwa [setTag_startDate] at this⟩
  rcases deadlineNumber_words (noDigits_group hd hs 3) with e | e | ⟨n, hn, e⟩
  · rw [e]
    exact normal_ok fun h => absurd h (by simp [PResult.hasPossibleDates])
  · rw [e]; exact num _ (.inl rfl)
  · rw [e]; exact num _ (.inr ⟨n, hn, rfl⟩)

/-! ### Weeks -/

theorem wordMap_get_touch (g : Globals) (w : Text) (h : ∀ p ∈ g, p.2 ≤ 12) : (WordMap.get g w ≤ 12) ∧ ∀ p ∈ WordMap.touch g w, p.2 ≤ 12 := by
  constructor
  · unfold WordMap.get
    cases hl : WordMap.lookup g w with
    | none => simp
    | some v => exact h _ (lookup_mem hl)
  · unfold WordMap.touch
    intro p hp
    split at hp
    · exact h p hp
    · simp at hp
      rcases hp with hp | rfl
      · exact h p hp
      · simp

theorem week_lives {rt : Rt} (hrt : rt.Benign) {ref : PTime} {x : DateTime} (hx : GoodRef ref x) {text : Text} (hd : NoDigits text) :
    Lives rt ref text weekParser := by
  refine lives_of hrt week_pattern week_min (fun g => ∀ p ∈ g, p.2 ≤ 12) (by decide) fun k g mt hg hs => ?_
  have h3 : mt.str 3 = [] := by
    rcases (Re.search_ok hs).group_lang 3 (by decide) with h | ⟨body, hb, hl⟩
    · exact h
    · have hall : (Ast.week.bodies 3).all (fun b => b.allB isDigitB) = true := by decide +kernel
      have ha := hl.allB _ (List.all_eq_true.1 hall body hb)
      cases hq : mt.str 3 with
      | nil => rfl
      | cons c q =>
        have h1 := ha c (by rw [hq]; simp)
        rw [noDigits_group hd hs 3 c (by rw [hq]; simp)] at h1
        simp at h1
  have hw : ∃ (n : Nat) (g' : Globals), weekNumber g mt = .ok ((n : Int), g') ∧ n ≤ 12 ∧ ∀ p ∈ g', p.2 ≤ 12 := by
    unfold weekNumber
    rw [h3]
    simp only [List.isEmpty_nil, Bool.not_true, Bool.false_eq_true, if_false]
    split
    · exact ⟨_, _, rfl, wordMap_get_touch g _ hg⟩
    · exact ⟨1, g, rfl, by decide, hg⟩
  obtain ⟨n, g', hn, hn12, hg'⟩ := hw
  have hshift : Normal Usable (weekShift ref (mt.str 2) n) := by
    unfold weekShift
    refine normal_ite (fun _ => usable_addDays hx (by omega) (by omega)) fun _ => ?_
    refine normal_ite (fun _ => usable_addDays hx (by omega) (by omega)) fun _ => ?_
    exact normal_ok (usable_ref hx)
  obtain ⟨D, hD, hu⟩ := hshift
  obtain ⟨r, hr, hp⟩ := dated_plain (ref := ref) (idx := k + mt.start) (t := mt.str 0) hu
  refine ⟨r, g', ?_, hg', fun _ => hp⟩
  show weekExtract rt g ((toLower text).drop k) mt ref (k + mt.start) = _
  unfold weekExtract
  rw [hn]
  simp only [Out.bind_ok]
  rw [hD]
  simp only [Out.bind_ok]
  rw [hr]
  rfl

end Chrono.Props
