import Verif.Props.P24_Week
/-!
# C39, C40: the relative-date parser
-/
namespace Chrono.Props
open Chrono Chrono.Spec Chrono.Boost

/-! ## Specification -/

/-- How many: in digits, `few` (three), or not said (one). -/
def IsAmount (num : Text) (n : Nat) : Prop :=
  (IsDigits num ∧ decimalValue num = n) ∨ (num = txt!"few" ∧ n = 3) ∨ (num = [] ∧ n = 1)

/-- `next 5 days`, `last few weeks`, `past month`. -/
def relText (m num u : Text) : Text := m ++ txt!" " ++ (if num = [] then [] else num ++ txt!" ") ++ u

def relWords : List Text := [txt!"next", txt!"last", txt!"past"]

/-- `b` is `k` days after (`next`), before (`last`, `past`) `a`. -/
def DaysMoved (m : Text) (k : Nat) (a b : Nat × Nat × Nat) : Prop :=
  if m = txt!"next" then daysLater k a = b else daysLater k b = a

/-- The same for seconds. -/
def SecondsMoved (m : Text) (k : Nat) (a b : DateTime) : Prop :=
  if m = txt!"next" then a.secondsLater k = b else b.secondsLater k = a

/-- The date `n` months earlier (same rule for the day as `monthsLater`). -/
def monthsEarlier (n : Nat) : Nat × Nat × Nat → Nat × Nat × Nat
  | (y, m, d) =>
    let k := 12 * y + (m - 1) - n
    let l := monthLength (k / 12) (k % 12 + 1)
    (k / 12, k % 12 + 1, if d = monthLength y m then l else min d l)

def monthsMoved (m : Text) (k : Nat) (a : Nat × Nat × Nat) : Nat × Nat × Nat :=
  if m = txt!"next" then monthsLater k a else monthsEarlier k a

/-! ## What the pattern finds -/

def relUnits : List Text := dateUnits ++ timeUnits

def RelFound (t m n3 u : Text) : Prop :=
  toLower t = t ∧ ∃ mt, FoundAt0 Ast.relative t mt ∧ mt.str 0 = t ∧ mt.str 2 = m ∧ mt.str 3 = n3 ∧ mt.str 4 = u

theorem rel_digits_check : (relWords.all fun w => relUnits.all fun u =>
    checkRun Ast.relative (w ++ txt!" ") (txt!" " ++ u)
      [(2, some (0, w.length)), (3, some ((w ++ txt!" ").length, (w ++ txt!" ").length + 1)),
       (4, some ((w ++ txt!" ").length + 1 + 1, (w ++ txt!" ").length + 1 + (1 + u.length)))]) = true := by decide +kernel

theorem rel_fixed_check : (relWords.all fun w => relUnits.all fun u => [txt!"few", [], txt!"half", txt!"half a", txt!"half an"].all fun n =>
    checkAt0 Ast.relative (relText w n u) [(0, relText w n u), (2, w), (3, n), (4, u)] && toLower (relText w n u) == relText w n u) = true := by
  decide +kernel

theorem rel_found_digits {w num u : Text} (hw : w ∈ relWords) (hn : IsDigits num) (hu : u ∈ relUnits) :
    RelFound (relText w num u) w num u := by
  have h1 : (relWords.all fun p => toLower p == p) = true := by decide
  have h2 : (relUnits.all fun p => toLower p == p) = true := by decide
  have e1 : toLower w = w := by simpa using List.all_eq_true.1 h1 _ hw
  have e2 : toLower u = u := by simpa using List.all_eq_true.1 h2 _ hu
  have hc := List.all_eq_true.1 (List.all_eq_true.1 rel_digits_check w hw) u hu
  obtain ⟨mt, hf, h0, hg⟩ := foundRun (ds := num) _ hc hn.1 (isDigits_digitB hn)
  have e : w ++ txt!" " ++ num ++ (txt!" " ++ u) = relText w num u := by
    unfold relText; rw [if_neg hn.1]; simp
  refine ⟨?_, mt, by rw [← e]; exact hf, by rw [← e]; exact h0, ?_, ?_, ?_⟩
  · rw [← e]
    simp only [toLower_append, e1, e2, toLower_digits (isDigits_digitB hn)]
    rfl
  · rw [run_get hg (.head _) (by simp)]
    rw [Option.map_some, run_pre (by omega) (by simp)]
    unfold slice; simp
  · rw [run_get hg (.tail _ (.head _)) (by simp)]; exact run_mid hn.1
  · rw [run_get hg (.tail _ (.tail _ (.head _))) (by simp), Option.map_some, run_post]
    unfold slice; simp

theorem rel_found_fixed {w n u : Text} (hw : w ∈ relWords) (hn : n ∈ [txt!"few", [], txt!"half", txt!"half a", txt!"half an"])
    (hu : u ∈ relUnits) : RelFound (relText w n u) w n u := by
  have hc := List.all_eq_true.1 (List.all_eq_true.1 (List.all_eq_true.1 rel_fixed_check w hw) u hu) n hn
  rw [Bool.and_eq_true] at hc
  obtain ⟨mt, hf, hg⟩ := foundAt0 _ hc.1
  exact ⟨by simpa using hc.2, mt, hf, hg _ (.head _), hg _ (.tail _ (.head _)), hg _ (.tail _ (.tail _ (.head _))),
    hg _ (.tail _ (.tail _ (.tail _ (.head _))))⟩

theorem rel_found {w num u : Text} {n : Nat} (hw : w ∈ relWords) (hn : IsAmount num n) (hu : u ∈ relUnits) :
    RelFound (relText w num u) w num u := by
  rcases hn with ⟨hd, -⟩ | ⟨rfl, -⟩ | ⟨rfl, -⟩
  · exact rel_found_digits hw hd hu
  · exact rel_found_fixed hw (by simp) hu
  · exact rel_found_fixed hw (by simp) hu

theorem stof_digits {ds : Text} (hne : ds ≠ []) (h : ∀ c ∈ ds, isDigitB c = true) (hsm : digitsVal 0 ds < 16777216) :
    stof ds = .ok (.int (digitsVal 0 ds)) := by
  unfold stof
  have : dropSpaces ds = ds := by
    cases ds with
    | nil => exact absurd rfl hne
    | cons c t => exact dropSpaces_digit (h c (by simp))
  simp only [this, digitPrefix_all h]
  rw [if_neg (by simpa using hne)]
  have hf : f32 (digitsVal 0 ds) = digitsVal 0 ds := by unfold f32; rw [if_pos hsm]
  rw [hf, if_pos (by omega)]

theorem relativeNumber_ok {g : Globals} {num : Text} {n : Nat} (hn : IsAmount num n) (hsm : n < 16777216)
    (hg : WordMap.lookup g num = WordMap.lookup integerWords num) : relativeNumber g num = .ok (some (.int n)) := by
  unfold relativeNumber
  rw [hg]
  rcases hn with ⟨hd, rfl⟩ | ⟨rfl, rfl⟩ | ⟨rfl, rfl⟩
  · have hb := isDigits_digitB hd
    rw [integerWords_digits hd.1 hb]
    simp only []
    rw [if_neg (by simpa using hd.1), if_neg (by rw [startsWith_no (by decide) hb]; simp),
      if_neg (by rw [startsWith_no (by decide) hb]; simp), stof_digits hd.1 hb (by rw [← decimalValue_eq]; exact hsm), ← decimalValue_eq]
  · rfl
  · rfl

/-! ## Dates -/

theorem rel_date_yields {rt : Rt} (hrt : rt.Benign) {g : Globals} {ref : PTime} {t m num u : Text} {f : FNum}
    (hf : RelFound t m num u) (hm : m ∈ relWords) (hu : u ∈ dateUnits) (hn : relativeNumber g num = .ok (some f))
    {D : Date} {z : Nat × Nat × Nat} (hD : D.ymd = .ok ⟨z.1, z.2.1, z.2.2⟩)
    (hx : ∀ r : PResult, relativeDate r ref m u f = implyDate (r.setTag .relative) D) :
    Yields (execute rt relativeParser g t ref) t
      (fun r => DateIs r.startDate z ∧ TimeIs r.startDate 0 0 0 ∧ r.hasEnd = false) := by
  obtain ⟨hl, mt, hf, h0, h2, h3, h4⟩ := hf
  obtain ⟨⟨c1, -⟩, -⟩ := Date.of_ymd hD
  have hs : searches true Pat.dwmy u = .ok true := by
    have : (dateUnits.all fun u => match searches true Pat.dwmy u with | .ok b => b | _ => false) = true := by decide +kernel
    have := List.all_eq_true.1 this u hu
    revert this
    cases searches true Pat.dwmy u <;> simp
  have hm' : m ≠ txt!"this" := by
    have : (relWords.all fun w => w != txt!"this") = true := by decide
    simpa using List.all_eq_true.1 this m hm
  refine yields_of hrt relative_pattern relative_min hl hf (pureExtract_ok
    (r := ((PResult.mk' ref 0 t).setTag .relative).onStart fun c => ((c.imply .year z.1).imply .month z.2.1).imply .mday z.2.2) ?_) ?_ ?_ ?_ ?_
  · unfold relativeExtract
    simp only [h0, h2, h3, h4]
    rw [hn, Out.bind_ok]
    simp only []
    rw [if_neg hm', hs, Out.bind_ok, if_pos rfl, hx, implyDate_ok hD]
  · refine hasPossibleDates_of_year ?_
    simp [get_imply]; omega
  · simp
  · simp
  · refine ⟨?_, ?_, ?_⟩
    · simp [DateIs, get_imply]
    · simp [TimeIs, get_imply]
    · simp

theorem daysMoved_add {ref : PTime} {x : DateTime} (hx : RefReads ref x) {m : Text} {k : Nat} {z : Nat × Nat × Nat}
    (hz : CivilInRange z.1 z.2.1 z.2.2) (h : DaysMoved m k x.date z) :
    ∃ D, ref.date.addDays (relSign m k) = .ok D ∧ D.ymd = .ok ⟨z.1, z.2.1, z.2.2⟩ ∧ k < 16777216 := by
  obtain ⟨hc, -, -, -, us, -, -, -, hrd⟩ := refReads_us hx
  have lim : ∀ a b : Nat × Nat × Nat, CivilInRange a.1 a.2.1 a.2.2 → CivilInRange b.1 b.2.1 b.2.2 → daysLater k a = b → k < 16777216 := by
    intro a b ha hb e
    obtain ⟨-, -, c⟩ := daysLater_civil (y := a.1) (m := a.2.1) (d := a.2.2) k (Nat.le_trans (by decide) ha.1) ha.2.2
    have e' : daysLater k (a.1, a.2.1, a.2.2) = b := e
    rw [e'] at c
    have hup := dayNumber_lt hb
    unfold maxDN at hup
    generalize dayNumber b.1 b.2.1 b.2.2 = K at c hup
    omega
  unfold DaysMoved at h
  unfold relSign
  rw [hrd]
  split at h
  · rename_i hm
    rw [if_pos hm]
    have h' : daysLater k (x.year, x.month, x.day) = z := h
    obtain ⟨D, h1, h2⟩ := addDays_later (n := k) hc (by rw [h']; exact hz)
    rw [h'] at h2
    exact ⟨D, h1, h2, lim x.date z hc hz h⟩
  · rename_i hm
    rw [if_neg hm]
    obtain ⟨D, h1, h2⟩ := addDays_earlier (n := k) hc hz h
    exact ⟨D, h1, h2, lim z x.date hz hc h⟩

theorem monthsMoved_add {D : Date} {y mo d : Nat} (hD : D.ymd = .ok ⟨y, mo, d⟩) {m : Text} {k : Nat} (h16 : k ≤ 32767)
    (hy1 : 1400 ≤ (monthsMoved m k (y, mo, d)).1) (hy2 : (monthsMoved m k (y, mo, d)).1 ≤ 9999) :
    ∃ D', D.addMonths (relSign m k) = .ok D' ∧
      D'.ymd = .ok ⟨(monthsMoved m k (y, mo, d)).1, (monthsMoved m k (y, mo, d)).2.1, (monthsMoved m k (y, mo, d)).2.2⟩ := by
  unfold monthsMoved at *
  unfold relSign
  obtain ⟨⟨c1, c2, c3, c4, c5, c6⟩, -⟩ := Date.of_ymd hD
  split
  · rename_i hm
    rw [if_pos hm] at hy2
    exact addMonths_later hD h16 hy2
  · rename_i hm
    rw [if_neg hm] at hy1 hy2
    have hy1' : 1400 ≤ (12 * y + (mo - 1) - k) / 12 := hy1
    have hy2' : (12 * y + (mo - 1) - k) / 12 ≤ 9999 := hy2
    exact addMonths_count hD (by omega) (by omega) (k := 12 * y + (mo - 1) - k) (by omega) hy1' hy2'

/-- **C40 (days, weeks).** For every reference time, amount `n` (digits however many, `few`, or none) and unit of `k` days:
`next n units` yields one result, covering the text, dated `k * n` days after the reference date; `last` and `past`: before it. -/
theorem c40_days_and_weeks (rt : Rt) (hrt : rt.Benign) (g : Globals) (ref : PTime) (x : DateTime) (hx : RefReads ref x)
    (m num : Text) (n : Nat) (u : Text × Nat) (hm : m ∈ relWords) (hn : IsAmount num n) (hu : u ∈ dayUnits)
    (hg : WordMap.lookup g num = WordMap.lookup integerWords num)
    (z : Nat × Nat × Nat) (hz : CivilInRange z.1 z.2.1 z.2.2) (hmv : DaysMoved m (u.2 * n) x.date z) :
    Yields (execute rt relativeParser g (relText m num u.1) ref) (relText m num u.1)
      (fun r => DateIs r.startDate z ∧ TimeIs r.startDate 0 0 0 ∧ r.hasEnd = false) := by
  obtain ⟨D, h1, h2, h3⟩ := daysMoved_add hx hz hmv
  have hk : n ≤ u.2 * n := by
    have : 1 ≤ u.2 := by
      simp only [dayUnits, List.mem_cons, List.not_mem_nil, or_false] at hu
      rcases hu with rfl | rfl | rfl | rfl <;> decide
    exact Nat.le_mul_of_pos_left _ this
  have hu1 : u.1 ∈ dateUnits := by
    simp only [dayUnits, List.mem_cons, List.not_mem_nil, or_false] at hu
    rcases hu with rfl | rfl | rfl | rfl <;> decide
  refine rel_date_yields hrt (rel_found hm hn (List.mem_append_left _ hu1)) hm hu1 (relativeNumber_ok hn (by omega) hg) h2 fun r => ?_
  unfold relativeDate
  have hl : (FNum.int n).toInt = .ok (n : Int) := by simp only [FNum.toInt]; rw [if_pos (by omega)]
  have hw : (FNum.int n).isWhole = true := rfl
  simp only [dayUnits, List.mem_cons, List.not_mem_nil, or_false] at hu
  rcases hu with rfl | rfl | rfl | rfl
  · simp only [Nat.one_mul] at h1
    rw [if_pos (by decide), if_pos hw, hl, Out.bind_ok, h1, Out.bind_ok]
  · simp only [Nat.one_mul] at h1
    rw [if_pos (by decide), if_pos hw, hl, Out.bind_ok, h1, Out.bind_ok]
  · rw [if_neg (by decide), if_pos (by decide), if_pos hw, hl, Out.bind_ok,
      show (7 : Int) * (n : Int) = ((7 * n : Nat) : Int) by push_cast; rfl, h1, Out.bind_ok]
  · rw [if_neg (by decide), if_pos (by decide), if_pos hw, hl, Out.bind_ok,
      show (7 : Int) * (n : Int) = ((7 * n : Nat) : Int) by push_cast; rfl, h1, Out.bind_ok]

/-- **C40 (months, years).** `k * n` months at most 32767. -/
theorem c40_months_and_years (rt : Rt) (hrt : rt.Benign) (g : Globals) (ref : PTime) (x : DateTime) (hx : RefReads ref x)
    (m num : Text) (n : Nat) (u : Text × Nat) (hm : m ∈ relWords) (hn : IsAmount num n) (hu : u ∈ monthUnits)
    (hg : WordMap.lookup g num = WordMap.lookup integerWords num) (h16 : u.2 * n ≤ 32767)
    (hy1 : 1400 ≤ (monthsMoved m (u.2 * n) x.date).1) (hy2 : (monthsMoved m (u.2 * n) x.date).1 ≤ 9999) :
    Yields (execute rt relativeParser g (relText m num u.1) ref) (relText m num u.1)
      (fun r => DateIs r.startDate (monthsMoved m (u.2 * n) x.date) ∧ TimeIs r.startDate 0 0 0 ∧ r.hasEnd = false) := by
  obtain ⟨D, h1, h2⟩ := monthsMoved_add hx.date h16 hy1 hy2
  have hk : n ≤ u.2 * n := by
    have : 1 ≤ u.2 := by
      simp only [monthUnits, List.mem_cons, List.not_mem_nil, or_false] at hu
      rcases hu with rfl | rfl | rfl | rfl <;> decide
    exact Nat.le_mul_of_pos_left _ this
  have hu1 : u.1 ∈ dateUnits := by
    simp only [monthUnits, List.mem_cons, List.not_mem_nil, or_false] at hu
    rcases hu with rfl | rfl | rfl | rfl <;> decide
  refine rel_date_yields hrt (rel_found hm hn (List.mem_append_left _ hu1)) hm hu1 (relativeNumber_ok hn (by omega) hg) h2 fun r => ?_
  unfold relativeDate
  have hl : (FNum.int n).toInt = .ok (n : Int) := by simp only [FNum.toInt]; rw [if_pos (by omega)]
  have hw : (FNum.int n).isWhole = true := rfl
  simp only [monthUnits, List.mem_cons, List.not_mem_nil, or_false] at hu
  rcases hu with rfl | rfl | rfl | rfl
  · simp only [Nat.one_mul] at h1
    rw [if_neg (by decide), if_neg (by decide), if_pos (by decide), if_pos hw, hl, Out.bind_ok, h1, Out.bind_ok]
  · simp only [Nat.one_mul] at h1
    rw [if_neg (by decide), if_neg (by decide), if_pos (by decide), if_pos hw, hl, Out.bind_ok, h1, Out.bind_ok]
  · rw [if_neg (by decide), if_neg (by decide), if_neg (by decide), if_pos (by decide), if_pos hw, hl, Out.bind_ok,
      show (12 : Int) * (n : Int) = ((12 * n : Nat) : Int) by push_cast; rfl, h1, Out.bind_ok]
  · rw [if_neg (by decide), if_neg (by decide), if_neg (by decide), if_pos (by decide), if_pos hw, hl, Out.bind_ok,
      show (12 : Int) * (n : Int) = ((12 * n : Nat) : Int) by push_cast; rfl, h1, Out.bind_ok]

/-! ## Times -/

theorem rel_time_yields {rt : Rt} (hrt : rt.Benign) {g : Globals} {ref p : PTime} {t m num u : Text} {f : FNum}
    (hf : RelFound t m num u) (hm : m ∈ relWords) (hu : u ∈ timeUnits) (hn : relativeNumber g num = .ok (some f))
    {z : DateTime} (hp : RefReads p z) (hx : relativeTime ref m u f = .ok p) :
    Yields (execute rt relativeParser g t ref) t
      (fun r => DateIs r.startDate z.date ∧ TimeIs r.startDate z.hour z.minute z.second ∧ r.hasEnd = false) := by
  obtain ⟨hl, mt, hf, h0, h2, h3, h4⟩ := hf
  obtain ⟨hc, -⟩ := refReads_us hp
  have hs : searches true Pat.dwmy u = .ok false := by
    have : (timeUnits.all fun u => match searches true Pat.dwmy u with | .ok b => !b | _ => false) = true := by decide +kernel
    have := List.all_eq_true.1 this u hu
    revert this
    cases searches true Pat.dwmy u <;> simp
  have hm' : m ≠ txt!"this" := by
    have : (relWords.all fun w => w != txt!"this") = true := by decide
    simpa using List.all_eq_true.1 this m hm
  refine yields_of hrt relative_pattern relative_min hl hf (pureExtract_ok
    (r := ((((PResult.mk' ref 0 t).onStart fun c => ((c.imply .year z.year).imply .month z.month).imply .mday z.day)).onStart
      fun c => ((c.imply .hour z.hour).imply .min z.minute).imply .sec z.second).setTag .relative) ?_) ?_ ?_ ?_ ?_
  · unfold relativeExtract
    simp only [h0, h2, h3, h4]
    rw [hn, Out.bind_ok]
    simp only []
    rw [if_neg hm', hs, Out.bind_ok, if_neg (by decide), hx, Out.bind_ok, implyDate_ok hp.date, Out.bind_ok, hp.hours, hp.minutes, hp.seconds]
    rfl
  · refine hasPossibleDates_of_year ?_
    have := hc.1
    simp [get_imply]; omega
  · simp
  · simp
  · refine ⟨?_, ?_, ?_⟩
    · simp [DateIs, get_imply, DateTime.date]
    · simp [TimeIs, get_imply]
    · simp

theorem secondsMoved_add {ref : PTime} {x z : DateTime} (hx : RefReads ref x) (hz : z.Valid) {m : Text} {k : Nat}
    (h : SecondsMoved m k x z) : RefReads (ref.addSeconds (relSign m k)) z := by
  unfold SecondsMoved at h
  unfold relSign
  split at h
  · rename_i hm
    rw [if_pos hm]
    have := hx.secondsLater k (by rw [h]; exact hz.1.2.1)
    rwa [h] at this
  · rename_i hm
    rw [if_neg hm]
    exact hx.secondsEarlier k hz h

theorem relSign_mul (m : Text) (c n : Nat) : relSign m ((c * n : Nat) : Int) = c * relSign m n := by
  unfold relSign; split
  · push_cast; rfl
  · push_cast; exact (Int.mul_neg _ _).symm

/-- **C40 (hours, minutes, seconds).** The result is the instant `k * n` seconds after (before) the reference, with its
date, also when midnight is crossed. -/
theorem c40_times (rt : Rt) (hrt : rt.Benign) (g : Globals) (ref : PTime) (x : DateTime) (hx : RefReads ref x)
    (m num : Text) (n : Nat) (u : Text × Nat) (hm : m ∈ relWords) (hn : IsAmount num n) (hu : u ∈ secondUnits)
    (hg : WordMap.lookup g num = WordMap.lookup integerWords num) (hsm : n < 16777216)
    (z : DateTime) (hz : z.Valid) (hmv : SecondsMoved m (u.2 * n) x z) :
    Yields (execute rt relativeParser g (relText m num u.1) ref) (relText m num u.1)
      (fun r => DateIs r.startDate z.date ∧ TimeIs r.startDate z.hour z.minute z.second ∧ r.hasEnd = false) := by
  have hp := secondsMoved_add hx hz hmv
  have hu1 : u.1 ∈ timeUnits := by
    simp only [secondUnits, List.mem_cons, List.not_mem_nil, or_false] at hu
    rcases hu with rfl | rfl | rfl | rfl | rfl | rfl <;> decide
  refine rel_time_yields hrt (rel_found hm hn (List.mem_append_right _ hu1)) hm hu1 (relativeNumber_ok hn hsm hg) hp ?_
  unfold relativeTime
  have hl : (FNum.int n).toInt = .ok (n : Int) := by simp only [FNum.toInt]; rw [if_pos (by omega)]
  have hw : (FNum.int n).isWhole = true := rfl
  have e1 : ref.addHours (relSign m n) = ref.addSeconds (relSign m ((3600 * n : Nat) : Int)) := by
    rw [relSign_mul]; unfold PTime.addHours PTime.addSeconds; congr 1
  have e2 : ref.addMinutes (relSign m n) = ref.addSeconds (relSign m ((60 * n : Nat) : Int)) := by
    rw [relSign_mul]; unfold PTime.addMinutes PTime.addSeconds; congr 1
  have e3 : ref.addSeconds (relSign m n) = ref.addSeconds (relSign m ((1 * n : Nat) : Int)) := by rw [Nat.one_mul]
  simp only [secondUnits, List.mem_cons, List.not_mem_nil, or_false] at hu
  rcases hu with rfl | rfl | rfl | rfl | rfl | rfl
  · rw [if_pos (by decide), if_pos hw, hl, Out.bind_ok, e1]; rfl
  · rw [if_pos (by decide), if_pos hw, hl, Out.bind_ok, e1]; rfl
  · rw [if_neg (by decide), if_pos (by decide), if_pos hw, hl, Out.bind_ok, e2]; rfl
  · rw [if_neg (by decide), if_pos (by decide), if_pos hw, hl, Out.bind_ok, e2]; rfl
  · rw [if_neg (by decide), if_neg (by decide), if_pos (by decide), hl, Out.bind_ok, e3]; rfl
  · rw [if_neg (by decide), if_neg (by decide), if_pos (by decide), hl, Out.bind_ok, e3]; rfl

/-! ## C39 -/

/-- Start and end of a result. -/
def RangeIs (r : PResult) (a b : Nat × Nat × Nat) : Prop :=
  DateIs r.startDate a ∧ r.hasEnd = true ∧ DateIs r.endDate b

theorem this_found {t u : Text} (ht : (t, u) ∈ [(txt!"this week", txt!"week"), (txt!"this month", txt!"month"), (txt!"this year", txt!"year")]) :
    RelFound t txt!"this" [] u := by
  have hc : ([(txt!"this week", txt!"week"), (txt!"this month", txt!"month"), (txt!"this year", txt!"year")].all fun p =>
      checkAt0 Ast.relative p.1 [(0, p.1), (2, txt!"this"), (3, []), (4, p.2)] && toLower p.1 == p.1) = true := by decide +kernel
  have h1 := List.all_eq_true.1 hc _ ht
  rw [Bool.and_eq_true] at h1
  obtain ⟨mt, hf, hg⟩ := foundAt0 _ h1.1
  exact ⟨by simpa using h1.2, mt, hf, hg _ (.head _), hg _ (.tail _ (.head _)), hg _ (.tail _ (.tail _ (.head _))),
    hg _ (.tail _ (.tail _ (.tail _ (.head _))))⟩

theorem this_yields {rt : Rt} (hrt : rt.Benign) {g : Globals} {ref : PTime} {t u : Text} (hf : RelFound t txt!"this" [] u)
    (hg : WordMap.lookup g [] = none) {a b : Nat × Nat × Nat} (ha : 1 ≤ a.1) {r : PResult}
    (hx : relativeThis (PResult.mk' ref 0 t) ref u = .ok r) (hi : r.index = 0) (ht : r.text = t) (hr : RangeIs r a b) :
    Yields (execute rt relativeParser g t ref) t (fun r => RangeIs r a b) := by
  obtain ⟨hl, mt, hf, h0, h2, h3, h4⟩ := hf
  obtain ⟨hr1, hr2, hr3⟩ := hr
  refine yields_of hrt relative_pattern relative_min hl hf (pureExtract_ok (r := r) ?_) ?_ hi ht ?_
  · unfold relativeExtract
    simp only [h0, h2, h3, h4]
    have : relativeNumber g [] = .ok (some (.int 1)) := by unfold relativeNumber; rw [hg]; rfl
    rw [this, Out.bind_ok]
    simp only []
    rw [if_pos trivial, if_neg (by decide), hx]
  · refine hasPossibleDates_of_year ?_
    rw [hr1.1]; omega
  · refine ⟨hr1, hr2, ?_⟩
    rw [copy_endDate hr2]
    exact hr3

/-- **C39 (week).** `this week` yields, covering the text, the week from Sunday to Saturday that contains the reference
date: `s` is the Sunday, at most six days before the reference date. -/
theorem c39_this_week (rt : Rt) (hrt : rt.Benign) (g : Globals) (hg : WordMap.lookup g [] = none) (ref : PTime) (x : DateTime)
    (hx : RefReads ref x) (s : Nat × Nat × Nat) (k : Nat) (hs : CivilInRange s.1 s.2.1 s.2.2) (hsun : weekday s.1 s.2.1 s.2.2 = 0)
    (hk : k ≤ 6) (hsk : daysLater k s = x.date) (hy : (daysLater 6 s).1 ≤ 9999) :
    Yields (execute rt relativeParser g txt!"this week" ref) txt!"this week" (fun r => RangeIs r s (daysLater 6 s)) := by
  obtain ⟨hc, -, -, -, us, -, -, -, hrd⟩ := refReads_us hx
  obtain ⟨sy, sm, sd⟩ := s
  simp only at hs hsun
  have hs1 : 1 ≤ sy := Nat.le_trans (by decide) hs.1
  obtain ⟨-, -, ck⟩ := daysLater_civil k hs1 hs.2.2
  rw [hsk] at ck
  have ck' : dayNumber x.year x.month x.day = dayNumber sy sm sd + k := ck
  -- the weekday of the reference date is `k`
  have hw : ref.date.dayOfWeek = .ok k := by
    have e1 := weekday_eq hc
    have e2 := weekday_eq hs
    rw [(Date.year_of_ymd hx.date).2.2.2, weekday_dow hc, e1, ck']
    rw [hsun] at e2
    congr 1
    generalize dayNumber sy sm sd = K at *
    omega
  obtain ⟨D, d1, d2⟩ := addDays_earlier (n := k) hc hs hsk
  -- the Saturday
  obtain ⟨a6, b6, c6⟩ := daysLater_civil 6 hs1 hs.2.2
  generalize daysLater 6 (sy, sm, sd) = e at *
  obtain ⟨E, f1, f2⟩ : ∃ E, ref.date.addDays (6 - (k : Int)) = .ok E ∧ E.ymd = .ok ⟨e.1, e.2.1, e.2.2⟩ := by
    have hce : CivilInRange e.1 e.2.1 e.2.2 := ⟨Nat.le_trans hs.1 b6, hy, a6⟩
    have h1 := dayNumber_upper hce.2.1 hce.2.2
    have h2 := dayNumber_lower hc.1 hc.2.2
    refine ⟨⟨dayNumber e.1 e.2.1 e.2.2⟩, ?_, Date.ymd_of_civil hce⟩
    rw [hrd]
    have h3 := dayNumber_lower hce.1 hce.2.2
    generalize dayNumber e.1 e.2.1 e.2.2 = L at *
    generalize dayNumber x.year x.month x.day = M at *
    generalize dayNumber sy sm sd = K at *
    have el : (M : Int) + (6 - (k : Int)) = L := by omega
    rw [Date.addDays_ok (D := ⟨M⟩) (by rw [el]; omega) (by rw [el]; omega)]
    simp only [el]
  obtain ⟨d3, d4, d5, -⟩ := Date.year_of_ymd d2
  obtain ⟨f3, f4, f5, -⟩ := Date.year_of_ymd f2
  refine this_yields hrt (this_found (u := txt!"week") (by simp)) hg (a := (sy, sm, sd)) hs1
    (r := ((((PResult.mk' ref 0 txt!"this week").setTag .relative).onStart fun c => ((c.imply .mday sd).imply .month sm).imply .year sy).onEnd
      fun c => ((c.imply .mday e.2.2).imply .month e.2.1).imply .year e.1).makeEndValid) ?_ ?_ ?_ ?_
  · unfold relativeThis
    have hsr : searches true Pat.dwmy txt!"week" = .ok true := by decide +kernel
    rw [hsr, Out.bind_ok, if_pos rfl, if_pos (by decide), hw, Out.bind_ok, hrd, d1, Out.bind_ok, ← hrd, f1, Out.bind_ok,
      d5, Out.bind_ok, d4, Out.bind_ok, d3, Out.bind_ok, f5, Out.bind_ok, f4, Out.bind_ok, f3, Out.bind_ok]
    rfl
  · simp [PResult.makeEndValid, PResult.onEnd]
  · simp [PResult.makeEndValid, PResult.onEnd]
  · refine ⟨?_, rfl, ?_⟩
    · simp [DateIs, get_imply, PResult.makeEndValid, PResult.onEnd]
    · simp [DateIs, get_imply, PResult.makeEndValid, PResult.onEnd]

/-- **C39 (month).** `this month` yields the first to the last day of the month of the reference date. -/
theorem c39_this_month (rt : Rt) (hrt : rt.Benign) (g : Globals) (hg : WordMap.lookup g [] = none) (ref : PTime) (x : DateTime)
    (hx : RefReads ref x) :
    Yields (execute rt relativeParser g txt!"this month" ref) txt!"this month"
      (fun r => RangeIs r (x.year, x.month, 1) (x.year, x.month, monthLength x.year x.month)) := by
  obtain ⟨hc, -⟩ := refReads_us hx
  refine this_yields hrt (this_found (u := txt!"month") (by simp)) hg (Nat.le_trans (by decide) hc.1)
    (r := ((((PResult.mk' ref 0 txt!"this month").setTag .relative).onStart fun c => ((c.imply .mday 1).set .month x.month).set .year x.year).onEnd
      fun c => ((c.imply .mday (monthLength x.year x.month)).set .month x.month).set .year x.year).makeEndValid) ?_ ?_ ?_ ?_
  · unfold relativeThis
    have hsr : searches true Pat.dwmy txt!"month" = .ok true := by decide +kernel
    rw [hsr, Out.bind_ok, if_pos rfl, if_neg (by decide), if_pos (by decide), hx.date, Out.bind_ok]
    simp only []
    rw [endOfMonthDay_eq x.year x.month hc.2.2.1 hc.2.2.2.1]
    rfl
  · simp [PResult.makeEndValid, PResult.onEnd]
  · simp [PResult.makeEndValid, PResult.onEnd]
  · refine ⟨?_, rfl, ?_⟩
    · simp [DateIs, get_imply, PResult.makeEndValid, PResult.onEnd]
    · simp [DateIs, get_imply, PResult.makeEndValid, PResult.onEnd]

/-- **C39 (year).** `this year` yields 1 January to 31 December of the year of the reference date. -/
theorem c39_this_year (rt : Rt) (hrt : rt.Benign) (g : Globals) (hg : WordMap.lookup g [] = none) (ref : PTime) (x : DateTime)
    (hx : RefReads ref x) :
    Yields (execute rt relativeParser g txt!"this year" ref) txt!"this year"
      (fun r => RangeIs r (x.year, 1, 1) (x.year, 12, 31)) := by
  obtain ⟨hc, -⟩ := refReads_us hx
  refine this_yields hrt (this_found (u := txt!"year") (by simp)) hg (Nat.le_trans (by decide) hc.1)
    (r := ((((PResult.mk' ref 0 txt!"this year").setTag .relative).onStart fun c => ((c.imply .mday 1).imply .month 1).set .year x.year).onEnd
      fun c => ((c.imply .mday 31).imply .month 12).set .year x.year).makeEndValid) ?_ ?_ ?_ ?_
  · unfold relativeThis
    have hsr : searches true Pat.dwmy txt!"year" = .ok true := by decide +kernel
    rw [hsr, Out.bind_ok, if_pos rfl, if_neg (by decide), if_neg (by decide), if_pos (by decide), (Date.year_of_ymd hx.date).1, Out.bind_ok]
    rfl
  · simp [PResult.makeEndValid, PResult.onEnd]
  · simp [PResult.makeEndValid, PResult.onEnd]
  · refine ⟨?_, rfl, ?_⟩
    · simp [DateIs, get_imply, PResult.makeEndValid, PResult.onEnd]
    · simp [DateIs, get_imply, PResult.makeEndValid, PResult.onEnd]

/-! ## The hypotheses are met -/

example : IsAmount txt!"0012" 12 ∧ IsAmount txt!"few" 3 ∧ IsAmount [] 1 :=
  ⟨.inl ⟨⟨by simp, by decide⟩, by decide⟩, .inr (.inl ⟨rfl, rfl⟩), .inr (.inr ⟨rfl, rfl⟩)⟩
example : relText txt!"next" txt!"0012" txt!"days" = txt!"next 0012 days" ∧ relText txt!"past" [] txt!"month" = txt!"past month" := by decide
example : DaysMoved txt!"last" (7 * 2) (2019, 3, 10) (2019, 2, 24) ∧ CivilInRange 2019 2 24 := by unfold DaysMoved; decide
example : monthsMoved txt!"last" (12 * 1) (2020, 2, 29) = (2019, 2, 28) := by decide
example : SecondsMoved txt!"past" (60 * 1) ⟨2019, 3, 1, 0, 0, 30⟩ ⟨2019, 2, 28, 23, 59, 30⟩ := by unfold SecondsMoved; decide +kernel
example : WordMap.lookup integerWords [] = none := by decide
/-- Friday 15 March 2019: the week began on Sunday 10 March. -/
example : CivilInRange 2019 3 10 ∧ weekday 2019 3 10 = 0 ∧ daysLater 5 (2019, 3, 10) = (2019, 3, 15) := by
  refine ⟨by decide, ?_, by decide⟩
  rw [weekday_eq (by decide)]
  unfold dayNumber; decide

end Chrono.Props
