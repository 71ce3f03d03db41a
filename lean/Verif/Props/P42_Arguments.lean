import Verif.Props.P20_Phrases
/-!
# C72-C75: the arguments of the program
-/
namespace Chrono.Props
open Chrono Chrono.Spec Chrono.Boost

/-! ## Reading the reference date -/

theorem tokensFrom_word (seps : Text) (w : Text) : ∀ (cur t : Text), (∀ c ∈ w, seps.contains c = false) →
    tokensFrom seps cur (w ++ t) = tokensFrom seps (cur ++ w) t := by
  induction w with
  | nil => intro cur t _; simp
  | cons c w ih =>
    intro cur t h
    rw [List.cons_append, tokensFrom, if_neg (by rw [h c List.mem_cons_self]; decide), ih _ _ (fun d hd => h d (List.mem_cons_of_mem _ hd))]
    simp

theorem tokensFrom_sep {seps : Text} {c : Nat} (hc : seps.contains c = true) {cur : Text} (h : cur ≠ []) (t : Text) :
    tokensFrom seps cur (c :: t) = cur :: tokensFrom seps [] t := by
  rw [tokensFrom, if_pos hc, if_neg (by simpa using h)]

theorem tokensFrom_end (seps : Text) {cur : Text} (h : cur ≠ []) : tokensFrom seps cur [] = [cur] := by
  rw [tokensFrom, if_neg (by simpa using h)]

/-- Three words with one separator between them are three tokens. -/
theorem tokens_three {seps : Text} {c e : Nat} (hc : seps.contains c = true) (he : seps.contains e = true) {u v w : Text}
    (hu : u ≠ []) (hv : v ≠ []) (hw : w ≠ []) (nu : ∀ c ∈ u, seps.contains c = false) (nv : ∀ c ∈ v, seps.contains c = false)
    (nw : ∀ c ∈ w, seps.contains c = false) : tokens seps (u ++ c :: (v ++ e :: w)) = [u, v, w] := by
  unfold tokens
  rw [tokensFrom_word _ _ _ _ nu, List.nil_append, tokensFrom_sep hc hu, tokensFrom_word _ _ _ _ nv, List.nil_append,
    tokensFrom_sep he hv]
  have := tokensFrom_word seps w [] [] nw
  rw [List.append_nil] at this
  rw [this, List.nil_append, tokensFrom_end _ hw]

theorem lexicalCast_digits {max : Nat} {ds : Text} (h0 : ds ≠ []) (h : ∀ c ∈ ds, isDigitB c = true)
    (hm : digitsVal 0 ds ≤ max) : lexicalCast max ds = .ok (digitsVal 0 ds : Int) := by
  have hh : afterPlus ds = ds := by
    cases ds with
    | nil => rfl
    | cons c t =>
      have : isDigitB c = true := h c List.mem_cons_self
      exact if_neg (by rintro rfl; exact absurd this (by decide))
  unfold lexicalCast
  rw [hh]
  simp only
  rw [if_neg, if_pos hm]
  rintro (h1 | h1)
  · exact h0 (List.isEmpty_iff.1 h1)
  · rw [List.all_eq_false] at h1
    obtain ⟨c, hc, hc'⟩ := h1
    exact hc' (h c hc)

theorem splitBlank_at {u : Text} (h : ∀ c ∈ u, c ≠ 32) (t : Text) : splitBlank (u ++ 32 :: t) = (u, some t) := by
  induction u with
  | nil => rfl
  | cons c u ih =>
    rw [List.cons_append, splitBlank, if_neg (h c List.mem_cons_self), ih (fun d hd => h d (List.mem_cons_of_mem _ hd))]

theorem digit_no_date_sep {c : Nat} (h : isDigitB c = true) : ([44, 45, 46, 32, 47] : Text).contains c = false := by
  rw [isDigitB_iff] at h
  simp; omega
theorem digit_no_time_sep {c : Nat} (h : isDigitB c = true) : ([45, 58, 44, 46] : Text).contains c = false := by
  rw [isDigitB_iff] at h
  simp; omega

/-- A date with a number or a name as month, then a time of day of three two-digit numbers. -/
theorem timeFromString_read {y d h mi s : Nat} {m : Int} {mt : Text} (hy : y < 10000) (hd : d < 100) (hh : h < 100)
    (hmi : mi < 100) (hs : s < 100) (hm0 : mt ≠ []) (hm1 : ∀ c ∈ mt, ([44, 45, 46, 32, 47] : Text).contains c = false)
    (hm : monthStr mt = .ok m) :
    timeFromString (four y ++ 45 :: (mt ++ 45 :: two d) ++ 32 :: (two h ++ 58 :: (two mi ++ 58 :: two s))) = (do
      let dt ← mkDate y m d
      return ⟨dt.dn * 86400000000 + ((h : Int) * 3600 + mi * 60 + s) * 1000000⟩) := by
  have n4 : ∀ n, four n ≠ [] := fun n => by simp [four]
  have n2 : ∀ n, two n ≠ [] := fun n => by simp [two]
  have h1 : splitBlank (four y ++ 45 :: (mt ++ 45 :: two d) ++ 32 :: (two h ++ 58 :: (two mi ++ 58 :: two s)))
      = (four y ++ 45 :: (mt ++ 45 :: two d), some (two h ++ 58 :: (two mi ++ 58 :: two s))) := by
    refine splitBlank_at ?_ _
    intro c hc
    have hdig : isDigitB c = true → c ≠ 32 := fun h => by rw [isDigitB_iff] at h; omega
    rw [List.mem_append, List.mem_cons, List.mem_append, List.mem_cons] at hc
    rcases hc with hc | rfl | hc | rfl | hc
    · exact hdig (digits_four _ c hc)
    · decide
    · have := hm1 c hc
      rintro rfl
      exact absurd this (by decide)
    · decide
    · exact hdig (digits_two _ c hc)
  have h2 : tokens [44, 45, 46, 32, 47] (four y ++ 45 :: (mt ++ 45 :: two d)) = [four y, mt, two d] :=
    tokens_three (by decide) (by decide) (n4 y) hm0 (n2 d) (fun c hc => digit_no_date_sep (digits_four _ c hc)) hm1
      (fun c hc => digit_no_date_sep (digits_two _ c hc))
  have h3 : tokens [45, 58, 44, 46] (two h ++ 58 :: (two mi ++ 58 :: two s)) = [two h, two mi, two s] :=
    tokens_three (by decide) (by decide) (n2 h) (n2 mi) (n2 s) (fun c hc => digit_no_time_sep (digits_two _ c hc))
      (fun c hc => digit_no_time_sep (digits_two _ c hc)) (fun c hc => digit_no_time_sep (digits_two _ c hc))
  have hl2 : ∀ {n max : Nat}, n < 100 → 100 ≤ max → lexicalCast max (two n) = .ok (n : Int) := fun {n max} hn hx => by
    have := lexicalCast_digits (max := max) (n2 n) (digits_two n) (by rw [digitsVal_two hn]; omega)
    rwa [digitsVal_two hn] at this
  have hl4 : lexicalCast 65535 (four y) = .ok (y : Int) := by
    have := lexicalCast_digits (max := 65535) (n4 y) (digits_four y) (by rw [digitsVal_four hy]; omega)
    rwa [digitsVal_four hy] at this
  have h4 : parseDate (four y ++ 45 :: (mt ++ 45 :: two d)) = mkDate y m d := by
    unfold parseDate
    simp only [h2, hl4, hm, hl2 hd (show 100 ≤ 65535 by decide), Out.bind_ok]
  have h5 : parseDuration (two h ++ 58 :: (two mi ++ 58 :: two s)) = .ok (((h : Int) * 3600 + mi * 60 + s) * 1000000) := by
    have hhd : (two h ++ 58 :: (two mi ++ 58 :: two s)).headD 0 ≠ 45 := by
      simp [two, dig]; omega
    unfold parseDuration
    rw [if_neg (by simp [two])]
    simp only [h3, hl2 hh (show 100 ≤ 2147483647 by decide), hl2 hmi (show 100 ≤ 65535 by decide),
      hl2 hs (show 100 ≤ 65535 by decide), Out.bind_ok]
    rw [if_neg hhd]
    simp
  unfold timeFromString
  simp only [h1, h4, h5, Out.bind_ok]

theorem monthStr_two {m : Nat} (hm : m < 100) : monthStr (two m) = .ok (m : Int) := by
  unfold monthStr
  rw [if_pos (by show isDigitB (dig (m / 10)) = true; exact isDigitB_dig _)]
  have := lexicalCast_digits (max := 65535) (ds := two m) (by simp [two]) (digits_two m) (by rw [digitsVal_two hm]; omega)
  rwa [digitsVal_two hm] at this

theorem argument_read (x : DateTime) (hy : x.year < 10000) (hm : x.month < 100) (hd : x.day < 100) (hh : x.hour < 100)
    (hmi : x.minute < 100) (hs : x.second < 100) : timeFromString x.argument = (do
      let dt ← mkDate x.year x.month x.day
      return ⟨dt.dn * 86400000000 + ((x.hour : Int) * 3600 + x.minute * 60 + x.second) * 1000000⟩) := by
  have := timeFromString_read hy hd hh hmi hs (mt := two x.month) (by simp [two])
    (fun c hc => digit_no_date_sep (digits_two _ c hc)) (monthStr_two hm)
  have e : x.argument = four x.year ++ 45 :: (two x.month ++ 45 :: two x.day) ++
      32 :: (two x.hour ++ 58 :: (two x.minute ++ 58 :: two x.second)) := by
    simp [DateTime.argument]
  rw [e]; exact this

theorem valid_small {x : DateTime} (hx : x.Valid) : x.year < 10000 ∧ x.month < 100 ∧ x.day < 100 ∧ x.hour < 100 ∧
    x.minute < 100 ∧ x.second < 100 := by
  obtain ⟨⟨h1, h2, h3, h4, h5, h6⟩, h7, h8, h9⟩ := hx
  have := monthLength_bounds x.year x.month h3 h4
  omega

theorem reads_midnight_plus {x : DateTime} (hx : x.Valid) :
    RefReads ⟨(dayNumber x.year x.month x.day : Int) * 86400000000 + ((x.hour : Int) * 3600 + x.minute * 60 + x.second) * 1000000⟩ x := by
  refine refReads_of_us hx (us := 0) (Int.le_refl 0) (by decide) ?_
  unfold instant
  generalize dayNumber x.year x.month x.day = k
  simp only
  omega

/-- **C72.** For every valid date and time `x`, the reference argument `YYYY-MM-DD HH:MM:SS` of `x` is read as `x`: the
program behaves as with a reference time that reads `x` (and has no fraction of a second), for every text and whatever
the clock shows. -/
theorem c72_reference_argument (x : DateTime) (hx : x.Valid) :
    ∃ ref : PTime, RefReads ref x ∧ ref.us % 1000000 = 0 ∧ ∀ rt sort clock text,
      mainArgs rt sort clock [text, x.argument] = mainRun rt sort text ref := by
  obtain ⟨h1, h2, h3, h4, h5, h6⟩ := valid_small hx
  refine ⟨_, reads_midnight_plus hx, by simp only; omega, ?_⟩
  intro rt sort clock text
  show (do let t ← timeFromString x.argument; mainRun rt sort text t) = _
  rw [argument_read x h1 h2 h3 h4 h5 h6, mkDate_civil hx.1]
  rfl

theorem monthAbbrev_ok {m : Nat} (h1 : 1 ≤ m) (h2 : m ≤ 12) : monthAbbrev m ≠ [] ∧
    (∀ c ∈ monthAbbrev m, ([44, 45, 46, 32, 47] : Text).contains c = false) ∧ monthStr (monthAbbrev m) = .ok (m : Int) := by
  interval_cases m <;> decide

/-- **C73.** The printed form of a date (`2019-Mar-15 07:05:00`) can be given back as the reference argument and is read as
the same date and time, for every valid date and time. -/
theorem c73_printed_form_is_argument (x : DateTime) (hx : x.Valid) :
    ∃ ref : PTime, RefReads ref x ∧ ref.us % 1000000 = 0 ∧ ∀ rt sort clock text,
      mainArgs rt sort clock [text, x.format] = mainRun rt sort text ref := by
  obtain ⟨h1, h2, h3, h4, h5, h6⟩ := valid_small hx
  obtain ⟨a, b, c⟩ := monthAbbrev_ok hx.1.2.2.1 hx.1.2.2.2.1
  refine ⟨_, reads_midnight_plus hx, by simp only; omega, ?_⟩
  intro rt sort clock text
  have e : x.format = four x.year ++ 45 :: (monthAbbrev x.month ++ 45 :: two x.day) ++
      32 :: (two x.hour ++ 58 :: (two x.minute ++ 58 :: two x.second)) := by
    simp [DateTime.format, four, two]
  show (do let t ← timeFromString x.format; mainRun rt sort text t) = _
  rw [e, timeFromString_read h1 h3 h4 h5 h6 a b c, mkDate_civil hx.1]
  rfl

/-- **C72, C73 (end to end).** With the text `now` the program prints back the reference date it is given, in either form:
for every valid date and time. -/
theorem c72_now_prints_argument (x : DateTime) (hx : x.Valid) (rt : Rt) (hrt : Rt.Defined rt)
    (sort : List PResult → List PResult) (hs : Sorts sort) (clock : PTime) :
    mainArgs rt sort clock [txt!"now", x.argument] = .ok (foundLine ++ x.format) := by
  obtain ⟨ref, hr, -, h⟩ := c72_reference_argument x hx
  rw [h]
  exact (c56_casual_dates_partial rt hrt sort hs ref x hr).2.1

theorem c73_now_prints_argument (x : DateTime) (hx : x.Valid) (rt : Rt) (hrt : Rt.Defined rt)
    (sort : List PResult → List PResult) (hs : Sorts sort) (clock : PTime) :
    mainArgs rt sort clock [txt!"now", x.format] = .ok (foundLine ++ x.format) := by
  obtain ⟨ref, hr, -, h⟩ := c73_printed_form_is_argument x hx
  rw [h]
  exact (c56_casual_dates_partial rt hrt sort hs ref x hr).2.1

/-- **C74.** A reference argument of the right shape whose date does not exist (30 February, month 13, year 1399) ends the
program with an exception before any text is read. -/
theorem c74_impossible_date (x : DateTime) (hy : x.year < 10000) (hm : x.month < 100) (hd : x.day < 100) (hh : x.hour < 100)
    (hmi : x.minute < 100) (hs : x.second < 100) (hx : ¬ CivilInRange x.year x.month x.day) :
    ∃ e, ∀ rt sort clock text, mainArgs rt sort clock [text, x.argument] = .exn e := by
  obtain ⟨e, he, -⟩ := mkDate_exn (y := x.year) (m := x.month) (d := x.day) (by
    rintro ⟨-, -, -, h⟩
    simp only [Int.toNat_natCast] at h
    exact hx h)
  refine ⟨e, ?_⟩
  intro rt sort clock text
  show (do let t ← timeFromString x.argument; mainRun rt sort text t) = _
  rw [argument_read x hy hm hd hh hmi hs, he]
  rfl

/-- A reference argument that begins with a letter. -/
theorem parseDate_letter {c : Nat} (hc : 65 ≤ c ∧ c ≤ 90 ∨ 97 ≤ c ∧ c ≤ 122) (t : Text) :
    parseDate (c :: t) = .exn .badCast := by
  have hn : ([44, 45, 46, 32, 47] : Text).contains c = false := by simp; omega
  have key : ∀ (t cur : Text), ∃ w r, tokensFrom [44, 45, 46, 32, 47] (c :: cur) t = (c :: w) :: r := by
    intro t
    induction t with
    | nil => intro cur; exact ⟨cur, [], rfl⟩
    | cons d t ih =>
      intro cur
      rw [tokensFrom]
      split
      · exact ⟨cur, _, if_neg (by simp)⟩
      · exact ih (cur ++ [d])
  obtain ⟨w, r, hw⟩ := key t []
  have h1 : tokens [44, 45, 46, 32, 47] (c :: t) = (c :: w) :: r := by
    unfold tokens
    rw [tokensFrom, if_neg (by rw [hn]; decide)]
    exact hw
  have h2 : lexicalCast 65535 (c :: w) = .exn .badCast := by
    unfold lexicalCast
    have hh : afterPlus (c :: w) = c :: w := if_neg (by omega)
    rw [hh]
    simp only
    rw [if_pos]
    right
    have : isDigitB c = false := by
      rw [Bool.eq_false_iff, Ne, isDigitB_iff]; omega
    simp [this]
  unfold parseDate
  simp only [h1, h2]
  rfl

/-- **C74.** A reference argument that begins with a letter (the arguments in the wrong order: `time "2019-03-15 14:00:00"
tomorrow`) ends the program with an exception, whatever follows. -/
theorem c74_no_number (c : Nat) (hc : 65 ≤ c ∧ c ≤ 90 ∨ 97 ≤ c ∧ c ≤ 122) (t : Text) :
    ∃ e, ∀ rt sort clock text, mainArgs rt sort clock [text, c :: t] = .exn e := by
  refine ⟨.badCast, ?_⟩
  intro rt sort clock text
  have : timeFromString (c :: t) = .exn .badCast := by
    unfold timeFromString
    simp only [splitBlank]
    rw [if_neg (by omega)]
    simp only [parseDate_letter hc]
    rfl
  show (do let t ← timeFromString (c :: t); mainRun rt sort text t) = _
  rw [this]
  rfl

/-- **C74 (refuted part).** An impossible time of day is not rejected: hours of 24 and more, minutes and seconds of 60 and
more are counted on from midnight, so `2019-03-15 25:00:00` is 16 March, 01:00. -/
theorem c74_impossible_time_refuted (x : DateTime) (hc : CivilInRange x.year x.month x.day) (hh : x.hour < 100)
    (hmi : x.minute < 100) (hs : x.second < 100)
    (hy : ((DateTime.mk x.year x.month x.day 0 0 0).secondsLater (x.hour * 3600 + x.minute * 60 + x.second)).year ≤ 9999) :
    ∃ ref : PTime,
      RefReads ref ((DateTime.mk x.year x.month x.day 0 0 0).secondsLater (x.hour * 3600 + x.minute * 60 + x.second)) ∧
      ∀ rt sort clock text, mainArgs rt sort clock [text, x.argument] = mainRun rt sort text ref := by
  have hv : (DateTime.mk x.year x.month x.day 0 0 0).Valid := ⟨hc, by simp, by simp, by simp⟩
  obtain ⟨h1, h2, h3, -⟩ := valid_small hv
  have hr := reads_midnight_plus hv
  refine ⟨_, hr.secondsLater _ hy, ?_⟩
  intro rt sort clock text
  show (do let t ← timeFromString x.argument; mainRun rt sort text t) = _
  rw [argument_read x h1 h2 h3 hh hmi hs, mkDate_civil hc]
  rw [Out.bind_ok]
  have e : ∀ (k : Nat) (h m s : Nat), (⟨(k : Int) * 86400000000 + ((h : Int) * 3600 + m * 60 + s) * 1000000⟩ : PTime) =
      PTime.addSeconds ⟨(k : Int) * 86400000000 + (((0 : Nat) : Int) * 3600 + (0 : Nat) * 60 + (0 : Nat)) * 1000000⟩ ((h * 3600 + m * 60 + s : Nat) : Int) := by
    intro k h m s
    unfold PTime.addSeconds
    simp only [PTime.mk.injEq]
    push_cast
    omega
  exact congrArg (mainRun rt sort text) (e _ _ _ _)

/-! ## The number of arguments -/

theorem mainRun_head {rt : Rt} {sort : List PResult → List PResult} {text : Text} {ref : PTime} {o : Text}
    (h : mainRun rt sort text ref = .ok o) : o.head? = some 91 ∨ o.head? = some 68 := by
  unfold mainRun at h
  obtain ⟨p, -, h⟩ := Out.bind_eq_ok.1 h
  obtain ⟨rs, -, h⟩ := Out.bind_eq_ok.1 h
  cases rs with
  | nil => left; simp only [printResult] at h; injection h with h; subst h; rfl
  | cons r rs =>
    right
    simp only [printResult] at h
    obtain ⟨d, -, h⟩ := Out.bind_eq_ok.1 h
    injection h with h; subst h; rfl

/-- **C75.** The usage message is the output exactly if the number of arguments is neither one nor two. -/
theorem c75_usage (rt : Rt) (sort : List PResult → List PResult) (clock : PTime) (args : List Text) :
    mainArgs rt sort clock args = .ok usageText ↔ args.length ≠ 1 ∧ args.length ≠ 2 := by
  have hu : ∀ {text ref}, mainRun rt sort text ref ≠ .ok usageText := by
    intro text ref h
    rcases mainRun_head h with h | h <;> exact absurd h (by decide)
  match args with
  | [] => simp [mainArgs]
  | [text] => simp [mainArgs, hu]
  | [text, r] =>
    simp only [mainArgs, List.length_cons, List.length_nil, ne_eq]
    constructor
    · intro h
      obtain ⟨t, -, h⟩ := Out.bind_eq_ok.1 h
      exact absurd h hu
    · intro h; exact absurd trivial h.2
  | a :: b :: c :: l => simp [mainArgs]

/-- **C75.** The clock is read only if no reference date is given. -/
theorem c75_clock (rt : Rt) (sort : List PResult → List PResult) (clock clock' : PTime) (args : List Text)
    (h : args.length ≠ 1) : mainArgs rt sort clock args = mainArgs rt sort clock' args := by
  match args with
  | [] => rfl
  | [text] => exact absurd rfl h
  | [text, r] => rfl
  | a :: b :: c :: l => rfl

/-! ## The hypotheses are met -/

example : (DateTime.mk 2020 2 29 23 59 59).Valid := by decide
example : ¬ CivilInRange 2019 2 30 := by decide
example : (65 ≤ 116 ∧ 116 ≤ 90 ∨ 97 ≤ 116 ∧ 116 ≤ 122) ∧ txt!"tomorrow" = 116 :: txt!"omorrow" := by decide
example : CivilInRange 2019 3 15 ∧ (DateTime.mk 2019 3 15 0 0 0).secondsLater (0 * 3600 + 1 * 60 + 62) = ⟨2019, 3, 15, 0, 2, 2⟩ := by
  decide +kernel
example : timeFromString txt!"2020-02-29 23:59:59" = .ok ⟨(dayNumber 2020 2 29 * 86400 + 86399) * 1000000⟩ := by decide +kernel
example : timeFromString txt!"2020/February/29 -1:30,15.5" = .ok ⟨(dayNumber 2020 2 29 * 86400 - 5415) * 1000000 - 500000⟩ := by
  decide +kernel
example : timeFromString txt!"2019-03-15 25:00:00" = .ok ⟨(dayNumber 2019 3 16 * 86400 + 3600) * 1000000⟩ := by decide +kernel
example : timeFromString txt!"tomorrow" = .exn .badCast := by decide +kernel

end Chrono.Props
