import Verif.Props.P23_DeadlinePrinted
import Verif.Lemmas.RunText
/-!
# C38, C63: "next / last N weeks"
-/
namespace Chrono.Props
open Chrono Chrono.Spec Chrono.Boost

/-- A number of weeks: in digits or as a word. -/
def weekWords : List (Text × Nat) :=
  [(txt!"one", 1), (txt!"two", 2), (txt!"three", 3), (txt!"four", 4), (txt!"five", 5), (txt!"six", 6), (txt!"seven", 7),
   (txt!"eight", 8), (txt!"nine", 9), (txt!"ten", 10), (txt!"eleven", 11), (txt!"twelve", 12)]

/-- `w N week`, `w N weeks`. -/
def weeksText (w num u : Text) : Text := w ++ txt!" " ++ num ++ txt!" " ++ u

def weekNouns : List Text := [txt!"week", txt!"weeks"]

theorem contains_notMem {p : Text} {c : Nat} (hc : c ∈ p) : ∀ {t : Text}, c ∉ t → contains p t = false := by
  intro t
  unfold contains
  induction t with
  | nil =>
    intro _
    cases p with
    | nil => cases hc
    | cons a p => rfl
  | cons b t ih =>
    intro h
    have hs : ∀ (p t : Text), c ∈ p → c ∉ t → startsWith t p = false := by
      intro p
      induction p with
      | nil => intro _ h; cases h
      | cons a p ihp =>
        intro t h h'
        cases t with
        | nil => rfl
        | cons b t =>
          unfold startsWith
          simp only [List.mem_cons, not_or] at h h'
          rcases h with rfl | h
          · simp [Ne.symm h'.1]
          · simp [ihp t h h'.2]
    unfold find
    cases p with
    | nil => cases hc
    | cons a p =>
      rw [if_neg (by rw [hs _ _ hc h]; simp)]
      have := ih (fun h' => h (by simp [h']))
      cases hf : find (a :: p) t with
      | none => rfl
      | some n => rw [hf] at this; cases this

theorem startsWith_append (p t : Text) : startsWith (p ++ t) p = true := by
  induction p with
  | nil => cases t <;> rfl
  | cons a p ih => simp [startsWith, ih]

theorem contains_append (p t : Text) : contains p (p ++ t) = true := by
  unfold contains
  cases h : p ++ t with
  | nil =>
    cases p with
    | nil => rfl
    | cons a p => cases h
  | cons a r =>
    unfold find
    have := startsWith_append p t
    rw [h] at this
    rw [if_pos this]; rfl

/-! ## What the pattern finds -/

/-- The phrase is found by the week pattern, with these numbers in digits and in words. -/
def WeekFound (t n3 n4 : Text) : Prop :=
  toLower t = t ∧ ∃ mt, FoundAt0 Ast.week t mt ∧ mt.str 0 = t ∧ mt.str 2 = t ∧ mt.str 3 = n3 ∧ mt.str 4 = n4

theorem week_digits_found {w num u : Text} (hw : w ∈ [txt!"next", txt!"last"]) (hn : IsDigits num) (hu : u ∈ weekNouns) :
    WeekFound (weeksText w num u) num [] := by
  have hc : ([txt!"next", txt!"last"].all fun w => weekNouns.all fun u =>
      checkRun Ast.week (w ++ txt!" ") (txt!" " ++ u)
        [(2, some (0, (w ++ txt!" ").length + 1 + (txt!" " ++ u).length)), (3, some ((w ++ txt!" ").length, (w ++ txt!" ").length + 1)), (4, none)]) = true := by decide +kernel
  have h1 : ([txt!"next", txt!"last"].all fun p => toLower p == p) = true := by decide
  have h2 : (weekNouns.all fun p => toLower p == p) = true := by decide
  have e1 : toLower w = w := by simpa using List.all_eq_true.1 h1 _ hw
  have e2 : toLower u = u := by simpa using List.all_eq_true.1 h2 _ hu
  obtain ⟨mt, hf, h0, hg⟩ := foundRun (ds := num) _ (List.all_eq_true.1 (List.all_eq_true.1 hc w hw) u hu) hn.1 (isDigits_digitB hn)
  have e : w ++ txt!" " ++ num ++ (txt!" " ++ u) = weeksText w num u := by unfold weeksText; simp
  refine ⟨?_, mt, by rw [← e]; exact hf, by rw [← e]; exact h0, ?_, ?_, ?_⟩
  · unfold weeksText
    simp only [toLower_append, e1, e2, toLower_digits (isDigits_digitB hn)]
    rfl
  · rw [run_get hg List.mem_cons_self (by simp), ← e]; exact run_all
  · rw [run_get hg (List.mem_cons_of_mem _ List.mem_cons_self) (by simp)]; exact run_mid hn.1
  · rw [run_get hg (List.mem_cons_of_mem _ (List.mem_cons_of_mem _ List.mem_cons_self)) (by simp)]; rfl

theorem week_words_found {w u : Text} {p : Text × Nat} (hw : w ∈ [txt!"next", txt!"last"]) (hp : p ∈ weekWords) (hu : u ∈ weekNouns) :
    WeekFound (weeksText w p.1 u) [] p.1 := by
  have hl : ([txt!"next", txt!"last"].all fun w => weekWords.all fun p => weekNouns.all fun u =>
      toLower (weeksText w p.1 u) == weeksText w p.1 u) = true := by decide +kernel
  have hc : ([txt!"next", txt!"last"].all fun w => weekWords.all fun p => weekNouns.all fun u =>
      checkAt0 Ast.week (weeksText w p.1 u) [(0, weeksText w p.1 u), (2, weeksText w p.1 u), (3, []), (4, p.1)]) = true := by decide +kernel
  refine ⟨by simpa using List.all_eq_true.1 (List.all_eq_true.1 (List.all_eq_true.1 hl w hw) p hp) u hu, ?_⟩
  obtain ⟨mt, hf, hg⟩ := foundAt0 _ (List.all_eq_true.1 (List.all_eq_true.1 (List.all_eq_true.1 hc w hw) p hp) u hu)
  exact ⟨mt, hf, hg _ (.head _), hg _ (.tail _ (.head _)), hg _ (.tail _ (.tail _ (.head _))), hg _ (.tail _ (.tail _ (.tail _ (.head _))))⟩

theorem week_bare_found {t : Text} (ht : t ∈ [txt!"next week", txt!"last week", txt!"next weeks", txt!"last weeks", txt!"this week"]) :
    WeekFound t [] [] := by
  have hl : ([txt!"next week", txt!"last week", txt!"next weeks", txt!"last weeks", txt!"this week"].all fun t =>
      toLower t == t) = true := by decide +kernel
  have hc : ([txt!"next week", txt!"last week", txt!"next weeks", txt!"last weeks", txt!"this week"].all fun t =>
      checkAt0 Ast.week t [(0, t), (2, t), (3, []), (4, [])]) = true := by decide +kernel
  refine ⟨by simpa using List.all_eq_true.1 hl t ht, ?_⟩
  obtain ⟨mt, hf, hg⟩ := foundAt0 _ (List.all_eq_true.1 hc t ht)
  exact ⟨mt, hf, hg _ (.head _), hg _ (.tail _ (.head _)), hg _ (.tail _ (.tail _ (.head _))), hg _ (.tail _ (.tail _ (.tail _ (.head _))))⟩

/-- The number of the weeks, as the code computes it. -/
def weekCount (g : Globals) (n3 n4 : Text) : Out (Int × Globals) :=
  if !n3.isEmpty then do return ((← stoi n3), g)
  else if !n4.isEmpty then .ok ((WordMap.get g n4 : Int), WordMap.touch g n4)
  else .ok (1, g)

theorem week_yields {rt : Rt} (hrt : rt.Benign) {g g' : Globals} {ref : PTime} {t n3 n4 : Text} (hf : WeekFound t n3 n4)
    {n : Int} (hn : weekCount g n3 n4 = .ok (n, g')) {D : Date} (hD : weekShift ref t n = .ok D) {z : Nat × Nat × Nat}
    (hz : D.ymd = .ok ⟨z.1, z.2.1, z.2.2⟩) :
    Yields (execute rt weekParser g t ref) t
      (fun r => DateIs r.startDate z ∧ TimeIs r.startDate 0 0 0 ∧ r.hasEnd = false) := by
  obtain ⟨hl, mt, hf, h0, h2, h3, h4⟩ := hf
  obtain ⟨⟨c1, -⟩, -⟩ := Date.of_ymd hz
  refine yields_of (g' := g') hrt week_pattern week_min hl hf
    (res := (PResult.mk' ref 0 t).onStart fun c => ((c.imply .year z.1).imply .month z.2.1).imply .mday z.2.2) ?_ ?_ ?_ ?_ ?_
  · show weekExtract rt g t mt ref 0 = _
    unfold weekExtract weekNumber
    simp only [h0, h2, h3, h4]
    rw [show (if (!n3.isEmpty) = true then (do let n ← stoi n3; pure (n, g)) else if (!n4.isEmpty) = true then Out.ok ((WordMap.get g n4 : Int), WordMap.touch g n4) else Out.ok (1, g)) = .ok (n, g') from hn, Out.bind_ok]
    simp only []
    rw [hD, Out.bind_ok, implyDate_ok hz, Out.bind_ok]
    rfl
  · refine hasPossibleDates_of_year ?_
    simp [get_imply]; omega
  · simp
  · simp
  · refine ⟨?_, ?_, ?_⟩
    · simp [DateIs, get_imply]
    · simp [TimeIs, get_imply]
    · simp

/-! ## C38 -/

/-- `num` says there are `n` weeks. -/
def IsWeekNumeral (num : Text) (n : Nat) : Prop := (IsDigits num ∧ decimalValue num = n) ∨ (num, n) ∈ weekWords

theorem weeks_found {g : Globals} {w num u : Text} {n : Nat} (hw : w ∈ [txt!"next", txt!"last"]) (hn : IsWeekNumeral num n)
    (hu : u ∈ weekNouns) (hg : WordMap.lookup g num = WordMap.lookup integerWords num) (hsm : n ≤ 2147483647) :
    ∃ n3 n4 g', WeekFound (weeksText w num u) n3 n4 ∧ weekCount g n3 n4 = .ok ((n : Int), g') := by
  rcases hn with ⟨hd, rfl⟩ | hp
  · refine ⟨_, _, g, week_digits_found hw hd hu, ?_⟩
    unfold weekCount
    have hne : (!num.isEmpty) = true := by cases num with
      | nil => exact absurd rfl hd.1
      | cons a t => rfl
    rw [if_pos hne, stoi_digits hd.1 (isDigits_digitB hd), ← decimalValue_eq, if_pos hsm]
    rfl
  · refine ⟨_, _, WordMap.touch g num, week_words_found hw hp hu, ?_⟩
    have h1 : (weekWords.all fun p => !p.1.isEmpty && WordMap.lookup integerWords p.1 == some p.2) = true := by decide
    have h2 := List.all_eq_true.1 h1 _ hp
    simp only [Bool.and_eq_true, beq_iff_eq] at h2
    unfold weekCount
    rw [if_neg (by decide), if_pos h2.1]
    unfold WordMap.get
    rw [hg, h2.2]
    rfl

theorem weeks_last {num u : Text} : contains txt!"last" (weeksText txt!"last" num u) = true := by
  have := contains_append txt!"last" (txt!" " ++ num ++ txt!" " ++ u)
  unfold weeksText
  rw [← this]; congr 1

theorem weeks_next {num u : Text} {n : Nat} (hn : IsWeekNumeral num n) (hu : u ∈ weekNouns) :
    contains txt!"last" (weeksText txt!"next" num u) = false ∧ contains txt!"next" (weeksText txt!"next" num u) = true := by
  constructor
  · refine contains_notMem (c := 97) (by decide) ?_
    unfold weeksText
    have h1 : 97 ∉ num := by
      rcases hn with ⟨hd, -⟩ | hp
      · intro h; have := hd.2 97 h; omega
      · have : (weekWords.all fun p => !p.1.contains 97) = true := by decide
        have := List.all_eq_true.1 this _ hp
        simpa using this
    have h2 : 97 ∉ u := by
      have : (weekNouns.all fun p => !p.contains 97) = true := by decide
      simpa using List.all_eq_true.1 this _ hu
    simp [h1, h2]
  · have := contains_append txt!"next" (txt!" " ++ num ++ txt!" " ++ u)
    unfold weeksText
    rw [← this]; congr 1

/-- **C38 (next).** For every reference time and number `n` in digits (however many) or as a word, `next n weeks` yields
one result covering the text, dated `7 n` days after the reference date, at 00:00:00, as long as that is not after 9999. -/
theorem c38_next_weeks (rt : Rt) (hrt : rt.Benign) (g : Globals) (ref : PTime) (x : DateTime) (hx : RefReads ref x)
    (num u : Text) (n : Nat) (hn : IsWeekNumeral num n) (hu : u ∈ weekNouns)
    (hg : WordMap.lookup g num = WordMap.lookup integerWords num) (hy : (daysLater (7 * n) x.date).1 ≤ 9999) :
    Yields (execute rt weekParser g (weeksText txt!"next" num u) ref) (weeksText txt!"next" num u)
      (fun r => DateIs r.startDate (daysLater (7 * n) x.date) ∧ TimeIs r.startDate 0 0 0 ∧ r.hasEnd = false) := by
  obtain ⟨hc, -, -, -, us, -, -, -, hrd⟩ := refReads_us hx
  obtain ⟨a, b, c⟩ := daysLater_civil (7 * n) (Nat.le_trans (by decide) hc.1) hc.2.2
  have hc' : CivilInRange (daysLater (7 * n) (x.year, x.month, x.day)).1 (daysLater (7 * n) (x.year, x.month, x.day)).2.1
      (daysLater (7 * n) (x.year, x.month, x.day)).2.2 := ⟨Nat.le_trans hc.1 b, hy, a⟩
  have hup := dayNumber_lt hc'
  have hsm : n ≤ 2147483647 := by
    unfold maxDN at hup
    generalize dayNumber x.year x.month x.day = K at c
    generalize dayNumber (daysLater (7 * n) (x.year, x.month, x.day)).1 _ _ = L at c hup
    omega
  obtain ⟨D, h1, h2⟩ := addDays_later hc hc'
  obtain ⟨n3, n4, g', hf, hk⟩ := weeks_found (w := txt!"next") (by decide) hn hu hg hsm
  refine week_yields hrt hf hk (D := D) ?_ h2
  unfold weekShift
  rw [if_neg (by rw [(weeks_next hn hu).1]; simp), if_pos (weeks_next hn hu).2, hrd,
    show (7 : Int) * (n : Int) = ((7 * n : Nat) : Int) by push_cast; rfl, h1]

/-- **C38 (last).** `last n weeks` yields the date of which the reference date is the date `7 n` days after. -/
theorem c38_last_weeks (rt : Rt) (hrt : rt.Benign) (g : Globals) (ref : PTime) (x : DateTime) (hx : RefReads ref x)
    (num u : Text) (n : Nat) (hn : IsWeekNumeral num n) (hu : u ∈ weekNouns)
    (hg : WordMap.lookup g num = WordMap.lookup integerWords num) (z : Nat × Nat × Nat) (hz : CivilInRange z.1 z.2.1 z.2.2)
    (hl : daysLater (7 * n) z = x.date) :
    Yields (execute rt weekParser g (weeksText txt!"last" num u) ref) (weeksText txt!"last" num u)
      (fun r => DateIs r.startDate z ∧ TimeIs r.startDate 0 0 0 ∧ r.hasEnd = false) := by
  obtain ⟨hc, -, -, -, us, -, -, -, hrd⟩ := refReads_us hx
  obtain ⟨D, h1, h2⟩ := addDays_earlier (n := 7 * n) hc hz hl
  have hsm : n ≤ 2147483647 := by
    obtain ⟨-, -, c⟩ := daysLater_civil (y := z.1) (m := z.2.1) (d := z.2.2) (7 * n) (Nat.le_trans (by decide) hz.1) hz.2.2
    have hl' : daysLater (7 * n) (z.1, z.2.1, z.2.2) = x.date := hl
    rw [hl'] at c
    have hup := dayNumber_lt hc
    unfold DateTime.date at c
    simp only at c
    unfold maxDN at hup
    generalize dayNumber x.year x.month x.day = K at c hup
    omega
  obtain ⟨n3, n4, g', hf, hk⟩ := weeks_found (w := txt!"last") (by decide) hn hu hg hsm
  refine week_yields hrt hf hk (D := D) ?_ h2
  unfold weekShift
  rw [if_pos weeks_last, hrd, show (7 : Int) * (n : Int) = ((7 * n : Nat) : Int) by push_cast; rfl, h1]

/-- **C38 (no number).** `next week` and `last week` move by 7 days; `this week` is the reference date. -/
theorem c38_bare (rt : Rt) (hrt : rt.Benign) (g : Globals) (ref : PTime) (x : DateTime) (hx : RefReads ref x) :
    ((daysLater 7 x.date).1 ≤ 9999 → Yields (execute rt weekParser g txt!"next week" ref) txt!"next week"
      (fun r => DateIs r.startDate (daysLater 7 x.date) ∧ TimeIs r.startDate 0 0 0 ∧ r.hasEnd = false)) ∧
    (∀ z, CivilInRange z.1 z.2.1 z.2.2 → daysLater 7 z = x.date →
      Yields (execute rt weekParser g txt!"last week" ref) txt!"last week"
      (fun r => DateIs r.startDate z ∧ TimeIs r.startDate 0 0 0 ∧ r.hasEnd = false)) ∧
    Yields (execute rt weekParser g txt!"this week" ref) txt!"this week"
      (fun r => DateIs r.startDate x.date ∧ TimeIs r.startDate 0 0 0 ∧ r.hasEnd = false) := by
  obtain ⟨hc, -, -, -, us, -, -, -, hrd⟩ := refReads_us hx
  have hk : weekCount g [] [] = .ok ((1 : Int), g) := rfl
  have e7 : (7 : Int) * 1 = ((7 : Nat) : Int) := rfl
  refine ⟨fun hy => ?_, fun z hz hl => ?_, ?_⟩
  · have hs : ∀ n : Int, weekShift ref txt!"next week" n = ref.date.addDays (7 * n) := fun n => rfl
    generalize 7 = k at *
    obtain ⟨a, b, c⟩ := daysLater_civil k (Nat.le_trans (by decide) hc.1) hc.2.2
    obtain ⟨D, h1, h2⟩ := addDays_later (n := k) hc ⟨Nat.le_trans hc.1 b, hy, a⟩
    refine week_yields hrt (week_bare_found (by simp)) hk (D := D) ?_ h2
    rw [hs, e7, hrd, h1]
  · have hs : ∀ n : Int, weekShift ref txt!"last week" n = ref.date.addDays (-(7 * n)) := fun n => rfl
    obtain ⟨D, h1, h2⟩ := addDays_earlier (n := 7) hc hz hl
    refine week_yields hrt (week_bare_found (by simp)) hk (D := D) ?_ h2
    rw [hs, e7, hrd, h1]
  · have hs : ∀ n : Int, weekShift ref txt!"this week" n = .ok ref.date := fun n => rfl
    exact week_yields hrt (week_bare_found (by simp)) hk (hs 1) hx.date

/-- **C38 (too large).** From 2^31 on, however many digits, the call throws `std::out_of_range`. -/
theorem c38_too_many_weeks_throw (rt : Rt) (hrt : rt.Benign) (g : Globals) (ref : PTime) (w num u : Text)
    (hw : w ∈ [txt!"next", txt!"last"]) (hn : IsDigits num) (hu : u ∈ weekNouns) (hbig : 2147483648 ≤ decimalValue num) :
    execute rt weekParser g (weeksText w num u) ref = .exn .outOfRange := by
  obtain ⟨hl, mt, hf, h0, h2, h3, h4⟩ := week_digits_found hw hn hu
  have hne : (!num.isEmpty) = true := by cases num with
    | nil => exact absurd rfl hn.1
    | cons a t => rfl
  have hx : weekParser.extract rt g (weeksText w num u) mt ref 0 = .exn .outOfRange := by
    show weekExtract rt g (weeksText w num u) mt ref 0 = _
    unfold weekExtract weekNumber
    rw [h3, if_pos hne, stoi_digits hn.1 (isDigits_digitB hn), ← decimalValue_eq, if_neg (by omega)]
    rfl
  have := Scan.fail (k := 0) (P := weekParser) (rt := rt) (r := Ast.week) (text := weeksText w num u) (ref := ref) (g := g) (mt := mt)
    (by simpa using hf.first) (by rw [hf.start, Nat.add_zero, List.drop_zero, hx]; intro x h; cases h)
  rw [execute_of_scan hrt week_pattern week_min (by rw [hl]; exact this), hf.start, Nat.add_zero, List.drop_zero, hx]
  rfl

/-! ## End to end -/

/-- The shape of the phrase. -/
def weeksShape (w u : Text) : List Slot := fixed (w ++ txt!" ") ++ [⟨[49], true⟩] ++ fixed (txt!" " ++ u)

theorem weeks_others {w num u : Text} (hw : w ∈ [txt!"next", txt!"last"]) (hn : IsDigits num) (hu : u ∈ weekNouns) :
    othersShort 11 (weeksText w num u) = true := by
  have hc : ([txt!"next", txt!"last"].all fun w => weekNouns.all fun u => othersShortT 11 (weeksShape w u)) = true := by decide +kernel
  have hdr : List.Forall₂ DigitRel (weeksText w num u) (weeksText w (List.replicate num.length 49) u) :=
    dr_append (dr_append (dr_append (dr_same _) (dr_run (isDigits_digitB hn))) (dr_same _)) (dr_same _)
  refine othersShort_sim hdr (othersShortT_sound (List.all_eq_true.1 (List.all_eq_true.1 hc w hw) u hu) ?_ ?_)
  · have e : weeksText w (List.replicate num.length 49) u = (w ++ txt!" ") ++ List.replicate num.length 49 ++ (txt!" " ++ u) := by
      unfold weeksText; simp
    rw [e]
    exact .append (.append (.fixed _) (.run (by simp))) (.fixed _)
  · unfold weeksText; simp

theorem weeks_words_others {w u : Text} {p : Text × Nat} (hw : w ∈ [txt!"next", txt!"last"]) (hp : p ∈ weekWords) (hu : u ∈ weekNouns) :
    othersShort 11 (weeksText w p.1 u) = true := by
  have hc : ([txt!"next", txt!"last"].all fun w => weekWords.all fun p => weekNouns.all fun u => othersShort 11 (weeksText w p.1 u)) = true := by
    decide +kernel
  exact List.all_eq_true.1 (List.all_eq_true.1 (List.all_eq_true.1 hc w hw) p hp) u hu

theorem weeks_others' {w num u : Text} {n : Nat} (hw : w ∈ [txt!"next", txt!"last"]) (hn : IsWeekNumeral num n) (hu : u ∈ weekNouns) :
    othersShort 11 (toLower (weeksText w num u)) = true := by
  rcases hn with ⟨hd, rfl⟩ | hp
  · rw [(week_digits_found hw hd hu).1]; exact weeks_others hw hd hu
  · rw [(week_words_found hw hp hu).1]; exact weeks_words_others hw hp hu

/-- **C63.** The program, run on `next N weeks`, prints the date `7 N` days after the reference date, at 00:00:00. -/
theorem c63_next_weeks_printed (rt : Rt) (hrt : Rt.Defined rt) (sort : List PResult → List PResult) (hs : Sorts sort)
    (ref : PTime) (x : DateTime) (hx : RefReads ref x) (num u : Text) (n : Nat) (hn : IsWeekNumeral num n) (hu : u ∈ weekNouns)
    (hlen : (weeksText txt!"next" num u).length < 4294967296) (hy : (daysLater (7 * n) x.date).1 ≤ 9999) :
    mainRun rt sort (weeksText txt!"next" num u) ref = .ok (foundLine ++ (midnight (daysLater (7 * n) x.date)).format) := by
  obtain ⟨hc, -⟩ := refReads_us hx
  obtain ⟨a, b, -⟩ := daysLater_civil (7 * n) (Nat.le_trans (by decide) hc.1) hc.2.2
  exact prints_date hrt hs hlen hx 11 (P := weekParser) rfl
    (t := midnight (daysLater (7 * n) x.date)) ⟨⟨Nat.le_trans hc.1 b, hy, a⟩, by simp [midnight], by simp [midnight], by simp [midnight]⟩
    (c38_next_weeks rt hrt.stale integerWords ref x hx num u n hn hu rfl hy) (fun r hr => hr) (weeks_others' (by decide) hn hu)

/-- **C63.** ... and `last N weeks`: the date `7 N` days before. -/
theorem c63_last_weeks_printed (rt : Rt) (hrt : Rt.Defined rt) (sort : List PResult → List PResult) (hs : Sorts sort)
    (ref : PTime) (x : DateTime) (hx : RefReads ref x) (num u : Text) (n : Nat) (hn : IsWeekNumeral num n) (hu : u ∈ weekNouns)
    (hlen : (weeksText txt!"last" num u).length < 4294967296) (z : Nat × Nat × Nat) (hz : CivilInRange z.1 z.2.1 z.2.2)
    (hl : daysLater (7 * n) z = x.date) :
    mainRun rt sort (weeksText txt!"last" num u) ref = .ok (foundLine ++ (midnight z).format) :=
  prints_date hrt hs hlen hx 11 (P := weekParser) rfl
    (t := midnight z) ⟨hz, by simp [midnight], by simp [midnight], by simp [midnight]⟩
    (c38_last_weeks rt hrt.stale integerWords ref x hx num u n hn hu rfl z hz hl) (fun r hr => hr) (weeks_others' (by decide) hn hu)

/-- **C63.** `next week`, `last week`, `this week`. -/
theorem c63_bare_weeks_printed (rt : Rt) (hrt : Rt.Defined rt) (sort : List PResult → List PResult) (hs : Sorts sort)
    (ref : PTime) (x : DateTime) (hx : RefReads ref x) :
    ((daysLater 7 x.date).1 ≤ 9999 →
      mainRun rt sort txt!"next week" ref = .ok (foundLine ++ (midnight (daysLater 7 x.date)).format)) ∧
    (∀ z, CivilInRange z.1 z.2.1 z.2.2 → daysLater 7 z = x.date →
      mainRun rt sort txt!"last week" ref = .ok (foundLine ++ (midnight z).format)) ∧
    mainRun rt sort txt!"this week" ref = .ok (foundLine ++ (midnight x.date).format) := by
  have ho : ([txt!"next week", txt!"last week", txt!"this week"].all fun t => othersShort 11 (toLower t)) = true := by decide +kernel
  rw [List.all_eq_true] at ho
  obtain ⟨hc, -⟩ := refReads_us hx
  obtain ⟨h1, h2, h3⟩ := c38_bare rt hrt.stale integerWords ref x hx
  refine ⟨fun hy => ?_, fun z hz hl => ?_, ?_⟩
  · clear h2 h3
    generalize 7 = k at *
    obtain ⟨a, b, -⟩ := daysLater_civil k (Nat.le_trans (by decide) hc.1) hc.2.2
    exact prints_date hrt hs (by decide) hx 11 (P := weekParser) rfl
      (t := midnight (daysLater k x.date)) ⟨⟨Nat.le_trans hc.1 b, hy, a⟩, by simp [midnight], by simp [midnight], by simp [midnight]⟩
      (h1 hy) (fun r hr => hr) (ho _ (by simp))
  · exact prints_date hrt hs (by decide) hx 11 (P := weekParser) rfl
      (t := midnight z) ⟨hz, by simp [midnight], by simp [midnight], by simp [midnight]⟩
      (h2 z hz hl) (fun r hr => hr) (ho _ (by simp))
  · exact prints_date hrt hs (by decide) hx 11 (P := weekParser) rfl
      (t := midnight x.date) ⟨hc, by simp [midnight], by simp [midnight], by simp [midnight]⟩
      h3 (fun r hr => hr) (ho _ (by simp))

/-! ## The hypotheses are met -/

example : IsWeekNumeral txt!"003" 3 ∧ IsWeekNumeral txt!"twelve" 12 ∧ weeksText txt!"next" txt!"003" txt!"weeks" = txt!"next 003 weeks" :=
  ⟨.inl ⟨⟨by simp, by decide⟩, by decide⟩, .inr (by decide), by decide⟩
example : daysLater (7 * 3) (2019, 2, 15) = (2019, 3, 8) := by decide
example : IsDigits txt!"99999999999" ∧ 2147483648 ≤ decimalValue txt!"99999999999" := ⟨⟨by simp, by decide⟩, by decide⟩
example : printed (mainRun (Rt.usual 0) sortKeep txt!"last 3 weeks" exampleRef) txt!"Date:\t2019-Feb-22 00:00:00" = true := by decide +kernel

end Chrono.Props
