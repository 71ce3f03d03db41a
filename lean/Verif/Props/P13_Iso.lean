import Verif.Lemmas.Digits
import Verif.Lemmas.Extracts
import Verif.Props.P08_Execute
import Verif.Props.P03_Calendar
/-!
# C27-C29: ISO dates
-/
namespace Chrono.Props
open Chrono Chrono.Spec Chrono.Boost

/-! ## Specification: the written form -/

/-- `YYYY-MM-DD`. -/
def isoDate (y m d : Nat) : Text := four y ++ txt!"-" ++ two m ++ txt!"-" ++ two d
/-- `HH:MM`. -/
def isoClock (h mi : Nat) : Text := two h ++ txt!":" ++ two mi

example : isoDate 2019 3 5 ++ txt!"T" ++ isoClock 7 30 = txt!"2019-03-05T07:30" := by decide

/-! ## The extraction, given the groups -/

theorem iso_date_extract {rt : Rt} {g : Globals} {tx : Text} {mt : Match} {ref : PTime} {idx : Nat} {y m d : Nat}
    (hm : 1 ≤ m) (hm' : m ≤ 12) (hd : 1 ≤ d) (hd' : d ≤ 31)
    (h2 : stoi (mt.str 2) = .ok (y : Int)) (h3 : stoi (mt.str 3) = .ok (m : Int)) (h4 : stoi (mt.str 4) = .ok (d : Int))
    (h5 : mt.str 5 = []) :
    isoExtract rt g tx mt ref idx = .ok (((PResult.mk' ref idx (mt.str 0)).onStart
      (fun c => ((c.set .year y).set .month m).set .mday d)).setTag .iso) := by
  unfold isoExtract
  rw [h3, Out.bind_ok, h4, Out.bind_ok, if_neg (by omega), h2, Out.bind_ok, h5]
  rfl

theorem iso_time_extract {rt : Rt} {g : Globals} {tx : Text} {mt : Match} {ref : PTime} {idx : Nat} {y m d h mi : Nat}
    {off : Int} (hm : 1 ≤ m) (hm' : m ≤ 12) (hd : 1 ≤ d) (hd' : d ≤ 31)
    (h2 : stoi (mt.str 2) = .ok (y : Int)) (h3 : stoi (mt.str 3) = .ok (m : Int)) (h4 : stoi (mt.str 4) = .ok (d : Int))
    (h5 : stoi (mt.str 5) = .ok (h : Int)) (h5' : mt.str 5 ≠ []) (h6 : stoi (mt.str 6) = .ok (mi : Int))
    (h7 : mt.str 7 = []) (h9 : isoOffset mt = .ok off) :
    isoExtract rt g tx mt ref idx = .ok ((((PResult.mk' ref idx (mt.str 0)).onStart
      (fun c => ((c.set .year y).set .month m).set .mday d)).onStart (fun c => (c.set .hour h).set .min mi)).onStart
        (·.set .tzoffset off) |>.setTag .iso) := by
  unfold isoExtract
  rw [h3, Out.bind_ok, h4, Out.bind_ok, if_neg (by omega), h2, Out.bind_ok, if_neg (by simpa using h5'),
    h5, Out.bind_ok, h6, Out.bind_ok, h7, h9]
  rfl

theorem iso_seconds_extract {rt : Rt} {g : Globals} {tx : Text} {mt : Match} {ref : PTime} {idx : Nat} {y m d h mi s : Nat}
    {off : Int} (hm : 1 ≤ m) (hm' : m ≤ 12) (hd : 1 ≤ d) (hd' : d ≤ 31)
    (h2 : stoi (mt.str 2) = .ok (y : Int)) (h3 : stoi (mt.str 3) = .ok (m : Int)) (h4 : stoi (mt.str 4) = .ok (d : Int))
    (h5 : stoi (mt.str 5) = .ok (h : Int)) (h5' : mt.str 5 ≠ []) (h6 : stoi (mt.str 6) = .ok (mi : Int))
    (h7 : stoi (mt.str 7) = .ok (s : Int)) (h7' : mt.str 7 ≠ []) (h9 : isoOffset mt = .ok off) :
    isoExtract rt g tx mt ref idx = .ok (((((PResult.mk' ref idx (mt.str 0)).onStart
      (fun c => ((c.set .year y).set .month m).set .mday d)).onStart (fun c => (c.set .hour h).set .min mi)).onStart
        (·.set .sec s)).onStart (·.set .tzoffset off) |>.setTag .iso) := by
  unfold isoExtract
  rw [h3, Out.bind_ok, h4, Out.bind_ok, if_neg (by omega), h2, Out.bind_ok, if_neg (by simpa using h5'),
    h5, Out.bind_ok, h6, Out.bind_ok, if_neg (by simpa using h7'), h7, h9]
  rfl

theorem isoOffset_none {mt : Match} (h : mt.str 9 = []) : isoOffset mt = .ok 0 := by
  unfold isoOffset; rw [h]; rfl

theorem isoOffset_hm {mt : Match} {a b : Int} (h9 : stoi (mt.str 9) = .ok a) (h9' : mt.str 9 ≠ [])
    (h10 : stoi (mt.str 10) = .ok b) (h10' : mt.str 10 ≠ []) :
    isoOffset mt = .ok (if a < 0 then a * 60 - b else a * 60 + b) := by
  unfold isoOffset
  rw [if_neg (by simpa using h9'), h9, Out.bind_ok, if_neg (by simpa using h10'), h10, Out.bind_ok]
  show (if a * 60 < 0 then Out.ok (a * 60 - b) else Out.ok (a * 60 + b)) = _
  by_cases h : a < 0
  · rw [if_pos (by omega), if_pos h]
  · rw [if_neg (by omega), if_neg h]

/-! ## Relating digit phrases to a representative -/

theorem dr_two {n : Nat} : List.Forall₂ DigitRel (two n) txt!"11" :=
  .cons (digitRel_dig _ (by decide)) (.cons (digitRel_dig _ (by decide)) .nil)
theorem dr_four {n : Nat} : List.Forall₂ DigitRel (four n) txt!"1111" :=
  .cons (digitRel_dig _ (by decide)) (.cons (digitRel_dig _ (by decide)) (.cons (digitRel_dig _ (by decide))
    (.cons (digitRel_dig _ (by decide)) .nil)))
theorem dr_same (t : Text) : List.Forall₂ DigitRel t t := by
  induction t with
  | nil => exact .nil
  | cons c t ih => exact .cons (.inl rfl) ih

theorem dr_append {a b a' b' : Text} (h : List.Forall₂ DigitRel a a') (h' : List.Forall₂ DigitRel b b') :
    List.Forall₂ DigitRel (a ++ b) (a' ++ b') := List.rel_append h h'

theorem dr_isoDate {y m d : Nat} : List.Forall₂ DigitRel (isoDate y m d) txt!"1111-11-11" :=
  dr_append (dr_append (dr_append (dr_append dr_four (dr_same _)) dr_two) (dr_same _)) dr_two
theorem dr_isoClock {h mi : Nat} : List.Forall₂ DigitRel (isoClock h mi) txt!"11:11" :=
  dr_append (dr_append dr_two (dr_same _)) dr_two

theorem lowerB_dig (n : Nat) : lowerB (dig n) = dig n := by
  unfold lowerB dig
  have := Nat.mod_lt n (show 10 > 0 by decide)
  split <;> omega

theorem toLower_two (n : Nat) : toLower (two n) = two n := by simp [toLower, two, lowerB_dig]
theorem toLower_four (n : Nat) : toLower (four n) = four n := by simp [toLower, four, lowerB_dig]
theorem toLower_append (a b : Text) : toLower (a ++ b) = toLower a ++ toLower b := by simp [toLower]
theorem toLower_isoDate (y m d : Nat) : toLower (isoDate y m d) = isoDate y m d := by
  simp only [isoDate, toLower_append, toLower_two, toLower_four]; rfl
theorem toLower_isoClock (h mi : Nat) : toLower (isoClock h mi) = isoClock h mi := by
  simp only [isoClock, toLower_append, toLower_two]; rfl

theorem iso_blind : Ast.iso.digitBlind = true := by decide +kernel

/-- `execute` on a phrase whose lower-cased form is `low`. -/
theorem yields_lower {rt : Rt} {P : Parser} {g : Globals} {phrase low : Text} {ref : PTime} {Q : PResult → Prop} {text : Text}
    (hl : toLower phrase = low) (h : Yields (execute rt P g low ref) text Q) : Yields (execute rt P g phrase ref) text Q := by
  subst hl
  have e : execute rt P g phrase ref = execute rt P g (toLower phrase) ref := by
    unfold execute; rw [toLower_toLower]
  rw [e]; exact h

theorem two_ne (n : Nat) : two n ≠ [] := by simp [two]

theorem digitsVal_cons (n : Nat) : ∀ c, isDigitB c = true → (c - 48 : Nat) ≤ 9 := by
  intro c h; rw [isDigitB_iff] at h; omega

/-! ## C27 -/

/-- **C27 (dates).** For every year 1..9999, month 1..12 and day 1..31, the ISO parser finds in `YYYY-MM-DD` exactly
that date, covering the whole text, at 00:00:00, with year, month and day certain. -/
theorem c27_iso_date (rt : Rt) (hrt : rt.Benign) (g : Globals) (ref : PTime) (y m d : Nat) (hy : 1 ≤ y) (hy' : y ≤ 9999)
    (hm : 1 ≤ m) (hm' : m ≤ 12) (hd : 1 ≤ d) (hd' : d ≤ 31) :
    Yields (execute rt isoParser g (isoDate y m d) ref) (isoDate y m d) (fun r =>
      DateIs r.startDate (y, m, d) ∧ TimeIs r.startDate 0 0 0 ∧ r.hasEnd = false ∧
      r.startDate.certain .year = true ∧ r.startDate.certain .month = true ∧ r.startDate.certain .mday = true) := by
  obtain ⟨mt, hf, -, h0, hg⟩ := foundSpans (r := Ast.iso) (phrase := isoDate y m d) txt!"1111-11-11" 10
    [(2, some (0, 4)), (3, some (5, 7)), (4, some (8, 10)), (5, none)] iso_blind (by decide +kernel) dr_isoDate
  have g2 : mt.str 2 = four y := hg (2, some (0, 4)) (by simp) (by decide)
  have g3 : mt.str 3 = two m := hg (3, some (5, 7)) (by simp) (by decide)
  have g4 : mt.str 4 = two d := hg (4, some (8, 10)) (by simp) (by decide)
  have g5 : mt.str 5 = [] := hg (5, none) (by simp) (by decide)
  have g0 : mt.str 0 = isoDate y m d := h0
  refine yields_of hrt iso_pattern iso_min (toLower_isoDate y m d) hf (pureExtract_ok (iso_date_extract hm hm' hd hd'
    (by rw [g2]; exact stoi_four (by omega)) (by rw [g3]; exact stoi_two (by omega)) (by rw [g4]; exact stoi_two (by omega)) g5))
    ?_ ?_ ?_ ?_
  · refine hasPossibleDates_of_year ?_
    simp; omega
  · simp
  · simp [g0]
  · refine ⟨by simp [DateIs], by simp [TimeIs], by simp, ?_, ?_, ?_⟩ <;> simp [Comps.certain, Comps.certainKey]

/-- **C27 (date and time).** The same with `THH:MM`, two-digit hour and minute: hour and minute are certain, the
second is 0, the offset 0. -/
theorem c27_iso_minutes (rt : Rt) (hrt : rt.Benign) (g : Globals) (ref : PTime) (y m d h mi : Nat) (hy : 1 ≤ y)
    (hy' : y ≤ 9999) (hm : 1 ≤ m) (hm' : m ≤ 12) (hd : 1 ≤ d) (hd' : d ≤ 31) (hh : h < 100) (hmi : mi < 100) :
    Yields (execute rt isoParser g (isoDate y m d ++ txt!"T" ++ isoClock h mi) ref) (isoDate y m d ++ txt!"t" ++ isoClock h mi)
      (fun r => DateIs r.startDate (y, m, d) ∧ TimeIs r.startDate h mi 0 ∧ r.startDate.get .tzoffset = 0 ∧ r.hasEnd = false ∧
      r.startDate.certain .year = true ∧ r.startDate.certain .month = true ∧ r.startDate.certain .mday = true ∧
      r.startDate.certain .hour = true) := by
  have hl : ∀ x, x = txt!"T" ∨ x = txt!"t" → toLower (isoDate y m d ++ x ++ isoClock h mi) = isoDate y m d ++ txt!"t" ++ isoClock h mi := by
    rintro x (rfl | rfl) <;> (simp only [toLower_append, toLower_isoDate, toLower_isoClock]; rfl)
  refine yields_lower (hl _ (.inl rfl)) ?_
  obtain ⟨mt, hf, -, h0, hg⟩ := foundSpans (r := Ast.iso) (phrase := isoDate y m d ++ txt!"t" ++ isoClock h mi)
    (txt!"1111-11-11" ++ txt!"t" ++ txt!"11:11") 16
    [(2, some (0, 4)), (3, some (5, 7)), (4, some (8, 10)), (5, some (11, 13)), (6, some (14, 16)), (7, none), (9, none)]
    iso_blind (by decide +kernel) (dr_append (dr_append dr_isoDate (dr_same _)) dr_isoClock)
  have g2 : mt.str 2 = four y := hg (2, some (0, 4)) (by simp) (by decide)
  have g3 : mt.str 3 = two m := hg (3, some (5, 7)) (by simp) (by decide)
  have g4 : mt.str 4 = two d := hg (4, some (8, 10)) (by simp) (by decide)
  have g5 : mt.str 5 = two h := hg (5, some (11, 13)) (by simp) (by decide)
  have g6 : mt.str 6 = two mi := hg (6, some (14, 16)) (by simp) (by decide)
  have g7 : mt.str 7 = [] := hg (7, none) (by simp) (by decide)
  have g9 : mt.str 9 = [] := hg (9, none) (by simp) (by decide)
  have g0 : mt.str 0 = isoDate y m d ++ txt!"t" ++ isoClock h mi := h0
  refine yields_of hrt iso_pattern iso_min (hl _ (.inr rfl)) hf (pureExtract_ok (iso_time_extract hm hm' hd hd'
    (by rw [g2]; exact stoi_four (by omega)) (by rw [g3]; exact stoi_two (by omega)) (by rw [g4]; exact stoi_two (by omega))
    (by rw [g5]; exact stoi_two hh) (by rw [g5]; exact two_ne _) (by rw [g6]; exact stoi_two hmi) g7 (isoOffset_none g9)))
    ?_ ?_ ?_ ?_
  · refine hasPossibleDates_of_year ?_
    simp; omega
  · simp
  · simp [g0]
  · refine ⟨by simp [DateIs], by simp [TimeIs], by simp, by simp, ?_, ?_, ?_, ?_⟩ <;> simp [Comps.certain, Comps.certainKey]

/-- How a zone suffix is written. -/
inductive Zone where
  | absent | utc | plus (h m : Nat) | minus (h m : Nat)

def Zone.text : Zone → Text
  | .absent => []
  | .utc => txt!"Z"
  | .plus h m => txt!"+" ++ isoClock h m
  | .minus h m => txt!"-" ++ isoClock h m

/-- The offset in minutes it means. -/
def Zone.minutes : Zone → Int
  | .absent => 0
  | .utc => 0
  | .plus h m => 60 * h + m
  | .minus h m => -(60 * h + m)

/-- Two-digit fields. -/
def Zone.Small : Zone → Prop
  | .plus h m => h < 100 ∧ m < 100
  | .minus h m => h < 100 ∧ m < 100
  | _ => True

/-- What the parser makes of it: right, except for `-00:MM`. -/
def Zone.read : Zone → Int
  | .minus 0 m => m
  | z => z.minutes

theorem iso_full {rt : Rt} (hrt : rt.Benign) (g : Globals) (ref : PTime) {y m d h mi s : Nat} (hy : 1 ≤ y)
    (hy' : y ≤ 9999) (hm : 1 ≤ m) (hm' : m ≤ 12) (hd : 1 ≤ d) (hd' : d ≤ 31) (hh : h < 100) (hmi : mi < 100) (hs : s < 100)
    (z : Text) (zrep : Text) (stop : Nat) (a b : Option (Nat × Nat)) (off : Int)
    (hz : List.Forall₂ DigitRel (toLower z) zrep)
    (hc : checkSpans Ast.iso (txt!"1111-11-11" ++ txt!"t" ++ txt!"11:11" ++ txt!":" ++ txt!"11" ++ zrep) stop
      [(2, some (0, 4)), (3, some (5, 7)), (4, some (8, 10)), (5, some (11, 13)), (6, some (14, 16)), (7, some (17, 19)),
        (9, a), (10, b)] = true)
    (hstop : stop = (isoDate y m d ++ txt!"t" ++ isoClock h mi ++ txt!":" ++ two s ++ toLower z).length)
    (hoff : ∀ mt : Match,
      mt.str 9 = spanText (isoDate y m d ++ txt!"t" ++ isoClock h mi ++ txt!":" ++ two s ++ toLower z) a →
      mt.str 10 = spanText (isoDate y m d ++ txt!"t" ++ isoClock h mi ++ txt!":" ++ two s ++ toLower z) b → isoOffset mt = .ok off) :
    Yields (execute rt isoParser g (isoDate y m d ++ txt!"T" ++ isoClock h mi ++ txt!":" ++ two s ++ z) ref)
      (isoDate y m d ++ txt!"t" ++ isoClock h mi ++ txt!":" ++ two s ++ toLower z)
      (fun r => DateIs r.startDate (y, m, d) ∧ TimeIs r.startDate h mi s ∧ r.startDate.get .tzoffset = off ∧ r.hasEnd = false ∧
      r.startDate.certain .year = true ∧ r.startDate.certain .month = true ∧ r.startDate.certain .mday = true ∧
      r.startDate.certain .hour = true ∧ r.startDate.certain .sec = true ∧ r.startDate.certain .tzoffset = true) := by
  have hl : ∀ x w, x = txt!"T" ∨ x = txt!"t" → toLower w = toLower z →
      toLower (isoDate y m d ++ x ++ isoClock h mi ++ txt!":" ++ two s ++ w) =
        isoDate y m d ++ txt!"t" ++ isoClock h mi ++ txt!":" ++ two s ++ toLower z := by
    rintro x w (rfl | rfl) hw <;> (simp only [toLower_append, toLower_isoDate, toLower_isoClock, toLower_two, hw]; rfl)
  refine yields_lower (hl _ _ (.inl rfl) rfl) ?_
  obtain ⟨mt, hf, -, h0, hg⟩ := foundSpans (r := Ast.iso)
    (phrase := isoDate y m d ++ txt!"t" ++ isoClock h mi ++ txt!":" ++ two s ++ toLower z) _ _ _ iso_blind hc
    (dr_append (dr_append (dr_append (dr_append (dr_append dr_isoDate (dr_same _)) dr_isoClock) (dr_same _)) dr_two) hz)
  have g2 : mt.str 2 = four y := hg (2, some (0, 4)) (by simp) (by decide)
  have g3 : mt.str 3 = two m := hg (3, some (5, 7)) (by simp) (by decide)
  have g4 : mt.str 4 = two d := hg (4, some (8, 10)) (by simp) (by decide)
  have g5 : mt.str 5 = two h := hg (5, some (11, 13)) (by simp) (by decide)
  have g6 : mt.str 6 = two mi := hg (6, some (14, 16)) (by simp) (by decide)
  have g7 : mt.str 7 = two s := hg (7, some (17, 19)) (by simp) (by decide)
  have g9 := hg (9, a) (by simp) (by simp)
  have g10 := hg (10, b) (by simp) (by simp)
  have g0 : mt.str 0 = isoDate y m d ++ txt!"t" ++ isoClock h mi ++ txt!":" ++ two s ++ toLower z := by
    rw [h0, hstop, List.take_length]
  refine yields_of hrt iso_pattern iso_min (hl _ _ (.inr rfl) (toLower_toLower _)) hf (pureExtract_ok (iso_seconds_extract hm hm' hd hd'
    (by rw [g2]; exact stoi_four (by omega)) (by rw [g3]; exact stoi_two (by omega)) (by rw [g4]; exact stoi_two (by omega))
    (by rw [g5]; exact stoi_two hh) (by rw [g5]; exact two_ne _) (by rw [g6]; exact stoi_two hmi)
    (by rw [g7]; exact stoi_two hs) (by rw [g7]; exact two_ne _) (hoff mt g9 g10)))
    ?_ ?_ ?_ ?_
  · refine hasPossibleDates_of_year ?_
    simp; omega
  · simp
  · simp [g0]
  · refine ⟨by simp [DateIs], by simp [TimeIs], by simp, by simp, ?_, ?_, ?_, ?_, ?_, ?_⟩ <;> simp [Comps.certain, Comps.certainKey]

theorem iso_zone {rt : Rt} (hrt : rt.Benign) (g : Globals) (ref : PTime) {y m d h mi s : Nat} (hy : 1 ≤ y)
    (hy' : y ≤ 9999) (hm : 1 ≤ m) (hm' : m ≤ 12) (hd : 1 ≤ d) (hd' : d ≤ 31) (hh : h < 100) (hmi : mi < 100) (hs : s < 100)
    (z : Zone) (hz : z.Small) :
    Yields (execute rt isoParser g (isoDate y m d ++ txt!"T" ++ isoClock h mi ++ txt!":" ++ two s ++ z.text) ref)
      (isoDate y m d ++ txt!"t" ++ isoClock h mi ++ txt!":" ++ two s ++ toLower z.text)
      (fun r => DateIs r.startDate (y, m, d) ∧ TimeIs r.startDate h mi s ∧ r.startDate.get .tzoffset = z.read ∧ r.hasEnd = false ∧
      r.startDate.certain .year = true ∧ r.startDate.certain .month = true ∧ r.startDate.certain .mday = true ∧
      r.startDate.certain .hour = true ∧ r.startDate.certain .sec = true ∧ r.startDate.certain .tzoffset = true) := by
  cases z with
  | absent =>
    exact iso_full hrt g ref hy hy' hm hm' hd hd' hh hmi hs [] [] 19 none none 0 (dr_same _) (by decide +kernel) (by rfl)
      (fun mt h9 _ => isoOffset_none h9)
  | utc =>
    exact iso_full hrt g ref hy hy' hm hm' hd hd' hh hmi hs txt!"Z"  txt!"z" 20 none none 0 (dr_same _) (by decide +kernel) (by rfl)
      (fun mt h9 _ => isoOffset_none h9)
  | plus a b =>
    have hl : toLower (Zone.plus a b).text = txt!"+" ++ isoClock a b := by
      simp only [Zone.text, toLower_append, toLower_isoClock]; rfl
    refine iso_full hrt g ref hy hy' hm hm' hd hd' hh hmi hs _ (txt!"+" ++ txt!"11:11") 25 (some (19, 22)) (some (23, 25)) _
      (by rw [hl]; exact dr_append (dr_same _) dr_isoClock) (by decide +kernel) (by rw [hl]; rfl) ?_
    intro mt h9 h10
    rw [hl] at h9 h10
    have e9 : mt.str 9 = 43 :: two a := h9
    have e10 : mt.str 10 = two b := h10
    rw [isoOffset_hm (a := a) (b := b) (by rw [e9, stoi_plus (two_ne _) (digits_two _) (by rw [digitsVal_two hz.1]; have := hz.1; omega), digitsVal_two hz.1])
      (by rw [e9]; simp) (by rw [e10]; exact stoi_two hz.2) (by rw [e10]; exact two_ne _), if_neg (by omega)]
    simp only [Zone.read, Zone.minutes]
    congr 1; ring
  | minus a b =>
    have hl : toLower (Zone.minus a b).text = txt!"-" ++ isoClock a b := by
      simp only [Zone.text, toLower_append, toLower_isoClock]; rfl
    refine iso_full hrt g ref hy hy' hm hm' hd hd' hh hmi hs _ (txt!"-" ++ txt!"11:11") 25 (some (19, 22)) (some (23, 25)) _
      (by rw [hl]; exact dr_append (dr_same _) dr_isoClock) (by decide +kernel) (by rw [hl]; rfl) ?_
    intro mt h9 h10
    rw [hl] at h9 h10
    have e9 : mt.str 9 = 45 :: two a := h9
    have e10 : mt.str 10 = two b := h10
    rw [isoOffset_hm (a := -(a : Int)) (b := b) (by rw [e9, stoi_neg (two_ne _) (digits_two _) (by rw [digitsVal_two hz.1]; have := hz.1; omega), digitsVal_two hz.1])
      (by rw [e9]; simp) (by rw [e10]; exact stoi_two hz.2) (by rw [e10]; exact two_ne _)]
    rcases a with _ | a
    · rw [if_neg (by omega)]
      simp [Zone.read]
    · rw [if_pos (by omega)]
      simp only [Zone.read, Zone.minutes]
      congr 1; push_cast; ring

/-- **C27 (date and time with seconds).** The same with `THH:MM:SS`. -/
theorem c27_iso_seconds (rt : Rt) (hrt : rt.Benign) (g : Globals) (ref : PTime) (y m d h mi s : Nat) (hy : 1 ≤ y)
    (hy' : y ≤ 9999) (hm : 1 ≤ m) (hm' : m ≤ 12) (hd : 1 ≤ d) (hd' : d ≤ 31) (hh : h < 100) (hmi : mi < 100) (hs : s < 100) :
    Yields (execute rt isoParser g (isoDate y m d ++ txt!"T" ++ isoClock h mi ++ txt!":" ++ two s) ref)
      (isoDate y m d ++ txt!"t" ++ isoClock h mi ++ txt!":" ++ two s)
      (fun r => DateIs r.startDate (y, m, d) ∧ TimeIs r.startDate h mi s ∧ r.startDate.get .tzoffset = 0 ∧ r.hasEnd = false) := by
  have := iso_zone hrt g ref hy hy' hm hm' hd hd' hh hmi hs .absent trivial
  simp only [Zone.text, List.append_nil, show toLower [] = [] from rfl] at this
  refine yields_mono ?_ this
  rintro r ⟨h1, h2, h3, h4, -⟩
  exact ⟨h1, h2, h3, h4⟩

/-! ## C28 -/

/-- **C28 (what holds).** After `YYYY-MM-DDTHH:MM:SS` a zone suffix (none, `Z`, `+HH:MM` or `-HH:MM`) other than
`-00:MM` sets the offset to exactly the minutes it means; the rest of the result does not depend on it. -/
theorem c28_zone_minutes_partial (rt : Rt) (hrt : rt.Benign) (g : Globals) (ref : PTime) (y m d h mi s : Nat) (hy : 1 ≤ y)
    (hy' : y ≤ 9999) (hm : 1 ≤ m) (hm' : m ≤ 12) (hd : 1 ≤ d) (hd' : d ≤ 31) (hh : h < 100) (hmi : mi < 100) (hs : s < 100)
    (z : Zone) (hz : z.Small) (hz0 : ∀ mm, 1 ≤ mm → z ≠ .minus 0 mm) :
    Yields (execute rt isoParser g (isoDate y m d ++ txt!"T" ++ isoClock h mi ++ txt!":" ++ two s ++ z.text) ref)
      (isoDate y m d ++ txt!"t" ++ isoClock h mi ++ txt!":" ++ two s ++ toLower z.text)
      (fun r => r.startDate.get .tzoffset = z.minutes ∧ r.startDate.certain .tzoffset = true ∧
        DateIs r.startDate (y, m, d) ∧ TimeIs r.startDate h mi s ∧ r.hasEnd = false) := by
  refine yields_mono ?_ (iso_zone hrt g ref hy hy' hm hm' hd hd' hh hmi hs z hz)
  rintro r ⟨h1, h2, h3, h4, -, -, -, -, -, h5⟩
  refine ⟨?_, h5, h1, h2, h4⟩
  rw [h3]
  cases z with
  | minus a b =>
    rcases a with _ | a
    · rcases b with _ | b
      · rfl
      · exact absurd rfl (hz0 (b + 1) (by omega))
    · rfl
  | _ => rfl

/-- **C28 (as claimed) is false**: `-00:MM` sets the offset to plus `MM`, for every `MM`. -/
theorem c28_minus_zero_hours_refuted (rt : Rt) (hrt : rt.Benign) (g : Globals) (ref : PTime) (y m d h mi s mm : Nat) (hy : 1 ≤ y)
    (hy' : y ≤ 9999) (hm : 1 ≤ m) (hm' : m ≤ 12) (hd : 1 ≤ d) (hd' : d ≤ 31) (hh : h < 100) (hmi : mi < 100) (hs : s < 100)
    (h1 : 1 ≤ mm) (h2 : mm < 100) :
    Yields (execute rt isoParser g (isoDate y m d ++ txt!"T" ++ isoClock h mi ++ txt!":" ++ two s ++ (Zone.minus 0 mm).text) ref)
      (isoDate y m d ++ txt!"t" ++ isoClock h mi ++ txt!":" ++ two s ++ (Zone.minus 0 mm).text)
      (fun r => r.startDate.get .tzoffset = mm ∧ r.startDate.get .tzoffset ≠ (Zone.minus 0 mm).minutes) := by
  have hl : toLower (Zone.minus 0 mm).text = (Zone.minus 0 mm).text := by
    simp only [Zone.text, toLower_append, toLower_isoClock]; rfl
  have := iso_zone hrt g ref hy hy' hm hm' hd hd' hh hmi hs (.minus 0 mm) ⟨by decide, h2⟩
  rw [hl] at this
  refine yields_mono ?_ this
  rintro r ⟨-, -, h3, -⟩
  refine ⟨h3, ?_⟩
  rw [h3]
  simp only [Zone.read, Zone.minutes]
  omega

/-! ## Every text -/

theorem digitsVal_lt {ds : Text} (h : ∀ c ∈ ds, isDigitB c = true) : ∀ acc, digitsVal acc ds < (acc + 1) * 10 ^ ds.length := by
  induction ds with
  | nil => intro acc; show acc < (acc + 1) * 1; omega
  | cons c t ih =>
    intro acc
    have hc := h c (by simp)
    rw [isDigitB_iff] at hc
    have := ih (fun x hx => h x (by simp [hx])) (acc * 10 + (c - 48))
    unfold digitsVal
    rw [List.length_cons, Nat.pow_succ]
    refine Nat.lt_of_lt_of_le this ?_
    have : acc * 10 + (c - 48) + 1 ≤ (acc + 1) * 10 := by omega
    calc (acc * 10 + (c - 48) + 1) * 10 ^ t.length ≤ ((acc + 1) * 10) * 10 ^ t.length := Nat.mul_le_mul_right _ this
      _ = (acc + 1) * (10 ^ t.length * 10) := by ring

/-- A group of one to nine digits is a number. -/
theorem lang_number {body : Re} {w : Text} (h : Lang body w) (hd : body.allB isDigitB = true) (h1 : 1 ≤ body.minLen)
    (n : Nat) (hn : body.maxLen = some n) (h9 : n ≤ 9) : ∃ v : Nat, v < 10 ^ n ∧ stoi w = .ok (v : Int) ∧ w ≠ [] := by
  have ha := h.allB _ hd
  have hl := h.maxLen n hn
  have hm := h.minLen
  have hne : w ≠ [] := by rintro rfl; simp at hm; omega
  have hv := digitsVal_lt ha 0
  have hp : 10 ^ w.length ≤ 10 ^ n := Nat.pow_le_pow_right (by decide) hl
  have hp9 : 10 ^ n ≤ 10 ^ 9 := Nat.pow_le_pow_right (by decide) h9
  refine ⟨digitsVal 0 w, by omega, ?_, hne⟩
  rw [stoi_digits hne ha, if_pos (by omega)]

theorem lang_seq_one {d : Single} {b : Re} {w : Text} (h : Lang (.seq (.one d) b) w) :
    ∃ c w', w = c :: w' ∧ d.test c = true ∧ Lang b w' := by
  obtain ⟨s, s', hr, hc⟩ := h
  obtain ⟨s1, h1, h2⟩ := rel_seq.1 hr
  obtain ⟨c, t, hcs, ht, rfl⟩ := rel_one.1 h1
  obtain ⟨w', hw'⟩ := h2.consumed
  refine ⟨c, w', ?_, ht, ⟨_, _, h2, hw'⟩⟩
  have c1 : Consumed s (s.adv c t) [c] := ⟨by rw [hcs]; rfl, rfl, by simp [St.adv]⟩
  exact hc.unique (c1.trans hw')

/-- The groups of a match of the ISO pattern. -/
theorem iso_groups {t : Text} {mt : Match} (h : Ast.iso.search t = some mt) :
    (∃ y : Nat, y < 10000 ∧ stoi (mt.str 2) = .ok (y : Int)) ∧ (∃ m : Nat, m < 100 ∧ stoi (mt.str 3) = .ok (m : Int)) ∧
    (∃ d : Nat, d < 100 ∧ stoi (mt.str 4) = .ok (d : Int)) ∧
    (mt.str 5 = [] ∨ mt.str 5 ≠ [] ∧ ∃ h mi : Nat, h < 100 ∧ mi < 100 ∧ stoi (mt.str 5) = .ok (h : Int) ∧ stoi (mt.str 6) = .ok (mi : Int)) ∧
    (mt.str 7 = [] ∨ mt.str 7 ≠ [] ∧ ∃ s : Nat, s < 100 ∧ stoi (mt.str 7) = .ok (s : Int)) ∧
    ∃ off : Int, -6039 ≤ off ∧ off ≤ 6039 ∧ isoOffset mt = .ok off := by
  have ok := Re.search_ok h
  have one : ∀ n k, n ≠ 0 → k ≤ 9 → (Ast.iso.bodies n).all (fun b => b.allB isDigitB && decide (1 ≤ b.minLen) && (b.maxLen == some k)) = true →
      (∃ body ∈ Ast.iso.bodies n, Lang body (mt.str n)) → ∃ v : Nat, v < 10 ^ k ∧ stoi (mt.str n) = .ok (v : Int) ∧ mt.str n ≠ [] := by
    intro n k hn hk hb ⟨body, hm, hl⟩
    have := List.all_eq_true.1 hb body hm
    simp only [Bool.and_eq_true, decide_eq_true_eq, beq_iff_eq] at this
    exact lang_number hl this.1.1 this.1.2 k this.2 hk
  refine ⟨?_, ?_, ?_, ?_, ?_, ?_⟩
  · obtain ⟨v, h1, h2, -⟩ := one 2 4 (by decide) (by decide) (by decide +kernel) (ok.must_lang 2 (by decide) (by decide +kernel))
    exact ⟨v, by simpa using h1, h2⟩
  · obtain ⟨v, h1, h2, -⟩ := one 3 2 (by decide) (by decide) (by decide +kernel) (ok.must_lang 3 (by decide) (by decide +kernel))
    exact ⟨v, by simpa using h1, h2⟩
  · obtain ⟨v, h1, h2, -⟩ := one 4 2 (by decide) (by decide) (by decide +kernel) (ok.must_lang 4 (by decide) (by decide +kernel))
    exact ⟨v, by simpa using h1, h2⟩
  · rcases ok.group_lang 5 (by decide) with h5 | h5
    · exact .inl h5
    · obtain ⟨v, h1, h2, h3⟩ := one 5 2 (by decide) (by decide) (by decide +kernel) h5
      obtain ⟨v', h1', h2', -⟩ := one 6 2 (by decide) (by decide) (by decide +kernel)
        (ok.imp_lang 5 6 (by decide) (by decide) (by decide +kernel) h3)
      exact .inr ⟨h3, v, v', by simpa using h1, by simpa using h1', h2, h2'⟩
  · rcases ok.group_lang 7 (by decide) with h5 | h5
    · exact .inl h5
    · obtain ⟨v, h1, h2, h3⟩ := one 7 2 (by decide) (by decide) (by decide +kernel) h5
      exact .inr ⟨h3, v, by simpa using h1, h2⟩
  · rcases ok.group_lang 9 (by decide) with h9 | h9
    · exact ⟨0, by omega, by omega, isoOffset_none h9⟩
    · have key : ∃ v : Nat, v < 100 ∧ mt.str 9 ≠ [] ∧ (stoi (mt.str 9) = .ok (v : Int) ∨ stoi (mt.str 9) = .ok (-(v : Int))) := by
        obtain ⟨body, hm, hl⟩ := h9
        have hb : Ast.iso.bodies 9 = [.seq (.one (.set true false [.one 43, .one 45]))
          (.seq (.one (.set true false [.cls .digit false])) (.one (.set true false [.cls .digit false])))] := by decide +kernel
        rw [hb, List.mem_singleton] at hm
        subst hm
        obtain ⟨c, w, hw, hc, hl'⟩ := lang_seq_one hl
        have hc' : c = 43 ∨ c = 45 := by
          have := ((Single.test_iff (.set true false [.one 43, .one 45]) (fun c => c = 43 ∨ c = 45)
            (by decide +kernel) (by omega)) c).1 hc
          exact this
        have ha := hl'.allB isDigitB (by decide +kernel)
        have h1 := hl'.maxLen 2 (by decide +kernel)
        have h2 := hl'.minLen
        have hne : w ≠ [] := by rintro rfl; simp [Re.minLen] at h2
        have hv := digitsVal_lt ha 0
        have hp : 10 ^ w.length ≤ 10 ^ 2 := Nat.pow_le_pow_right (by decide) h1
        rw [hw]
        refine ⟨digitsVal 0 w, by omega, by simp, ?_⟩
        rcases hc' with rfl | rfl
        · exact .inl (stoi_plus hne ha (by omega))
        · exact .inr (stoi_neg hne ha (by omega))
      obtain ⟨v, hv, hne, hst⟩ := key
      have key10 : mt.str 10 = [] ∨ mt.str 10 ≠ [] ∧ ∃ b : Nat, b < 100 ∧ stoi (mt.str 10) = .ok (b : Int) := by
        rcases ok.group_lang 10 (by decide) with h5 | h5
        · exact .inl h5
        · obtain ⟨v, h1, h2, h3⟩ := one 10 2 (by decide) (by decide) (by decide +kernel) h5
          exact .inr ⟨h3, v, by simpa using h1, h2⟩
      have two_cases : ∃ a : Int, -99 ≤ a ∧ a ≤ 99 ∧ stoi (mt.str 9) = .ok a := by
        rcases hst with h | h
        · exact ⟨v, by omega, by omega, h⟩
        · exact ⟨-v, by omega, by omega, h⟩
      obtain ⟨a, ha1, ha2, ha⟩ := two_cases
      rcases key10 with h10 | ⟨h10, b, hb, hs⟩
      · refine ⟨a * 60, by omega, by omega, ?_⟩
        unfold isoOffset
        rw [if_neg (by simpa using hne), ha, Out.bind_ok, h10]
        show (if a * 60 < 0 then Out.ok (a * 60 - 0) else Out.ok (a * 60 + 0)) = _
        split <;> simp
      · refine ⟨_, ?_, ?_, isoOffset_hm ha hne hs h10⟩ <;> split <;> omega

/-- The start of a result is an ISO reading: month 1..12, day 1..31, four-digit year, two-digit time fields. -/
def IsoReading (r : PResult) (y m d h mi s : Nat) : Prop :=
  y < 10000 ∧ 1 ≤ m ∧ m ≤ 12 ∧ 1 ≤ d ∧ d ≤ 31 ∧ h < 100 ∧ mi < 100 ∧ s < 100 ∧
  DateIs r.startDate (y, m, d) ∧ TimeIs r.startDate h mi s ∧ r.hasEnd = false ∧ r.getTag .extractTZ = false

theorem iso_extract_total {rt : Rt} {g : Globals} {t tx : Text} {mt : Match} {ref : PTime} {idx : Nat} (h : Ast.iso.search t = some mt) :
    ∃ res, isoExtract rt g tx mt ref idx = .ok res ∧
      (res.hasPossibleDates = true → ∃ y m d h mi s, IsoReading res.copy y m d h mi s) := by
  obtain ⟨⟨y, hy, h2⟩, ⟨m, hm, h3⟩, ⟨d, hd, h4⟩, h5, h7, off, -, -, hoff⟩ := iso_groups h
  by_cases hin : 1 ≤ m ∧ m ≤ 12 ∧ 1 ≤ d ∧ d ≤ 31
  · obtain ⟨m1, m2, d1, d2⟩ := hin
    rcases h5 with h5 | ⟨h5', hh, mi, hhh, hmi, h5, h6⟩
    · refine ⟨_, iso_date_extract m1 m2 d1 d2 h2 h3 h4 h5, fun _ => ⟨y, m, d, 0, 0, 0, hy, m1, m2, d1, d2, by decide, by decide, by decide, ?_, ?_, ?_, ?_⟩⟩
      · simp [DateIs]
      · simp [TimeIs]
      · simp
      · simp [PResult.getTag, PResult.setTag]
    · rcases h7 with h7 | ⟨h7', s, hs, h7⟩
      · refine ⟨_, iso_time_extract m1 m2 d1 d2 h2 h3 h4 h5 h5' h6 h7 hoff,
          fun _ => ⟨y, m, d, hh, mi, 0, hy, m1, m2, d1, d2, hhh, hmi, by decide, ?_, ?_, ?_, ?_⟩⟩
        · simp [DateIs]
        · simp [TimeIs]
        · simp
        · simp [PResult.getTag, PResult.setTag]
      · refine ⟨_, iso_seconds_extract m1 m2 d1 d2 h2 h3 h4 h5 h5' h6 h7 h7' hoff,
          fun _ => ⟨y, m, d, hh, mi, s, hy, m1, m2, d1, d2, hhh, hmi, hs, ?_, ?_, ?_, ?_⟩⟩
        · simp [DateIs]
        · simp [TimeIs]
        · simp
        · simp [PResult.getTag, PResult.setTag]
  · refine ⟨PResult.mk' ref idx (mt.str 0), ?_, ?_⟩
    · unfold isoExtract
      rw [h3, Out.bind_ok, h4, Out.bind_ok, if_pos (by omega)]
      rfl
    · intro hp
      simp [PResult.hasPossibleDates] at hp

/-- **C27 (no exception).** On every text the ISO parser returns normally and leaves the global state alone. -/
theorem c27_iso_never_throws (rt : Rt) (hrt : rt.Benign) (g : Globals) (text : Text) (ref : PTime) :
    ∃ rs, execute rt isoParser g text ref = .ok (rs, g) := by
  have hs := execute_scan hrt iso_pattern iso_min g text ref
  have key : ∀ {k : Nat} {o : Out (List PResult × Globals)} {g1 : Globals}, Scan rt isoParser Ast.iso (toLower text) ref k g1 o → ∃ rs, o = .ok (rs, g1) := by
    intro k o g1 h
    induction h with
    | done => exact ⟨_, rfl⟩
    | @step k g1 mt res g' out hs hx _ ih =>
      obtain ⟨rs, rfl⟩ := ih
      obtain ⟨res', he, -⟩ := iso_extract_total (rt := rt) (g := g1) (tx := (toLower text).drop k) (ref := ref) (idx := k + mt.start) hs
      have he' : isoParser.extract rt g1 ((toLower text).drop k) mt ref (k + mt.start) = .ok (res', g1) := pureExtract_ok he
      rw [he'] at hx
      simp only [Out.ok.injEq, Prod.mk.injEq] at hx
      rw [← hx.2]
      exact ⟨_, rfl⟩
    | @fail k g1 mt hs hx =>
      obtain ⟨res', he, -⟩ := iso_extract_total (rt := rt) (g := g1) (tx := (toLower text).drop k) (ref := ref) (idx := k + mt.start) hs
      exact absurd (pureExtract_ok he) (hx _)
  exact key hs

/-! ## C29 -/

/-- **C29 (what holds).** Every result of the ISO parser, on every text, has a month 1..12 and a day 1..31 (and a
four-digit year, two-digit time fields, no end). -/
theorem c29_iso_fields_in_range_partial (rt : Rt) (hrt : rt.Benign) (g g' : Globals) (text : Text) (ref : PTime) (rs : List PResult)
    (h : execute rt isoParser g text ref = .ok (rs, g')) :
    ∀ r ∈ rs, ∃ y m d h mi s, IsoReading r y m d h mi s := by
  intro r hr
  obtain ⟨k, g1, g2, mt, res, -, hs, hx, hd, rfl⟩ := (execute_scan hrt iso_pattern iso_min g text ref).mem rs g' h r hr
  obtain ⟨res', he, hp⟩ := iso_extract_total (rt := rt) (g := g1) (tx := (toLower text).drop k) (ref := ref) (idx := k + mt.start) hs
  have he' : isoParser.extract rt g1 ((toLower text).drop k) mt ref (k + mt.start) = .ok (res', g1) := pureExtract_ok he
  rw [he'] at hx
  simp only [Out.ok.injEq, Prod.mk.injEq] at hx
  rw [← hx.1] at hd ⊢
  exact hp hd

theorem dayNumber_upper' {y m d : Nat} (hy : y ≤ 9998) (h : Civil y m d) : dayNumber y m d + 365 ≤ maxDN := by
  obtain ⟨h1, h2, h3, h4⟩ := h
  have k0 := dayNumber_eq y m d h1 h2 h3
  have hb := monthLength_bounds y m h1 h2
  unfold maxDN
  interval_cases m <;> simp [monthLength] at k0 h4 <;> first | omega | (split at h4 <;> omega)

theorem toDate_isOk {r : PResult} {T : PTime} (h : r.startDate.date = .ok T) (hT : T.date.inRange) (c1 : r.hasEnd = false)
    (c2 : r.getTag .extractTZ = false) : r.toDate.isOk = true := by
  unfold PResult.toDate toSimpleString
  rw [h, Out.bind_ok, c2, c1]
  simp only [Bool.false_eq_true, if_false]
  rw [Date.ymd_ok hT]
  rfl

theorem days_inRange {h mi s k : Nat} (hl : minDN ≤ k) (hu : k + 365 ≤ maxDN) (h6 : h < 100) (h7 : mi < 100) (h8 : s < 100) :
    (PTime.mk (k * 86400000000 + (h * 3600 + mi * 60 + s) * 1000000 : Int)).date.inRange := by
  unfold Date.inRange PTime.date
  unfold minDN at hl ⊢
  unfold maxDN at hu ⊢
  simp only
  omega

theorem ptimeFromTm_small {y m d k : Nat} (h mi s : Int) (hmk : mkDate (y : Int) m d = .ok ⟨k⟩) (h1 : y < 10000) (h3 : m ≤ 12) (h5 : d ≤ 31) :
    ptimeFromTm y m d h mi s = .ok ⟨(k : Int) * 86400000000 + (h * 3600 + mi * 60 + s) * 1000000⟩ := by
  unfold ptimeFromTm
  rw [toU16_small (by omega), toU16_small (by omega), toU16_small (by omega), hmk]
  rfl

theorem printable_core {r : PResult} {y m d h mi s k : Nat} (hmk : mkDate (y : Int) m d = .ok ⟨k⟩) (hl : minDN ≤ k)
    (hu : k + 365 ≤ maxDN) (h1 : y < 10000) (h3 : m ≤ 12) (h5 : d ≤ 31) (h6 : h < 100) (h7 : mi < 100) (h8 : s < 100)
    (a1 : r.startDate.get .year = y) (a2 : r.startDate.get .month = m) (a3 : r.startDate.get .mday = d)
    (b1 : r.startDate.get .hour = h) (b2 : r.startDate.get .min = mi) (b3 : r.startDate.get .sec = s)
    (c1 : r.hasEnd = false) (c2 : r.getTag .extractTZ = false) : r.toDate.isOk = true := by
  refine toDate_isOk (T := ⟨(k : Int) * 86400000000 + ((h : Int) * 3600 + mi * 60 + s) * 1000000⟩) ?_ (days_inRange hl hu h6 h7 h8) c1 c2
  unfold Comps.date
  rw [a1, a2, a3, b1, b2, b3]
  exact ptimeFromTm_small _ _ _ hmk h1 h3 h5

/-- **C29 (exact condition).** An ISO result is printed without an exception iff its year, month and day are a
calendar date of 1400..9999 (for the last year, 9999, provided the time of day is a real one). -/
theorem c29_printable_iff_calendar_date_partial (r : PResult) (y m d h mi s : Nat) (hr : IsoReading r y m d h mi s)
    (hlast : y ≤ 9998 ∨ h < 24 ∧ mi < 60 ∧ s < 60) :
    (CivilInRange y m d → r.toDate.isOk = true) ∧ (¬ CivilInRange y m d → ∃ e, r.toDate = .exn e ∧ e.isOutOfRange = true) := by
  obtain ⟨h1, h2, h3, h4, h5, h6, h7, h8, ⟨a1, a2, a3⟩, ⟨b1, b2, b3⟩, c1, c2⟩ := hr
  simp only at a1 a2 a3
  constructor
  · intro hc
    rcases hlast with hy | ⟨q1, q2, q3⟩
    · exact printable_core (mkDate_civil hc) (dayNumber_lower hc.1 hc.2.2) (dayNumber_upper' hy hc.2.2) h1 h3 h5 h6 h7 h8
        a1 a2 a3 b1 b2 b3 c1 c2
    · exact (c09_toDate_throws_iff_not_a_date r y m d h mi s (by omega) (by omega) (by omega) q1 q2 q3
        ⟨a1, a2, a3, b1, b2, b3⟩ c1 c2).1 hc
  · intro hc
    obtain ⟨e, he, he'⟩ := mkDate_exn (y := y) (m := m) (d := d) (by
      rintro ⟨-, -, -, h⟩; simp only [Int.toNat_natCast] at h; exact hc h)
    refine ⟨e, ?_, he'⟩
    unfold PResult.toDate Comps.date ptimeFromTm
    rw [a1, a2, a3, toU16_small (by omega), toU16_small (by omega), toU16_small (by omega), he]
    rfl

/-- **C29 (as claimed) is false**: `2019-02-30` yields a result whose `toDate()` throws, whatever the reference
time; so does every date before 1400. -/
theorem c29_unprintable_refuted (rt : Rt) (hrt : rt.Benign) (g : Globals) (ref : PTime) :
    Yields (execute rt isoParser g txt!"2019-02-30" ref) txt!"2019-02-30" (fun r => ∃ e, r.toDate = .exn e) ∧
    Yields (execute rt isoParser g txt!"1399-12-31" ref) txt!"1399-12-31" (fun r => ∃ e, r.toDate = .exn e) := by
  have key : ∀ y m d, 1 ≤ y → y ≤ 9999 → 1 ≤ m → m ≤ 12 → 1 ≤ d → d ≤ 31 → ¬ CivilInRange y m d →
      Yields (execute rt isoParser g (isoDate y m d) ref) (isoDate y m d) (fun r => ∃ e, r.toDate = .exn e) := by
    intro y m d h1 h2 h3 h4 h5 h6 hc
    refine yields_mono ?_ (c27_iso_date rt hrt g ref y m d h1 h2 h3 h4 h5 h6)
    rintro r ⟨⟨a1, a2, a3⟩, -⟩
    simp only at a1 a2 a3
    obtain ⟨e, he, he'⟩ := mkDate_exn (y := y) (m := m) (d := d) (by
      rintro ⟨-, -, -, h⟩; simp only [Int.toNat_natCast] at h; exact hc h)
    refine ⟨e, ?_⟩
    unfold PResult.toDate Comps.date ptimeFromTm
    rw [a1, a2, a3, toU16_small (by omega), toU16_small (by omega), toU16_small (by omega), he]
    rfl
  exact ⟨key 2019 2 30 (by decide) (by decide) (by decide) (by decide) (by decide) (by decide) (by decide),
    key 1399 12 31 (by decide) (by decide) (by decide) (by decide) (by decide) (by decide) (by decide)⟩

example : isoDate 2019 3 15 ++ txt!"T" ++ isoClock 7 5 ++ txt!":" ++ two 9 ++ (Zone.minus 5 30).text =
    txt!"2019-03-15T07:05:09-05:30" ∧ (Zone.minus 5 30).minutes = -330 := by decide

end Chrono.Props
