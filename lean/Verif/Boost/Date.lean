import Verif.Base.Text
/-!
# The part of Boost.Date_Time that the program calls

Models a library (Boost is a dependency, not part of /repo): `boost/date_time/gregorian_calendar.ipp`,
`adjust_functors.hpp`, `date_generators.hpp`, `posix_time/conversion.hpp`.  The callers are cited at the
functions of `Verif/Model`.

A `gregorian::date` is its day number (`date_rep`); valid dates are 1400-Jan-01 .. 9999-Dec-31.  Dates
computed by adding a duration may leave that range; then the accessors `year()`, `month()`, `day()` throw
`bad_year`.  Day numbers so large that Boost's 32-bit arithmetic or its `unsigned short` year would wrap are
`unspec`.
-/
namespace Chrono.Boost

/-- `gregorian_calendar_base::is_leap_year`. -/
def isLeap (y : Nat) : Bool := y % 4 == 0 && (!(y % 100 == 0) || y % 400 == 0)

/-- `gregorian_calendar_base::end_of_month_day`. -/
def endOfMonthDay (y m : Nat) : Nat :=
  if m = 2 then (if isLeap y then 29 else 28)
  else if m = 4 ∨ m = 6 ∨ m = 9 ∨ m = 11 then 30
  else 31

/-- `gregorian_calendar_base::day_number`:
`a = (14-month)/12; y = year + 4800 - a; m = month + 12*a - 3;
 day + (153*m + 2)/5 + 365*y + y/4 - y/100 + y/400 - 32045`. -/
@[irreducible] def dayNumber (y m d : Nat) : Nat :=
  let a := (14 - m) / 12
  let yy := y + 4800 - a
  let mm := m + 12 * a - 3
  d + (153 * mm + 2) / 5 + 365 * yy + yy / 4 - yy / 100 + yy / 400 - 32045

/-- A civil date. -/
structure Ymd where
  year : Nat
  month : Nat
  day : Nat
  deriving DecidableEq, Repr

/-- `gregorian_calendar_base::from_day_number`. -/
@[irreducible] def fromDayNumber (dn : Nat) : Ymd :=
  let a := dn + 32044
  let b := (4 * a + 3) / 146097
  let c := a - (146097 * b) / 4
  let d := (4 * c + 3) / 1461
  let e := c - (1461 * d) / 4
  let m := (5 * e + 2) / 153
  { day := e - (153 * m + 2) / 5 + 1,
    month := m + 3 - 12 * (m / 10),
    year := 100 * b + d - 4800 + m / 10 }

/-- `gregorian_calendar_base::day_of_week` (Zeller): 0 = Sunday .. 6 = Saturday. -/
def dayOfWeekYmd (y m d : Nat) : Nat :=
  let a := (14 - m) / 12
  let yy := y - a
  let mm := m + 12 * a - 2
  (d + yy + yy / 4 - yy / 100 + yy / 400 + (31 * mm) / 12) % 7

/-- Day number of 1400-Jan-01. -/
def minDN : Nat := 2232400
/-- Day number of 9999-Dec-31. -/
def maxDN : Nat := 5373484

/-- A `gregorian::date` object: its day number. -/
structure Date where
  dn : Int
  deriving DecidableEq, Repr

/-- Day number of a date inside Boost's supported range. -/
def Date.inRange (d : Date) : Prop := (minDN : Int) ≤ d.dn ∧ d.dn ≤ (maxDN : Int)

instance (d : Date) : Decidable d.inRange := by unfold Date.inRange; infer_instance

/-- `d.year_month_day()` as used by `year()`, `month()`, `day()`: `greg_year` throws `bad_year` outside
1400..9999.  Outside 0..25000000 the 16/32-bit arithmetic wraps: `unspec`. -/
def Date.ymd (d : Date) : Out Ymd :=
  if d.inRange then .ok (fromDayNumber d.dn.toNat)
  else if 0 ≤ d.dn ∧ d.dn ≤ 25000000 then .exn .badYear
  else .unspec

def Date.year (d : Date) : Out Int := do let y ← d.ymd; return (y.year : Int)
def Date.month (d : Date) : Out Int := do let y ← d.ymd; return (y.month : Int)
def Date.day (d : Date) : Out Int := do let y ← d.ymd; return (y.day : Int)
/-- `d.day_of_week()`. -/
def Date.dayOfWeek (d : Date) : Out Nat := do
  let y ← d.ymd
  return dayOfWeekYmd y.year y.month y.day

/-- `gregorian::date(year, month, day)`: range checks of `greg_year`, `greg_month`, `greg_day`, then the
length of the month. -/
def mkDate (y m d : Int) : Out Date :=
  if y < 1400 ∨ 9999 < y then .exn .badYear
  else if m < 1 ∨ 12 < m then .exn .badMonth
  else if d < 1 ∨ 31 < d then .exn .badDayOfMonth
  else if (endOfMonthDay y.toNat m.toNat : Int) < d then .exn .badDayOfMonth
  else .ok ⟨dayNumber y.toNat m.toNat d.toNat⟩

/-- `d + gregorian::days(n)` (also `weeks(k)` with `n = 7*k`): the 32-bit day count; results outside
0..2^31 wrap or collide with the special values: `unspec`. -/
def Date.addDays (d : Date) (n : Int) : Out Date :=
  if 0 < d.dn + n ∧ d.dn + n < 2147483648 then .ok ⟨d.dn + n⟩ else .unspec

/-- `month_functor::get_offset` (`d + gregorian::months(n)`; `d - months(n)` is `n` negated; `years(k)` is
`12*k` months).  `wrapping_int2<short,1,12>` takes `n` as 16 bits: beyond that `unspec`.
The last day of a month is mapped to the last day; otherwise the day is clipped to the month length. -/
def Date.addMonths (d : Date) (n : Int) : Out Date := do
  let e ← d.ymd
  if n < -32767 ∨ 32767 < n then Out.unspec
  else
    let k : Int := (e.year : Int) * 12 + ((e.month : Int) - 1) + n
    let y := k / 12
    let m := k % 12 + 1
    if y < 1400 ∨ 9999 < y then .exn .badYear
    else
      let last := endOfMonthDay y.toNat m.toNat
      let day := if e.day = endOfMonthDay e.year e.month then last else min e.day last
      mkDate y m day

/-- `gregorian::first_day_of_the_week_after(w).get_date(d)`: the first day strictly after `d` that falls
on weekday `w`. (Boost: start one day later and step forward until the weekday matches.) -/
def stepForward (w : Nat) : Nat → Date → Out Date
  | 0, d => .ok d
  | n + 1, d => do
    let x ← d.dayOfWeek
    if x = w then return d else stepForward w n (← d.addDays 1)

def stepBack (w : Nat) : Nat → Date → Out Date
  | 0, d => .ok d
  | n + 1, d => do
    let x ← d.dayOfWeek
    if x = w then return d else stepBack w n (← d.addDays (-1))

/-- `first_day_of_the_week_after{w}.get_date(d)`; the loop ends within 7 steps. -/
def firstAfter (w : Nat) (d : Date) : Out Date := do stepForward w 7 (← d.addDays 1)
/-- `first_day_of_the_week_before{w}.get_date(d)`. -/
def firstBefore (w : Nat) (d : Date) : Out Date := do stepBack w 7 (← d.addDays (-1))

/-- `nth_kday_of_month(n, w, m).get_date(y)`: step from the first of the month to weekday `w`, add `n-1`
weeks, go back one week if that left the month. -/
def nthKday (n w m : Nat) (y : Int) : Out Date := do
  let d ← mkDate y m 1
  let d ← stepForward w 7 d
  let d ← d.addDays (7 * ((n : Int) - 1))
  let mm ← d.month
  if mm = m then return d else d.addDays (-7)

/-- `last_kday_of_month(w, m).get_date(y)`. -/
def lastKday (w m : Nat) (y : Int) : Out Date := do
  let d ← mkDate y m (endOfMonthDay y.toNat m)
  stepBack w 7 d

/-! ## `posix_time::ptime` -/

/-- Microseconds per day. -/
def usPerDay : Int := 86400000000

/-- A `ptime`: microseconds since day number 0 (Boost stores the same count, relative to its epoch). -/
structure PTime where
  us : Int
  deriving DecidableEq, Repr

/-- A time in Boost's supported range 1400-Jan-01 00:00:00 .. 9999-Dec-31 23:59:59.999999; every `ptime`
obtained from the clock is one. -/
def PTime.Valid (t : PTime) : Prop := (minDN : Int) * 86400000000 ≤ t.us ∧ t.us < (maxDN + 1 : Int) * 86400000000

instance (t : PTime) : Decidable t.Valid := by unfold PTime.Valid; infer_instance

/-- `t.date()`. -/
def PTime.date (t : PTime) : Date := ⟨t.us / 86400000000⟩
/-- `t.time_of_day().hours()`. -/
def PTime.hours (t : PTime) : Int := t.us % 86400000000 / 3600000000
/-- `t.time_of_day().minutes()`. -/
def PTime.minutes (t : PTime) : Int := t.us % 86400000000 / 60000000 % 60
/-- `t.time_of_day().seconds()`. -/
def PTime.seconds (t : PTime) : Int := t.us % 86400000000 / 1000000 % 60

/-- `t += gregorian::days(n)`. -/
def PTime.addDays (t : PTime) (n : Int) : PTime := ⟨t.us + n * 86400000000⟩
/-- `t += posix_time::seconds(n)`; hours and minutes are multiples. The count is 64-bit; the program adds
at most `2^31` hours to a valid time, which cannot overflow. -/
def PTime.addSeconds (t : PTime) (n : Int) : PTime := ⟨t.us + n * 1000000⟩
def PTime.addMinutes (t : PTime) (n : Int) : PTime := t.addSeconds (60 * n)
def PTime.addHours (t : PTime) (n : Int) : PTime := t.addSeconds (3600 * n)

/-- Conversion of an `int` to `unsigned short`. -/
def toU16 (x : Int) : Int := x % 65536

/-- `posix_time::ptime_from_tm` for `tm{year-1900, month-1, mday, hour, min, sec}`: the date fields are cast
to `unsigned short`, the date is validated, and the time of day is added (`time_duration` normalises, an
hour of 24 or more rolls over to the next day). -/
def ptimeFromTm (y mo d h mi s : Int) : Out PTime := do
  let dt ← mkDate (toU16 y) (toU16 mo) (toU16 d)
  return ⟨dt.dn * 86400000000 + (h * 3600 + mi * 60 + s) * 1000000⟩

/-- Decimal digits of `n`, zero-padded on the left to width `w` (most significant first). -/
def pad (w n : Nat) : Text :=
  match w with
  | 0 => []
  | w + 1 => pad w (n / 10) ++ [48 + n % 10]

/-- Short month names of `to_simple_string`. -/
def monthShort : Nat → Text
  | 1 => txt!"Jan" | 2 => txt!"Feb" | 3 => txt!"Mar" | 4 => txt!"Apr" | 5 => txt!"May" | 6 => txt!"Jun"
  | 7 => txt!"Jul" | 8 => txt!"Aug" | 9 => txt!"Sep" | 10 => txt!"Oct" | 11 => txt!"Nov" | _ => txt!"Dec"

/-- `posix_time::to_simple_string(t)`: `YYYY-Mon-DD HH:MM:SS` (plus `.ffffff` when there is a fraction of a
second; the program only prints whole seconds, the fraction is not modelled). -/
def toSimpleString (t : PTime) : Out Text := do
  let e ← t.date.ymd
  return pad 4 e.year ++ [45] ++ monthShort e.month ++ [45] ++ pad 2 e.day ++ [32] ++
    pad 2 t.hours.toNat ++ [58] ++ pad 2 t.minutes.toNat ++ [58] ++ pad 2 t.seconds.toNat

end Chrono.Boost
