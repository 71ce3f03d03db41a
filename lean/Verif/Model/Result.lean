import Verif.Boost.Date
/-!
# `src/result.hpp`, `src/result.cpp`
-/
namespace Chrono
open Boost

/-- The keys of the `Components` maps: the eight names of result.cpp:9-17, and `minute`, the key that
`isCertain("min")` looks up by mistake (result.cpp:278). -/
inductive Key where
  | year | month | mday | wday | hour | min | sec | tzoffset | minute
  deriving DecidableEq, Repr

/-- `ParsedComponents` (result.hpp:16-51): two `unordered_map<string, pair<bool,int>>`. A missing entry reads
as `(false, 0)` through `operator[]`, and inserting that default is not observable, so each map is a total
function. -/
structure Comps where
  known : Key → Bool × Int
  implied : Key → Bool × Int

namespace Comps

/-- Default constructor, result.cpp:7-18. -/
def empty : Comps := ⟨fun _ => (false, 0), fun _ => (false, 0)⟩

/-- Update of one entry. -/
def upd (f : Key → Bool × Int) (k : Key) (v : Bool × Int) : Key → Bool × Int :=
  fun k' => if k' = k then v else f k'

/-- `getYear` .. `getTimeZoneOffset`, `getHour`: result.cpp:67-130, all of the same shape. -/
def get (c : Comps) (k : Key) : Int := if (c.known k).1 then (c.known k).2 else (c.implied k).2

/-- `setYear` .. `setTimeZoneOffset`: result.cpp:132-186, all of the same shape. -/
def set (c : Comps) (k : Key) (v : Int) : Comps :=
  ⟨upd c.known k (true, v), upd c.implied k (false, 0)⟩

/-- The branch of `implyComponent` for a valid name: result.cpp:200-255. -/
def imply (c : Comps) (k : Key) (v : Int) : Comps :=
  if (c.known k).1 then c else ⟨c.known, upd c.implied k (true, v)⟩

end Comps

/-- The name comparison chain of `implyComponent` (result.cpp:200-258) and `isCertain` (:262-288). -/
def keyOfName (s : Text) : Option Key :=
  if s = txt!"year" then some .year
  else if s = txt!"month" then some .month
  else if s = txt!"mday" then some .mday
  else if s = txt!"wday" then some .wday
  else if s = txt!"hour" then some .hour
  else if s = txt!"min" then some .min
  else if s = txt!"sec" then some .sec
  else if s = txt!"tzoffset" then some .tzoffset
  else none

namespace Comps

/-- `implyComponent(name, v)`, result.cpp:194-258 (the diagnostic on stderr is not modelled). -/
def implyName (c : Comps) (s : Text) (v : Int) : Comps :=
  match keyOfName s with
  | some k => c.imply k v
  | none => c

/-- The key whose `known` flag `isCertain` reads: `"min"` reads `"minute"` (result.cpp:277-278). -/
def certainKey : Key → Key
  | .min => .minute
  | k => k

/-- `isCertain` for a valid name, result.cpp:260-289. -/
def certain (c : Comps) (k : Key) : Bool := (c.known (certainKey k)).1

/-- `isCertain(name)`. -/
def isCertainName (c : Comps) (s : Text) : Bool :=
  match keyOfName s with
  | some k => c.certain k
  | none => false

/-- `ParsedComponents(Components& cmp, Components& anchor)`, result.cpp:24-37: `cmp` are the known values,
then every component is set from `anchor` (month + 1). -/
def ofAnchor (cmp anchor : Key → Bool × Int) : Comps :=
  let c : Comps := ⟨cmp, fun _ => (false, 0)⟩
  let c := c.set .mday (anchor .mday).2
  let c := c.set .wday (anchor .wday).2
  let c := c.set .month ((anchor .month).2 + 1)
  let c := c.set .year (anchor .year).2
  let c := c.set .hour (anchor .hour).2
  let c := c.set .min (anchor .min).2
  let c := c.set .sec (anchor .sec).2
  c.set .tzoffset (anchor .tzoffset).2

/-- `date()`, result.cpp:53-65. -/
def date (c : Comps) : Out PTime :=
  ptimeFromTm (c.get .year) (c.get .month) (c.get .mday) (c.get .hour) (c.get .min) (c.get .sec)

/-- `isPossibleDate()`, result.cpp:291-324. `tm_year` is set to `getYear()` without subtracting 1900, so the date
validated is 1900 years later; `to_tm` gives back year - 1900. -/
def isPossibleDate (c : Comps) : Out Bool := do
  let t ← ptimeFromTm (c.get .year + 1900) (c.get .month) (c.get .mday)
    (c.get .hour) (c.get .min) (c.get .sec)
  let e ← t.date.ymd
  if (e.year : Int) - 1900 ≠ c.get .year then return false
  else if (e.month : Int) - 1 ≠ c.get .month - 1 then return false
  else if (e.day : Int) ≠ c.get .mday then return false
  else if (dayOfWeekYmd e.year e.month e.day : Int) ≠ c.get .wday then return false
  else if t.hours ≠ c.get .hour then return false
  else if t.minutes ≠ c.get .min then return false
  else return true

end Comps

/-- `utils::Modifiers`, src/utils/utils.hpp:21-40. -/
inductive Tag where
  | casualTime | casualDate | deadline | dayOfTheWeek | middleEndian | timeLater | monthName
  | timeAgo | iso | timeExpression | usHolidays | relative
  | mergeDateRange | mergeDateAndTime | extractTZ
  deriving DecidableEq, Repr

/-- `utils::ModList`, src/utils/utils.hpp:43-51. -/
def modList : List Tag :=
  [.casualTime, .casualDate, .deadline, .dayOfTheWeek, .middleEndian, .timeLater, .monthName, .timeAgo,
   .iso, .timeExpression, .usHolidays, .relative, .mergeDateRange, .mergeDateAndTime, .extractTZ]

/-- `utils::Tags` (unordered_map<Modifiers,bool>): which keys are present, with their value. -/
abbrev Tags := Tag → Option Bool

/-- `ParsedResult`, result.hpp:54-89. -/
structure PResult where
  anchor : PTime
  /-- `unsigned index` -/
  index : Nat
  text : Text
  tags : Tags
  startDate : Comps
  endDate : Comps
  hasEnd : Bool

namespace PResult

/-- Conversion to `unsigned` (32 bit). -/
def toU32 (x : Int) : Nat := (x % 4294967296).toNat

/-- `ParsedResult(ref, idx, text)`, result.cpp:360-369. -/
def mk' (anchor : PTime) (idx : Nat) (text : Text) : PResult :=
  { anchor, index := toU32 idx, text, tags := fun _ => none, startDate := Comps.empty,
    endDate := Comps.empty, hasEnd := false }

/-- `ParsedResult()`, result.cpp:328-334. The anchor is `not_a_date_time`; it is never read (any value). -/
def default : PResult := mk' ⟨0⟩ 0 []

/-- Copy constructor, result.cpp:372-384: the end components are copied only if there is an end. -/
def copy (r : PResult) : PResult :=
  { r with endDate := if r.hasEnd then r.endDate else Comps.empty }

/-- `operator=` (by value, so through the copy constructor), result.cpp:484-494. -/
def assign (_old new : PResult) : PResult := new.copy

/-- `hasPossibleDates()`, result.cpp:386-398. -/
def hasPossibleDates (r : PResult) : Bool :=
  !(r.startDate.get .year == 0 && r.startDate.get .month == 0 && r.startDate.get .mday == 0 &&
    r.startDate.get .hour == 0 && r.startDate.get .min == 0 && r.startDate.get .sec == 0 && !r.hasEnd)

/-- `setTag`, result.cpp:460-463: inserted only when absent. -/
def setTag (r : PResult) (t : Tag) : PResult :=
  match r.tags t with
  | some _ => r
  | none => { r with tags := fun t' => if t' = t then some true else r.tags t' }

/-- Value of `getTag`, result.cpp:479-482. -/
def getTag (r : PResult) (t : Tag) : Bool := (r.tags t).getD false

/-- Side effect of `getTag` (`tags[m]`): an absent tag becomes present with value false. -/
def touchTag (r : PResult) (t : Tag) : PResult :=
  match r.tags t with
  | some _ => r
  | none => { r with tags := fun t' => if t' = t then some false else r.tags t' }

/-- `setIndex(int)`. -/
def setIndex (r : PResult) (i : Nat) : PResult := { r with index := toU32 i }
/-- `setText`. -/
def setText (r : PResult) (t : Text) : PResult := { r with text := t }
/-- `textLength()`. -/
def textLength (r : PResult) : Nat := r.text.length
/-- `isEmpty()`, result.cpp:465-469. -/
def isEmpty (r : PResult) : Bool := r.index == 0 && r.text.isEmpty
/-- `makeEndDateValid()`. -/
def makeEndValid (r : PResult) : PResult := { r with hasEnd := true }

/-- Shorthand: replace the start components. -/
def onStart (r : PResult) (f : Comps → Comps) : PResult := { r with startDate := f r.startDate }
/-- Shorthand: replace the end components. -/
def onEnd (r : PResult) (f : Comps → Comps) : PResult := { r with endDate := f r.endDate }

/-- `toDate()`, result.cpp:402-441. The shifted end `ed` is computed (it cannot fail) and then not used. -/
def toDate (r : PResult) : Out Text := do
  let st ← r.startDate.date
  let st := if r.getTag .extractTZ then st.addMinutes (r.startDate.get .tzoffset) else st
  let res ← toSimpleString st
  if r.hasEnd then
    let ed ← r.endDate.date
    let res2 ← toSimpleString ed
    return res ++ txt!" - " ++ res2
  else return res

end PResult
end Chrono
