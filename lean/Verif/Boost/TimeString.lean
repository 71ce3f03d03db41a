import Verif.Boost.Date
/-!
# `boost::posix_time::time_from_string`

Models a library function that time.cpp:68 calls on the reference-date argument: `boost/date_time/time_parsing.hpp`
(`parse_delimited_time`, `split`, `str_from_delimited_time_duration`), `date_parsing.hpp` (`parse_date`,
`month_str_to_ushort`), `boost/tokenizer.hpp` with a `char_separator`, and `boost::lexical_cast` to unsigned numbers.
-/
namespace Chrono.Boost

/-- `boost::tokenizer` with `char_separator(seps)`: the maximal runs of characters that are no separators (empty
tokens are dropped). `cur` is the token being read. -/
def tokensFrom (seps : Text) : Text → Text → List Text
  | cur, [] => if cur.isEmpty then [] else [cur]
  | cur, c :: t =>
    if seps.contains c then (if cur.isEmpty then tokensFrom seps [] t else cur :: tokensFrom seps [] t)
    else tokensFrom seps (cur ++ [c]) t

def tokens (seps t : Text) : List Text := tokensFrom seps [] t

/-- What follows an optional plus sign. -/
def afterPlus : Text → Text
  | [] => []
  | c :: r => if c = 43 then r else c :: r

/-- `lexical_cast` of a token to a number type with the maximum `max` (`unsigned short`, `int`, `int64_t`), C locale:
an optional plus sign, then digits only; anything else, or a value that is too large: `bad_lexical_cast`. A minus sign
cannot occur in a token, since `-` is a separator in both callers. -/
def lexicalCast (max : Nat) (t : Text) : Out Int :=
  let ds := afterPlus t
  if ds.isEmpty ∨ ds.all isDigitB = false then .exn .badCast
  else if digitsVal 0 ds ≤ max then .ok (digitsVal 0 ds : Int) else .exn .badCast

/-- Month names, as in the map of `greg_month::get_month_map_ptr` (long and short, lower case). -/
def monthMap : List (Text × Nat) :=
  [(txt!"january", 1), (txt!"jan", 1), (txt!"february", 2), (txt!"feb", 2), (txt!"march", 3), (txt!"mar", 3),
   (txt!"april", 4), (txt!"apr", 4), (txt!"may", 5), (txt!"june", 6), (txt!"jun", 6), (txt!"july", 7), (txt!"jul", 7),
   (txt!"august", 8), (txt!"aug", 8), (txt!"september", 9), (txt!"sep", 9), (txt!"october", 10), (txt!"oct", 10),
   (txt!"november", 11), (txt!"nov", 11), (txt!"december", 12), (txt!"dec", 12)]

/-- `month_str_to_ushort`: a number if the first character is a digit, else a name; 13 if the name is unknown.
(A token is never empty, so `s.at(0)` does not throw.) -/
def monthStr (t : Text) : Out Int :=
  if isDigitB (t.headD 0) then lexicalCast 65535 t
  else match monthMap.lookup (toLower t) with
    | some m => .ok (m : Int)
    | none => .ok 13

/-- `parse_date` with the order year, month, day; separators `, - . space /`; further tokens are ignored. What missing
fields are taken for differs between versions of Boost: `unspec`. -/
def parseDate (t : Text) : Out Date := do
  let tk := tokens [44, 45, 46, 32, 47] t
  let y ← match tk with
    | a :: _ => lexicalCast 65535 a
    | [] => .unspec
  let m ← match tk with
    | _ :: b :: _ => monthStr b
    | _ => .unspec
  let d ← match tk with
    | _ :: _ :: c :: _ => lexicalCast 65535 c
    | _ => .unspec
  mkDate y m d

/-- The fraction of a second in microseconds: at most six digits are read, fewer are filled up with zeros. -/
def fraction (t : Text) : Out Int := do
  let v ← lexicalCast 9223372036854775807 (t.take 6)
  return v * 10 ^ (6 - t.length)

/-- `str_from_delimited_time_duration`, in microseconds: separators `- : , .`; hour, minute, second, fraction; missing ones
are 0, further tokens are ignored; negative if the first character is a minus sign. The fields are not checked against
24 or 60. An empty string is not modelled (`unspec`). -/
def parseDuration (t : Text) : Out Int := do
  if t.isEmpty then .unspec
  else
    let tk := tokens [45, 58, 44, 46] t
    let h ← match tk with
      | a :: _ => lexicalCast 2147483647 a
      | [] => .ok 0
    let mi ← match tk with
      | _ :: b :: _ => lexicalCast 65535 b
      | _ => .ok 0
    let s ← match tk with
      | _ :: _ :: c :: _ => lexicalCast 65535 c
      | _ => .ok 0
    let f ← match tk with
      | _ :: _ :: _ :: e :: _ => fraction e
      | _ => .ok 0
    let us := (h * 3600 + mi * 60 + s) * 1000000 + f
    return if t.headD 0 = 45 then -us else us

/-- `split(s, ' ', first, second)`: at the first blank; without one `second` is empty or the whole string, depending on
the version of Boost: `none`. -/
def splitBlank : Text → Text × Option Text
  | [] => ([], none)
  | c :: t => if c = 32 then ([], some t) else (c :: (splitBlank t).1, (splitBlank t).2)

/-- `posix_time::time_from_string(s)` (`parse_delimited_time<ptime>(s, ' ')`): the date, then the time of day, then
`ptime(date, duration)`, which normalises. The 64-bit count cannot overflow: the hour is below `2^31`. -/
def timeFromString (s : Text) : Out PTime := do
  let p := splitBlank s
  let d ← parseDate p.1
  let us ← match p.2 with
    | some t => parseDuration t
    | none => .unspec
  return ⟨d.dn * 86400000000 + us⟩

end Chrono.Boost
