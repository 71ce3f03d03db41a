import Verif.Base.Out
import Verif.Base.TxtMacro
/-!
# `std::string` as the list of its bytes

Only what the program uses.  A byte is a natural number (values of 256 and more never occur in a real
string; the matchers below reject them, theorems hold for them trivially or in general).
-/
namespace Chrono

/-- Contents of a `std::string`. -/
abbrev Text := List Nat

/-- `::tolower` in the "C" locale (the program never calls `setlocale`), applied to one byte.
utils.cpp:4 calls `std::transform(..., ::tolower)`; bytes outside `A..Z` are unchanged.
(Passing a negative `char` to `::tolower` is technically undefined; glibc defines it for -128..255
and leaves such bytes unchanged in the C locale.) -/
def lowerB (c : Nat) : Nat := if 65 ≤ c ∧ c ≤ 90 then c + 32 else c

/-- `::toupper` in the "C" locale. -/
def upperB (c : Nat) : Nat := if 97 ≤ c ∧ c ≤ 122 then c - 32 else c

/-- `utils::toLowerCase`, src/utils/utils.cpp:3-6. -/
def toLower (t : Text) : Text := t.map lowerB

/-- `utils::toUpperCase`, src/utils/utils.cpp:8-11. -/
def toUpper (t : Text) : Text := t.map upperB

/-- `isspace` in the C locale: blank, \t \n \v \f \r. -/
def isSpaceB (c : Nat) : Bool := c == 32 || (9 ≤ c && c ≤ 13)
/-- `isdigit`. -/
def isDigitB (c : Nat) : Bool := 48 ≤ c && c ≤ 57
/-- `isalpha` in the C locale. -/
def isAlphaB (c : Nat) : Bool := (65 ≤ c && c ≤ 90) || (97 ≤ c && c ≤ 122)
/-- `\w`: alphanumeric or underscore. -/
def isWordB (c : Nat) : Bool := isAlphaB c || isDigitB c || c == 95

/-- `t` starts with `p`. -/
def startsWith : Text → Text → Bool
  | _, [] => true
  | [], _ :: _ => false
  | c :: t, d :: p => c == d && startsWith t p

/-- `t.find(p)`: offset of the first occurrence, `none` for `std::string::npos`. -/
def find (p : Text) : Text → Option Nat
  | [] => if p.isEmpty then some 0 else none
  | c :: t => if startsWith (c :: t) p then some 0 else (find p t).map (· + 1)

/-- `t.find(p) != std::string::npos`. -/
def contains (p t : Text) : Bool := (find p t).isSome

/-- `!t.find(p)`: the C++ idiom of the sources; true iff `find` returned 0. -/
def findsAtZero (p t : Text) : Bool := find p t == some 0

/-- `t.substr(pos, n)`: throws `std::out_of_range` when `pos > size`. -/
def substrN (t : Text) (pos n : Nat) : Out Text :=
  if pos ≤ t.length then .ok ((t.drop pos).take n) else .exn .outOfRange

/-- `t.substr(pos)`. -/
def substr (t : Text) (pos : Nat) : Out Text :=
  if pos ≤ t.length then .ok (t.drop pos) else .exn .outOfRange

/-- Value of a run of decimal digits, most significant first, continuing from `acc`. -/
def digitsVal (acc : Nat) : Text → Nat
  | [] => acc
  | c :: t => digitsVal (acc * 10 + (c - 48)) t

/-- The longest prefix of digits. -/
def digitPrefix : Text → Text
  | [] => []
  | c :: t => if isDigitB c then c :: digitPrefix t else []

def dropSpaces : Text → Text
  | [] => []
  | c :: t => if isSpaceB c then dropSpaces t else c :: t

/-- Optional sign of `strtol`. -/
def takeSign : Text → Bool × Text
  | 43 :: t => (false, t)   -- '+'
  | 45 :: t => (true, t)    -- '-'
  | t => (false, t)

/-- `std::stoi` (base 10): skips blanks, optional sign, digits; trailing characters are ignored;
`std::invalid_argument` when there is no digit, `std::out_of_range` outside `int`. -/
def stoi (t : Text) : Out Int :=
  let p := takeSign (dropSpaces t)
  let ds := digitPrefix p.2
  if ds.isEmpty then .exn .invalidArgument
  else
    let v : Int := if p.1 then - (digitsVal 0 ds : Int) else (digitsVal 0 ds : Int)
    if v < -2147483648 ∨ 2147483647 < v then .exn .outOfRange else .ok v

/-- The non-negative `float` values that occur: a whole number, or one half. -/
inductive FNum where
  | int (n : Nat)
  | half
  deriving DecidableEq, Repr

/-- Rounding of a natural number to binary32 (24-bit significand, nearest, ties to even).
Exact below `2^24`. -/
def f32 (n : Nat) : Nat :=
  if n < 16777216 then n
  else
    let u := 2 ^ (n.log2 - 23)
    let q := n / u
    let r := n % u
    if 2 * r < u then q * u
    else if 2 * r > u then (q + 1) * u
    else if q % 2 = 0 then q * u else (q + 1) * u

/-- `float num = n`. -/
def FNum.ofNat (n : Nat) : FNum := .int (f32 n)

/-- `floor(num) == num`. -/
def FNum.isWhole : FNum → Bool
  | .int _ => true
  | .half => false

/-- `std::stof` on the strings the program passes to it (a run of digits, or a blank followed by a
number word): blanks skipped, digits converted; no digits: `invalid_argument`; above `FLT_MAX`:
`out_of_range`.  Simplification: signs, fractions, exponents, hex floats, "inf" and "nan" are not
modelled; the capturing group it is applied to (`ENRelativeDateFormatParser.hpp:19-20`) cannot contain
them. -/
def stof (t : Text) : Out FNum :=
  let ds := digitPrefix (dropSpaces t)
  if ds.isEmpty then .exn .invalidArgument
  else
    let v := f32 (digitsVal 0 ds)
    if v ≤ 340282346638528859811704183484516925440 then .ok (.int v) else .exn .outOfRange

/-- `static_cast<int>(num)`: truncation; undefined when out of the range of `int`. -/
def FNum.toInt : FNum → Out Int
  | .int n => if n ≤ 2147483647 then .ok (n : Int) else .ub
  | .half => .ok 0

/-- `static_cast<int>(ceil(num))`. -/
def FNum.ceilInt : FNum → Out Int
  | .int n => if n ≤ 2147483647 then .ok (n : Int) else .ub
  | .half => .ok 1

/-- Implicit conversion of `num` to the 64-bit day count of `gregorian::days(num)`
(`gregorian::weeks(num)` likewise). -/
def FNum.toLong : FNum → Out Int
  | .int n => if n < 9223372036854775808 then .ok (n : Int) else .ub
  | .half => .ok 0

/-- A `std::map<std::string, unsigned>`: association list, first entry wins. -/
abbrev WordMap := List (Text × Nat)

def WordMap.lookup (m : WordMap) (k : Text) : Option Nat :=
  match m with
  | [] => none
  | (k', v) :: r => if k' = k then some v else WordMap.lookup r k

/-- `m[k]` (value only; the default value 0 if absent). -/
def WordMap.get (m : WordMap) (k : Text) : Nat := (m.lookup k).getD 0

/-- Side effect of `m[k]`: inserts `(k, 0)` if absent. -/
def WordMap.touch (m : WordMap) (k : Text) : WordMap :=
  match m.lookup k with
  | some _ => m
  | none => m ++ [(k, 0)]

end Chrono
