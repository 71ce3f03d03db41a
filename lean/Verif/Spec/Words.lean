import Verif.Base.Text
/-!
# Words of a string, and the English ordinals

Specification only; nothing here refers to the model.
-/
namespace Chrono.Spec

/-- Blank or hyphen. -/
def separator (c : Nat) : Bool := c == 32 || c == 45

/-- The words of a string: its maximal pieces without blanks and hyphens. -/
def words (t : Text) : List Text := (t.splitOnP separator).filter (fun w => !w.isEmpty)

/-- first .. nineteenth, the ordinals that have a name of their own. -/
def simpleOrdinals : List Text :=
  [txt!"first", txt!"second", txt!"third", txt!"fourth", txt!"fifth", txt!"sixth", txt!"seventh", txt!"eighth",
   txt!"ninth", txt!"tenth", txt!"eleventh", txt!"twelfth", txt!"thirteenth", txt!"fourteenth", txt!"fifteenth",
   txt!"sixteenth", txt!"seventeenth", txt!"eighteenth", txt!"nineteenth"]

/-- The English ordinal of `n` (1 to 31) as a list of words; `[]` outside that range. -/
def ordinalName (n : Nat) : List Text :=
  if n = 0 then []
  else if n < 20 then [simpleOrdinals.getD (n - 1) []]
  else if n = 20 then [txt!"twentieth"]
  else if n < 30 then [txt!"twenty", simpleOrdinals.getD (n - 21) []]
  else if n = 30 then [txt!"thirtieth"]
  else if n = 31 then [txt!"thirty", txt!"first"]
  else []

/-- The names of the months. -/
def monthNames : List Text :=
  [txt!"january", txt!"february", txt!"march", txt!"april", txt!"may", txt!"june", txt!"july", txt!"august",
   txt!"september", txt!"october", txt!"november", txt!"december"]

/-- `w` names the month `m` (1 to 12): the full name, its first three letters, or those with a full stop; September is also
`sept` and `sept.`. -/
def monthWord (w : Text) (m : Nat) : Bool :=
  let name := monthNames.getD (m - 1) []
  1 ≤ m && m ≤ 12 && (w == name || w == name.take 3 || w == name.take 3 ++ txt!"." ||
    (m == 9 && (w == name.take 4 || w == name.take 4 ++ txt!".")))

/-- The names of the days of the week, Sunday first. -/
def weekdayNames : List Text :=
  [txt!"sunday", txt!"monday", txt!"tuesday", txt!"wednesday", txt!"thursday", txt!"friday", txt!"saturday"]

/-- `w` names day `k` of the week (0 = Sunday): the full name, its first three letters, `tues`, `thur`, `thurs`. -/
def weekdayWord (w : Text) (k : Nat) : Bool :=
  let name := weekdayNames.getD k []
  k ≤ 6 && (w == name || w == name.take 3 || (w == txt!"tues" && k == 2) || ((w == txt!"thur" || w == txt!"thurs") && k == 4))

end Chrono.Spec
