import Verif.Spec.Calendar
import Verif.Base.Text
/-!
# Specification: printed form and civil date-times
-/
namespace Chrono.Spec

/-- A civil date and time of day. -/
structure DateTime where
  year : Nat
  month : Nat
  day : Nat
  hour : Nat
  minute : Nat
  second : Nat
  deriving DecidableEq, Repr

/-- A real date in 1400..9999 and a time of day. -/
def DateTime.Valid (t : DateTime) : Prop :=
  CivilInRange t.year t.month t.day ∧ t.hour < 24 ∧ t.minute < 60 ∧ t.second < 60

instance (t : DateTime) : Decidable t.Valid := by unfold DateTime.Valid; infer_instance

/-- The next second. -/
def DateTime.tick (t : DateTime) : DateTime :=
  if t.second < 59 then { t with second := t.second + 1 }
  else if t.minute < 59 then { t with minute := t.minute + 1, second := 0 }
  else if t.hour < 23 then { t with hour := t.hour + 1, minute := 0, second := 0 }
  else
    let n := nextDay (t.year, t.month, t.day)
    ⟨n.1, n.2.1, n.2.2, 0, 0, 0⟩

/-- `n` seconds later. -/
def DateTime.secondsLater : Nat → DateTime → DateTime
  | 0, t => t
  | n + 1, t => DateTime.secondsLater n t.tick

/-- ASCII digit. -/
def dig (n : Nat) : Nat := 48 + n % 10

/-- Two decimal digits. -/
def two (n : Nat) : Text := [dig (n / 10), dig n]
/-- Four decimal digits. -/
def four (n : Nat) : Text := [dig (n / 1000), dig (n / 100), dig (n / 10), dig n]

/-- English three-letter month name. -/
def monthAbbrev (m : Nat) : Text :=
  ([txt!"Jan", txt!"Feb", txt!"Mar", txt!"Apr", txt!"May", txt!"Jun", txt!"Jul", txt!"Aug", txt!"Sep",
    txt!"Oct", txt!"Nov", txt!"Dec"].getD (m - 1) [])

/-- `YYYY-Mon-DD HH:MM:SS`. -/
def DateTime.format (t : DateTime) : Text :=
  [dig (t.year / 1000), dig (t.year / 100), dig (t.year / 10), dig t.year] ++ txt!"-" ++
  monthAbbrev t.month ++ txt!"-" ++ [dig (t.day / 10), dig t.day] ++ txt!" " ++
  [dig (t.hour / 10), dig t.hour] ++ txt!":" ++ [dig (t.minute / 10), dig t.minute] ++ txt!":" ++
  [dig (t.second / 10), dig t.second]

/-- `YYYY-MM-DD HH:MM:SS`, the form the usage message asks for. -/
def DateTime.argument (t : DateTime) : Text :=
  four t.year ++ txt!"-" ++ two t.month ++ txt!"-" ++ two t.day ++ txt!" " ++
  two t.hour ++ txt!":" ++ two t.minute ++ txt!":" ++ two t.second

example : (DateTime.mk 2019 3 15 7 5 0).argument = txt!"2019-03-15 07:05:00" := by decide
example : (DateTime.mk 2019 3 15 7 5 0).format = txt!"2019-Mar-15 07:05:00" := by decide

end Chrono.Spec
