import Verif.Spec.Format
import Verif.Model.Result
/-!
# Specification vocabulary: reference times and the dates of results, by their accessors
-/
namespace Chrono.Spec
open Chrono Chrono.Boost

/-- The reference time reads `t` (year, month, day, hours, minutes, seconds; a fraction of a second is free). -/
structure RefReads (ref : PTime) (t : DateTime) : Prop where
  date : ref.date.ymd = .ok ⟨t.year, t.month, t.day⟩
  hours : ref.hours = t.hour
  minutes : ref.minutes = t.minute
  seconds : ref.seconds = t.second

/-- The date getters of a components object read `(y, m, d)`. -/
def DateIs (c : Comps) (x : Nat × Nat × Nat) : Prop :=
  c.get .year = x.1 ∧ c.get .month = x.2.1 ∧ c.get .mday = x.2.2

/-- The time getters read `h:mi:s`. -/
def TimeIs (c : Comps) (h mi s : Nat) : Prop := c.get .hour = h ∧ c.get .min = mi ∧ c.get .sec = s

/-- The date of a date-time. -/
def DateTime.date (t : DateTime) : Nat × Nat × Nat := (t.year, t.month, t.day)

/-- Same time of day on another date. -/
def DateTime.onDate (t : DateTime) (x : Nat × Nat × Nat) : DateTime :=
  { t with year := x.1, month := x.2.1, day := x.2.2 }

/-- A call of `execute` returned exactly one result; it starts at offset 0, covers `text`, and satisfies `P`. -/
def Yields (o : Out (List PResult × WordMap)) (text : Text) (P : PResult → Prop) : Prop :=
  ∃ r g, o = .ok ([r], g) ∧ r.index = 0 ∧ r.text = text ∧ P r

end Chrono.Spec
