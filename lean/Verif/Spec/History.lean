import Verif.Model.Result
/-!
# Specification vocabulary for C01-C07: histories of calls on one object
-/
namespace Chrono.Spec
open Chrono

/-- The eight public components of `ParsedComponents` (result.hpp:27-44). -/
inductive Component where
  | year | month | mday | wday | hour | min | sec | tzoffset
  deriving DecidableEq, Repr

/-- The name a caller passes to `implyComponent` / `isCertain`. -/
def Component.name : Component → Text
  | .year => txt!"year" | .month => txt!"month" | .mday => txt!"mday" | .wday => txt!"wday"
  | .hour => txt!"hour" | .min => txt!"min" | .sec => txt!"sec" | .tzoffset => txt!"tzoffset"

/-- The map key that the setter and the getter of that component use. -/
def Component.key : Component → Key
  | .year => .year | .month => .month | .mday => .mday | .wday => .wday
  | .hour => .hour | .min => .min | .sec => .sec | .tzoffset => .tzoffset

/-- A call on a `ParsedComponents`: `setX(v)` or `implyComponent(name, v)`. -/
inductive CompCall where
  | set (c : Component) (v : Int)
  | imply (name : Text) (v : Int)

/-- Perform a call. -/
def CompCall.run (x : Comps) : CompCall → Comps
  | .set c v => x.set c.key v
  | .imply n v => x.implyName n v

/-- The object after a history of calls on a default-constructed one. -/
def afterCalls (h : List CompCall) : Comps := h.foldl CompCall.run Comps.empty

/-- Arguments of the `setX` calls for `c`, in order. -/
def setArgs (c : Component) (h : List CompCall) : List Int :=
  h.filterMap (fun | .set c' v => if c' = c then some v else none | .imply _ _ => none)

/-- Arguments of the `implyComponent` calls for `c`, in order. -/
def implyArgs (c : Component) (h : List CompCall) : List Int :=
  h.filterMap (fun | .imply n v => if n = c.name then some v else none | .set _ _ => none)

/-- What the getter of `c` should return: last assigned value, else last implied value, else 0. -/
def expectedValue (c : Component) (h : List CompCall) : Int :=
  match (setArgs c h).getLast? with
  | some v => v
  | none =>
    match (implyArgs c h).getLast? with
    | some v => v
    | none => 0

/-- A call on a `ParsedResult` that concerns tags. `toDate()` reads the time-zone tag. -/
inductive TagCall where
  | set (t : Tag)
  | get (t : Tag)
  deriving DecidableEq

def TagCall.run (r : PResult) : TagCall → PResult
  | .set t => r.setTag t
  | .get t => r.touchTag t

/-- The result object after a history of tag calls. -/
def afterTagCalls (r : PResult) (h : List TagCall) : PResult := h.foldl TagCall.run r

/-- The tag a call mentions. -/
def TagCall.tag : TagCall → Tag
  | .set t => t
  | .get t => t

end Chrono.Spec
