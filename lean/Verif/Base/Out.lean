/-!
# Outcomes of running a piece of the C++ program

A C++ call either returns a value, throws, runs into undefined behaviour, or asks a library for
something the model does not specify. `Out α` makes the four (and non-termination) distinct values,
so that theorems can speak about exceptions and undefined behaviour.
-/
namespace Chrono

/-- The exception classes that the modelled code can throw.  In C++ all of them but `regexError` and `badCast`
derive from `std::logic_error` (`bad_year`, `bad_month`, `bad_day_of_month` of Boost derive from
`std::out_of_range`). -/
inductive Exc where
  | outOfRange        -- std::out_of_range (substr, stoi, stof)
  | invalidArgument   -- std::invalid_argument (stoi, stof)
  | badYear           -- boost::gregorian::bad_year
  | badMonth          -- boost::gregorian::bad_month
  | badDayOfMonth     -- boost::gregorian::bad_day_of_month
  | regexError        -- std::regex_error
  | badCast           -- boost::bad_lexical_cast (time_from_string)
  deriving DecidableEq, Repr

/-- `catch (std::out_of_range&)` catches exactly these. -/
def Exc.isOutOfRange : Exc → Bool
  | .outOfRange | .badYear | .badMonth | .badDayOfMonth => true
  | .invalidArgument | .regexError | .badCast => false

/-- `catch (std::logic_error&)` catches exactly these. -/
def Exc.isLogicError : Exc → Bool
  | .regexError | .badCast => false
  | _ => true

/-- Outcome of a C++ computation. -/
inductive Out (α : Type) where
  | ok (a : α)        -- returns normally
  | exn (e : Exc)     -- throws
  | ub                -- undefined behaviour was executed
  | unspec            -- result depends on library behaviour outside the model (see DESIGN.md)
  | diverge           -- the loop did not stop (proved impossible, see C14)
  deriving DecidableEq, Repr

namespace Out

@[simp] def bind {α β : Type} (x : Out α) (f : α → Out β) : Out β :=
  match x with
  | ok a => f a
  | exn e => exn e
  | ub => ub
  | unspec => unspec
  | diverge => diverge

instance : Monad Out where
  pure := ok
  bind := bind

@[simp] theorem pure_eq {α : Type} (a : α) : (pure a : Out α) = ok a := rfl
@[simp] theorem bind_ok {α β : Type} (a : α) (f : α → Out β) : (ok a >>= f) = f a := rfl
@[simp] theorem bind_exn {α β : Type} (e : Exc) (f : α → Out β) : (exn e >>= f) = exn e := rfl
@[simp] theorem bind_ub {α β : Type} (f : α → Out β) : ((ub : Out α) >>= f) = ub := rfl
@[simp] theorem bind_unspec {α β : Type} (f : α → Out β) : ((unspec : Out α) >>= f) = unspec := rfl
@[simp] theorem bind_diverge {α β : Type} (f : α → Out β) : ((diverge : Out α) >>= f) = diverge := rfl

theorem bind_eq_ok {α β : Type} {x : Out α} {f : α → Out β} {b : β} :
    (x >>= f) = ok b ↔ ∃ a, x = ok a ∧ f a = ok b := by
  cases x <;> simp

/-- The run ended by returning a value. -/
def isOk {α : Type} : Out α → Bool
  | ok _ => true
  | _ => false

/-- The run ended by throwing. -/
def isExn {α : Type} : Out α → Bool
  | exn _ => true
  | _ => false

end Out
end Chrono
