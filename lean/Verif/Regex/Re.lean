import Verif.Base.Text
/-!
# Regular expressions: syntax tree and the backtracking executor of libstdc++

`std::regex` with the default ECMAScript grammar, as implemented in libstdc++
(`bits/regex_compiler.tcc`, `bits/regex_executor.tcc`, DFS mode, which is what `std::regex_search` and
`std::regex_match` use unless `__polynomial` is given).

This file models a library, not a file of /repo; the calls are in src/parsers/parsers.cpp:34, 58,
src/utils/utils.cpp:14-81 and in the individual parsers and refiners.
-/
namespace Chrono

/-- `\d`, `\w`, `\s`. -/
inductive ClassK where
  | digit | word | space
  deriving DecidableEq, Repr

def ClassK.test : ClassK → Nat → Bool
  | .digit, c => isDigitB c
  | .word, c => isWordB c
  | .space, c => isSpaceB c

/-- One element of a bracket expression. -/
inductive Item where
  | one (c : Nat)
  | range (lo hi : Nat)
  | cls (k : ClassK) (neg : Bool)
  deriving DecidableEq, Repr

/-- `ic`: the regex was built with `std::regex::icase`. -/
def Item.test (ic : Bool) : Item → Nat → Bool
  | .one d, c => if ic then lowerB c == lowerB d else c == d
  | .range lo hi, c =>
    if ic then (lo ≤ lowerB c && lowerB c ≤ hi) || (lo ≤ upperB c && upperB c ≤ hi)
    else lo ≤ c && c ≤ hi
  | .cls k neg, c => k.test c != neg

/-- A matcher for a single character (`_CharMatcher`, `_BracketMatcher`, `_AnyMatcher`). -/
inductive Single where
  | ch (ic : Bool) (c : Nat)
  | set (ic neg : Bool) (items : List Item)
  | any
  deriving DecidableEq, Repr

/-- Does the matcher accept the byte `c`?  (`.` does not match \n and \r.) -/
def Single.test : Single → Nat → Bool
  | .ch ic d, c => c < 256 && (if ic then lowerB c == lowerB d else c == d)
  | .set ic neg items, c => c < 256 && ((items.any (fun i => i.test ic c)) != neg)
  | .any, c => c < 256 && !(c == 10 || c == 13)

/-- Syntax tree. `x?` is `alt x eps` (lazy: `alt eps x`), `x+` is `seq x (star x)`,
`x{2,3}` is `seq x (seq x (alt x eps))`; this is how libstdc++ builds its automaton. -/
inductive Re where
  | eps
  | one (d : Single)
  | seq (a b : Re)
  | alt (a b : Re)          -- left alternative is tried first
  | star (greedy : Bool) (r : Re)
  | cap (n : Nat) (r : Re)  -- n-th capturing group
  | bol                     -- ^
  | eol                     -- $
  | wb (neg : Bool)         -- \b, \B
  | look (neg : Bool) (r : Re)  -- (?= ), (?! )
  deriving DecidableEq, Repr

/-- State of the executor: offset of the current position in the searched string, the character
before it, the characters from it on, and the capture groups closed so far (latest first) as
(group, start offset, end offset). -/
structure St where
  pos : Nat
  prev : Option Nat
  rest : Text
  caps : List (Nat × Nat × Nat)
  deriving DecidableEq, Repr

/-- `_M_word_boundary`. -/
def St.atWordBoundary (s : St) : Bool :=
  let l := match s.prev with
    | some c => isWordB c
    | none => false
  let r := match s.rest with
    | c :: _ => isWordB c
    | [] => false
  l != r

/-- Consume one character. -/
def St.adv (s : St) (c : Nat) (t : Text) : St := { s with pos := s.pos + 1, prev := some c, rest := t }

/-- Depth-first choice: second alternative only if the first one fails. -/
@[inline] def orElse' {α : Type} (x : Option α) (y : Unit → Option α) : Option α :=
  match x with
  | some a => some a
  | none => y ()

/-- The loop node (`_M_handle_repeat`).  An iteration that consumes nothing is not repeated
(`_M_rep_once_more`); the body of every loop in the program's patterns consumes something, which is
checked in `Verif/Lemmas/Patterns`. `n` bounds the iterations by the remaining length. -/
def starLoop {α : Type} (greedy : Bool) (body : St → (St → Option α) → Option α) :
    Nat → St → (St → Option α) → Option α
  | 0, s, k => k s
  | n + 1, s, k =>
    let more : Unit → Option α := fun _ =>
      body s (fun s' => if s.pos < s'.pos then starLoop greedy body n s' k else none)
    if greedy then orElse' (more ()) (fun _ => k s) else orElse' (k s) more

/-- `_M_dfs`: run `r` from `s`, then the continuation; first success wins. -/
def Re.m {α : Type} : Re → St → (St → Option α) → Option α
  | .eps, s, k => k s
  | .one d, s, k =>
    match s.rest with
    | [] => none
    | c :: t => if d.test c then k (s.adv c t) else none
  | .seq a b, s, k => a.m s (fun s' => b.m s' k)
  | .alt a b, s, k => orElse' (a.m s k) (fun _ => b.m s k)
  | .star g r, s, k => starLoop g r.m s.rest.length s k
  | .cap n r, s, k => r.m s (fun s' => k { s' with caps := (n, s.pos, s'.pos) :: s'.caps })
  | .bol, s, k => if s.prev.isNone then k s else none
  | .eol, s, k => if s.rest.isEmpty then k s else none
  | .wb neg, s, k => if s.atWordBoundary != neg then k s else none
  | .look neg r, s, k =>
    -- the sub-executor (`_M_lookahead`); no pattern of the program has a group, `^` or `\b` inside
    if (Re.m (α := Unit) r s (fun _ => some ())).isSome != neg then k s else none

/-- A successful match (`std::smatch`): start and end offset in the searched string, groups, and the
searched string itself. -/
structure Match where
  start : Nat
  stop : Nat
  caps : List (Nat × Nat × Nat)
  subject : Text
  deriving DecidableEq, Repr

/-- `match.position(0)`. -/
def Match.position (mt : Match) : Nat := mt.start
/-- `match.length(0)`. -/
def Match.length (mt : Match) : Nat := mt.stop - mt.start

/-- Last span recorded for group `n`. -/
def capSpan (n : Nat) : List (Nat × Nat × Nat) → Option (Nat × Nat)
  | [] => none
  | (k, a, b) :: r => if k == n then some (a, b) else capSpan n r

/-- Substring by offsets. -/
def slice (t : Text) (a b : Nat) : Text := (t.drop a).take (b - a)

/-- `match.str(n)`: group 0 is the whole match, an unmatched or non-existing group is "". -/
def Match.str (mt : Match) (n : Nat) : Text :=
  if n = 0 then slice mt.subject mt.start mt.stop
  else match capSpan n mt.caps with
    | some (a, b) => slice mt.subject a b
    | none => []

/-- `match.length(n)` for `n > 0`. -/
def Match.lengthOf (mt : Match) (n : Nat) : Nat := (mt.str n).length

/-- `_M_search`: try every start offset from left to right. Returns start offset and final state. -/
def Re.searchFrom (r : Re) : Option Nat → Nat → Text → Option (Nat × St)
  | prev, pos, t =>
    match r.m ⟨pos, prev, t, []⟩ some with
    | some s => some (pos, s)
    | none =>
      match t with
      | [] => none
      | c :: t' => r.searchFrom (some c) (pos + 1) t'

/-- `std::regex_search(t, match, r)`. -/
def Re.search (r : Re) (t : Text) : Option Match :=
  match r.searchFrom none 0 t with
  | some (p, s) => some { start := p, stop := s.pos, caps := s.caps, subject := t }
  | none => none

/-- `std::regex_match(t, match, r)`: the whole string must match. -/
def Re.fullMatch (r : Re) (t : Text) : Option Match :=
  match r.m ⟨0, none, t, []⟩ (fun s => if s.rest.isEmpty then some s else none) with
  | some s => some { start := 0, stop := s.pos, caps := s.caps, subject := t }
  | none => none

/-- `std::regex_replace(t, r, fmt)` where `fmt` only refers to the match
(`f` gives the replacement): all non-overlapping matches from left to right, the rest copied.
Only used with patterns that do not match the empty string; `n` bounds the number of matches. -/
def Re.replaceAll (r : Re) (f : Match → Text) : Nat → Option Nat → Text → Text
  | 0, _, t => t
  | n + 1, prev, t =>
    match r.searchFrom prev 0 t with
    | none => t
    | some (p, s) =>
      let mt : Match := { start := p, stop := s.pos, caps := s.caps, subject := t }
      if p < s.pos then t.take p ++ f mt ++ r.replaceAll f n s.prev s.rest else t

end Chrono
