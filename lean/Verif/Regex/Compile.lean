import Verif.Regex.Re
/-!
# From the pattern string to the syntax tree

Models `_Scanner` (`bits/regex_scanner.tcc`) and `_Compiler` (`bits/regex_compiler.tcc`) of libstdc++ for
the ECMAScript grammar. `none` means that the constructor throws `std::regex_error`.
The patterns in `Verif/Model` are the verbatim strings of the sources; this function, and not a
hand-made translation, says what they mean.  Not modelled: `[[:class:]]`, `[[=x=]]`, `[[.x.]]`, `\x`,
`\u`, `\c` and back references (treated as errors; no pattern of the program uses them).
-/
namespace Chrono

inductive Tok where
  | bar | open | openNC | look (neg : Bool) | close
  | star | plus | opt | brace (lo : Nat) (hi : Option Nat)
  | bol | eol | wb (neg : Bool)
  | one (d : Single)
  deriving DecidableEq, Repr

/-- `_M_find_escape`: the control characters `\0 \b \f \n \r \t \v` (`\b` only inside brackets). -/
def ctrlEscape : Nat → Option Nat
  | 48 => some 0
  | 102 => some 12
  | 110 => some 10
  | 114 => some 13
  | 116 => some 9
  | 118 => some 11
  | _ => none

/-- `\d \D \s \S \w \W`. -/
def classEscape : Nat → Option (ClassK × Bool)
  | 100 => some (.digit, false)
  | 68 => some (.digit, true)
  | 115 => some (.space, false)
  | 83 => some (.space, true)
  | 119 => some (.word, false)
  | 87 => some (.word, true)
  | _ => none

/-- Escapes that the model does not translate: `\c \x \u` and back references. -/
def badEscape (c : Nat) : Bool := c == 99 || c == 120 || c == 117 || (49 ≤ c && c ≤ 57)

/-- Contents of a bracket expression after `[` or `[^`; `last` is the cached character
(`_BracketState`: `none` = nothing or end of range, `some none` = a class). Returns the items and the
rest of the pattern. -/
def scanBracket (fuel : Nat) (last : Option (Option Nat)) (acc : List Item) (p : Text) :
    Option (List Item × Text) :=
  match fuel with
  | 0 => none
  | fuel + 1 =>
    let flush : List Item := match last with
      | some (some c) => acc ++ [.one c]
      | _ => acc
    match p with
    | [] => none
    | 93 :: p' => some (flush, p')                       -- ]
    | 45 :: 93 :: p' => some (flush ++ [.one 45], p')     -- -]
    | 45 :: p' =>
      match last with
      | some none => none                               -- class followed by '-': error_range
      | some (some lo) =>
        match p' with
        | 92 :: _ => none                               -- not used by the program
        | hi :: p'' => if lo ≤ hi then scanBracket fuel none (acc ++ [.range lo hi]) p'' else none
        | [] => none
      | none => scanBracket fuel (some (some 45)) acc p'
    | 92 :: c :: p' =>
      match classEscape c with
      | some (k, neg) => scanBracket fuel (some none) (flush ++ [.cls k neg]) p'
      | none =>
        if badEscape c then none
        else scanBracket fuel (some (some ((ctrlEscape c).getD c))) flush p'
    | 92 :: [] => none
    | 91 :: _ => none                                   -- '[' inside brackets: not used by the program
    | c :: p' => scanBracket fuel (some (some c)) flush p'

/-- `{lo}`, `{lo,}`, `{lo,hi}` after the opening brace: (lo, hi (`none` = unbounded), rest). -/
def scanBrace (p : Text) : Option (Nat × Option Nat × Text) :=
  let d1 := digitPrefix p
  if d1.isEmpty then none else
  match p.drop d1.length with
  | 125 :: q => some (digitsVal 0 d1, some (digitsVal 0 d1), q)
  | 44 :: 125 :: q => some (digitsVal 0 d1, none, q)
  | 44 :: q =>
    let d2 := digitPrefix q
    if d2.isEmpty then none else
    match q.drop d2.length with
    | 125 :: q' => if digitsVal 0 d1 ≤ digitsVal 0 d2 then
        some (digitsVal 0 d1, some (digitsVal 0 d2), q') else none
    | _ => none
  | _ => none

/-- The scanner: pattern string to tokens. -/
def scan (ic : Bool) : Nat → Text → Option (List Tok)
  | 0, _ => none
  | _ + 1, [] => some []
  | n + 1, c :: p =>
    let k (t : Tok) (q : Text) : Option (List Tok) := (scan ic n q).map (t :: ·)
    match c with
    | 94 => k .bol p                 -- ^
    | 36 => k .eol p                 -- $
    | 46 => k (.one .any) p          -- .
    | 42 => k .star p
    | 43 => k .plus p
    | 63 => k .opt p
    | 124 => k .bar p
    | 41 => k .close p
    | 40 =>                          -- (
      match p with
      | 63 :: 58 :: q => k .openNC q
      | 63 :: 61 :: q => k (.look false) q
      | 63 :: 33 :: q => k (.look true) q
      | 63 :: _ => none
      | _ => k .open p
    | 91 =>                          -- [
      match p with
      | 94 :: q =>
        match scanBracket p.length none [] q with
        | some (items, q') => k (.one (.set ic true items)) q'
        | none => none
      | _ =>
        match scanBracket (p.length + 1) none [] p with
        | some (items, q') => k (.one (.set ic false items)) q'
        | none => none
    | 123 =>                         -- {
      match scanBrace p with
      | some (lo, hi, q) => k (.brace lo hi) q
      | none => none
    | 92 =>                          -- \
      match p with
      | [] => none
      | 98 :: q => k (.wb false) q   -- \b
      | 66 :: q => k (.wb true) q    -- \B
      | e :: q =>
        match classEscape e with
        | some (kk, neg) => k (.one (.set ic neg [.cls kk false])) q
        | none => if badEscape e then none else k (.one (.ch ic ((ctrlEscape e).getD e))) q
    | _ => k (.one (.ch ic c)) p

/-- What an open parenthesis started. -/
inductive Opener where
  | cap (n : Nat) | nc | look (neg : Bool)
  deriving DecidableEq, Repr

/-- An unfinished group: alternatives already complete (left to right, joined), and the terms of the
current alternative in reverse, each with a flag "is an atom" (only atoms can be quantified). -/
structure Frame where
  opener : Opener
  alts : Option Re
  terms : List (Bool × Re)
  deriving DecidableEq, Repr

/-- Join the terms (given in reverse order). -/
def joinTerms : List (Bool × Re) → Option Re → Re
  | [], none => .eps
  | [], some r => r
  | (_, t) :: ts, none => joinTerms ts (some t)
  | (_, t) :: ts, some r => joinTerms ts (some (.seq t r))

/-- Close the current alternative. -/
def Frame.finish (f : Frame) : Re :=
  match f.alts with
  | none => joinTerms f.terms none
  | some a => .alt a (joinTerms f.terms none)

/-- `n` copies of `r`, then `tail`. -/
def repN (n : Nat) (r : Re) (tail : Option Re) : Option Re :=
  match n with
  | 0 => tail
  | n + 1 =>
    match repN n r tail with
    | none => some r
    | some t => some (.seq r t)

/-- `n` nested optional copies. -/
def optN (g : Bool) (r : Re) : Nat → Option Re
  | 0 => none
  | n + 1 =>
    let inner := match optN g r n with
      | none => r
      | some t => .seq r t
    some (if g then .alt inner .eps else .alt .eps inner)

inductive Quant where
  | star | plus | opt | brace (lo : Nat) (hi : Option Nat)

/-- `_M_quantifier`. -/
def applyQuant (q : Quant) (g : Bool) (r : Re) : Re :=
  match q with
  | .star => .star g r
  | .plus => .seq r (.star g r)
  | .opt => if g then .alt r .eps else .alt .eps r
  | .brace lo none => (repN lo r (some (.star g r))).getD .eps
  | .brace lo (some hi) => (repN lo r (optN g r (hi - lo))).getD .eps

/-- Quantify the last term of the innermost frame; a quantifier after nothing or after an assertion
ends the alternative in libstdc++ and is then reported as `error_paren`. -/
def quantTop (q : Quant) (g : Bool) (fs : List Frame) : Option (List Frame) :=
  match fs with
  | f :: fs' =>
    match f.terms with
    | (true, r) :: ts => some ({ f with terms := (true, applyQuant q g r) :: ts } :: fs')
    | _ => none
  | [] => none

def pushTerm (atom : Bool) (r : Re) (fs : List Frame) : Option (List Frame) :=
  match fs with
  | f :: fs' => some ({ f with terms := (atom, r) :: f.terms } :: fs')
  | [] => none

/-- The compiler, as a stack machine over the tokens; `n` is the number of the next group. -/
def parseToks : List Tok → Nat → List Frame → Option Re
  | [], _, fs =>
    match fs with
    | [f] => some f.finish
    | _ => none                                    -- missing ')': error_paren
  | .star :: .opt :: ts, n, fs => (quantTop .star false fs).bind (parseToks ts n)
  | .star :: ts, n, fs => (quantTop .star true fs).bind (parseToks ts n)
  | .plus :: .opt :: ts, n, fs => (quantTop .plus false fs).bind (parseToks ts n)
  | .plus :: ts, n, fs => (quantTop .plus true fs).bind (parseToks ts n)
  | .opt :: .opt :: ts, n, fs => (quantTop .opt false fs).bind (parseToks ts n)
  | .opt :: ts, n, fs => (quantTop .opt true fs).bind (parseToks ts n)
  | .brace lo hi :: .opt :: ts, n, fs => (quantTop (.brace lo hi) false fs).bind (parseToks ts n)
  | .brace lo hi :: ts, n, fs => (quantTop (.brace lo hi) true fs).bind (parseToks ts n)
  | .bar :: ts, n, fs =>
    match fs with
    | f :: fs' => parseToks ts n ({ f with alts := some f.finish, terms := [] } :: fs')
    | [] => none
  | .open :: ts, n, fs => parseToks ts (n + 1) ({ opener := .cap n, alts := none, terms := [] } :: fs)
  | .openNC :: ts, n, fs => parseToks ts n ({ opener := .nc, alts := none, terms := [] } :: fs)
  | .look neg :: ts, n, fs => parseToks ts n ({ opener := .look neg, alts := none, terms := [] } :: fs)
  | .close :: ts, n, fs =>
    match fs with
    | f :: g :: fs' =>
      let (atom, r) : Bool × Re := match f.opener with
        | .cap i => (true, .cap i f.finish)
        | .nc => (true, f.finish)
        | .look neg => (false, .look neg f.finish)
      parseToks ts n ({ g with terms := (atom, r) :: g.terms } :: fs')
    | _ => none                                    -- unmatched ')': error_paren
  | .bol :: ts, n, fs => (pushTerm false .bol fs).bind (parseToks ts n)
  | .eol :: ts, n, fs => (pushTerm false .eol fs).bind (parseToks ts n)
  | .wb neg :: ts, n, fs => (pushTerm false (.wb neg) fs).bind (parseToks ts n)
  | .one d :: ts, n, fs => (pushTerm true (.one d) fs).bind (parseToks ts n)

/-- `std::regex(p)` (`ic = false`) or `std::regex(p, std::regex::icase)` (`ic = true`);
`none` = throws `std::regex_error`. -/
def compile (ic : Bool) (p : Text) : Option Re :=
  match scan ic (p.length + 1) p with
  | none => none
  | some ts => parseToks ts 1 [{ opener := .nc, alts := none, terms := [] }]

end Chrono
