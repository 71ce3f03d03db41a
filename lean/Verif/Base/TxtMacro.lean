import Lean
/-!
`txt!"..."` elaborates to the explicit list of the UTF-8 byte codes of a string literal;
 raw literals `r"..."` work as in C++, and adjacent literals are concatenated as in C++.
It is notation only: the kernel sees the numerals.
-/
namespace Chrono

open Lean Elab Term Meta in
elab:max "txt!" ss:str+ : term => do
  let bytes := (ss.map (fun s => s.getString.toUTF8.toList)).toList.flatten.map
    (fun b => mkNatLit b.toNat)
  mkListLit (mkConst ``Nat) bytes

example : txt!"aZ 1" = [97, 90, 32, 49] := rfl
example : txt! r"\d" = [92, 100] := rfl
example : txt! r"\d" "a" = [92, 100, 97] := rfl

end Chrono
