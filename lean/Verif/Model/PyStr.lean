import Verif.Model.Py

/-!
# Python string built-ins

`str` is `List Char` (no surrogate code points). ASCII digits only in `int()`: Python also accepts other
Unicode decimal digits there, this is not modelled. The CPython limit of 4300 digits in `int(str)` /
`str(int)` is not modelled.
-/

namespace Asn1

/-- Python `str`. -/
abbrev Str := List Char

/-- Python `str.split(sep)` for a one-character separator. -/
def pySplit (sep : Char) : Str → List Str
  | [] => [[]]
  | c :: cs =>
    if c = sep then [] :: pySplit sep cs
    else match pySplit sep cs with
      | [] => [[c]]
      | p :: ps => (c :: p) :: ps

/-- Python `sep.join(parts)`. -/
def pyJoin {α : Type} (sep : List α) : List (List α) → List α
  | [] => []
  | [x] => x
  | x :: y :: ys => x ++ sep ++ pyJoin sep (y :: ys)

/-- The ASCII digit of `d < 10`. -/
def digitChar (d : Nat) : Char := Char.ofNat (48 + d)

/-- Python `str(n)` of a non-negative integer. -/
def pyStrNat (n : Nat) : Str :=
  if n < 10 then [digitChar n] else pyStrNat (n / 10) ++ [digitChar (n % 10)]
termination_by n
decreasing_by omega

/-- Python `str(n)`. -/
def pyStrInt (n : Int) : Str := if n < 0 then '-' :: pyStrNat n.natAbs else pyStrNat n.toNat

/-- Value of an ASCII decimal digit. -/
def digitVal (c : Char) : Option Nat :=
  if 48 ≤ c.toNat ∧ c.toNat ≤ 57 then some (c.toNat - 48) else none

/-- `c.isspace()` (all code points for which CPython answers True). -/
def pyIsSpace (c : Char) : Bool :=
  let n := c.toNat
  (9 ≤ n && n ≤ 13) || (28 ≤ n && n ≤ 32) || n == 133 || n == 160 || n == 5760 || (8192 ≤ n && n ≤ 8202)
    || n == 8232 || n == 8233 || n == 8239 || n == 8287 || n == 12288

/-- Python `str.lstrip()`. -/
def pyLstrip (s : Str) : Str := s.dropWhile pyIsSpace

/-- Python `str.rstrip()`. -/
def pyRstrip (s : Str) : Str := (s.reverse.dropWhile pyIsSpace).reverse

/-- Python `str.strip()`. -/
def pyStrip (s : Str) : Str := pyRstrip (pyLstrip s)

/-- Digits after the first one: `(_?digit)*`. -/
def digitsGo : Nat → Str → Option Nat
  | acc, [] => some acc
  | acc, c :: cs =>
    if c = '_' then
      match cs with
      | [] => none
      | d :: ds => match digitVal d with
        | some v => digitsGo (acc * 10 + v) ds
        | none => none
    else match digitVal c with
      | some v => digitsGo (acc * 10 + v) cs
      | none => none

/-- `digit(_?digit)*` -/
def digitsVal : Str → Option Nat
  | [] => none
  | c :: cs => match digitVal c with
    | some v => digitsGo v cs
    | none => none

/-- Python `int(s)` for a string: surrounding white space, optional sign, digits with single
underscores between them; `ValueError` otherwise. -/
def pyInt (s : Str) : Py Int :=
  match pyStrip s with
  | '-' :: r => match digitsVal r with
    | some n => .ok (-(n : Int))
    | none => .error .valueError
  | '+' :: r => match digitsVal r with
    | some n => .ok n
    | none => .error .valueError
  | r => match digitsVal r with
    | some n => .ok n
    | none => .error .valueError

end Asn1
