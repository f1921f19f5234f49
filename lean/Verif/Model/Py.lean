/-!
# Python built-ins used by the modelled code

Byte strings are `List UInt8`, Python integers are `Int` (or `Nat` where the code only produces
non-negative values), exceptions are values of `PyErr` carried by `Except`.
-/

namespace Asn1

/-- Python `bytes`. -/
abbrev Bytes := List UInt8

/-- Python exception classes that the modelled code can raise. Messages are not modelled. -/
inductive PyErr where
  | valueError
  | typeError
  | overflowError
  | indexError
  | keyError
  | attributeError
  | unicodeError
  | structError
  | stopIteration
  | zeroDivision
  /-- not a Python exception: marks a loop that would not terminate (fuel exhausted in the model) -/
  | nonTermination
  deriving DecidableEq, Repr

/-- Result of a Python call: a value or a raised exception. -/
abbrev Py (α : Type) := Except PyErr α

/-- Python 3 `chr_cls(num)` = `bytes([num])` (_types.py:25-26): `ValueError` above 255. -/
def chrCls (n : Nat) : Py Bytes := if n < 256 then .ok [UInt8.ofNat n] else .error .valueError

/-- Python slice `s[i:j]` for `0 ≤ i`, `0 ≤ j`. -/
def slice {α : Type} (s : List α) (i j : Nat) : List α := (s.take j).drop i

/-- Python `int.bit_length` of a non-negative integer. -/
def bitLength (n : Nat) : Nat := if n = 0 then 0 else Nat.log2 n + 1

/-- The `w` low-order base-256 digits of `n`, most significant first. -/
def beBytes : Nat → Nat → Bytes
  | 0, _ => []
  | w + 1, n => beBytes w (n / 256) ++ [UInt8.ofNat (n % 256)]

/-- Python `int.to_bytes(width, byteorder='big', signed=signed)`.
Raises `OverflowError` when the value does not fit (or is negative and `signed` is false). -/
def pyToBytes (value : Int) (width : Nat) (signed : Bool) : Py Bytes :=
  if signed then
    -- fits iff -2^(8w-1) ≤ v < 2^(8w-1)
    if -(256 ^ width : Int) ≤ 2 * value ∧ 2 * value < (256 ^ width : Int) ∧ (width = 0 → value = 0) then
      .ok (beBytes width (value % (256 ^ width : Int)).toNat)
    else .error .overflowError
  else if 0 ≤ value ∧ value < (256 ^ width : Int) then
    .ok (beBytes width value.toNat)
  else .error .overflowError

/-- Python `int.from_bytes(value, 'big', signed=False)`. -/
def pyFromBytesU (bs : Bytes) : Nat := bs.foldl (fun acc b => acc * 256 + b.toNat) 0

/-- Python `int.from_bytes(value, 'big', signed=signed)`. -/
def pyFromBytes (bs : Bytes) (signed : Bool) : Int :=
  match bs with
  | [] => 0
  | b :: _ =>
    if signed && b ≥ 128 then (pyFromBytesU bs : Int) - 256 ^ bs.length
    else pyFromBytesU bs

end Asn1
