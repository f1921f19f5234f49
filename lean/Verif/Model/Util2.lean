import Verif.Model.Py

/-! # The Python 2 versions of the integer conversions (util.py:36-116) -/

namespace Asn1

/-- The digits of `'%x' % n`. -/
def hexText (n : Nat) : List Nat :=
  if n < 16 then [n] else hexText (n / 16) ++ [n % 16]
termination_by n
decreasing_by omega

/-- `hex_str = '0' + hex_str` when the length is odd (util.py:67-68) -/
def evenDigits (l : List Nat) : List Nat := if l.length % 2 = 1 then 0 :: l else l

/-- `hex_str.decode('hex')` -/
def decodeHex : List Nat → Bytes
  | a :: b :: l => UInt8.ofNat (16 * a + b) :: decodeHex l
  | _ => []

/-- `ord(output[0:1]) & 0x80` of octets that are not empty -/
def topBit2 : Bytes → Bool
  | b :: _ => b ≥ 128
  | [] => false

/-- `int_to_bytes(value, signed=False, width=None)`, Python 2 (util.py:39-87). The text of a negative number has a sign, which `decode` refuses. -/
def intToBytes2 (value : Int) (signed : Bool := false) (width : Option Nat := none) : Py Bytes :=
  if value = 0 ∧ width = some 0 then .ok []
  else
    let isNeg := signed && decide (value < 0)
    let bits := ((hexText value.natAbs).length + 1) / 2 * 8
    let value := if isNeg then (value + 2 ^ bits) % 2 ^ bits else value
    if value < 0 then .error .typeError
    else
      let output := decodeHex (evenDigits (hexText value.toNat))
      let output := if signed && !isNeg && topBit2 output then 0 :: output else output
      match width with
      | some w =>
        if output.length > w then .error .overflowError
        else .ok (List.replicate (w - output.length) (if isNeg then 0xff else 0) ++ output)
      | none => if isNeg && !topBit2 output then .ok (0xff :: output) else .ok output

/-- The digits of `value.encode('hex')`. -/
def encodeHex : Bytes → List Nat
  | [] => []
  | b :: l => b.toNat / 16 :: b.toNat % 16 :: encodeHex l

/-- `int_from_bytes(value, signed=False)`, Python 2 (util.py:89-116) -/
def intFromBytes2 (bs : Bytes) (signed : Bool := false) : Int :=
  if bs = [] then 0
  else
    let num : Int := ((encodeHex bs).foldl (fun a d => a * 16 + d) 0 : Nat)
    if !signed then num
    else if topBit2 bs then num - 2 ^ (bs.length * 8)
    else num

end Asn1
