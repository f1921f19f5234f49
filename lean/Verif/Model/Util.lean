import Verif.Model.Py

/-! # `asn1crypto/util.py` integer conversion and `asn1crypto/_int.py` -/

namespace Asn1

/-- `math.ceil(bits / 8) or 1` (util.py:242). The Python code divides in floating point; this is the
exact quotient (they agree for bit counts below 2^53). -/
def byteWidth (bits : Nat) : Nat :=
  if (bits + 7) / 8 = 0 then 1 else (bits + 7) / 8

/-- `int_to_bytes(value, signed=False, width=None)`, Python 3 (util.py:214-243). -/
def intToBytes (value : Int) (signed : Bool := false) (width : Option Nat := none) : Py Bytes :=
  let w : Nat :=
    match width with
    | some w => w
    | none =>
      let bits : Nat :=
        if signed then
          let b : Nat :=
            if value < 0 then bitLength (value + 1).natAbs
            else bitLength value.natAbs
          if b % 8 = 0 then b + 1 else b
        else bitLength value.natAbs
      byteWidth bits
  pyToBytes value w signed

/-- `int_from_bytes(value, signed=False)`, Python 3 (util.py:245-259). -/
def intFromBytes (bs : Bytes) (signed : Bool := false) : Int := pyFromBytes bs signed

/-- `fill_width(bytes_, width)` (_int.py:5-22). The `while` loop prepends one zero byte per
iteration; it runs `width - len(bytes_)` times. -/
def fillWidth (bs : Bytes) (width : Nat) : Bytes :=
  if _h : bs.length < width then fillWidth (0 :: bs) width else bs
termination_by width - bs.length
decreasing_by simp; omega

end Asn1
