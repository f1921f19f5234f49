import Verif.Model.Util

/-! # (EC)DSA signatures and EC points: `algos.py` `DSASignature`, `keys.py` `_ECPoint` -/

namespace Asn1.Keys
open Asn1

/-- `DSASignature` (algos.py:690-703): the native values of the two `Integer` fields. The SEQUENCE and
its encoding are not part of this model (INTEGER itself is `Model/Integer.lean`). -/
structure DsaSig where
  r : Int
  s : Int
deriving Repr, DecidableEq

/-- `DSASignature.from_p1363` (algos.py:705-720). -/
def fromP1363 (data : Bytes) : DsaSig where
  r := intFromBytes (slice data 0 (data.length / 2))
  s := intFromBytes (slice data (data.length / 2) data.length)

/-- `DSASignature.to_p1363` (algos.py:722-747). `width` is `None` or an `int`; a negative one is below
every required width. -/
def toP1363 (sig : DsaSig) (width : Option Int) : Py Bytes :=
  match intToBytes sig.r with
  | .error e => .error e
  | .ok rBytes =>
    match intToBytes sig.s with
    | .error e => .error e
    | .ok sBytes =>
      let required := max rBytes.length sBytes.length
      match width with
      | none => .ok (fillWidth rBytes required ++ fillWidth sBytes required)
      | some w =>
        if w < required then .error .valueError
        else .ok (fillWidth rBytes w.toNat ++ fillWidth sBytes w.toNat)

/-- `_ECPoint.from_coords` (keys.py:135-161): the contents of the point. `w x` stands for the value of
`int(math.ceil(math.log(x, 2) / 8.0))` at `x ≥ 1`, which is computed in floating point and not modelled
further here; `math.log` raises `ValueError` for `x ≤ 0`. -/
def fromCoords (w : Nat → Nat) (x y : Int) : Py Bytes :=
  if x ≤ 0 then .error .valueError
  else if y ≤ 0 then .error .valueError
  else
    let numBytes := max (w x.toNat) (w y.toNat)
    match intToBytes x (width := some numBytes) with
    | .error e => .error e
    | .ok a =>
      match intToBytes y (width := some numBytes) with
      | .error e => .error e
      | .ok b => .ok ([0x04] ++ a ++ b)

/-- `_ECPoint.to_coords` (keys.py:163-194), on the native value of the point. -/
def toCoords (data : Bytes) : Py (Int × Int) :=
  let first := slice data 0 1
  if first = [0x04] then
    let remaining := slice data 1 data.length
    let fieldLen := remaining.length / 2
    .ok (intFromBytes (slice remaining 0 fieldLen), intFromBytes (slice remaining fieldLen remaining.length))
  else if ¬ (first = [0x02] ∨ first = [0x03]) then .error .valueError
  else .error .valueError

end Asn1.Keys
