import Verif.Model.Py

/-! # Byte widths of coordinates -/

namespace Asn1.Spec
open Asn1

/-- What is assumed of `int(math.ceil(math.log(x, 2) / 8.0))` in double precision. For `x` below `2 ^ 4096`
that is not within one part in `2 ^ 32` of a power of 256, the rounding errors do not cross an integer
and the value is the number of bytes of `x`. At 1 and at 256 the two logarithms divide to `0.0` and `8.0`. -/
structure FloatLog (w : Nat → Nat) : Prop where
  between : ∀ x k, x < 2 ^ 4096 → 256 ^ k * (2 ^ 32 + 1) ≤ x * 2 ^ 32 → x * 2 ^ 32 ≤ 256 ^ (k + 1) * (2 ^ 32 - 1) →
    w x = k + 1
  one : w 1 = 0
  byte : w 256 = 1

/-- `⌈log₂ x / 8⌉` without rounding errors: the least `k` with `x ≤ 256 ^ k`. -/
def exactLog (x : Nat) : Nat := (bitLength (x - 1) + 7) / 8

end Asn1.Spec
