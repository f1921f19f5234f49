/-!
# Specification: numeric value of byte strings

Independent of the model: positional value of a big-endian byte string and its two's complement reading.
-/

namespace Asn1.Spec

/-- Unsigned big-endian value: `Σ bᵢ · 256^(n-1-i)`. -/
def valU : List UInt8 → Nat
  | [] => 0
  | b :: bs => b.toNat * 256 ^ bs.length + valU bs

/-- Two's complement value: the top bit of the first byte has weight `-2^(8n-1)`. -/
def valS : List UInt8 → Int
  | [] => 0
  | b :: bs =>
    if b.toNat < 128 then (valU (b :: bs) : Int) else (valU (b :: bs) : Int) - 256 ^ (bs.length + 1)

/-- Base-`128` (7-bit group) value with the high bit of each byte ignored. -/
def val128 : List UInt8 → Nat
  | [] => 0
  | b :: bs => (b.toNat % 128) * 128 ^ bs.length + val128 bs

end Asn1.Spec
