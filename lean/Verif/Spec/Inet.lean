import Verif.Model.Inet

/-! # Text form of IP addresses -/

namespace Asn1.Spec
open Asn1

/-- `b` is the sequence of 16-bit groups `gs` in network order. -/
def Groups (gs : List Nat) (b : Bytes) : Prop :=
  (∀ g ∈ gs, g < 65536) ∧ b = gs.flatMap fun g => [UInt8.ofNat (g / 256), UInt8.ofNat (g % 256)]

/-- The `k` groups from `i` on are all zero. -/
def ZeroRun (gs : List Nat) (i k : Nat) : Prop := ∀ t, t < k → gs[i + t]? = some 0

/-- The first longest run of at least two zero groups. -/
def FirstLongest (gs : List Nat) (i k : Nat) : Prop :=
  2 ≤ k ∧ ZeroRun gs i k ∧ ∀ j m, ZeroRun gs j m → m ≤ k ∧ (m = k → i ≤ j)

/-- Text of eight groups: lower-case hexadecimal without leading zeros, separated by colons, where the first longest
run of at least two zero groups is replaced by `::`. -/
def Ipv6Text (gs : List Nat) (s : Str) : Prop :=
  ((∀ i k, ¬ FirstLongest gs i k) ∧ s = pyJoin [':'] (gs.map pyHexNat)) ∨
  ∃ i k, FirstLongest gs i k ∧
    s = pyJoin [':'] ((gs.take i).map pyHexNat) ++ [':', ':'] ++ pyJoin [':'] ((gs.drop (i + k)).map pyHexNat)

/-- `s` is four decimal numbers separated by dots. -/
def Ipv4Text (b : Bytes) (s : Str) : Prop := s = pyJoin ['.'] (b.map fun x => pyStrNat x.toNat)

end Asn1.Spec
