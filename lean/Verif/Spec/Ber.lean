import Verif.Spec.Num

/-!
# Specification: the BER tag-length-value grammar (X.690 §8.1), independent of the model

`TLV` is a value cut into identifier+length octets (`header`), contents octets and end-of-contents octets.
`Ber n v` says that `v` is one complete BER value whose indefinite-length nesting needs at most `n` levels.
-/

namespace Asn1.Spec

/-- Base-128 big-endian number with continuation bits, no leading zero group (X.690 §8.1.2.4.2). -/
def Vlq (gs : List UInt8) (n : Nat) : Prop :=
  ∃ init last, gs = init ++ [last] ∧ (∀ g ∈ init, 128 ≤ g.toNat) ∧ last.toNat < 128 ∧
    gs.head? ≠ some 0x80 ∧ val128 gs = n

/-- Identifier octets for class `c`, method `m` (1 = constructed) and tag number `t`:
one octet below 31, otherwise the high-tag-number form. -/
def Ident (bs : List UInt8) (c m t : Nat) : Prop :=
  c < 4 ∧ m < 2 ∧
  ((t < 31 ∧ bs = [UInt8.ofNat (64 * c + 32 * m + t)]) ∨
   (31 ≤ t ∧ ∃ gs, bs = UInt8.ofNat (64 * c + 32 * m + 31) :: gs ∧ Vlq gs t))

/-- Definite-form length octets: short form, or long form with 1..127 subsequent octets. -/
def DefLen (bs : List UInt8) (n : Nat) : Prop :=
  (n < 128 ∧ bs = [UInt8.ofNat n]) ∨
  (∃ ds, ds ≠ [] ∧ ds.length ≤ 127 ∧ bs = UInt8.ofNat (128 + ds.length) :: ds ∧ valU ds = n)

structure TLV where
  cls : Nat
  method : Nat
  tag : Nat
  header : List UInt8
  contents : List UInt8
  trailer : List UInt8
  deriving DecidableEq, Repr

/-- All octets of the value. -/
def TLV.bytes (v : TLV) : List UInt8 := v.header ++ v.contents ++ v.trailer

/-- One complete BER value, definite or indefinite length. -/
inductive Ber : Nat → TLV → Prop
  | definite {n c m t : Nat} {id len contents : List UInt8} :
      Ident id c m t → DefLen len contents.length →
      Ber (n + 1) ⟨c, m, t, id ++ len, contents, []⟩
  | indefinite {n c t : Nat} {id : List UInt8} (vs : List TLV) :
      Ident id c 1 t →
      (∀ v ∈ vs, Ber n v) → (∀ v ∈ vs, ¬ [0, 0] <+: v.bytes) →
      Ber (n + 1) ⟨c, 1, t, id ++ [0x80], (vs.map TLV.bytes).flatten, [0, 0]⟩

end Asn1.Spec
