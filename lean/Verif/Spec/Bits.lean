import Verif.Spec.Ber

/-! # Specification: BIT STRING contents (X.690 §8.6) and chunked strings (X.690 §8.6.4, §8.7.3) -/

namespace Asn1.Spec

/-- The eight bits of an octet, most significant first. -/
def byteBits (b : UInt8) : List Bool := (List.range 8).map (fun i => b.toNat.testBit (7 - i))

/-- The bits of an octet string. -/
def bitsOf (bs : List UInt8) : List Bool := bs.flatMap byteBits

/-- Unsigned value of a bit list, most significant first. -/
def valBits : List Bool → Nat
  | [] => 0
  | b :: bs => b.toNat * 2 ^ bs.length + valBits bs

/-- DER contents of a bit list: the number of padding bits (less than 8), then the bits padded with zeros to octets. -/
def BitContents (bits : List Bool) (contents : List UInt8) : Prop :=
  ∃ (pad : Nat) (body : List UInt8), contents = UInt8.ofNat pad :: body ∧ pad < 8 ∧
    bitsOf body = bits ++ List.replicate pad false

/-- BER contents of a primitive bit string: the `pad ≤ 7` last bits are not part of the value; no padding if empty. -/
def BitLeaf (contents : List UInt8) (bits : List Bool) : Prop :=
  ∃ (pad : Nat) (body : List UInt8) (padding : List Bool), contents = UInt8.ofNat pad :: body ∧ pad < 8 ∧
    padding.length = pad ∧ bitsOf body = bits ++ padding

/-- Contents octets of an indefinite-length constructed string of universal type `tag`, together with the sequence
of the contents of its primitive leaves, in order. -/
inductive Chunks (tag : Nat) : List UInt8 → List (List UInt8) → Prop
  | nil : Chunks tag [] []
  | prim {v : TLV} {rest : List UInt8} {ls : List (List UInt8)} :
      Ber 11 v → v.cls = 0 → v.method = 0 → v.tag = tag → Chunks tag rest ls →
      Chunks tag (v.bytes ++ rest) (v.contents :: ls)
  | constructed {v : TLV} {rest : List UInt8} {ks ls : List (List UInt8)} :
      Ber 11 v → v.cls = 0 → v.method = 1 → v.tag = tag → v.trailer = [0, 0] → Chunks tag v.contents ks →
      Chunks tag rest ls → Chunks tag (v.bytes ++ rest) (ks ++ ls)

/-- An encoding `v` of a string whose own tag is (`cls`, `tag`) and whose chunks have the universal tag `utag`:
primitive, or constructed with indefinite length; `ls` are the contents of the primitive leaves in order. -/
def StringEnc (cls tag utag : Nat) (v : TLV) (ls : List (List UInt8)) : Prop :=
  Ber 11 v ∧ v.cls = cls ∧ v.tag = tag ∧
    ((v.method = 0 ∧ ls = [v.contents]) ∨ (v.method = 1 ∧ v.trailer = [0, 0] ∧ Chunks utag v.contents ls))

/-- The bits of a sequence of primitive bit string encodings: all but the last must have no padding. -/
inductive BitJoin : List (List UInt8) → List Bool → Prop
  | nil : BitJoin [] []
  | last {c : List UInt8} {bits : List Bool} : BitLeaf c bits → BitJoin [c] bits
  | cons {body d : List UInt8} {ls : List (List UInt8)} {bits : List Bool} :
      BitJoin (d :: ls) bits → BitJoin ((0 :: body) :: d :: ls) (bitsOf body ++ bits)

/-- Octets that hold the bits followed by less than eight zero bits. -/
def ZeroPadded (bits : List Bool) (bs : List UInt8) : Prop :=
  ∃ pad, pad < 8 ∧ bitsOf bs = bits ++ List.replicate pad false

end Asn1.Spec
