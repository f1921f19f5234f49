import Verif.Spec.Tagging

/-!
# Specification: strings that hold an encoding

An OCTET STRING holds its octets as contents; a BIT STRING of whole octets has a leading octet 0, the number of unused bits.
-/

namespace Asn1.Spec

/-- The contents octets of a string with the octets `b`. -/
def stringContents (isBit : Bool) (b : List UInt8) : List UInt8 := if isBit then 0 :: b else b

/-- `w` is one element; inside the wrappers `es` (innermost first) is a primitive string with the given tag and the octets `b`. -/
def StringElement (es : List (Nat × Nat)) (cls tag : Nat) (isBit : Bool) (b w : List UInt8) : Prop :=
  ∃ v u : TLV, w = v.bytes ∧ Ber 11 v ∧ Chain es.reverse v u ∧ u.cls = cls ∧ u.tag = tag ∧ u.method = 0 ∧
    u.contents = stringContents isBit b

end Asn1.Spec
