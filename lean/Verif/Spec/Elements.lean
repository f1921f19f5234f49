import Verif.Spec.Ber

/-!
# Contents made of elements

`Elements data vs`: the bytes are the encodings of the elements `vs`, one after the other.
-/

namespace Asn1.Spec

/-- The bytes are the elements one after the other. The bound 11 is the depth of indefinite-length nesting the parser accepts. -/
def Elements (data : List UInt8) (vs : List TLV) : Prop :=
  data = (vs.map TLV.bytes).flatten ∧ ∀ v ∈ vs, Ber 11 v

end Asn1.Spec
