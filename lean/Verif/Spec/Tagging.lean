import Verif.Spec.Ber

/-!
# Specification: explicit and implicit tagging (X.690 §8.14), independent of the model

Tags are (class, number) pairs. Lists of explicit tags are innermost first in `Wrapped` and outermost first in `Chain`.
-/

namespace Asn1.Spec

/-- `w` is the encoding `b` inside constructed definite-length wrappers with the given tags, first tag innermost. -/
inductive Wrapped : List (Nat × Nat) → List UInt8 → List UInt8 → Prop
  | nil {b : List UInt8} : Wrapped [] b b
  | snoc {es : List (Nat × Nat)} {b w id len : List UInt8} {c t : Nat} :
      Wrapped es b w → Ident id c 1 t → DefLen len w.length → Wrapped (es ++ [(c, t)]) b (id ++ len ++ w)

/-- `w` is an encoding with the identifier (class, method, tag) and the contents `contents`, inside the wrappers `es`. -/
def Encoded (es : List (Nat × Nat)) (cls method tag : Nat) (contents w : List UInt8) : Prop :=
  ∃ id len, Ident id cls method tag ∧ DefLen len contents.length ∧ Wrapped es (id ++ len ++ contents) w

/-- Descending from `v` through constructed values with the given tags, outermost first, reaches `w`. Each wrapper's
contents begin with the next value. -/
inductive Chain : List (Nat × Nat) → TLV → TLV → Prop
  | nil {v : TLV} : Chain [] v v
  | cons {es : List (Nat × Nat)} {v v' w : TLV} {junk : List UInt8} :
      v.method = 1 → v.contents = v'.bytes ++ junk → Ber 11 v' → Chain es v' w →
      Chain ((v.cls, v.tag) :: es) v w

end Asn1.Spec
