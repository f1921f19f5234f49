/-!
# The order of octet strings

Octet strings are compared at the first position where they differ; a proper prefix comes first.
-/

namespace Asn1.Spec

/-- `a` comes before `b` or is equal to it. -/
def OctetLe (a b : List UInt8) : Prop :=
  a <+: b ∨ ∃ (pre as bs : List UInt8) (x y : UInt8), a = pre ++ x :: as ∧ b = pre ++ y :: bs ∧ x < y

/-- `ws` are the octet strings `vs` in ascending order, none lost and none added. -/
def Ascending (vs ws : List (List UInt8)) : Prop := ws.Perm vs ∧ ws.Pairwise OctetLe

end Asn1.Spec
