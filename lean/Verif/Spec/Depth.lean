import Verif.Spec.Schema

/-! # How deep a value is nested -/

namespace Asn1.Spec

mutual
/-- Levels of containers and CHOICEs above the innermost value. -/
def AVal.depth : AVal → Nat
  | .absent => 0
  | .prim _ => 0
  | .seq as => AVal.depths as + 1
  | .list as => AVal.depths as + 1
  | .alt _ a => a.depth + 1
/-- The largest depth in a list. -/
def AVal.depths : List AVal → Nat
  | [] => 0
  | a :: as => max a.depth (AVal.depths as)
end

end Asn1.Spec
