import Verif.Spec.Faithful

/-!
# The tags with which an encoding of a type can begin

`OuterTag E c p id`: the outermost identifier of an encoding of class `c`, tagged as the params say, can be `id`.
-/

namespace Asn1.Spec
open Asn1

/-- Outermost (class, tag) of the encodings of a class with given params: the outermost explicit tag, else the implicit
tag, else the tag of the class; an untagged Choice begins like one of its alternatives. -/
inductive OuterTag (E : Env) : ClassId → Params → Nat × Nat → Prop
  | explicit {c : ClassId} {p : Params} {e : Nat × Nat} : (explicitOf E c p).getLast? = some e → OuterTag E c p e
  | implicit {c : ClassId} {p : Params} {e : Nat × Nat} : explicitOf E c p = [] → HasTag (E.cls c) → p.implicit = some e →
      OuterTag E c p e
  | own {c : ClassId} {p : Params} : explicitOf E c p = [] → HasTag (E.cls c) → p.implicit = none →
      OuterTag E c p ((E.cls c).tagging.1, (E.cls c).tagging.2.1)
  | alternative {c : ClassId} {p : Params} {ex : List (Nat × Nat)} {tagged : Option (Nat × Nat)} {alts : List Field} {f : Field}
      {e : Nat × Nat} : explicitOf E c p = [] → E.cls c = .choice ex tagged alts → f ∈ alts → OuterTag E f.spec f.params e →
      OuterTag E c p e

/-- No identifier begins encodings of two different alternatives. -/
def DistinctTags (E : Env) (alts : List Field) : Prop :=
  ∀ (j k : Nat) (f g : Field) (id : Nat × Nat), alts[j]? = some f → alts[k]? = some g → OuterTag E f.spec f.params id → OuterTag E g.spec g.params id → j = k

/-- The alternative is tagged explicitly in the definition of the Choice, or it is of a class with a tag of its own that has no
explicit tags. -/
def PlainTag (E : Env) (f : Field) : Prop :=
  f.params.noExplicit = false ∧ (f.params.explicit ≠ [] ∨ (HasTag (E.cls f.spec) ∧ (E.cls f.spec).tagging.2.2.2 = []))

end Asn1.Spec
