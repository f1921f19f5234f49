import Verif.Spec.Universe

/-!
# Python values given to constructors and assignments

`Conv E V q c p x a` says that the Python value `x`, given where a value of class `c` with the params `p` is expected, stands for
the value `a`. `V q c p v a` says which instances stand for which values.
-/

namespace Asn1.Spec
open Asn1

/-- The value, or the chosen alternative, has all its required fields. -/
def Whole (E : Env) : ClassId → AVal → Prop
  | c, .seq as => ∀ proto bad isSet fields oid, E.cls c = .seq proto bad isSet fields oid → Complete fields as
  | c, .alt k a => ∀ e t alts f, E.cls c = .choice e t alts → alts[k]? = some f → Whole E f.spec a
  | _, _ => True

/-- The entry of a dict. -/
def valueOf (d : List (String × PyVal)) (name : String) : Option PyVal := (d.find? (fun e => e.1 == name)).map Prod.snd

/-- A SEQUENCE OF CHOICE only takes instances as elements. -/
def AsElement (E : Env) (ch : ClassId) (x : PyVal) : Prop := ∀ e t alts, E.cls ch = .choice e t alts → ∃ v, x = .asn1 v

mutual
/-- See above. With `q` an instance must not have end-of-contents octets of its own. -/
inductive Conv (E : Env) (V : Bool → ClassId → Params → Val → AVal → Prop) : Bool → ClassId → Params → PyVal → AVal → Prop
  | prim {q : Bool} {c : ClassId} {p : Params} {x s : Scalar} {proto : LeafSt} {bad : List Nat} :
      E.cls c = .leaf proto bad → x ≠ .none → Holds proto x s → Conv E V q c p (.scalar x) (.prim s)
  | null {q : Bool} {c : ClassId} {p : Params} {o : Obj Unit} {bad : List Nat} :
      E.cls c = .leaf (.null o) bad → p.default = none → Conv E V q c p (.scalar .none) (.prim .none)
  | seq {q : Bool} {c : ClassId} {p : Params} {d : List (String × PyVal)} {as : List AVal} {proto : Obj Unit} {bad : List Nat} {fields : List Field} :
      E.cls c = .seq proto bad false fields none → FieldsConv E V fields d as → (∃ f ∈ fields, valueOf d f.name ≠ none) →
      (∀ e ∈ d, ∃ f ∈ fields, f.name = e.1) → Conv E V q c p (.dict d) (.seq as)
  | list {q : Bool} {c : ClassId} {p : Params} {xs : List PyVal} {as : List AVal} {proto : Obj Unit} {bad : List Nat} {ch : ClassId} :
      E.cls c = .seqOf proto bad false (some ch) → ListConv E V ch xs as → Conv E V q c p (.list xs) (.list as)
  | alt {q : Bool} {c : ClassId} {p : Params} {n : String} {x : PyVal} {k : Nat} {a : AVal} {alts : List Field} {f : Field} :
      E.cls c = .choice [] none alts → fieldIndex alts n = some k → alts[k]? = some f → Conv E V true f.spec f.params x a →
      Conv E V q c p (.pair n x) (.alt k a)
  | inst {q : Bool} {c : ClassId} {p p0 : Params} {v : Val} {a : AVal} : V q c p0 v a → Whole E c a → Conv E V q c p (.asn1 v) a
/-- What is given for a field (`none` if nothing is given) makes it the value `a`: `None` or nothing stands for an absent
optional field and for the default value; a required field for which nothing is given is absent for the time being. -/
inductive FieldConv (E : Env) (V : Bool → ClassId → Params → Val → AVal → Prop) : Field → Option PyVal → AVal → Prop
  | missing {f : Field} : f.params.default = none → FieldConv E V f none .absent
  | missingDefault {f : Field} {a : AVal} : DefaultIs E f a → FieldConv E V f none a
  | none {f : Field} : f.params.optional = true → FieldConv E V f (some (.scalar .none)) .absent
  | noneDefault {f : Field} {a : AVal} : DefaultIs E f a → FieldConv E V f (some (.scalar .none)) a
  | given {f : Field} {x : PyVal} {a : AVal} : (x = .scalar .none → f.params.optional = false) → Conv E V false f.spec f.params x a →
      Whole E f.spec a → FieldConv E V f (some x) a
/-- A dict with values for the fields. -/
inductive FieldsConv (E : Env) (V : Bool → ClassId → Params → Val → AVal → Prop) : List Field → List (String × PyVal) → List AVal → Prop
  | nil {d : List (String × PyVal)} : FieldsConv E V [] d []
  | cons {f : Field} {fs : List Field} {d : List (String × PyVal)} {a : AVal} {as : List AVal} :
      FieldConv E V f (valueOf d f.name) a → FieldsConv E V fs d as → FieldsConv E V (f :: fs) d (a :: as)
/-- A list with values for the elements. -/
inductive ListConv (E : Env) (V : Bool → ClassId → Params → Val → AVal → Prop) : ClassId → List PyVal → List AVal → Prop
  | nil {ch : ClassId} : ListConv E V ch [] []
  | cons {ch : ClassId} {x : PyVal} {xs : List PyVal} {a : AVal} {as : List AVal} :
      Conv E V false ch {} x a → AsElement E ch x → ListConv E V ch xs as → ListConv E V ch (x :: xs) (a :: as)
end

end Asn1.Spec
