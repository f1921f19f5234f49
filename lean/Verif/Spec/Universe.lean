import Verif.Spec.Schema

/-!
# Schemas

`Universe E U` says that the classes in `U` are primitive types, SEQUENCE, SEQUENCE OF and CHOICE types over classes in `U`, with
the tagging that a field definition can express, and that the fields of a SEQUENCE and the alternatives of a CHOICE can be told
apart by their tags.
-/

namespace Asn1.Spec
open Asn1

/-- Names of an OID class: a dict with distinct names, none of which is an OID in dotted form. -/
def OidNames (k : OidClass) : Prop :=
  (k.rev = none ∧ k.bare = false) ∧ ∀ m, k.map = some m → (m.map Prod.fst).Nodup ∧ (m.map Prod.snd).Nodup ∧
    (∀ s ∈ m.map Prod.snd, s ∉ m.map Prod.fst) ∧ ∀ arcs, dottedText arcs ∉ m.map Prod.snd

/-- Primitive classes: the class attributes of a type with the own tag `tg`. A class with named bits is not among them (bits
without name are lost when it is set again). -/
inductive PlainLeaf : LeafSt → Prop
  | boolean {cl tg : Nat} : cl < 4 → PlainLeaf (.boolean { cls := cl, method := 0, tag := tg })
  | integer {cl tg : Nat} {m : Option IntMap} : cl < 4 → (∀ l, m = some l → (l.map Prod.fst).Nodup) →
      PlainLeaf (.integer m { cls := cl, method := 0, tag := tg })
  | enumerated {cl tg : Nat} {m : Option IntMap} : cl < 4 → (∀ l, m = some l → (l.map Prod.fst).Nodup) →
      PlainLeaf (.enumerated m { cls := cl, method := 0, tag := tg })
  | null {cl tg : Nat} : cl < 4 → PlainLeaf (.null { cls := cl, method := 0, tag := tg, contents := some [] })
  | oid {cl tg : Nat} {k : OidClass} : cl < 4 → OidNames k → PlainLeaf (.oid k { cls := cl, method := 0, tag := tg })
  | octets {cl tg : Nat} : cl < 4 → PlainLeaf (.octets { cls := cl, method := 0, tag := tg })
  | chars {cl tg u : Nat} {k : Codec} : cl < 4 → (∀ s c, k.encode s = .ok c → k.decode c = .ok s) →
      PlainLeaf (.chars k u { cls := cl, method := 0, tag := tg })
  | bits {cl tg : Nat} : cl < 4 → PlainLeaf (.bits { cls := cl, method := 0, tag := tg })
  | octetBits {cl tg : Nat} : cl < 4 → PlainLeaf (.octetBits { cls := cl, method := 0, tag := tg })
  | intBits {cl tg : Nat} : cl < 4 → PlainLeaf (.intBits { cls := cl, method := 0, tag := tg })
  | intOctets {cl tg : Nat} : cl < 4 → PlainLeaf (.intOctets { cls := cl, method := 0, tag := tg })

/-- Class attributes of a constructed type with the own tag `tg`. -/
def PlainNode (o : Obj Unit) : Prop := ∃ cl tg, cl < 4 ∧ o = { cls := cl, method := 1, tag := tg }

/-- Tagging that a field definition can express: classes below 4, and not both an explicit and an implicit tag. -/
structure GoodTags (p : Params) : Prop where
  keep : p.noExplicit = false
  explicit : ∀ e ∈ p.explicit, e.1 < 4
  implicit : ∀ e, p.implicit = some e → e.1 < 4
  one : p.explicit = [] ∨ p.implicit = none

/-- `c` can be used with the params `p`: a CHOICE is not tagged, and only a primitive type has a default value. -/
structure GoodUse (E : Env) (U : ClassId → Prop) (c : ClassId) (p : Params) : Prop where
  mem : U c
  tags : GoodTags p
  choice : ∀ e t alts, E.cls c = .choice e t alts → p.explicit = [] ∧ p.implicit = none
  default : ∀ d, p.default = some d → p.optional = false ∧ ∃ proto bad x s, E.cls c = .leaf proto bad ∧ d = .scalar x ∧ x ≠ .none ∧ Holds proto x s

/-- See above. -/
structure Universe (E : Env) (U : ClassId → Prop) : Prop where
  leaf : ∀ c proto bad, U c → E.cls c = .leaf proto bad → bad = [] ∧ PlainLeaf proto
  seq : ∀ c proto bad isSet fields oid, U c → E.cls c = .seq proto bad isSet fields oid →
    bad = [] ∧ isSet = false ∧ oid = none ∧ PlainNode proto ∧ fields ≠ [] ∧ Distinguishable E fields ∧
      ∀ f ∈ fields, GoodUse E U f.spec f.params
  seqOf : ∀ c proto bad isSet ch, U c → E.cls c = .seqOf proto bad isSet ch →
    bad = [] ∧ isSet = false ∧ PlainNode proto ∧ ∃ d, ch = some d ∧ U d
  choice : ∀ c e tagged alts, U c → E.cls c = .choice e tagged alts →
    e = [] ∧ tagged = none ∧ DistinctTags E alts ∧ ∀ f ∈ alts, GoodUse E U f.spec f.params ∧ f.params.default = none ∧ PlainTag E f
  any : ∀ c, U c → E.cls c ≠ .any
  parsable : ∀ c o b, U c → E.cls c ≠ .parsable o b

end Asn1.Spec
