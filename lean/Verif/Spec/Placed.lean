import Verif.Spec.Schema

/-! # Which elements belong to which fields of a SEQUENCE -/

namespace Asn1.Spec
open Asn1

/-- The elements are one for each field in declared order, with a tag of the field, except that optional fields and fields with
default may be left out. -/
inductive Placed (E : Env) : List Field → List TLV → Prop
  | nil : Placed E [] []
  | take {f : Field} {fs : List Field} {t : TLV} {ts : List TLV} : OuterTag E f.spec f.params (t.cls, t.tag) → Placed E fs ts →
      Placed E (f :: fs) (t :: ts)
  | skip {f : Field} {fs : List Field} {ts : List TLV} : Field.skippable f = true → Placed E fs ts → Placed E (f :: fs) ts

end Asn1.Spec
