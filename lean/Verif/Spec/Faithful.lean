import Verif.Model.Core
import Verif.Spec.Ber

/-!
# Encodings that are written out again as they are

`Tidy E spec p v` excludes the elements that `dump()` re-encodes: those whose own length octets end in `0x80`
(indefinite length, and the long form of a length that is 128 modulo 256), elements with further bytes behind the value inside
an explicit wrapper, and values for which only some of several explicit headers are kept.
-/

namespace Asn1.Spec
open Asn1

/-- The length octets do not end in `0x80`. -/
def PlainLength (v : TLV) : Prop := v.header.getLast? ≠ some 0x80

/-- Inside wrappers with the tags `es` (outermost first) is exactly one element, whose length octets are plain. -/
def Tight : List (Nat × Nat) → TLV → Prop
  | [], v => PlainLength v
  | (c, t) :: es, v => v.cls = c → v.tag = t → ∀ w rest, Ber 11 w → v.contents = w.bytes ++ rest → rest = [] ∧ Tight es w

/-- A class of primitive values, or of strings with a parsable payload. -/
def IsPrim : Shape → Prop
  | .leaf _ _ => True
  | .parsable _ _ => True
  | _ => False

/-- A Sequence or Set class. -/
def IsSeq : Shape → Prop
  | .seq _ _ _ _ _ => True
  | _ => False

/-- A class that is neither a Choice nor `Any`. -/
def HasTag : Shape → Prop
  | .choice _ _ _ => False
  | .any => False
  | _ => True

/-- The explicit tags of a value of the class made with the params, innermost first. -/
def explicitOf (E : Env) (c : ClassId) (p : Params) : List (Nat × Nat) :=
  if p.noExplicit then [] else (E.cls c).tagging.2.2.2 ++ p.explicit

/-- The element `v` can be loaded with the spec and params without losing bytes. -/
inductive Tidy (E : Env) : Option ClassId → Params → TLV → Prop
  | free {p : Params} {v : TLV} : p.explicit = [] → PlainLength v → Tidy E none p v
  | freeExplicit {p : Params} {e : Nat × Nat} {v : TLV} : p.explicit = [e] →
      (∀ w rest, Ber 11 w → v.contents = w.bytes ++ rest → rest = [] ∧ PlainLength w) → Tidy E none p v
  | base {c : ClassId} {p : Params} {v : TLV} : HasTag (E.cls c) → Tight (explicitOf E c p).reverse v → Tidy E (some c) p v
  | any {c : ClassId} {p : Params} {v : TLV} : E.cls c = .any → Tidy E none { explicit := explicitOf E c p } v →
      Tidy E (some c) p v
  | choice {c : ClassId} {p : Params} {v : TLV} {e : List (Nat × Nat)} {tagged : Option (Nat × Nat)} {alts : List Field} :
      E.cls c = .choice e tagged alts → explicitOf E c p = [] → (∀ f ∈ alts, Tidy E (some f.spec) f.params v) →
      Tidy E (some c) p v
  | choiceExplicit {c : ClassId} {p : Params} {v : TLV} {e : List (Nat × Nat)} {tagged : Option (Nat × Nat)}
      {alts : List Field} {x : Nat × Nat} :
      E.cls c = .choice e tagged alts → explicitOf E c p = [x] → PlainLength v →
      (∀ w rest, Ber 11 w → v.contents = w.bytes ++ rest → rest = []) →
      (∀ w rest, Ber 11 w → v.contents = w.bytes ++ rest → ∀ f ∈ alts, Tidy E (some f.spec) f.params w) →
      Tidy E (some c) p v

/-- A DEFAULT is only given to fields of primitive types whose class does not depend on other fields, and to no alternative of a Choice;
a new instance of a parsable string class is not marked as one of indefinite length. -/
structure PlainSchema (E : Env) : Prop where
  field : ∀ c proto bad s fields oid, E.cls c = .seq proto bad s fields oid →
    ∀ f ∈ fields, f.params.default.isSome = true → IsPrim (E.cls f.spec)
  replaced : ∀ c proto bad s fields p, E.cls c = .seq proto bad s fields (some p) →
    ∀ f x c', fields[p.value]? = some f → p.choose x = .ok (.field c') → f.params.default = none
  alt : ∀ c e t alts, E.cls c = .choice e t alts → ∀ f ∈ alts, f.params.default = none
  str : ∀ c proto b, E.cls c = .parsable proto b → proto.indefinite = false

/-- No alternative of a Choice has a DEFAULT, and a new instance of a parsable string class is not marked as one of indefinite
length. -/
structure Regular (E : Env) : Prop where
  alt : ∀ c e t alts, E.cls c = .choice e t alts → ∀ f ∈ alts, f.params.default = none
  str : ∀ c proto b, E.cls c = .parsable proto b → proto.indefinite = false

end Asn1.Spec
