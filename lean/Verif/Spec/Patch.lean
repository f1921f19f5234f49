import Verif.Spec.Give
import Verif.Spec.History

/-!
# Changing parts of a loaded structure

A loaded structure that is being changed is described by what is to be written for each part (`Doc`): the element as it was loaded, the DER encoding
of the value assigned, nothing, or, for a SEQUENCE, SEQUENCE OF or SET OF in which something was changed, such a description for each part. `DocBytes`
gives the octets written, `DocEdit` says what an assignment, a deletion, appending or a change inside a part does to the description.
-/

namespace Asn1.Spec
open Asn1

/-- What is to be written for a part of the structure. -/
inductive Doc where
  /-- The element as it was loaded, of the class `c`; `nested` is the class of what is inside a string. -/
  | loaded (c : ClassId) (nested : Option ClassId) (t : TLV)
  /-- The element that encodes an assigned value. -/
  | given (t : TLV)
  /-- Nothing: an absent field, or one with its default value. -/
  | out
  /-- A SEQUENCE with these fields. -/
  | seq (c : ClassId) (ds : List Doc)
  /-- A SEQUENCE OF or SET OF with these elements. -/
  | list (c : ClassId) (ds : List Doc)

/-- The octets of a part that is written as it is. -/
def Doc.plain : Doc → Option (List UInt8)
  | .loaded _ _ t => some t.bytes
  | .given t => some t.bytes
  | .out => some []
  | .seq _ _ => none
  | .list _ _ => none

mutual
/-- The octets to be written: what was changed gets new headers, in the shortest form, around its parts. The elements of a SET OF are put in ascending
order. -/
inductive DocBytes (E : Env) : Params → Doc → List UInt8 → Prop
  | plain {p : Params} {d : Doc} {b : List UInt8} : d.plain = some b → DocBytes E p d b
  | seq {p : Params} {c : ClassId} {ds : List Doc} {t u : TLV} {proto : Obj Unit} {bad : List Nat} {fields : List Field} {oid : Option OidPair} :
      E.cls c = .seq proto bad false fields oid → DerFramed (proto.cls, proto.tag) p t u → u.method = 1 → FieldsBytes E fields ds u.contents →
      DocBytes E p (.seq c ds) t.bytes
  | list {p : Params} {c ch : ClassId} {ds : List Doc} {t u : TLV} {bs : List (List UInt8)} {proto : Obj Unit} {bad : List Nat} :
      E.cls c = .seqOf proto bad false (some ch) → DerFramed (proto.cls, proto.tag) p t u → u.method = 1 → EachBytes E ds bs →
      u.contents = bs.flatten → DocBytes E p (.list c ds) t.bytes
  | setOf {p : Params} {c ch : ClassId} {ds : List Doc} {t u : TLV} {bs cs : List (List UInt8)} {proto : Obj Unit} {bad : List Nat} :
      E.cls c = .seqOf proto bad true (some ch) → DerFramed (proto.cls, proto.tag) p t u → u.method = 1 → EachBytes E ds bs → Ascending bs cs →
      u.contents = cs.flatten → DocBytes E p (.list c ds) t.bytes
/-- The fields one after the other. -/
inductive FieldsBytes (E : Env) : List Field → List Doc → List UInt8 → Prop
  | nil : FieldsBytes E [] [] []
  | cons {f : Field} {fs : List Field} {d : Doc} {ds : List Doc} {b bs : List UInt8} :
      DocBytes E f.params d b → FieldsBytes E fs ds bs → FieldsBytes E (f :: fs) (d :: ds) (b ++ bs)
/-- Each of the elements. -/
inductive EachBytes (E : Env) : List Doc → List (List UInt8) → Prop
  | nil : EachBytes E [] []
  | cons {d : Doc} {ds : List Doc} {b : List UInt8} {bs : List (List UInt8)} : DocBytes E {} d b → EachBytes E ds bs → EachBytes E (d :: ds) (b :: bs)
end

/-- The field at this position is the one whose class is decided about. -/
def Decided (oid : Option OidPair) (k : Nat) : Prop := ∃ q, oid = some q ∧ q.value = k

/-- The field at this position, or a part of it, decides about the class of another one. -/
def Decider (oid : Option OidPair) (k : Nat) : Prop := ∃ q, oid = some q ∧ q.oid = k

/-- The innermost element of `t` has a definite length, whose last octet is not 0x80 (the code takes such a header for one of indefinite length). -/
def Definite (E : Env) (c : ClassId) (p : Params) (t : TLV) : Prop :=
  ∃ d u, (E.cls c).ident = some d ∧ Framed d p t u ∧ u.header.getLast? ≠ some 0x80

/-- The contents octets `b` of a loaded SEQUENCE are those of its fields `ds`. Fields with a default value are either left out or have another one.
`before` are the values of the fields before. -/
inductive FieldsOpen (E : Env) (U : ClassId → Prop) : Option OidPair → List Field → List PyVal → List UInt8 → List Doc → Prop
  | nil {oid : Option OidPair} {before : List PyVal} : FieldsOpen E U oid [] before [] []
  | present {oid : Option OidPair} {f : Field} {fs : List Field} {before : List PyVal} {pick : Pick} {t : TLV} {b : List UInt8} {n : PyVal} {ds : List Doc} :
      Decides oid before pick → Enc E U (some (pickedSpec E f pick)) (pickedNested E f pick) f.params t n → f.params.default = none →
      (Decider oid before.length → Definite E f.spec f.params t) → FieldsOpen E U oid fs (before ++ [n]) b ds →
      FieldsOpen E U oid (f :: fs) before (t.bytes ++ b) (.loaded (pickedSpec E f pick) (pickedNested E f pick) t :: ds)
  | other {oid : Option OidPair} {f : Field} {fs : List Field} {before : List PyVal} {t td : TLV} {b : List UInt8} {e : Piece} {y n m : PyVal}
      {ds : List Doc} :
      ¬ Decider oid before.length → ¬ Decided oid before.length → Enc E U (some f.spec) none f.params t n → f.params.default = some y →
      f.params.optional = false → y ≠ .scalar .none →
      Gives E U f.spec y e m → DerElement E f.spec f.params e td → td.bytes ≠ t.bytes → FieldsOpen E U oid fs (before ++ [n]) b ds →
      FieldsOpen E U oid (f :: fs) before (t.bytes ++ b) (.loaded f.spec none t :: ds)
  | absent {oid : Option OidPair} {f : Field} {fs : List Field} {before : List PyVal} {b : List UInt8} {ds : List Doc} :
      ¬ Decider oid before.length → f.params.optional = true → f.params.default = none → FieldsOpen E U oid fs (before ++ [.scalar .none]) b ds →
      FieldsOpen E U oid (f :: fs) before b (.out :: ds)
  | default {oid : Option OidPair} {f : Field} {fs : List Field} {before : List PyVal} {b : List UInt8} {td : TLV} {e : Piece} {y n m : PyVal}
      {ds : List Doc} :
      ¬ Decider oid before.length → f.params.default = some y → f.params.optional = false → y ≠ .scalar .none → Gives E U f.spec y e m →
      DerElement E f.spec f.params e td → DefaultValue E f.spec f.params n → FieldsOpen E U oid fs (before ++ [n]) b ds →
      FieldsOpen E U oid (f :: fs) before b (.out :: ds)

/-- The part `d` is a SEQUENCE of the class `c` with the fields `ds`: one that has been changed already, or one as it was loaded. -/
inductive OpensTo (E : Env) (U : ClassId → Prop) : Params → Doc → ClassId → List Doc → Prop
  | seq {p : Params} {c : ClassId} {ds : List Doc} : OpensTo E U p (.seq c ds) c ds
  | loaded {p : Params} {c : ClassId} {t u : TLV} {ds : List Doc} {proto : Obj Unit} {bad : List Nat} {fields : List Field} {oid : Option OidPair} :
      Usable E U c p → p.default = none → E.cls c = .seq proto bad false fields oid → fields ≠ [] → Framed (proto.cls, proto.tag) p t u →
      u.method = 1 → u.header.getLast? ≠ some 0x80 → FieldsOpen E U oid fields [] u.contents ds → OpensTo E U p (.loaded c none t) c ds

/-- The contents octets `b` of a loaded SEQUENCE OF or SET OF are those of its elements `ds`, which are of a type with a tag of its own. -/
inductive ElementsOpen (E : Env) (U : ClassId → Prop) (ch : ClassId) : List UInt8 → List Doc → Prop
  | nil : ElementsOpen E U ch [] []
  | cons {t : TLV} {b : List UInt8} {n : PyVal} {ds : List Doc} : Enc E U (some ch) none {} t n → Definite E ch {} t → ElementsOpen E U ch b ds →
      ElementsOpen E U ch (t.bytes ++ b) (.loaded ch none t :: ds)

/-- The same for lists: the part `d` is a SEQUENCE OF or SET OF of the class `c` with the elements `ds`. -/
inductive ListOpens (E : Env) (U : ClassId → Prop) : Params → Doc → ClassId → List Doc → Prop
  | list {p : Params} {c : ClassId} {ds : List Doc} : ListOpens E U p (.list c ds) c ds
  | loaded {p : Params} {c ch : ClassId} {t u : TLV} {ds : List Doc} {proto : Obj Unit} {bad : List Nat} {isSet : Bool} :
      Usable E U c p → p.default = none → E.cls c = .seqOf proto bad isSet (some ch) → Framed (proto.cls, proto.tag) p t u → u.method = 1 →
      u.header.getLast? ≠ some 0x80 → ElementsOpen E U ch u.contents ds → ListOpens E U p (.loaded c none t) c ds

/-- What the value `x`, assigned to the field, makes of it: its encoding; nothing, if that is the encoding of the default value, or if `None` is assigned
to an optional field or to one with a default value. -/
inductive Assigns (E : Env) (U : ClassId → Prop) (f : Field) : PyVal → Doc → Prop
  | given {x : PyVal} {t : TLV} {n : PyVal} : FieldGiven E U f .same x t n → f.params.default = none → Assigns E U f x (.given t)
  | other {x y : PyVal} {e : Piece} {t td : TLV} {n m : PyVal} :
      FieldGiven E U f .same x t n → f.params.default = some y → f.params.optional = false → y ≠ .scalar .none → Gives E U f.spec y e m →
      DerElement E f.spec f.params e td → td.bytes ≠ t.bytes → Assigns E U f x (.given t)
  | same {x y : PyVal} {e : Piece} {t td : TLV} {n m : PyVal} :
      FieldGiven E U f .same x t n → f.params.default = some y → f.params.optional = false → y ≠ .scalar .none → Gives E U f.spec y e m →
      DerElement E f.spec f.params e td → td.bytes = t.bytes → Assigns E U f x .out
  | reset {y : PyVal} {e : Piece} {td : TLV} {m : PyVal} :
      f.params.default = some y → f.params.optional = false → y ≠ .scalar .none → Gives E U f.spec y e m → DerElement E f.spec f.params e td →
      Assigns E U f (.scalar .none) .out
  | none : f.params.optional = true → f.params.default = none → Assigns E U f (.scalar .none) .out

/-- What item access does to the description of a part. -/
inductive DocEdit (E : Env) (U : ClassId → Prop) : Params → Doc → Edit → Doc → Prop
  | set {p : Params} {c : ClassId} {d d' : Doc} {ds : List Doc} {k : Nat} {x : PyVal} {f : Field} {proto : Obj Unit} {bad : List Nat} {fields : List Field}
      {oid : Option OidPair} :
      OpensTo E U p d c ds → U c → E.cls c = .seq proto bad false fields oid → fields[k]? = some f → ¬ Decided oid k → Assigns E U f x d' →
      DocEdit E U p d (.setField k x) (.seq c (ds.set k d'))
  | delOptional {p : Params} {c : ClassId} {d : Doc} {ds : List Doc} {k : Nat} {f : Field} {proto : Obj Unit} {bad : List Nat} {fields : List Field}
      {oid : Option OidPair} :
      OpensTo E U p d c ds → U c → E.cls c = .seq proto bad false fields oid → fields[k]? = some f → f.params.optional = true → f.params.default = none →
      DocEdit E U p d (.delField k) (.seq c (ds.set k .out))
  | delDefault {p : Params} {c : ClassId} {d d' : Doc} {ds : List Doc} {k : Nat} {f : Field} {proto : Obj Unit} {bad : List Nat} {fields : List Field}
      {oid : Option OidPair} :
      OpensTo E U p d c ds → U c → E.cls c = .seq proto bad false fields oid → fields[k]? = some f → f.params.optional = false →
      f.params.default.isSome = true → Assigns E U f (.scalar .none) d' → DocEdit E U p d (.delField k) (.seq c (ds.set k d'))
  | inside {p : Params} {c : ClassId} {d d1 d2 : Doc} {ds : List Doc} {k : Nat} {e : Edit} {f : Field} {proto : Obj Unit} {bad : List Nat}
      {fields : List Field} {oid : Option OidPair} :
      OpensTo E U p d c ds → U c → E.cls c = .seq proto bad false fields oid → fields[k]? = some f → f.params.default = none → ¬ Decider oid k →
      ds[k]? = some d1 → DocEdit E U f.params d1 e d2 → DocEdit E U p d (.at k e) (.seq c (ds.set k d2))

  | setElement {p : Params} {c ch : ClassId} {d : Doc} {ds : List Doc} {k : Nat} {x n : PyVal} {t : TLV} {proto : Obj Unit} {bad : List Nat} {isSet : Bool} :
      ListOpens E U p d c ds → U c → E.cls c = .seqOf proto bad isSet (some ch) → k < ds.length → ListGiven E U ch [x] [(t, n)] →
      DocEdit E U p d (.setElement k x) (.list c (ds.set k (.given t)))
  | setEnd {p : Params} {c ch : ClassId} {d : Doc} {ds : List Doc} {x n : PyVal} {t : TLV} {proto : Obj Unit} {bad : List Nat} {isSet : Bool} :
      ListOpens E U p d c ds → U c → E.cls c = .seqOf proto bad isSet (some ch) → ListGiven E U ch [x] [(t, n)] →
      DocEdit E U p d (.setElement ds.length x) (.list c (ds ++ [.given t]))
  | append {p : Params} {c ch : ClassId} {d : Doc} {ds : List Doc} {x n : PyVal} {t : TLV} {proto : Obj Unit} {bad : List Nat} {isSet : Bool} :
      ListOpens E U p d c ds → U c → E.cls c = .seqOf proto bad isSet (some ch) → ListGiven E U ch [x] [(t, n)] →
      DocEdit E U p d (.append x) (.list c (ds ++ [.given t]))
  | delElement {p : Params} {c ch : ClassId} {d : Doc} {ds : List Doc} {k : Nat} {proto : Obj Unit} {bad : List Nat} {isSet : Bool} :
      ListOpens E U p d c ds → U c → E.cls c = .seqOf proto bad isSet (some ch) → k < ds.length →
      DocEdit E U p d (.delElement k) (.list c (ds.eraseIdx k))
  | insideElement {p : Params} {c ch : ClassId} {d d1 d2 : Doc} {ds : List Doc} {k : Nat} {e : Edit} {proto : Obj Unit} {bad : List Nat} {isSet : Bool} :
      ListOpens E U p d c ds → U c → E.cls c = .seqOf proto bad isSet (some ch) → ds[k]? = some d1 → DocEdit E U {} d1 e d2 →
      DocEdit E U p d (.at k e) (.list c (ds.set k d2))

/-- Any number of them, one after the other. -/
inductive DocEdits (E : Env) (U : ClassId → Prop) (p : Params) : Doc → List Edit → Doc → Prop
  | nil {d : Doc} : DocEdits E U p d [] d
  | cons {d d1 d2 : Doc} {e : Edit} {es : List Edit} : DocEdit E U p d e d1 → DocEdits E U p d1 es d2 → DocEdits E U p d (e :: es) d2

/-- They are carried out. -/
def runEdits (E : Env) (r : Ops) : List Edit → Val → Py Val
  | [], v => .ok v
  | e :: es, v => do
    let v ← runEdit E r e v
    runEdits E r es v

end Asn1.Spec
