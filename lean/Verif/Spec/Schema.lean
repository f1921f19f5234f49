import Verif.Spec.Choice
import Verif.Spec.Oid
import Mathlib.Data.List.Forall2

/-!
# Values of a schema and their encodings

`AVal` is a value as the user thinks of it: a primitive value, a field assignment, a list, or a chosen alternative.
`Dec E c p t a` says that the element `t` is a BER encoding of `a` as a value of class `c` with the tagging `p`.
-/

namespace Asn1.Spec
open Asn1

/-- Values of types made of primitive types, SEQUENCE, SEQUENCE OF and CHOICE. The fields of a SEQUENCE are listed in declared
order, an absent optional field being `absent`; `alt k` is the alternative at position `k`. -/
inductive AVal where
  | absent
  | prim (s : Scalar)
  | seq (fields : List AVal)
  | list (elements : List AVal)
  | alt (k : Nat) (v : AVal)
  deriving Inhabited

mutual
/-- The Python value that stands for it: a dict of the fields, a list; the value alone for a CHOICE. -/
def AVal.native (E : Env) (c : ClassId) : AVal → PyVal
  | .absent => .scalar .none
  | .prim s => .scalar s
  | .seq as => match E.cls c with
    | .seq _ _ _ fields _ => .dict (AVal.natives E fields as)
    | _ => .dict []
  | .list as => match E.cls c with
    | .seqOf _ _ _ (some ch) => .list (AVal.elements E ch as)
    | _ => .list []
  | .alt k a => match E.cls c with
    | .choice _ _ alts => match alts[k]? with
      | some f => a.native E f.spec
      | none => .scalar .none
    | _ => .scalar .none
/-- Field names with the values of the fields. -/
def AVal.natives (E : Env) : List Field → List AVal → List (String × PyVal)
  | f :: fs, a :: as => (f.name, a.native E f.spec) :: AVal.natives E fs as
  | _, _ => []
/-- The elements of a list. -/
def AVal.elements (E : Env) (ch : ClassId) : List AVal → List PyVal
  | [] => []
  | a :: as => a.native E ch :: AVal.elements E ch as
end

/-- Inside constructed elements with the given tags, outermost first, is exactly the element `w`. -/
inductive Inside : List (Nat × Nat) → TLV → TLV → Prop
  | nil {v : TLV} : Inside [] v v
  | cons {es : List (Nat × Nat)} {v v' w : TLV} : v.method = 1 → v.contents = v'.bytes → Ber 11 v' → Inside es v' w →
      Inside ((v.cls, v.tag) :: es) v w

/-- The element `t` has the tagging `p` of a class with the own tag `d`; `u` is what is inside the explicit tags. -/
structure Framed (d : Nat × Nat) (p : Params) (t u : TLV) : Prop where
  ber : Ber 11 t
  inside : Inside p.explicit.reverse t u
  ident : (u.cls, u.tag) = if p.explicit = [] then p.implicit.getD d else d

/-- The contents octets are read as `s`, however often, by the primitive class with the attributes `proto`. A NULL has no
contents octets. -/
def Reads (proto : LeafSt) (indefinite : Bool) (data : List UInt8) (s : Scalar) : Prop :=
  (∀ o, proto = .null o → data = []) ∧
  ∃ st, (proto.map (fun o => { o with
      method := if indefinite then 1 else 0, contents := some data, indefinite := indefinite, native := none })).native = .ok (s, st) ∧
    st.native = .ok (s, st)

/-- The contents of the element are read as `s`: primitive, or a string in constructed indefinite-length form. -/
def ReadsElement (proto : LeafSt) (u : TLV) (s : Scalar) : Prop :=
  (u.method = 0 ∧ Reads proto false u.contents s) ∨
  (u.method = 1 ∧ u.trailer = [0, 0] ∧ proto.constructable = true ∧ Reads proto true u.contents s)

/-- A value `x` given to the primitive class is kept as `s`: it has contents octets that are read as `s`, and `s` has the same
contents octets. -/
def Holds (proto : LeafSt) (x s : Scalar) : Prop :=
  ∃ st st' c, proto.set x = .ok st ∧ st.base.contents = some c ∧ st.native = .ok (s, st) ∧ Reads proto false c s ∧
    proto.set s = .ok st' ∧ st'.base.contents = some c

/-- The field has the default value `a` (defaults of primitive types only). -/
def DefaultIs (E : Env) (f : Field) (a : AVal) : Prop :=
  ∃ proto bad d s, E.cls f.spec = .leaf proto bad ∧ f.params.default = some (.scalar d) ∧ d ≠ .none ∧ a = .prim s ∧ Holds proto d s

/-- All fields that are not optional have a value. -/
def Complete (fields : List Field) (as : List AVal) : Prop :=
  List.Forall₂ (fun f a => a = .absent → f.params.optional = true) fields as

mutual
/-- `t` is an encoding of `a` as a value of class `c` with tagging `p`. -/
inductive Dec (E : Env) : ClassId → Params → TLV → AVal → Prop
  | leaf {c : ClassId} {p : Params} {t u : TLV} {s : Scalar} {proto : LeafSt} {bad : List Nat} :
      E.cls c = .leaf proto bad → Framed (proto.base.cls, proto.base.tag) p t u → ReadsElement proto u s → Dec E c p t (.prim s)
  | seq {c : ClassId} {p : Params} {t u : TLV} {as : List AVal} {proto : Obj Unit} {bad : List Nat} {fields : List Field} :
      E.cls c = .seq proto bad false fields none → Framed (proto.cls, proto.tag) p t u → u.method = 1 →
      FieldsDec E fields u.contents as → Dec E c p t (.seq as)
  | seqOf {c : ClassId} {p : Params} {t u : TLV} {as : List AVal} {proto : Obj Unit} {bad : List Nat} {ch : ClassId} :
      E.cls c = .seqOf proto bad false (some ch) → Framed (proto.cls, proto.tag) p t u → u.method = 1 →
      ListDec E ch u.contents as → Dec E c p t (.list as)
  | choice {c : ClassId} {p : Params} {t : TLV} {k : Nat} {a : AVal} {alts : List Field} {f : Field} :
      E.cls c = .choice [] none alts → p.explicit = [] → alts[k]? = some f → Dec E f.spec f.params t a → t.trailer = [] →
      Dec E c p t (.alt k a)
/-- The bytes are the encodings of the fields one after the other; absent fields, and fields that have their default value, may
be left out. -/
inductive FieldsDec (E : Env) : List Field → List UInt8 → List AVal → Prop
  | nil : FieldsDec E [] [] []
  | present {f : Field} {fs : List Field} {t : TLV} {b : List UInt8} {a : AVal} {as : List AVal} :
      Dec E f.spec f.params t a → FieldsDec E fs b as → FieldsDec E (f :: fs) (t.bytes ++ b) (a :: as)
  | absent {f : Field} {fs : List Field} {b : List UInt8} {as : List AVal} :
      f.params.optional = true → FieldsDec E fs b as → FieldsDec E (f :: fs) b (.absent :: as)
  | default {f : Field} {fs : List Field} {b : List UInt8} {a : AVal} {as : List AVal} :
      DefaultIs E f a → FieldsDec E fs b as → FieldsDec E (f :: fs) b (a :: as)
/-- The bytes are the encodings of the elements one after the other. -/
inductive ListDec (E : Env) : ClassId → List UInt8 → List AVal → Prop
  | nil {ch : ClassId} : ListDec E ch [] []
  | cons {ch : ClassId} {t : TLV} {b : List UInt8} {a : AVal} {as : List AVal} :
      Dec E ch {} t a → ListDec E ch b as → ListDec E ch (t.bytes ++ b) (a :: as)
end

/-- The field may be left out. -/
def Field.skippable (f : Field) : Bool := f.params.optional || f.params.default.isSome

/-- Tags with which the next element can begin when these fields remain. -/
def NextTag (E : Env) : List Field → Nat × Nat → Prop
  | [], _ => False
  | f :: fs, id => OuterTag E f.spec f.params id ∨ (Field.skippable f = true ∧ NextTag E fs id)

/-- A field that may be left out begins with no tag with which something behind it can begin. -/
def Distinguishable (E : Env) : List Field → Prop
  | [] => True
  | f :: fs => (Field.skippable f = true → ∀ id, OuterTag E f.spec f.params id → ¬ NextTag E fs id) ∧ Distinguishable E fs

end Asn1.Spec
