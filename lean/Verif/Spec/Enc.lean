import Verif.Spec.Universe
import Verif.Spec.Elements
import Verif.Spec.Parsable

/-!
# Encodings of values of all types, and what it means to read them

`Enc E U spec nested p t n`: the element `t` is a BER encoding of a value of the class `spec` (`none`: of whatever universal type its tag says), with
the tagging `p`, in which only alternatives of CHOICEs with a class in `U` are used, and the Python value that stands for it is `n`; `nested` is the class of what is inside an OCTET STRING or BIT STRING. All kinds
of types are covered: primitive types, SEQUENCE with optional and DEFAULT fields and with a field whose type depends on another field, SET,
SEQUENCE OF, SET OF, CHOICE, ANY, and strings that hold an encoding.

`Readable E N v n`: the instance `v` can be read, as a whole and part by part, any number of times in any order, and always gives `n`.

`Types E U`: the classes in `U` are sound definitions: fields that may be left out can be told apart from what follows, and so on.
-/

namespace Asn1.Spec
open Asn1

/-! ### Reading -/

/-- The kind of an instance: nothing, an instance of a container class, or some other instance. -/
inductive Form where
  | void
  | node (c : ClassId)
  | other
  deriving DecidableEq

/-- See `Form`. -/
def formOf : Val → Form
  | .void => .void
  | .node c _ _ _ => .node c
  | _ => .other

/-- Only primitive fields have default values. -/
def QuietFields (E : Env) (fields : List Field) : Prop :=
  ∀ f ∈ fields, f.params.default.isSome = true → ∃ proto bad, E.cls f.spec = .leaf proto bad

/-- Reading instances related to a Python value gives that value or the part of it asked for, and leaves related instances; nothing is marked as
changed. `N` levels of recursion are enough. (Items of a class with fields that have a constructed default value are not claimed.) -/
structure Closed (E : Env) (N : Nat) (P : Val → PyVal → Prop) : Prop where
  calm : ∀ {v n}, P v n → v.isMutated = false
  native : ∀ {v n}, P v n → ∀ j ≥ N, ∃ w, (ops E j).native v = .ok (n, w) ∧ P w n ∧ formOf w = formOf v
  field : ∀ {v ns c proto bad isSet fields oid k name m}, P v (.dict ns) → formOf v = .node c → E.cls c = .seq proto bad isSet fields oid →
    QuietFields E fields → ns[k]? = some (name, m) → ∀ j ≥ N, ∃ x w, (ops E j).item v k = .ok (x, w) ∧ P x m ∧ P w (.dict ns) ∧ formOf w = formOf v
  element : ∀ {v ns c proto bad isSet ch k m}, P v (.list ns) → formOf v = .node c → E.cls c = .seqOf proto bad isSet ch →
    ns[k]? = some m → ∀ j ≥ N, ∃ x w, (ops E j).item v k = .ok (x, w) ∧ P x m ∧ P w (.list ns) ∧ formOf w = formOf v

/-- See above. -/
def Readable (E : Env) (N : Nat) (v : Val) (n : PyVal) : Prop := ∃ P : Val → PyVal → Prop, Closed E N P ∧ P v n

/-- A new instance of the class, made with its default value, is read as `n`. -/
def DefaultValue (E : Env) (c : ClassId) (p : Params) (n : PyVal) : Prop :=
  ∃ N v w, (∀ j ≥ N, (ops E j).construct c p (.scalar .none) = .ok v) ∧ (∀ j ≥ N, (ops E j).native v = .ok (n, w)) ∧ Readable E N w n ∧
    formOf v ≠ .void ∧ formOf w = formOf v

/-! ### Encodings -/

/-- `m` is the value `n`, or its field at the position `k`. -/
def PartOf : Option Nat → PyVal → PyVal → Prop
  | none, n, m => m = n
  | some k, n, m => ∃ ns name, n = .dict ns ∧ ns[k]? = some (name, m)

/-- What is decided about the class of the next field, when the fields before it have the values given. -/
def Decides (oid : Option OidPair) (before : List PyVal) (pick : Pick) : Prop :=
  match oid with
  | none => pick = .same
  | some p => if p.value = before.length then ∃ n m, before[p.oid]? = some n ∧ PartOf p.sub n m ∧ p.choose m = .ok pick else pick = .same

/-- The class of a field after the decision. -/
def pickedSpec (E : Env) (f : Field) : Pick → ClassId
  | .same => f.spec
  | .field c => c
  | .value c => match E.cls f.spec with
    | .any => c
    | _ => f.spec

/-- The class of what is inside the field after the decision. -/
def pickedNested (E : Env) (f : Field) : Pick → Option ClassId
  | .value c => match E.cls f.spec with
    | .any => none
    | _ => some c
  | _ => none

/-- The values with their names: those of the fields, positions beyond them. -/
def named (fields : List Field) : Nat → List PyVal → List (String × PyVal)
  | _, [] => []
  | k, n :: ns => (((fields[k]?).map Field.name).getD (toString k), n) :: named fields (k + 1) ns

mutual
/-- See above. -/
inductive Enc (E : Env) (U : ClassId → Prop) : Option ClassId → Option ClassId → Params → TLV → PyVal → Prop
  | leaf {c : ClassId} {p : Params} {t u : TLV} {s : Scalar} {proto : LeafSt} {bad : List Nat} :
      E.cls c = .leaf proto bad → Framed (proto.base.cls, proto.base.tag) p t u → ReadsElement proto u s → Enc E U (some c) none p t (.scalar s)
  | seq {c : ClassId} {p : Params} {t u : TLV} {ns : List PyVal} {proto : Obj Unit} {bad : List Nat} {fields : List Field} {oid : Option OidPair} :
      E.cls c = .seq proto bad false fields oid → fields ≠ [] → Framed (proto.cls, proto.tag) p t u → u.method = 1 →
      FieldsEnc E U oid fields [] u.contents ns → Enc E U (some c) none p t (.dict (named fields 0 ns))
  | openSeq {c : ClassId} {p : Params} {t u : TLV} {ns : List PyVal} {proto : Obj Unit} {bad : List Nat} {oid : Option OidPair} :
      E.cls c = .seq proto bad false [] oid → Framed (proto.cls, proto.tag) p t u → u.method = 1 →
      ListEnc E U none u.contents ns → Enc E U (some c) none p t (.dict (named [] 0 ns))
  | set {c : ClassId} {p : Params} {t u : TLV} {vs : List TLV} {ns : List PyVal} {proto : Obj Unit} {bad : List Nat} {fields : List Field} {oid : Option OidPair} :
      E.cls c = .seq proto bad true fields oid → Framed (proto.cls, proto.tag) p t u → u.method = 1 → Elements u.contents vs →
      (vs.map (fun v => (v.cls, v.tag))).Nodup → (∀ v ∈ vs, ∃ f ∈ fields, OuterTag E f.spec f.params (v.cls, v.tag)) →
      SlotsEnc E U vs fields ns → Enc E U (some c) none p t (.dict (named fields 0 ns))
  | list {c : ClassId} {p : Params} {t u : TLV} {ns : List PyVal} {proto : Obj Unit} {bad : List Nat} {isSet : Bool} {ch : Option ClassId} :
      E.cls c = .seqOf proto bad isSet ch → Framed (proto.cls, proto.tag) p t u → u.method = 1 →
      ListEnc E U ch u.contents ns → Enc E U (some c) none p t (.list ns)
  | choice {c : ClassId} {p : Params} {t u : TLV} {k : Nat} {n : PyVal} {alts : List Field} {f : Field} :
      E.cls c = .choice [] none alts → Ber 11 t → Inside p.explicit.reverse t u → alts[k]? = some f → U f.spec → Enc E U (some f.spec) none f.params u n →
      u.trailer = [] → Enc E U (some c) none p t n
  | any {c : ClassId} {p : Params} {t u : TLV} {n : PyVal} :
      E.cls c = .any → Ber 11 t → Inside p.explicit.reverse t u → Enc E U none none {} u n → Enc E U (some c) none p t n
  | string {c : ClassId} {p : Params} {t u : TLV} {b : List UInt8} {o : Obj Bytes} {isBit : Bool} :
      E.cls c = .parsable o isBit → Framed (o.cls, o.tag) p t u → u.method = 0 → u.contents = stringContents isBit b →
      Enc E U (some c) none p t (.scalar (.bytes b))
  | payload {c d : ClassId} {p : Params} {t u w : TLV} {n : PyVal} {o : Obj Bytes} {isBit : Bool} :
      E.cls c = .parsable o isBit → Framed (o.cls, o.tag) p t u → u.method = 0 → u.contents = stringContents isBit w.bytes →
      Enc E U (some d) none {} w n → Enc E U (some c) (some d) p t n
  | freeLeaf {c : ClassId} {t : TLV} {s : Scalar} {proto : LeafSt} {bad : List Nat} :
      E.universal t.tag = some c → E.cls c = .leaf proto bad → t.cls = 0 → Ber 11 t → ReadsElement proto t s → Enc E U none none {} t (.scalar s)
  | freeSeq {c : ClassId} {t : TLV} {ns : List PyVal} {proto : Obj Unit} {bad : List Nat} {oid : Option OidPair} :
      E.universal t.tag = some c → E.cls c = .seq proto bad false [] oid → t.cls = 0 → t.method = 1 → Ber 11 t → ListEnc E U none t.contents ns →
      Enc E U none none {} t (.dict (named [] 0 ns))
/-- The bytes are the encodings of the fields of a SEQUENCE one after the other; absent fields, and fields that have their default value, may be
left out. `before` are the values of the fields before. -/
inductive FieldsEnc (E : Env) (U : ClassId → Prop) : Option OidPair → List Field → List PyVal → List UInt8 → List PyVal → Prop
  | nil {oid : Option OidPair} {before : List PyVal} : FieldsEnc E U oid [] before [] []
  | present {oid : Option OidPair} {f : Field} {fs : List Field} {before : List PyVal} {pick : Pick} {t : TLV} {b : List UInt8} {n : PyVal} {ns : List PyVal} :
      Decides oid before pick → Enc E U (some (pickedSpec E f pick)) (pickedNested E f pick) f.params t n → FieldsEnc E U oid fs (before ++ [n]) b ns →
      FieldsEnc E U oid (f :: fs) before (t.bytes ++ b) (n :: ns)
  | absent {oid : Option OidPair} {f : Field} {fs : List Field} {before : List PyVal} {b : List UInt8} {ns : List PyVal} :
      f.params.optional = true → f.params.default = none → FieldsEnc E U oid fs (before ++ [.scalar .none]) b ns → FieldsEnc E U oid (f :: fs) before b (.scalar .none :: ns)
  | default {oid : Option OidPair} {f : Field} {fs : List Field} {before : List PyVal} {b : List UInt8} {n : PyVal} {ns : List PyVal} :
      f.params.default.isSome = true → DefaultValue E f.spec f.params n → FieldsEnc E U oid fs (before ++ [n]) b ns →
      FieldsEnc E U oid (f :: fs) before b (n :: ns)
/-- The bytes are the encodings of the elements one after the other. -/
inductive ListEnc (E : Env) (U : ClassId → Prop) : Option ClassId → List UInt8 → List PyVal → Prop
  | nil {ch : Option ClassId} : ListEnc E U ch [] []
  | cons {ch : Option ClassId} {t : TLV} {b : List UInt8} {n : PyVal} {ns : List PyVal} :
      Enc E U ch none {} t n → ListEnc E U ch b ns → ListEnc E U ch (t.bytes ++ b) (n :: ns)
/-- The fields of a SET that has the elements `vs`. -/
inductive SlotsEnc (E : Env) (U : ClassId → Prop) : List TLV → List Field → List PyVal → Prop
  | nil {vs : List TLV} : SlotsEnc E U vs [] []
  | present {vs : List TLV} {f : Field} {fs : List Field} {t : TLV} {n : PyVal} {ns : List PyVal} :
      t ∈ vs → Enc E U (some f.spec) none f.params t n → SlotsEnc E U vs fs ns → SlotsEnc E U vs (f :: fs) (n :: ns)
  | absent {vs : List TLV} {f : Field} {fs : List Field} {ns : List PyVal} :
      (∀ t ∈ vs, ¬ OuterTag E f.spec f.params (t.cls, t.tag)) → f.params.optional = true → SlotsEnc E U vs fs ns →
      SlotsEnc E U vs (f :: fs) (.scalar .none :: ns)
  | default {vs : List TLV} {f : Field} {fs : List Field} {n : PyVal} {ns : List PyVal} :
      (∀ t ∈ vs, ¬ OuterTag E f.spec f.params (t.cls, t.tag)) → f.params.default.isSome = true → DefaultValue E f.spec f.params n →
      SlotsEnc E U vs fs ns → SlotsEnc E U vs (f :: fs) (n :: ns)
end

/-! ### Sound definitions -/

/-- Class attributes of a class with a tag of its own and no other tagging. -/
structure Bare {ν : Type} (o : Obj ν) (m : Nat) : Prop where
  cls : o.cls < 4
  method : o.method = m
  implicit : o.implicit = false
  explicit : o.explicit = []
  header : o.header = none
  trailer : o.trailer = []
  indefinite : o.indefinite = false

/-- A default value of a SEQUENCE says something only about fields that are always there. -/
def Harmless (E : Env) (fields : List Field) (d : PyVal) : Prop :=
  QuietFields E fields ∧ fields ≠ [] ∧ ∃ kvs, d = .dict kvs ∧ (∀ kv ∈ kvs, ∃ f ∈ fields, f.name = kv.1) ∧
    ∀ kv ∈ kvs, ∀ f ∈ fields, f.name = kv.1 → f.params.optional = false ∧ f.params.default = none

/-- `c` can be used with the params `p`: a CHOICE or ANY has no implicit tag and no default value, and the default value can be read. -/
structure Usable (E : Env) (U : ClassId → Prop) (c : ClassId) (p : Params) : Prop where
  mem : U c
  tags : GoodTags p
  untagged : ¬ HasTag (E.cls c) → p.implicit = none ∧ p.default = none
  default : p.default.isSome = true → ∃ n, DefaultValue E c p n
  harmless : ∀ d proto bad isSet fields oid, p.default = some d → E.cls c = .seq proto bad isSet fields oid → p.explicit = [] → Harmless E fields d

/-- Tags with which an encoding can begin; for ANY all. -/
def Begins (E : Env) (c : ClassId) (p : Params) (id : Nat × Nat) : Prop := E.cls c = .any ∨ OuterTag E c p id

/-- Tags with which the next element can begin when these fields remain. -/
def NextBegins (E : Env) : List Field → Nat × Nat → Prop
  | [], _ => False
  | f :: fs, id => Begins E f.spec f.params id ∨ (Field.skippable f = true ∧ NextBegins E fs id)

/-- A field that may be left out begins with no tag with which something behind it can begin. Only the last field may be both optional and with a
default value. -/
def Apart (E : Env) : List Field → Prop
  | [] => True
  | f :: fs => (Field.skippable f = true → ∀ id, Begins E f.spec f.params id → ¬ NextBegins E fs id) ∧
    (f.params.optional = true → f.params.default.isSome = true → fs = []) ∧ Apart E fs

/-- The outcome of a decision makes sense for the field. -/
def PickOk (E : Env) (U : ClassId → Prop) (f : Field) : Pick → Prop
  | .same => True
  | .value c => match E.cls f.spec with
    | .any => Usable E U c f.params
    | .parsable _ _ => Usable E U c {}
    | _ => False
  | .field c => Usable E U c f.params ∧ Field.skippable f = false ∧ ∀ id, Begins E c f.params id → Begins E f.spec f.params id

/-- A dependency between fields makes sense. -/
structure OidOk (E : Env) (U : ClassId → Prop) (fields : List Field) (p : OidPair) : Prop where
  before : p.oid < p.value
  sub : ∀ k f, p.sub = some k → fields[p.oid]? = some f → f.params.default = none ∧
    ∃ proto bad isSet fs oid, E.cls f.spec = .seq proto bad isSet fs oid ∧ QuietFields E fs
  pick : ∀ f, fields[p.value]? = some f → (∀ e ∈ p.specs, PickOk E U f e.2) ∧ (∀ q, p.other = .ok q → PickOk E U f q) ∧
    (Field.skippable f = true → p.sub = none ∧ ∃ q, p.other = .ok q)

/-- See above. -/
structure Types (E : Env) (U : ClassId → Prop) : Prop where
  leaf : ∀ c proto bad, U c → E.cls c = .leaf proto bad → Bare proto.base 0
  seq : ∀ c proto bad isSet fields oid, U c → E.cls c = .seq proto bad isSet fields oid →
    Bare proto 1 ∧ (∀ f ∈ fields, Usable E U f.spec f.params) ∧
      (isSet = false → Apart E fields ∧ ∀ p, oid = some p → OidOk E U fields p) ∧
      (isSet = true → DistinctTags E fields ∧ ∀ f ∈ fields, PlainTag E f ∧ (f.params.default.isSome = true → f.params.optional = false))
  seqOf : ∀ c proto bad isSet ch, U c → E.cls c = .seqOf proto bad isSet ch → Bare proto 1 ∧ ∀ d, ch = some d → Usable E U d {}
  choice : ∀ c e tagged alts, U c → E.cls c = .choice e tagged alts →
    e = [] ∧ tagged = none ∧ DistinctTags E alts ∧ ∀ f ∈ alts, PlainTag E f ∧ (U f.spec → Usable E U f.spec f.params)
  parsable : ∀ c o b, U c → E.cls c = .parsable o b → Bare o 0
  universal : ∀ tag c, E.universal tag = some c → U c

end Asn1.Spec
