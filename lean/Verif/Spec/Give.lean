import Verif.Spec.Enc
import Verif.Spec.Der
import Verif.Spec.SetOf
import Verif.Spec.Given

/-!
# Building values of all kinds of types from Python values

`Gives E U c x b n`: the Python value `x`, given to the class `c`, stands for the value that is read as `n`; `b` is what the value is made of,
apart from its tags. `DerElement E c p b t`: with the tagging `p` its DER encoding is the element `t`.

What can be given: the values of a primitive class; a dict of the fields of a SEQUENCE or SET, in which optional fields and fields with a default
value may be missing or `None`; a list of the elements of a SEQUENCE OF or SET OF; the pair of name and value of an alternative of a CHOICE, where the
value may be an instance; for a field or list element of a CHOICE also just an instance of an alternative without tags of its own; bytes
for a string that may hold an encoding, or the value inside it where another field tells its class; an instance made in one of these ways. For the value
inside a string also an instance that has been loaded, and an instance of the string class that holds the octets.
-/

namespace Asn1.Spec
open Asn1

/-- A value without its tags: contents octets, primitive (0) or constructed (1); for a CHOICE the element of the chosen alternative. -/
inductive Piece where
  | octets (method : Nat) (contents : List UInt8)
  | element (t : TLV)

/-- See above. -/
def DerElement (E : Env) (c : ClassId) (p : Params) : Piece → TLV → Prop
  | .octets m b, t => ∃ d u, (E.cls c).ident = some d ∧ DerFramed d p t u ∧ u.method = m ∧ u.contents = b
  | .element w, t => DerInside p.explicit.reverse t w

/-- The value `x` given to the primitive class has the contents octets `b`, which are read as `s`. -/
def Written (proto : LeafSt) (x : Scalar) (b : List UInt8) (s : Scalar) : Prop :=
  ∃ st, proto.set x = .ok st ∧ st.base.contents = some b ∧ st.native = .ok (s, st) ∧ Reads proto false b s

/-- `v` is a new instance of the class, `c(x)`. -/
def Built (E : Env) (c : ClassId) (x : PyVal) (v : Val) : Prop := ∃ N, ∀ j ≥ N, (ops E j).construct c {} x = .ok v

/-- `v` is an instance loaded from the encoding `t`. -/
def LoadedFrom (E : Env) (c : ClassId) (t : TLV) (v : Val) : Prop := ∃ N, ∀ j ≥ N, loadVal E (ops E j) c {} t.bytes = .ok v

/-- The elements of a list in the order of a SET OF, each with what it stands for. -/
def InOrder (ps qs : List (TLV × PyVal)) : Prop := qs.Perm ps ∧ qs.Pairwise (fun a b => OctetLe a.1.bytes b.1.bytes)

/-- `g` is an alternative of the CHOICE `c` that is told by the tag of its class. -/
def OwnAlternative (E : Env) (c : ClassId) (g : Field) : Prop :=
  ∃ alts, E.cls c = .choice [] none alts ∧ g ∈ alts ∧ HasTag (E.cls g.spec) ∧ g.params.explicit = [] ∧ g.params.implicit = none

/-- Elements one after the other. -/
def joined (ts : List TLV) : List UInt8 := (ts.map TLV.bytes).flatten

mutual
/-- See above. -/
inductive Gives (E : Env) (U : ClassId → Prop) : ClassId → PyVal → Piece → PyVal → Prop
  | leaf {c : ClassId} {x s : Scalar} {b : List UInt8} {proto : LeafSt} {bad : List Nat} :
      E.cls c = .leaf proto bad → (∀ o, proto ≠ .null o) → x ≠ .none → Written proto x b s → Gives E U c (.scalar x) (.octets 0 b) (.scalar s)
  | null {c : ClassId} {o : Obj Unit} {bad : List Nat} :
      E.cls c = .leaf (.null o) bad → o.contents = some [] → Gives E U c (.scalar .none) (.octets 0 []) (.scalar .none)
  | seq {c : ClassId} {d : List (String × PyVal)} {b : List UInt8} {ns : List PyVal} {proto : Obj Unit} {bad : List Nat} {fields : List Field}
      {oid : Option OidPair} :
      E.cls c = .seq proto bad false fields oid → FieldsGiven E U oid d fields [] b ns → (∃ f ∈ fields, valueOf d f.name ≠ none) →
      (∀ e ∈ d, ∃ f ∈ fields, f.name = e.1) → Gives E U c (.dict d) (.octets 1 b) (.dict (named fields 0 ns))
  | set {c : ClassId} {d : List (String × PyVal)} {ts : List TLV} {ns : List PyVal} {proto : Obj Unit} {bad : List Nat} {fields : List Field} :
      E.cls c = .seq proto bad true fields none → SlotsGiven E U d fields ts ns → (∃ f ∈ fields, valueOf d f.name ≠ none) →
      (∀ e ∈ d, ∃ f ∈ fields, f.name = e.1) →
      Gives E U c (.dict d) (.octets 1 (joined (ts.mergeSort (fun a b => decide (a.tag ≤ b.tag))))) (.dict (named fields 0 ns))
  | list {c ch : ClassId} {xs : List PyVal} {ps : List (TLV × PyVal)} {proto : Obj Unit} {bad : List Nat} :
      E.cls c = .seqOf proto bad false (some ch) → ListGiven E U ch xs ps →
      Gives E U c (.list xs) (.octets 1 (joined (ps.map Prod.fst))) (.list (ps.map Prod.snd))
  | setOf {c ch : ClassId} {xs : List PyVal} {ps qs : List (TLV × PyVal)} {proto : Obj Unit} {bad : List Nat} :
      E.cls c = .seqOf proto bad true (some ch) → ListGiven E U ch xs ps → InOrder ps qs →
      Gives E U c (.list xs) (.octets 1 (joined (qs.map Prod.fst))) (.list (qs.map Prod.snd))
  | choice {c : ClassId} {name : String} {k : Nat} {f : Field} {x : PyVal} {b : Piece} {t : TLV} {n : PyVal} {alts : List Field} :
      E.cls c = .choice [] none alts → alts[k]? = some f → f.name = name → (∀ i g, alts[i]? = some g → g.name = name → i = k) → U f.spec →
      (x = .scalar .none → f.params.default = none) → Gives E U f.spec x b n → DerElement E f.spec f.params b t →
      Gives E U c (.pair name x) (.element t) n
  | choiceInst {c : ClassId} {name : String} {k : Nat} {f : Field} {x : PyVal} {v : Val} {b : Piece} {t : TLV} {n : PyVal} {alts : List Field} :
      E.cls c = .choice [] none alts → alts[k]? = some f → f.name = name → (∀ i g, alts[i]? = some g → g.name = name → i = k) → U f.spec →
      Built E f.spec x v → Gives E U f.spec x b n → DerElement E f.spec f.params b t → Gives E U c (.pair name (.asn1 v)) (.element t) n
  | string {c : ClassId} {b : List UInt8} {o : Obj Bytes} {isBit : Bool} :
      E.cls c = .parsable o isBit → Gives E U c (.scalar (.bytes b)) (.octets 0 (stringContents isBit b)) (.scalar (.bytes b))
/-- The value `x`, given for the field, of which `pick` has been decided, is encoded as `t` and stands for `n`. -/
inductive FieldGiven (E : Env) (U : ClassId → Prop) : Field → Pick → PyVal → TLV → PyVal → Prop
  | plain {f : Field} {pick : Pick} {x : PyVal} {b : Piece} {t : TLV} {n : PyVal} :
      (x = .scalar .none → f.params.optional = false ∧ f.params.default = none) → pickedNested E f pick = none →
      Gives E U (pickedSpec E f pick) x b n → DerElement E (pickedSpec E f pick) f.params b t → FieldGiven E U f pick x t n
  | entry {f : Field} {pick : Pick} {name : String} {x : PyVal} {b : Piece} {t : TLV} {n : PyVal} :
      pickedNested E f pick = none → Gives E U (pickedSpec E f pick) (.pair name x) b n → DerElement E (pickedSpec E f pick) f.params b t →
      FieldGiven E U f pick (.dict [(name, x)]) t n
  | inst {f : Field} {pick : Pick} {x : PyVal} {v : Val} {b : Piece} {t : TLV} {n : PyVal} :
      pickedNested E f pick = none → Built E (pickedSpec E f pick) x v → Gives E U (pickedSpec E f pick) x b n →
      DerElement E (pickedSpec E f pick) f.params b t → FieldGiven E U f pick (.asn1 v) t n
  | alternative {f g : Field} {pick : Pick} {x : PyVal} {v : Val} {b : Piece} {t u : TLV} {n : PyVal} :
      pickedNested E f pick = none → OwnAlternative E (pickedSpec E f pick) g → U g.spec → Built E g.spec x v → Gives E U g.spec x b n →
      DerElement E g.spec g.params b u → DerElement E (pickedSpec E f pick) f.params (.element u) t → FieldGiven E U f pick (.asn1 v) t n
  | payload {f : Field} {d : ClassId} {x : PyVal} {b : Piece} {w t u : TLV} {n : PyVal} {o : Obj Bytes} {isBit : Bool} :
      E.cls f.spec = .parsable o isBit → (∀ e tagged alts, E.cls d ≠ .choice e tagged alts) → d ≠ f.spec →
      (x = .scalar .none → f.params.optional = false) → Gives E U d x b n → DerElement E d {} b w → DerFramed (o.cls, o.tag) f.params t u →
      u.method = 0 → u.contents = stringContents isBit w.bytes → FieldGiven E U f (.value d) x t n
  | payloadInst {f : Field} {d : ClassId} {x : PyVal} {v : Val} {b : Piece} {w t u : TLV} {n : PyVal} {o : Obj Bytes} {isBit : Bool} :
      E.cls f.spec = .parsable o isBit → (∀ e tagged alts, E.cls d ≠ .choice e tagged alts) → d ≠ f.spec → Built E d x v → Gives E U d x b n →
      DerElement E d {} b w → DerFramed (o.cls, o.tag) f.params t u → u.method = 0 → u.contents = stringContents isBit w.bytes →
      FieldGiven E U f (.value d) (.asn1 v) t n
  | payloadLoaded {f : Field} {d : ClassId} {v : Val} {w t u : TLV} {n : PyVal} {o : Obj Bytes} {isBit : Bool} {proto : Obj Unit} {bad : List Nat}
      {isSet : Bool} {fields : List Field} {oid : Option OidPair} :
      E.cls f.spec = .parsable o isBit → E.cls d = .seq proto bad isSet fields oid → LoadedFrom E d w v → Enc E U (some d) none {} w n →
      w.header.getLast? ≠ some 0x80 → DerFramed (o.cls, o.tag) f.params t u → u.method = 0 → u.contents = stringContents isBit w.bytes →
      FieldGiven E U f (.value d) (.asn1 v) t n
  | octets {f : Field} {d : ClassId} {v : Val} {w t u : TLV} {n : PyVal} {o : Obj Bytes} {isBit : Bool} {proto : Obj Unit} {bad : List Nat}
      {isSet : Bool} {fields : List Field} {oid : Option OidPair} :
      E.cls f.spec = .parsable o isBit → E.cls d = .seq proto bad isSet fields oid → Built E f.spec (.scalar (.bytes w.bytes)) v →
      Enc E U (some d) none {} w n → DerFramed (o.cls, o.tag) f.params t u → u.method = 0 → u.contents = stringContents isBit w.bytes →
      FieldGiven E U f (.value d) (.asn1 v) t n
  | any {f : Field} {d : ClassId} {x s : Scalar} {v : Val} {b : List UInt8} {t : TLV} {proto : LeafSt} {bad : List Nat} :
      E.cls f.spec = .any → f.params.explicit = [] → E.universal t.tag = some d → E.cls d = .leaf proto bad → t.cls = 0 → Built E d (.scalar x) v →
      Gives E U d (.scalar x) (.octets 0 b) (.scalar s) → DerElement E d {} (.octets 0 b) t → t.header.getLast? ≠ some 0x80 →
      FieldGiven E U f .same (.asn1 v) t (.scalar s)
/-- The fields of a SEQUENCE are given by the dict. What is written: nothing for an absent field, and nothing for one whose encoding is that of the
default value. `before` are the values of the fields before. -/
inductive FieldsGiven (E : Env) (U : ClassId → Prop) : Option OidPair → List (String × PyVal) → List Field → List PyVal → List UInt8 → List PyVal → Prop
  | nil {oid : Option OidPair} {d : List (String × PyVal)} {before : List PyVal} : FieldsGiven E U oid d [] before [] []
  | given {oid : Option OidPair} {d : List (String × PyVal)} {f : Field} {fs : List Field} {before : List PyVal} {pick : Pick} {x : PyVal} {t : TLV}
      {b : List UInt8} {n : PyVal} {ns : List PyVal} :
      valueOf d f.name = some x → Decides oid before pick → FieldGiven E U f pick x t n → f.params.default = none →
      FieldsGiven E U oid d fs (before ++ [n]) b ns → FieldsGiven E U oid d (f :: fs) before (t.bytes ++ b) (n :: ns)
  | other {oid : Option OidPair} {d : List (String × PyVal)} {f : Field} {fs : List Field} {before : List PyVal} {x y : PyVal} {e : Piece} {t td : TLV}
      {b : List UInt8} {n m : PyVal} {ns : List PyVal} :
      valueOf d f.name = some x → FieldGiven E U f .same x t n → f.params.default = some y → f.params.optional = false → y ≠ .scalar .none →
      Gives E U f.spec y e m → DerElement E f.spec f.params e td → td.bytes ≠ t.bytes → FieldsGiven E U oid d fs (before ++ [n]) b ns →
      FieldsGiven E U oid d (f :: fs) before (t.bytes ++ b) (n :: ns)
  | same {oid : Option OidPair} {d : List (String × PyVal)} {f : Field} {fs : List Field} {before : List PyVal} {x y : PyVal} {e : Piece} {t : TLV}
      {b : List UInt8} {n : PyVal} {ns : List PyVal} :
      valueOf d f.name = some x → FieldGiven E U f .same x t n → f.params.default = some y → f.params.optional = false → y ≠ .scalar .none →
      Gives E U f.spec y e n → DerElement E f.spec f.params e t → DefaultValue E f.spec f.params n → FieldsGiven E U oid d fs (before ++ [n]) b ns →
      FieldsGiven E U oid d (f :: fs) before b (n :: ns)
  | default {oid : Option OidPair} {d : List (String × PyVal)} {f : Field} {fs : List Field} {before : List PyVal} {y : PyVal} {e : Piece} {t : TLV}
      {b : List UInt8} {n : PyVal} {ns : List PyVal} :
      (∀ x, valueOf d f.name = some x → x = .scalar .none) → f.params.default = some y → f.params.optional = false → y ≠ .scalar .none →
      Gives E U f.spec y e n → DerElement E f.spec f.params e t → DefaultValue E f.spec f.params n → FieldsGiven E U oid d fs (before ++ [n]) b ns →
      FieldsGiven E U oid d (f :: fs) before b (n :: ns)
  | absent {oid : Option OidPair} {d : List (String × PyVal)} {f : Field} {fs : List Field} {before : List PyVal} {b : List UInt8} {ns : List PyVal} :
      (∀ x, valueOf d f.name = some x → x = .scalar .none) → f.params.optional = true → f.params.default = none →
      FieldsGiven E U oid d fs (before ++ [.scalar .none]) b ns → FieldsGiven E U oid d (f :: fs) before b (.scalar .none :: ns)
/-- The fields of a SET are all given by the dict; `ts` are the elements of the fields, which are written in the order of the tag numbers (this is the
order of DER if all tags are of the same class). -/
inductive SlotsGiven (E : Env) (U : ClassId → Prop) : List (String × PyVal) → List Field → List TLV → List PyVal → Prop
  | nil {d : List (String × PyVal)} : SlotsGiven E U d [] [] []
  | given {d : List (String × PyVal)} {f : Field} {fs : List Field} {x : PyVal} {t : TLV} {ts : List TLV} {n : PyVal} {ns : List PyVal} :
      valueOf d f.name = some x → FieldGiven E U f .same x t n → f.params.default = none → SlotsGiven E U d fs ts ns →
      SlotsGiven E U d (f :: fs) (t :: ts) (n :: ns)
/-- The elements of a SEQUENCE OF or SET OF: values, or for a CHOICE instances. -/
inductive ListGiven (E : Env) (U : ClassId → Prop) : ClassId → List PyVal → List (TLV × PyVal) → Prop
  | nil {ch : ClassId} : ListGiven E U ch [] []
  | plain {ch : ClassId} {x : PyVal} {xs : List PyVal} {b : Piece} {t : TLV} {n : PyVal} {ps : List (TLV × PyVal)} :
      HasTag (E.cls ch) → Gives E U ch x b n → DerElement E ch {} b t → ListGiven E U ch xs ps →
      ListGiven E U ch (x :: xs) ((t, n) :: ps)
  | inst {ch : ClassId} {x : PyVal} {v : Val} {xs : List PyVal} {b : Piece} {t : TLV} {n : PyVal} {ps : List (TLV × PyVal)} :
      Built E ch x v → Gives E U ch x b n → DerElement E ch {} b t → ListGiven E U ch xs ps → ListGiven E U ch (.asn1 v :: xs) ((t, n) :: ps)
  | alternative {ch : ClassId} {g : Field} {x : PyVal} {v : Val} {xs : List PyVal} {b : Piece} {t : TLV} {n : PyVal} {ps : List (TLV × PyVal)} :
      OwnAlternative E ch g → U g.spec → Built E g.spec x v → Gives E U g.spec x b n → DerElement E g.spec g.params b t → ListGiven E U ch xs ps →
      ListGiven E U ch (.asn1 v :: xs) ((t, n) :: ps)
end

/-- The value of the field decides about another one: a field of a primitive class. -/
def Telling (E : Env) (f : Field) : Prop := ∃ proto bad, E.cls f.spec = .leaf proto bad

/-- Further conditions on the classes: what decides about the class of a field is a primitive field of the same SEQUENCE or of a
SEQUENCE in an untagged field; the field decided about has no default value. Container classes have no contents of their own. The fields of a SET are of types with one tag. -/
structure Makable (E : Env) (U : ClassId → Prop) : Prop where
  pair : ∀ c proto bad isSet fields p, U c → E.cls c = .seq proto bad isSet fields (some p) →
    (∀ f, fields[p.value]? = some f → f.params.default = none) ∧
    ∃ f, fields[p.oid]? = some f ∧ (p.sub = none → Telling E f) ∧ ∀ k, p.sub = some k →
      f.params.explicit = [] ∧ f.params.implicit = none ∧ f.params.default = none ∧ f.params.optional = false ∧
        ∃ proto bad fs oid g, E.cls f.spec = .seq proto bad false fs oid ∧ fs[k]? = some g ∧ Telling E g ∧ ∀ q, oid = some q → q.value ≠ k
  empty : ∀ c, U c → (∀ proto bad isSet fields oid, E.cls c = .seq proto bad isSet fields oid → proto.contents = none) ∧
    ∀ proto bad isSet ch, E.cls c = .seqOf proto bad isSet ch → proto.contents = none
  set : ∀ c proto bad fields oid, U c → E.cls c = .seq proto bad true fields oid →
    ∀ f ∈ fields, HasTag (E.cls f.spec) ∧ f.params.explicit = []

end Asn1.Spec
