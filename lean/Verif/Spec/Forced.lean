import Verif.Spec.Give

/-!
# Encoding again by force

`Forced E U spec nested p t n t' n'`: the element `t` encodes the value `n` of the class `spec` as in `Enc`, and `t'` is the element that
`dump(force=True)` should write for it. `t'` has DER headers and the contents octets that the value has when it is given anew; fields that have
their default value are left out; the elements of a SET OF are in order. `n'` is the value of `t'`: it is `n`, up to the order of the elements of SET OFs.

Three things are not encoded again by the library. The contents of a NULL and of a SEQUENCE of no particular class stay as they are, and so do their
headers unless the last octet is 0x80, as in the indefinite form (`Reheaded`). The octets inside a string stay as they are if nothing tells the class of what is
inside. SETs are left out here: the library cannot encode loaded ones again. Also left out are the last two without a class in more than one explicit tag.

`Forceable E N v n b`: the instance `v` can be read, as a whole and part by part, and encoded again by force, any number of times in any order; the value
is always `n`, and what is written always `b`.
-/

namespace Asn1.Spec
open Asn1

/-- Reading instances related to a value and to bytes gives that value or a part of it, encoding them by force gives the bytes, and both leave
related instances; nothing is marked as changed. `N` levels of recursion are enough. -/
structure Renewing (E : Env) (N : Nat) (P : Val → PyVal → List UInt8 → Prop) : Prop where
  calm : ∀ {v n b}, P v n b → v.isMutated = false
  native : ∀ {v n b}, P v n b → ∀ j ≥ N, ∃ w, (ops E j).native v = .ok (n, w) ∧ P w n b ∧ formOf w = formOf v
  field : ∀ {v ns b c proto bad isSet fields oid k name m}, P v (.dict ns) b → formOf v = .node c → E.cls c = .seq proto bad isSet fields oid →
    ns[k]? = some (name, m) → ∀ j ≥ N, ∃ x w b', (ops E j).item v k = .ok (x, w) ∧ P x m b' ∧ P w (.dict ns) b ∧ formOf w = formOf v
  element : ∀ {v ns b c proto bad isSet ch k m}, P v (.list ns) b → formOf v = .node c → E.cls c = .seqOf proto bad isSet ch →
    ns[k]? = some m → ∀ j ≥ N, ∃ x w b', (ops E j).item v k = .ok (x, w) ∧ P x m b' ∧ P w (.list ns) b ∧ formOf w = formOf v
  force : ∀ {v n b}, P v n b → ∀ j ≥ N, ∃ w, (ops E j).dump v true = .ok (b, w) ∧ P w n b ∧ formOf w = formOf v

/-- See above. -/
def Forceable (E : Env) (N : Nat) (v : Val) (n : PyVal) (b : List UInt8) : Prop :=
  ∃ P : Val → PyVal → List UInt8 → Prop, Renewing E N P ∧ P v n b

/-- DER headers with the given tags, outermost first, around the element `w`. -/
inductive DerAround : List (Nat × Nat) → TLV → TLV → Prop
  | nil {v : TLV} : DerAround [] v v
  | cons {es : List (Nat × Nat)} {v v' w : TLV} : DerHead v → v.method = 1 → v.contents = v'.bytes → DerAround es v' w →
      DerAround ((v.cls, v.tag) :: es) v w

/-- `t`, in which the explicit tags `es` (outermost first) are around `u`, is written as `t'`: unchanged, or with DER headers when the header of `u` ends with
the octet 0x80. -/
def Reheaded (es : List (Nat × Nat)) (t u t' : TLV) : Prop :=
  (u.header.getLast? ≠ some 0x80 ∧ t' = t) ∨
  (u.header.getLast? = some 0x80 ∧ ∃ u', DerInside es t' u' ∧ u'.cls = u.cls ∧ u'.method = u.method ∧ u'.tag = u.tag ∧ u'.contents = u.contents)

/-- The default value of the primitive field is `s`, with the DER encoding `t`. -/
def LeafDefault (E : Env) (f : Field) (s : Scalar) (t : TLV) : Prop :=
  ∃ proto bad y u, E.cls f.spec = .leaf proto bad ∧ (∀ o, proto ≠ .null o) ∧ f.params.default = some (.scalar y) ∧ y ≠ .none ∧
    DerFramed (proto.base.cls, proto.base.tag) f.params t u ∧ u.method = 0 ∧ Written proto y u.contents s ∧ Written proto s u.contents s

mutual
/-- See above. -/
inductive Forced (E : Env) (U : ClassId → Prop) : Option ClassId → Option ClassId → Params → TLV → PyVal → TLV → PyVal → Prop
  | leaf {c : ClassId} {p : Params} {t u t' u' : TLV} {s : Scalar} {proto : LeafSt} {bad : List Nat} :
      E.cls c = .leaf proto bad → (∀ o, proto ≠ .null o) → Framed (proto.base.cls, proto.base.tag) p t u → ReadsElement proto u s →
      DerFramed (proto.base.cls, proto.base.tag) p t' u' → u'.method = 0 → Written proto s u'.contents s →
      Forced E U (some c) none p t (.scalar s) t' (.scalar s)
  | null {c : ClassId} {p : Params} {t u t' : TLV} {o : Obj Unit} {bad : List Nat} :
      E.cls c = .leaf (.null o) bad → Framed (o.cls, o.tag) p t u → u.method = 0 → u.contents = [] → Reheaded p.explicit.reverse t u t' →
      Forced E U (some c) none p t (.scalar .none) t' (.scalar .none)
  | seq {c : ClassId} {p : Params} {t u t' u' : TLV} {ns ns' : List PyVal} {proto : Obj Unit} {bad : List Nat} {fields : List Field} {oid : Option OidPair} :
      E.cls c = .seq proto bad false fields oid → fields ≠ [] → Framed (proto.cls, proto.tag) p t u → u.method = 1 →
      FieldsForced E U oid fields [] [] u.contents ns u'.contents ns' → DerFramed (proto.cls, proto.tag) p t' u' → u'.method = 1 →
      Forced E U (some c) none p t (.dict (named fields 0 ns)) t' (.dict (named fields 0 ns'))
  | openSeq {c : ClassId} {p : Params} {t u t' : TLV} {ns : List PyVal} {ps : List (TLV × PyVal)} {proto : Obj Unit} {bad : List Nat} {oid : Option OidPair} :
      E.cls c = .seq proto bad false [] oid → Framed (proto.cls, proto.tag) p t u → u.method = 1 → ListForced E U none u.contents ns ps →
      Reheaded p.explicit.reverse t u t' → Forced E U (some c) none p t (.dict (named [] 0 ns)) t' (.dict (named [] 0 ns))
  | list {c : ClassId} {p : Params} {t u t' u' : TLV} {ns : List PyVal} {ps : List (TLV × PyVal)} {proto : Obj Unit} {bad : List Nat} {ch : Option ClassId} :
      E.cls c = .seqOf proto bad false ch → Framed (proto.cls, proto.tag) p t u → u.method = 1 → ListForced E U ch u.contents ns ps →
      DerFramed (proto.cls, proto.tag) p t' u' → u'.method = 1 → u'.contents = joined (ps.map Prod.fst) →
      Forced E U (some c) none p t (.list ns) t' (.list (ps.map Prod.snd))
  | setOf {c : ClassId} {p : Params} {t u t' u' : TLV} {ns : List PyVal} {ps qs : List (TLV × PyVal)} {proto : Obj Unit} {bad : List Nat}
      {ch : Option ClassId} :
      E.cls c = .seqOf proto bad true ch → Framed (proto.cls, proto.tag) p t u → u.method = 1 → ListForced E U ch u.contents ns ps → InOrder ps qs →
      DerFramed (proto.cls, proto.tag) p t' u' → u'.method = 1 → u'.contents = joined (qs.map Prod.fst) →
      Forced E U (some c) none p t (.list ns) t' (.list (qs.map Prod.snd))
  | choice {c : ClassId} {p : Params} {t u t' u' : TLV} {k : Nat} {n n' : PyVal} {alts : List Field} {f : Field} :
      E.cls c = .choice [] none alts → Ber 11 t → Inside p.explicit.reverse t u → alts[k]? = some f → U f.spec →
      Forced E U (some f.spec) none f.params u n u' n' → u.trailer = [] → DerAround p.explicit.reverse t' u' → Forced E U (some c) none p t n t' n'
  | any {c : ClassId} {p : Params} {t u t' : TLV} {n : PyVal} :
      E.cls c = .any → Ber 11 t → Inside p.explicit.reverse t u → FreeForced E U p.explicit.reverse t u n t' → Forced E U (some c) none p t n t' n
  | string {c : ClassId} {p : Params} {t u t' u' : TLV} {b : List UInt8} {o : Obj Bytes} {isBit : Bool} :
      E.cls c = .parsable o isBit → Framed (o.cls, o.tag) p t u → u.method = 0 → u.contents = stringContents isBit b →
      DerFramed (o.cls, o.tag) p t' u' → u'.method = 0 → u'.contents = stringContents isBit b →
      Forced E U (some c) none p t (.scalar (.bytes b)) t' (.scalar (.bytes b))
  | payload {c d : ClassId} {p : Params} {t u w t' u' w' : TLV} {n n' : PyVal} {o : Obj Bytes} {isBit : Bool} :
      E.cls c = .parsable o isBit → Framed (o.cls, o.tag) p t u → u.method = 0 → u.contents = stringContents isBit w.bytes →
      Forced E U (some d) none {} w n w' n' → DerFramed (o.cls, o.tag) p t' u' → u'.method = 0 → u'.contents = stringContents isBit w'.bytes →
      Forced E U (some c) (some d) p t n t' n'
  | free {t t' : TLV} {n : PyVal} : FreeForced E U [] t t n t' → Forced E U none none {} t n t' n
/-- The value without a class `u`, with the explicit tags `es` (outermost first) around it, is written as `t'`. -/
inductive FreeForced (E : Env) (U : ClassId → Prop) : List (Nat × Nat) → TLV → TLV → PyVal → TLV → Prop
  | leaf {es : List (Nat × Nat)} {t u t' u' : TLV} {s : Scalar} {c : ClassId} {proto : LeafSt} {bad : List Nat} :
      E.universal u.tag = some c → E.cls c = .leaf proto bad → (∀ o, proto ≠ .null o) → proto.base.tag = u.tag → u.cls = 0 → Ber 11 u →
      ReadsElement proto u s → DerInside es t' u' → u'.cls = 0 → u'.method = 0 → u'.tag = u.tag → Written proto s u'.contents s →
      FreeForced E U es t u (.scalar s) t'
  | null {es : List (Nat × Nat)} {t u t' : TLV} {c : ClassId} {o : Obj Unit} {bad : List Nat} :
      E.universal u.tag = some c → E.cls c = .leaf (.null o) bad → o.tag = u.tag → u.cls = 0 → Ber 11 u → u.method = 0 → u.contents = [] → es.length ≤ 1 →
      Reheaded es t u t' → FreeForced E U es t u (.scalar .none) t'
  | seq {es : List (Nat × Nat)} {t u t' : TLV} {ns : List PyVal} {ps : List (TLV × PyVal)} {c : ClassId} {proto : Obj Unit} {bad : List Nat}
      {oid : Option OidPair} :
      E.universal u.tag = some c → E.cls c = .seq proto bad false [] oid → proto.tag = u.tag → u.cls = 0 → u.method = 1 → Ber 11 u →
      ListForced E U none u.contents ns ps → es.length ≤ 1 → Reheaded es t u t' → FreeForced E U es t u (.dict (named [] 0 ns)) t'
/-- The fields of a SEQUENCE: from the contents octets with the values of the fields, to the new contents octets and their values. `before` and `before'`
are the values of the fields before. -/
inductive FieldsForced (E : Env) (U : ClassId → Prop) :
    Option OidPair → List Field → List PyVal → List PyVal → List UInt8 → List PyVal → List UInt8 → List PyVal → Prop
  | nil {oid : Option OidPair} {before before' : List PyVal} : FieldsForced E U oid [] before before' [] [] [] []
  | present {oid : Option OidPair} {f : Field} {fs : List Field} {before before' : List PyVal} {pick : Pick} {t t' : TLV} {b b' : List UInt8} {n n' : PyVal}
      {ns ns' : List PyVal} :
      Decides oid before pick → Decides oid before' pick → Forced E U (some (pickedSpec E f pick)) (pickedNested E f pick) f.params t n t' n' →
      f.params.default = none → FieldsForced E U oid fs (before ++ [n]) (before' ++ [n']) b ns b' ns' →
      FieldsForced E U oid (f :: fs) before before' (t.bytes ++ b) (n :: ns) (t'.bytes ++ b') (n' :: ns')
  | other {oid : Option OidPair} {f : Field} {fs : List Field} {before before' : List PyVal} {t t' td : TLV} {b b' : List UInt8} {n n' : PyVal} {m : Scalar}
      {ns ns' : List PyVal} :
      Decides oid before .same → Decides oid before' .same → Forced E U (some f.spec) none f.params t n t' n' → LeafDefault E f m td → td.bytes ≠ t'.bytes →
      FieldsForced E U oid fs (before ++ [n]) (before' ++ [n']) b ns b' ns' →
      FieldsForced E U oid (f :: fs) before before' (t.bytes ++ b) (n :: ns) (t'.bytes ++ b') (n' :: ns')
  | same {oid : Option OidPair} {f : Field} {fs : List Field} {before before' : List PyVal} {t t' : TLV} {b b' : List UInt8} {s : Scalar} {ns ns' : List PyVal} :
      Decides oid before .same → Forced E U (some f.spec) none f.params t (.scalar s) t' (.scalar s) →
      LeafDefault E f s t' → FieldsForced E U oid fs (before ++ [.scalar s]) (before' ++ [.scalar s]) b ns b' ns' →
      FieldsForced E U oid (f :: fs) before before' (t.bytes ++ b) (.scalar s :: ns) b' (.scalar s :: ns')
  | absent {oid : Option OidPair} {f : Field} {fs : List Field} {before before' : List PyVal} {b b' : List UInt8} {ns ns' : List PyVal} :
      f.params.optional = true → f.params.default = none → FieldsForced E U oid fs (before ++ [.scalar .none]) (before' ++ [.scalar .none]) b ns b' ns' →
      FieldsForced E U oid (f :: fs) before before' b (.scalar .none :: ns) b' (.scalar .none :: ns')
  | default {oid : Option OidPair} {f : Field} {fs : List Field} {before before' : List PyVal} {t : TLV} {b b' : List UInt8} {s : Scalar} {ns ns' : List PyVal} :
      LeafDefault E f s t → FieldsForced E U oid fs (before ++ [.scalar s]) (before' ++ [.scalar s]) b ns b' ns' →
      FieldsForced E U oid (f :: fs) before before' b (.scalar s :: ns) b' (.scalar s :: ns')
/-- The elements of a list, with the new elements and their values. -/
inductive ListForced (E : Env) (U : ClassId → Prop) : Option ClassId → List UInt8 → List PyVal → List (TLV × PyVal) → Prop
  | nil {ch : Option ClassId} : ListForced E U ch [] [] []
  | cons {ch : Option ClassId} {t t' : TLV} {b : List UInt8} {n n' : PyVal} {ns : List PyVal} {ps : List (TLV × PyVal)} :
      Forced E U ch none {} t n t' n' → ListForced E U ch b ns ps → ListForced E U ch (t.bytes ++ b) (n :: ns) ((t', n') :: ps)
end

mutual
/-- The values are the same up to the order of the elements of lists. -/
inductive Shuffled : PyVal → PyVal → Prop
  | scalar (s : Scalar) : Shuffled (.scalar s) (.scalar s)
  | dict {kvs kvs' : List (String × PyVal)} : ShuffledFields kvs kvs' → Shuffled (.dict kvs) (.dict kvs')
  | list {ns ms ns' : List PyVal} : ShuffledAll ns ms → ms.Perm ns' → Shuffled (.list ns) (.list ns')
/-- The same fields with the same values up to order. -/
inductive ShuffledFields : List (String × PyVal) → List (String × PyVal) → Prop
  | nil : ShuffledFields [] []
  | cons {name : String} {n n' : PyVal} {kvs kvs' : List (String × PyVal)} : Shuffled n n' → ShuffledFields kvs kvs' →
      ShuffledFields ((name, n) :: kvs) ((name, n') :: kvs')
/-- The same values, one by one, up to order inside them. -/
inductive ShuffledAll : List PyVal → List PyVal → Prop
  | nil : ShuffledAll [] []
  | cons {n n' : PyVal} {ns ns' : List PyVal} : Shuffled n n' → ShuffledAll ns ns' → ShuffledAll (n :: ns) (n' :: ns')
end

end Asn1.Spec
