import Verif.Spec.Universe
import Verif.Spec.Bits

/-!
# DER encodings of values of a schema

`Der E c p t a` says that the element `t` is the DER encoding of `a` as a value of class `c` with the tagging `p`
(X.690 §10 and §11): definite lengths in the fewest octets, primitive strings, one contents form for every primitive value, and no
element for a field that has its default value.
-/

namespace Asn1.Spec
open Asn1

/-- The definite length octets with the fewest octets (X.690 §10.1). -/
def DerLen (bs : List UInt8) (n : Nat) : Prop :=
  (n < 128 ∧ bs = [UInt8.ofNat n]) ∨
  (128 ≤ n ∧ ∃ d ds, d ≠ 0 ∧ (d :: ds).length ≤ 127 ∧ bs = UInt8.ofNat (128 + (d :: ds).length) :: d :: ds ∧ valU (d :: ds) = n)

/-- The element has the DER identifier and length octets. -/
def DerHead (t : TLV) : Prop :=
  ∃ id len, Ident id t.cls t.method t.tag ∧ DerLen len t.contents.length ∧ t.header = id ++ len ∧ t.trailer = []

/-- Inside DER elements with the given tags, outermost first, is exactly the DER element `w`. -/
inductive DerInside : List (Nat × Nat) → TLV → TLV → Prop
  | nil {v : TLV} : DerHead v → DerInside [] v v
  | cons {es : List (Nat × Nat)} {v v' w : TLV} : DerHead v → v.method = 1 → v.contents = v'.bytes → DerInside es v' w →
      DerInside ((v.cls, v.tag) :: es) v w

/-- The DER element `t` has the tagging `p` of a class with the own tag `d`; `u` is what is inside the explicit tags. -/
structure DerFramed (d : Nat × Nat) (p : Params) (t u : TLV) : Prop where
  inside : DerInside p.explicit.reverse t u
  ident : (u.cls, u.tag) = if p.explicit = [] then p.implicit.getD d else d

/-- The shortest two's complement form of `n`. -/
def ShortestSigned (n : Int) (c : List UInt8) : Prop :=
  c ≠ [] ∧ valS c = n ∧ ∀ d : List UInt8, d ≠ [] → valS d = n → c.length ≤ d.length

/-- The shortest unsigned form of `n`, which is one octet for 0. -/
def ShortestUnsigned (n : Nat) (c : List UInt8) : Prop :=
  c ≠ [] ∧ valU c = n ∧ ∀ d : List UInt8, d ≠ [] → valU d = n → c.length ≤ d.length

/-- With the names `m`, the number `n` is what the Python value `s` stands for: a name stands for the last number with that
name, a number without name for itself. -/
def NumberOf (m : Option IntMap) (s : Scalar) (n : Int) : Prop :=
  (s = .int n ∧ ∀ l, m = some l → n ∉ l.map Prod.fst) ∨
  (∃ l l1 l2 nm, m = some l ∧ l = l1 ++ (n, nm) :: l2 ∧ nm ∉ l2.map Prod.snd ∧ s = .str nm.toList)

/-- With the names of the class, `nm` stands for the OID with these arcs: its name, or the dotted form if it has none. -/
def OidOf (k : OidClass) (nm : List Char) (arcs : List Nat) : Prop :=
  match k.map with
  | none => nm = dottedText arcs
  | some m => (dottedText arcs, nm) ∈ m ∨ (dottedText arcs ∉ m.map Prod.fst ∧ nm = dottedText arcs)

/-- DER contents octets of primitive values. -/
inductive DerContents : LeafSt → Scalar → List UInt8 → Prop
  | boolean {o : Obj Bool} {b : Bool} : DerContents (.boolean o) (.bool b) [if b then 0xff else 0x00]
  | integer {m : Option IntMap} {o : Obj IntNative} {s : Scalar} {n : Int} {c : List UInt8} : NumberOf m s n → ShortestSigned n c →
      DerContents (.integer m o) s c
  | enumerated {m : Option IntMap} {o : Obj IntNative} {s : Scalar} {n : Int} {c : List UInt8} : NumberOf m s n → ShortestSigned n c →
      DerContents (.enumerated m o) s c
  | null {o : Obj Unit} : DerContents (.null o) .none []
  | oid {k : OidClass} {o : OidObj} {nm : List Char} {arcs : List Nat} {c : List UInt8} : OidOf k nm arcs → OidValid arcs → OidContents arcs c →
      DerContents (.oid k o) (.str nm) c
  | octets {o : Obj Bytes} {b : List UInt8} : DerContents (.octets o) (.bytes b) b
  | chars {k : Codec} {u : Nat} {o : Obj Str} {s : List Char} {c : List UInt8} : k.encode s = .ok c → DerContents (.chars k u o) (.str s) c
  | bits {o : BitObj (List Bool)} {b : List Bool} {c : List UInt8} : BitContents b c → DerContents (.bits o) (.bits b) c
  | octetBits {o : BitObj Bytes} {b : List UInt8} : DerContents (.octetBits o) (.bytes b) (0 :: b)
  | intBits {o : BitObj Nat} {n : Nat} {c : List UInt8} : ShortestSigned n c → DerContents (.intBits o) (.int n) (0 :: c)
  | intOctets {o : IntOctObj} {n : Nat} {c : List UInt8} : ShortestUnsigned n c → DerContents (.intOctets o) (.int n) c

mutual
/-- See above. -/
inductive Der (E : Env) : ClassId → Params → TLV → AVal → Prop
  | leaf {c : ClassId} {p : Params} {t u : TLV} {s : Scalar} {proto : LeafSt} {bad : List Nat} :
      E.cls c = .leaf proto bad → DerFramed (proto.base.cls, proto.base.tag) p t u → u.method = 0 → DerContents proto s u.contents →
      Der E c p t (.prim s)
  | seq {c : ClassId} {p : Params} {t u : TLV} {as : List AVal} {proto : Obj Unit} {bad : List Nat} {fields : List Field} :
      E.cls c = .seq proto bad false fields none → DerFramed (proto.cls, proto.tag) p t u → u.method = 1 →
      FieldsDer E fields u.contents as → Der E c p t (.seq as)
  | seqOf {c : ClassId} {p : Params} {t u : TLV} {as : List AVal} {proto : Obj Unit} {bad : List Nat} {ch : ClassId} :
      E.cls c = .seqOf proto bad false (some ch) → DerFramed (proto.cls, proto.tag) p t u → u.method = 1 →
      ListDer E ch u.contents as → Der E c p t (.list as)
  | choice {c : ClassId} {p : Params} {t : TLV} {k : Nat} {a : AVal} {alts : List Field} {f : Field} :
      E.cls c = .choice [] none alts → p.explicit = [] → alts[k]? = some f → Der E f.spec f.params t a → Der E c p t (.alt k a)
/-- The encodings of the fields in declared order, without those that are absent or have their default value. -/
inductive FieldsDer (E : Env) : List Field → List UInt8 → List AVal → Prop
  | nil : FieldsDer E [] [] []
  | present {f : Field} {fs : List Field} {t : TLV} {b : List UInt8} {a : AVal} {as : List AVal} :
      Der E f.spec f.params t a → ¬ DefaultIs E f a → FieldsDer E fs b as → FieldsDer E (f :: fs) (t.bytes ++ b) (a :: as)
  | absent {f : Field} {fs : List Field} {b : List UInt8} {as : List AVal} :
      f.params.optional = true → FieldsDer E fs b as → FieldsDer E (f :: fs) b (.absent :: as)
  | default {f : Field} {fs : List Field} {b : List UInt8} {a : AVal} {as : List AVal} :
      DefaultIs E f a → FieldsDer E fs b as → FieldsDer E (f :: fs) b (a :: as)
/-- The encodings of the elements one after the other. -/
inductive ListDer (E : Env) : ClassId → List UInt8 → List AVal → Prop
  | nil {ch : ClassId} : ListDer E ch [] []
  | cons {ch : ClassId} {t : TLV} {b : List UInt8} {a : AVal} {as : List AVal} :
      Der E ch {} t a → ListDer E ch b as → ListDer E ch (t.bytes ++ b) (a :: as)
end

/-- No class is a NULL. -/
def NoNull (E : Env) (U : ClassId → Prop) : Prop := ∀ c o bad, U c → E.cls c ≠ .leaf (.null o) bad

end Asn1.Spec
