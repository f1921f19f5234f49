import Verif.Model.Strings
import Verif.Model.Oid

/-!
# Instances of primitive classes behind one interface

`LeafSt` is an instance of one of the modelled primitive classes together with the class attributes that its
methods use (`_map`, codec). The container code of core.py only uses the operations below.
-/

namespace Asn1

/-- The instance without its cached native value. -/
def Obj.erase {ν : Type} (o : Obj ν) : Obj Unit :=
  { cls := o.cls, method := o.method, tag := o.tag, implicit := o.implicit, explicit := o.explicit,
    header := o.header, contents := o.contents, trailer := o.trailer, indefinite := o.indefinite }

/-- Scalar Python values handed to `set` and returned by `native`. -/
inductive Scalar where
  | none
  | bool (b : Bool)
  | int (n : Int)
  | str (s : Str)
  | bytes (b : Bytes)
  | bits (b : List Bool)
  | keys (k : List BitKey)
  deriving DecidableEq, Repr

/-- Python truth value (`bool(value)`). -/
def Scalar.truthy : Scalar → Bool
  | .none => false
  | .bool b => b
  | .int n => n != 0
  | .str s => !s.isEmpty
  | .bytes b => !b.isEmpty
  | .bits b => !b.isEmpty
  | .keys k => !k.isEmpty

/-- Instance of a primitive class: Boolean, Integer, Enumerated, Null, ObjectIdentifier, OctetString, an
`AbstractString` subclass, BitString, BitString with `_map`, OctetBitString, IntegerBitString, IntegerOctetString.
`utag` is the class-level tag of a character string class. -/
inductive LeafSt where
  | boolean (o : Obj Bool)
  | integer (m : Option IntMap) (o : Obj IntNative)
  | enumerated (m : Option IntMap) (o : Obj IntNative)
  | null (o : Obj Unit)
  | oid (c : OidClass) (o : OidObj)
  | octets (o : Obj Bytes)
  | chars (k : Codec) (utag : Nat) (o : Obj Str)
  | bits (o : BitObj (List Bool))
  | named (m : BitMap) (o : BitObj (List BitKey))
  | octetBits (o : BitObj Bytes)
  | intBits (o : BitObj Nat)
  | intOctets (o : IntOctObj)

namespace LeafSt

/-- The attributes shared by all instances. -/
def base : LeafSt → Obj Unit
  | boolean o => o.erase
  | integer _ o => o.erase
  | enumerated _ o => o.erase
  | null o => o.erase
  | oid _ o => o.toObj.erase
  | octets o => o.erase
  | chars _ _ o => o.erase
  | bits o => o.toObj.erase
  | named _ o => o.toObj.erase
  | octetBits o => o.toObj.erase
  | intBits o => o.toObj.erase
  | intOctets o => o.toObj.erase

/-- `isinstance(value, Constructable)` -/
def constructable : LeafSt → Bool
  | boolean _ => false
  | integer _ _ => false
  | enumerated _ _ => false
  | null _ => false
  | oid _ _ => false
  | _ => true

/-- Applies a change of the shared attributes. -/
def map (f : {ν : Type} → Obj ν → Obj ν) : LeafSt → LeafSt
  | boolean o => boolean (f o)
  | integer m o => integer m (f o)
  | enumerated m o => enumerated m (f o)
  | null o => null (f o)
  | oid c o => oid c { o with toObj := f o.toObj }
  | octets o => octets (f o)
  | chars k u o => chars k u (f o)
  | bits o => bits { o with toObj := f o.toObj }
  | named m o => named m { o with toObj := f o.toObj }
  | octetBits o => octetBits { o with toObj := f o.toObj }
  | intBits o => intBits { o with toObj := f o.toObj }
  | intOctets o => intOctets { o with toObj := f o.toObj }

/-- Applies a change of the shared attributes that may raise. -/
def mapObj (f : {ν : Type} → Obj ν → Py (Obj ν)) : LeafSt → Py LeafSt
  | boolean o => do let o ← f o; pure (boolean o)
  | integer m o => do let o ← f o; pure (integer m o)
  | enumerated m o => do let o ← f o; pure (enumerated m o)
  | null o => do let o ← f o; pure (null o)
  | oid c o => do let o' ← f o.toObj; pure (oid c { o with toObj := o' })
  | octets o => do let o ← f o; pure (octets o)
  | chars k u o => do let o ← f o; pure (chars k u o)
  | bits o => do let o' ← f o.toObj; pure (bits { o with toObj := o' })
  | named m o => do let o' ← f o.toObj; pure (named m { o with toObj := o' })
  | octetBits o => do let o' ← f o.toObj; pure (octetBits { o with toObj := o' })
  | intBits o => do let o' ← f o.toObj; pure (intBits { o with toObj := o' })
  | intOctets o => do let o' ← f o.toObj; pure (intOctets { o with toObj := o' })

/-- `Asn1Value.__init__` tagging (core.py:298-435) -/
def init (s : LeafSt) (p : TagParams) : LeafSt := s.map (fun o => initTagging o p)

/-- `_build` with this class as spec (core.py:5479-5668) -/
def build (bad : List Nat) (proto : LeafSt) (i : Info) : Py LeafSt :=
  proto.mapObj (fun o => buildObj proto.constructable bad o i)

/-- `_build` without a spec (core.py:5632-5658): the class and method are taken from the data. -/
def buildFree (proto : LeafSt) (i : Info) : LeafSt :=
  proto.map (fun o => { o with
    cls := i.cls, method := i.method,
    indefinite := o.indefinite || (i.method == 1 && o.method == 0 && i.trailer == [0, 0] && proto.constructable),
    header := some i.header, contents := some i.contents, trailer := i.trailer, native := none })

/-- `set` of the class; arguments of a type that the class does not accept raise `TypeError`. -/
def set (s : LeafSt) (v : Scalar) : Py LeafSt :=
  match s, v with
  | boolean o, v => do let o ← Boolean.set o v.truthy; pure (boolean o)
  | integer m o, .int n => do let o ← Integer.set m o (.int n); pure (integer m o)
  | integer m o, .str n => do let o ← Integer.set m o (.name (String.ofList n)); pure (integer m o)
  | enumerated m o, .int n => do let o ← Enumerated.set m o (.int n); pure (enumerated m o)
  | enumerated m o, .str n => do let o ← Enumerated.set m o (.name (String.ofList n)); pure (enumerated m o)
  | null o, _ => do let o ← Null.set o; pure (null o)
  | oid c o, .str n => match Oid.set c o n with
    | (_, some e) => .error e
    | (o, none) => .ok (oid c o)
  | octets o, .bytes b => do let o ← OctetString.set o b; pure (octets o)
  | chars k u o, .str n => do let o ← AbstractString.set k o n; pure (chars k u o)
  | bits o, .bits b => do let o ← BitString.set o b; pure (bits o)
  | named m o, .bits b => do let o ← NamedBits.setTuple m o b; pure (named m o)
  | named m o, .keys b => do let o ← NamedBits.set m o b; pure (named m o)
  | octetBits o, .bytes b => do let o ← OctetBitString.set o b; pure (octetBits o)
  | intBits o, .int n => do let o ← IntegerBitString.set o n; pure (intBits o)
  | intOctets o, .int n => do let o ← IntegerOctetString.set o n; pure (intOctets o)
  | _, _ => .error .typeError

/-- A number or a mapped name as a Python value. -/
def ofIntNative : IntNative → Scalar
  | .int n => .int n
  | .name s => .str s.toList

/-- `None` or a value. -/
def optScalar {α : Type} (f : α → Scalar) : Option α → Scalar
  | none => .none
  | some a => f a

/-- `chars` class instance without value. -/
def charsNew (utag : Nat) : Obj Str := { cls := 0, method := 0, tag := utag }

/-- `native` of the class -/
def native : LeafSt → Py (Scalar × LeafSt)
  | boolean o => do let (n, o) ← Boolean.native o; pure (optScalar .bool n, boolean o)
  | integer m o => do let (n, o) ← Integer.native m o; pure (optScalar ofIntNative n, integer m o)
  | enumerated m o => do let (n, o) ← Enumerated.native m o; pure (optScalar ofIntNative n, enumerated m o)
  | null o => .ok (.none, null o)
  | oid c o => do let (n, o) ← Oid.native c o; pure (optScalar .str n, oid c o)
  | octets o => do let (n, o) ← OctetString.native o; pure (optScalar .bytes n, octets o)
  | chars k u o => do let (n, o) ← AbstractString.native k (charsNew u) o; pure (optScalar .str n, chars k u o)
  | bits o => do let (n, o) ← BitString.native o; pure (.bits n, bits o)
  | named m o => do let (n, o) ← NamedBits.native m o; pure (.keys n, named m o)
  | octetBits o => do let (n, o) ← OctetBitString.native o; pure (optScalar .bytes n, octetBits o)
  | intBits o => do let (n, o) ← IntegerBitString.native o; pure (optScalar (fun x : Nat => .int x) n, intBits o)
  | intOctets o => do let (n, o) ← IntegerOctetString.native o; pure (optScalar (fun x : Nat => .int x) n, intOctets o)

/-- `dump(force)` of the class -/
def dump (s : LeafSt) (force : Bool) : Py (Bytes × LeafSt) :=
  match s with
  | boolean o => do let (b, o) ← Boolean.dump o force; pure (b, boolean o)
  | integer m o => do let (b, o) ← Integer.dump m o force; pure (b, integer m o)
  | enumerated m o => do let (b, o) ← Enumerated.dump m o force; pure (b, enumerated m o)
  | null o => do let (b, o) ← Null.dump o force; pure (b, null o)
  | oid c o => do let (b, o) ← Oid.dump c o force; pure (b, oid c o)
  | octets o => do let (b, o) ← OctetString.dump o force; pure (b, octets o)
  | chars k u o => do let (b, o) ← AbstractString.dump k (charsNew u) o force; pure (b, chars k u o)
  | bits o => do let (b, o) ← BitString.dump o force; pure (b, bits o)
  | named m o => do let (b, o) ← NamedBits.dump m o force; pure (b, named m o)
  | octetBits o => do let (b, o) ← OctetBitString.dump o force; pure (b, octetBits o)
  | intBits o => do let (b, o) ← IntegerBitString.dump o force; pure (b, intBits o)
  | intOctets o => do let (b, o) ← IntegerOctetString.dump o force; pure (b, intOctets o)

/-- The attributes that `_copy` takes over onto a new instance with the given tagging. -/
def freshObj {ν : Type} (cls tag : Nat) (implicit : Bool) (explicit : List (Nat × Nat)) (o : Obj ν) : Obj ν :=
  { cls := cls, method := 0, tag := tag, implicit := implicit, explicit := explicit,
    contents := o.contents, native := o.native }

/-- The new instance: the `_dotted` cache of `ObjectIdentifier` and the `_encoded_width` of `IntegerOctetString` are not
copied. -/
def fresh (s : LeafSt) (cls tag : Nat) (implicit : Bool) (explicit : List (Nat × Nat)) : LeafSt :=
  match s with
  | oid c o => oid c { toObj := freshObj cls tag implicit explicit o.toObj }
  | intOctets o => intOctets { toObj := freshObj cls tag implicit explicit o.toObj }
  | s => s.map (freshObj cls tag implicit explicit)

/-- `_copy` onto a new instance of the same class with the given tagging
(core.py:586-608, 799-815, 1832-1845, 2074-2087, 2426-2440, 2618-2631): contents and caches are taken over; an
indefinite-length string is re-encoded with `set` (the `_unused_bits` of the original, copied after that, are not
modelled in this case). -/
def copyTo (s : LeafSt) (cls tag : Nat) (implicit : Bool) (explicit : List (Nat × Nat)) : Py LeafSt :=
  if s.constructable && s.base.indefinite then do
    let (n, _) ← s.native
    (s.fresh cls tag implicit explicit).set n
  else .ok (s.fresh cls tag implicit explicit)

end LeafSt

end Asn1
