import Verif.Model.Core

/-!
# String types that share an encoding

An OCTET STRING can be read as octets, as a number or as an encoded value, a BIT STRING as bits, as names, as octets, as a number or as an encoded value.
`StringKind` is the way of reading. `kind.shape o` is the class of that kind with the class-level tags of `o`, and `kind.val c o` the instance of class `c`
with the attributes of `o` of which nothing has been read yet.
-/

namespace Asn1.Spec
open Asn1

inductive StringKind where
  | octets
  | octetsAsNumber
  | bits
  | names (m : BitMap)
  | bitsAsOctets
  | bitsAsNumber
  | encoded (isBit : Bool)

/-- The attributes `o`, nothing read. -/
def unread {ν : Type} (o : Obj Unit) : Obj ν :=
  { cls := o.cls, method := o.method, tag := o.tag, implicit := o.implicit, explicit := o.explicit, header := o.header, contents := o.contents,
    trailer := o.trailer, native := none, indefinite := o.indefinite }

def StringKind.shape (o : Obj Unit) : StringKind → Shape
  | octets => .leaf (.octets (unread o)) []
  | octetsAsNumber => .leaf (.intOctets { toObj := unread o }) []
  | bits => .leaf (.bits { toObj := unread o }) []
  | names m => .leaf (.named m { toObj := unread o }) []
  | bitsAsOctets => .leaf (.octetBits { toObj := unread o }) []
  | bitsAsNumber => .leaf (.intBits { toObj := unread o }) []
  | encoded isBit => .parsable (unread o) isBit

def StringKind.val (c : ClassId) (o : Obj Unit) : StringKind → Val
  | octets => .leaf c (.octets (unread o))
  | octetsAsNumber => .leaf c (.intOctets { toObj := unread o })
  | bits => .leaf c (.bits { toObj := unread o })
  | names m => .leaf c (.named m { toObj := unread o })
  | bitsAsOctets => .leaf c (.octetBits { toObj := unread o })
  | bitsAsNumber => .leaf c (.intBits { toObj := unread o })
  | encoded _ => .parsable c (unread o) none none

/-- A class of this kind with the universal tag `tag` and class-level explicit tags `es` (usually none). -/
def StringClass (E : Env) (c : ClassId) (k : StringKind) (tag : Nat) (es : List (Nat × Nat)) : Prop :=
  E.cls c = k.shape { cls := 0, method := 0, tag := tag, explicit := es }

end Asn1.Spec
