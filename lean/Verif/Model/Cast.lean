import Verif.Model.Core

/-!
# Conversion between string classes (`asn1crypto/core.py`, `Castable`)
-/

namespace Asn1

/-- The classes that inherit from `Castable` (core.py:2104, 2359, 2505, 2570, 2648). -/
def LeafSt.castable : LeafSt → Bool
  | octets _ => true
  | intOctets _ => true
  | bits _ => true
  | named _ _ => true
  | octetBits _ => true
  | intBits _ => true
  | _ => false

/-- The class of an instance that has `cast`, and its attributes (core.py:2729 for parsable strings). -/
def castSource : Val → Option (ClassId × Obj Unit)
  | .leaf c s => if s.castable then some (c, s.base) else none
  | .parsable c o _ _ => some (c, o.erase)
  | _ => none

/-- The attributes that `cast` copies onto the new instance (core.py:724-733): all but `tag`. Every class with `cast` is
`Constructable`. -/
def castObj {ν : Type} (o : Obj Unit) (new : Obj ν) : Obj ν :=
  { new with cls := o.cls, implicit := o.implicit, explicit := o.explicit, header := o.header, contents := o.contents, trailer := o.trailer,
             method := o.method, indefinite := o.indefinite }

/-- `value.cast(other_class)` (core.py:700-734). Containers, `Choice` and `Any` as `other_class` have another tag or none, which is a
`TypeError` (the message of the error formats the tag with `%d`, so it is one for `None` as well); container classes whose tag was redefined to
be that of a string are not modelled. -/
def castVal (E : Env) (v : Val) (other : ClassId) : Py Val :=
  match castSource v with
  | none => .error .attributeError
  | some (c, o) =>
    match E.cls other with
    | .leaf new _ => if new.base.tag ≠ (E.cls c).tagging.2.1 then .error .typeError else .ok (.leaf other (new.map (castObj o)))
    | .parsable new _ => if new.tag ≠ (E.cls c).tagging.2.1 then .error .typeError else .ok (.parsable other (castObj o new) none none)
    | _ => .error .typeError

end Asn1
