import Verif.Model.Core

/-! # Comparison of primitive values: `Primitive.__eq__` -/

namespace Asn1

/-- Class and `contents` of an instance of a subclass of `Primitive`; `isinstance(other, Primitive)` (core.py:1754). Every class of the model other than
SEQUENCE, SET, SEQUENCE OF, SET OF, CHOICE and ANY is one. -/
def Val.primitive : Val → Option (ClassId × Option Bytes)
  | .leaf c st => some (c, st.base.contents)
  | .parsable c o _ _ => some (c, o.contents)
  | _ => none

/-- Whether `implicit` or `explicit` of the instance is set (core.py:1774). -/
def Val.tagged (v : Val) : Bool :=
  match v.tagging with
  | (_, _, i, es) => i || !es.isEmpty

/-- `v.untag().dump()` (core.py:1775) -/
def plainDump (E : Env) (r : Ops) (v : Val) : Py Bytes := do
  let v ← untag E r v
  let (b, _) ← r.dump v false
  .ok b

/-- `Primitive.__eq__(self, other)` (core.py:1743-1777). `bases c` are the classes `c.__bases__`; `low` are `Asn1Value`, `Primitive` and `ValueMap`.
Comparing `self == other` calls this unless the class of `other` is a proper subclass that overrides `__eq__` (x509.py; see `Model/GenName.lean`). -/
def primitiveEq (E : Env) (r : Ops) (bases : ClassId → List ClassId) (low : List ClassId) (self other : Val) : Py Bool :=
  match self.primitive, other.primitive with
  | _, none => .ok false
  | none, _ => .error .typeError
  | some (a, x), some (b, y) =>
    if x ≠ y then .ok false
    else if (E.cls a).tagging.2.1 ≠ (E.cls b).tagging.2.1 then .ok false
    else if a = b ∧ x = y then .ok true
    else if ((bases a ++ [a]).filter (fun c => !low.contains c)) ++ ((bases b ++ [b]).filter (fun c => !low.contains c)) ≠ [] then .ok (decide (x = y))
    else if self.tagged || other.tagged then do
      let s ← plainDump E r self
      let o ← plainDump E r other
      .ok (decide (s = o))
    else do
      let (s, _) ← r.dump self false
      let (o, _) ← r.dump other false
      .ok (decide (s = o))

end Asn1
