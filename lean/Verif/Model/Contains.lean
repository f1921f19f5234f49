import Verif.Model.Equal

/-! # Membership: `SequenceOf.__contains__` -/

namespace Asn1

/-- `child == item` (core.py:4449) for the child at position `k`. Primitive values have a comparison (core.py:1743-1777). The other classes of core.py have
none, so Python compares identities: `same k` says whether `item` is the very object at position `k`. Comparisons of classes of x509.py are not modelled here. -/
def childEq (E : Env) (r : Ops) (bases : ClassId → List ClassId) (low : List ClassId) (same : Nat → Bool) (k : Nat) (child item : Val) : Py Bool :=
  match child.primitive with
  | some _ => primitiveEq E r bases low child item
  | none => .ok (same k)

/-- The loop of `__contains__` (core.py:4448-4452), which ends at the first child that is equal. -/
def containsFrom (E : Env) (r : Ops) (bases : ClassId → List ClassId) (low : List ClassId) (same : Nat → Bool) (item : Val) : Nat → Nat → Val → Py (Bool × Val)
  | 0, _, v => .ok (false, v)
  | m + 1, k, v => do
    let (x, v) ← getItem E r v k
    let e ← childEq E r bases low same k x item
    if e then .ok (true, v) else containsFrom E r bases low same item m (k + 1) v

/-- `item in value` for a SequenceOf or SetOf (core.py:4425-4452). `isA c d`: the class `c` is `d` or derived from it. An item that is no ASN.1 value is not
modelled, except `None`. -/
def contains (E : Env) (r : Ops) (bases : ClassId → List ClassId) (low : List ClassId) (isA : ClassId → ClassId → Bool) (same : Nat → Bool) (v : Val)
    (item : Option Val) : Py (Bool × Val) :=
  match item with
  | none => .ok (false, v)
  | some .void => .ok (false, v)
  | some item =>
    match v, item.classOf with
    | .node c o cs m, some d =>
      match E.cls c with
      | .seqOf _ _ _ (some ch) =>
        if !isA d ch then .error .typeError
        else do
          let (n, v) ← lenOf E r (.node c o cs m)
          containsFrom E r bases low same item n 0 v
      | _ => .error .typeError
    | _, _ => .error .typeError

end Asn1
