import Verif.Model.Integer

/-! # The states `good` and `unknown` of certificates in OCSP responses (ocsp.py:323-370) -/

namespace Asn1.Status

/-- What is given to `set`: `None`, a text, an instance of `Null`, or something else. -/
inductive Arg
  | none
  | text (s : Str)
  | null
  | other

/-- `StatusGood.set` (ocsp.py:325-341) and `StatusUnknown.set` (ocsp.py:350-366); `name` is `good` or `unknown`. -/
def set (name : Str) (o : Obj Unit) : Arg → Py (Obj Unit)
  | .none => Null.set o
  | .text s => if s = name then Null.set o else .error .valueError
  | .null => Null.set o
  | .other => .error .valueError

/-- `StatusGood.native` (ocsp.py:343-345) and `StatusUnknown.native` (ocsp.py:368-370) -/
def native (name : Str) (_ : Obj Unit) : Str := name

/-- `Primitive.__init__` (core.py:1663-1692) of these classes: `None` is not given to `set`. -/
def construct (name : Str) (p : TagParams) : Arg → Py (Obj Unit)
  | .none => .ok (initTagging Null.new p)
  | v => set name (initTagging Null.new p) v

/-- `Primitive.dump(force)` (core.py:1717-1738) of these classes -/
def dump (name : Str) (o : Obj Unit) (force : Bool := false) : Py (Bytes × Obj Unit) :=
  if force || headerEnds80 o.header then do
    let o ← set name { o with contents := none } (.text (native name o))
    asn1Dump false o
  else asn1Dump false o

end Asn1.Status
