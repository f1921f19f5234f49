import Verif.Model.Obj

/-! # The classes without Python implementation: `ObjectDescriptor`, `InstanceOf`, `Real` (core.py:3215-3236)

They are `Primitive` with a tag of their own, and `Primitive` has no `native`. -/

namespace Asn1.Bare

/-- `ObjectDescriptor()`, `InstanceOf()`, `Real()`: `tag` is 7, 8 or 9 (core.py:3215-3236, 1655-1664). -/
def new (tag : Nat) : Obj Bytes := { cls := 0, method := 0, tag := tag }

/-- `Primitive.set` (core.py:1694-1715); `none` is a value that is no byte string. -/
def set (o : Obj Bytes) (value : Option Bytes) : Py (Obj Bytes) :=
  match value with
  | none => .error .typeError
  | some b => .ok { o with native := some b, contents := some b, header := none, trailer := [] }

/-- `native`: there is no such attribute, neither in the classes (core.py:3215-3236) nor in `Primitive` (1655-1790) or `Asn1Value`. -/
def native (_ : Obj Bytes) : Py (Option Bytes × Obj Bytes) := .error .attributeError

/-- `Primitive.dump(force)` (core.py:1717-1738): `native` is read first. -/
def dump (o : Obj Bytes) (force : Bool := false) : Py (Bytes × Obj Bytes) :=
  if force || headerEnds80 o.header then do
    let (n, o) ← native o
    let o ← set { o with contents := none } n
    asn1Dump false o
  else asn1Dump false o

/-- `Real.load` and those of the other two (core.py:216-240); `Primitive` is no `Constructable`, so only primitive encodings. -/
def load (proto : Obj Bytes) (data : Bytes) (strict : Bool := false) : Py (Obj Bytes) := loadObj false [] proto data strict

end Asn1.Bare
