import Verif.Model.Core

/-! # `Concat` as a row of values: construction, item access, assignment -/

namespace Asn1

/-- `_children` (core.py:1375): `None` for a new instance without value, or a list in which `None` is a child that was not given. -/
abbrev Row := Option (List (Option Val))

/-- `key > len(self._child_specs) - 1 or key < 0` (core.py:1598, 1624) -/
def rowOutside (specs : List ClassId) (key : Int) : Bool := decide (key > (specs.length : Int) - 1) || decide (key < 0)

/-- `__getitem__(key)` (core.py:1584-1607). A `None` that is returned is `none`. -/
def rowGet (specs : List ClassId) (row : Row) (key : Int) : Py (Option Val) :=
  if rowOutside specs key then .error .keyError
  else
    match row with
    | none => .error .typeError
    | some cs =>
      match cs[key.toNat]? with
      | none => .error .indexError
      | some v => .ok v

/-- `__setitem__(key, value)` (core.py:1609-1643); `none` is a value that is no instance of `Asn1Value`. -/
def rowSet (specs : List ClassId) (row : Row) (key : Int) (value : Option Val) : Py Row :=
  if rowOutside specs key then .error .keyError
  else
    match value with
    | none => .error .valueError
    | some v =>
      match row with
      | none => .error .typeError
      | some cs => if key.toNat < cs.length then .ok (some (cs.set key.toNat (some v))) else .error .indexError

/-- `for index, data in enumerate(value): self.__setitem__(index, data)` (core.py:1438-1439) -/
def rowFill (specs : List ClassId) : List (Option Val) → Nat → Row → Py Row
  | [], _, row => .ok row
  | v :: vs, k, row => do
    let row ← rowSet specs row k v
    rowFill specs vs (k + 1) row

/-- `Concat.__init__(value)` without contents (core.py:1435-1439) -/
def rowInit (specs : List ClassId) (value : Option (List (Option Val))) : Py Row :=
  match value with
  | none => .ok none
  | some vs => rowFill specs vs 0 (some (specs.map (fun _ => none)))

/-- `len(value)` (core.py:1576-1582) -/
def rowLen (row : Row) : Py Nat :=
  match row with
  | none => .error .typeError
  | some cs => .ok cs.length

/-- The loop of `dump` (core.py:1562-1564); `None.dump` is an `AttributeError`. -/
def rowDumps (r : Ops) (force : Bool) : List (Option Val) → Py (Bytes × List (Option Val))
  | [] => .ok ([], [])
  | none :: _ => .error .attributeError
  | some v :: vs => do
    let (b, v) ← r.dump v force
    let (bs, vs) ← rowDumps r force vs
    .ok (b ++ bs, some v :: vs)

/-- `dump(force)` (core.py:1550-1565) -/
def rowDump (r : Ops) (force : Bool) (row : Row) : Py (Bytes × Row) :=
  match row with
  | none => .error .typeError
  | some cs => do
    let (b, cs) ← rowDumps r force cs
    .ok (b, some cs)

/-- `Concat.load(data, strict)` (core.py:1378-1433) -/
def rowLoad (r : Ops) (specs : List ClassId) (data : Bytes) (strict : Bool := false) : Py Row := do
  let vs ← concatLoad r specs data strict
  .ok (some (vs.map some))

end Asn1
