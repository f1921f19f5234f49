import Verif.Model.Parser
import Verif.Model.PyStr

/-!
# `Asn1Value` instances: tagging, `dump()` and `_build()` for one value

`Obj ν` holds the instance attributes used by the encoding code; `ν` is the type of the cached native
value. Class-level attributes (`Constructable` mixin, `_bad_tag`) are parameters.
-/

namespace Asn1

/-- Instance attributes of `Asn1Value` (core.py:178-213, `_indefinite` core.py:745).
`explicit` is the tuple of (class, tag) pairs from innermost to outermost, `[]` for `None`.
`native` stands for the caches `_native` / `_bytes` / `_unicode`. -/
structure Obj (ν : Type) where
  cls : Nat
  method : Nat
  tag : Nat
  implicit : Bool := false
  explicit : List (Nat × Nat) := []
  header : Option Bytes := none
  contents : Option Bytes := none
  trailer : Bytes := []
  native : Option ν := none
  indefinite : Bool := false
  deriving DecidableEq, Repr

/-- Tagging keyword arguments of a constructor (class numbers already resolved from the names). -/
structure TagParams where
  explicit : List (Nat × Nat) := []
  implicit : Option (Nat × Nat) := none
  noExplicit : Bool := false
  deriving DecidableEq, Repr

/-- Tagging part of `Asn1Value.__init__` (core.py:298-435) applied to the class-level attributes in `o`:
explicit tags are appended to the class-level ones; `implicit` is only looked at when no `explicit` was given. -/
def initTagging {ν : Type} (o : Obj ν) (p : TagParams) : Obj ν :=
  let o :=
    if p.explicit ≠ [] then { o with explicit := o.explicit ++ p.explicit }
    else match p.implicit with
      | some (c, t) => { o with cls := c, tag := t, implicit := true }
      | none => o
  if p.noExplicit then { o with explicit := [] } else o

/-- The loop over `self.explicit` in `Asn1Value.dump` (core.py:656-658). -/
def wrapExplicit : List (Nat × Nat) → Bytes → Bytes → Py Bytes
  | [], header, _ => .ok header
  | (c, t) :: es, header, contents => do
    let h ← dumpHeader c 1 t (header ++ contents)
    wrapExplicit es (h ++ header) contents

/-- `self._header is not None and self._header[-1:] == b'\x80'` (core.py:647, 1730, 4140). -/
def headerEnds80 (header : Option Bytes) : Bool :=
  match header with
  | none => false
  | some h => h.getLast? == some 0x80

/-- `Asn1Value.dump(force)` (core.py:632-663). `contents is None` makes `len(None)`/`+ None` a `TypeError`. -/
def asn1Dump {ν : Type} (constructable : Bool) (o : Obj ν) (force : Bool := false) : Py (Bytes × Obj ν) :=
  match o.contents with
  | none => .error .typeError
  | some c =>
    match o.header, (force || headerEnds80 o.header) with
    | some h, false => .ok (h ++ c ++ o.trailer, o)
    | _, _ => do
      let o := if constructable && o.indefinite then { o with method := 0 } else o
      let h ← dumpHeader o.cls o.method o.tag c
      let h ← wrapExplicit o.explicit h c
      let o := { o with header := some h, trailer := [] }
      .ok (h ++ c ++ o.trailer, o)

/-- The non-explicit branch of `_build` for a spec that is neither `Any` nor a `Choice`
(core.py:5549-5609, 5653-5658). `proto` is `spec(**spec_params)` without contents. -/
def buildBase {ν : Type} (constructable : Bool) (badTags : List Nat) (proto : Obj ν) (i : Info) : Py (Obj ν) :=
  if i.cls ≠ proto.cls then .error .valueError
  else do
    let o ←
      if i.method ≠ proto.method then
        if i.method = 1 ∧ proto.method = 0 ∧ i.trailer = [0, 0] ∧ constructable = true then
          .ok { proto with method := i.method, indefinite := true }
        else .error .valueError
      else .ok proto
    if i.tag ≠ o.tag ∧ i.tag ∉ badTags then .error .valueError
    else .ok { o with header := some i.header, contents := some i.contents, trailer := i.trailer, native := none }

/-- The loop over the expected explicit tags in `_build` (core.py:5497-5541), outermost first.
Bytes after the wrapped value inside an explicit wrapper are ignored, as in the code. -/
def explicitLoop : List (Nat × Nat) → Info → Bytes → Bytes → Py (Info × Bytes × Bytes)
  | [], i, h, t => .ok (i, h, t)
  | (c, tg) :: es, i, h, t =>
    if i.cls ≠ c then .error .valueError
    else if i.method ≠ 1 then .error .valueError
    else if i.tag ≠ tg then .error .valueError
    else do
      let i' ← parse i.contents
      explicitLoop es i' (h ++ i'.header) (i'.trailer ++ t)

/-- `_build` for a spec that is neither `Any` nor a `Choice` (core.py:5479-5668). -/
def buildObj {ν : Type} (constructable : Bool) (badTags : List Nat) (proto : Obj ν) (i : Info) : Py (Obj ν) :=
  match proto.explicit with
  | [] => buildBase constructable badTags proto i
  | es => do
    let (i', h, t) ← explicitLoop es.reverse i i.header i.trailer
    let o ← buildBase constructable badTags { proto with explicit := [] } i'
    .ok { o with header := some h, trailer := t, explicit := es }

/-- `cls.load(data, strict, **tagging)` (core.py:216-240, `_parse_build` 5671-5706). -/
def loadObj {ν : Type} (constructable : Bool) (badTags : List Nat) (proto : Obj ν) (data : Bytes)
    (strict : Bool := false) : Py (Obj ν) := do
  let i ← parse data strict
  buildObj constructable badTags proto i

end Asn1
