import Verif.Model.Obj

/-! # `Boolean`, `Integer`, `Enumerated`, `Null` (core.py:1862-1993, 2959-2987, 3239-3304) -/

namespace Asn1

/-- Native value of a mapped integer type: a number or a name of the `_map`. -/
inductive IntNative where
  | int (n : Int)
  | name (s : String)
  deriving DecidableEq, Repr

/-- A `_map` dict from number to name; keys are distinct (dict). -/
abbrev IntMap := List (Int × String)

/-- `_map.get(n)` -/
def IntMap.get (m : IntMap) (n : Int) : Option String := (m.find? (fun e => e.1 == n)).map Prod.snd

/-- `_reverse_map.get(name)`; `ValueMap._setup` (core.py:680-690) overwrites earlier entries, so the last
number with that name is kept. -/
def IntMap.rev (m : IntMap) (s : String) : Option Int := (m.reverse.find? (fun e => e.2 == s)).map Prod.fst

/-- `Primitive.dump(force)` (core.py:1717-1738) given `native` (which may fill the cache) and `set`;
`setNone` is `set(None)`. -/
def primDump {ν : Type} (constructable : Bool) (native : Obj ν → Py (Option ν × Obj ν))
    (set : Obj ν → ν → Py (Obj ν)) (setNone : Obj ν → Py (Obj ν)) (o : Obj ν) (force : Bool := false) :
    Py (Bytes × Obj ν) :=
  if force || headerEnds80 o.header then do
    let (n, o) ← native o
    let o := { o with contents := none }
    let o ← match n with
      | some n => set o n
      | none => setNone o
    asn1Dump constructable o
  else asn1Dump constructable o

namespace Boolean

/-- `Boolean()` -/
def new : Obj Bool := { cls := 0, method := 0, tag := 1 }

/-- `Boolean.set` (core.py:1869-1882) -/
def set (o : Obj Bool) (value : Bool) : Py (Obj Bool) :=
  .ok { o with native := some value, contents := some (if value then [0xff] else [0x00]), header := none, trailer := [] }

/-- `Boolean.native` (core.py:1898-1912) with `__bool__` (core.py:1891-1896) -/
def native (o : Obj Bool) : Py (Option Bool × Obj Bool) :=
  match o.contents with
  | none => .ok (none, o)
  | some c =>
    match o.native with
    | some b => .ok (some b, o)
    | none => let b := decide (c ≠ [0x00]); .ok (some b, { o with native := some b })

/-- `Boolean.load` -/
def load (proto : Obj Bool) (data : Bytes) (strict : Bool := false) : Py (Obj Bool) := loadObj false [] proto data strict

/-- `Boolean.dump`; `set(None)` stores False. -/
def dump (o : Obj Bool) (force : Bool := false) : Py (Bytes × Obj Bool) :=
  primDump false native set (fun o => set o false) o force

end Boolean

namespace Integer

/-- `Integer()` -/
def new : Obj IntNative := { cls := 0, method := 0, tag := 2 }

/-- The part of `Integer.set` after the argument is a number (core.py:1963-1968). -/
def setInt (map : Option IntMap) (o : Obj IntNative) (n : Int) : Py (Obj IntNative) := do
  let nat := match map with
    | some m => match m.get n with
      | some s => .name s
      | none => .int n
    | none => .int n
  let c ← intToBytes n true
  .ok { o with native := some nat, contents := some c, header := none, trailer := [] }

/-- `Integer.set` (core.py:1922-1968); arguments that are neither int nor str (`TypeError`) are excluded by typing. -/
def set (map : Option IntMap) (o : Obj IntNative) : IntNative → Py (Obj IntNative)
  | .name s =>
    match map with
    | none => .error .valueError
    | some m => match m.rev s with
      | none => .error .valueError
      | some n => setInt map o n
  | .int n => setInt map o n

/-- `Integer.native` (core.py:1977-1993), `__int__` (core.py:1970-1975) -/
def native (map : Option IntMap) (o : Obj IntNative) : Py (Option IntNative × Obj IntNative) :=
  match o.contents with
  | none => .ok (none, o)
  | some c =>
    match o.native with
    | some v => .ok (some v, o)
    | none =>
      let n := intFromBytes c true
      let v := match map with
        | some m => match m.get n with
          | some s => .name s
          | none => .int n
        | none => .int n
      .ok (some v, { o with native := some v })

/-- `Integer.load` -/
def load (proto : Obj IntNative) (data : Bytes) (strict : Bool := false) : Py (Obj IntNative) :=
  loadObj false [] proto data strict

/-- `Integer.dump`; `set(None)` is a `TypeError`. -/
def dump (map : Option IntMap) (o : Obj IntNative) (force : Bool := false) : Py (Bytes × Obj IntNative) :=
  primDump false (native map) (set map) (fun _ => .error .typeError) o force

end Integer

namespace Enumerated

/-- `Enumerated()` -/
def new : Obj IntNative := { cls := 0, method := 0, tag := 10 }

/-- `Enumerated.set` (core.py:3247-3288); with `_map = None` the membership tests raise `TypeError`. -/
def set (map : Option IntMap) (o : Obj IntNative) (v : IntNative) : Py (Obj IntNative) :=
  match map with
  | none => .error .typeError
  | some m =>
    match v with
    | .name s => match m.rev s with
      | none => .error .valueError
      | some n => Integer.set map o (.int n)
    | .int n => match m.get n with
      | none => .error .valueError
      | some _ => Integer.set map o (.int n)

/-- `Enumerated.native` (core.py:3290-3304): `self._map[int]` raises `KeyError` for an unmapped number. -/
def native (map : Option IntMap) (o : Obj IntNative) : Py (Option IntNative × Obj IntNative) :=
  match o.contents with
  | none => .ok (none, o)
  | some c =>
    match o.native with
    | some v => .ok (some v, o)
    | none =>
      match map with
      | none => .error .typeError
      | some m => match m.get (intFromBytes c true) with
        | some s => .ok (some (.name s), { o with native := some (.name s) })
        | none => .error .keyError

/-- `Enumerated.load` -/
def load (proto : Obj IntNative) (data : Bytes) (strict : Bool := false) : Py (Obj IntNative) :=
  loadObj false [] proto data strict

/-- `Enumerated.dump` -/
def dump (map : Option IntMap) (o : Obj IntNative) (force : Bool := false) : Py (Bytes × Obj IntNative) :=
  primDump false (native map) (set map) (fun _ => .error .typeError) o force

end Enumerated

namespace Null

/-- `Null()`: `contents = b''` on the class (core.py:2966). -/
def new : Obj Unit := { cls := 0, method := 0, tag := 5, contents := some [] }

/-- `Null.set` (core.py:2968-2976): `_header` is not reset. -/
def set (o : Obj Unit) : Py (Obj Unit) := .ok { o with contents := some [] }

/-- `Null.load` -/
def load (proto : Obj Unit) (data : Bytes) (strict : Bool := false) : Py (Obj Unit) := loadObj false [] proto data strict

/-- `Null.dump`; `native` is always `None`. -/
def dump (o : Obj Unit) (force : Bool := false) : Py (Bytes × Obj Unit) :=
  primDump false (fun o => .ok (none, o)) (fun o _ => set o) set o force

end Null

end Asn1
