import Verif.Model.Obj
import Verif.Model.Integer

/-! # `ObjectIdentifier` (core.py:2990-3212) and `NamedCurve.register` (keys.py:491-511) -/

namespace Asn1

/-- A dict from dotted OID to name, in insertion order; keys are distinct. -/
abbrev StrMap := List (Str × Str)

/-- `d.get(k)` -/
def StrMap.get (m : StrMap) (k : Str) : Option Str := (m.find? (fun e => e.1 == k)).map Prod.snd

/-- `d[k] = v`: replaces in place or appends. -/
def StrMap.put (m : StrMap) (k v : Str) : StrMap :=
  if m.any (fun e => e.1 == k) then m.map (fun e => if e.1 == k then (k, v) else e) else m ++ [(k, v)]

/-- `ValueMap._setup` (core.py:680-690): the reverse dict built by inserting every pair in order. -/
def StrMap.reversed (m : StrMap) : StrMap := m.foldl (fun r e => r.put e.2 e.1) []

/-- Class state of an OID class with a `_map`: `_map` and `_reverse_map` (`none` before the first use). `bare` marks a
class that overrides `_setup` without building `_reverse_map` (`AnyAlgorithmId`, algos.py:1320-1324). -/
structure OidClass where
  map : Option StrMap
  rev : Option StrMap := none
  bare : Bool := false
  deriving DecidableEq, Repr

/-- `ValueMap._setup` on the class (core.py:680-690), or the override that leaves `_reverse_map` alone. -/
def OidClass.setup (c : OidClass) : OidClass :=
  match c.map, c.rev, c.bare with
  | some m, none, false => { c with rev := some m.reversed }
  | _, _, _ => c

/-- `value in self._reverse_map` and the lookup after it (core.py:3071-3072, 3108-3109); `in None` is a `TypeError`. -/
def OidClass.lookup (c : OidClass) (value : Str) : Py (Option Str) :=
  match c.rev with
  | none => .error .typeError
  | some r => .ok (r.get value)

/-- `NamedCurve.register(name, oid, key_size)` (keys.py:508-511); the key size dict is not modelled. -/
def OidClass.register (c : OidClass) (name oid : Str) : OidClass :=
  { c with map := c.map.map (fun m => m.put oid name), rev := c.rev.map (fun r => r.put name oid) }

/-- `_OID_RE.match(value)` with `^\d+(\.\d+)*$` (core.py:105); `$` also matches before a final newline.
Only ASCII digits are modelled. -/
def oidRe (s : Str) : Bool :=
  let s := if s.getLast? = some '\n' then s.dropLast else s
  (pySplit '.' s).all (fun p => !p.isEmpty && p.all (fun c => (digitVal c).isSome))

/-- `cls.map(value)` (core.py:3001-3033) -/
def OidClass.mapOid (c : OidClass) (value : Str) : Py Str :=
  match c.map with
  | none => .error .valueError
  | some m => .ok ((m.get value).getD value)

/-- `cls.unmap(value)` (core.py:3035-3083) on a class after `_setup`. -/
def OidClass.unmap (c : OidClass) (value : Str) : Py Str :=
  match c.setup.map with
  | none => .error .valueError
  | some _ =>
    match c.setup.lookup value with
    | .error e => .error e
    | .ok (some oid) => .ok oid
    | .ok none => if oidRe value then .ok value else .error .valueError

/-- The `while part > 0` loop of `ObjectIdentifier.set` (core.py:3139-3142). -/
def oidTail (n : Nat) (acc : Bytes) : Bytes :=
  if _h : n > 0 then oidTail (n >>> 7) (UInt8.ofNat (0x80 ||| (n &&& 0x7f)) :: acc) else acc
termination_by n
decreasing_by simp [Nat.shiftRight_eq_div_pow]; omega

/-- Encoding of one (merged) arc (core.py:3137-3143); `&`/`>>` on negative Python integers are floor operations. -/
def oidPart (part : Int) : Bytes := oidTail (part / 128).toNat [UInt8.ofNat (part % 128).toNat]

/-- The loop over `enumerate(value.split('.'))` (core.py:3111-3143). Returns the bytes accumulated in
`self.contents` and the exception raised, if any. -/
def oidLoop : Nat → Int → List Str → Bytes → Bytes × Option PyErr
  | _, _, [], acc => (acc, none)
  | index, first, s :: ss, acc =>
    match pyInt s with
    | .error e => (acc, some e)
    | .ok part =>
      if index = 0 then oidLoop 1 part ss acc
      else if index = 1 then
        if first > 2 then (acc, some .valueError)
        else if first < 2 ∧ part ≥ 40 then (acc, some .valueError)
        else oidLoop 2 first ss (acc ++ oidPart (first * 40 + part))
      else oidLoop (index + 1) first ss (acc ++ oidPart part)

/-- An `ObjectIdentifier` instance; `dotted` is the cache `_dotted`. -/
structure OidObj extends Obj Str where
  dotted : Option Str := none
  deriving DecidableEq, Repr

namespace Oid

/-- `ObjectIdentifier()` -/
def new : OidObj := { cls := 0, method := 0, tag := 6 }

/-- The dotted form that `set` encodes (core.py:3107-3109). -/
def _root_.Asn1.OidClass.resolve (c : OidClass) (value : Str) : Py Str :=
  match c.setup.map with
  | some _ => (c.setup.lookup value).map (fun r => r.getD value)
  | none => .ok value

/-- `ObjectIdentifier.set` (core.py:3085-3148): the new instance state and the exception raised, if any.
`_dotted` is not reset, and a failing call leaves the partial state behind. -/
def set (c : OidClass) (o : OidObj) (value : Str) : OidObj × Option PyErr :=
  match c.resolve value with
  | .error e => ({ o with native := some value }, some e)
  | .ok value' =>
    match oidLoop 0 0 (pySplit '.' value') [] with
    | (contents, some e) => ({ o with native := some value, contents := some contents }, some e)
    | (contents, none) =>
      ({ o with native := some value, contents := some contents, header := none, trailer := [] }, none)

/-- The loop of `dotted` (core.py:3165-3190). -/
def dottedLoop : Bytes → Nat → List Str → List Str
  | [], _, output => output
  | byte :: bytes, part, output =>
    let part := part * 128 + (byte.toNat &&& 127)
    if byte.toNat &&& 0x80 = 0 then
      let output :=
        if output.length = 0 then
          if part ≥ 80 then output ++ [pyStrNat 2, pyStrNat (part - 80)]
          else if part ≥ 40 then output ++ [pyStrNat 1, pyStrNat (part - 40)]
          else output ++ [pyStrNat 0, pyStrNat part]
        else output ++ [pyStrNat part]
      dottedLoop bytes 0 output
    else dottedLoop bytes part output

/-- `dotted` (core.py:3158-3192); iterating `None` contents is a `TypeError`. -/
def dotted (o : OidObj) : Py (Str × OidObj) :=
  match o.dotted with
  | some d => .ok (d, o)
  | none =>
    match o.contents with
    | none => .error .typeError
    | some c =>
      let d := pyJoin ['.'] (dottedLoop c 0 [])
      .ok (d, { o with dotted := some d })

/-- `native` (core.py:3194-3212) -/
def native (c : OidClass) (o : OidObj) : Py (Option Str × OidObj) :=
  match o.contents with
  | none => .ok (none, o)
  | some _ => do
    let (n, o) ← match o.native with
      | some n => pure (n, o)
      | none => dotted o
    let n := match c.map with
      | some m => (m.get n).getD n
      | none => n
    pure (some n, { o with native := some n })

/-- `ObjectIdentifier.load` -/
def load (proto : Obj Str) (data : Bytes) (strict : Bool := false) : Py OidObj := do
  let o ← loadObj false [] proto data strict
  pure { o with }

/-- `ObjectIdentifier.dump` (core.py:1717-1738) -/
def dump (c : OidClass) (o : OidObj) (force : Bool := false) : Py (Bytes × OidObj) :=
  if force || headerEnds80 o.header then do
    let (n, o) ← native c o
    let o := { o with contents := none }
    match n with
    | none => .error .typeError
    | some n =>
      match set c o n with
      | (_, some e) => .error e
      | (o, none) => do
        let (b, o') ← asn1Dump false o.toObj
        pure (b, { o with toObj := o' })
  else do
    let (b, o') ← asn1Dump false o.toObj
    pure (b, { o with toObj := o' })

end Oid

end Asn1
