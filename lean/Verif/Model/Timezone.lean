import Verif.Model.Time

/-! # Time zones: `timezone` of Python 2 and `_UtcWithDst` (util.py), and the functions of the standard library that use them

Offsets are in microseconds. -/

namespace Asn1.Tzone
open Asn1.Time

/-- An instance of `timezone` (util.py:118-208): `_offset` and `_name`. -/
structure Tz2 where
  offset : Int
  name : Str
  deriving DecidableEq, Repr

/-- `timezone.__init__` (util.py:125-147) -/
def make2 (offset : Int) (name : Option Str := none) : Py Tz2 :=
  if ¬ (-usDay < offset ∧ offset < usDay) then .error .valueError
  else if offset % usDay / 1000000 % 60 ≠ 0 ∨ offset % 1000000 ≠ 0 then .error .valueError
  else
    match name with
    | some n => .ok ⟨offset, n⟩
    | none => if offset = 0 then .ok ⟨offset, "UTC".toList⟩ else .ok ⟨offset, "UTC".toList ++ formatOffset (some offset)⟩

/-- `timezone.__eq__` (util.py:149-162); `other` is `none` if it is not a `timezone`. -/
def eq2 (a : Tz2) : Option Tz2 → Bool
  | none => false
  | some b => a.offset = b.offset

/-- `timezone.__getinitargs__` (util.py:164-172) -/
def initArgs2 (a : Tz2) : Int × Option Str := (a.offset, some a.name)

/-- `copy.copy` and pickling: `tzinfo.__reduce__` of the standard library -/
def copy2 (a : Tz2) : Py Tz2 := make2 (initArgs2 a).1 (initArgs2 a).2

/-- A zone as conversions see it: `utcoffset` and `dst`, which do not depend on the time here. -/
structure Info where
  utcoffset : Int
  dst : Option Int

/-- `timezone.utcoffset`, `timezone.dst` (util.py:185-204) -/
def info2 (a : Tz2) : Info := ⟨a.offset, some 0⟩

/-- `_UtcWithDst` (util.py:274-286) -/
def utcWithDst : Info := ⟨0, some 0⟩

/-- `_UtcWithDst.tzname` (util.py:279-280) -/
def utcWithDstName : Str := "UTC".toList

/-- `datetime.tzinfo.fromutc` of the standard library, which both classes inherit -/
def fromutc (z : Info) (t : DateTime) : Py DateTime :=
  match z.dst with
  | none => .error .valueError
  | some d => do
    let t ← if z.utcoffset - d ≠ 0 then t.add (z.utcoffset - d) else .ok t
    t.add d

/-- `datetime.astimezone` of the standard library for a time with the offset `off`; `same` says that the zone is the one it has. -/
def astimezone (same : Bool) (t : DateTime) (off : Int) (z : Info) : Py DateTime :=
  if same then .ok t
  else do
    let utc ← t.add (-off)
    fromutc z { utc with tz := some z.utcoffset }

/-- `datetime.timezone._name_from_offset` of the standard library of Python 3 -/
def name3 (delta : Int) : Str :=
  if delta = 0 then "UTC".toList
  else
    let a := delta.natAbs
    let text := "UTC".toList ++ [if delta < 0 then '-' else '+'] ++ pad 2 (a / 3600000000) ++ [':'] ++ pad 2 (a % 3600000000 / 60000000)
    let rest := a % 60000000
    if rest % 1000000 ≠ 0 then text ++ [':'] ++ pad 2 (rest / 1000000) ++ ['.'] ++ pad 6 (rest % 1000000)
    else if rest / 1000000 ≠ 0 then text ++ [':'] ++ pad 2 (rest / 1000000)
    else text

/-- `datetime.timezone(offset)` of Python 3: the name that it reads as -/
def make3 (offset : Int) : Py Str := if -usDay < offset ∧ offset < usDay then .ok (name3 offset) else .error .valueError

end Asn1.Tzone
