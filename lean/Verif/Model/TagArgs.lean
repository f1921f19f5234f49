import Verif.Model.Obj

/-!
# The tagging arguments of constructors and of the params of fields

All the ways to write tags: `explicit`, `implicit`, and the old `tag_type`, `class_` and `tag`. Simplified: a tag is a number or `None`, a class is a number or a
text, an argument of another kind is not modelled.
-/

namespace Asn1.TagArgs
open Asn1

/-- A class as it may be written. -/
inductive ClassArg where
  | num (n : Int)
  | text (s : String)
  deriving DecidableEq

/-- `CLASS_NAME_TO_NUM_MAP.get(c)` (core.py:88-97) -/
def classNum : ClassArg → Option Nat
  | .num n => if n = 0 then some 0 else if n = 1 then some 1 else if n = 2 then some 2 else if n = 3 then some 3 else none
  | .text s => if s = "universal" then some 0 else if s = "application" then some 1 else if s = "context" then some 2 else if s = "private" then some 3 else none

/-- The argument `explicit` or `implicit`: a number, a class and a tag, or a tuple of such pairs. -/
inductive Given where
  | number (n : Nat)
  | pair (c : ClassArg) (t : Option Nat)
  | many (l : List (ClassArg × Option Nat))
  deriving DecidableEq

/-- The arguments. -/
structure Args where
  explicit : Option Given := none
  implicit : Option Given := none
  tagType : Option String := none
  class_ : Option ClassArg := none
  tag : Option Nat := none
  deriving DecidableEq

/-- The attributes `class_`, `tag`, `implicit` and `explicit`. -/
structure Tagging where
  cls : Option Nat
  tag : Option Nat
  implicit : Bool
  explicit : List (Nat × Option Nat)
  deriving DecidableEq

/-- `if class_ is None: class_ = 'context'` -/
def orContext (c : Option ClassArg) : ClassArg := c.getD (.text "context")

/-- Normalization of `explicit` (core.py:310-318) -/
def step1 (a : Args) : Args :=
  match a.explicit with
  | none => a
  | some e =>
    let a := match e with
      | .number n => { a with class_ := some (orContext a.class_), explicit := some (.pair (orContext a.class_) (some n)) }
      | _ => a
    if a.tagType = some "explicit" then { a with tagType := none, tag := none } else a

/-- Normalization of `implicit` (core.py:320-328) -/
def step2 (a : Args) : Args :=
  match a.implicit with
  | none => a
  | some e =>
    let a := match e with
      | .number n => { a with class_ := some (orContext a.class_), implicit := some (.pair (orContext a.class_) (some n)) }
      | _ => a
    if a.tagType = some "implicit" then { a with tagType := none, tag := none } else a

/-- The old arguments (core.py:330-344) -/
def step3 (a : Args) : Py Args :=
  match a.tagType with
  | none => .ok a
  | some k =>
    let c := orContext a.class_
    if k = "explicit" then .ok { a with class_ := some c, explicit := some (.pair c a.tag) }
    else if k = "implicit" then .ok { a with class_ := some c, implicit := some (.pair c a.tag) }
    else .error .valueError

/-- The pairs of `explicit` (core.py:347-350). A pair whose tag is `None` is not wrapped in a tuple; then the class is unpacked in place of a pair, which for a
number is a `TypeError` and for a text a `ValueError`, unless it has two characters, the first of which is looked up. -/
def pairs : Given → Py (List (ClassArg × Option Nat))
  | .number _ => .error .typeError
  | .pair c (some n) => .ok [(c, some n)]
  | .pair (.num _) none => .error .typeError
  | .pair (.text s) none => if s.length = 2 then .error .keyError else .error .valueError
  | .many l => .ok l

/-- The loop over `explicit` (core.py:350-377). The number of a name is looked up before the name is refused. -/
def addExplicit : List (ClassArg × Option Nat) → Tagging → Py Tagging
  | [], t => .ok t
  | (c, n) :: es, t =>
    match classNum c, c with
    | some k, _ => addExplicit es { t with explicit := t.explicit ++ [(k, n)] }
    | none, .num _ => .error .valueError
    | none, .text _ => .error .keyError

/-- The tagging part of `Asn1Value.__init__` (core.py:309-418, 434-435), applied to the attributes `t` of the class. A tuple of pairs as `implicit` is unpacked
into what is no class. -/
def init (t : Tagging) (a : Args) (noExplicit : Bool := false) : Py Tagging := do
  let a ← step3 (step2 (step1 a))
  let t ← match a.explicit, a.implicit with
    | some e, _ => do
      let l ← pairs e
      addExplicit l t
    | none, some (.pair c n) =>
      match classNum c with
      | none => .error .valueError
      | some k => .ok { t with cls := some k, tag := n, implicit := true }
    | none, some _ => .error .valueError
    | none, none => do
      let t ← match a.class_ with
        | none => .ok t
        | some c => match classNum c with
          | none => .error .valueError
          | some k => .ok { t with cls := some k }
      let t := if t.cls = none then { t with cls := some 0 } else t
      .ok (match a.tag with | none => t | some n => { t with tag := some n })
  .ok (if noExplicit then { t with explicit := [] } else t)

/-- The keys of the params of a field that are about tags. `class` is the key of the old arguments, `class_` the name of the argument of the constructor. -/
structure Dict where
  explicit : Option Given := none
  implicit : Option Given := none
  tagType : Option String := none
  tag : Option Nat := none
  oldClass : Option ClassArg := none
  class_ : Option ClassArg := none
  deriving DecidableEq

/-- `_tag_type_to_explicit_implicit(params)` (core.py:5278-5294) -/
def convert (d : Dict) : Py Dict :=
  match d.tagType with
  | none => .ok d
  | some k =>
    match d.tag with
    | none => .error .keyError
    | some n =>
      let g := Given.pair (d.oldClass.getD (.num 2)) (some n)
      let d := if k = "explicit" then { d with explicit := some g } else if k = "implicit" then { d with implicit := some g } else d
      .ok { d with tagType := none, tag := none, oldClass := none }

/-- `spec(**params)`: there is no argument `class` (a `TypeError`). -/
def Dict.args (d : Dict) : Py Args :=
  if d.oldClass.isSome then .error .typeError else .ok { explicit := d.explicit, implicit := d.implicit, tagType := d.tagType, class_ := d.class_, tag := d.tag }

/-- The class and tag out of a param (core.py:5361-5372). A tuple of two pairs is unpacked into two pairs, the first of which is looked up as a class. -/
def paramPair : Given → Py (ClassArg × Option Nat)
  | .number n => .ok (.num 2, some n)
  | .pair c t => .ok (c, t)
  | .many l => if l.length = 2 then .error .keyError else .error .valueError

/-- The number of a class given by its name (core.py:5373-5374) -/
def numbered : Option ClassArg → Py (Option ClassArg)
  | some (.text s) => match classNum (.text s) with
    | none => .error .keyError
    | some k => .ok (some (.num k))
  | c => .ok c

/-- `_build_id_tuple(params, spec)` for a spec with a class and a tag (core.py:5337-5379). The last step replaces the class by that of the params as it is written
there. -/
def idTuple (cls tag : Option Nat) (d : Dict) : Py (Option ClassArg × Option Nat) := do
  let d ← convert d
  let (c, t) ← match d.explicit, d.implicit with
    | some e, _ => (paramPair e).map (fun p => (some p.1, p.2))
    | none, some e => (paramPair e).map (fun p => (some p.1, p.2))
    | none, none => .ok (cls.map (fun n => ClassArg.num n), tag)
  let c ← numbered c
  .ok ((d.class_.orElse fun _ => c), (d.tag.orElse fun _ => t))

end Asn1.TagArgs
