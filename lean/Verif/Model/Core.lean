import Verif.Model.Leaf

/-!
# Containers: `Sequence`, `SequenceOf`, `Set`, `SetOf`, `Choice`, `Any`, parsable strings, `Concat`

Python classes are entries of an environment `Env` and are referred to by number, so class definitions may be
recursive. An instance is a `Val`. Methods that call methods of other values (children, chosen alternative, parsed
payload) take the record `Ops` of those operations; `ops E n` ties the knot with `n` levels of Python recursion
(running out of levels is the error `nonTermination`, standing for `RecursionError`).

Simplifications: `isinstance(value, spec)` is equality of classes (no subclasses); `_spec_callbacks` are
tables (`OidPair`); the `_native` cache of containers is not modelled (natives are recomputed); the
state of an object after a method has raised is not modelled.
-/

namespace Asn1

/-- A Python class (`Asn1Value` subclass). -/
abbrev ClassId := Nat

mutual
/-- Python values passed to constructors and returned by `native`; `pair` is the tuple accepted by `Choice`. -/
inductive PyVal where
  | scalar (s : Scalar)
  | list (l : List PyVal)
  | dict (l : List (String × PyVal))
  | pair (name : String) (v : PyVal)
  | asn1 (v : Val)
/-- Instances. `node` is a Sequence, Set, SequenceOf or SetOf (core.py:3325-3380, 4166-4188: `children`, `_contents` is
`o.contents`, `_mutated`), `choice` a Choice (core.py:1025-1058), `any` an Any, `parsable` a ParsableOctetString or
ParsableOctetBitString with its `_bytes` cache as `native`; `parsed`/`pspec` are `_parsed[0]` and `_parsed[1]`. -/
inductive Val where
  | void
  | leaf (c : ClassId) (s : LeafSt)
  | node (c : ClassId) (o : Obj Unit) (children : Option (List Child)) (mutated : Bool)
  | choice (c : ClassId) (o : Obj Unit) (alt : Option Nat) (parsed : Option Val)
  | any (c : ClassId) (o : Obj Unit) (parsed : Option Val) (pspec : Option ClassId)
  | parsable (c : ClassId) (o : Obj Bytes) (parsed : Option Val) (pspec : Option ClassId)
/-- An entry of `children`: the tuple of an element that has not been built yet (its `spec_params` are those of the
field at the same position), or an instance. -/
inductive Child where
  | lazy (i : Info) (spec : Option ClassId) (nested : Option ClassId)
  | val (v : Val)
end

instance : Inhabited PyVal := ⟨.scalar .none⟩
instance : Inhabited Val := ⟨.void⟩

/-- The params dict of a field (core.py:3346-3355). `explicit` has at most one entry in a field definition
(`_build_id_tuple`, core.py:5361-5365, cannot unpack more). -/
structure Params where
  explicit : List (Nat × Nat) := []
  implicit : Option (Nat × Nat) := none
  noExplicit : Bool := false
  optional : Bool := false
  default : Option PyVal := none

/-- The tagging arguments among the params. -/
def Params.tags (p : Params) : TagParams := ⟨p.explicit, p.implicit, p.noExplicit⟩

/-- One entry of `_fields` or `_alternatives`. -/
structure Field where
  name : String
  spec : ClassId
  params : Params := {}

/-- What is decided about the class of a field (core.py:3753-3783): it stays as declared, a value spec is found (`spec_override`), or the
field spec is replaced. -/
inductive Pick where
  | same
  | value (c : ClassId)
  | field (c : ClassId)

/-- The field spec afterwards, when `f` is declared. -/
def Pick.fieldSpec (f : ClassId) : Pick → ClassId
  | .field c => c
  | _ => f

/-- The value spec afterwards. -/
def Pick.valueSpec (f : ClassId) : Pick → ClassId
  | .field c => c
  | .value c => c
  | .same => f

/-- How the class of the field at position `value` depends on another field: `_oid_pair` as field positions with `_oid_specs`
(core.py:3367-3377), or an entry of `_spec_callbacks` (core.py:3756-3775). The value looked at is that of the field at `oid`, or of its
own field at `sub` (`self['algorithm']['algorithm']`, keys.py:716, 1080). `specs` is the outcome for the names listed, `other` the one
for all other values (for `_oid_pair` nothing; a callback may raise). Simplified: one field per class (no class of the package has more),
and a callback is a table; a field declared without spec is one of class `Any` whose spec is always replaced. -/
structure OidPair where
  oid : Nat
  sub : Option Nat := none
  value : Nat
  specs : List (Str × Pick)
  other : Py Pick := .ok .same

/-- The outcome for a native value. -/
def OidPair.choose (p : OidPair) : PyVal → Py Pick
  | .scalar (.str s) => match p.specs.find? (fun e => e.1 == s) with
    | some e => .ok e.2
    | none => p.other
  | _ => p.other

/-- Class-level attributes of a class. `choice.tagged` is (class_, tag) of a Choice class that sets them. -/
inductive Shape where
  | leaf (proto : LeafSt) (badTags : List Nat)
  | seq (proto : Obj Unit) (badTags : List Nat) (isSet : Bool) (fields : List Field) (oid : Option OidPair)
  | seqOf (proto : Obj Unit) (badTags : List Nat) (isSet : Bool) (child : Option ClassId)
  | choice (explicit : List (Nat × Nat)) (tagged : Option (Nat × Nat)) (alts : List Field)
  | any
  | parsable (proto : Obj Bytes) (isBit : Bool)

/-- All classes, and `_UNIVERSAL_SPECS` (core.py:5406-5435). -/
structure Env where
  cls : ClassId → Shape
  universal : Nat → Option ClassId

/-- The operations on values used recursively. -/
structure Ops where
  /-- `value.dump(force)` -/
  dump : Val → Bool → Py (Bytes × Val)
  /-- `value.native` -/
  native : Val → Py (PyVal × Val)
  /-- `value.contents` -/
  contents : Val → Py (Option Bytes × Val)
  /-- `_build(*info, spec=spec, spec_params=params, nested_spec=nested)` -/
  build : Info → Option ClassId → Params → Option ClassId → Py Val
  /-- `spec(value, **params)` -/
  construct : ClassId → Params → PyVal → Py Val
  /-- `_copy` onto a new instance with the given class, tag, implicit flag and explicit tags -/
  copyTo : Val → Nat → Nat → Bool → List (Nat × Nat) → Py Val
  /-- `value[idx]` -/
  item : Val → Nat → Py (Val × Val)

/-- (class_, tag) of a class, `none` for (None, None). -/
def Shape.ident : Shape → Option (Nat × Nat)
  | .leaf s _ => some (s.base.cls, s.base.tag)
  | .seq o _ _ _ _ => some (o.cls, o.tag)
  | .seqOf o _ _ _ => some (o.cls, o.tag)
  | .choice _ tagged _ => tagged
  | .any => none
  | .parsable o _ => some (o.cls, o.tag)

/-- `_build_id_tuple(params, spec)` (core.py:5337-5379): class-level explicit tags are not looked at. -/
def fieldIdent (E : Env) (f : Field) : Option (Nat × Nat) :=
  match f.params.explicit.getLast?, f.params.implicit with
  | some e, _ => some e
  | none, some e => some e
  | none, none => (E.cls f.spec).ident

/-- `isinstance(value, cls)`; `VOID` and plain classes are told apart by number. -/
def Val.classOf : Val → Option ClassId
  | .void => none
  | .leaf c _ => some c
  | .node c _ _ _ => some c
  | .choice c _ _ _ => some c
  | .any c _ _ _ => some c
  | .parsable c _ _ _ => some c

/-- `class_`, `tag` (None for Void, Choice and Any, whose tags are not set by construction), `implicit`, `explicit`. -/
def Val.tagging : Val → Option Nat × Option Nat × Bool × List (Nat × Nat)
  | .void => (none, none, false, [])
  | .leaf _ s => (some s.base.cls, some s.base.tag, s.base.implicit, s.base.explicit)
  | .node _ o _ _ => (some o.cls, some o.tag, o.implicit, o.explicit)
  | .choice _ o _ _ => (none, none, false, o.explicit)
  | .any _ o _ _ => (none, none, false, o.explicit)
  | .parsable _ o _ _ => (some o.cls, some o.tag, o.implicit, o.explicit)

/-- `is VOID` -/
def Val.isVoid : Val → Bool
  | .void => true
  | _ => false

mutual
/-- `_is_mutated` (core.py:3482-3495, 4257-4270): only direct `Sequence`/`SequenceOf` children are asked. -/
def Val.isMutated : Val → Bool
  | .node _ _ none m => m
  | .node _ _ (some cs) m => m || childrenMutated cs
  | _ => false
/-- The loop over the children. -/
def childrenMutated : List Child → Bool
  | [] => false
  | .lazy _ _ _ :: cs => childrenMutated cs
  | .val v :: cs => v.isMutated || childrenMutated cs
end

/-- The error of `Choice.validate` when no alternative matches (core.py:1300-1313): the message lists the ids of the
alternatives, and the class of an alternative without id (an untagged Choice or Any) has no name. -/
def choiceMismatch (E : Env) (alts : List Field) : PyErr :=
  if alts.any (fun f => (fieldIdent E f).isNone) then .keyError else .valueError

/-- Result of `Choice.validate` (core.py:1251-1313): the index of the alternative. `_id_map` keeps the last
alternative for an id. -/
def choiceValidate (E : Env) (explicit : List (Nat × Nat)) (tagged : Option (Nat × Nat)) (alts : List Field)
    (cls tag : Nat) (contents : Bytes) : Py Nat := do
  let id ←
    match explicit.getLast? with
    | none => .ok (cls, tag)
    | some e =>
      if e ≠ (cls, tag) then .error .valueError
      else do
        let i ← parse contents
        .ok (i.cls, i.tag)
  match alts.zipIdx.reverse.find? (fun a => fieldIdent E a.1 == some id) with
  | some a => .ok a.2
  | none =>
    match tagged with
    | some t => if alts.length > 1 then .error .valueError else if id = t then .ok 0 else .error (choiceMismatch E alts)
    | none => .error (choiceMismatch E alts)

/-- Explicit tags of a Choice instance made with the params (core.py:346-378, 434-435). -/
def choiceExplicit (explicit : List (Nat × Nat)) (p : Params) : List (Nat × Nat) :=
  if p.noExplicit then [] else explicit ++ p.explicit

/-- `_parse_build(data, spec=spec, spec_params=params)` (core.py:5671-5706) -/
def parseBuild (r : Ops) (data : Bytes) (spec : Option ClassId) (params : Params) : Py Val := do
  let i ← parse data
  r.build i spec params none

/-- The params with which the explicit branch of `_build` rebuilds the inner value (core.py:5543). -/
def noExplicitParams : Params := { noExplicit := true }

/-! ### Children of a Sequence -/

/-- Params of the field at a position; children beyond the fields have none. -/
def paramsAt (fields : List Field) (idx : Nat) : Params := ((fields[idx]?).map Field.params).getD {}

/-- `_lazy_child` (core.py:3497-3505, 4272-4281) -/
def buildChild (r : Ops) (params : Params) : Child → Py Val
  | .lazy i spec nested => r.build i spec params nested
  | .val v => .ok v

/-- The native value that decides (core.py:3778, keys.py:716, 1080). The value cached in the inner field is not kept. -/
def decisive (r : Ops) (sub : Option Nat) (v : Val) : Py (PyVal × Val) :=
  match sub with
  | none => r.native v
  | some k => do
    let (x, v) ← r.item v k
    let (n, _) ← r.native x
    .ok (n, v)

/-- `_determine_spec` for a field whose class depends on another one (core.py:3756-3781): native value of the other child,
which is built if necessary. -/
def oidOverride (r : Ops) (fields : List Field) (oid : Option OidPair) (idx : Nat) (children : List Child) :
    Py (Pick × List Child) :=
  match oid with
  | none => .ok (.same, children)
  | some p =>
    if p.value = idx then
      match children[p.oid]? with
      | none => .error .indexError
      | some ch => do
        let v ← buildChild r (paramsAt fields p.oid) ch
        let (n, v) ← decisive r p.sub v
        let pick ← p.choose n
        .ok (pick, children.set p.oid (.val v))
    else .ok (.same, children)

/-- The test whether an optional or default field is absent (core.py:3925-3946). A replaced field spec is not looked at (in the package only
fields that are neither optional nor have a default have one). The tester instance of a Choice with
a `default` param cannot be made (`Choice` has no `set`); an `implicit` param is refused with a `ValueError`, which is
caught like those of `validate`. -/
def fieldAbsent (E : Env) (f : Field) (i : Info) : Py Bool :=
  if (f.params.optional || f.params.default.isSome) && fieldIdent E f != some (i.cls, i.tag) then
    match E.cls f.spec with
    | .any => .ok false
    | .choice explicit tagged alts =>
      if f.params.default.isSome then .error .attributeError
      else if f.params.implicit.isSome then .ok true
      else
        match choiceValidate E (choiceExplicit explicit f.params) tagged alts i.cls i.tag i.contents with
        | .ok _ => .ok false
        | .error .valueError => .ok true
        | .error e => .error e
    | _ => .ok true
  else .ok false

/-- Finds the field for the element `i`, appending absent optional and default fields (core.py:3920-3955; the branch
3957-3981 is unreachable; an element after the last field is kept without spec, 3983-3984). `fields` are the remaining
fields, `all` the whole list. -/
def placeElement (E : Env) (r : Ops) (all : List Field) (oid : Option OidPair) (i : Info) :
    List Field → List Child → Py (List Field × List Child)
  | [], children => .ok ([], children ++ [.lazy i none none])
  | f :: fs, children => do
    let (override, children) ← oidOverride r all oid children.length children
    if ← fieldAbsent E f i then
      if f.params.optional then placeElement E r all oid i fs (children ++ [.val .void])
      else do
        let d ← r.construct f.spec f.params (.scalar .none)
        placeElement E r all oid i fs (children ++ [.val d])
    else
      match override, E.cls f.spec with
      | .value c, .any => .ok (fs, children ++ [.lazy i (some c) none])
      | .value c, _ => .ok (fs, children ++ [.lazy i (some f.spec) (some c)])
      | .field c, _ => .ok (fs, children ++ [.lazy i (some c) none])
      | .same, _ => .ok (fs, children ++ [.lazy i (some f.spec) none])

/-- The `while again` loop (core.py:3907-3993). -/
def seqLoop (E : Env) (r : Ops) (all : List Field) (oid : Option OidPair) (data : Bytes) :
    Nat → Nat → List Field → List Child → Py (List Field × List Child)
  | 0, _, _, _ => .error .nonTermination
  | fuel + 1, pointer, fields, children =>
    if pointer < data.length then do
      let (i, pointer) ← parseFrom data data.length pointer
      let (fields, children) ← placeElement E r all oid i fields children
      seqLoop E r all oid data fuel pointer fields children
    else .ok (fields, children)

/-- Fields for which no element is left (core.py:3995-4009). -/
def fillAbsent (r : Ops) : List Field → List Child → Py (List Child)
  | [], children => .ok children
  | f :: fs, children =>
    if f.params.default.isSome then do
      let d ← r.construct f.spec f.params (.scalar .none)
      fillAbsent r fs (children ++ [.val d])
    else if f.params.optional then fillAbsent r fs (children ++ [.val .void])
    else .error .valueError

/-! ### Tag fixing and `_make_value` -/

/-- `class_`, `tag`, `implicit` and `explicit` of a class. -/
def Shape.tagging : Shape → Nat × Nat × Bool × List (Nat × Nat)
  | .leaf s _ => (s.base.cls, s.base.tag, s.base.implicit, s.base.explicit)
  | .seq o _ _ _ _ => (o.cls, o.tag, o.implicit, o.explicit)
  | .seqOf o _ _ _ => (o.cls, o.tag, o.implicit, o.explicit)
  | .choice e _ _ => (0, 0, false, e)
  | .any => (0, 0, false, [])
  | .parsable o _ => (o.cls, o.tag, o.implicit, o.explicit)

/-- Tagging of the class of an instance. -/
def protoTagging (E : Env) (v : Val) : Nat × Nat × Bool × List (Nat × Nat) :=
  match v.classOf with
  | none => (0, 0, false, [])
  | some c => (E.cls c).tagging

/-- `retag({'explicit': .., 'implicit': ..})` (core.py:552-572); a `Choice` refuses implicit tags (core.py:1121-1128). -/
def retag (E : Env) (r : Ops) (v : Val) (explicit : List (Nat × Nat)) (implicit : Option (Nat × Nat)) : Py Val :=
  let (c, t, i, es) := protoTagging E v
  match v, implicit, explicit with
  | .choice _ _ _ _, some _, _ => .error .valueError
  | _, some (c, t), [] => r.copyTo v c t true es
  | _, _, explicit => r.copyTo v c t i (es ++ explicit)

/-- `untag()` (core.py:574-584) -/
def untag (E : Env) (r : Ops) (v : Val) : Py Val := retag E r v [] none

/-- `copy()` (core.py:499-550) -/
def copyVal (r : Ops) (v : Val) : Py Val :=
  match v.tagging with
  | (c, t, i, e) => r.copyTo v (c.getD 0) (t.getD 0) i e

/-- `_fix_tagging(value, params)` (core.py:5297-5334); `same` is the outcome of
`params.get('explicit') == value.explicit`. -/
def fixTags (E : Env) (r : Ops) (v : Val) (explicit : List (Nat × Nat)) (implicit : Option (Nat × Nat)) (same : Bool) :
    Py Val :=
  let (c, t, i, _) := v.tagging
  let implicitDiffers := match implicit with
    | none => i
    | some (pc, pt) => !i || c != some pc || t != some pt
  if implicitDiffers || !same then retag E r v explicit implicit else .ok v

/-- `_fix_tagging(value, params)` for the params of a field: the explicit param is an int or pair while `value.explicit`
is `None` or a tuple of pairs, so they are equal only when both are missing. -/
def fixTagging (E : Env) (r : Ops) (v : Val) (p : Params) : Py Val :=
  fixTags E r v p.explicit p.implicit (p.explicit.isEmpty && v.tagging.2.2.2.isEmpty)

/-- `Any.parse(spec)` / `Any.parsed` (core.py:942-990); `spec_params` are not given. Concatenating a `None` header is a
`TypeError`. -/
def anyParse (r : Ops) (c : ClassId) (o : Obj Unit) (parsed : Option Val) (pspec : Option ClassId)
    (spec : Option ClassId) : Py (Val × Val) :=
  match parsed, decide (pspec = spec) with
  | some v, true => .ok (v, .any c o parsed pspec)
  | _, _ =>
    match o.header, o.contents with
    | some h, some cs => do
      let v ← parseBuild r (h ++ cs ++ o.trailer) spec { explicit := o.explicit }
      .ok (v, .any c { o with explicit := [], implicit := false, header := some [], contents := some (h ++ cs ++ o.trailer), trailer := [] }
        (some v) spec)
    | _, _ => .error .typeError

/-- `__bytes__` of a parsable string (core.py:2811-2821); chunks are merged by `_as_chunk` of the class
(core.py:773-783, 2941-2956). -/
def parsableChunk (isBit : Bool) (_ : Bool) (contents : Bytes) : Py Bytes :=
  if isBit then
    match contents with
    | [] => .error .indexError
    | u :: rest => if u ≠ 0 then .error .valueError else .ok rest
  else .ok contents

/-- `__bytes__` (core.py:2811-2821) -/
def parsableBytes (isBit : Bool) (cproto o : Obj Bytes) : Py (Bytes × Obj Bytes) :=
  match o.contents with
  | none => .ok ([], o)
  | some c =>
    match o.native with
    | some b => .ok (b, o)
    | none => do
      let b ← mergeObj (parsableChunk isBit) cproto o.indefinite c
      .ok (b, { o with native := some b })

/-- `set` (core.py:2762-2786, 2911-2939): the parsed value is kept. -/
def parsableSet (isBit : Bool) (o : Obj Bytes) (b : Bytes) : Obj Bytes :=
  strPut o b (if isBit then 0 :: b else b)

/-- Class attributes of a parsable string class. -/
def parsableProto (E : Env) (c : ClassId) : Obj Bytes × Bool :=
  match E.cls c with
  | .parsable p b => (p, b)
  | _ => ({ cls := 0, method := 0, tag := 4 }, false)

/-- `ParsableOctetString.parse(spec)` (core.py:2788-2809) -/
def parsableParse (E : Env) (r : Ops) (c : ClassId) (o : Obj Bytes) (parsed : Option Val) (pspec : Option ClassId)
    (spec : Option ClassId) : Py (Val × Val) :=
  match parsed, decide (pspec = spec) with
  | some v, true => .ok (v, .parsable c o parsed pspec)
  | _, _ => do
    let (b, o) ← parsableBytes (parsableProto E c).2 (parsableProto E c).1 o
    let v ← parseBuild r b spec {}
    .ok (v, .parsable c o (some v) spec)

/-- `value.parse(spec)` -/
def parseAs (E : Env) (r : Ops) (v : Val) (spec : Option ClassId) : Py (Val × Val) :=
  match v with
  | .any c o p s => anyParse r c o p s spec
  | .parsable c o p s => parsableParse E r c o p s spec
  | _ => .error .attributeError

/-- `.parsed` (core.py:928-940, 2866-2878): parses without spec unless something has been parsed already. -/
def parsedOf (E : Env) (r : Ops) (v : Val) : Py (Val × Val) :=
  match v with
  | .any _ _ (some p) _ => .ok (p, v)
  | .parsable _ _ (some p) _ => .ok (p, v)
  | v => parseAs E r v none

/-- The wrapping of a value in a Choice (core.py:3829-3833, 4321-4325). The class of VOID and of an instance of `Choice` or `Any` is `None`, which has no name
in the message of the mismatch (core.py:1300-1321). -/
def wrapChoice (E : Env) (r : Ops) (c : ClassId) (v : Val) : Py Val :=
  match E.cls c with
  | .choice explicit tagged alts => do
    let (cs, v) ← r.contents v
    match v.tagging with
    | (some vc, some vt, _, _) => do
      let k ← choiceValidate E explicit tagged alts vc vt (cs.getD [])
      .ok (.choice c { cls := 0, method := 0, tag := 0, explicit := explicit } (some k) (some v))
    | _ => .error (if explicit ≠ [] ∨ (tagged.isSome ∧ alts.length > 1) then .valueError else .keyError)
  | _ => .error .attributeError

/-- `field_spec(parsed=v, **params)` (core.py:2739-2760; written out in `_make_value`, 3869-3875): the string holds `v.dump()` and `v` is
what has been parsed. For a class without `parsed` parameter the value is only encoded. -/
def embedPayload (r : Ops) (field : ClassId) (p : Params) (v : Val) : Py Val := do
  let (b, v) ← r.dump v false
  match ← r.construct field p (.scalar (.bytes b)) with
  | .parsable fc o _ _ => .ok (.parsable fc o (some v) v.classOf)
  | w => .ok w

/-- The branches of `Sequence._make_value` before `_fix_tagging` (core.py:3811-3875). `field` is `field_spec`, `c` is
`value_spec`. -/
def makeRaw (E : Env) (r : Ops) (field : ClassId) (c : ClassId) (p : Params) (value : PyVal) : Py Val :=
  match E.cls c, value with
  | .choice _ _ _, .asn1 v => if v.classOf = some c then .ok v else wrapChoice E r c v
  | .choice _ _ _, .pair n v => r.construct c {} (.pair n v)
  | .choice _ _ _, .dict [(n, v)] => r.construct c {} (.pair n v)
  | .choice _ _ _, _ => .error .valueError
  | _, .asn1 v =>
    if v.classOf = some field then
      if field ≠ c then do
        let (_, v) ← parseAs E r v (some c)
        .ok v
      else .ok v
    else if v.classOf = some c then
      match E.cls field with
      | .any => .ok v
      | _ => embedPayload r field p v
    else
      match E.cls field, decide (field = c) with
      | .any, true => r.construct c p value
      | _, _ => .error .typeError
  | _, value =>
    match decide (field = c), E.cls field with
    | true, _ => r.construct c p value
    | false, .any => r.construct c p value
    | false, _ => do
      let v ← r.construct c {} value
      embedPayload r field p v

/-- `Sequence._make_value` (core.py:3785-3879) -/
def makeValue (E : Env) (r : Ops) (field : ClassId) (c : ClassId) (p : Params) (value : PyVal) : Py Val :=
  match value, p.optional with
  | .scalar .none, true => .ok .void
  | value, _ => do
    let v ← makeRaw E r field c p value
    fixTagging E r v p

/-- Children of a Sequence without contents (core.py:3895-3905). -/
def freshChildren (E : Env) (r : Ops) (all : List Field) (oid : Option OidPair) : List Field → Nat → List Child → Py (List Child)
  | [], _, children => .ok children
  | f :: fs, idx, children => do
    match f.params.default with
    | none => freshChildren E r all oid fs (idx + 1) children
    | some _ => do
      let (override, children) ← oidOverride r all oid idx children
      let v ← makeValue E r (override.fieldSpec f.spec) (override.valueSpec f.spec) f.params (.scalar .none)
      freshChildren E r all oid fs (idx + 1) (children.set idx (.val v))

/-- `Sequence._parse_children` (core.py:3881-4015). Without fields and contents `children` stays `None`, which the
callers then fail on (`len(None)`). -/
def parseSeq (E : Env) (r : Ops) (fields : List Field) (oid : Option OidPair) (contents : Option Bytes) : Py (List Child) :=
  match contents with
  | none => if fields.isEmpty then .error .typeError else freshChildren E r fields oid fields 0 (fields.map (fun _ => .val .void))
  | some data => do
    let (rest, children) ← seqLoop E r fields oid data (data.length + 1) 0 fields []
    fillAbsent r rest children

/-- The `while` loop of `SequenceOf._parse_children` (core.py:4512-4524). -/
def elementLoop (spec : Option ClassId) (data : Bytes) : Nat → Nat → List Child → Py (List Child)
  | 0, _, _ => .error .nonTermination
  | fuel + 1, pointer, children =>
    if pointer < data.length then do
      let (i, pointer) ← parseFrom data data.length pointer
      elementLoop spec data fuel pointer (children ++ [.lazy i spec none])
    else .ok children

/-- `SequenceOf._parse_children` (core.py:4495-4529) -/
def parseSeqOf (spec : Option ClassId) (contents : Option Bytes) : Py (List Child) :=
  match contents with
  | none => .ok []
  | some data => elementLoop spec data (data.length + 1) 0 []

/-- The loop of `Set._parse_children` over the elements (core.py:4690-4730): `slots` has one entry per field
(`child_map`); an element for a field that is already filled replaces it. -/
def setLoop (E : Env) (r : Ops) (fields : List Field) (data : Bytes) : Nat → Nat → List (Option Child) → Py (List (Option Child))
  | 0, _, _ => .error .nonTermination
  | fuel + 1, pointer, slots =>
    if pointer < data.length then do
      let (i, pointer) ← parseFrom data data.length pointer
      match fields.zipIdx.reverse.find? (fun f => fieldIdent E f.1 == some (i.cls, i.tag)) with
      | none => .error .valueError
      | some (f, idx) => setLoop E r fields data fuel pointer (slots.set idx (some (.lazy i (some f.spec) none)))
    else .ok slots

/-- Fields without an element (core.py:4732-4767). -/
def setFill (r : Ops) : List Field → List (Option Child) → Py (List Child)
  | [], _ => .ok []
  | _ :: fs, some c :: slots => do
    let cs ← setFill r fs slots
    .ok (c :: cs)
  | f :: fs, slots => do
    if f.params.optional then do
      let cs ← setFill r fs slots.tail
      .ok (.val .void :: cs)
    else if f.params.default.isSome then do
      let d ← r.construct f.spec f.params (.scalar .none)
      let cs ← setFill r fs slots.tail
      .ok (.val d :: cs)
    else .error .valueError

/-- `Set._parse_children` (core.py:4663-4772); `_oid_pair` of a Set is not modelled. -/
def parseSet (E : Env) (r : Ops) (fields : List Field) (contents : Option Bytes) : Py (List Child) :=
  match contents with
  | none => if fields.isEmpty then .error .typeError else freshChildren E r fields none fields 0 (fields.map (fun _ => .val .void))
  | some data => do
    let slots ← setLoop E r fields data (data.length + 1) 0 (fields.map (fun _ => none))
    setFill r fields slots

/-- `_parse_children` of the class `c` -/
def parseChildren (E : Env) (r : Ops) (c : ClassId) (contents : Option Bytes) : Py (List Child) :=
  match E.cls c with
  | .seq _ _ false fields oid => parseSeq E r fields oid contents
  | .seq _ _ true fields _ => parseSet E r fields contents
  | .seqOf _ _ _ child => parseSeqOf child contents
  | _ => .error .attributeError

/-- `if self.children is None: self._parse_children()` -/
def ensureChildren (E : Env) (r : Ops) (c : ClassId) (o : Obj Unit) (children : Option (List Child)) : Py (List Child) :=
  match children with
  | some cs => .ok cs
  | none => parseChildren E r c o.contents

/-! ### `_set_contents` -/

/-- Encoding of one field (core.py:3688-3703): the bytes written, empty when equal to the default. -/
def fieldEncoding (r : Ops) (force : Bool) (f : Field) (ch : Child) : Py (Bytes × Child) := do
  let (b, ch) ←
    match ch, force with
    | .lazy i spec nested, true => do
      let v ← r.build i spec f.params nested
      let (b, v) ← r.dump v true
      .ok (b, Child.val v)
    | .lazy i _ _, false => .ok (i.header ++ i.contents ++ i.trailer, ch)
    | .val v, force => do
      let (b, v) ← r.dump v force
      .ok (b, Child.val v)
  match f.params.default with
  | none => .ok (b, ch)
  | some _ => do
    let d ← r.construct f.spec f.params (.scalar .none)
    let (db, _) ← r.dump d false
    .ok (if db = b then [] else b, ch)

/-- `Sequence._set_contents` (core.py:3673-3709): children beyond the fields are not written. -/
def encodeFields (r : Ops) (force : Bool) : List Field → List Child → Py (Bytes × List Child)
  | [], children => .ok ([], children)
  | _ :: _, [] => .error .indexError
  | f :: fs, ch :: chs => do
    let (b, ch) ← fieldEncoding r force f ch
    let (bs, chs) ← encodeFields r force fs chs
    .ok (b ++ bs, ch :: chs)

/-- The loop of `Set._set_contents` (core.py:4789-4799): (tag, encoding) of the fields that are not default. A child
that has not been built is a tuple, which has no `dump`. -/
def encodeSetFields (r : Ops) (force : Bool) : List Field → List Child → Py (List (Option Nat × Bytes) × List Child)
  | _, [] => .ok ([], [])
  | [], _ :: _ => .error .indexError
  | _ :: _, .lazy _ _ _ :: _ => .error .attributeError
  | f :: fs, .val v :: chs => do
    let (b, v) ← r.dump v force
    let skip ←
      match f.params.default with
      | none => .ok false
      | some _ => do
        let d ← r.construct f.spec f.params (.scalar .none)
        let (db, _) ← r.dump d false
        .ok (decide (db = b))
    let (es, chs) ← encodeSetFields r force fs chs
    .ok (if skip then es else (v.tagging.2.1, b) :: es, .val v :: chs)

/-- `sort(key=tag)` (core.py:4800): comparing `None` with anything is a `TypeError`. -/
def sortByTag (es : List (Option Nat × Bytes)) : Py (List Bytes) :=
  if es.length ≥ 2 ∧ es.any (fun e => e.1.isNone) then .error .typeError
  else .ok ((es.mergeSort (fun a b => decide (a.1.getD 0 ≤ b.1.getD 0))).map Prod.snd)

/-- Encodings of all children, built if necessary (core.py:4487-4488, 4833-4834). -/
def encodeElements (r : Ops) (force : Bool) : List Child → Py (List Bytes × List Child)
  | [] => .ok ([], [])
  | ch :: chs => do
    let v ← buildChild r {} ch
    let (b, v) ← r.dump v force
    let (bs, chs) ← encodeElements r force chs
    .ok (b :: bs, .val v :: chs)

/-- Order of Python byte strings. -/
def bytesLe : Bytes → Bytes → Bool
  | [], _ => true
  | _ :: _, [] => false
  | a :: as, b :: bs => if a < b then true else if b < a then false else bytesLe as bs

/-- `_set_contents` (core.py:3673-3709, 4474-4493, 4774-4806, 4817-4840): new contents and children. -/
def encodeChildren (E : Env) (r : Ops) (c : ClassId) (force : Bool) (children : List Child) : Py (Bytes × List Child) :=
  match E.cls c with
  | .seq _ _ false fields _ => encodeFields r force fields children
  | .seq _ _ true fields _ => do
    let (es, children) ← encodeSetFields r force fields children
    let bs ← sortByTag es
    .ok (bs.flatten, children)
  | .seqOf _ _ false _ => do
    let (bs, children) ← encodeElements r force children
    .ok (bs.flatten, children)
  | .seqOf _ _ true _ => do
    let (bs, children) ← encodeElements r force children
    .ok ((bs.mergeSort bytesLe).flatten, children)
  | _ => .error .attributeError

/-- `_set_contents(force)` -/
def setContents (E : Env) (r : Ops) (c : ClassId) (o : Obj Unit) (children : Option (List Child)) (force : Bool) :
    Py (Obj Unit × List Child) := do
  let cs ← ensureChildren E r c o children
  let (b, cs) ← encodeChildren E r c force cs
  .ok ({ o with contents := some b, header := none, trailer := [] }, cs)

/-- The `contents` property (core.py:3458-3471, 4233-4246): instance attributes, children and `_mutated` afterwards. -/
def nodeContents (E : Env) (r : Ops) (c : ClassId) (o : Obj Unit) (children : Option (List Child)) (mutated : Bool) :
    Py (Obj Unit × Option (List Child) × Bool) :=
  match children with
  | none => .ok (o, none, mutated)
  | some cs =>
    if (Val.node c o (some cs) mutated).isMutated then do
      let (o, cs) ← setContents E r c o (some cs) false
      .ok (o, some cs, false)
    else .ok (o, some cs, mutated)

/-- `_fields == [] and self.__class__ is Sequence` (core.py:4144). Subclasses of Sequence without fields are not
modelled. -/
def isPlainSequence (E : Env) (c : ClassId) : Bool :=
  match E.cls c with
  | .seq _ _ false [] _ => true
  | _ => false

/-- The check for required fields that are absent (core.py:4150-4161). -/
def requiredPresent : List Field → List Child → Py Unit
  | [], _ => .ok ()
  | _ :: _, [] => .error .indexError
  | f :: fs, .val .void :: chs =>
    if f.params.default.isSome || f.params.optional then requiredPresent fs chs else .error .valueError
  | _ :: fs, _ :: chs => requiredPresent fs chs

/-- That check for a class. -/
def checkRequired (E : Env) (c : ClassId) (children : Option (List Child)) : Py Unit :=
  match E.cls c, children with
  | .seq _ _ _ fields _, some cs => requiredPresent fields cs
  | _, _ => .ok ()

/-- `Sequence.dump` (core.py:4127-4163), `SequenceOf.dump` (core.py:4600-4619) -/
def nodeDump (E : Env) (r : Ops) (c : ClassId) (o : Obj Unit) (children : Option (List Child)) (mutated : Bool) (force : Bool) :
    Py (Bytes × Val) := do
  let force := (force || headerEnds80 o.header) && !isPlainSequence E c
  let (o, children, mutated) ←
    if force then do
      let (o, cs) ← setContents E r c o children true
      .ok (o, some cs, false)
    else .ok (o, children, mutated)
  checkRequired E c children
  let (o, children, mutated) ← nodeContents E r c o children mutated
  let (b, o) ← asn1Dump false o
  .ok (b, .node c o children mutated)

/-- `Choice.parse` / `Choice.chosen` (core.py:1213-1238) -/
def choiceParse (E : Env) (r : Ops) (c : ClassId) (o : Obj Unit) (alt : Option Nat) (parsed : Option Val) : Py Val :=
  match parsed with
  | some v => .ok v
  | none =>
    match E.cls c, alt with
    | .choice _ _ alts, some k =>
      match alts[k]?, o.contents with
      | some f, some data => parseBuild r data (some f.spec) f.params
      | _, _ => .error .typeError
    | _, _ => .error .typeError

/-- Explicit headers of a Choice (core.py:1358-1361) -/
def choiceHeader : List (Nat × Nat) → Bytes → Bytes → Py Bytes
  | [], header, _ => .ok header
  | (c, t) :: es, header, contents => do
    let h ← dumpHeader c 1 t (header ++ contents)
    choiceHeader es (h ++ header) contents

/-- `Choice.dump` (core.py:1340-1362): the trailer is not written. -/
def choiceDump (E : Env) (r : Ops) (c : ClassId) (o : Obj Unit) (alt : Option Nat) (parsed : Option Val) (force : Bool) :
    Py (Bytes × Val) := do
  let force := force || headerEnds80 o.header
  let v ← choiceParse E r c o alt parsed
  let (b, v) ← r.dump v force
  match o.header, force with
  | some h, false => .ok (h ++ b, .choice c { o with contents := some b } alt (some v))
  | _, _ => do
    let h ← choiceHeader o.explicit [] b
    .ok (h ++ b, .choice c { o with header := some h, contents := some b } alt (some v))

/-- `ParsableOctetString.dump` (core.py:2880-2904) -/
def parsableDump (E : Env) (r : Ops) (c : ClassId) (o : Obj Bytes) (parsed : Option Val) (pspec : Option ClassId) (force : Bool) :
    Py (Bytes × Val) := do
  if force || o.indefinite then
    match parsed with
    | some v => do
      let (b, v) ← r.dump v true
      let (out, o) ← asn1Dump true (parsableSet (parsableProto E c).2 { o with contents := none } b)
      .ok (out, .parsable c o (some v) pspec)
    | none => do
      match o.contents with
      | none => .error .typeError
      | some _ => do
        let (b, o) ← parsableBytes (parsableProto E c).2 (parsableProto E c).1 o
        let (out, o) ← asn1Dump true (parsableSet (parsableProto E c).2 { o with contents := none } b)
        .ok (out, .parsable c o none pspec)
  else do
    let (out, o) ← asn1Dump true o
    .ok (out, .parsable c o parsed pspec)

/-- `dump(force)` -/
def dumpStep (E : Env) (r : Ops) (v : Val) (force : Bool) : Py (Bytes × Val) :=
  match v with
  | .void => .ok ([], .void)
  | .leaf c s => do
    let (b, s) ← s.dump force
    .ok (b, .leaf c s)
  | .node c o children mutated => nodeDump E r c o children mutated force
  | .choice c o alt parsed => choiceDump E r c o alt parsed force
  | .any c o parsed pspec => do
    -- Any.dump (core.py:1007-1022)
    match parsed with
    | some v => do
      let (b, v) ← r.dump v force
      .ok (b, .any c o (some v) pspec)
    | none => do
      let (v, a) ← anyParse r c o none pspec none
      let (b, v) ← r.dump v force
      match a with
      | .any c o _ s => .ok (b, .any c o (some v) s)
      | a => .ok (b, a)
  | .parsable c o parsed pspec => parsableDump E r c o parsed pspec force

/-! ### `native` -/

/-- Natives of the children with the field names (core.py:4073-4082); names beyond the fields are the position. -/
def nativeFields (r : Ops) (all : List Field) : Nat → List Child → Py (List (String × PyVal) × List Child)
  | _, [] => .ok ([], [])
  | idx, ch :: chs => do
    let v ← buildChild r (paramsAt all idx) ch
    let (n, v) ← r.native v
    let (ns, chs) ← nativeFields r all (idx + 1) chs
    .ok ((((all[idx]?).map Field.name).getD (toString idx), n) :: ns, .val v :: chs)

/-- Natives of the elements (core.py:4559) -/
def nativeElements (r : Ops) : List Child → Py (List PyVal × List Child)
  | [] => .ok ([], [])
  | ch :: chs => do
    let v ← buildChild r {} ch
    let (n, v) ← r.native v
    let (ns, chs) ← nativeElements r chs
    .ok (n :: ns, .val v :: chs)

/-- `native` of a container (core.py:4057-4088, 4543-4564). The children are parsed without `recurse`; the recursion
happens when their natives are taken. Simplified: the code keeps the result in `_native` and updates it on assignments; here it is
made anew each time. (The two differ for a container copied after `native` was read, whose nested values are then changed.) -/
def nodeNative (E : Env) (r : Ops) (c : ClassId) (o : Obj Unit) (children : Option (List Child)) (mutated : Bool) :
    Py (PyVal × Val) := do
  let (o, children, mutated) ← nodeContents E r c o children mutated
  match o.contents with
  | none => .ok (.scalar .none, .node c o children mutated)
  | some _ => do
    let cs ← ensureChildren E r c o children
    match E.cls c with
    | .seq _ _ _ fields _ => do
      let (ns, cs) ← nativeFields r fields 0 cs
      .ok (.dict ns, .node c o (some cs) mutated)
    | _ => do
      let (ns, cs) ← nativeElements r cs
      .ok (.list ns, .node c o (some cs) mutated)

/-- `native` -/
def nativeStep (E : Env) (r : Ops) (v : Val) : Py (PyVal × Val) :=
  match v with
  | .void => .ok (.scalar .none, .void)
  | .leaf c s => do
    let (n, s) ← s.native
    .ok (.scalar n, .leaf c s)
  | .node c o children mutated => nodeNative E r c o children mutated
  | .choice c o alt parsed => do
    -- Choice.native (core.py:1240-1249)
    let v ← choiceParse E r c o alt parsed
    let (n, v) ← r.native v
    .ok (n, .choice c o alt (some v))
  | .any c o parsed pspec => do
    -- Any.native (core.py:914-926)
    let (v, a) ← match parsed with
      | some v => .ok (v, Val.any c o parsed pspec)
      | none => anyParse r c o none pspec none
    let (n, v) ← r.native v
    match a with
    | .any c o _ s => .ok (n, .any c o (some v) s)
    | a => .ok (n, a)
  | .parsable c o parsed pspec =>
    -- ParsableOctetString.native (core.py:2849-2864)
    match o.contents, parsed with
    | none, _ => .ok (.scalar .none, v)
    | some _, some p => do
      let (n, p) ← r.native p
      .ok (n, .parsable c o (some p) pspec)
    | some _, none => do
      let (b, o) ← parsableBytes (parsableProto E c).2 (parsableProto E c).1 o
      .ok (.scalar (.bytes b), .parsable c o none pspec)

/-- `contents` -/
def contentsStep (E : Env) (r : Ops) (v : Val) : Py (Option Bytes × Val) :=
  match v with
  | .void => .ok (some [], .void)
  | .leaf _ s => .ok (s.base.contents, v)
  | .node c o children mutated => do
    let (o, children, mutated) ← nodeContents E r c o children mutated
    .ok (o.contents, .node c o children mutated)
  | .choice c o alt parsed =>
    -- Choice.contents (core.py:1182-1192)
    match parsed with
    | none => .ok (o.contents, v)
    | some p => do
      let (b, p) ← r.contents p
      .ok (b, .choice c o alt (some p))
  | .any _ o _ _ => .ok (o.contents, v)
  | .parsable _ o _ _ => .ok (o.contents, v)

/-! ### Item access -/

/-- `value[idx]` (core.py:3518-3562, 4349-4361): the child and the container afterwards. -/
def getItem (E : Env) (r : Ops) (v : Val) (idx : Nat) : Py (Val × Val) :=
  match v with
  | .node c o children mutated => do
    let cs ← ensureChildren E r c o children
    match cs[idx]?, E.cls c with
    | none, .seq _ _ _ _ _ => .error .keyError
    | none, _ => .error .indexError
    | some ch, sh => do
      let params := match sh with
        | .seq _ _ _ fields _ => paramsAt fields idx
        | _ => {}
      let x ← buildChild r params ch
      .ok (x, .node c o (some (cs.set idx (.val x))) mutated)
  | _ => .error .typeError

/-- `_field_map[name]` / `_name_map[name]` (core.py:3724, 1096) -/
def fieldIndex (fields : List Field) (name : String) : Option Nat :=
  (fields.zipIdx.reverse.find? (fun f => f.1.name == name)).map Prod.snd

/-- The value looked at by the check for missing contents on assignment (core.py:3598-3602). -/
def assignedContents (E : Env) (r : Ops) (nv : Val) : Py (Option Bytes × Val) :=
  match nv with
  | .any _ _ _ _ => do
    let (_, nv) ← parsedOf E r nv
    .ok (some [], nv)
  | nv => r.contents nv

/-- `value[idx] = x` on a Sequence or Set (core.py:3564-3617) -/
def setField (E : Env) (r : Ops) (v : Val) (idx : Nat) (x : PyVal) : Py Val :=
  match v with
  | .node c o children _ =>
    match E.cls c with
    | .seq _ _ _ fields oid => do
      let cs ← ensureChildren E r c o children
      match fields[idx]? with
      | none => .error .indexError
      | some f => do
        let (override, cs) ← oidOverride r fields oid idx cs
        let nv ← makeValue E r (override.fieldSpec f.spec) (override.valueSpec f.spec) f.params x
        let (b, nv) ← assignedContents E r nv
        match b with
        | none => .error .valueError
        | some _ =>
          if idx < cs.length then .ok (.node c o (some (cs.set idx (.val nv))) true)
          else .error .indexError
    | _ => .error .typeError
  | _ => .error .typeError

/-- `del value[idx]` on a Sequence or Set (core.py:3619-3663) -/
def delField (E : Env) (r : Ops) (v : Val) (idx : Nat) : Py Val :=
  match v with
  | .node c o children _ =>
    match E.cls c with
    | .seq _ _ _ fields _ => do
      let cs ← ensureChildren E r c o children
      match fields[idx]? with
      | none => .error .indexError
      | some f =>
        if f.params.optional then
          if idx < cs.length then .ok (.node c o (some (cs.set idx (.val .void))) true) else .error .indexError
        else if f.params.default.isSome then setField E r v idx (.scalar .none)
        else .error .valueError
    | _ => .error .typeError
  | _ => .error .typeError

/-- The end of `SequenceOf._make_value` (core.py:4331-4336). Here the explicit param is a tuple of pairs. -/
def fixElement (E : Env) (r : Ops) (child : ClassId) (v : Val) : Py Val :=
  match (E.cls child).tagging with
  | (c, t, i, es) => fixTags E r v es (if i then some (c, t) else none) (es == v.tagging.2.2.2)

/-- `SequenceOf._make_value` (core.py:4283-4336) -/
def makeElement (E : Env) (r : Ops) (child : ClassId) (x : PyVal) : Py Val :=
  match E.cls child, x with
  | .any, .asn1 v => fixElement E r child v
  | .any, _ => .error .valueError
  | .choice _ _ _, .asn1 v =>
    if v.classOf = some child then fixElement E r child v
    else do
      let w ← wrapChoice E r child v
      fixElement E r child w
  | .choice _ _ _, _ => .error .valueError
  | _, .asn1 v => if v.classOf = some child then fixElement E r child v else r.construct child {} x
  | _, x => r.construct child {} x

/-- `SequenceOf.append` (core.py:4454-4472) -/
def appendItem (E : Env) (r : Ops) (v : Val) (x : PyVal) : Py Val :=
  match v with
  | .node c o children _ =>
    match E.cls c with
    | .seqOf _ _ _ (some child) => do
      let cs ← ensureChildren E r c o children
      let nv ← makeElement E r child x
      .ok (.node c o (some (cs ++ [.val nv])) true)
    | _ => .error .typeError
  | _ => .error .typeError

/-- `value[idx] = x` on a SequenceOf (core.py:4363-4392): `idx == len` appends. -/
def setElement (E : Env) (r : Ops) (v : Val) (idx : Nat) (x : PyVal) : Py Val :=
  match v with
  | .node c o children _ =>
    match E.cls c with
    | .seqOf _ _ _ (some child) => do
      let cs ← ensureChildren E r c o children
      let nv ← makeElement E r child x
      if idx = cs.length then .ok (.node c o (some (cs ++ [.val nv])) true)
      else if idx < cs.length then .ok (.node c o (some (cs.set idx (.val nv))) true)
      else .error .indexError
    | _ => .error .typeError
  | _ => .error .typeError

/-- `del value[idx]` on a SequenceOf (core.py:4394-4410) -/
def delElement (E : Env) (r : Ops) (v : Val) (idx : Nat) : Py Val :=
  match v with
  | .node c o children _ =>
    match E.cls c with
    | .seqOf _ _ _ _ => do
      let cs ← ensureChildren E r c o children
      if idx < cs.length then .ok (.node c o (some (cs.eraseIdx idx)) true) else .error .indexError
    | _ => .error .typeError
  | _ => .error .typeError

/-- `len(value)` (core.py:3507-3516, 4338-4347) -/
def lenOf (E : Env) (r : Ops) (v : Val) : Py (Nat × Val) :=
  match v with
  | .node c o children mutated => do
    let cs ← ensureChildren E r c o children
    .ok (cs.length, .node c o (some cs) mutated)
  | _ => .error .typeError

/-- The position a Python list index refers to: `self.children[key]`, `self.children.pop(key)` (core.py:4286, 4386, 4406). -/
def listPos (len : Nat) (i : Int) : Option Nat :=
  let j := if i < 0 then i + len else i
  if 0 ≤ j ∧ j < len then some j.toNat else none

/-- `value[i]` on a SequenceOf for any integer (core.py:4349-4361) -/
def getAt (E : Env) (r : Ops) (v : Val) (i : Int) : Py (Val × Val) := do
  let (n, v) ← lenOf E r v
  match listPos n i with
  | none => .error .indexError
  | some k => getItem E r v k

/-- `value[i] = x` on a SequenceOf for any integer (core.py:4363-4392): the value is made first, and assigning to the position behind the
last appends. (Out of range, `setElement` raises the error after making the value.) -/
def setAt (E : Env) (r : Ops) (v : Val) (i : Int) (x : PyVal) : Py Val := do
  let (n, v) ← lenOf E r v
  if i = n then setElement E r v n x
  else
    match listPos n i with
    | none => setElement E r v (n + 1) x
    | some k => setElement E r v k x

/-- `del value[i]` on a SequenceOf for any integer (core.py:4394-4410) -/
def delAt (E : Env) (r : Ops) (v : Val) (i : Int) : Py Val := do
  let (n, v) ← lenOf E r v
  match listPos n i with
  | none => .error .indexError
  | some k => delElement E r v k

/-- The loop of `__iter__` (core.py:4422-4423), run to its end. -/
def iterFrom (E : Env) (r : Ops) : Nat → Nat → Val → Py (List Val × Val)
  | 0, _, v => .ok ([], v)
  | m + 1, k, v => do
    let (x, v) ← getItem E r v k
    let (xs, v) ← iterFrom E r m (k + 1) v
    .ok (x :: xs, v)

/-- `list(value)` on a SequenceOf (core.py:4412-4423); the container does not change in between. -/
def iterItems (E : Env) (r : Ops) (v : Val) : Py (List Val × Val) := do
  let (n, v) ← lenOf E r v
  iterFrom E r n 0 v

/-! ### Constructors -/

/-- `self.children[index] is not VOID` (core.py:3423) -/
def fieldPresent (v : Val) (idx : Nat) : Bool :=
  match v with
  | .node _ _ (some cs) _ => (match cs[idx]? with
    | some (.val .void) => false
    | some _ => true
    | none => false)
  | _ => false

/-- Setting the fields found in a dict, in field order (core.py:3418-3430). -/
def setFromDict (E : Env) (r : Ops) (d : List (String × PyVal)) (skipPresent : Bool) : List Field → Nat → Val → Py Val
  | [], _, v => .ok v
  | f :: fs, idx, v => do
    if skipPresent && fieldPresent v idx then setFromDict E r d skipPresent fs (idx + 1) v
    else
      match d.find? (fun e => e.1 == f.name) with
      | none => setFromDict E r d skipPresent fs (idx + 1) v
      | some e => do
        let v ← setField E r v idx e.2
        setFromDict E r d skipPresent fs (idx + 1) v

/-- `Sequence.__init__` after the tagging (core.py:3396-3456). -/
def seqInit (E : Env) (r : Ops) (fields : List Field) (v : Val) (value : PyVal) (skipPresent : Bool) : Py Val :=
  match value with
  | .scalar .none => .ok v
  | .dict d => do
    let v ← setFromDict E r d skipPresent fields 0 v
    if d.all (fun e => fields.any (fun f => f.name == e.1)) then .ok v else .error .valueError
  | _ => .error .attributeError

/-- The loop of `SequenceOf.__init__` (core.py:4221-4222). -/
def setFromList (E : Env) (r : Ops) : List PyVal → Nat → Val → Py Val
  | [], _, v => .ok v
  | x :: xs, idx, v => do
    let v ← setElement E r v idx x
    setFromList E r xs (idx + 1) v

/-- `if value is None: value = default` (core.py:440-441, 1686-1687, 3397-3398, 4217-4218) -/
def givenValue (default : Option PyVal) (value : PyVal) : PyVal :=
  match value, default with
  | .scalar .none, some d => d
  | v, _ => v

/-- `spec(value, **params)` -/
def constructStep (E : Env) (r : Ops) (c : ClassId) (p : Params) (value : PyVal) : Py Val :=
  let value' : PyVal := givenValue p.default value
  match E.cls c with
  | .leaf proto _ =>
    match value' with
    | .scalar .none => .ok (.leaf c (proto.init p.tags))
    | .scalar s => do
      let s ← (proto.init p.tags).set s
      .ok (.leaf c s)
    | _ => .error .typeError
  | .seq proto _ _ fields _ =>
    seqInit E r fields (.node c (initTagging proto p.tags) none false) value' false
  | .seqOf proto _ _ _ =>
    match value' with
    | .scalar .none => .ok (.node c (initTagging proto p.tags) none false)
    | .list xs => do
      let v ← setFromList E r xs 0 (.node c (initTagging proto p.tags) none false)
      match ← contentsStep E r v with
      | (some _, v) => .ok v
      | (none, .node c o cs _) => do
        let (o, cs) ← setContents E r c o cs false
        .ok (.node c o (some cs) false)
      | (none, v) => .ok v
    | _ => .error .typeError
  | .choice explicit _ alts =>
    -- Choice.__init__ (core.py:1098-1180); a `default` param calls a `set` method that Choice does not have
    match p.default, p.implicit, value with
    | some _, _, _ => .error .attributeError
    | _, some _, _ => .error .valueError
    | none, none, .scalar .none =>
      .ok (.choice c { cls := 0, method := 0, tag := 0, explicit := choiceExplicit explicit p } none none)
    | none, none, .pair n x =>
      match fieldIndex alts n with
      | none => .error .valueError
      | some k =>
        match alts[k]? with
        | none => .error .indexError
        | some f => do
          let y ← match x with
            | .asn1 xv => if xv.classOf = some f.spec then fixTagging E r xv f.params else r.construct f.spec f.params x
            | x => r.construct f.spec f.params x
          .ok (.choice c { cls := 0, method := 0, tag := 0, explicit := choiceExplicit explicit p }
            (some k) (some y))
    | none, none, _ => .error .valueError
  | .any =>
    match p.default, value with
    | some _, _ => .error .attributeError
    | none, .scalar .none => .ok (.any c { cls := 0, method := 0, tag := 0, explicit := if p.noExplicit then [] else p.explicit } none none)
    | none, .asn1 x => do
      let (b, x) ← r.dump x false
      .ok (.any c { cls := 0, method := 0, tag := 0, explicit := if p.noExplicit then [] else p.explicit, contents := some b }
        (some x) x.classOf)
    | none, _ => .error .typeError
  | .parsable proto isBit =>
    match value' with
    | .scalar .none => .ok (.parsable c (initTagging proto p.tags) none none)
    | .scalar (.bytes b) => .ok (.parsable c (parsableSet isBit (initTagging proto p.tags) b) none none)
    | _ => .error .typeError

/-! ### `_build` -/

/-- The un-specced branch of `_build` (core.py:5632-5658) -/
def buildFree (E : Env) (i : Info) : Py Val :=
  match E.universal i.tag with
  | none => .error .valueError
  | some c =>
    match E.cls c with
    | .leaf proto _ => .ok (.leaf c (proto.buildFree i))
    | .seq proto _ _ _ _ => .ok (.node c { proto with
        cls := i.cls, method := i.method, header := some i.header, contents := some i.contents, trailer := i.trailer } none false)
    | .seqOf proto _ _ _ => .ok (.node c { proto with
        cls := i.cls, method := i.method, header := some i.header, contents := some i.contents, trailer := i.trailer } none false)
    | _ => .error .valueError

/-- Replaces header, trailer and explicit tags of a value after the explicit branches of `_build`
(core.py:5544-5546, 5627-5629). -/
def Val.rewrap (header trailer : Bytes → Bytes) (es : List (Nat × Nat)) : Val → Val
  | .void => .void
  | .leaf c s =>
    .leaf c (s.map (fun o => { o with header := some (header (o.header.getD [])), trailer := trailer o.trailer, explicit := es }))
  | .node c o cs m => .node c { o with header := some (header (o.header.getD [])), trailer := trailer o.trailer, explicit := es } cs m
  | .choice c o a p => .choice c { o with header := some (header (o.header.getD [])), trailer := trailer o.trailer, explicit := es } a p
  | .any c o p s => .any c { o with header := some (header (o.header.getD [])), trailer := trailer o.trailer, explicit := es } p s
  | .parsable c o p s => .parsable c { o with header := some (header (o.header.getD [])), trailer := trailer o.trailer, explicit := es } p s

/-- The un-specced explicit branch of `_build` (core.py:5611-5630): the tags are not checked, and only the outermost
explicit header is kept. -/
def buildFreeExplicit (E : Env) (es : List (Nat × Nat)) (i : Info) : Py Val := do
  let inner ← es.reverse.foldlM (fun (j : Info) _ => parse j.contents) i
  let v ← buildFree E inner
  .ok (v.rewrap (fun h => i.header ++ h) (fun t => t ++ i.trailer) es)

/-- `_build` of a Choice without explicit tags (core.py:5557-5567): the trailer is not part of what is parsed. -/
def buildChoiceBase (E : Env) (r : Ops) (c : ClassId) (i : Info) : Py Val :=
  match E.cls c with
  | .choice _ tagged alts => do
    let k ← choiceValidate E [] tagged alts i.cls i.tag i.contents
    match alts[k]? with
    | none => .error .indexError
    | some f => do
      let v ← parseBuild r (i.header ++ i.contents) (some f.spec) f.params
      .ok (.choice c { cls := 0, method := 0, tag := 0, header := some [], contents := some (i.header ++ i.contents), trailer := i.trailer }
        (some k) (some v))
  | _ => .error .attributeError

/-- `_build` of a Choice (core.py:5488-5567): with explicit tags only the outermost header is kept. -/
def buildChoice (E : Env) (r : Ops) (c : ClassId) (explicit : List (Nat × Nat)) (i : Info) : Py Val :=
  match explicit with
  | [] => buildChoiceBase E r c i
  | es => do
    let (i', _, _) ← explicitLoop es.reverse i [] []
    let v ← buildChoiceBase E r c i'
    .ok (v.rewrap (fun _ => i.header) (fun _ => i.trailer) es)

/-- `Sequence.__init__` with contents and a `default` param (core.py:3396-3430): absent fields are set from the
default. -/
def defaultFill (E : Env) (r : Ops) (fields : List Field) (v : Val) (d : PyVal) : Py Val :=
  match v with
  | .node c o children m => do
    let cs ← ensureChildren E r c o children
    seqInit E r fields (.node c o (some cs) m) d true
  | v => .ok v

/-- Tagging arguments in effect when `_build` makes the value: in the explicit branch the inner value is rebuilt with
`no_explicit` only (core.py:5543), so an implicit tag next to class-level explicit tags is lost. -/
def Params.buildTags (p : Params) (clsExplicit : List (Nat × Nat)) : TagParams :=
  if p.noExplicit = false ∧ clsExplicit ≠ [] then { p.tags with implicit := none } else p.tags

/-- The throw-away instance made in the explicit branch (core.py:5493-5496), which has the default set. -/
def defaultCheck (E : Env) (r : Ops) (c : ClassId) (p : Params) (clsExplicit : List (Nat × Nat)) : Py Unit :=
  if p.noExplicit = false ∧ clsExplicit ++ p.explicit ≠ [] ∧ p.default.isSome then do
    let _ ← constructStep E r c p (.scalar .none)
    .ok ()
  else .ok ()

/-- `_build(*info, spec=spec, spec_params=params)` without the nested spec (core.py:5479-5658). In the explicit branch
the inner value is rebuilt without the `default` param. The order of the checks of a Sequence with a `default` param
(children first, then class, method and tag) is not modelled. -/
def buildPlain (E : Env) (r : Ops) (i : Info) (spec : Option ClassId) (p : Params) : Py Val :=
  match spec with
  | none => if p.explicit ≠ [] then buildFreeExplicit E p.explicit i else buildFree E i
  | some c =>
    match E.cls c with
    | .leaf proto bad => do
      defaultCheck E r c p proto.base.explicit
      let s ← LeafSt.build bad (proto.init (p.buildTags proto.base.explicit)) i
      .ok (.leaf c s)
    | .seq proto bad _ fields _ => do
      defaultCheck E r c p proto.explicit
      let o ← buildObj false bad (initTagging proto (p.buildTags proto.explicit)) i
      match o.explicit, p.default with
      | [], some d => defaultFill E r fields (.node c o none false) d
      | _, _ => .ok (.node c o none false)
    | .seqOf proto bad _ _ => do
      defaultCheck E r c p proto.explicit
      let o ← buildObj false bad (initTagging proto (p.buildTags proto.explicit)) i
      .ok (.node c o none false)
    | .choice explicit _ _ =>
      if choiceExplicit explicit p ≠ [] ∧ p.default.isSome then .error .attributeError
      else if p.implicit.isSome then .error .valueError
      else buildChoice E r c (choiceExplicit explicit p) i
    | .any =>
      match choiceExplicit [] p with
      | [] => .ok (.any c { cls := 0, method := 0, tag := 0, header := some i.header, contents := some i.contents, trailer := i.trailer } none none)
      | es =>
        if p.default.isSome then .error .attributeError
        else do
        let (i', h, t) ← explicitLoop es.reverse i i.header i.trailer
        .ok (.any c { cls := 0, method := 0, tag := 0, header := some h, contents := some i'.contents, trailer := t, explicit := es } none none)
    | .parsable proto _ => do
      defaultCheck E r c p proto.explicit
      let o ← buildObj true [] (initTagging proto (p.buildTags proto.explicit)) i
      .ok (.parsable c o none none)

/-- `_build` (core.py:5438-5668) -/
def buildStep (E : Env) (r : Ops) (i : Info) (spec : Option ClassId) (p : Params) (nested : Option ClassId) : Py Val := do
  let v ← buildPlain E r i spec p
  match nested with
  | none => .ok v
  | some n => do
    let (_, v) ← parseAs E r v (some n)
    .ok v

/-! ### Copies -/

/-- `_copy` onto a new instance (core.py:586-608, 799-815, 992-1005, 1323-1338, 2833-2847, 4090-4109, 4566-4585). A new container
instance has no children, so those of the original are not copied; they are parsed again from the contents. Not modelled: the `_native`
cache of a container, which is copied too, and that reading `other.contents` also brings the contents of the original up to date. -/
def copyStep (E : Env) (r : Ops) (v : Val) (cls tag : Nat) (implicit : Bool) (explicit : List (Nat × Nat)) : Py Val :=
  match v with
  | .void => .ok .void
  | .leaf c s => do
    let s ← s.copyTo cls tag implicit explicit
    .ok (.leaf c s)
  | .node c o children mutated => do
    let (o, _, _) ← nodeContents E r c o children mutated
    .ok (.node c { cls := cls, method := 1, tag := tag, implicit := implicit, explicit := explicit, contents := o.contents } none false)
  | .choice c o alt parsed => do
    let (b, _) ← contentsStep E r v
    let p ← match parsed with
      | none => .ok none
      | some p => do
        let q ← copyVal r p
        .ok (some q)
    .ok (.choice c { cls := o.cls, method := o.method, tag := o.tag, explicit := explicit, contents := b } alt p)
  | .any c o parsed pspec => do
    let p ← match parsed with
      | none => .ok none
      | some p => do
        let q ← copyVal r p
        .ok (some q)
    .ok (.any c { cls := o.cls, method := o.method, tag := o.tag, explicit := explicit, contents := o.contents } p pspec)
  | .parsable c o parsed pspec => do
    let p ← match parsed with
      | none => .ok none
      | some p => do
        let q ← copyVal r p
        .ok (some q)
    let fresh : Obj Bytes := { cls := cls, method := 0, tag := tag, implicit := implicit, explicit := explicit, contents := o.contents }
    if o.indefinite then do
      let (b, _) ← parsableBytes (parsableProto E c).2 (parsableProto E c).1 o
      .ok (.parsable c (parsableSet (parsableProto E c).2 fresh b) p pspec)
    else .ok (.parsable c { fresh with native := o.native } p pspec)

/-! ### Tying the knot -/

/-- No recursion level left. -/
def Ops.zero : Ops where
  dump _ _ := .error .nonTermination
  native _ := .error .nonTermination
  contents _ := .error .nonTermination
  build _ _ _ _ := .error .nonTermination
  construct _ _ _ := .error .nonTermination
  copyTo _ _ _ _ _ := .error .nonTermination
  item _ _ := .error .nonTermination

/-- One more level. -/
def Ops.step (E : Env) (r : Ops) : Ops where
  dump v force := dumpStep E r v force
  native v := nativeStep E r v
  contents v := contentsStep E r v
  build i spec p nested := buildStep E r i spec p nested
  construct c p value := constructStep E r c p value
  copyTo v cls tag implicit explicit := copyStep E r v cls tag implicit explicit
  item v idx := getItem E r v idx

/-- The operations with `n` levels of recursion. -/
def ops (E : Env) : Nat → Ops
  | 0 => Ops.zero
  | n + 1 => (ops E n).step E

/-- `cls.load(data, strict, **params)` (core.py:216-240, 1060-1080); `Any` has no tag and loads without a spec. -/
def loadVal (E : Env) (r : Ops) (c : ClassId) (p : Params) (data : Bytes) (strict : Bool := false) : Py Val := do
  let i ← parse data strict
  match E.cls c with
  | .any => r.build i none p none
  | _ => r.build i (some c) p none

/-! ### `Concat` -/

/-- `Concat.__init__(contents=data, strict)` (core.py:1413-1428): children that have no data are new instances. -/
def concatLoop (r : Ops) (data : Bytes) : List ClassId → Nat → Py (List Val × Nat)
  | [], offset => .ok ([], offset)
  | c :: cs, offset =>
    if offset < data.length then do
      let (i, offset) ← parseFrom data data.length offset
      let v ← r.build i (some c) {} none
      let (vs, offset) ← concatLoop r data cs offset
      .ok (v :: vs, offset)
    else do
      let v ← r.construct c {} (.scalar .none)
      let (vs, offset) ← concatLoop r data cs offset
      .ok (v :: vs, offset)

/-- `Concat.load(data, strict)` (core.py:1378-1433) -/
def concatLoad (r : Ops) (specs : List ClassId) (data : Bytes) (strict : Bool := false) : Py (List Val) := do
  let (vs, offset) ← concatLoop r data specs 0
  if strict && offset != data.length then .error .valueError else .ok vs

/-- `Concat.dump(force)` (core.py:1550-1565) -/
def concatDump (r : Ops) (force : Bool) : List Val → Py (Bytes × List Val)
  | [] => .ok ([], [])
  | v :: vs => do
    let (b, v) ← r.dump v force
    let (bs, vs) ← concatDump r force vs
    .ok (b ++ bs, v :: vs)

end Asn1
