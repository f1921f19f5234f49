import Verif.Spec.Given

/-!
# Histories of an instance

`Made E U q c p v a`: the instance `v` of class `c` with the params `p` was loaded, constructed or taken out of a container and has
then gone through any number of assignments, deletions, appends and reads, here or in values nested in it; `a` is the value that a
user who knows lists and dicts expects it to have. With `q` it was not loaded from an element with end-of-contents octets of its own.
-/

namespace Asn1.Spec
open Asn1

/-- Item access on an instance; `at k e` is `e` on what indexing with `k` gives. -/
inductive Edit where
  | setField (idx : Nat) (x : PyVal)
  | delField (idx : Nat)
  | setElement (idx : Nat) (x : PyVal)
  | append (x : PyVal)
  | delElement (idx : Nat)
  | get (idx : Nat)
  | len
  | at (k : Nat) (e : Edit)

/-- Replaces the object at position `k` of a container by its later state: a container refers to its children. -/
def putChild (k : Nat) (x : Val) : Val → Val
  | .node c o (some cs) m => .node c o (some (cs.set k (.val x))) m
  | v => v

/-- Item access carried out: the instance afterwards. -/
def runEdit (E : Env) (r : Ops) : Edit → Val → Py Val
  | .setField idx x, v => Asn1.setField E r v idx x
  | .delField idx, v => Asn1.delField E r v idx
  | .setElement idx x, v => Asn1.setElement E r v idx x
  | .append x, v => appendItem E r v x
  | .delElement idx, v => Asn1.delElement E r v idx
  | .get idx, v => (getItem E r v idx).map Prod.snd
  | .len, v => (lenOf E r v).map Prod.snd
  | .at k e, v => do
    let (x, v) ← getItem E r v k
    let x ← runEdit E r e x
    .ok (putChild k x v)

/-- What item access does to the value: on a SEQUENCE an assignment gives the field the value; deleting makes an optional field
absent and gives others their default; on a SEQUENCE OF everything is as on a list, except that assigning to the position behind
the last appends. -/
inductive Edited (E : Env) (V : Bool → ClassId → Params → Val → AVal → Prop) : ClassId → AVal → Edit → AVal → Prop
  | setField {c : ClassId} {as : List AVal} {idx : Nat} {x : PyVal} {b : AVal} {f : Field} {proto : Obj Unit} {bad : List Nat} {fields : List Field} :
      E.cls c = .seq proto bad false fields none → fields[idx]? = some f → FieldConv E V f (some x) b →
      Edited E V c (.seq as) (.setField idx x) (.seq (as.set idx b))
  | delOptional {c : ClassId} {as : List AVal} {idx : Nat} {f : Field} {proto : Obj Unit} {bad : List Nat} {fields : List Field} :
      E.cls c = .seq proto bad false fields none → fields[idx]? = some f → f.params.optional = true →
      Edited E V c (.seq as) (.delField idx) (.seq (as.set idx .absent))
  | delDefault {c : ClassId} {as : List AVal} {idx : Nat} {b : AVal} {f : Field} {proto : Obj Unit} {bad : List Nat} {fields : List Field} :
      E.cls c = .seq proto bad false fields none → fields[idx]? = some f → DefaultIs E f b →
      Edited E V c (.seq as) (.delField idx) (.seq (as.set idx b))
  | setElement {c ch : ClassId} {as : List AVal} {idx : Nat} {x : PyVal} {b : AVal} {proto : Obj Unit} {bad : List Nat} :
      E.cls c = .seqOf proto bad false (some ch) → Conv E V false ch {} x b → AsElement E ch x → idx < as.length →
      Edited E V c (.list as) (.setElement idx x) (.list (as.set idx b))
  | setEnd {c ch : ClassId} {as : List AVal} {x : PyVal} {b : AVal} {proto : Obj Unit} {bad : List Nat} :
      E.cls c = .seqOf proto bad false (some ch) → Conv E V false ch {} x b → AsElement E ch x →
      Edited E V c (.list as) (.setElement as.length x) (.list (as ++ [b]))
  | append {c ch : ClassId} {as : List AVal} {x : PyVal} {b : AVal} {proto : Obj Unit} {bad : List Nat} :
      E.cls c = .seqOf proto bad false (some ch) → Conv E V false ch {} x b → AsElement E ch x →
      Edited E V c (.list as) (.append x) (.list (as ++ [b]))
  | delElement {c ch : ClassId} {as : List AVal} {idx : Nat} {proto : Obj Unit} {bad : List Nat} :
      E.cls c = .seqOf proto bad false (some ch) → idx < as.length → Edited E V c (.list as) (.delElement idx) (.list (as.eraseIdx idx))
  | get {c : ClassId} {a : AVal} {as : List AVal} {idx : Nat} : (a = .seq as ∨ a = .list as) → idx < as.length → Edited E V c a (.get idx) a
  | len {c : ClassId} {a : AVal} {as : List AVal} : (a = .seq as ∨ a = .list as) → Edited E V c a .len a
  | atField {c : ClassId} {as : List AVal} {k : Nat} {e : Edit} {b b' : AVal} {f : Field} {proto : Obj Unit} {bad : List Nat} {fields : List Field} :
      E.cls c = .seq proto bad false fields none → fields[k]? = some f → as[k]? = some b → Edited E V f.spec b e b' →
      Edited E V c (.seq as) (.at k e) (.seq (as.set k b'))
  | atElement {c ch : ClassId} {as : List AVal} {k : Nat} {e : Edit} {b b' : AVal} {proto : Obj Unit} {bad : List Nat} :
      E.cls c = .seqOf proto bad false (some ch) → as[k]? = some b → Edited E V ch b e b' →
      Edited E V c (.list as) (.at k e) (.list (as.set k b'))

/-- Something done with an instance. -/
inductive Op where
  | edit (e : Edit)
  | dump (force : Bool)
  | native
  | contents
  | copy

/-- The instance afterwards; for `copy()` the copy. -/
def runOp (E : Env) (r : Ops) : Op → Val → Py Val
  | .edit e, v => runEdit E r e v
  | .dump force, v => (r.dump v force).map Prod.snd
  | .native, v => (r.native v).map Prod.snd
  | .contents, v => (r.contents v).map Prod.snd
  | .copy, v => copyVal r v

/-- What it does to the value: only item access changes it. (A copy is made from the encoding, so the value must have one.) -/
inductive After (E : Env) (V : Bool → ClassId → Params → Val → AVal → Prop) : ClassId → AVal → Op → AVal → Prop
  | edit {c : ClassId} {a a' : AVal} {e : Edit} : Edited E V c a e a' → After E V c a (.edit e) a'
  | dump {c : ClassId} {a : AVal} {force : Bool} : After E V c a (.dump force) a
  | native {c : ClassId} {a : AVal} : After E V c a .native a
  | contents {c : ClassId} {a : AVal} : After E V c a .contents a
  | copy {c : ClassId} {a : AVal} : Whole E c a → After E V c a .copy a

/-- The value of `cls()`: no elements; no fields but those with a default. -/
inductive Empty (E : Env) (V : Bool → ClassId → Params → Val → AVal → Prop) (c : ClassId) : AVal → Prop
  | seq {as : List AVal} {proto : Obj Unit} {bad : List Nat} {fields : List Field} :
      E.cls c = .seq proto bad false fields none → FieldsConv E V fields [] as → Empty E V c (.seq as)
  | list {ch : ClassId} {proto : Obj Unit} {bad : List Nat} : E.cls c = .seqOf proto bad false (some ch) → Empty E V c (.list [])

/-- Item access that changes the container it is used on. -/
def Edit.changes : Edit → Bool
  | .setField _ _ | .delField _ | .setElement _ _ | .append _ | .delElement _ => true
  | .get _ | .len | .at _ _ => false

/-- Instances loaded, or constructed from Python values and instances in `V`, after some operations. (An instance without a value
counts from its first change on: before that it has no encoding.) -/
inductive MadeFrom (E : Env) (U : ClassId → Prop) (V : Bool → ClassId → Params → Val → AVal → Prop) : Bool → ClassId → Params → Val → AVal → Prop
  | loaded {q : Bool} {c : ClassId} {p : Params} {v : Val} {a : AVal} {n : Nat} {t : TLV}
      {rest : List UInt8} {strict : Bool} :
      GoodUse E U c p → Dec E c p t a → (q = true → t.trailer = []) → loadVal E (ops E n) c p (t.bytes ++ rest) strict = .ok v →
      MadeFrom E U V q c p v a
  | constructed {q : Bool} {c : ClassId} {p : Params} {v : Val} {a : AVal} {n : Nat} {x : PyVal} :
      GoodUse E U c p → Conv E V q c p x a → (ops E n).construct c p x = .ok v → MadeFrom E U V q c p v a
  | op {q : Bool} {c : ClassId} {p : Params} {v v' : Val} {a a' : AVal} {n : Nat} {o : Op} :
      MadeFrom E U V q c p v a → After E V c a o a' → runOp E (ops E n) o v = .ok v' → MadeFrom E U V q c p v' a'
  | started {q : Bool} {c : ClassId} {p : Params} {v v' : Val} {a a' : AVal} {n n' : Nat} {e : Edit} :
      GoodUse E U c p → p.default = none → Empty E V c a → (ops E n).construct c p (.scalar .none) = .ok v → e.changes = true →
      Edited E V c a e a' → runEdit E (ops E n') e v = .ok v' → MadeFrom E U V q c p v' a'
  | field {q : Bool} {c : ClassId} {p : Params} {v v' x : Val} {as : List AVal} {b : AVal} {n k : Nat} {f : Field} {proto : Obj Unit} {bad : List Nat}
      {fields : List Field} :
      MadeFrom E U V q c p v (.seq as) → E.cls c = .seq proto bad false fields none → fields[k]? = some f → as[k]? = some b → b ≠ .absent →
      getItem E (ops E n) v k = .ok (x, v') → MadeFrom E U V false f.spec f.params x b
  | element {q : Bool} {c d : ClassId} {p : Params} {v v' x : Val} {as : List AVal} {b : AVal} {n k : Nat} {proto : Obj Unit} {bad : List Nat} :
      MadeFrom E U V q c p v (.list as) → E.cls c = .seqOf proto bad false (some d) → as[k]? = some b →
      getItem E (ops E n) v k = .ok (x, v') → MadeFrom E U V false d {} x b

/-- Instances that are made using at most `k` generations of other instances. -/
def MadeIn (E : Env) (U : ClassId → Prop) : Nat → Bool → ClassId → Params → Val → AVal → Prop
  | 0 => fun _ _ _ _ _ => False
  | k + 1 => MadeFrom E U (MadeIn E U k)

/-- See above. -/
def Made (E : Env) (U : ClassId → Prop) (q : Bool) (c : ClassId) (p : Params) (v : Val) (a : AVal) : Prop := ∃ k, MadeIn E U k q c p v a

end Asn1.Spec
