import Mathlib.Data.List.Forall2
import Verif.Spec.Ready

/-!
# SEQUENCE OF as a Python list

`ListHistory E V c ch as os as' ws`: `os` is what is done with a Python list whose elements are `as`; `ws` are the answers, and the
elements are `as'` afterwards.
-/

namespace Asn1.Spec
open Asn1

/-- The index `i` refers to position `k` of a Python list with `n` elements. -/
def IndexAt (n : Nat) (i : Int) (k : Nat) : Prop := k < n ∧ (i = k ∨ i = (k : Int) - n)

/-- Something done with a list: `append(x)`, `l[i] = x`, `del l[i]`, `l[i]`, `len(l)`, `list(l)`; or anything else that can be done
with an instance. -/
inductive ListOp where
  | append (x : PyVal)
  | set (i : Int) (x : PyVal)
  | del (i : Int)
  | get (i : Int)
  | len
  | iter
  | other (o : Op)

/-- The answer of the library. -/
inductive Got where
  | nothing
  | num (n : Nat)
  | item (x : Val)
  | items (xs : List Val)

/-- The library doing it. -/
def runList (E : Env) (r : Ops) : ListOp → Val → Py (Got × Val)
  | .append x, v => do
    let v ← appendItem E r v x
    .ok (.nothing, v)
  | .set i x, v => do
    let v ← setAt E r v i x
    .ok (.nothing, v)
  | .del i, v => do
    let v ← delAt E r v i
    .ok (.nothing, v)
  | .get i, v => do
    let (x, v) ← getAt E r v i
    .ok (.item x, v)
  | .len, v => do
    let (n, v) ← lenOf E r v
    .ok (.num n, v)
  | .iter, v => do
    let (xs, v) ← iterItems E r v
    .ok (.items xs, v)
  | .other o, v => do
    let v ← runOp E r o v
    .ok (.nothing, v)

/-- One operation after the other. -/
def runLists (E : Env) (r : Ops) : List ListOp → Val → Py (List Got × Val)
  | [], v => .ok ([], v)
  | o :: os, v => do
    let (g, v) ← runList E r o v
    let (gs, v) ← runLists E r os v
    .ok (g :: gs, v)

/-- The answer expected. -/
inductive Want where
  | nothing
  | num (n : Nat)
  | item (a : AVal)
  | items (as : List AVal)

/-- What a list does. In addition, assigning to the position behind the last appends. -/
inductive Listed (E : Env) (V : Bool → ClassId → Params → Val → AVal → Prop) (c ch : ClassId) : List AVal → ListOp → List AVal → Want → Prop
  | append {as : List AVal} {x : PyVal} {b : AVal} : Conv E V false ch {} x b → AsElement E ch x → Listed E V c ch as (.append x) (as ++ [b]) .nothing
  | set {as : List AVal} {i : Int} {k : Nat} {x : PyVal} {b : AVal} : Conv E V false ch {} x b → AsElement E ch x → IndexAt as.length i k →
      Listed E V c ch as (.set i x) (as.set k b) .nothing
  | setEnd {as : List AVal} {x : PyVal} {b : AVal} : Conv E V false ch {} x b → AsElement E ch x →
      Listed E V c ch as (.set as.length x) (as ++ [b]) .nothing
  | del {as : List AVal} {i : Int} {k : Nat} : IndexAt as.length i k → Listed E V c ch as (.del i) (as.eraseIdx k) .nothing
  | get {as : List AVal} {i : Int} {k : Nat} {a : AVal} : IndexAt as.length i k → as[k]? = some a → Listed E V c ch as (.get i) as (.item a)
  | len {as : List AVal} : Listed E V c ch as .len as (.num as.length)
  | iter {as : List AVal} : Listed E V c ch as .iter as (.items as)
  | other {as as' : List AVal} {o : Op} : After E V c (.list as) o (.list as') → Listed E V c ch as (.other o) as' .nothing

/-- See above. The elements must be something that can be written. -/
inductive ListHistory (E : Env) (V : Bool → ClassId → Params → Val → AVal → Prop) (c ch : ClassId) : List AVal → List ListOp → List AVal → List Want → Prop
  | nil {as : List AVal} : ListHistory E V c ch as [] as []
  | cons {as bs as' : List AVal} {o : ListOp} {os : List ListOp} {w : Want} {ws : List Want} : Listed E V c ch as o bs w → Ready E c (.list bs) →
      ListHistory E V c ch bs os as' ws → ListHistory E V c ch as (o :: os) as' (w :: ws)

/-- The instance is the value `a`, as far as can be seen: what it dumps is an encoding of `a`, and a primitive value is read by
`native`. -/
def Denotes (E : Env) (c : ClassId) (p : Params) (x : Val) (a : AVal) : Prop :=
  (∀ n force b x', (ops E n).dump x force = .ok (b, x') → ∃ t : TLV, t.bytes = b ∧ Dec E c p t a) ∧
  ∀ s, a = .prim s → ∀ n y x', (ops E n).native x = .ok (y, x') → y = .scalar s

/-- The answer is the one expected. -/
inductive Answers (E : Env) (ch : ClassId) : Got → Want → Prop
  | nothing : Answers E ch .nothing .nothing
  | num {n : Nat} : Answers E ch (.num n) (.num n)
  | item {x : Val} {a : AVal} : Denotes E ch {} x a → Answers E ch (.item x) (.item a)
  | items {xs : List Val} {as : List AVal} : List.Forall₂ (fun x a => Denotes E ch {} x a) xs as → Answers E ch (.items xs) (.items as)

end Asn1.Spec
