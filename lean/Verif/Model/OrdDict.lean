import Verif.Model.Py

/-! # The `OrderedDict` for Python below 2.7: `_ordereddict.py` -/

namespace Asn1.OrdDict
open Asn1

/-- A list `[key, prev, next]` on the heap; `prev` and `next` are references to such lists. -/
structure Node (K : Type) where
  key : Option K
  prev : Nat
  next : Nat

/-- An `OrderedDict`: the underlying `dict` (only looked up, never iterated), the dict `__map` and the lists it refers to. Reference 0 is the sentinel
`__end`; `fresh` is the first reference not in use. -/
structure OD (K V : Type) where
  dict : List (K × V)
  map : K → Option Nat
  heap : Nat → Node K
  fresh : Nat

variable {K V : Type} [DecidableEq K]

/-- `f` with the value at `a` replaced. -/
def upd {A B : Type} [DecidableEq A] (f : A → B) (a : A) (b : B) : A → B := fun x => if x = a then b else f x

/-- `dict.get` of the underlying dict. -/
def get (m : List (K × V)) (k : K) : Option V := (m.find? (fun e => e.1 = k)).map Prod.snd

/-- `dict.__delitem__` of a key that is there. -/
def erase (m : List (K × V)) (k : K) : List (K × V) := m.filter (fun e => e.1 ≠ k)

/-- `dict.__setitem__` -/
def put (m : List (K × V)) (k : K) (v : V) : List (K × V) := (k, v) :: erase m k

namespace OD

/-- `OrderedDict()`, and `clear` (_ordereddict.py:44-48): a new sentinel that refers to itself. -/
def clear : OD K V :=
  { dict := [], map := fun _ => none, heap := fun _ => ⟨none, 0, 0⟩, fresh := 1 }

/-- `__setitem__` (_ordereddict.py:50-55); the three targets are assigned from left to right. -/
def set (d : OD K V) (k : K) (v : V) : OD K V :=
  let d :=
    match get d.dict k with
    | some _ => d
    | none =>
      let curr := (d.heap 0).prev
      let n := d.fresh
      let h := upd d.heap n ⟨some k, curr, 0⟩
      let h := upd h curr { h curr with next := n }
      let h := upd h 0 { h 0 with prev := n }
      { d with heap := h, map := upd d.map k (some n), fresh := n + 1 }
  { d with dict := put d.dict k v }

/-- `__delitem__` (_ordereddict.py:57-61) -/
def del (d : OD K V) (k : K) : Py (OD K V) :=
  match get d.dict k with
  | none => .error .keyError
  | some _ =>
    let d := { d with dict := erase d.dict k }
    match d.map k with
    | none => .error .keyError
    | some n =>
      let d := { d with map := upd d.map k none }
      let prev := (d.heap n).prev
      let next := (d.heap n).next
      let h := d.heap
      let h := upd h prev { h prev with next := next }
      let h := upd h next { h next with prev := prev }
      .ok { d with heap := h }

/-- The `while` loop of `__iter__` (_ordereddict.py:63-68) from reference `curr`, with a bound on the number of steps. -/
def iterLoop (d : OD K V) : Nat → Nat → Py (List (Option K))
  | 0, curr => if curr = 0 then .ok [] else .error .nonTermination
  | n + 1, curr =>
    if curr = 0 then .ok []
    else
      match iterLoop d n (d.heap curr).next with
      | .error e => .error e
      | .ok r => .ok ((d.heap curr).key :: r)

/-- `list(d)`: a list without repetitions has fewer than `fresh` entries, so that this bound is not reached unless the
loop does not end. -/
def iter (d : OD K V) : Py (List (Option K)) := d.iterLoop d.fresh (d.heap 0).next

/-- The loop of `__reversed__` (_ordereddict.py:70-75). -/
def revLoop (d : OD K V) : Nat → Nat → Py (List (Option K))
  | 0, curr => if curr = 0 then .ok [] else .error .nonTermination
  | n + 1, curr =>
    if curr = 0 then .ok []
    else
      match revLoop d n (d.heap curr).prev with
      | .error e => .error e
      | .ok r => .ok ((d.heap curr).key :: r)

/-- `list(reversed(d))` -/
def reversed (d : OD K V) : Py (List (Option K)) := d.revLoop d.fresh (d.heap 0).prev

/-- `DictMixin.pop(key)` without default: `self[key]`, then `del self[key]`. -/
def pop (d : OD K V) (k : K) : Py (V × OD K V) :=
  match get d.dict k with
  | none => .error .keyError
  | some v =>
    match d.del k with
    | .error e => .error e
    | .ok d => .ok (v, d)

/-- `popitem` (_ordereddict.py:77-85): the first key of the iteration; `.next()` on an empty one is `StopIteration`. `not self` is by
the size of the underlying dict. -/
def popitem (d : OD K V) (last : Bool) : Py ((K × V) × OD K V) :=
  if d.dict.isEmpty then .error .keyError
  else
    let curr := if last then (d.heap 0).prev else (d.heap 0).next
    if curr = 0 then .error .stopIteration
    else
      match (d.heap curr).key with
      | none => .error .keyError
      | some k =>
        match d.pop k with
        | .error e => .error e
        | .ok (v, d) => .ok ((k, v), d)

/-- `items()`: the keys in order, each with `self[key]`. -/
def items (d : OD K V) : Py (List (K × V)) :=
  match d.iter with
  | .error e => .error e
  | .ok ks => ks.mapM (fun k =>
      match k with
      | none => Except.error .keyError
      | some k =>
        match get d.dict k with
        | none => .error .keyError
        | some v => .ok (k, v))

end OD

end Asn1.OrdDict
