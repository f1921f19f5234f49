/-!
# First use of a class in several threads: `_setup` and `_SETUP_CLASSES`

The lookup tables of a class are made by the first instance (core.py:299-307). Here the statements that do it are instructions of a thread, and any number
of threads carry them out in any order. What CPython does without letting another thread run in between is taken to be one step: reading an attribute of the
class, writing one, and one operation on a dict or list. An access such as `cls._id_map[id_] = index` is two steps, reading the attribute and writing to the
object it refers to, which may have been replaced by then.

Simplifications: padding the entries of `_alternatives` and `_fields` with `{}` writes the same values in every thread and is left out; so is `_oid_nums`, which
is written with the same numbers by every thread; the order of the keys of a dict is not kept.
-/

namespace Asn1.Setup

/-- Keys and entries of the tables: numbers, names, results of `_build_id_tuple`, entries of `_precomputed_specs` (a class or `None`). -/
inductive Atom where
  | num (n : Int)
  | text (s : String)
  | ident (o : Option (Nat × Nat))
  | spec (c : Option Nat)
deriving DecidableEq, Repr

/-- A dict or a list. -/
inductive Table where
  | dict (es : List (Atom × Atom))
  | list (xs : List Atom)
deriving DecidableEq, Repr

/-- What a thread does; attributes of the class are numbered. -/
inductive Instr where
  /-- `if self.__class__ not in _SETUP_CLASSES:` (core.py:299) around everything up to the entry in `_SETUP_CLASSES` -/
  | unlessMarked
  /-- `if cls._reverse_map is not None: return` (core.py:686) -/
  | unlessSet (a : Nat)
  /-- `cls.a = {}` -/
  | newDict (a : Nat)
  /-- `cls.a = []` -/
  | newList (a : Nat)
  /-- `cls.a[k] = v` -/
  | store (a : Nat) (k v : Atom)
  /-- `cls.a.append(v)` -/
  | append (a : Nat) (v : Atom)
  /-- reading `cls.a[k]`, which raises an exception if there is no such key -/
  | get (a : Nat) (k : Atom)
  /-- `_SETUP_CLASSES[cls] = True` (core.py:307) -/
  | mark
deriving DecidableEq, Repr

/-- A thread: what it has still to do, the object it has read from the attribute (in the middle of an access), what it has read last, and whether an
exception was raised. -/
structure Thread where
  rest : List Instr
  ref : Option Nat := none
  got : Option Atom := none
  failed : Bool := false
deriving DecidableEq, Repr

/-- The attributes of the class (`none` is `None`), all dicts and lists made so far, whether the class is in `_SETUP_CLASSES`, and the threads. -/
structure World where
  attrs : Nat → Option Nat
  heap : List Table
  marked : Bool
  threads : List Thread

/-- What remains from the entry in `_SETUP_CLASSES` on. -/
def toMark (l : List Instr) : List Instr := l.dropWhile (· ≠ .mark)

/-- `d[k] = v` -/
def Table.put (k v : Atom) : Table → Table
  | .dict es => .dict ((k, v) :: es)
  | t => t

/-- `l.append(v)` -/
def Table.push (v : Atom) : Table → Table
  | .list xs => .list (xs ++ [v])
  | t => t

/-- `d[k]` -/
def Table.find (k : Atom) : Table → Option Atom
  | .dict es => es.lookup k
  | .list _ => none

/-- An access to the attribute `a`: reading the attribute, then `act` on the object. -/
def access (w : World) (t : Thread) (a : Nat) (r : List Instr) (act : Table → Table) : World × Thread :=
  match t.ref with
  | none =>
    match w.attrs a with
    | none => (w, { t with rest := [], failed := true })
    | some x => (w, { t with ref := some x })
  | some x => ({ w with heap := w.heap.modify x act }, { t with rest := r, ref := none })

/-- The next step of a thread. -/
def exec (w : World) (t : Thread) : World × Thread :=
  match t.rest with
  | [] => (w, t)
  | .unlessMarked :: r => (w, { t with rest := if w.marked then (toMark r).drop 1 else r })
  | .unlessSet a :: r => (w, { t with rest := if (w.attrs a).isSome then toMark r else r })
  | .newDict a :: r => ({ w with attrs := fun b => if b = a then some w.heap.length else w.attrs b, heap := w.heap ++ [.dict []] }, { t with rest := r })
  | .newList a :: r => ({ w with attrs := fun b => if b = a then some w.heap.length else w.attrs b, heap := w.heap ++ [.list []] }, { t with rest := r })
  | .store a k v :: r => access w t a r (Table.put k v)
  | .append a v :: r => access w t a r (Table.push v)
  | .get a k :: r =>
    match t.ref with
    | none => access w t a r id
    | some x =>
      match (w.heap[x]?).bind (Table.find k) with
      | none => (w, { t with rest := [], ref := none, failed := true })
      | some v => (w, { t with rest := r, ref := none, got := some v })
  | .mark :: r => ({ w with marked := true }, { t with rest := r })

/-- Thread `i` does its next step. -/
def step (w : World) (i : Nat) : World :=
  match w.threads[i]? with
  | none => w
  | some t => { (exec w t).1 with threads := w.threads.set i (exec w t).2 }

/-- The threads do their steps in the order given. -/
def run (w : World) (schedule : List Nat) : World := schedule.foldl step w

/-- A class that has not been used, and threads that are about to. -/
def start (programs : List (List Instr)) : World := { attrs := fun _ => none, heap := [], marked := false, threads := programs.map fun p => { rest := p } }

/-- The table an attribute refers to. -/
def World.table (w : World) (a : Nat) : Option Table := (w.attrs a).bind fun x => w.heap[x]?

/-! ### The programs -/

/-- `Choice._setup` (core.py:1082-1096) within `Asn1Value.__init__` (core.py:299-307). The alternatives are given by the result of `_build_id_tuple` and the name.
Attribute 0 is `_id_map`, 1 is `_name_map`. -/
def choiceSetup (alts : List (Option (Nat × Nat) × String)) : List Instr :=
  [.unlessMarked, .newDict 0, .newDict 1] ++
    alts.zipIdx.flatMap (fun a => [.store 0 (.ident a.1.1) (.num a.2), .store 1 (.text a.1.2) (.num a.2)]) ++ [.mark]

/-- `ValueMap._setup` (core.py:680-690) for a class with a `_map`, given by its items. Attribute 0 is `_reverse_map`. -/
def mapSetup (items : List (Atom × String)) : List Instr :=
  [.unlessMarked, .unlessSet 0, .newDict 0] ++ items.map (fun e => .store 0 (.text e.2) e.1) ++ [.mark]

/-- A field: name, result of `_build_id_tuple`, and the entry of `_precomputed_specs`. -/
structure FieldRow where
  name : String
  ident : Option (Nat × Nat)
  spec : Option Nat

/-- `Sequence._setup` (core.py:3711-3736); `pair` is `_oid_pair`. Attribute 0 is `_field_map`, 1 is `_field_ids`, 2 is `_precomputed_specs`. -/
def seqSetup (fields : List FieldRow) (pair : Option (String × String)) : List Instr :=
  [.unlessMarked, .newDict 0, .newList 1, .newList 2] ++
    fields.zipIdx.flatMap (fun f => [.store 0 (.text f.1.name) (.num f.2), .append 1 (.ident f.1.ident)]) ++
    (match pair with
    | none => []
    | some (x, y) => [.get 0 (.text x), .get 0 (.text y)]) ++ fields.map (fun f => .append 2 (.spec f.spec)) ++ [.mark]

/-- `Set._setup` (core.py:4636-4661): here `_field_ids` is a dict. -/
def setSetup (fields : List FieldRow) (pair : Option (String × String)) : List Instr :=
  [.unlessMarked, .newDict 0, .newDict 1, .newList 2] ++
    fields.zipIdx.flatMap (fun f => [.store 0 (.text f.1.name) (.num f.2), .store 1 (.ident f.1.ident) (.num f.2)]) ++
    (match pair with
    | none => []
    | some (x, y) => [.get 0 (.text x), .get 0 (.text y)]) ++ fields.map (fun f => .append 2 (.spec f.spec)) ++ [.mark]

end Asn1.Setup
