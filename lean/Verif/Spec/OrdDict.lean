import Verif.Model.Py

/-! # Insertion-ordered maps -/

namespace Asn1.Spec

variable {K V : Type} [DecidableEq K]

/-- An insertion-ordered map is a list of entries, the oldest first. Assigning to a key that is present replaces its
value in place, otherwise the entry goes to the end. -/
def assign (l : List (K × V)) (k : K) (v : V) : List (K × V) :=
  if k ∈ l.map Prod.fst then l.map (fun e => if e.1 = k then (k, v) else e) else l ++ [(k, v)]

/-- Without the entry of `k`. -/
def without (l : List (K × V)) (k : K) : List (K × V) := l.filter (fun e => e.1 ≠ k)

/-- Operations on a map; `pop` and `popitem` remove an entry and return it. -/
inductive MapOp (K V : Type) where
  | set (k : K) (v : V)
  | del (k : K)
  | pop (k : K)
  | popitem (last : Bool)
  | clear

/-- What an operation returns. -/
inductive MapResult (K V : Type) where
  | nothing
  | value (v : V)
  | item (k : K) (v : V)
  | keyError

/-- The meaning of the operations. -/
def mapStep (l : List (K × V)) : MapOp K V → List (K × V) × MapResult K V
  | .set k v => (assign l k v, .nothing)
  | .del k => if k ∈ l.map Prod.fst then (without l k, .nothing) else (l, .keyError)
  | .pop k =>
    match l.find? (fun e => e.1 = k) with
    | none => (l, .keyError)
    | some e => (without l k, .value e.2)
  | .popitem true =>
    match l.getLast? with
    | none => (l, .keyError)
    | some e => (l.dropLast, .item e.1 e.2)
  | .popitem false =>
    match l with
    | [] => (l, .keyError)
    | e :: r => (r, .item e.1 e.2)
  | .clear => ([], .nothing)

/-- The same history on an insertion-ordered map. -/
def mapRun (l : List (K × V)) : List (MapOp K V) → List (K × V) × List (MapResult K V)
  | [] => (l, [])
  | op :: ops => ((mapRun (mapStep l op).1 ops).1, (mapStep l op).2 :: (mapRun (mapStep l op).1 ops).2)

end Asn1.Spec
