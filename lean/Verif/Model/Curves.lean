/-!
# The tables of `NamedCurve` and `register`

The dicts `_map`, `_reverse_map` and `_key_sizes` as lists of their items in the order of insertion.
-/

namespace Asn1.Curves

variable {K V : Type}

/-- `d[k] = v`: a key that is there keeps its place. -/
def dictSet [BEq K] (k : K) (v : V) : List (K × V) → List (K × V)
  | [] => [(k, v)]
  | e :: d => if e.1 == k then (e.1, v) :: d else e :: dictSet k v d

/-- `d[k]` -/
def dictGet [BEq K] (k : K) : List (K × V) → Option V
  | [] => none
  | e :: d => if e.1 == k then some e.2 else dictGet k d

/-- `NamedCurve._map`, `_reverse_map` (`none` until the class is used, core.py:671-672) and `_key_sizes` (keys.py:320-489). -/
structure Tables where
  map : List (String × String)
  reverse : Option (List (String × String)) := none
  sizes : List (String × Nat)

/-- `ValueMap._setup` (core.py:674-690), at the first use of the class (core.py:299-307, 3051-3053) -/
def use (t : Tables) : Tables :=
  match t.reverse with
  | some _ => t
  | none => { t with reverse := some (t.map.foldl (fun d e => dictSet e.2 e.1 d) []) }

/-- `NamedCurve.register(name, oid, key_size)` (keys.py:491-511) -/
def register (name oid : String) (size : Nat) (t : Tables) : Tables :=
  { map := dictSet oid name t.map, reverse := t.reverse.map (dictSet name oid), sizes := dictSet oid size t.sizes }

/-- The name that an OID reads as (core.py:3033, 3211); without one the OID itself is given. -/
def nameOf (t : Tables) (oid : String) : Option String := dictGet oid t.map

/-- The OID that a name is encoded as (core.py:3071-3072, 3109-3110), after the class has been used. -/
def oidOf (t : Tables) (name : String) : Option String := (use t).reverse.bind (dictGet name)

/-- The width registered for an OID (keys.py:541-548) -/
def widthOf (t : Tables) (oid : String) : Option Nat := dictGet oid t.sizes

end Asn1.Curves
