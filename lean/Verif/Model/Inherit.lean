/-!
# Names of values in derived classes: `_map` and `_reverse_map` with inheritance

An attribute of a class is looked up along its method resolution order; what is assigned to `cls` belongs to that class only.
-/

namespace Asn1.Inherit

/-- The classes: the method resolution order (the class itself first) and the `_map` of those that define one, as the items of the dict. -/
structure Classes (K : Type) where
  mro : Nat → List Nat
  map : Nat → Option (List (K × String))

/-- `_reverse_map` of the classes to which it was assigned, as the items of the dict with the one written last in front, and `_SETUP_CLASSES`. -/
structure Tables (K : Type) where
  own : Nat → Option (List (String × K)) := fun _ => none
  marked : Nat → Bool := fun _ => false

variable {K : Type}

/-- `cls._map` -/
def mapOf (C : Classes K) (c : Nat) : Option (List (K × String)) := (C.mro c).findSome? C.map

/-- `cls._reverse_map` -/
def reverseOf (C : Classes K) (s : Tables K) (c : Nat) : Option (List (String × K)) := (C.mro c).findSome? s.own

/-- The dict that `_setup` makes (core.py:688-690) -/
def reversed (m : List (K × String)) : List (String × K) := (m.map fun e => (e.2, e.1)).reverse

/-- `ValueMap._setup` (core.py:680-690) -/
def setup (C : Classes K) (c : Nat) (s : Tables K) : Tables K :=
  match mapOf C c with
  | none => s
  | some m =>
    match reverseOf C s c with
    | some _ => s
    | none => { s with own := fun x => if x = c then some (reversed m) else s.own x }

/-- The first lines of the constructor (core.py:299-307), which every use of the class goes through; in `unmap` (core.py:3051-3053) -/
def use (C : Classes K) (s : Tables K) (c : Nat) : Tables K :=
  if s.marked c then s
  else
    let s := setup C c s
    { s with marked := fun x => if x = c then true else s.marked x }

/-- `cls._reverse_map.get(name)` (core.py:1942-1951, 3071-3072, 3109-3110, 3268-3277), after the class has been used. Without `_map` there are no names. -/
def valueOf (C : Classes K) (s : Tables K) (c : Nat) (name : String) : Option K := (reverseOf C s c).bind (·.lookup name)

/-- `cls._map.get(value)` (core.py:1991-1992, 2147, 3033, 3211, 3303) -/
def nameOf [BEq K] (C : Classes K) (c : Nat) (k : K) : Option String := (mapOf C c).bind (·.lookup k)

end Asn1.Inherit
