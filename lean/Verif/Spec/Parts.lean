import Verif.Model.Core

/-!
# The parts of the encoding of a SEQUENCE

A field is held either as it was loaded (`lazy`) or as an instance. `Parts r fields children ws`: with the operations `r`, the fields
contribute the octets `ws` to the encoding, in declared order.
-/

namespace Asn1.Spec
open Asn1

/-- What a field is encoded as: the element that was loaded, or what `dump()` of the instance gives. -/
inductive ChildBytes (r : Ops) : Child → List UInt8 → Prop
  | loaded {i : Info} {s : Option ClassId} {n : Option ClassId} : ChildBytes r (.lazy i s n) (i.header ++ i.contents ++ i.trailer)
  | value {v v' : Val} {b : List UInt8} : r.dump v false = .ok (b, v') → ChildBytes r (.val v) b

/-- The field has a DEFAULT, whose encoding is `b`. -/
def DefaultBytes (r : Ops) (f : Field) (b : List UInt8) : Prop :=
  f.params.default ≠ none ∧ ∃ d d', r.construct f.spec f.params (.scalar .none) = .ok d ∧ r.dump d false = .ok (b, d')

/-- See above. -/
inductive Parts (r : Ops) : List Field → List Child → List (List UInt8) → Prop
  | nil : Parts r [] [] []
  | omitted {f : Field} {fs : List Field} {ch : Child} {cs : List Child} {b : List UInt8} {ws : List (List UInt8)} :
      ChildBytes r ch b → DefaultBytes r f b → Parts r fs cs ws → Parts r (f :: fs) (ch :: cs) ([] :: ws)
  | included {f : Field} {fs : List Field} {ch : Child} {cs : List Child} {b : List UInt8} {ws : List (List UInt8)} :
      ChildBytes r ch b → ¬ DefaultBytes r f b → Parts r fs cs ws → Parts r (f :: fs) (ch :: cs) (b :: ws)

/-- The fields of a SET contribute the elements `es`, each with the tag of the instance, in declared order. Elements as they were loaded do not
occur: the code cannot encode a SET that holds such (`C21_changed_dump_fails`). -/
inductive SetParts (r : Ops) : List Field → List Child → List (Option Nat × List UInt8) → Prop
  | nil {fs : List Field} : SetParts r fs [] []
  | omitted {f : Field} {fs : List Field} {v v' : Val} {cs : List Child} {b : List UInt8} {es : List (Option Nat × List UInt8)} :
      r.dump v false = .ok (b, v') → DefaultBytes r f b → SetParts r fs cs es → SetParts r (f :: fs) (.val v :: cs) es
  | included {f : Field} {fs : List Field} {v v' : Val} {cs : List Child} {b : List UInt8} {es : List (Option Nat × List UInt8)} :
      r.dump v false = .ok (b, v') → ¬ DefaultBytes r f b → SetParts r fs cs es → SetParts r (f :: fs) (.val v :: cs) ((v'.tagging.2.1, b) :: es)

/-- The elements stand in the order of their tags, all of which are known if there are two or more. -/
def ByTag (es : List (Option Nat × List UInt8)) : Prop :=
  es.length ≤ 1 ∨ ∃ ts : List (Nat × List UInt8), es = ts.map (fun e => (some e.1, e.2)) ∧ ts.Pairwise (fun a b => a.1 ≤ b.1)

/-- The assignments `value[idx] = x`, one after the other. -/
def assignAll (E : Env) (r : Ops) : List (Nat × PyVal) → Val → Py Val
  | [], v => .ok v
  | e :: es, v => do
    let v ← setField E r v e.1 e.2
    assignAll E r es v

end Asn1.Spec
