import Verif.Spec.Oid
import Verif.Spec.Num
import Verif.Model.Core

/-! # Specification: names that a class defines for its values -/

namespace Asn1.Spec
open Asn1

/-- The contents octets of an INTEGER or ENUMERATED in the shortest two's complement form (X.690 §8.3). -/
def IntContents (n : Int) (c : List UInt8) : Prop := c ≠ [] ∧ valS c = n ∧ ∀ d, d ≠ [] → valS d = n → c.length ≤ d.length ∧ (d.length = c.length → d = c)

/-- The class lists the name for a value, and that value has the contents octets. -/
inductive Stands : LeafSt → List Char → List UInt8 → Prop
  | oid {k : OidClass} {o : OidObj} {m : StrMap} {arcs : List Nat} {name : List Char} {c : List UInt8} : k.map = some m → (dottedText arcs, name) ∈ m →
      OidValid arcs → OidContents arcs c → Stands (.oid k o) name c
  | integer {m : IntMap} {o : Obj IntNative} {n : Int} {s : String} {c : List UInt8} : (n, s) ∈ m → IntContents n c →
      Stands (.integer (some m) o) s.toList c
  | enumerated {m : IntMap} {o : Obj IntNative} {n : Int} {s : String} {c : List UInt8} : (n, s) ∈ m → IntContents n c →
      Stands (.enumerated (some m) o) s.toList c

/-- The names that a class lists. -/
def namesOf : LeafSt → List (List Char)
  | .oid k _ => (k.map.getD []).map Prod.snd
  | .integer m _ => (m.getD []).map (fun e => e.2.toList)
  | .enumerated m _ => (m.getD []).map (fun e => e.2.toList)
  | _ => []

/-- `proto` is the class of the value that decides about another field: the field at `p.oid`, or a field of that field. -/
inductive DecidedBy (E : Env) (fields : List Field) (p : OidPair) (proto : LeafSt) : Prop
  | field {f : Field} {bad : List Nat} : p.sub = none → fields[p.oid]? = some f → E.cls f.spec = .leaf proto bad → DecidedBy E fields p proto
  | nested {f g : Field} {k : Nat} {o : Obj Unit} {bad bad' : List Nat} {isSet : Bool} {fs : List Field} {q : Option OidPair} : p.sub = some k →
      fields[p.oid]? = some f → E.cls f.spec = .seq o bad isSet fs q → fs[k]? = some g → E.cls g.spec = .leaf proto bad' → DecidedBy E fields p proto

end Asn1.Spec
