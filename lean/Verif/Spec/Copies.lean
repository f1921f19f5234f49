import Verif.Model.Core

/-! # Copies -/

namespace Asn1.Spec
open Asn1

/-- The instance has no child objects, and the alternative or parsed value it holds has none either. (Two instances can only affect each
other through a child object that both hold.) -/
inductive Detached : Val → Prop
  | void : Detached .void
  | leaf {c : ClassId} {s : LeafSt} : Detached (.leaf c s)
  | node {c : ClassId} {o : Obj Unit} {m : Bool} : Detached (.node c o none m)
  | choice {c : ClassId} {o : Obj Unit} {alt : Option Nat} {p : Option Val} : (∀ v, p = some v → Detached v) → Detached (.choice c o alt p)
  | any {c : ClassId} {o : Obj Unit} {p : Option Val} {s : Option ClassId} : (∀ v, p = some v → Detached v) → Detached (.any c o p s)
  | parsable {c : ClassId} {o : Obj Bytes} {p : Option Val} {s : Option ClassId} : (∀ v, p = some v → Detached v) → Detached (.parsable c o p s)

end Asn1.Spec
