import Verif.Spec.History

/-! # Values that can be written -/

namespace Asn1.Spec
open Asn1

mutual
/-- Everything inside the value can be written: primitive values have contents octets, and nested values have their required
fields. (Whether the value itself has its required fields is `Whole`.) -/
def Ready (E : Env) : ClassId → AVal → Prop
  | _, .absent => True
  | c, .prim s => ∀ proto bad, E.cls c = .leaf proto bad → ∃ st, proto.set s = .ok st
  | c, .seq as => ∀ proto bad isSet fields oid, E.cls c = .seq proto bad isSet fields oid → ReadyFields E fields as
  | c, .list as => ∀ proto bad isSet ch, E.cls c = .seqOf proto bad isSet (some ch) → ReadyList E ch as
  | c, .alt k a => ∀ e t alts f, E.cls c = .choice e t alts → alts[k]? = some f → Ready E f.spec a
/-- The same for the fields of a SEQUENCE. -/
def ReadyFields (E : Env) : List Field → List AVal → Prop
  | f :: fs, a :: as => Ready E f.spec a ∧ Whole E f.spec a ∧ ReadyFields E fs as
  | _, _ => True
/-- The same for the elements of a SEQUENCE OF. -/
def ReadyList (E : Env) (ch : ClassId) : List AVal → Prop
  | [] => True
  | a :: as => Ready E ch a ∧ Whole E ch a ∧ ReadyList E ch as
end

/-- It worked, or the encoding would have 256 ^ 127 bytes or more. -/
def Works {α : Type} (x : Py α) : Prop := (∃ y, x = .ok y) ∨ x = .error .overflowError

/-- The operations of a history, one after the other, with the value after each of them. What is read or written must be something
that can be written. -/
inductive History (E : Env) (V : Bool → ClassId → Params → Val → AVal → Prop) (c : ClassId) : AVal → List Op → AVal → Prop
  | nil {a : AVal} : History E V c a [] a
  | cons {a b a' : AVal} {o : Op} {os : List Op} : After E V c a o b → Ready E c b → ((∃ force, o = .dump force) → Whole E c b) →
      History E V c b os a' → History E V c a (o :: os) a'

/-- The operations carried out. -/
def runOps (E : Env) (r : Ops) : List Op → Val → Py Val
  | [], v => .ok v
  | o :: os, v => do
    let v ← runOp E r o v
    runOps E r os v

end Asn1.Spec
