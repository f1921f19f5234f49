import Verif.Spec.Faithful

/-!
# Reading without coming across a DEFAULT of constructed type

`wary E n` is the library with `n` levels of recursion, except that it gives up where a value would be made from a DEFAULT of a type that is not primitive,
or where a SEQUENCE that has no explicit tags would be read with a DEFAULT to fill it up with. (In both cases the library takes the value for one that
has been changed.) What it gives, the library gives too.
-/

namespace Asn1.Spec
open Asn1

/-- A value of a type that is not primitive is made from a DEFAULT. -/
def makesDefault (E : Env) (c : ClassId) (p : Params) (x : PyVal) : Bool :=
  p.default.isSome && (match x with | .scalar .none => true | _ => false) &&
    (match E.cls c with | .leaf _ _ => false | .parsable _ _ => false | _ => true)

/-- A SEQUENCE without explicit tags is read with a DEFAULT. -/
def fillsDefault (E : Env) (spec : Option ClassId) (p : Params) : Bool :=
  match spec with
  | none => false
  | some c => p.default.isSome && (match E.cls c with | .seq _ _ _ _ _ => true | _ => false) && (explicitOf E c p).isEmpty

/-- The library, giving up where a DEFAULT of constructed type comes in. -/
def wary (E : Env) : Nat → Ops
  | 0 => Ops.zero
  | n + 1 => { (wary E n).step E with
      build := fun i spec p nested => if fillsDefault E spec p then .error .nonTermination else buildStep E (wary E n) i spec p nested
      construct := fun c p x => if makesDefault E c p x then .error .nonTermination else constructStep E (wary E n) c p x }

end Asn1.Spec
