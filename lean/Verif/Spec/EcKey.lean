import Verif.Model.EcKey
import Verif.Spec.Num

/-! # What is asked of an EC private key

`Asked` and `Number` read a history of operations: the width that was asked for last (by curve parameters or by
`set_key_size`), and the number that was assigned last. -/

namespace Asn1.Spec
open Asn1 Asn1.EcKey

/-- The object is in primitive form and its octets write `n`. -/
def IsNumber (o : IntOctObj) (n : Nat) : Prop :=
  o.indefinite = false ∧ (∃ c, o.contents = some c ∧ valU c = n) ∧ (o.native = none ∨ o.native = some n)

/-- The width that was asked for last, `a` if there was no request. `t` is the registry of curves at the start. -/
def askedWidth (w : Nat → Nat) : Sizes → Option Nat → List Op → Option Nat
  | _, a, [] => a
  | t, a, .register oid n :: ops => askedWidth w (t.register oid n) a ops
  | t, _, .setKeySize n :: ops => askedWidth w t (some n) ops
  | t, a, .params _ (some p) :: ops => askedWidth w t (match p.keySize w t with
      | .ok n => some n
      | .error _ => a) ops
  | t, a, .params _ none :: ops => askedWidth w t a ops
  | t, a, .delParams :: ops => askedWidth w t a ops
  | t, a, .dump :: ops => askedWidth w t a ops
  | t, a, .priv _ _ :: ops => askedWidth w t a ops

/-- `v` is a plain value standing for the number `n`. -/
def ValueIs : Value → Nat → Prop
  | .int m, n => m = n
  | .obj o, n => IsNumber o n

/-- The number assigned last is `n`, starting from a key holding `v`. -/
inductive LastNumber : Option Nat → List Op → Option Nat → Prop
  | done : LastNumber v [] v
  | priv : ValueIs x m → LastNumber (some m) ops n → LastNumber v (.priv b x :: ops) n
  | other : (∀ b x, op ≠ .priv b x) → LastNumber v ops n → LastNumber v (op :: ops) n

/-- The fields are assigned by name, not by index. -/
def ByName : Op → Prop
  | .priv b _ => b = true
  | .params b _ => b = true
  | _ => True

end Asn1.Spec
