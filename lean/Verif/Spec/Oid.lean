import Verif.Spec.Ber
import Mathlib.Data.List.Forall2

/-! # Specification: OBJECT IDENTIFIER contents (X.690 §8.19) -/

namespace Asn1.Spec

/-- Arc constraints of X.660: at least two arcs, first 0..2, second below 40 unless the first is 2. -/
def OidValid : List Nat → Prop
  | a :: b :: _ => a ≤ 2 ∧ (a < 2 → b < 40)
  | _ => False

instance (arcs : List Nat) : Decidable (OidValid arcs) := by
  unfold OidValid; split <;> infer_instance

/-- Subidentifiers: the first two arcs are merged. -/
def oidSubs : List Nat → List Nat
  | a :: b :: rest => (40 * a + b) :: rest
  | _ => []

/-- Contents octets: each subidentifier in base 128 without leading zero group. -/
def OidContents (arcs : List Nat) (contents : List UInt8) : Prop :=
  ∃ chunks : List (List UInt8), contents = chunks.flatten ∧ List.Forall₂ Vlq chunks (oidSubs arcs)

/-- Dotted decimal text of a list of arcs. -/
def dottedText (arcs : List Nat) : List Char := List.intercalate ['.'] (arcs.map (Nat.toDigits 10))

end Asn1.Spec
