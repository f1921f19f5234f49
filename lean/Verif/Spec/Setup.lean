import Mathlib.Data.List.Basic

/-! # What the tables of a class should hold -/

namespace Asn1.Spec

/-- The `n`th entry of the list is the last one that fits. -/
def LastAt {α : Type} (xs : List α) (fits : α → Prop) (n : Nat) : Prop :=
  (∃ x, xs[n]? = some x ∧ fits x) ∧ ∀ m x, n < m → xs[m]? = some x → ¬ fits x

end Asn1.Spec
