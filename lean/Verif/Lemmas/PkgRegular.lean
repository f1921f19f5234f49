import Verif.Spec.Faithful
import Verif.Lemmas.KernelRfl
import Verif.Model.Package

/-! # DEFAULTs in the classes of the package -/

namespace Asn1.Pkg
open Asn1 Spec

/-- All classes in the tree. -/
def Tree.every (f : Shape → Bool) : Tree → Bool
  | .one s => f s
  | .two _ l r => l.every f && r.every f

theorem Tree.every_get {f : Shape → Bool} : ∀ {t : Tree}, t.every f = true → ∀ c, f (t.get c) = true
  | .one _, h, _ => h
  | .two k l r, h, c => by
    simp only [Tree.every, Bool.and_eq_true] at h
    simp only [Tree.get]
    cases Nat.blt c k
    · exact Tree.every_get h.2 c
    · exact Tree.every_get h.1 c

/-- The conditions of `Regular`, for one class. -/
def regularB : Shape → Bool
  | .choice _ _ alts => alts.all fun f => f.params.default.isNone
  | .parsable proto _ => !proto.indefinite
  | _ => true

theorem tree_regular (K : Codecs) : (tree K).every regularB = true := by kernel_rfl

theorem pkg_regular (K : Codecs) : Regular (env K) where
  alt c e t alts h f hf := by
    have := Tree.every_get (tree_regular K) c
    change (tree K).get c = _ at h
    rw [h] at this
    exact Option.isNone_iff_eq_none.mp (List.all_eq_true.mp this f hf)
  str c proto b h := by
    have := Tree.every_get (tree_regular K) c
    change (tree K).get c = _ at h
    rw [h] at this
    simpa [regularB] using this

end Asn1.Pkg
