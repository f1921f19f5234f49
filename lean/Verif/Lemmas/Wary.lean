import Verif.Spec.Wary
import Verif.Lemmas.OpsLe
import Verif.Lemmas.KeepBuild

/-! # Reading without coming across a DEFAULT of constructed type -/

namespace Asn1
open Spec

theorem wary_le (E : Env) : ∀ n, OpsLe (wary E n) (ops E n)
  | 0 => ⟨fun _ _ => .refl _, fun _ => .refl _, fun _ => .refl _, fun _ _ _ _ => .refl _, fun _ _ _ => .refl _, fun _ _ _ _ _ => .refl _, fun _ _ => .refl _⟩
  | n + 1 => by
    have h := (wary_le E n).step (E := E)
    refine ⟨h.dump, h.native, h.contents, fun i spec p nested => ?_, fun c p x => ?_, h.copyTo, h.item⟩
    · show PyLe (if fillsDefault E spec p then _ else _) _
      split
      · exact .error _ _
      · exact h.build i spec p nested
    · show PyLe (if makesDefault E c p x then _ else _) _
      split
      · exact .error _ _
      · exact h.construct c p x

theorem specOk_of_fills {E : Env} {spec : Option ClassId} {p : Params} (h : ¬ fillsDefault E spec p = true) : SpecOk E spec p := by
  rintro c rfl hs
  cases hd : p.default with
  | none => exact .inl rfl
  | some d =>
    refine .inr fun he => h ?_
    simp only [fillsDefault, hd, he]
    cases hc : E.cls c <;> rw [hc] at hs <;> first | rfl | exact hs.elim

theorem prim_of_makes {E : Env} {c : ClassId} {p : Params} (hd : p.default.isSome = true) (h : ¬ makesDefault E c p (.scalar .none) = true) :
    IsPrim (E.cls c) := by
  cases hc : E.cls c <;> first | trivial | exact absurd (by simp only [makesDefault, hd, hc, Bool.and_self]) h

theorem wary_suits (E : Env) (n : Nat) : Suits E (fun _ _ => True) (wary E n) where
  free _ := trivial
  field _ _ _ _ _ _ _ _ _ := trivial
  any _ _ _ _ _ _ _ _ _ _ _ := trivial
  replaced _ _ _ _ _ _ _ _ _ _ _ _ := trivial
  prim _ _ _ _ _ _ _ f _ hd v h := by
    cases n with
    | zero => cases h
    | succ n =>
      change (if makesDefault E f.spec f.params (.scalar .none) then _ else _) = _ at h
      split at h
      · cases h
      · next hm => exact prim_of_makes hd hm

theorem wary_reader {E : Env} (hR : Regular E) : ∀ n, Reader E (fun _ _ => True) (wary E n)
  | 0 => Reader.zero E _ (fun _ _ _ => trivial)
  | n + 1 =>
    have hr := wary_reader hR n
    have hS := wary_suits E n
    { plain := fun _ _ _ => trivial
      native := fun h => hr.native_step hS h
      contents := fun h => hr.contents_step hS h
      dump := fun h => hr.dump_step hS h
      keep := fun hk h => hr.keep_step hk h
      build := fun {i spec p nested v} _ h => by
        change (if fillsDefault E spec p then _ else buildStep E (wary E n) i spec p nested) = _ at h
        split at h
        · cases h
        · next hf => exact hr.build_step hR (specOk_of_fills hf) h
      construct := fun {c p v} hc h => by
        change (if makesDefault E c p (.scalar .none) then _ else constructStep E (wary E n) c p (.scalar .none)) = _ at h
        split at h
        · cases h
        · exact construct_prim hc h
      item := fun h => hr.getItem hS h }

end Asn1
