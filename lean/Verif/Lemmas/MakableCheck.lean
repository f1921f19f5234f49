import Verif.Lemmas.TypesCheck
import Verif.Spec.Give

/-! # Deciding that values of classes can be made -/

namespace Asn1
open Spec Props

/-- See `Telling`. -/
def tellingB (E : Env) (f : Field) : Bool := match E.cls f.spec with
  | .leaf _ _ => true
  | _ => false

theorem tellingB_sound {E : Env} {f : Field} (h : tellingB E f = true) : Telling E f := by
  unfold tellingB at h
  split at h
  · next he => exact ⟨_, _, he⟩
  · cases h

/-- See `Makable.pair`, for what decides. -/
def deciderB (E : Env) (f : Field) : Option Nat → Bool
  | none => tellingB E f
  | some k => f.params.explicit.isEmpty && f.params.implicit.isNone && f.params.default.isNone && !f.params.optional && match E.cls f.spec with
    | .seq _ _ false fs oid => (match fs[k]? with
      | some g => tellingB E g
      | none => false) && match oid with
        | some q => decide (q.value ≠ k)
        | none => true
    | _ => false

/-- See `Makable`, for one class. -/
def makableClassB (E : Env) (c : ClassId) : Bool := match E.cls c with
  | .seq proto _ isSet fields oid => proto.contents.isNone && (!isSet || fields.all (fun f => hasTagB (E.cls f.spec) && f.params.explicit.isEmpty)) &&
    match oid with
    | none => true
    | some p => (match fields[p.value]? with
      | some f => f.params.default.isNone
      | none => true) && match fields[p.oid]? with
        | some f => deciderB E f p.sub
        | none => false
  | .seqOf proto _ _ _ => proto.contents.isNone
  | _ => true

/-- The classes with the numbers below `size`. -/
def makableB (E : Env) (size : Nat) : Bool := (List.range size).all (makableClassB E)

theorem deciderB_sound {E : Env} {f : Field} {s : Option Nat} (h : deciderB E f s = true) : (s = none → Telling E f) ∧ ∀ k, s = some k →
      f.params.explicit = [] ∧ f.params.implicit = none ∧ f.params.default = none ∧ f.params.optional = false ∧
        ∃ proto bad fs oid g, E.cls f.spec = .seq proto bad false fs oid ∧ fs[k]? = some g ∧ Telling E g ∧ ∀ q, oid = some q → q.value ≠ k := by
  cases s with
  | none => exact ⟨fun _ => tellingB_sound h, fun k hk => (by cases hk)⟩
  | some k =>
    refine ⟨fun hk => (by cases hk), fun k' hk => ?_⟩
    cases hk
    simp only [deciderB, Bool.and_eq_true, List.isEmpty_iff, Option.isNone_iff_eq_none, Bool.not_eq_true'] at h
    obtain ⟨⟨⟨⟨h1, h2⟩, h3⟩, h4⟩, h5⟩ := h
    refine ⟨h1, h2, h3, h4, ?_⟩
    split at h5
    · next proto bad fs oid he =>
      rw [Bool.and_eq_true] at h5
      obtain ⟨h6, h7⟩ := h5
      split at h6
      · next g hg =>
        refine ⟨proto, bad, fs, oid, g, he, hg, tellingB_sound h6, fun q hq => ?_⟩
        subst hq
        simpa using h7
      · cases h6
    · cases h5

theorem makableB_sound {E : Env} {size : Nat} (h : makableB E size = true) : Makable E (· < size) := by
  have key : ∀ c, c < size → makableClassB E c = true := fun c hc => List.all_eq_true.mp h c (List.mem_range.mpr hc)
  refine ⟨fun c proto bad isSet fields p hc hE => ?_, fun c hc => ⟨fun proto bad isSet fields oid hE => ?_, fun proto bad isSet ch hE => ?_⟩,
    fun c proto bad fields oid hc hE f hf => ?_⟩
  all_goals have hk := key c hc; rw [makableClassB, hE] at hk
  · simp only [Bool.and_eq_true] at hk
    obtain ⟨_, h1, h2⟩ := hk
    refine ⟨fun f hf => by rw [hf] at h1; simpa using h1, ?_⟩
    split at h2
    · next f hf => exact ⟨f, hf, deciderB_sound h2⟩
    · cases h2
  · simp only [Bool.and_eq_true, Option.isNone_iff_eq_none] at hk
    exact hk.1.1
  · simpa using hk
  · simp only [Bool.and_eq_true, Bool.not_true, Bool.false_or, List.all_eq_true, List.isEmpty_iff] at hk
    exact ⟨(hasTagB_iff _).mp (hk.1.2 f hf).1, (hk.1.2 f hf).2⟩

/-- The contents octets of a value given to a primitive class, and what they are read as. -/
def writtenB (proto : LeafSt) (x : Scalar) : Option (List UInt8 × Scalar) := match proto.set x with
  | .ok st => match st.base.contents, settled st with
    | some b, some s => if readsB proto false b = some s then some (b, s) else none
    | _, _ => none
  | _ => none

theorem writtenB_sound {proto : LeafSt} {x s : Scalar} {b : List UInt8} (h : writtenB proto x = some (b, s)) : Written proto x b s := by
  unfold writtenB at h
  split at h
  · next st hs =>
    split at h
    · next b' s' hb hn =>
      split at h
      · next hr =>
        cases h
        exact ⟨st, hs, hb, settled_sound hn, readsB_sound hr⟩
      · cases h
    · cases h
  · cases h

end Asn1
