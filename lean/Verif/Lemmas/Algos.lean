import Verif.Model.Algos
import Verif.Spec.Algos
import Verif.Lemmas.Num

/-! # Lemmas on the tables of algorithm names -/

namespace Asn1.Algos
open Asn1 Spec

theorem look_mem {α β : Type} [BEq α] [LawfulBEq α] {m : List (α × β)} {k : α} {v : β} (h : look m k = some v) : (k, v) ∈ m := by
  unfold look at h
  obtain ⟨e, he, rfl⟩ := Option.map_eq_some_iff.mp h
  have h1 := List.mem_of_find?_eq_some he
  have h2 : e.1 = k := eq_of_beq (by simpa using List.find?_some he)
  subst h2
  exact h1

theorem look_none {α β : Type} [BEq α] [LawfulBEq α] {m : List (α × β)} {k : α} (h : ∀ e ∈ m, e.1 ≠ k) : look m k = none := by
  unfold look
  rw [Option.map_eq_none_iff, List.find?_eq_none]
  intro e he hc
  exact h e he (eq_of_beq hc)

/-- A text with a dot has none of the names that occur in a table without dots. -/
theorem look_dotted {β : Type} {m : List (Str × β)} (hm : ∀ e ∈ m, '.' ∉ e.1) {k : Str} (hk : '.' ∈ k) :
    look m k = none := look_none (fun e he hc => hm e he (hc ▸ hk))

theorem noDot_dotted {k : Str} (hk : '.' ∈ k) : noDot k = false := by
  simp [noDot, hk]

theorem ne_of_dot {k n : Str} (hk : '.' ∈ k) (hn : '.' ∉ n) : k ≠ n := fun h => hn (h ▸ hk)

/-- An OID text does not begin with a letter. -/
theorem take_ne {k : Str} (hk : OidText k) {n : Str} {c : Char} {l : Nat} (hl : 0 < l)
    (hc : n.head? = some c) (hnd : ¬ (('0' ≤ c ∧ c ≤ '9') ∨ c = '.')) : k.take l ≠ n := by
  intro h
  cases k with
  | nil => cases n with
    | nil => cases hc
    | cons a r => simp at h
  | cons a r =>
    cases l with
    | zero => omega
    | succ l =>
      rw [List.take_succ_cons] at h
      subst h
      simp at hc
      exact hnd (hc ▸ hk.1 a (by simp))

theorem signatureAlgo_none {a : SignedDigest} (h : look signatureAlgoMap a.algorithm = none) :
    a.signatureAlgo = .error .valueError := by
  unfold SignedDigest.signatureAlgo; rw [h]

theorem hashAlgo_none {a : SignedDigest} (h : look algoMap a.algorithm = none) (hp : a.algorithm ≠ "rsassa_pss".toList) :
    a.hashAlgo = .error .valueError := by
  unfold SignedDigest.hashAlgo; rw [h]; simp only; rw [if_neg hp]; split <;> rfl

theorem cmsHashAlgo_none {a : SignedDigest} (h : look algoMap a.algorithm = none) (hp : a.algorithm ≠ "rsassa_pss".toList)
    (hc : look cmsAlgoMap a.algorithm = none) : a.cmsHashAlgo = .error .valueError := by
  unfold SignedDigest.cmsHashAlgo; rw [h]; simp only; rw [if_neg hp, hc]

end Asn1.Algos
