import Verif.Lemmas.KernelRfl
import Verif.Lemmas.Tables
import Verif.Model.Package

/-! # The name tables of the package are sound

The tables are checked in parts, which takes less memory than all at once. -/

namespace Asn1.Pkg
open Asn1 Spec Props

theorem all_parts {f : Nat → Bool} (h0 : (List.range' 0 75).all f = true) (h1 : (List.range' 75 75).all f = true) (h2 : (List.range' 150 75).all f = true)
    (h3 : (List.range' 225 75).all f = true) (h4 : (List.range' 300 142).all f = true) : (List.range count).all f = true := by
  rw [List.all_eq_true] at *
  intro i hi
  have hi : i < 442 := List.mem_range.mp hi
  rcases Nat.lt_or_ge i 75 with h | h
  · exact h0 i (by rw [List.mem_range'_1]; omega)
  rcases Nat.lt_or_ge i 150 with h | h
  · exact h1 i (by rw [List.mem_range'_1]; omega)
  rcases Nat.lt_or_ge i 225 with h | h
  · exact h2 i (by rw [List.mem_range'_1]; omega)
  rcases Nat.lt_or_ge i 300 with h | h
  · exact h3 i (by rw [List.mem_range'_1]; omega)
  · exact h4 i (by rw [List.mem_range'_1]; omega)

theorem leafTables_0 (K : Codecs) : (List.range' 0 75).all (fun i => leafTableB ((env K).cls i)) = true := by kernel_rfl

theorem leafTables_1 (K : Codecs) : (List.range' 75 75).all (fun i => leafTableB ((env K).cls i)) = true := by kernel_rfl

theorem leafTables_2 (K : Codecs) : (List.range' 150 75).all (fun i => leafTableB ((env K).cls i)) = true := by kernel_rfl

theorem leafTables_3 (K : Codecs) : (List.range' 225 75).all (fun i => leafTableB ((env K).cls i)) = true := by kernel_rfl

theorem leafTables_4 (K : Codecs) : (List.range' 300 142).all (fun i => leafTableB ((env K).cls i)) = true := by kernel_rfl

theorem leafTables_checked (K : Codecs) : (List.range count).all (fun i => leafTableB ((env K).cls i)) = true :=
  all_parts (leafTables_0 K) (leafTables_1 K) (leafTables_2 K) (leafTables_3 K) (leafTables_4 K)

theorem oneName_0 (K : Codecs) : (List.range' 0 75).all (fun i => i == Id.algos.SignedDigestAlgorithmId || i == Id.algos.AnyAlgorithmId ||
    oneNameB ((env K).cls i)) = true := by kernel_rfl

theorem oneName_1 (K : Codecs) : (List.range' 75 75).all (fun i => i == Id.algos.SignedDigestAlgorithmId || i == Id.algos.AnyAlgorithmId ||
    oneNameB ((env K).cls i)) = true := by kernel_rfl

theorem oneName_2 (K : Codecs) : (List.range' 150 75).all (fun i => i == Id.algos.SignedDigestAlgorithmId || i == Id.algos.AnyAlgorithmId ||
    oneNameB ((env K).cls i)) = true := by kernel_rfl

theorem oneName_3 (K : Codecs) : (List.range' 225 75).all (fun i => i == Id.algos.SignedDigestAlgorithmId || i == Id.algos.AnyAlgorithmId ||
    oneNameB ((env K).cls i)) = true := by kernel_rfl

theorem oneName_4 (K : Codecs) : (List.range' 300 142).all (fun i => i == Id.algos.SignedDigestAlgorithmId || i == Id.algos.AnyAlgorithmId ||
    oneNameB ((env K).cls i)) = true := by kernel_rfl

theorem oneName_checked (K : Codecs) : (List.range count).all (fun i => i == Id.algos.SignedDigestAlgorithmId || i == Id.algos.AnyAlgorithmId ||
    oneNameB ((env K).cls i)) = true :=
  all_parts (oneName_0 K) (oneName_1 K) (oneName_2 K) (oneName_3 K) (oneName_4 K)

theorem specTables_0 (K : Codecs) : (List.range' 0 75).all (fun i => specTableB (env K) count ((env K).cls i)) = true := by kernel_rfl

theorem specTables_1 (K : Codecs) : (List.range' 75 75).all (fun i => specTableB (env K) count ((env K).cls i)) = true := by kernel_rfl

theorem specTables_2 (K : Codecs) : (List.range' 150 75).all (fun i => specTableB (env K) count ((env K).cls i)) = true := by kernel_rfl

theorem specTables_3 (K : Codecs) : (List.range' 225 75).all (fun i => specTableB (env K) count ((env K).cls i)) = true := by kernel_rfl

theorem specTables_4 (K : Codecs) : (List.range' 300 142).all (fun i => specTableB (env K) count ((env K).cls i)) = true := by kernel_rfl

theorem specTables_checked (K : Codecs) : (List.range count).all (fun i => specTableB (env K) count ((env K).cls i)) = true :=
  all_parts (specTables_0 K) (specTables_1 K) (specTables_2 K) (specTables_3 K) (specTables_4 K)

/-- No other class overrides `_setup`. -/
theorem bare_checked (K : Codecs) : (List.range count).all (fun i => match (env K).cls i with
    | .leaf (.oid k _) _ => k.bare == (i == Id.algos.AnyAlgorithmId)
    | _ => true) = true := by kernel_rfl

end Asn1.Pkg
