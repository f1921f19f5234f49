import Verif.Lemmas.FullRead
import Verif.Lemmas.KernelRfl
import Verif.Model.Package

/-! # The classes of the package are sound definitions -/

namespace Asn1.Pkg
open Asn1 Spec Props

/-- `{'algorithm': name}` -/
def algDefault (name : String) : PyVal := .dict [("algorithm", .scalar (.str name.toList))]

/-- `hash_algorithm` in RSASSAPSSParams and RSAESOAEPParams -/
def hashParams : Params := { explicit := [(2, 0)], default := some (algDefault "sha1") }

/-- `mask_gen_algorithm` in RSASSAPSSParams and RSAESOAEPParams -/
def maskParams : Params :=
  { explicit := [(2, 1)], default := some (.dict [("algorithm", .scalar (.str "mgf1".toList)), ("parameters", algDefault "sha1")]) }

/-- `p_source_algorithm` in RSAESOAEPParams -/
def sourceParams : Params :=
  { explicit := [(2, 2)], default := some (.dict [("algorithm", .scalar (.str "p_specified".toList)), ("parameters", .scalar (.bytes []))]) }

/-- `prf` in Pbkdf2Params -/
def prfParams : Params := { default := some (algDefault "sha1") }

/-- `hash_algorithm` in ESSCertIDv2 -/
def certHashParams : Params := { default := some (algDefault "sha256") }

/-- The fields with a constructed default value. -/
def defaults : List (ClassId × Params) :=
  [(Id.algos.DigestAlgorithm, hashParams), (Id.algos.MaskGenAlgorithm, maskParams), (Id.algos.PSourceAlgorithm, sourceParams),
    (Id.algos.HmacAlgorithm, prfParams), (Id.algos.DigestAlgorithm, certHashParams)]

/-- The instance with the default value. -/
def made (K : Codecs) (c : ClassId) (p : Params) : Val := match (ops (env K) 20).construct c p (.scalar .none) with
  | .ok v => v
  | _ => .void

/-- The instance after its value has been read. -/
def seen (K : Codecs) (v : Val) : Val := match (ops (env K) 20).native v with
  | .ok (_, w) => w
  | _ => .void

/-- `{'algorithm': name, 'parameters': None}` -/
def algValue (name : String) (parameters : PyVal := .scalar .none) : PyVal :=
  .dict [("algorithm", .scalar (.str name.toList)), ("parameters", parameters)]

theorem hash_default (K : Codecs) : DefaultValue (env K) Id.algos.DigestAlgorithm hashParams (algValue "sha1") :=
  default_full (N := 20) (v := made K Id.algos.DigestAlgorithm hashParams) (w := seen K (made K Id.algos.DigestAlgorithm hashParams))
    (fun j => by kernel_rfl) (fun j => by kernel_rfl) (by kernel_rfl) (by kernel_rfl) (by kernel_rfl)

theorem mask_default (K : Codecs) : DefaultValue (env K) Id.algos.MaskGenAlgorithm maskParams (algValue "mgf1" (algValue "sha1")) :=
  default_full (N := 20) (v := made K Id.algos.MaskGenAlgorithm maskParams) (w := seen K (made K Id.algos.MaskGenAlgorithm maskParams))
    (fun j => by kernel_rfl) (fun j => by kernel_rfl) (by kernel_rfl) (by kernel_rfl) (by kernel_rfl)

theorem source_default (K : Codecs) : DefaultValue (env K) Id.algos.PSourceAlgorithm sourceParams (algValue "p_specified" (.scalar (.bytes []))) :=
  default_full (N := 20) (v := made K Id.algos.PSourceAlgorithm sourceParams) (w := seen K (made K Id.algos.PSourceAlgorithm sourceParams))
    (fun j => by kernel_rfl) (fun j => by kernel_rfl) (by kernel_rfl) (by kernel_rfl) (by kernel_rfl)

theorem prf_default (K : Codecs) : DefaultValue (env K) Id.algos.HmacAlgorithm prfParams (algValue "sha1") :=
  default_full (N := 20) (v := made K Id.algos.HmacAlgorithm prfParams) (w := seen K (made K Id.algos.HmacAlgorithm prfParams))
    (fun j => by kernel_rfl) (fun j => by kernel_rfl) (by kernel_rfl) (by kernel_rfl) (by kernel_rfl)

theorem certHash_default (K : Codecs) : DefaultValue (env K) Id.algos.DigestAlgorithm certHashParams (algValue "sha256") :=
  default_full (N := 20) (v := made K Id.algos.DigestAlgorithm certHashParams) (w := seen K (made K Id.algos.DigestAlgorithm certHashParams))
    (fun j => by kernel_rfl) (fun j => by kernel_rfl) (by kernel_rfl) (by kernel_rfl) (by kernel_rfl)

theorem pkg_checked (K : Codecs) : typesB (env K) size defaults = true := by kernel_rfl

theorem universal_size (tag c : Nat) (h : universal tag = some c) : c < size := by
  unfold universal at h
  split at h <;> first | (cases h; decide) | cases h

/-- All classes of the package but the last ones are sound definitions. -/
theorem pkg_types (K : Codecs) : Types (env K) (· < size) := by
  refine typesB_sound (D := defaults) (fun e he => ?_) universal_size (pkg_checked K)
  simp only [defaults, List.mem_cons, List.not_mem_nil, or_false] at he
  rcases he with rfl | rfl | rfl | rfl | rfl
  · exact ⟨_, hash_default K⟩
  · exact ⟨_, mask_default K⟩
  · exact ⟨_, source_default K⟩
  · exact ⟨_, prf_default K⟩
  · exact ⟨_, certHash_default K⟩

end Asn1.Pkg
