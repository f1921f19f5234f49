import Verif.Lemmas.Algos

/-!
# C39 — signature algorithm names

`Spec.hashNames`, `Spec.schemes` say how names are put together; `Spec.OidText` is a dotted text.
-/

namespace Asn1.Props
open Asn1 Asn1.Algos Spec

/-- Every name in the table of OIDs is a hash and a scheme, or one of six names without a hash. -/
theorem C39_names : ∀ oid name, (oid, name) ∈ signedDigestMap →
    (∃ h ∈ hashNames, ∃ s ∈ schemes, name = under h s.1) ∨
    name ∈ ["rsassa_pkcs1v15".toList, "rsassa_pss".toList, "dsa".toList, "ecdsa".toList, "ed25519".toList, "ed448".toList] := by
  have h : ∀ e ∈ signedDigestMap, (∃ h ∈ hashNames, ∃ s ∈ schemes, e.2 = under h s.1) ∨
      e.2 ∈ ["rsassa_pkcs1v15".toList, "rsassa_pss".toList, "dsa".toList, "ecdsa".toList, "ed25519".toList, "ed448".toList] := by
    decide +kernel
  exact fun oid name he => h _ he

/-- A known name made of a hash and a scheme: the three properties answer with that hash and that scheme,
whatever the parameters are. -/
theorem C39_composed (h : Str) (hh : h ∈ hashNames) (s : Str × Str) (hs : s ∈ schemes)
    (known : ∃ oid, (oid, under h s.1) ∈ signedDigestMap) (p : SigParams) :
    SignedDigest.signatureAlgo ⟨under h s.1, p⟩ = .ok s.2 ∧ SignedDigest.hashAlgo ⟨under h s.1, p⟩ = .ok h ∧
      SignedDigest.cmsHashAlgo ⟨under h s.1, p⟩ = .ok h := by
  have key : ∀ e ∈ signedDigestMap, ∀ h ∈ hashNames, ∀ s ∈ schemes, e.2 = under h s.1 →
      look signatureAlgoMap e.2 = some s.2 ∧ look algoMap e.2 = some h := by decide +kernel
  obtain ⟨oid, ho⟩ := known
  obtain ⟨h1, h2⟩ := key _ ho h hh s hs rfl
  simp only at h1 h2
  simp only [SignedDigest.signatureAlgo, SignedDigest.hashAlgo, SignedDigest.cmsHashAlgo, h1, h2, and_self]

example : SignedDigest.signatureAlgo ⟨"sha3_256_ecdsa_plain".toList, .void⟩ = .ok "ecdsa".toList ∧
    SignedDigest.hashAlgo ⟨"sha3_256_ecdsa_plain".toList, .void⟩ = .ok "sha3_256".toList :=
  let h := C39_composed "sha3_256".toList (by decide) ("ecdsa_plain".toList, "ecdsa".toList) (by decide)
    ⟨"0.4.0.127.0.7.1.1.4.1.9".toList, by decide +kernel⟩ .void
  ⟨h.1, h.2.1⟩

/-- The names without a hash: each names its own scheme. The plain schemes have no hash; RSASSA-PSS has it in
its parameters; the Edwards curve schemes have one in CMS only. -/
theorem C39_plain (p : SigParams) :
    (∀ n ∈ ["rsassa_pkcs1v15".toList, "rsassa_pss".toList, "dsa".toList, "ecdsa".toList, "ed25519".toList, "ed448".toList],
      SignedDigest.signatureAlgo ⟨n, p⟩ = .ok n) ∧
    (∀ n ∈ ["rsassa_pkcs1v15".toList, "dsa".toList, "ecdsa".toList],
      SignedDigest.hashAlgo ⟨n, p⟩ = .error .valueError ∧ SignedDigest.cmsHashAlgo ⟨n, p⟩ = .error .valueError) ∧
    (∀ h, SignedDigest.hashAlgo ⟨"rsassa_pss".toList, .pss h⟩ = .ok h ∧
      SignedDigest.cmsHashAlgo ⟨"rsassa_pss".toList, .pss h⟩ = .ok h) ∧
    (∀ n ∈ ["ed25519".toList, "ed448".toList], SignedDigest.hashAlgo ⟨n, p⟩ = .error .valueError) ∧
    SignedDigest.cmsHashAlgo ⟨"ed25519".toList, p⟩ = .ok "sha512".toList ∧
    SignedDigest.cmsHashAlgo ⟨"ed448".toList, p⟩ = .ok "shake256".toList := by
  refine ⟨?_, ?_, fun h => ⟨rfl, rfl⟩, ?_, rfl, rfl⟩
  · intro n hn
    simp only [SignedDigest.signatureAlgo]
    have : ∀ n ∈ ["rsassa_pkcs1v15".toList, "rsassa_pss".toList, "dsa".toList, "ecdsa".toList, "ed25519".toList,
        "ed448".toList], look signatureAlgoMap n = some n := by decide +kernel
    rw [this n hn]
  · intro n hn
    have : ∀ n ∈ ["rsassa_pkcs1v15".toList, "dsa".toList, "ecdsa".toList], look algoMap n = none ∧ look cmsAlgoMap n = none ∧
      n ≠ "rsassa_pss".toList := by decide +kernel
    obtain ⟨h1, h2, h3⟩ := this n hn
    exact ⟨hashAlgo_none h1 h3, cmsHashAlgo_none h1 h3 h2⟩
  · intro n hn
    have : ∀ n ∈ ["ed25519".toList, "ed448".toList], look algoMap n = none ∧ n ≠ "rsassa_pss".toList := by decide +kernel
    obtain ⟨h1, h3⟩ := this n hn
    exact hashAlgo_none h1 h3

/-- Wherever `hash_algo` answers, `cms_hash_algo` gives the same answer; it answers in only two further cases. -/
theorem C39_agree (a : SignedDigest) :
    (∀ r, a.hashAlgo = .ok r → a.cmsHashAlgo = .ok r) ∧
    (∀ r, a.cmsHashAlgo = .ok r → a.hashAlgo = .ok r ∨ a.algorithm = "ed25519".toList ∨ a.algorithm = "ed448".toList) := by
  unfold SignedDigest.hashAlgo SignedDigest.cmsHashAlgo
  cases hl : look algoMap a.algorithm with
  | some r => exact ⟨fun _ h => h, fun _ h => .inl h⟩
  | none =>
    by_cases hp : a.algorithm = "rsassa_pss".toList
    · simp only [if_pos hp]
      exact ⟨fun _ h => h, fun _ h => .inl h⟩
    · simp only [if_neg hp]
      refine ⟨fun r h => ?_, fun r h => ?_⟩
      · split at h <;> cases h
      · right
        cases hc : look cmsAlgoMap a.algorithm with
        | none => rw [hc] at h; cases h
        | some x =>
          have : ∀ e ∈ cmsAlgoMap, e.1 = "ed25519".toList ∨ e.1 = "ed448".toList := by decide +kernel
          exact this _ (look_mem hc)

/-- The dict of names and the dict of OIDs agree: the OID of a name is an OID of that name, and every
name has one. No OID and no name occurs twice as a key. -/
theorem C39_tables :
    (∀ name oid, (name, oid) ∈ signedDigestRev → (oid, name) ∈ signedDigestMap) ∧
    (∀ oid name, (oid, name) ∈ signedDigestMap → ∃ oid', (name, oid') ∈ signedDigestRev) ∧
    (signedDigestMap.map Prod.fst).Nodup ∧ (signedDigestRev.map Prod.fst).Nodup := by
  have h1 : ∀ e ∈ signedDigestRev, (e.2, e.1) ∈ signedDigestMap := by decide +kernel
  have h2 : ∀ e ∈ signedDigestMap, ∃ f ∈ signedDigestRev, f.1 = e.2 := by decide +kernel
  refine ⟨fun n o h => h1 _ h, fun o n h => ?_, by decide +kernel, by decide +kernel⟩
  obtain ⟨f, hf, he⟩ := h2 _ h
  exact ⟨f.2, by rw [show n = f.1 from he.symm]; exact hf⟩

/-- So a known name is turned into an OID, and that OID back into the name. -/
theorem C39_name_round_trip (oid name : Str) (h : (oid, name) ∈ signedDigestMap) :
    ∃ oid', signedDigestId.unmap name = .ok oid' ∧ signedDigestId.mapOid oid' = .ok name := by
  have h2 : ∀ e ∈ signedDigestMap, ∃ f ∈ signedDigestRev, signedDigestId.unmap e.2 = .ok f.2 ∧
    signedDigestId.mapOid f.2 = .ok e.2 := by decide +kernel
  obtain ⟨f, -, h3, h4⟩ := h2 _ h
  exact ⟨f.2, h3, h4⟩

/-- The three properties answer for every known name or raise `ValueError`, except that RSASSA-PSS without
parameters raises `TypeError` in the two that need the hash. -/
theorem C39_total (oid name : Str) (h : (oid, name) ∈ signedDigestMap) (p : SigParams) :
    (∃ r, SignedDigest.signatureAlgo ⟨name, p⟩ = .ok r) ∧
    (name ≠ "rsassa_pss".toList ∨ (∃ x, p = .pss x) →
      ((∃ r, SignedDigest.hashAlgo ⟨name, p⟩ = .ok r) ∨ SignedDigest.hashAlgo ⟨name, p⟩ = .error .valueError) ∧
      ((∃ r, SignedDigest.cmsHashAlgo ⟨name, p⟩ = .ok r) ∨ SignedDigest.cmsHashAlgo ⟨name, p⟩ = .error .valueError)) := by
  refine ⟨?_, fun hp => ?_⟩
  · have : ∀ e ∈ signedDigestMap, (look signatureAlgoMap e.2).isSome := by decide +kernel
    obtain ⟨r, hr⟩ := Option.isSome_iff_exists.mp (this _ h)
    exact ⟨r, by simp only [SignedDigest.signatureAlgo]; rw [hr]⟩
  · simp only [SignedDigest.hashAlgo, SignedDigest.cmsHashAlgo]
    cases look algoMap name with
    | some r => exact ⟨.inl ⟨r, rfl⟩, .inl ⟨r, rfl⟩⟩
    | none =>
      by_cases hn : name = "rsassa_pss".toList
      · obtain ⟨x, rfl⟩ := hp.resolve_left (not_not_intro hn)
        simp only [if_pos hn, SigParams.hash]
        exact ⟨.inl ⟨x, rfl⟩, .inl ⟨x, rfl⟩⟩
      · simp only [if_neg hn]
        refine ⟨.inr (by split <;> rfl), ?_⟩
        cases look cmsAlgoMap name with
        | none => exact .inr rfl
        | some r => exact .inl ⟨r, rfl⟩

/-- RSASSA-PSS parameters that are absent: `TypeError`. -/
theorem C39_pss_absent : SignedDigest.hashAlgo ⟨"rsassa_pss".toList, .void⟩ = .error .typeError ∧
    SignedDigest.cmsHashAlgo ⟨"rsassa_pss".toList, .void⟩ = .error .typeError := by decide +kernel

/-- An OID that is not in the table is its own native value, and all three properties raise `ValueError`. -/
theorem C39_unknown (oid : Str) (ht : OidText oid) (h : ∀ name, (oid, name) ∉ signedDigestMap) (p : SigParams) :
    signedDigestId.mapOid oid = .ok oid ∧
    SignedDigest.signatureAlgo ⟨oid, p⟩ = .error .valueError ∧ SignedDigest.hashAlgo ⟨oid, p⟩ = .error .valueError ∧
      SignedDigest.cmsHashAlgo ⟨oid, p⟩ = .error .valueError := by
  have e1 : look signatureAlgoMap oid = none := look_dotted (by decide +kernel) ht.2
  have e2 : look algoMap oid = none := look_dotted (by decide +kernel) ht.2
  have e3 : look cmsAlgoMap oid = none := look_dotted (by decide +kernel) ht.2
  have e4 : oid ≠ "rsassa_pss".toList := ne_of_dot ht.2 (by decide)
  have e5 : StrMap.get signedDigestMap oid = none := by
    have : look signedDigestMap oid = none := look_none (fun e he hc => h e.2 (by rw [← hc]; exact he))
    exact this
  refine ⟨?_, signatureAlgo_none e1, hashAlgo_none e2 e4, cmsHashAlgo_none e2 e4 e3⟩
  have : signedDigestId.mapOid oid = .ok ((StrMap.get signedDigestMap oid).getD oid) := rfl
  rw [this, e5]; rfl

example : SignedDigest.hashAlgo ⟨"1.2.3".toList, .void⟩ = .error .valueError :=
  (C39_unknown "1.2.3".toList ⟨by decide, by decide⟩ (by
    have : ∀ e ∈ signedDigestMap, e.1 ≠ "1.2.3".toList := by decide +kernel
    exact fun n h => this _ h rfl) .void).2.2.1

end Asn1.Props
