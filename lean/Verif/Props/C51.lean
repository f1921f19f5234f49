import Verif.Lemmas.PkgTypes
import Verif.Props.C50

/-!
# C51 — The structures the package defines are unambiguous and decode

`Pkg.env K` are the class definitions of the package (Model/Package.lean), with whatever conversions `K` of character strings and times. The classes with
the numbers below `Pkg.size` are all but `CountryName`, `AdministrationDomainName`, `BuiltInStandardAttributes`, `ORAddress`, `EDIPartyName` and
`AttributeCertificateV1`.
-/

namespace Asn1.Props
open Asn1 Spec Pkg

/-! ### Definitions are unambiguous -/

/-- Fields that may all be left out, and those in front of them. -/
theorem apart_fields {E : Env} : ∀ {fields : List Field}, Apart E fields → ∀ {j k : Nat} {f g : Field} {id : Nat × Nat}, j < k → fields[j]? = some f → fields[k]? = some g →
    (∀ i h, j ≤ i → i < k → fields[i]? = some h → Field.skippable h = true) → Begins E f.spec f.params id → ¬ Begins E g.spec g.params id
  | [], _, j, k, f, g, id, _, hj, _, _, _ => by simp at hj
  | x :: xs, ha, j, k, f, g, id, hjk, hj, hk, hs, hb => by
    cases k with
    | zero => omega
    | succ k =>
      cases j with
      | succ j =>
        exact apart_fields ha.2.2 (j := j) (k := k) (by omega) hj hk (fun i h h1 h2 h3 => hs (i + 1) h (by omega) (by omega) h3) hb
      | zero =>
        cases hj
        have hn : ∀ (ys : List Field) (m : Nat), ys[m]? = some g → (∀ i h, i < m → ys[i]? = some h → Field.skippable h = true) → Begins E g.spec g.params id →
            NextBegins E ys id := by
          intro ys
          induction ys with
          | nil => intro m h; simp at h
          | cons y ys ih =>
            intro m h1 h2 h3
            cases m with
            | zero => cases h1; exact .inl h3
            | succ m => exact .inr ⟨h2 0 y (by omega) rfl, ih m h1 (fun i h a b => h2 (i + 1) h (by omega) b) h3⟩
        intro hg
        exact ha.1 (hs 0 x (by omega) (by omega) rfl) id hb (hn xs k hk (fun i h a b => hs (i + 1) h (by omega) (by omega) b) hg)

/-- In every SEQUENCE of the package: when a field and those behind it, up to another one, may be left out, no tag begins encodings of both. So which
fields are there can be told from the tags. -/
theorem C51_fields_partial (K : Codecs) {c : ClassId} (hc : c < size) {proto : Obj Unit} {bad : List Nat} {fields : List Field} {oid : Option OidPair}
    (hE : (env K).cls c = .seq proto bad false fields oid) {j k : Nat} {f g : Field} {id : Nat × Nat} (hjk : j < k) (hf : fields[j]? = some f)
    (hg : fields[k]? = some g) (hs : ∀ i h, j ≤ i → i < k → fields[i]? = some h → h.params.optional = true ∨ h.params.default.isSome = true) :
    ¬ (Begins (env K) f.spec f.params id ∧ Begins (env K) g.spec g.params id) := by
  rintro ⟨h1, h2⟩
  refine apart_fields (((pkg_types K).seq c _ _ _ _ _ hc hE).2.2.1 rfl).1 hjk hf hg (fun i h a b e => ?_) h1 h2
  simpa [Field.skippable] using hs i h a b e

/-- In every CHOICE of the package no tag begins encodings of two alternatives. -/
theorem C51_alternatives_partial (K : Codecs) {c : ClassId} (hc : c < size) {e : List (Nat × Nat)} {tagged : Option (Nat × Nat)} {alts : List Field}
    (hE : (env K).cls c = .choice e tagged alts) {j k : Nat} {f g : Field} {id : Nat × Nat} (hf : alts[j]? = some f) (hg : alts[k]? = some g)
    (h1 : OuterTag (env K) f.spec f.params id) (h2 : OuterTag (env K) g.spec g.params id) : j = k :=
  ((pkg_types K).choice c _ _ _ hc hE).2.2.1 j k f g id hf hg h1 h2

/-! ### Decoding -/

/-- An encoding of the value `n` of a class of the package loads, with whatever behind it unless loading is strict, and what is loaded can be read as a
whole and part by part, any number of times, and gives `n`. -/
theorem C51_load_partial (K : Codecs) {c : ClassId} (hc : c < size) (ha : (env K).cls c ≠ .any) {t : TLV} {n : PyVal}
    (h : Enc (env K) (· < size) (some c) none {} t n) :
    ∃ N, ∀ j ≥ N, ∀ strict rest, (strict = true → rest = []) →
      ∃ v, loadVal (env K) (ops (env K) j) c {} (t.bytes ++ rest) strict = .ok v ∧ Readable (env K) N v n :=
  C50_load_partial (pkg_types K) ha (usableB_sound (D := []) (fun e he => by cases he) (by simp [usableB, goodTagsB, hc])) h

/-- `native` of what was loaded. -/
theorem C51_native_partial (K : Codecs) {c : ClassId} (hc : c < size) (ha : (env K).cls c ≠ .any) {t : TLV} {n : PyVal}
    (h : Enc (env K) (· < size) (some c) none {} t n) :
    ∃ N, ∀ j ≥ N, ∃ v w, loadVal (env K) (ops (env K) j) c {} t.bytes = .ok v ∧ (ops (env K) j).native v = .ok (n, w) :=
  C50_native_partial (pkg_types K) ha (usableB_sound (D := []) (fun e he => by cases he) (by simp [usableB, goodTagsB, hc])) h

/-- Bytes are, up to what comes behind, the encoding of at most one value of a class of the package. -/
theorem C51_unique_partial (K : Codecs) {c : ClassId} (hc : c < size) {t t' : TLV} {rest rest' : Bytes} {n n' : PyVal}
    (h : Enc (env K) (· < size) (some c) none {} t n) (h' : Enc (env K) (· < size) (some c) none {} t' n') (hb : t.bytes ++ rest = t'.bytes ++ rest') :
    t = t' ∧ n = n' :=
  C50_unique_partial (pkg_types K) (usableB_sound (D := []) (fun e he => by cases he) (by simp [usableB, goodTagsB, hc])) h h' hb

/-! ### Definitions that are wrong -/

/-- The standard has `CountryName ::= [APPLICATION 1] CHOICE {…}`, an element with that tag around one of the alternatives. No such element is loaded. -/
theorem C51_not_CountryName (K : Codecs) (j : Nat) (i : Info) (h1 : i.cls = 1) (h2 : i.tag = 1) :
    (ops (env K) (j + 1)).build i (some Id.x509.CountryName) {} none = .error .valueError := by
  obtain ⟨cls, method, tag, header, contents, trailer⟩ := i
  cases h1
  cases h2
  kernel_rfl

/-- The same for `AdministrationDomainName ::= [APPLICATION 2] CHOICE {…}`. -/
theorem C51_not_AdministrationDomainName (K : Codecs) (j : Nat) (i : Info) (h1 : i.cls = 1) (h2 : i.tag = 2) :
    (ops (env K) (j + 1)).build i (some Id.x509.AdministrationDomainName) {} none = .error .valueError := by
  obtain ⟨cls, method, tag, header, contents, trailer⟩ := i
  cases h1
  cases h2
  kernel_rfl

/-- No element can be read as the `party_name` of an `EDIPartyName`, which has to be there: the CHOICE `DirectoryString` cannot have an implicit tag. -/
theorem C51_not_EDIPartyName (K : Codecs) (j : Nat) (i : Info) (nested : Option ClassId) :
    (env K).cls Id.x509.EDIPartyName = .seq { cls := 0, method := 1, tag := 16 } [] false [
      ⟨"name_assigner", Id.x509.DirectoryString, { implicit := some (2, 0), optional := true }⟩,
      ⟨"party_name", Id.x509.DirectoryString, { implicit := some (2, 1) }⟩] none ∧
    (ops (env K) (j + 1)).build i (some Id.x509.DirectoryString) { implicit := some (2, 1) } nested = .error .valueError :=
  ⟨by kernel_rfl, by kernel_rfl⟩

/-- An `ORAddress` without fields in its first part. -/
def addressFields : List Field :=
  [⟨"built_in_standard_attributes", Id.x509.BuiltInStandardAttributes, {}⟩,
    ⟨"built_in_domain_defined_attributes", Id.x509.BuiltInDomainDefinedAttributes, { optional := true }⟩,
    ⟨"extension_attributes", Id.x509.ExtensionAttributes, { optional := true }⟩]

/-- The value `x` of a field that may be left out, all others are. -/
def addressValue (domain extensions : PyVal) : PyVal :=
  .dict [("built_in_standard_attributes", .dict [("country_name", .scalar .none), ("administration_domain_name", .scalar .none),
      ("network_address", .scalar .none), ("terminal_identifier", .scalar .none), ("private_domain_name", .scalar .none),
      ("organization_name", .scalar .none), ("numeric_user_identifier", .scalar .none), ("personal_name", .scalar .none),
      ("organizational_unit_names", .scalar .none)]),
    ("built_in_domain_defined_attributes", domain), ("extension_attributes", extensions)]

/-- The fields of a class. -/
def shapeFields : Shape → List Field
  | .seq _ _ _ fields _ => fields
  | _ => []

theorem address_parts (K : Codecs) : Enc (env K) (fun _ => True) (some Id.x509.BuiltInStandardAttributes) none {} ⟨0, 1, 16, [0x30, 0], [], []⟩
    (.dict [("country_name", .scalar .none), ("administration_domain_name", .scalar .none),
      ("network_address", .scalar .none), ("terminal_identifier", .scalar .none), ("private_domain_name", .scalar .none),
      ("organization_name", .scalar .none), ("numeric_user_identifier", .scalar .none), ("personal_name", .scalar .none),
      ("organizational_unit_names", .scalar .none)]) ∧
    (∀ p : Params, p.explicit = [] → p.implicit = none →
      Enc (env K) (fun _ => True) (some Id.x509.BuiltInDomainDefinedAttributes) none p ⟨0, 1, 16, [0x30, 0], [], []⟩ (.list []) ∧
      Enc (env K) (fun _ => True) (some Id.x509.ExtensionAttributes) none p ⟨0, 1, 16, [0x30, 0], [], []⟩ (.list [])) := by
  have b : Ber 11 ⟨0, 1, 16, [0x30, 0], [], []⟩ := ber_short (cs := []) (by omega) (by omega) (by omega) (by simp)
  refine ⟨?_, fun p h1 h2 => ⟨?_, ?_⟩⟩
  · refine .seq (p := {}) (fields := shapeFields x509.BuiltInStandardAttributes) (ns := List.replicate 9 (.scalar .none)) rfl (by intro h; cases h) ⟨b, .nil, rfl⟩ rfl ?_
    repeat (refine .absent rfl rfl ?_)
    exact .nil
  · exact .list rfl ⟨b, by rw [h1]; exact .nil, by rw [if_pos h1, h2]; rfl⟩ rfl .nil
  · exact .list rfl ⟨b, by rw [h1]; exact .nil, by rw [if_pos h1, h2]; rfl⟩ rfl .nil

/-- `ORAddress` is ambiguous: the same bytes are encodings of an address with domain-defined attributes and of one with extension attributes, because
`ExtensionAttributes` is defined as a SEQUENCE OF; in the standard it is a SET OF. -/
theorem C51_not_ORAddress (K : Codecs) : ∃ t : TLV, t.bytes = [0x30, 4, 0x30, 0, 0x30, 0] ∧
    Enc (env K) (fun _ => True) (some Id.x509.ORAddress) none {} t (addressValue (.list []) (.scalar .none)) ∧
    Enc (env K) (fun _ => True) (some Id.x509.ORAddress) none {} t (addressValue (.scalar .none) (.list [])) := by
  have b : Ber 11 ⟨0, 1, 16, [0x30, 4], [0x30, 0, 0x30, 0], []⟩ := ber_short (cs := [0x30, 0, 0x30, 0]) (by omega) (by omega) (by omega) (by simp)
  obtain ⟨e1, e2⟩ := address_parts K
  refine ⟨⟨0, 1, 16, [0x30, 4], [0x30, 0, 0x30, 0], []⟩, rfl, ?_, ?_⟩
  · refine .seq (fields := addressFields) (ns := [_, .list [], .scalar .none]) rfl (by simp [addressFields]) ⟨b, .nil, rfl⟩ rfl ?_
    refine .present (pick := .same) (t := ⟨0, 1, 16, [0x30, 0], [], []⟩) (b := [0x30, 0]) rfl e1 ?_
    refine .present (pick := .same) (t := ⟨0, 1, 16, [0x30, 0], [], []⟩) (b := []) rfl (e2 _ rfl rfl).1 ?_
    exact .absent rfl rfl .nil
  · refine .seq (fields := addressFields) (ns := [_, .scalar .none, .list []]) rfl (by simp [addressFields]) ⟨b, .nil, rfl⟩ rfl ?_
    refine .present (pick := .same) (t := ⟨0, 1, 16, [0x30, 0], [], []⟩) (b := [0x30, 0]) rfl e1 ?_
    refine .absent rfl rfl ?_
    exact .present (pick := .same) (t := ⟨0, 1, 16, [0x30, 0], [], []⟩) (b := []) rfl (e2 _ rfl rfl).2 .nil

/-- It is always read as the former. -/
theorem C51_not_ORAddress_native (K : Codecs) (j : Nat) :
    ((loadVal (env K) (ops (env K) (j + 6)) Id.x509.ORAddress {} [0x30, 4, 0x30, 0, 0x30, 0]).bind (fun v => (ops (env K) (j + 6)).native v)).map Prod.fst =
      .ok (addressValue (.list []) (.scalar .none)) := by
  kernel_rfl

/-! ### A case that meets the hypotheses -/

/-- An RSA public key: `{'algorithm': {'algorithm': 'rsa', 'parameters': None}, 'public_key': {'modulus': 15, 'public_exponent': 3}}` -/
def spkiBytes : Bytes := [0x30, 0x1a, 0x30, 0x0d, 6, 9, 0x2a, 0x86, 0x48, 0x86, 0xf7, 0x0d, 1, 1, 1, 5, 0, 3, 9, 0, 0x30, 6, 2, 1, 0x0f, 2, 1, 3]

/-- The value of its first field. -/
def spkiAlgorithm : PyVal := .dict [("algorithm", .scalar (.str "rsa".toList)), ("parameters", .scalar .none)]

/-- The value. -/
def spkiValue : PyVal :=
  .dict [("algorithm", spkiAlgorithm), ("public_key", .dict [("modulus", .scalar (.int 15)), ("public_exponent", .scalar (.int 3))])]

theorem spki_enc (K : Codecs) : ∃ t : TLV, t.bytes = spkiBytes ∧ Enc (env K) (· < size) (some Id.keys.PublicKeyInfo) none {} t spkiValue := by
  have b1 : Ber 11 ⟨0, 0, 6, [6, 9], [0x2a, 0x86, 0x48, 0x86, 0xf7, 0x0d, 1, 1, 1], []⟩ := ber_short (cs := [0x2a, 0x86, 0x48, 0x86, 0xf7, 0x0d, 1, 1, 1]) (by omega) (by omega) (by omega) (by simp)
  have b2 : Ber 11 ⟨0, 0, 5, [5, 0], [], []⟩ := ber_short (cs := []) (by omega) (by omega) (by omega) (by simp)
  have b3 : Ber 11 ⟨0, 1, 16, [0x30, 0x0d], [6, 9, 0x2a, 0x86, 0x48, 0x86, 0xf7, 0x0d, 1, 1, 1, 5, 0], []⟩ := ber_short (cs := [6, 9, 0x2a, 0x86, 0x48, 0x86, 0xf7, 0x0d, 1, 1, 1, 5, 0]) (by omega) (by omega) (by omega) (by simp)
  have b4 : Ber 11 ⟨0, 0, 2, [2, 1], [0x0f], []⟩ := ber_short (cs := [0x0f]) (by omega) (by omega) (by omega) (by simp)
  have b5 : Ber 11 ⟨0, 0, 2, [2, 1], [3], []⟩ := ber_short (cs := [3]) (by omega) (by omega) (by omega) (by simp)
  have b6 : Ber 11 ⟨0, 1, 16, [0x30, 6], [2, 1, 0x0f, 2, 1, 3], []⟩ := ber_short (cs := [2, 1, 0x0f, 2, 1, 3]) (by omega) (by omega) (by omega) (by simp)
  have b7 : Ber 11 ⟨0, 0, 3, [3, 9], [0, 0x30, 6, 2, 1, 0x0f, 2, 1, 3], []⟩ := ber_short (cs := [0, 0x30, 6, 2, 1, 0x0f, 2, 1, 3]) (by omega) (by omega) (by omega) (by simp)
  have b8 : Ber 11 ⟨0, 1, 16, [0x30, 0x1a], spkiBytes.drop 2, []⟩ := ber_short (cs := spkiBytes.drop 2) (by omega) (by omega) (by omega) (by decide)
  have e1 : Enc (env K) (· < size) (some Id.keys.PublicKeyAlgorithmId) none {} ⟨0, 0, 6, [6, 9], [0x2a, 0x86, 0x48, 0x86, 0xf7, 0x0d, 1, 1, 1], []⟩
      (.scalar (.str "rsa".toList)) := .leaf rfl ⟨b1, .nil, rfl⟩ (.inl ⟨rfl, readsB_sound (by decide +kernel)⟩)
  have e2 : Enc (env K) (· < size) (some Id.core.Null) none { optional := true } ⟨0, 0, 5, [5, 0], [], []⟩ (.scalar .none) :=
    .leaf rfl ⟨b2, .nil, rfl⟩ (.inl ⟨rfl, readsB_sound (by decide +kernel)⟩)
  have e3 : Enc (env K) (· < size) (some Id.keys.PublicKeyAlgorithm) none {} ⟨0, 1, 16, [0x30, 0x0d], [6, 9, 0x2a, 0x86, 0x48, 0x86, 0xf7, 0x0d, 1, 1, 1, 5, 0], []⟩
      spkiAlgorithm := by
    refine .seq (fields := shapeFields keys.PublicKeyAlgorithm) (ns := [.scalar (.str "rsa".toList), .scalar .none]) rfl (by intro h; cases h) ⟨b3, .nil, rfl⟩ rfl ?_
    refine .present (pick := .same) (t := ⟨0, 0, 6, [6, 9], [0x2a, 0x86, 0x48, 0x86, 0xf7, 0x0d, 1, 1, 1], []⟩) (b := [5, 0]) ?_ e1 ?_
    · simp [Decides]
    · refine .present (pick := .value Id.core.Null) (t := ⟨0, 0, 5, [5, 0], [], []⟩) (b := []) ?_ e2 .nil
      exact ⟨_, _, rfl, rfl, by kernel_rfl⟩
  have e4 : Enc (env K) (· < size) (some Id.core.Integer) none {} ⟨0, 0, 2, [2, 1], [0x0f], []⟩ (.scalar (.int 15)) :=
    .leaf rfl ⟨b4, .nil, rfl⟩ (.inl ⟨rfl, readsB_sound (by decide +kernel)⟩)
  have e5 : Enc (env K) (· < size) (some Id.core.Integer) none {} ⟨0, 0, 2, [2, 1], [3], []⟩ (.scalar (.int 3)) :=
    .leaf rfl ⟨b5, .nil, rfl⟩ (.inl ⟨rfl, readsB_sound (by decide +kernel)⟩)
  have e6 : Enc (env K) (· < size) (some Id.keys.RSAPublicKey) none {} ⟨0, 1, 16, [0x30, 6], [2, 1, 0x0f, 2, 1, 3], []⟩
      (.dict [("modulus", .scalar (.int 15)), ("public_exponent", .scalar (.int 3))]) := by
    refine .seq (fields := shapeFields keys.RSAPublicKey) (ns := [.scalar (.int 15), .scalar (.int 3)]) rfl (by intro h; cases h) ⟨b6, .nil, rfl⟩ rfl ?_
    refine .present (pick := .same) (t := ⟨0, 0, 2, [2, 1], [0x0f], []⟩) (b := [2, 1, 3]) rfl e4 ?_
    exact .present (pick := .same) (t := ⟨0, 0, 2, [2, 1], [3], []⟩) (b := []) rfl e5 .nil
  have e7 : Enc (env K) (· < size) (some Id.core.ParsableOctetBitString) (some Id.keys.RSAPublicKey) {} ⟨0, 0, 3, [3, 9], [0, 0x30, 6, 2, 1, 0x0f, 2, 1, 3], []⟩
      (.dict [("modulus", .scalar (.int 15)), ("public_exponent", .scalar (.int 3))]) := .payload rfl ⟨b7, .nil, rfl⟩ rfl rfl e6
  refine ⟨⟨0, 1, 16, [0x30, 0x1a], spkiBytes.drop 2, []⟩, rfl, ?_⟩
  refine .seq (fields := shapeFields keys.PublicKeyInfo) (ns := [spkiAlgorithm, .dict [("modulus", .scalar (.int 15)), ("public_exponent", .scalar (.int 3))]]) rfl (by intro h; cases h) ⟨b8, .nil, rfl⟩ rfl ?_
  refine .present (f := ⟨"algorithm", Id.keys.PublicKeyAlgorithm, {}⟩) (pick := .same) ?_ e3 ?_
  · simp [Decides]
  refine .present (f := ⟨"public_key", Id.core.ParsableOctetBitString, {}⟩) (pick := .value Id.keys.RSAPublicKey) (b := []) ?_ e7 .nil
  exact ⟨_, _, rfl, ⟨_, _, rfl, rfl⟩, by kernel_rfl⟩

/-- It loads and reads as the value. -/
example (K : Codecs) : ∃ N, ∀ j ≥ N, ∃ v w, loadVal (env K) (ops (env K) j) Id.keys.PublicKeyInfo {} spkiBytes = .ok v ∧
    (ops (env K) j).native v = .ok (spkiValue, w) := by
  obtain ⟨t, h1, h2⟩ := spki_enc K
  rw [← h1]
  exact C51_native_partial K (by decide) (by intro h; cases h) h2

/-- `TBSCertificate` has optional fields one after the other. -/
example (K : Codecs) : ∃ proto bad fields oid, (env K).cls Id.x509.TbsCertificate = .seq proto bad false fields oid ∧ Id.x509.TbsCertificate < size ∧
    ∃ f g, fields[7]? = some f ∧ fields[9]? = some g ∧ f.params.optional = true ∧ g.name = "extensions" :=
  ⟨_, _, _, _, rfl, by decide, _, _, rfl, rfl, rfl, rfl⟩

end Asn1.Props
