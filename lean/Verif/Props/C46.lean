import Verif.Lemmas.CertUrls
import Verif.Props.C33

/-!
# C46: URL selection from certificates and CRLs

The object is new, then any properties of it are read, in any order, and the property in question is read at last.
-/

namespace Asn1.Cert
open Asn1 Spec
variable {V : Type}

/-- `ocsp_urls` of a certificate with the given `authority_information_access` entries, whatever was read before: the URLs of
the OCSP entries with one of the four accepted schemes, in order. Only what the code has to look at must be readable. -/
theorem C46_ocsp (R : Reads V) (c : Source V) (ops : List CertOp) (l : List (Str × Option V × Bool)) (v : V)
    (es : List Access) (hl : readAll certificateAttrs c.exts = .ok l)
    (hv : lastValue "authority_information_access".toList l = some v) (he : R.accesses v = .ok es)
    (hes : ∀ e ∈ es, Legible "ocsp" e) :
    ∃ us, (ocspUrls R c (ops.foldl (CertOp.run R c) State.new)).1 = .ok us ∧
      Urls "ocsp" ["http", "https", "ldap", "ldaps"] es us := by
  have h := (ocspUrls_core (certOps_sound R c ops).1).2.2
  obtain ⟨us, h1, h2⟩ := ocspLoop_spec es hes []
  refine ⟨us, ?_, h2⟩
  rw [h, hl]
  simp only [bind, Except.bind, hv, he, h1, List.nil_append]

/-- No such extension: no URLs. -/
theorem C46_ocsp_absent (R : Reads V) (c : Source V) (ops : List CertOp) (l : List (Str × Option V × Bool))
    (hl : readAll certificateAttrs c.exts = .ok l) (hv : lastValue "authority_information_access".toList l = none) :
    (ocspUrls R c (ops.foldl (CertOp.run R c) State.new)).1 = .ok [] := by
  rw [(ocspUrls_core (certOps_sound R c ops).1).2.2, hl]
  simp only [bind, Except.bind, hv]

/-- `issuer_cert_urls` of a CRL: the `http` URLs of the issuer certificates, in order. -/
theorem C46_issuer (R : Reads V) (exts : Py (List (Ext V))) (ops : List CrlOp) (l : List (Str × Option V × Bool)) (v : V)
    (es : List Access) (hl : readAll crlAttrs exts = .ok l)
    (hv : lastValue "authority_information_access".toList l = some v) (he : R.accesses v = .ok es)
    (hes : ∀ e ∈ es, Legible "ca_issuers" e) :
    ∃ us, (issuerCertUrls R exts (ops.foldl (CrlOp.run R exts) CrlState.new)).1 = .ok us ∧
      Urls "ca_issuers" ["http"] es us := by
  obtain ⟨us, h1, h2⟩ := issuerLoop_spec es hes []
  rw [List.nil_append] at h1
  refine ⟨us, ?_, h2⟩
  have hx : crlExt exts "authority_information_access" = .ok (some v) := by
    simp only [crlExt, hl, Except.map, hv]
  have hu : ∀ u, some us = some u → IssuerUrls R exts u := by
    intro u hu; cases hu; exact .present hx he hes h1
  have hp : ∀ p, (none : Option (List Point)) = some p → DeltaPoints R exts p := fun _ h => (by cases h)
  exact (issuerCertUrls_sound (crlOps_sound R exts ops hu hp) hu).1 us rfl

/-- The distribution points a certificate gives for complete and for delta CRLs: those with a URL among the names of their full
name. Missing: each point is listed once per URL (`C46_repeated_fails`), and the scheme is not looked at: the points are
independent of what the URLs are, although only HTTP locations are meant. -/
theorem C46_points_partial (R : Reads V) (c : Source V) (ops : List CertOp) (l : List (Str × Option V × Bool)) (v : V)
    (ps sel : List Point) (hl : readAll certificateAttrs c.exts = .ok l) (hp : R.points v = .ok ps)
    (hs : UrlPoints ps sel) :
    (lastValue "crl_distribution_points".toList l = some v →
      (crlDistributionPoints R c (ops.foldl (CertOp.run R c) State.new)).1 = .ok sel) ∧
    (lastValue "freshest_crl".toList l = some v →
      (deltaCrlDistributionPoints R c (ops.foldl (CertOp.run R c) State.new)).1 = .ok sel) := by
  have hloop := pointLoop_spec hs []
  constructor
  · intro hv
    rw [(crl_core (certOps_sound R c ops).1).2.2]
    simp only [pointsOf, hl, bind, Except.bind, hv, httpPoints, hp, hloop, List.nil_append]
  · intro hv
    rw [(delta_core (certOps_sound R c ops).1).2.2]
    simp only [pointsOf, hl, bind, Except.bind, hv, httpPoints, hp, hloop, List.nil_append]

/-- The same for the delta CRLs a CRL refers to. Missing also: a point without a name (`C46_unnamed_fails`). -/
theorem C46_crl_points_partial (R : Reads V) (exts : Py (List (Ext V))) (ops : List CrlOp)
    (l : List (Str × Option V × Bool)) (v : V) (ps sel : List Point) (hl : readAll crlAttrs exts = .ok l)
    (hv : lastValue "freshest_crl".toList l = some v) (hp : R.points v = .ok ps) (hs : UrlPoints ps sel)
    (hn : ∀ p ∈ ps, p.name ≠ .ok none) :
    (crlDeltaPoints R exts (ops.foldl (CrlOp.run R exts) CrlState.new)).1 = .ok sel := by
  have hx : crlExt exts "freshest_crl" = .ok (some v) := by simp only [crlExt, hl, Except.map, hv]
  have hu : ∀ u, (none : Option (List Str)) = some u → IssuerUrls R exts u := fun _ h => (by cases h)
  have hd : ∀ p, some sel = some p → DeltaPoints R exts p := by
    intro p h
    cases h
    exact .present hx hp (by simpa using crlPointLoop_spec hs hn [])
  exact (crlDeltaPoints_sound (crlOps_sound R exts ops hu hd) hd).1 sel rfl

/-- An entry without surprises. -/
def entry (method location url : String) : Access := ⟨.ok method.toList, .ok location.toList, .ok url.toList⟩

/-- Entries as a certificate may have them. -/
def sampleEntries : List Access := [
  entry "ocsp" "uniform_resource_identifier" "HTTP://a.example/",
  entry "ca_issuers" "uniform_resource_identifier" "http://b.example/",
  ⟨.ok "ocsp".toList, .ok "directory_name".toList, .error .typeError⟩,
  entry "ocsp" "uniform_resource_identifier" "ftp://c.example/",
  entry "ca_issuers" "uniform_resource_identifier" "https://d.example/",
  entry "ocsp" "uniform_resource_identifier" "lDaps://e.example/"]

example : (∀ e ∈ sampleEntries, Legible "ocsp" e) ∧
    ocspLoop sampleEntries [] = .ok ["HTTP://a.example/".toList, "lDaps://e.example/".toList] ∧
    issuerLoop sampleEntries [] = (["http://b.example/".toList], none) := by
  refine ⟨fun e he => ?_, by decide +kernel, by decide +kernel⟩
  simp only [sampleEntries, List.mem_cons, List.not_mem_nil, or_false] at he
  rcases he with rfl | rfl | rfl | rfl | rfl | rfl
  · exact ⟨_, rfl, fun _ => ⟨_, rfl, fun _ => ⟨_, rfl⟩⟩⟩
  · exact ⟨_, rfl, fun _ => ⟨_, rfl, fun _ => ⟨_, rfl⟩⟩⟩
  · exact ⟨_, rfl, fun _ => ⟨_, rfl, fun h => absurd h (by decide)⟩⟩
  · exact ⟨_, rfl, fun _ => ⟨_, rfl, fun _ => ⟨_, rfl⟩⟩⟩
  · exact ⟨_, rfl, fun _ => ⟨_, rfl, fun _ => ⟨_, rfl⟩⟩⟩
  · exact ⟨_, rfl, fun _ => ⟨_, rfl, fun _ => ⟨_, rfl⟩⟩⟩

/-- A point with a full name. -/
def fullPoint (id : Nat) (names : List String) : Point :=
  ⟨id, .ok (some ("full_name".toList, .ok (names.map fun n => .ok n.toList)))⟩

theorem fullPoint_names (id : Nat) (names : List String) :
    PointNames (fullPoint id names) (names.map String.toList) :=
  .full (k := "full_name".toList) (by simp [fullPoint, Function.comp_def]) (by decide)

example : UrlPoints [fullPoint 1 ["directory_name"], fullPoint 2 ["directory_name", "uniform_resource_identifier"]]
    [fullPoint 2 ["directory_name", "uniform_resource_identifier"]] :=
  .cons (fullPoint_names 1 _) (.cons (fullPoint_names 2 _) .nil)

/-- A violation: a point with two URLs is listed twice. -/
theorem C46_repeated_fails :
    pointLoop [fullPoint 1 ["uniform_resource_identifier", "uniform_resource_identifier"]] [] =
      .ok [fullPoint 1 ["uniform_resource_identifier", "uniform_resource_identifier"],
        fullPoint 1 ["uniform_resource_identifier", "uniform_resource_identifier"]] := by
  rfl

/-- A violation: in a CRL a delta distribution point without a name raises (the same property of a certificate skips it), and
the next read returns the points before it, without those after it. -/
theorem C46_unnamed_fails (V : Type) (R : Reads V) (v : V)
    (h : R.points v = .ok [fullPoint 1 ["uniform_resource_identifier"], ⟨2, .ok none⟩,
      fullPoint 3 ["uniform_resource_identifier"]]) :
    let exts : Py (List (Ext V)) := .ok [⟨.ok "freshest_crl".toList, .ok false, .ok v⟩]
    (crlDeltaPoints R exts CrlState.new).1 = .error .attributeError ∧
    (crlDeltaPoints R exts (CrlOp.run R exts CrlState.new .deltaCrlDistributionPoints)).1 =
      .ok [fullPoint 1 ["uniform_resource_identifier"]] := by
  intro exts
  have hv : crlValue exts "freshest_crl" { (CrlState.new : CrlState V) with deltaPoints := some [] } =
      (.ok (some v), (crlValue exts "freshest_crl" { (CrlState.new : CrlState V) with deltaPoints := some [] }).2) := rfl
  constructor
  · simp only [crlDeltaPoints, CrlState.new] at hv ⊢
    rw [hv]
    simp only [h]
    rfl
  · simp only [CrlOp.run, crlDeltaPoints, CrlState.new] at hv ⊢
    rw [hv]
    simp only [h]
    rfl

/-- A violation: if an entry cannot be read, `issuer_cert_urls` of a CRL raises, and the next read returns the URLs before that
entry. -/
theorem C46_issuer_raise_fails (V : Type) (R : Reads V) (v : V)
    (h : R.accesses v = .ok [entry "ca_issuers" "uniform_resource_identifier" "http://a.example/",
      ⟨.error .valueError, .error .valueError, .error .valueError⟩,
      entry "ca_issuers" "uniform_resource_identifier" "http://b.example/"]) :
    let exts : Py (List (Ext V)) := .ok [⟨.ok "authority_information_access".toList, .ok false, .ok v⟩]
    (issuerCertUrls R exts CrlState.new).1 = .error .valueError ∧
    (issuerCertUrls R exts (CrlOp.run R exts CrlState.new .issuerCertUrls)).1 = .ok ["http://a.example/".toList] := by
  intro exts
  have hv : crlValue exts "authority_information_access" { (CrlState.new : CrlState V) with issuerUrls := some [] } =
      (.ok (some v),
        (crlValue exts "authority_information_access" { (CrlState.new : CrlState V) with issuerUrls := some [] }).2) := rfl
  constructor
  · simp only [issuerCertUrls, CrlState.new] at hv ⊢
    rw [hv]
    simp only [h]
    rfl
  · simp only [CrlOp.run, issuerCertUrls, CrlState.new] at hv ⊢
    rw [hv]
    simp only [h]
    rfl

end Asn1.Cert
