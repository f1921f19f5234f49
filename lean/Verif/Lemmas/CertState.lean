import Verif.Lemmas.Cert

/-!
# The states a certificate object and a CRL object go through
-/

namespace Asn1.Cert
open Asn1 Spec
variable {V : Type}

/-- A property of a certificate. -/
inductive CertOp where
  | critical
  | value (name : String)
  | keyIdentifier
  | authorityKeyIdentifier
  | selfIssued
  | selfSigned
  | ocspUrls
  | crlDistributionPoints
  | deltaCrlDistributionPoints

/-- The state after a read, whether it raises or not. -/
def CertOp.run (R : Reads V) (c : Source V) (st : State V) : CertOp → State V
  | .critical => (Cert.critical c st).2
  | .value n => (Cert.value c n st).2
  | .keyIdentifier => (Cert.keyIdentifier R c st).2
  | .authorityKeyIdentifier => (Cert.authorityKeyIdentifier R c st).2
  | .selfIssued => (Cert.selfIssued c st).2
  | .selfSigned => (Cert.selfSigned R c st).2
  | .ocspUrls => (Cert.ocspUrls R c st).2
  | .crlDistributionPoints => (Cert.crlDistributionPoints R c st).2
  | .deltaCrlDistributionPoints => (Cert.deltaCrlDistributionPoints R c st).2

/-- `self_signed` of a new certificate. -/
def answer (R : Reads V) (c : Source V) : Py Str := do
  if ← c.sameName then
    let k ← subjectId R c
    if truthy k then
      let a ← authorityId R c
      .ok (if truthy a then (if a = k then maybe else no) else maybe)
    else .ok maybe
  else .ok no

/-- The distribution points in an extension. -/
def pointsOf (R : Reads V) (c : Source V) (n : String) : Py (List Point) := do
  httpPoints R (lastValue n.toList (← readAll certificateAttrs c.exts))

/-- The invariant on the caches other than that of `self_signed`. -/
structure CertCore (R : Reads V) (c : Source V) (st : State V) : Prop where
  ext : Sound certificateAttrs c.exts st.toExtState
  issued : ∀ b, st.selfIssued = some b → c.sameName = .ok b
  crl : ∀ ps, st.crlPoints = some ps → pointsOf R c "crl_distribution_points" = .ok ps
  delta : ∀ ps, st.deltaPoints = some ps → pointsOf R c "freshest_crl" = .ok ps

/-- The cache of `self_signed`. -/
def Signed (R : Reads V) (c : Source V) (s : Option Str) : Prop := ∀ a, answer R c = .ok a → ∀ s', s = some s' → s' = a

variable {R : Reads V} {c : Source V} {st : State V}

theorem value_sound (h : CertCore R c st) (n : String) :
    (n.toList ∈ certificateAttrs → (value c n st).1 = (readAll certificateAttrs c.exts).map (lastValue n.toList)) ∧
    CertCore R c (value c n st).2 ∧ (value c n st).2.selfSigned = st.selfSigned :=
  ⟨fun hn => (extValue_sound h.ext hn).1, ⟨extValue_state h.ext _, h.issued, h.crl, h.delta⟩, rfl⟩

theorem critical_core (h : CertCore R c st) :
    CertCore R c (critical c st).2 ∧ (critical c st).2.selfSigned = st.selfSigned :=
  ⟨⟨(critical_sound h.ext).2.2, h.issued, h.crl, h.delta⟩, rfl⟩

theorem keyIdentifier_sound (h : CertCore R c st) :
    (keyIdentifier R c st).1 = subjectId R c ∧ CertCore R c (keyIdentifier R c st).2 ∧
    (keyIdentifier R c st).2.selfSigned = st.selfSigned := by
  obtain ⟨h1, h2, h3⟩ := value_sound h "key_identifier"
  have h1 := h1 (by decide +kernel)
  unfold keyIdentifier subjectId
  generalize value c "key_identifier" st = p at h1 h2 h3 ⊢
  obtain ⟨r, st'⟩ := p
  simp only at h1 h2 h3
  subst h1
  cases readAll certificateAttrs c.exts with
  | error x => exact ⟨rfl, h2, h3⟩
  | ok l =>
    simp only [Except.map, bind, Except.bind]
    cases lastValue "key_identifier".toList l with
    | none => exact ⟨rfl, h2, h3⟩
    | some v => exact ⟨rfl, h2, h3⟩

theorem authorityKeyIdentifier_sound (h : CertCore R c st) :
    (authorityKeyIdentifier R c st).1 = authorityId R c ∧ CertCore R c (authorityKeyIdentifier R c st).2 ∧
    (authorityKeyIdentifier R c st).2.selfSigned = st.selfSigned := by
  obtain ⟨h1, h2, h3⟩ := value_sound h "authority_key_identifier"
  have h1 := h1 (by decide +kernel)
  unfold authorityKeyIdentifier authorityId
  generalize value c "authority_key_identifier" st = p at h1 h2 h3 ⊢
  obtain ⟨r, st'⟩ := p
  simp only at h1 h2 h3
  subst h1
  cases readAll certificateAttrs c.exts with
  | error x => exact ⟨rfl, h2, h3⟩
  | ok l =>
    simp only [Except.map, bind, Except.bind]
    cases lastValue "authority_key_identifier".toList l with
    | none => exact ⟨rfl, h2, h3⟩
    | some v => exact ⟨rfl, h2, h3⟩

theorem selfIssued_sound (h : CertCore R c st) :
    (selfIssued c st).1 = c.sameName ∧ CertCore R c (selfIssued c st).2 ∧
    (selfIssued c st).2.selfSigned = st.selfSigned := by
  unfold selfIssued
  cases hs : st.selfIssued with
  | some b => exact ⟨(h.issued b hs).symm, h, rfl⟩
  | none =>
    cases hn : c.sameName with
    | error x => exact ⟨rfl, h, rfl⟩
    | ok b =>
      exact ⟨rfl, ⟨h.ext, fun b' hb' => (by cases hb'; exact hn), h.crl, h.delta⟩, rfl⟩

theorem selfSigned_sound (h : CertCore R c st) (hs : Signed R c st.selfSigned) :
    (∀ a, answer R c = .ok a → (selfSigned R c st).1 = .ok a) ∧ CertCore R c (selfSigned R c st).2 ∧
    Signed R c (selfSigned R c st).2.selfSigned := by
  unfold selfSigned
  cases hc : st.selfSigned with
  | some s => exact ⟨fun a ha => (by rw [hs a ha s hc]), h, hs⟩
  | none =>
    have h0 : CertCore R c { st with selfSigned := some no } := ⟨h.ext, h.issued, h.crl, h.delta⟩
    obtain ⟨h1, h2, h3⟩ := selfIssued_sound h0
    simp only
    generalize selfIssued c { st with selfSigned := some no } = p at h1 h2 h3 ⊢
    obtain ⟨r1, st1⟩ := p
    simp only at h1 h2 h3
    subst h1
    unfold Signed answer
    cases hsame : c.sameName with
    | error x => exact ⟨fun a ha => (by cases ha), h2, fun a ha => (by cases ha)⟩
    | ok b =>
      cases b with
      | false =>
        refine ⟨fun a ha => ?_, h2, fun a ha s' hs' => ?_⟩
        · exact ha
        · rw [h3] at hs'; cases hs'; exact Except.ok.inj ha
      | true =>
        simp only
        obtain ⟨k1, k2, k3⟩ := keyIdentifier_sound h2
        generalize keyIdentifier R c st1 = p at k1 k2 k3 ⊢
        obtain ⟨r2, st2⟩ := p
        simp only at k1 k2 k3
        subst k1
        cases hk : subjectId R c with
        | error x => exact ⟨fun a ha => (by simp [bind, Except.bind] at ha), k2, fun a ha => (by simp [bind, Except.bind] at ha)⟩
        | ok k =>
          simp only [bind, Except.bind, if_true]
          cases htk : truthy k with
          | false =>
            simp only [Bool.false_eq_true, if_false]
            refine ⟨fun a ha => ha, ⟨k2.ext, k2.issued, k2.crl, k2.delta⟩, fun a ha s' hs' => ?_⟩
            cases hs'; exact Except.ok.inj ha
          | true =>
            simp only [if_true]
            obtain ⟨a1, a2, a3⟩ := authorityKeyIdentifier_sound k2
            generalize authorityKeyIdentifier R c st2 = p at a1 a2 a3 ⊢
            obtain ⟨r3, st3⟩ := p
            simp only at a1 a2 a3
            subst a1
            cases ha : authorityId R c with
            | error x => exact ⟨fun a ha => (by cases ha), a2, fun a ha => (by cases ha)⟩
            | ok a =>
              simp only
              by_cases hta : truthy a = true
              · by_cases he : a = k
                · simp only [he, if_true]
                  refine ⟨fun a ha => ?_, ?_, fun a ha s' hs' => ?_⟩
                  · by_cases htk : truthy k = true <;> simpa [htk] using ha
                  · by_cases htk : truthy k = true <;> simp only [htk, if_true] <;>
                      exact ⟨a2.ext, a2.issued, a2.crl, a2.delta⟩
                  · have : s' = maybe := by
                      by_cases htk : truthy k = true <;> simp [htk] at hs' <;> exact hs'.symm
                    rw [this]
                    by_cases htk : truthy k = true <;> simp [htk] at ha <;> exact ha
                · simp only [hta, he, if_true, if_false]
                  refine ⟨fun a ha => ha, a2, fun a ha s' hs' => ?_⟩
                  rw [a3, k3, h3] at hs'
                  cases hs'
                  exact Except.ok.inj ha
              · simp only [hta, Bool.false_eq_true, if_false]
                refine ⟨fun a ha => ha, ⟨a2.ext, a2.issued, a2.crl, a2.delta⟩, fun a ha s' hs' => ?_⟩
                cases hs'
                exact Except.ok.inj ha

theorem ocspUrls_core (h : CertCore R c st) :
    CertCore R c (ocspUrls R c st).2 ∧ (ocspUrls R c st).2.selfSigned = st.selfSigned ∧
    (ocspUrls R c st).1 = (do
      match lastValue "authority_information_access".toList (← readAll certificateAttrs c.exts) with
      | none => .ok []
      | some v => R.accesses v >>= fun es => ocspLoop es []) := by
  obtain ⟨h1, h2, h3⟩ := value_sound h "authority_information_access"
  have h1 := h1 (by decide +kernel)
  unfold ocspUrls
  generalize value c "authority_information_access" st = p at h1 h2 h3 ⊢
  obtain ⟨r, st'⟩ := p
  simp only at h1 h2 h3
  subst h1
  cases readAll certificateAttrs c.exts with
  | error x => exact ⟨h2, h3, rfl⟩
  | ok l =>
    simp only [Except.map, bind, Except.bind]
    cases lastValue "authority_information_access".toList l with
    | none => exact ⟨h2, h3, rfl⟩
    | some v => exact ⟨h2, h3, rfl⟩

theorem crl_core (h : CertCore R c st) :
    CertCore R c (crlDistributionPoints R c st).2 ∧ (crlDistributionPoints R c st).2.selfSigned = st.selfSigned ∧
    (crlDistributionPoints R c st).1 = pointsOf R c "crl_distribution_points" := by
  unfold crlDistributionPoints
  cases hc : st.crlPoints with
  | some ps => exact ⟨h, rfl, (h.crl ps hc).symm⟩
  | none =>
    obtain ⟨h1, h2, h3⟩ := value_sound h "crl_distribution_points"
    have h1 := h1 (by decide +kernel)
    simp only
    generalize value c "crl_distribution_points" st = p at h1 h2 h3 ⊢
    obtain ⟨r, st'⟩ := p
    simp only at h1 h2 h3
    subst h1
    have hdef : pointsOf R c "crl_distribution_points" = (do
      httpPoints R (lastValue "crl_distribution_points".toList (← readAll certificateAttrs c.exts))) := rfl
    revert hdef
    cases readAll certificateAttrs c.exts with
    | error x => exact fun hd => ⟨h2, h3, hd.symm⟩
    | ok l =>
      simp only [Except.map, bind, Except.bind]
      intro hd
      cases hp : httpPoints R (lastValue "crl_distribution_points".toList l) with
      | error x => exact ⟨h2, h3, (hd.trans hp).symm⟩
      | ok ps => exact ⟨⟨h2.ext, h2.issued, fun ps' h' => (by cases h'; exact hd.trans hp), h2.delta⟩, h3, (hd.trans hp).symm⟩

theorem delta_core (h : CertCore R c st) :
    CertCore R c (deltaCrlDistributionPoints R c st).2 ∧ (deltaCrlDistributionPoints R c st).2.selfSigned = st.selfSigned ∧
    (deltaCrlDistributionPoints R c st).1 = pointsOf R c "freshest_crl" := by
  unfold deltaCrlDistributionPoints
  cases hc : st.deltaPoints with
  | some ps => exact ⟨h, rfl, (h.delta ps hc).symm⟩
  | none =>
    obtain ⟨h1, h2, h3⟩ := value_sound h "freshest_crl"
    have h1 := h1 (by decide +kernel)
    simp only
    generalize value c "freshest_crl" st = p at h1 h2 h3 ⊢
    obtain ⟨r, st'⟩ := p
    simp only at h1 h2 h3
    subst h1
    have hdef : pointsOf R c "freshest_crl" = (do
      httpPoints R (lastValue "freshest_crl".toList (← readAll certificateAttrs c.exts))) := rfl
    revert hdef
    cases readAll certificateAttrs c.exts with
    | error x => exact fun hd => ⟨h2, h3, hd.symm⟩
    | ok l =>
      simp only [Except.map, bind, Except.bind]
      intro hd
      cases hp : httpPoints R (lastValue "freshest_crl".toList l) with
      | error x => exact ⟨h2, h3, (hd.trans hp).symm⟩
      | ok ps => exact ⟨⟨h2.ext, h2.issued, h2.crl, fun ps' h' => (by cases h'; exact hd.trans hp)⟩, h3, (hd.trans hp).symm⟩

/-- Every history. -/
theorem certOps_sound (R : Reads V) (c : Source V) (ops : List CertOp) :
    CertCore R c (ops.foldl (CertOp.run R c) State.new) ∧ Signed R c (ops.foldl (CertOp.run R c) State.new).selfSigned := by
  generalize hst : (State.new : State V) = st
  have h : CertCore R c st := by
    subst hst
    exact ⟨sound_new _ _, fun _ h => (by cases h), fun _ h => (by cases h), fun _ h => (by cases h)⟩
  have hs : Signed R c st.selfSigned := by subst hst; exact fun _ _ _ h => (by cases h)
  clear hst
  induction ops generalizing st with
  | nil => exact ⟨h, hs⟩
  | cons o os ih =>
    have step : CertCore R c (CertOp.run R c st o) ∧ Signed R c (CertOp.run R c st o).selfSigned := by
      cases o with
      | critical => exact ⟨(critical_core h).1, (critical_core h).2 ▸ hs⟩
      | value n => exact ⟨(value_sound h n).2.1, hs⟩
      | keyIdentifier => have := keyIdentifier_sound h; exact ⟨this.2.1, this.2.2.symm ▸ hs⟩
      | authorityKeyIdentifier => have := authorityKeyIdentifier_sound h; exact ⟨this.2.1, this.2.2.symm ▸ hs⟩
      | selfIssued => have := selfIssued_sound h; exact ⟨this.2.1, this.2.2.symm ▸ hs⟩
      | selfSigned => exact (selfSigned_sound h hs).2
      | ocspUrls => have := ocspUrls_core h; exact ⟨this.1, this.2.1.symm ▸ hs⟩
      | crlDistributionPoints => have := crl_core h; exact ⟨this.1, this.2.1.symm ▸ hs⟩
      | deltaCrlDistributionPoints => have := delta_core h; exact ⟨this.1, this.2.1.symm ▸ hs⟩
    exact ih _ step.1 step.2

end Asn1.Cert
