import Verif.Lemmas.CertState
import Verif.Model.CertNames
import Verif.Props.C32
import Verif.Props.C34

/-!
# C72: what a certificate is valid for does not depend on what was read before

The object is new, then any properties of it are read, in any order, and the property in question is read at last.
-/

namespace Asn1.Cert
open Asn1 Spec
variable {V N : Type}

/-- A read of a property of a certificate. -/
inductive NamesOp where
  | cert (o : CertOp)
  | domains
  | ips
  | ca
  | path

/-- The state after a read, whether it raises or not. -/
def NamesOp.run (B : Reads V) (R : NameReads V) (c : Source V) (st : NamesState V) : NamesOp → NamesState V
  | .cert o => { st with cert := o.run B c st.cert }
  | .domains => (validDomains R c st).2
  | .ips => (validIps R c st).2
  | .ca => { st with cert := (Cert.ca R c st.cert).2 }
  | .path => { st with cert := (maxPathLength R c st.cert).2 }

/-- The object after the reads. -/
def afterNames (B : Reads V) (R : NameReads V) (c : Source V) (ops : List NamesOp) : NamesState V := ops.foldl (NamesOp.run B R c) {}

/-- The general name that is read. -/
def AltReads (n : AltName) : Host.GeneralName → Prop
  | .dns s => n.name = .ok "dns_name".toList ∧ n.native = .ok s
  | .ip s => n.name = .ok "ip_address".toList ∧ n.native = .ok s
  | .other => ∃ k, n.name = .ok k ∧ k ≠ "dns_name".toList ∧ k ≠ "ip_address".toList

/-- The common name that is read, or another attribute. -/
def AttrReads (a : NameAttr) : Option Str → Prop
  | some s => a.type = .ok "common_name".toList ∧ a.value = .ok s
  | none => ∃ t, a.type = .ok t ∧ t ≠ "common_name".toList

/-- The certificate can be read: its alternative names and, if there are none, its common names are these. -/
structure CertReads (R : NameReads V) (c : Source V) (h : Host.Cert) : Prop where
  exts : ∃ l, readAll certificateAttrs c.exts = .ok l ∧
    ((lastValue "subject_alt_name".toList l = none ∧ h.altNames = none) ∨
      ∃ v ns gs, lastValue "subject_alt_name".toList l = some v ∧ h.altNames = some gs ∧ R.alts v = .ok ns ∧ List.Forall₂ AltReads ns gs)
  subject : h.altNames.getD [] = [] → ∃ as os, R.subject = .ok as ∧ List.Forall₂ AttrReads as os ∧ h.commonNames = os.filterMap id

/-! ### The loops -/

theorem altDomains_reads {ns : List AltName} {gs : List Host.GeneralName} (h : List.Forall₂ AltReads ns gs) (acc : List Str) :
    altDomains ns acc = (Host.collectDns acc gs, none) := by
  induction h generalizing acc with
  | nil => rfl
  | @cons n g ns gs h _ ih =>
    cases g with
    | dns s =>
      simp only [altDomains, Host.collectDns, h.1, h.2, ne_eq, not_true_eq_false, if_false]
      split <;> exact ih _
    | ip s =>
      simp only [altDomains, Host.collectDns, h.1]
      rw [if_pos (by decide +kernel)]
      exact ih _
    | other =>
      obtain ⟨k, h1, h2, h3⟩ := h
      simp only [altDomains, Host.collectDns, h1]
      rw [if_pos h2]
      exact ih _

theorem altIps_reads {ns : List AltName} {gs : List Host.GeneralName} (h : List.Forall₂ AltReads ns gs) (acc : List Str) :
    altIps ns acc = (acc ++ gs.filterMap (fun | .ip s => some s | _ => none), none) := by
  induction h generalizing acc with
  | nil => simp [altIps]
  | @cons n g ns gs h _ ih =>
    cases g with
    | ip s =>
      simp only [altIps, h.1, h.2, ne_eq, not_true_eq_false, if_false, ih]
      simp
    | dns s =>
      simp only [altIps, h.1]
      rw [if_pos (by decide +kernel), ih]
      simp
    | other =>
      obtain ⟨k, h1, h2, h3⟩ := h
      simp only [altIps, h1]
      rw [if_pos h3, ih]
      simp

theorem subjectDomains_reads {as : List NameAttr} {os : List (Option Str)} (h : List.Forall₂ AttrReads as os) (acc : List Str) :
    subjectDomains as acc = (acc ++ (os.filterMap id).filter Host.cnPattern, none) := by
  induction h generalizing acc with
  | nil => simp [subjectDomains]
  | @cons a o as os h _ ih =>
    cases o with
    | some s =>
      simp only [subjectDomains, h.1, h.2, ne_eq, not_true_eq_false, if_false]
      split
      · next hs => rw [ih]; simp [hs]
      · next hs => rw [ih]; simp [hs]
    | none =>
      obtain ⟨t, h1, h2⟩ := h
      simp only [subjectDomains, h1]
      rw [if_pos h2, ih]
      simp

theorem CertReads.value {R : NameReads V} {c : Source V} {h : Host.Cert} (hd : CertReads R c h) :
    ∃ v, (readAll certificateAttrs c.exts).map (lastValue "subject_alt_name".toList) = .ok v ∧ fillDomains R v = (Host.validDomains h, none) ∧
      fillIps R v = (Host.validIps h, none) := by
  obtain ⟨⟨l, hl, hv⟩, hs⟩ := hd
  have plain : h.altNames.getD [] = [] → (match R.subject with | .error x => ([], some x) | .ok as => subjectDomains as []) = (Host.validDomains h, none) := by
    intro he
    obtain ⟨as, os, h1, h2, h3⟩ := hs he
    simp only [h1, subjectDomains_reads h2, List.nil_append]
    unfold Host.validDomains
    cases ha : h.altNames with
    | none => simp [h3]
    | some gs =>
      rw [ha] at he
      simp only [Option.getD_some] at he
      subst he
      simp [h3]
  rcases hv with ⟨h1, h2⟩ | ⟨v, ns, gs, h1, h2, h3, h4⟩
  · refine ⟨none, by rw [hl, ← h1]; rfl, ?_, ?_⟩
    · simp only [fillDomains]
      exact plain (by simp [h2])
    · simp [fillIps, Host.validIps, h2]
  · refine ⟨some v, by rw [hl, ← h1]; rfl, ?_, ?_⟩
    · cases h4 with
      | nil =>
        simp only [fillDomains, h3]
        exact plain (by simp [h2])
      | cons ha hb =>
        simp only [fillDomains, h3, Host.validDomains, h2]
        exact altDomains_reads (.cons ha hb) []
    · simp only [fillIps, h3, Host.validIps, h2, altIps_reads h4, List.nil_append]
      rfl

/-! ### The caches -/

/-- `ca` of the certificate, read from the extensions. -/
def caOf (R : NameReads V) (c : Source V) : Py (Option Bool) := do
  match lastValue "basic_constraints".toList (← readAll certificateAttrs c.exts) with
  | none => .ok none
  | some v => some <$> R.ca v

/-- The path length, read from the extensions: of a CA only. -/
def pathOf (R : NameReads V) (c : Source V) : Py (Option Int) := do
  match lastValue "basic_constraints".toList (← readAll certificateAttrs c.exts) with
  | none => .ok none
  | some v => if ← R.ca v then R.path v else .ok none

variable {B : Reads V} {R : NameReads V} {c : Source V}

theorem ca_sound {st : State V} (h : CertCore B c st) :
    (ca R c st).1 = caOf R c ∧ CertCore B c (ca R c st).2 ∧ (ca R c st).2.selfSigned = st.selfSigned := by
  obtain ⟨h1, h2, h3⟩ := value_sound h "basic_constraints"
  have h1 := h1 (by decide +kernel)
  unfold ca caOf
  generalize value c "basic_constraints" st = p at h1 h2 h3 ⊢
  obtain ⟨r, st'⟩ := p
  simp only at h1 h2 h3
  subst h1
  cases readAll certificateAttrs c.exts with
  | error x => exact ⟨rfl, h2, h3⟩
  | ok l =>
    simp only [Except.map, bind, Except.bind]
    cases lastValue "basic_constraints".toList l with
    | none => exact ⟨rfl, h2, h3⟩
    | some v => exact ⟨rfl, h2, h3⟩

theorem path_sound {st : State V} (h : CertCore B c st) :
    (maxPathLength R c st).1 = pathOf R c ∧ CertCore B c (maxPathLength R c st).2 ∧ (maxPathLength R c st).2.selfSigned = st.selfSigned := by
  obtain ⟨h1, h2, h3⟩ := ca_sound (R := R) h
  unfold maxPathLength
  generalize ca R c st = p at h1 h2 h3 ⊢
  obtain ⟨r, s⟩ := p
  simp only at h1 h2 h3
  subst h1
  obtain ⟨g1, g2, g3⟩ := value_sound h2 "basic_constraints"
  have g1 := g1 (by decide +kernel)
  unfold caOf pathOf
  cases hr : readAll certificateAttrs c.exts with
  | error x => exact ⟨rfl, h2, h3⟩
  | ok l =>
    rw [hr] at g1
    simp only [Except.map] at g1
    simp only [bind, Except.bind]
    cases hl : lastValue "basic_constraints".toList l with
    | none => exact ⟨rfl, h2, h3⟩
    | some v =>
      cases hc : R.ca v with
      | error x => simp [hc, Functor.map, Except.map]; exact ⟨h2, h3⟩
      | ok b =>
        cases b with
        | false => simp [hc, Functor.map, Except.map]; exact ⟨h2, h3⟩
        | true =>
          rw [hl] at g1
          generalize hq : value c "basic_constraints" s = q at g1 g2 g3
          obtain ⟨r', s'⟩ := q
          simp only at g1 g2 g3
          subst g1
          simp only [hc, Functor.map, Except.map, hq, if_true]
          exact ⟨trivial, g2, g3.trans h3⟩

/-- The caches of the certificate hold what should be read, and those of the names as well if they can be read. -/
structure NamesSound (B : Reads V) (R : NameReads V) (c : Source V) (st : NamesState V) : Prop where
  core : CertCore B c st.cert
  signed : Signed B c st.cert.selfSigned
  domains : ∀ h, CertReads R c h → ∀ l, st.domains = some l → l = Host.validDomains h
  ips : ∀ h, CertReads R c h → ∀ l, st.ips = some l → l = Host.validIps h

theorem domains_sound {st : NamesState V} (hs : NamesSound B R c st) :
    NamesSound B R c (validDomains R c st).2 ∧ ∀ h, CertReads R c h → (validDomains R c st).1 = .ok (Host.validDomains h) := by
  unfold validDomains
  cases hd : st.domains with
  | some l => exact ⟨hs, fun h hr => by rw [hs.domains h hr l hd]⟩
  | none =>
    obtain ⟨h1, h2, h3⟩ := value_sound hs.core "subject_alt_name"
    have h1 := h1 (by decide +kernel)
    generalize value c "subject_alt_name" st.cert = p at h1 h2 h3 ⊢
    obtain ⟨r, s⟩ := p
    simp only at h1 h2 h3
    have hsig : Signed B c s.selfSigned := h3 ▸ hs.signed
    cases r with
    | error x =>
      have no : ∀ h, ¬ CertReads R c h := fun h hr => by
        obtain ⟨v, hv, _⟩ := hr.value
        rw [hv] at h1
        cases h1
      exact ⟨⟨h2, hsig, fun h hr => absurd hr (no h), hs.ips⟩, fun h hr => absurd hr (no h)⟩
    | ok v =>
      have key : ∀ h, CertReads R c h → fillDomains R v = (Host.validDomains h, none) := fun h hr => by
        obtain ⟨v', hv, hf, _⟩ := hr.value
        rw [hv] at h1
        cases h1
        exact hf
      simp only
      split
      · next l hl =>
        refine ⟨⟨h2, hsig, fun h hr l' hl' => ?_, hs.ips⟩, fun h hr => ?_⟩
        · cases hl'
          have := key h hr
          rw [hl] at this
          cases this
          rfl
        · have := key h hr
          rw [hl] at this
          cases this
          rfl
      · next l x hl =>
        have no : ∀ h, ¬ CertReads R c h := fun h hr => by
          have := key h hr
          rw [hl] at this
          cases this
        exact ⟨⟨h2, hsig, fun h hr => absurd hr (no h), hs.ips⟩, fun h hr => absurd hr (no h)⟩

theorem ips_sound {st : NamesState V} (hs : NamesSound B R c st) :
    NamesSound B R c (validIps R c st).2 ∧ ∀ h, CertReads R c h → (validIps R c st).1 = .ok (Host.validIps h) := by
  unfold validIps
  cases hd : st.ips with
  | some l => exact ⟨hs, fun h hr => by rw [hs.ips h hr l hd]⟩
  | none =>
    obtain ⟨h1, h2, h3⟩ := value_sound hs.core "subject_alt_name"
    have h1 := h1 (by decide +kernel)
    generalize value c "subject_alt_name" st.cert = p at h1 h2 h3 ⊢
    obtain ⟨r, s⟩ := p
    simp only at h1 h2 h3
    have hsig : Signed B c s.selfSigned := h3 ▸ hs.signed
    cases r with
    | error x =>
      have no : ∀ h, ¬ CertReads R c h := fun h hr => by
        obtain ⟨v, hv, _⟩ := hr.value
        rw [hv] at h1
        cases h1
      exact ⟨⟨h2, hsig, hs.domains, fun h hr => absurd hr (no h)⟩, fun h hr => absurd hr (no h)⟩
    | ok v =>
      have key : ∀ h, CertReads R c h → fillIps R v = (Host.validIps h, none) := fun h hr => by
        obtain ⟨v', hv, _, hf⟩ := hr.value
        rw [hv] at h1
        cases h1
        exact hf
      simp only
      split
      · next l hl =>
        refine ⟨⟨h2, hsig, hs.domains, fun h hr l' hl' => ?_⟩, fun h hr => ?_⟩
        · cases hl'
          have := key h hr
          rw [hl] at this
          cases this
          rfl
        · have := key h hr
          rw [hl] at this
          cases this
          rfl
      · next l x hl =>
        have no : ∀ h, ¬ CertReads R c h := fun h hr => by
          have := key h hr
          rw [hl] at this
          cases this
        exact ⟨⟨h2, hsig, hs.domains, fun h hr => absurd hr (no h)⟩, fun h hr => absurd hr (no h)⟩

theorem certOp_sound {st : State V} (h : CertCore B c st) (hs : Signed B c st.selfSigned) (o : CertOp) :
    CertCore B c (o.run B c st) ∧ Signed B c (o.run B c st).selfSigned := by
  cases o with
  | critical => exact ⟨(critical_core h).1, (critical_core h).2 ▸ hs⟩
  | value n => exact ⟨(value_sound h n).2.1, hs⟩
  | keyIdentifier => have := keyIdentifier_sound h; exact ⟨this.2.1, this.2.2.symm ▸ hs⟩
  | authorityKeyIdentifier => have := authorityKeyIdentifier_sound h; exact ⟨this.2.1, this.2.2.symm ▸ hs⟩
  | selfIssued => have := selfIssued_sound h; exact ⟨this.2.1, this.2.2.symm ▸ hs⟩
  | selfSigned => exact (selfSigned_sound h hs).2
  | ocspUrls => have := ocspUrls_core h; exact ⟨this.1, this.2.1.symm ▸ hs⟩
  | crlDistributionPoints => have := crl_core h; exact ⟨this.1, this.2.1.symm ▸ hs⟩
  | deltaCrlDistributionPoints => have := delta_core h; exact ⟨this.1, this.2.1.symm ▸ hs⟩

theorem names_sound (B : Reads V) (R : NameReads V) (c : Source V) (ops : List NamesOp) : NamesSound B R c (afterNames B R c ops) := by
  unfold afterNames
  have h0 : NamesSound B R c {} := by
    have := certOps_sound B c []
    exact ⟨this.1, this.2, fun _ _ _ h => (by cases h), fun _ _ _ h => (by cases h)⟩
  generalize ({} : NamesState V) = st at h0 ⊢
  induction ops generalizing st with
  | nil => exact h0
  | cons o os ih =>
    refine ih _ ?_
    cases o with
    | cert o => exact ⟨(certOp_sound h0.core h0.signed o).1, (certOp_sound h0.core h0.signed o).2, h0.domains, h0.ips⟩
    | domains => exact (domains_sound h0).1
    | ips => exact (ips_sound h0).1
    | ca =>
      have := ca_sound (R := R) h0.core
      exact ⟨this.2.1, this.2.2.symm ▸ h0.signed, h0.domains, h0.ips⟩
    | path =>
      have := path_sound (R := R) h0.core
      exact ⟨this.2.1, this.2.2.symm ▸ h0.signed, h0.domains, h0.ips⟩

/-! ### The properties -/

theorem nodup_collectDns (gs : List Host.GeneralName) (acc : List Str) (h : acc.Nodup) : (Host.collectDns acc gs).Nodup := by
  induction gs generalizing acc with
  | nil => exact h
  | cons g gs ih =>
    cases g with
    | dns s =>
      rw [Host.collectDns]
      split
      · exact ih _ h
      · next hs =>
        refine ih _ (List.nodup_append.mpr ⟨h, by simp, ?_⟩)
        intro a ha b hb
        rw [List.mem_singleton.mp hb]
        exact fun e => hs (e ▸ ha)
    | ip s => exact ih _ h
    | other => exact ih _ h

/-- Of a certificate that can be read, `valid_domains` is what C32 is about, whatever was read before: the DNS names among the alternative names, each once,
or without alternative names the common names that look like a host name. -/
theorem C72_domains_partial (B : Reads V) (R : NameReads V) (c : Source V) (ops : List NamesOp) (h : Host.Cert) (hr : CertReads R c h) :
    ∃ l, (validDomains R c (afterNames B R c ops)).1 = .ok l ∧ l = Host.validDomains h ∧ (∀ d, d ∈ l ↔ Host.DnsName h d) ∧
      (h.altNames.getD [] ≠ [] → l.Nodup) := by
  refine ⟨_, (domains_sound (names_sound B R c ops)).2 h hr, rfl, fun d => Host.mem_validDomains h d, ?_⟩
  intro hne
  unfold Host.validDomains
  cases ha : h.altNames with
  | none => simp [ha] at hne
  | some gs =>
    cases gs with
    | nil => simp [ha] at hne
    | cons g gs => exact nodup_collectDns _ _ List.nodup_nil

/-- Likewise `valid_ips`: the addresses among the alternative names, in their order. -/
theorem C72_ips_partial (B : Reads V) (R : NameReads V) (c : Source V) (ops : List NamesOp) (h : Host.Cert) (hr : CertReads R c h) :
    ∃ l, (validIps R c (afterNames B R c ops)).1 = .ok l ∧ l = Host.validIps h ∧ ∀ a, a ∈ l ↔ .ip a ∈ h.altNames.getD [] := by
  refine ⟨_, (ips_sound (names_sound B R c ops)).2 h hr, rfl, fun a => ?_⟩
  unfold Host.validIps
  cases h.altNames with
  | none => simp
  | some gs =>
    simp only [List.mem_filterMap, Option.getD_some]
    constructor
    · rintro ⟨g, hg, e⟩
      cases g <;> simp at e
      subst e
      exact hg
    · intro hg
      exact ⟨_, hg, rfl⟩

/-- Whatever was read before, `ca` is what the last basic constraints say. -/
theorem C72_ca (B : Reads V) (R : NameReads V) (c : Source V) (ops : List NamesOp) : (ca R c (afterNames B R c ops).cert).1 = caOf R c :=
  (ca_sound (names_sound B R c ops).core).1

/-- Whatever was read before, `max_path_length` is the length in the last basic constraints if they say that it is a CA, and `None` otherwise. -/
theorem C72_path (B : Reads V) (R : NameReads V) (c : Source V) (ops : List NamesOp) :
    (maxPathLength R c (afterNames B R c ops).cert).1 = pathOf R c :=
  (path_sound (names_sound B R c ops).core).1

/-! ### Entries of revocation lists -/

/-- A read of a property of an entry. -/
inductive RevokedOp where
  | ext (o : ExtOp)
  | issuer

/-- The state after a read, whether it raises or not. -/
def RevokedOp.run (names : V → Py (List (IssuerName N))) (exts : Py (List (Ext V))) (st : RevokedState V N) : RevokedOp → RevokedState V N
  | .ext o => { st with ext := o.run exts st.ext }
  | .issuer => (issuerName names exts st).2

/-- The issuer of an entry: the first directory name. What comes after it is of no importance. -/
inductive FirstDirectory : List (IssuerName N) → Option N → Prop
  | nil : FirstDirectory [] none
  | here {g gs n} : g.name = .ok "directory_name".toList → g.chosen = .ok n → FirstDirectory (g :: gs) (some n)
  | later {g gs n k} : g.name = .ok k → k ≠ "directory_name".toList → FirstDirectory gs n → FirstDirectory (g :: gs) n

theorem FirstDirectory.loop {gs : List (IssuerName N)} {n : Option N} (h : FirstDirectory gs n) : directoryLoop gs = .ok n := by
  induction h with
  | nil => rfl
  | here h1 h2 => simp only [directoryLoop, h1, h2, if_true]; rfl
  | later h1 h2 _ ih => simp only [directoryLoop, h1]; rw [if_neg h2]; exact ih

/-- The extensions of the entry can be read, and this is its issuer: `None` without the extension. -/
def EntryIssuer (names : V → Py (List (IssuerName N))) (exts : Py (List (Ext V))) (n : Option N) : Prop :=
  ∃ l, readAll revokedAttrs exts = .ok l ∧ match lastValue "certificate_issuer".toList l with
    | none => n = none
    | some v => ∃ gs, names v = .ok gs ∧ FirstDirectory gs n

theorem issuerName_sound {names : V → Py (List (IssuerName N))} {exts : Py (List (Ext V))} {st : RevokedState V N} {n : Option N}
    (hn : EntryIssuer names exts n) (h1 : Sound revokedAttrs exts st.ext) (h2 : ∀ m, st.issuer = some m → m = n) :
    (issuerName names exts st).1 = .ok n ∧ Sound revokedAttrs exts (issuerName names exts st).2.ext ∧
      ∀ m, (issuerName names exts st).2.issuer = some m → m = n := by
  unfold issuerName
  cases hi : st.issuer with
  | some m => exact ⟨by rw [h2 m hi], h1, fun m' h' => h2 m' h'⟩
  | none =>
    have e1 := (extValue_sound h1 (n := "certificate_issuer".toList) (by decide +kernel)).1
    have e2 := extValue_state h1 "certificate_issuer".toList
    generalize extValue exts "certificate_issuer".toList st.ext = p at e1 e2 ⊢
    obtain ⟨r, e⟩ := p
    simp only at e1 e2
    subst e1
    obtain ⟨l, hl, hv⟩ := hn
    simp only [hl, Except.map]
    split at hv
    · next hlv =>
      rw [hlv]
      subst hv
      exact ⟨rfl, e2, fun m h => by cases h; rfl⟩
    · next v hlv =>
      obtain ⟨gs, hg, hf⟩ := hv
      rw [hlv]
      simp only [hg, bind, Except.bind, hf.loop]
      exact ⟨trivial, e2, fun m h => by cases h; rfl⟩

/-- If the extensions can be read, `issuer_name` is the first directory name of the issuer of the entry, whatever was read before. -/
theorem C72_issuer_partial (names : V → Py (List (IssuerName N))) (exts : Py (List (Ext V))) (ops : List RevokedOp) (n : Option N)
    (hn : EntryIssuer names exts n) : (issuerName names exts (ops.foldl (RevokedOp.run names exts) {})).1 = .ok n := by
  have key : ∀ st : RevokedState V N, Sound revokedAttrs exts st.ext → (∀ m, st.issuer = some m → m = n) →
      Sound revokedAttrs exts (ops.foldl (RevokedOp.run names exts) st).ext ∧ ∀ m, (ops.foldl (RevokedOp.run names exts) st).issuer = some m → m = n := by
    induction ops with
    | nil => exact fun st h1 h2 => ⟨h1, h2⟩
    | cons o os ih =>
      intro st h1 h2
      cases o with
      | ext o =>
        refine ih _ ?_ h2
        cases o with
        | critical => exact (critical_sound h1).2.2
        | value n => exact extValue_state h1 n
      | issuer => exact ih _ (issuerName_sound hn h1 h2).2.1 (issuerName_sound hn h1 h2).2.2
  have := key {} (sound_new _ _) (fun _ h => by cases h)
  exact (issuerName_sound hn this.1 this.2).1

/-! ### Where the code does otherwise -/

/-- A certificate with two DNS names, the second of which cannot be decoded. -/
def twoNames : NameReads Nat where
  alts := fun _ => .ok [⟨.ok "dns_name".toList, .ok "a.org".toList⟩, ⟨.ok "dns_name".toList, .error .unicodeError⟩]
  subject := .ok []
  ca := fun _ => .ok true
  path := fun _ => .ok (some 0)

def twoNamesCert : Source Nat := ⟨.ok [⟨.ok "subject_alt_name".toList, .ok false, .ok 1⟩], .ok false⟩

/-- `valid_domains` of a certificate with a name that cannot be decoded raises the first time, and is the list of the names before it the second time. -/
theorem C72_domains_fails : (validDomains twoNames twoNamesCert {}).1 = .error .unicodeError ∧
    (validDomains twoNames twoNamesCert (validDomains twoNames twoNamesCert {}).2).1 = .ok ["a.org".toList] := by
  decide +kernel

/-- `ca` is documented as a boolean, but without basic constraints it is `None`. -/
theorem C72_ca_fails (c : Source V) (h : c.exts = .ok []) (R : NameReads V) : (ca R c State.new).1 = .ok none := by
  have := C72_ca ⟨fun _ => .ok none, fun _ => .ok none, fun _ => .ok [], fun _ => .ok []⟩ R c []
  refine this.trans ?_
  simp only [caOf, h]
  rfl

/-- An entry whose extension cannot be parsed: `issuer_name` raises the first time and is `None` the second time, which means that the issuer is that of the
entry before. -/
theorem C72_issuer_fails : let exts : Py (List (Ext Nat)) := .ok [⟨.ok "certificate_issuer".toList, .ok true, .error .valueError⟩]
    let names : Nat → Py (List (IssuerName Nat)) := fun _ => .ok []
    (issuerName names exts {}).1 = .error .valueError ∧ (issuerName names exts (issuerName names exts {}).2).1 = .ok none := by
  decide +kernel

/-- A certificate with an address and a name twice. -/
def goodNames : NameReads Nat where
  alts := fun _ => .ok [⟨.ok "dns_name".toList, .ok "a.org".toList⟩, ⟨.ok "ip_address".toList, .ok "10.0.0.1".toList⟩, ⟨.ok "dns_name".toList, .ok "a.org".toList⟩]
  subject := .error .valueError
  ca := fun _ => .ok true
  path := fun _ => .ok (some 3)

def goodCert : Source Nat := ⟨.ok [⟨.ok "subject_alt_name".toList, .ok false, .ok 1⟩, ⟨.ok "basic_constraints".toList, .ok true, .ok 2⟩], .ok false⟩

example : CertReads goodNames goodCert ⟨some [.dns "a.org".toList, .ip "10.0.0.1".toList, .dns "a.org".toList], []⟩ :=
  ⟨⟨[("subject_alt_name".toList, some 1, false), ("basic_constraints".toList, some 2, true)], by decide +kernel,
    .inr ⟨1, _, _, by decide +kernel, rfl, rfl, .cons ⟨rfl, rfl⟩ (.cons ⟨rfl, rfl⟩ (.cons ⟨rfl, rfl⟩ .nil))⟩⟩, fun h => by simp at h⟩

example : (validDomains goodNames goodCert {}).1 = .ok ["a.org".toList] ∧ (validIps goodNames goodCert {}).1 = .ok ["10.0.0.1".toList] ∧
    caOf goodNames goodCert = .ok (some true) ∧ pathOf goodNames goodCert = .ok (some 3) := by
  decide +kernel

example : EntryIssuer (fun _ : Nat => .ok [⟨.ok "dns_name".toList, .error .valueError⟩, ⟨.ok "directory_name".toList, .ok 7⟩, ⟨.error .valueError, .ok 8⟩])
    (.ok [⟨.ok "certificate_issuer".toList, .ok true, .ok 1⟩]) (some 7) :=
  ⟨[("certificate_issuer".toList, some 1, true)], by decide +kernel, _, rfl, .later rfl (by decide +kernel) (.here rfl rfl)⟩

end Asn1.Cert
