import Verif.Lemmas.CertState

namespace Asn1.Cert
open Asn1 Spec
variable {V : Type}

theorem lower_char (c : Char) :
    (if 65 ≤ c.toNat ∧ c.toNat ≤ 90 then Char.ofNat (c.toNat + 32) else c) = c.toLower := by
  unfold Char.toLower
  by_cases h : 65 ≤ c.toNat ∧ c.toNat ≤ 90
  · have h1 : c.val ≥ 'A'.val ∧ c.val ≤ 'Z'.val := by
      simp only [ge_iff_le, UInt32.le_iff_toNat_le]
      exact h
    rw [if_pos h, dif_pos h1]
    have hn : c.toNat + 32 < 0xd800 := by omega
    apply Char.ext
    apply UInt32.toNat_inj.1
    have : (Char.ofNat (c.toNat + 32)).toNat = c.toNat + 32 := by
      unfold Char.ofNat
      rw [dif_pos (Or.inl hn)]
      rfl
    show (Char.ofNat (c.toNat + 32)).toNat = _
    rw [this]
    have hc : c.val.toNat = c.toNat := rfl
    have hd : ('a'.val - 'A'.val).toNat = 32 := by decide
    rw [UInt32.toNat_add, hc, hd]
    omega
  · rw [if_neg h, dif_neg]
    intro h1
    apply h
    simp only [ge_iff_le, UInt32.le_iff_toNat_le] at h1
    exact h1

theorem lower_eq (s : Str) : Host.lower s = s.map Char.toLower := by
  unfold Host.lower
  exact List.map_congr_left fun c _ => lower_char c

theorem toLower_punct (c d : Char) (hd : d = ':' ∨ d = '/') : c.toLower = d ↔ c = d := by
  constructor
  · intro h
    by_contra hne
    rw [← lower_char] at h
    split at h
    · next hc =>
      have : (Char.ofNat (c.toNat + 32)).toNat = c.toNat + 32 := by
        unfold Char.ofNat
        rw [dif_pos (Or.inl (by omega))]
        rfl
      have h2 : d.toNat = c.toNat + 32 := by rw [← h, this]
      rcases hd with rfl | rfl
      · have : (':' : Char).toNat = 58 := rfl
        omega
      · have : ('/' : Char).toNat = 47 := rfl
        omega
    · exact hne h
  · rintro rfl
    rcases hd with rfl | rfl <;> decide

theorem scheme_prefix (scheme : String) (url : Str) :
    (scheme.toList ++ [':', '/', '/']).isPrefixOf (Host.lower url) = true ↔ HasScheme scheme url := by
  rw [List.isPrefixOf_iff_prefix, lower_eq]
  constructor
  · rintro ⟨t, ht⟩
    obtain ⟨a, rest, hu, hab, hr⟩ := List.map_eq_append_iff.1 ht.symm
    obtain ⟨pre, p3, hpre, hp, h3⟩ := List.map_eq_append_iff.1 hab
    refine ⟨pre, rest, ?_, hp⟩
    subst hu hpre
    congr 2
    obtain ⟨x, q, rfl, hx, h3⟩ := List.map_eq_cons_iff.1 h3
    obtain ⟨y, q, rfl, hy, h3⟩ := List.map_eq_cons_iff.1 h3
    obtain ⟨z, q, rfl, hz, h3⟩ := List.map_eq_cons_iff.1 h3
    cases List.map_eq_nil_iff.1 h3
    rw [(toLower_punct x ':' (Or.inl rfl)).1 hx, (toLower_punct y '/' (Or.inr rfl)).1 hy,
      (toLower_punct z '/' (Or.inr rfl)).1 hz]
  · rintro ⟨pre, rest, rfl, hp⟩
    refine ⟨rest.map Char.toLower, ?_⟩
    simp only [List.map_append, hp]
    rfl

theorem schemeTest_iff (url : Str) :
    schemeTest url = true ↔ ∃ s ∈ ["http", "https", "ldap", "ldaps"], HasScheme s url := by
  simp only [schemeTest, List.any_cons, List.any_nil, Bool.or_false, Bool.or_eq_true, List.mem_cons, List.not_mem_nil, or_false,
    exists_eq_or_imp, exists_eq_left]
  rw [← scheme_prefix "http", ← scheme_prefix "https", ← scheme_prefix "ldap", ← scheme_prefix "ldaps"]
  rfl

theorem httpTest_iff (url : Str) : (Host.lower url).take 7 = "http://".toList ↔ ∃ s ∈ ["http"], HasScheme s url := by
  have : (∃ s ∈ ["http"], HasScheme s url) ↔ HasScheme "http" url := by simp
  rw [this, ← scheme_prefix "http", List.isPrefixOf_iff_prefix, List.prefix_iff_eq_take]
  have : ("http".toList ++ [':', '/', '/']) = "http://".toList := by decide
  rw [this]
  exact eq_comm

/-- The loop of `ocsp_urls`. -/
theorem ocspLoop_spec (es : List Access) (h : ∀ e ∈ es, Legible "ocsp" e) (out : List Str) :
    ∃ us, ocspLoop es out = .ok (out ++ us) ∧ Urls "ocsp" ["http", "https", "ldap", "ldaps"] es us := by
  induction es generalizing out with
  | nil => exact ⟨[], by simp [ocspLoop], .nil⟩
  | cons e es ih =>
    have ih := ih fun e he => h e (List.mem_cons_of_mem _ he)
    obtain ⟨m, hm, h⟩ := h e List.mem_cons_self
    by_cases hmo : m = "ocsp".toList
    · obtain ⟨l, hl, h⟩ := h hmo
      by_cases hlu : l = uri
      · obtain ⟨u, hu⟩ := h hlu
        subst hmo hlu
        have hs : Serves "ocsp" e u := ⟨hm, hl, hu⟩
        cases ht : schemeTest u with
        | true =>
          obtain ⟨us, h1, h2⟩ := ih (out ++ [u])
          refine ⟨u :: us, ?_, .take hs ((schemeTest_iff u).1 ht) h2⟩
          simp [ocspLoop, hm, hl, hu, ht, bind, Except.bind, h1]
        | false =>
          obtain ⟨us, h1, h2⟩ := ih out
          refine ⟨us, ?_, .skip (fun u' hs' => ?_) h2⟩
          · simp [ocspLoop, hm, hl, hu, ht, bind, Except.bind, h1]
          · have : u' = u := Except.ok.inj (hs'.2.2.symm.trans hu)
            subst this
            rw [← schemeTest_iff, ht]
            simp
      · obtain ⟨us, h1, h2⟩ := ih out
        refine ⟨us, ?_, .skip (fun u' hs' => ?_) h2⟩
        · simp [ocspLoop, hm, hmo, hl, hlu, bind, Except.bind, h1]
        · exact absurd (Except.ok.inj (hl.symm.trans hs'.2.1)) hlu
    · obtain ⟨us, h1, h2⟩ := ih out
      refine ⟨us, ?_, .skip (fun u' hs' => ?_) h2⟩
      · simp only [ocspLoop, hm, bind, Except.bind, if_neg hmo, h1]
      · exact absurd (Except.ok.inj (hm.symm.trans hs'.1)) hmo

/-- The loop of `issuer_cert_urls`. -/
theorem issuerLoop_spec (es : List Access) (h : ∀ e ∈ es, Legible "ca_issuers" e) (out : List Str) :
    ∃ us, issuerLoop es out = (out ++ us, none) ∧ Urls "ca_issuers" ["http"] es us := by
  induction es generalizing out with
  | nil => exact ⟨[], by simp [issuerLoop], .nil⟩
  | cons e es ih =>
    have ih := ih fun e he => h e (List.mem_cons_of_mem _ he)
    obtain ⟨m, hm, h⟩ := h e List.mem_cons_self
    by_cases hmo : m = "ca_issuers".toList
    · obtain ⟨l, hl, h⟩ := h hmo
      by_cases hlu : l = uri
      · obtain ⟨u, hu⟩ := h hlu
        subst hmo hlu
        have hs : Serves "ca_issuers" e u := ⟨hm, hl, hu⟩
        by_cases ht : (Host.lower u).take 7 = "http://".toList
        · obtain ⟨us, h1, h2⟩ := ih (out ++ [u])
          refine ⟨u :: us, ?_, .take hs ((httpTest_iff u).1 ht) h2⟩
          simp only [issuerLoop, hm, hl, hu, if_true, ne_eq, not_true, if_false, if_pos ht, h1]
          simp
        · obtain ⟨us, h1, h2⟩ := ih out
          refine ⟨us, ?_, .skip (fun u' hs' => ?_) h2⟩
          · simp only [issuerLoop, hm, hl, hu, if_true, ne_eq, not_true, if_false, if_neg ht, h1]
          · have : u' = u := Except.ok.inj (hs'.2.2.symm.trans hu)
            subst this
            rwa [← httpTest_iff]
      · obtain ⟨us, h1, h2⟩ := ih out
        refine ⟨us, ?_, .skip (fun u' hs' => ?_) h2⟩
        · simp only [issuerLoop, hm, hmo, hl, if_true, ne_eq, hlu, not_false_eq_true, h1]
        · exact absurd (Except.ok.inj (hl.symm.trans hs'.2.1)) hlu
    · obtain ⟨us, h1, h2⟩ := ih out
      refine ⟨us, ?_, .skip (fun u' hs' => ?_) h2⟩
      · simp only [issuerLoop, hm, if_neg hmo, h1]
      · exact absurd (Except.ok.inj (hm.symm.trans hs'.1)) hmo

theorem nameLoop_spec (p : Point) (ns : List Str) (out : List Point) :
    nameLoop p (ns.map .ok) out = .ok (out ++ List.replicate (ns.count uri) p) := by
  induction ns generalizing out with
  | nil => simp [nameLoop]
  | cons n ns ih =>
    simp only [List.map_cons, nameLoop, bind, Except.bind, ih]
    by_cases h : n = uri
    · subst h
      simp [List.replicate_succ]
    · simp [h]

theorem crlNameLoop_spec (p : Point) (ns : List Str) (out : List Point) :
    crlNameLoop p (ns.map .ok) out = (out ++ List.replicate (ns.count uri) p, none) := by
  induction ns generalizing out with
  | nil => simp [crlNameLoop]
  | cons n ns ih =>
    simp only [List.map_cons, crlNameLoop, ih]
    by_cases h : n = uri
    · subst h
      simp [List.replicate_succ]
    · simp [h]

/-- The loop over distribution points. -/
theorem pointLoop_spec {ps sel : List Point} (h : UrlPoints ps sel) (out : List Point) :
    pointLoop ps out = .ok (out ++ sel) := by
  induction h generalizing out with
  | nil => simp [pointLoop]
  | @cons p ps names sel hp _ ih =>
    cases hp with
    | absent hn => simp [pointLoop, hn, bind, Except.bind, ih]
    | relative hn => simp [pointLoop, hn, bind, Except.bind, ih]
    | full hn hk =>
      simp only [pointLoop, hn, bind, Except.bind, if_neg hk, nameLoop_spec, ih, List.append_assoc]
      rfl

theorem crlPointLoop_spec {ps sel : List Point} (h : UrlPoints ps sel) (hv : ∀ p ∈ ps, p.name ≠ .ok none)
    (out : List Point) : crlPointLoop ps out = (out ++ sel, none) := by
  induction h generalizing out with
  | nil => simp [crlPointLoop]
  | @cons p ps names sel hp _ ih =>
    have ih := ih fun p hp => hv p (List.mem_cons_of_mem _ hp)
    cases hp with
    | absent hn => exact absurd hn (hv p List.mem_cons_self)
    | relative hn => simp [crlPointLoop, hn, ih]
    | full hn hk =>
      simp only [crlPointLoop, hn, if_neg hk, crlNameLoop_spec, ih, List.append_assoc]
      rfl

/-- A property of a CRL. -/
inductive CrlOp where
  | value (name : String)
  | issuerCertUrls
  | deltaCrlDistributionPoints

/-- The state after a read, whether it raises or not. -/
def CrlOp.run (R : Reads V) (exts : Py (List (Ext V))) (st : CrlState V) : CrlOp → CrlState V
  | .value n => (crlValue exts n st).2
  | .issuerCertUrls => (Cert.issuerCertUrls R exts st).2
  | .deltaCrlDistributionPoints => (crlDeltaPoints R exts st).2

/-- The value of an extension of a CRL. -/
def crlExt (exts : Py (List (Ext V))) (n : String) : Py (Option V) := (readAll crlAttrs exts).map (lastValue n.toList)

/-- The invariant, for a CRL whose URL lists can be read: `us` and `ps`, where given, are what the reads should return. -/
structure CrlSound (R : Reads V) (exts : Py (List (Ext V))) (us : Option (List Str)) (ps : Option (List Point))
    (st : CrlState V) : Prop where
  ext : Sound crlAttrs exts st.toExtState
  issuer : ∀ u, us = some u → st.issuerUrls = none ∨ st.issuerUrls = us
  delta : ∀ p, ps = some p → st.deltaPoints = none ∨ st.deltaPoints = ps

/-- `us` are the URLs of the issuer certificates. -/
inductive IssuerUrls (R : Reads V) (exts : Py (List (Ext V))) : List Str → Prop
  | absent : crlExt exts "authority_information_access" = .ok none → IssuerUrls R exts []
  | present {v es us} : crlExt exts "authority_information_access" = .ok (some v) → R.accesses v = .ok es →
      (∀ e ∈ es, Legible "ca_issuers" e) → issuerLoop es [] = (us, none) → IssuerUrls R exts us

/-- `ps` are the delta distribution points. -/
inductive DeltaPoints (R : Reads V) (exts : Py (List (Ext V))) : List Point → Prop
  | absent : crlExt exts "freshest_crl" = .ok none → DeltaPoints R exts []
  | present {v ps out} : crlExt exts "freshest_crl" = .ok (some v) → R.points v = .ok ps →
      crlPointLoop ps [] = (out, none) → DeltaPoints R exts out

variable {R : Reads V} {exts : Py (List (Ext V))} {us : Option (List Str)} {ps : Option (List Point)} {st : CrlState V}

theorem issuerCertUrls_sound (h : CrlSound R exts us ps st) (hu : ∀ u, us = some u → IssuerUrls R exts u) :
    (∀ u, us = some u → (issuerCertUrls R exts st).1 = .ok u) ∧ CrlSound R exts us ps (issuerCertUrls R exts st).2 := by
  unfold issuerCertUrls
  cases hc : st.issuerUrls with
  | some us' =>
    refine ⟨fun u hus => ?_, h⟩
    rcases h.issuer u hus with h' | h'
    · rw [hc] at h'; cases h'
    · rw [hc, hus] at h'; cases h'; rfl
  | none =>
    simp only
    have hn : "authority_information_access".toList ∈ crlAttrs := by decide +kernel
    have h1 := (extValue_sound h.ext hn).1
    have h2 := (extValue_sound h.ext hn).2
    unfold crlValue
    simp only
    generalize hp : extValue exts "authority_information_access".toList st.toExtState = p at h1 h2 ⊢
    obtain ⟨r, e⟩ := p
    simp only at h1 h2
    subst h1
    have hx : crlExt exts "authority_information_access" =
      (readAll crlAttrs exts).map (lastValue "authority_information_access".toList) := rfl
    rw [← hx]
    cases hr : crlExt exts "authority_information_access" with
    | error x =>
      refine ⟨fun u hus => ?_, h2, fun u hus => ?_, h.delta⟩ <;>
        (cases hu u hus with
         | absent h' => rw [hr] at h'; cases h'
         | present h' => rw [hr] at h'; cases h')
    | ok o =>
      cases o with
      | none =>
        refine ⟨fun u hus => ?_, h2, fun u hus => ?_, h.delta⟩ <;>
        (cases hu u hus with
         | absent h' => first | rfl | exact Or.inr hus.symm
         | present h' => rw [hr] at h'; cases h')
      | some v =>
        simp only
        cases ha : R.accesses v with
        | error x =>
          refine ⟨fun u hus => ?_, h2, fun u hus => ?_, h.delta⟩ <;>
          (cases hu u hus with
           | absent h' => rw [hr] at h'; cases h'
           | present h' ha' => rw [hr] at h'; cases h'; rw [ha] at ha'; cases ha')
        | ok es =>
          simp only
          generalize hl : issuerLoop es [] = q
          obtain ⟨us', x⟩ := q
          cases x with
          | none =>
            refine ⟨fun u hus => ?_, h2, fun u hus => ?_, h.delta⟩ <;>
            (cases hu u hus with
             | absent h' => rw [hr] at h'; cases h'
             | present h' ha' _ hl' =>
               rw [hr] at h'; cases h'; rw [ha] at ha'; cases ha'; rw [hl] at hl'; cases hl'
               first | rfl | exact Or.inr hus.symm)
          | some x =>
            refine ⟨fun u hus => ?_, h2, fun u hus => ?_, h.delta⟩ <;>
            (cases hu u hus with
             | absent h' => rw [hr] at h'; cases h'
             | present h' ha' _ hl' =>
               rw [hr] at h'; cases h'; rw [ha] at ha'; cases ha'; rw [hl] at hl'; cases hl')

theorem crlDeltaPoints_sound (h : CrlSound R exts us ps st) (hu : ∀ p, ps = some p → DeltaPoints R exts p) :
    (∀ p, ps = some p → (crlDeltaPoints R exts st).1 = .ok p) ∧ CrlSound R exts us ps (crlDeltaPoints R exts st).2 := by
  unfold crlDeltaPoints
  cases hc : st.deltaPoints with
  | some ps' =>
    refine ⟨fun u hus => ?_, h⟩
    rcases h.delta u hus with h' | h'
    · rw [hc] at h'; cases h'
    · rw [hc, hus] at h'; cases h'; rfl
  | none =>
    simp only
    have hn : "freshest_crl".toList ∈ crlAttrs := by decide +kernel
    have h1 := (extValue_sound h.ext hn).1
    have h2 := (extValue_sound h.ext hn).2
    unfold crlValue
    simp only
    generalize hp : extValue exts "freshest_crl".toList st.toExtState = p at h1 h2 ⊢
    obtain ⟨r, e⟩ := p
    simp only at h1 h2
    subst h1
    have hx : crlExt exts "freshest_crl" = (readAll crlAttrs exts).map (lastValue "freshest_crl".toList) := rfl
    rw [← hx]
    cases hr : crlExt exts "freshest_crl" with
    | error x =>
      refine ⟨fun u hus => ?_, h2, h.issuer, fun u hus => ?_⟩ <;>
        (cases hu u hus with
         | absent h' => rw [hr] at h'; cases h'
         | present h' => rw [hr] at h'; cases h')
    | ok o =>
      cases o with
      | none =>
        refine ⟨fun u hus => ?_, h2, h.issuer, fun u hus => ?_⟩ <;>
        (cases hu u hus with
         | absent h' => first | rfl | exact Or.inr hus.symm
         | present h' => rw [hr] at h'; cases h')
      | some v =>
        simp only
        cases ha : R.points v with
        | error x =>
          refine ⟨fun u hus => ?_, h2, h.issuer, fun u hus => ?_⟩ <;>
          (cases hu u hus with
           | absent h' => rw [hr] at h'; cases h'
           | present h' ha' => rw [hr] at h'; cases h'; rw [ha] at ha'; cases ha')
        | ok es =>
          simp only
          generalize hl : crlPointLoop es [] = q
          obtain ⟨us', x⟩ := q
          cases x with
          | none =>
            refine ⟨fun u hus => ?_, h2, h.issuer, fun u hus => ?_⟩ <;>
            (cases hu u hus with
             | absent h' => rw [hr] at h'; cases h'
             | present h' ha' hl' =>
               rw [hr] at h'; cases h'; rw [ha] at ha'; cases ha'; rw [hl] at hl'; cases hl'
               first | rfl | exact Or.inr hus.symm)
          | some x =>
            refine ⟨fun u hus => ?_, h2, h.issuer, fun u hus => ?_⟩ <;>
            (cases hu u hus with
             | absent h' => rw [hr] at h'; cases h'
             | present h' ha' hl' =>
               rw [hr] at h'; cases h'; rw [ha] at ha'; cases ha'; rw [hl] at hl'; cases hl')

theorem crlOps_sound (R : Reads V) (exts : Py (List (Ext V))) (ops : List CrlOp)
    (hu : ∀ u, us = some u → IssuerUrls R exts u) (hp : ∀ p, ps = some p → DeltaPoints R exts p) :
    CrlSound R exts us ps (ops.foldl (CrlOp.run R exts) CrlState.new) := by
  generalize hst : (CrlState.new : CrlState V) = st
  have h : CrlSound R exts us ps st := by
    subst hst
    exact ⟨sound_new _ _, fun _ _ => Or.inl rfl, fun _ _ => Or.inl rfl⟩
  clear hst
  induction ops generalizing st with
  | nil => exact h
  | cons o os ih =>
    refine ih _ ?_
    cases o with
    | value n => exact ⟨extValue_state h.ext _, h.issuer, h.delta⟩
    | issuerCertUrls => exact (issuerCertUrls_sound h hu).2
    | deltaCrlDistributionPoints => exact (crlDeltaPoints_sound h hp).2

end Asn1.Cert
