import Verif.Lemmas.AttrCert
import Verif.Props.C51

/-!
# C63 — Which kind of certificate an element of a CMS certificate set is

`loadCertificateChoices` (Model/AttrCert.lean) is `CertificateChoices.load` with its own `validate`; `loadVal … Id.cms.CertificateChoices` is the load of the
CHOICE as it is defined, without that `validate`. An attribute certificate is an element with the tag [1] (version 1) or [2] (version 2) around the octets
of the element `ac_info`, the algorithm and the signature; `ac_info` begins with the version, an INTEGER that may be left out when it is 0, and with the
subject, which has the tag [0] or [1].
-/

namespace Asn1.Props
open Asn1 Spec Pkg

/-- Elements other than those with the tag of the V1 attribute certificates. -/
theorem C63_others_partial (K : Codecs) (j : Nat) {t : TLV} {rest : Bytes} {strict : Bool} (hb : Ber 11 t) (hr : strict = true → rest = []) (ht : ¬ (t.cls = 2 ∧ t.tag = 1)) :
    loadCertificateChoices (env K) (ops (env K) j) (t.bytes ++ rest) strict =
      loadVal (env K) (ops (env K) (j + 1)) Id.cms.CertificateChoices {} (t.bytes ++ rest) strict := by
  obtain ⟨i, rfl, hp⟩ := parse_front hb strict hr
  refine cert_load K j _ _ (fun i' h' => ?_)
  rw [hp] at h'
  cases h'
  simp only [certValidate, cert_find, bind, Except.bind]
  have g : ¬ (i.cls, i.tag) = (2, 1) := fun h => ht (Prod.mk.injEq _ _ _ _ ▸ h)
  rw [if_neg g]
  by_cases g1 : (i.cls, i.tag) = (2, 3)
  · simp [g1]
  by_cases g2 : (i.cls, i.tag) = (2, 2)
  · simp [g2]
  by_cases g4 : (i.cls, i.tag) = (2, 0)
  · simp [g4]
  by_cases g5 : (i.cls, i.tag) = (0, 16)
  · simp [g5]
  simp only [g1, g2, g4, g5, if_false]

/-- `V1Around t s es`: `t` is an element with the tag [1], and its contents begin with a SEQUENCE of the elements `es`. -/
def V1Around (t s : TLV) (es : List TLV) : Prop :=
  Ber 11 t ∧ t.cls = 2 ∧ t.tag = 1 ∧ Ber 11 s ∧ s.cls = 0 ∧ s.method = 1 ∧ s.tag = 16 ∧ (∃ more, t.contents = s.bytes ++ more) ∧ Elements s.contents es

/-- `IsNumber e n`: `e` is an INTEGER with the value `n` and with a length of one octet. -/
def IsNumber (e : TLV) (n : Int) : Prop :=
  e.cls = 0 ∧ e.method = 0 ∧ e.tag = 2 ∧ (∃ a len : UInt8, e.header = [a, len] ∧ len < 128) ∧ valS e.contents = n

theorem IsNumber.short {e : TLV} {n : Int} (h : IsNumber e n) : headerEnds80 (some e.header) = false := by
  obtain ⟨_, _, _, ⟨a, len, h1, h2⟩, _⟩ := h
  simp only [headerEnds80, h1, List.getLast?_cons_cons, List.getLast?_singleton]
  refine beq_false_of_ne (fun h => ?_)
  cases h
  exact absurd h2 (by decide)

/-- What `validate` does with such an element. -/
theorem around_validate (K : Codecs) (j : Nat) {t s e : TLV} {es : List TLV} {n : Int} (h : V1Around t s (e :: es)) (hn : IsNumber e n) :
    certValidate (env K) (ops (env K) (j + 2)) none certAlts t.cls t.tag t.contents = .ok (if n = 1 then 3 else 2) := by
  obtain ⟨_, h2, h3, h4, h5, h6, h7, ⟨more, h8⟩, h9⟩ := h
  have hv := version_number K j (more := more) h4 h5 h6 h7 h9 hn.1 hn.2.1 hn.2.2.1 hn.short
  simp only [certValidate, cert_find, h2, h3, h8, hv, hn.2.2.2.2, bind, Except.bind]
  by_cases g0 : n = 0
  · subst g0; rfl
  by_cases g1 : n = 1
  · subst g1; rfl
  simp [g0, g1, isV2]

/-- An attribute certificate with the tag of version 1 and a version in it that is not `v2` is loaded as the alternative of its tag. -/
theorem C63_version_partial (K : Codecs) (j : Nat) {t s e : TLV} {es : List TLV} {n : Int} {rest : Bytes} {strict : Bool} (h : V1Around t s (e :: es))
    (hn : IsNumber e n) (h1 : n ≠ 1) (hr : strict = true → rest = []) :
    loadCertificateChoices (env K) (ops (env K) (j + 2)) (t.bytes ++ rest) strict =
      loadVal (env K) (ops (env K) (j + 3)) Id.cms.CertificateChoices {} (t.bytes ++ rest) strict ∧
    (t.method = 1 → t.trailer = [] → loadCertificateChoices (env K) (ops (env K) (j + 2)) (t.bytes ++ rest) strict =
      .ok (.choice Id.cms.CertificateChoices { cls := 0, method := 0, tag := 0, header := some [], contents := some t.bytes } (some 2)
        (some (.node Id.cms.AttributeCertificateV1
          { cls := 2, method := 1, tag := 1, implicit := true, header := some t.header, contents := some t.contents } none false)))) := by
  have hv := around_validate K j h hn
  obtain ⟨hb, h2, h3, -⟩ := h
  rw [if_neg h1] at hv
  obtain ⟨i, rfl, hp⟩ := parse_front hb strict hr
  refine ⟨cert_load K (j + 2) _ _ (fun i' h' => ?_), fun hm ht => ?_⟩
  · rw [hp] at h'
    cases h'
    refine Eq.trans hv ?_
    have h2 : i.cls = 2 := h2
    have h3 : i.tag = 1 := h3
    rw [cert_find, h2, h3]
    rfl
  · obtain ⟨cls, method, tag, header, contents, trailer⟩ := i
    cases h2; cases h3; cases hm; cases ht
    have hw : parse (header ++ contents) = .ok ⟨2, 1, 1, header, contents, []⟩ := by
      obtain ⟨i', h1, h2⟩ := parse_front (rest := []) hb false (by simp)
      rw [List.append_nil] at h2
      have : i' = ⟨2, 1, 1, header, contents, []⟩ := by
        obtain ⟨_, _, _, _, _, _⟩ := i'
        cases h1
        rfl
      rw [this] at h2
      rw [← h2]
      simp [TLV.bytes, Info.tlv]
    have hb2 : (ops (env K) (j + 2)).build ⟨2, 1, 1, header, contents, []⟩ (some Id.cms.AttributeCertificateV1) { implicit := some (2, 1) } none =
        .ok (.node Id.cms.AttributeCertificateV1 { cls := 2, method := 1, tag := 1, implicit := true, header := some header, contents := some contents } none false) := by
      kernel_rfl
    have hv' : certValidate (env K) (ops (env K) (j + 2)) none certAlts 2 1 contents = .ok 2 := hv
    have ha : certAlts[2]? = some ⟨"v1_attr_cert", Id.cms.AttributeCertificateV1, { implicit := some (2, 1) }⟩ := rfl
    simp only [loadCertificateChoices, hp, buildCertificateChoices, cert_choices, bind, Except.bind, hv', parseBuild, hw, ha, hb2]
    simp [TLV.bytes, Info.tlv]

/-- Contents of an attribute certificate that begin with `ac_info`, the first element of which is `e`. -/
def aroundTLV (e : TLV) : TLV := ⟨2, 1, 1, [0xa1, UInt8.ofNat (e.bytes.length + 4)], [0x30, UInt8.ofNat e.bytes.length] ++ e.bytes ++ [5, 0], []⟩

theorem around_short {e : TLV} (hb : Ber 11 e) (hl : e.bytes.length < 100) :
    V1Around (aroundTLV e) ⟨0, 1, 16, [0x30, UInt8.ofNat e.bytes.length], e.bytes, []⟩ [e] := by
  have h1 : ([0x30, UInt8.ofNat e.bytes.length] ++ e.bytes ++ [5, 0]).length = e.bytes.length + 4 := by simp
  refine ⟨?_, rfl, rfl, ?_, rfl, rfl, rfl, ⟨[5, 0], by simp [aroundTLV, TLV.bytes]⟩, by simp, by simpa using hb⟩
  · have := ber_short (n := 10) (cl := 2) (m := 1) (tg := 1) (cs := [0x30, UInt8.ofNat e.bytes.length] ++ e.bytes ++ [5, 0]) (by omega) (by omega) (by omega) (by omega)
    rw [h1] at this
    exact this
  · exact ber_short (cs := e.bytes) (by omega) (by omega) (by omega) (by omega)

/-- Non-vacuity: the version 0 written out. -/
example : V1Around (aroundTLV ⟨0, 0, 2, [2, 1], [0], []⟩) ⟨0, 1, 16, [0x30, 3], [2, 1, 0], []⟩ [⟨0, 0, 2, [2, 1], [0], []⟩] ∧
    IsNumber ⟨0, 0, 2, [2, 1], [0], []⟩ 0 ∧ (aroundTLV ⟨0, 0, 2, [2, 1], [0], []⟩).bytes = [0xa1, 7, 0x30, 3, 2, 1, 0, 5, 0] :=
  ⟨around_short (ber_short (cs := [0]) (by omega) (by omega) (by omega) (by simp)) (by decide), ⟨rfl, rfl, rfl, ⟨2, 1, rfl, by decide⟩, by decide⟩, by decide⟩

/-- **The property fails for attribute certificates of version 1 encoded as DER prescribes.** The version is then left out, because it is the default, and the
first element is the subject. No such certificate is loaded. -/
theorem C63_v1_fails (K : Codecs) (j : Nat) {t s e : TLV} {es : List TLV} {rest : Bytes} {strict : Bool} (h : V1Around t s (e :: es))
    (h1 : e.cls = 2) (h2 : e.tag = 0 ∨ e.tag = 1) (hr : strict = true → rest = []) :
    loadCertificateChoices (env K) (ops (env K) (j + 2)) (t.bytes ++ rest) strict = .error .valueError := by
  obtain ⟨hb, g2, g3, g4, g5, g6, g7, ⟨more, g8⟩, g9⟩ := h
  have hv := version_context K j (more := more) g4 g5 g6 g7 g9 h1 h2
  rw [← g8] at hv
  obtain ⟨i, rfl, hp⟩ := parse_front hb strict hr
  have g2 : i.cls = 2 := g2
  have g3 : i.tag = 1 := g3
  have hv : certVersion (env K) (ops (env K) (j + 2)) i.contents = .error .valueError := hv
  simp only [loadCertificateChoices, hp, buildCertificateChoices, cert_choices, bind, Except.bind, certValidate, cert_find, g2, g3]
  simp only [hv]
  rfl

/-- Non-vacuity: the subject `[1]` with a name in it. -/
example : V1Around (aroundTLV ⟨2, 1, 1, [0xa1, 2], [0x30, 0], []⟩) ⟨0, 1, 16, [0x30, 4], [0xa1, 2, 0x30, 0], []⟩ [⟨2, 1, 1, [0xa1, 2], [0x30, 0], []⟩] :=
  around_short (ber_short (cs := [0x30, 0]) (by omega) (by omega) (by omega) (by simp)) (by decide)

/-- The value of an attribute certificate of version 2 with the identifier and length octets `header`. -/
def v2Loaded (header contents : Bytes) : Val :=
  .choice Id.cms.CertificateChoices { cls := 0, method := 0, tag := 0, header := some [], contents := some (header ++ contents) } (some 3)
    (some (.node Id.cms.AttributeCertificateV2
      { cls := 2, method := 1, tag := 2, implicit := true, header := some header, contents := some contents } none false))

/-- The repair that the comment in the code promises: a certificate of version 2 with the tag of version 1 is loaded as the alternative of version 2, and
what is loaded differs from what is loaded from the certificate `t'` with the right tag only in the identifier and length octets, which are kept. -/
theorem C63_repair_partial (K : Codecs) (j : Nat) {t t' s e : TLV} {es : List TLV} {rest : Bytes} {strict : Bool} (h : V1Around t s (e :: es))
    (hn : IsNumber e 1) (hr : strict = true → rest = []) (hm : t.method = 1) (ht : t.trailer = [])
    (h' : Ber 11 t') (h2 : t'.cls = 2) (h3 : t'.method = 1) (h4 : t'.tag = 2) (h5 : t'.contents = t.contents) (h6 : t'.trailer = []) :
    loadCertificateChoices (env K) (ops (env K) (j + 2)) (t.bytes ++ rest) strict = .ok (v2Loaded t.header t.contents) ∧
    loadCertificateChoices (env K) (ops (env K) (j + 2)) (t'.bytes ++ rest) strict = .ok (v2Loaded t'.header t.contents) := by
  have ha : certAlts[3]? = some ⟨"v2_attr_cert", Id.cms.AttributeCertificateV2, { implicit := some (2, 2) }⟩ := rfl
  have hv := around_validate K j h hn
  obtain ⟨hb, g2, g3, -⟩ := h
  rw [if_pos rfl] at hv
  have hw : ∀ {tag : Nat} {header contents : Bytes}, Ber 11 ⟨2, 1, tag, header, contents, []⟩ →
      parse (header ++ contents) = .ok ⟨2, 1, tag, header, contents, []⟩ := by
    intro tag header contents hb
    obtain ⟨i', h1, h2⟩ := parse_front (rest := []) hb false (by simp)
    rw [List.append_nil] at h2
    have : i' = ⟨2, 1, tag, header, contents, []⟩ := by
      obtain ⟨_, _, _, _, _, _⟩ := i'
      cases h1
      rfl
    rw [this] at h2
    rw [← h2]
    simp [TLV.bytes]
  constructor
  · obtain ⟨i, rfl, hp⟩ := parse_front hb strict hr
    obtain ⟨cls, method, tag, header, contents, trailer⟩ := i
    cases g2; cases g3; cases hm; cases ht
    have hv' : certValidate (env K) (ops (env K) (j + 2)) none certAlts 2 1 contents = .ok 3 := hv
    have hb2 : (ops (env K) (j + 2)).build ⟨2, 1, 1, header, contents, []⟩ (some Id.cms.AttributeCertificateV2) { implicit := some (2, 2) } none =
        .ok (.node Id.cms.AttributeCertificateV2 { cls := 2, method := 1, tag := 2, implicit := true, header := some header, contents := some contents } none false) := by
      kernel_rfl
    simp only [loadCertificateChoices, hp, buildCertificateChoices, cert_choices, bind, Except.bind, hv', parseBuild, hw hb, ha, hb2]
    rfl
  · obtain ⟨i, rfl, hp⟩ := parse_front h' strict hr
    obtain ⟨cls, method, tag, header, contents, trailer⟩ := i
    cases h2; cases h3; cases h4; cases h6
    have h5 : contents = t.contents := h5
    rw [← h5]
    have hv' : certValidate (env K) (ops (env K) (j + 2)) none certAlts 2 2 contents = .ok 3 := by
      simp only [certValidate, cert_find, bind, Except.bind]
      rfl
    have hb2 : (ops (env K) (j + 2)).build ⟨2, 1, 2, header, contents, []⟩ (some Id.cms.AttributeCertificateV2) { implicit := some (2, 2) } none =
        .ok (.node Id.cms.AttributeCertificateV2 { cls := 2, method := 1, tag := 2, implicit := true, header := some header, contents := some contents } none false) := by
      kernel_rfl
    simp only [loadCertificateChoices, hp, buildCertificateChoices, cert_choices, bind, Except.bind, hv', parseBuild, hw h', ha, hb2]
    rfl

/-- Non-vacuity: the version 1, which means `v2`. -/
example : V1Around (aroundTLV ⟨0, 0, 2, [2, 1], [1], []⟩) ⟨0, 1, 16, [0x30, 3], [2, 1, 1], []⟩ [⟨0, 0, 2, [2, 1], [1], []⟩] ∧
    IsNumber ⟨0, 0, 2, [2, 1], [1], []⟩ 1 ∧ Ber 11 ⟨2, 1, 2, [0xa2, 7], [0x30, 3, 2, 1, 1, 5, 0], []⟩ ∧
    (aroundTLV ⟨0, 0, 2, [2, 1], [1], []⟩).contents = [0x30, 3, 2, 1, 1, 5, 0] :=
  ⟨around_short (ber_short (cs := [1]) (by omega) (by omega) (by omega) (by simp)) (by decide), ⟨rfl, rfl, rfl, ⟨2, 1, rfl, by decide⟩, by decide⟩,
    ber_short (cs := [0x30, 3, 2, 1, 1, 5, 0]) (by omega) (by omega) (by omega) (by simp), by decide⟩

end Asn1.Props
