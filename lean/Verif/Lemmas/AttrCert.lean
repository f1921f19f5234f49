import Verif.Lemmas.Elements
import Verif.Lemmas.EncLoad
import Verif.Lemmas.KernelRfl
import Verif.Model.AttrCert
import Verif.Props.C03
import Verif.Lemmas.Num
import Verif.Lemmas.Pending
import Verif.Lemmas.Schema

/-!
# Lemmas about `CertificateChoices.validate`
-/

namespace Asn1.Props
open Asn1 Spec Pkg

/-- The alternatives. -/
def certAlts : List Field :=
    [⟨"certificate", Id.x509.Certificate, {}⟩, ⟨"extended_certificate", Id.cms.ExtendedCertificate, { implicit := some (2, 0) }⟩,
     ⟨"v1_attr_cert", Id.cms.AttributeCertificateV1, { implicit := some (2, 1) }⟩,
     ⟨"v2_attr_cert", Id.cms.AttributeCertificateV2, { implicit := some (2, 2) }⟩,
     ⟨"other", Id.cms.OtherCertificateFormat, { implicit := some (2, 3) }⟩]

theorem cert_choices (K : Codecs) : (env K).cls Id.cms.CertificateChoices = .choice [] none certAlts := by kernel_rfl

theorem cert_reverse (K : Codecs) : certAlts.zipIdx.reverse.map (fun a => (fieldIdent (env K) a.1, a.2)) =
    [(some (2, 3), 4), (some (2, 2), 3), (some (2, 1), 2), (some (2, 0), 1), (some (0, 16), 0)] := by kernel_rfl

theorem cert_find (K : Codecs) (cls tag : Nat) (contents : Bytes) :
    choiceValidate (env K) [] none certAlts cls tag contents =
    if (cls, tag) = (2, 3) then .ok 4 else if (cls, tag) = (2, 2) then .ok 3 else if (cls, tag) = (2, 1) then .ok 2 
    else if (cls, tag) = (2, 0) then .ok 1 else if (cls, tag) = (0, 16) then .ok 0 else .error .valueError := by 
  have h := cert_reverse K
  have he : choiceMismatch (env K) certAlts = .valueError := by kernel_rfl
  simp only [certAlts, List.zipIdx, List.reverse, List.reverseAux, List.map, List.cons.injEq, Prod.mk.injEq, and_true] at h
  obtain ⟨h1, h2, h3, h4, h5⟩ := h
  simp only [choiceValidate, he, List.getLast?_nil, bind, Except.bind]
  simp only [certAlts, List.zipIdx, List.reverse, List.reverseAux, List.find?, h1, h2, h3, h4, h5]
  have hb : ∀ a b : Nat × Nat, (some a == some b) = decide (b = a) := by
    intro a b
    by_cases hab : b = a
    · subst hab; simp
    · have : ¬ a = b := fun h => hab h.symm
      simp [hab, this]
  simp only [hb]
  by_cases g1 : (cls, tag) = (2, 3)
  · simp [g1]
  by_cases g2 : (cls, tag) = (2, 2)
  · simp [g2]
  by_cases g3 : (cls, tag) = (2, 1)
  · simp [g3]
  by_cases g4 : (cls, tag) = (2, 0)
  · simp [g4]
  by_cases g5 : (cls, tag) = (0, 16)
  · simp [g5]
  simp only [g1, g2, g3, g4, g5, decide_false, if_false]

theorem cert_plain (K : Codecs) (j : Nat) (i : Info) :
    (ops (env K) (j + 1)).build i (some Id.cms.CertificateChoices) {} none = buildChoiceBase (env K) (ops (env K) j) Id.cms.CertificateChoices i := by
  rw [ops_build]
  simp only [buildStep, buildPlain, cert_choices]
  simp [choiceExplicit, buildChoice, bind, Except.bind]
  cases buildChoiceBase (env K) (ops (env K) j) Id.cms.CertificateChoices i <;> rfl

theorem cert_same (K : Codecs) (j : Nat) (i : Info) (h : certValidate (env K) (ops (env K) j) none certAlts i.cls i.tag i.contents =
      choiceValidate (env K) [] none certAlts i.cls i.tag i.contents) :
    buildCertificateChoices (env K) (ops (env K) j) i = buildChoiceBase (env K) (ops (env K) j) Id.cms.CertificateChoices i := by
  simp only [buildCertificateChoices, buildChoiceBase, cert_choices, h]
  rfl

theorem cert_load (K : Codecs) (j : Nat) (data : Bytes) (strict : Bool) (h : ∀ i, parse data strict = .ok i →
      certValidate (env K) (ops (env K) j) none certAlts i.cls i.tag i.contents = choiceValidate (env K) [] none certAlts i.cls i.tag i.contents) :
    loadCertificateChoices (env K) (ops (env K) j) data strict = loadVal (env K) (ops (env K) (j + 1)) Id.cms.CertificateChoices {} data strict := by
  simp only [loadCertificateChoices, loadVal, bind, Except.bind]
  cases hp : parse data strict with
  | error e => rfl
  | ok i =>
    simp only [cert_choices, cert_plain]
    exact cert_same K j i (h i hp)

/-- The first element of a SEQUENCE that is read without a definition. -/
theorem seq_first (K : Codecs) (j : Nat) {s e : TLV} {es : List TLV} {more : Bytes} (hs : Ber 11 s) (h1 : s.cls = 0) (h2 : s.method = 1) (h3 : s.tag = 16)
    (hc : Elements s.contents (e :: es)) : ∃ (v : Val) (w : Val → Val), loadVal (env K) (ops (env K) (j + 2)) Id.core.Sequence {} (s.bytes ++ more) = .ok v ∧
      (ops (env K) (j + 2)).item v 0 = (buildFree (env K) ⟨e.cls, e.method, e.tag, e.header, e.contents, e.trailer⟩).map (fun x => (x, w x)) := by
  obtain ⟨i, rfl, hp⟩ := parse_front (rest := more) hs false (by simp)
  have hE : (env K).cls Id.core.Sequence = .seq { cls := 0, method := 1, tag := 16 } [] false [] none := by kernel_rfl
  obtain ⟨cls, method, tag, header, contents, trailer⟩ := i
  cases h1; cases h2; cases h3
  let infos : List Info := (e :: es).map (fun e => ⟨e.cls, e.method, e.tag, e.header, e.contents, e.trailer⟩)
  have hi : infos.map Info.tlv = e :: es := by simp [infos, Info.tlv, Function.comp_def]
  have hfold : ∀ (is : List Info) (cs : List Child), is.foldlM (fun (s : List Field × List Child) i => placeElement (env K) (ops (env K) (j + 1)) [] none i s.1 s.2) ([], cs) =
      .ok ([], cs ++ is.map (fun i => .lazy i none none)) := by
    intro is
    induction is with
    | nil => intro cs; simp; rfl
    | cons a as ih => intro cs; rw [List.foldlM_cons]; simp only [placeElement, bind, Except.bind]; rw [ih]; simp
  have hk : parseSeq (env K) (ops (env K) (j + 1)) [] none (some contents) = .ok (infos.map (fun i => .lazy i none none)) := by
    simp only [parseSeq, seqLoop_eq]
    rw [elemLoop_elements _ contents infos _ 0 _ (Nat.zero_le _) (by omega) (by rw [hi]; exact hc), hfold]
    simp [bind, Except.bind, fillAbsent]
  refine ⟨.node Id.core.Sequence { cls := 0, method := 1, tag := 16, header := some header, contents := some contents, trailer := trailer } none false,
    fun x => .node Id.core.Sequence { cls := 0, method := 1, tag := 16, header := some header, contents := some contents, trailer := trailer }
      (some ((infos.map (fun i => Child.lazy i none none)).set 0 (.val x))) false, ?_, ?_⟩
  · simp only [loadVal, hp, bind, Except.bind, hE]
    rw [ops_build]
    simp only [buildStep, buildPlain, hE, bind, Except.bind]
    rfl
  · rw [ops_item]
    simp only [getItem, ensureChildren, parseChildren, hE, hk, bind, Except.bind]
    have h0 : (List.map (fun i => Child.lazy i none none) infos)[0]? = some (Child.lazy ⟨e.cls, e.method, e.tag, e.header, e.contents, e.trailer⟩ none none) := rfl
    simp only [h0, buildChild, ops_build, buildStep, buildPlain, paramsAt]
    cases buildFree (env K) ⟨e.cls, e.method, e.tag, e.header, e.contents, e.trailer⟩ <;> rfl

theorem version_refused (K : Codecs) (j : Nat) (i : Info) (h : i.cls = 2) :
    (ops (env K) (j + 1)).build i (some Id.cms.AttCertVersion) {} none = .error .valueError := by
  obtain ⟨cls, method, tag, header, contents, trailer⟩ := i
  cases h
  kernel_rfl

/-- The version is refused when the element has the class of context tags. -/
theorem version_class (K : Codecs) (j : Nat) {t : TLV} (hb : Ber 11 t) (hc : t.cls = 2) :
    loadVal (env K) (ops (env K) (j + 1)) Id.cms.AttCertVersion {} t.bytes = .error .valueError := by
  obtain ⟨i, rfl, hp⟩ := parse_front (rest := []) hb false (by simp)
  rw [List.append_nil] at hp
  have hE : (env K).cls Id.cms.AttCertVersion = .leaf (.integer (some [(0, "v1"), (1, "v2")]) { cls := 0, method := 0, tag := 2 }) [] := by kernel_rfl
  simp only [loadVal, hp, bind, Except.bind, hE]
  exact version_refused K j i hc

theorem ber_method {n : Nat} {t : TLV} (h : Ber n t) : t.method = 0 ∨ t.method = 1 := by
  cases h with
  | definite hi _ => have := hi.2.1; simp only; omega
  | indefinite _ _ _ _ => exact .inr rfl

/-- What is written for a BOOLEAN with the class of context tags has that class. -/
theorem bool_dumped {method : Nat} {header contents trailer : Bytes} {b : Bool} (hb : Ber 11 ⟨2, method, 1, header, contents, trailer⟩) :
    ∃ t x, Ber 11 t ∧ t.cls = 2 ∧ (LeafSt.boolean
      { cls := 2, method := method, tag := 1, header := some header, contents := some contents, trailer := trailer, indefinite := b }).dump false = .ok (t.bytes, x) := by
  cases h80 : headerEnds80 (some header) with
  | false =>
    refine ⟨_, .boolean { cls := 2, method := method, tag := 1, header := some header, contents := some contents, trailer := trailer, indefinite := b }, hb, rfl, ?_⟩
    simp only [LeafSt.dump, Boolean.dump, primDump, Bool.false_or, bind, Except.bind, h80, asn1Dump, if_neg Bool.false_ne_true, pure, Except.pure]
    rfl
  | true =>
    have hm : method = 0 ∨ method = 1 := ber_method hb
    have hk : ∀ b : UInt8, Ber 11 ⟨2, 0, 1, [0x81, 1], [b], []⟩ ∧ Ber 11 ⟨2, 1, 1, [0xa1, 1], [b], []⟩ := by
      intro b
      exact ⟨ber_short (cs := [b]) (by omega) (by omega) (by omega) (by simp), ber_short (cs := [b]) (by omega) (by omega) (by omega) (by simp)⟩
    simp only [LeafSt.dump, Boolean.dump, primDump, Bool.false_or, bind, Except.bind, h80, if_true, Boolean.native, Boolean.set]
    rcases hm with hm | hm <;> subst hm <;> cases decide (contents ≠ [0])
    · exact ⟨_, .boolean { cls := 2, method := 0, tag := 1, header := some [0x81, 1], contents := some [0], native := some false, indefinite := b }, (hk 0).1, rfl, by kernel_rfl⟩
    · exact ⟨_, .boolean { cls := 2, method := 0, tag := 1, header := some [0x81, 1], contents := some [0xff], native := some true, indefinite := b }, (hk 0xff).1, rfl, by kernel_rfl⟩
    · exact ⟨_, .boolean { cls := 2, method := 1, tag := 1, header := some [0xa1, 1], contents := some [0], native := some false, indefinite := b }, (hk 0).2, rfl, by kernel_rfl⟩
    · exact ⟨_, .boolean { cls := 2, method := 1, tag := 1, header := some [0xa1, 1], contents := some [0xff], native := some true, indefinite := b }, (hk 0xff).2, rfl, by kernel_rfl⟩

/-- A first element with the tag [0] or [1]. -/
theorem version_context (K : Codecs) (j : Nat) {s e : TLV} {es : List TLV} {more : Bytes} (hs : Ber 11 s) (h1 : s.cls = 0) (h2 : s.method = 1) (h3 : s.tag = 16)
    (hc : Elements s.contents (e :: es)) (h4 : e.cls = 2) (h5 : e.tag = 0 ∨ e.tag = 1) :
    certVersion (env K) (ops (env K) (j + 2)) (s.bytes ++ more) = .error .valueError := by
  obtain ⟨v, w, e1, e2⟩ := seq_first K j (more := more) hs h1 h2 h3 hc
  simp only [certVersion, e1, e2, bind, Except.bind]
  have hb : Ber 11 e := hc.2 e (by simp)
  obtain ⟨cls, method, tag, header, contents, trailer⟩ := e
  cases h4
  rcases h5 with h5 | h5
  · cases h5
    have : buildFree (env K) ⟨2, method, 0, header, contents, trailer⟩ = .error .valueError := by kernel_rfl
    simp only [this]
    rfl
  · cases h5
    have hf : buildFree (env K) ⟨2, method, 1, header, contents, trailer⟩ = .ok (.leaf Id.core.Boolean (.boolean
      { cls := 2, method := method, tag := 1, header := some header, contents := some contents, trailer := trailer,
        indefinite := (false || (method == 1 && (0 : Nat) == 0 && trailer == [0, 0] && false)) })) := by kernel_rfl
    simp only [hf, Except.map]
    rw [ops_dump]
    obtain ⟨t, x, d1, d2, d3⟩ := bool_dumped hb (b := (false || (method == 1 && (0 : Nat) == 0 && trailer == [0, 0] && false)))
    simp only [dumpStep, d3, bind, Except.bind, version_class K (j + 1) d1 d2]

/-- A short first element with the tag of INTEGER. -/
theorem version_number (K : Codecs) (j : Nat) {s e : TLV} {es : List TLV} {more : Bytes} (hs : Ber 11 s) (h1 : s.cls = 0) (h2 : s.method = 1) (h3 : s.tag = 16)
    (hc : Elements s.contents (e :: es)) (h4 : e.cls = 0) (h5 : e.method = 0) (h6 : e.tag = 2) (h7 : headerEnds80 (some e.header) = false) :
    certVersion (env K) (ops (env K) (j + 2)) (s.bytes ++ more) =
      .ok (.scalar (if valS e.contents = 0 then .str "v1".toList else if valS e.contents = 1 then .str "v2".toList else .int (valS e.contents))) := by
  obtain ⟨v, w, e1, e2⟩ := seq_first K j (more := more) hs h1 h2 h3 hc
  simp only [certVersion, e1, e2, bind, Except.bind]
  have hb : Ber 11 e := hc.2 e (by simp)
  obtain ⟨cls, method, tag, header, contents, trailer⟩ := e
  cases h4; cases h5; cases h6
  have hf : buildFree (env K) ⟨0, 0, 2, header, contents, trailer⟩ = .ok (.leaf Id.core.Integer (.integer none
    { cls := 0, method := 0, tag := 2, header := some header, contents := some contents, trailer := trailer,
      indefinite := (false || ((0 : Nat) == 1 && (0 : Nat) == 0 && trailer == [0, 0] && false)) })) := by kernel_rfl
  simp only [hf, Except.map]
  rw [ops_dump]
  have h8 : headerEnds80 (some header) = false := h7
  simp only [dumpStep, LeafSt.dump, Integer.dump, primDump, Bool.false_or, bind, Except.bind, h8, asn1Dump, Bool.or_self, if_neg Bool.false_ne_true, pure, Except.pure]
  obtain ⟨i, hi, hp⟩ := parse_front (rest := []) hb false (by simp)
  rw [List.append_nil] at hp
  have hi : i = ⟨0, 0, 2, header, contents, trailer⟩ := by
    obtain ⟨_, _, _, _, _, _⟩ := i
    cases hi
    rfl
  subst hi
  have hE : (env K).cls Id.cms.AttCertVersion = .leaf (.integer (some [(0, "v1"), (1, "v2")]) { cls := 0, method := 0, tag := 2 }) [] := by kernel_rfl
  rw [show TLV.bytes ⟨0, 0, 2, header, contents, trailer⟩ = header ++ contents ++ trailer from rfl] at hp
  have hl : loadVal (env K) (ops (env K) (j + 2)) Id.cms.AttCertVersion {} (header ++ contents ++ trailer) = .ok (.leaf Id.cms.AttCertVersion
      (.integer (some [(0, "v1"), (1, "v2")]) { cls := 0, method := 0, tag := 2, header := some header, contents := some contents, trailer := trailer })) := by
    simp only [loadVal, hp, bind, Except.bind, hE]
    kernel_rfl
  simp only [hl]
  rw [ops_native]
  simp only [nativeStep, LeafSt.native, Integer.native, bind, Except.bind, pure, Except.pure, intFromBytes_signed, IntMap.get]
  by_cases g0 : valS contents = 0
  · rw [if_pos g0, g0]; rfl
  by_cases g1 : valS contents = 1
  · rw [if_neg g0, if_pos g1, g1]; rfl
  have d0 : ((0 : Int) == valS contents) = false := beq_false_of_ne (fun h => g0 h.symm)
  have d1 : ((1 : Int) == valS contents) = false := beq_false_of_ne (fun h => g1 h.symm)
  simp [g0, g1, List.find?, d0, d1, LeafSt.optScalar, LeafSt.ofIntNative]

end Asn1.Props
