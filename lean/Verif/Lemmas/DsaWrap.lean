import Verif.Props.C55
import Verif.Props.C07
import Verif.Spec.DsaWrap

/-! # The steps of wrapping a DSA key -/

namespace Asn1.Props
open Asn1 Asn1.Spec Pkg

variable (K : Codecs)

/-- The integer loaded from an element with these octets, and perhaps read. -/
def dsaInt (h c : Bytes) (n : Option IntNative) : Val :=
  .leaf Id.core.Integer (.integer none { cls := 0, method := 0, tag := 2, header := some h, contents := some c, trailer := [], native := n })

/-- The value kept is the one of the octets. -/
def Kept (c : Bytes) (n : Option IntNative) : Prop := n = none ∨ n = some (.int (valS c))

/-- What is read of an element with these octets. -/
def dsaInfo (h c : Bytes) : Info := ⟨0, 0, 2, h, c, []⟩

theorem int_shape {t : TLV} (h : IntElement t) : ∃ hd c, t = ⟨0, 0, 2, hd, c, []⟩ := by
  obtain ⟨⟨_, _, _, _, _, h5⟩, h1, h2, h3, _⟩ := h
  obtain ⟨a, b, d, hd, c, tr⟩ := t
  simp only at h1 h2 h3 h5
  subst h1 h2 h3 h5
  exact ⟨hd, c, rfl⟩

theorem int_again {h c : Bytes} (o : Obj IntNative) (hd : IntElement ⟨0, 0, 2, h, c, []⟩) :
    Integer.set none o (.int (valS c)) = .ok { o with native := some (.int (valS c)), contents := some c, header := none, trailer := [] } := by
  obtain ⟨_, _, _, _, h1, h2⟩ := hd
  obtain ⟨o', c', e1, e2, _, e3, e4, e5⟩ := C07_set_native o (valS c)
  have hl := h2 c' e3 e4
  obtain ⟨g1, g2⟩ := e5 c h1 rfl
  have := g2 (Nat.le_antisymm hl g1)
  subst this
  simp only [Integer.set, Integer.setInt, bind, Except.bind] at e1 ⊢
  cases hb : intToBytes (valS c) true with
  | error e => rw [hb] at e1; cases e1
  | ok b =>
    rw [hb] at e1
    cases e1
    cases e2
    rfl

/-- An integer with a DER header is written as it was read. -/
theorem int_dump (j : Nat) {h c : Bytes} (hd : IntElement ⟨0, 0, 2, h, c, []⟩) {n : Option IntNative} (hn : Kept c n) :
    ∃ m, Kept c m ∧ (ops (env K) (j + 1)).dump (dsaInt h c n) false = .ok (h ++ c, dsaInt h c m) := by
  have hh := derHead_dumpHeader hd.1
  simp only at hh
  cases h80 : headerEnds80 (some h) with
  | false =>
    refine ⟨n, hn, ?_⟩
    rw [ops_dump]
    simp [dumpStep, dsaInt, LeafSt.dump, Integer.dump, primDump, asn1Dump, bind, Except.bind, pure, Except.pure, h80]
  | true =>
    refine ⟨some (.int (valS c)), .inr rfl, ?_⟩
    have hr : Integer.native none { cls := 0, method := 0, tag := 2, header := some h, contents := some c, trailer := [], native := n } =
        .ok (some (.int (valS c)), { cls := 0, method := 0, tag := 2, header := some h, contents := some c, trailer := [], native := some (.int (valS c)) }) := by
      rcases hn with rfl | rfl
      · simp [Integer.native, intFromBytes_signed]
      · rfl
    rw [ops_dump]
    simp only [dumpStep, dsaInt, LeafSt.dump, Integer.dump, primDump, bind, Except.bind, pure, Except.pure, h80, Bool.false_or, if_true, hr, int_again _ hd, asn1Dump,
      headerEnds80_none, Bool.or_false, hh, wrapExplicit, Bool.false_and, Bool.false_eq_true, if_false, List.append_nil]

theorem int_build (j : Nat) (h c : Bytes) : (ops (env K) (j + 20)).build (dsaInfo h c) (some Id.core.Integer) {} none = .ok (dsaInt h c none) := by kernel_rfl

/-! ### The parts of the key -/

/-- The instance of the key, with what has been read of it. -/
def dsaNode (h c t : Bytes) (cs : Option (List Child)) : Val :=
  .node Id.keys.DSAPrivateKey { cls := 0, method := 1, tag := 16, header := some h, contents := some c, trailer := t } cs false

theorem dsa_children (j : Nat) {h c : Fin 6 → Bytes} (hi : ∀ i, IntElement ⟨0, 0, 2, h i, c i, []⟩) :
    parseSeq (env K) (ops (env K) (j + 20)) (shapeFields keys.DSAPrivateKey) none (some (h 0 ++ c 0 ++ (h 1 ++ c 1 ++ (h 2 ++ c 2 ++ (h 3 ++ c 3 ++ (h 4 ++ c 4 ++ (h 5 ++ c 5))))))) =
      .ok [.lazy (dsaInfo (h 0) (c 0)) (some Id.core.Integer) none, .lazy (dsaInfo (h 1) (c 1)) (some Id.core.Integer) none,
        .lazy (dsaInfo (h 2) (c 2)) (some Id.core.Integer) none, .lazy (dsaInfo (h 3) (c 3)) (some Id.core.Integer) none,
        .lazy (dsaInfo (h 4) (c 4)) (some Id.core.Integer) none, .lazy (dsaInfo (h 5) (c 5)) (some Id.core.Integer) none] := by
  have hE : Elements (h 0 ++ c 0 ++ (h 1 ++ c 1 ++ (h 2 ++ c 2 ++ (h 3 ++ c 3 ++ (h 4 ++ c 4 ++ (h 5 ++ c 5))))))
      ([dsaInfo (h 0) (c 0), dsaInfo (h 1) (c 1), dsaInfo (h 2) (c 2), dsaInfo (h 3) (c 3), dsaInfo (h 4) (c 4), dsaInfo (h 5) (c 5)].map Info.tlv) := by
    refine ⟨by simp [dsaInfo, Info.tlv, TLV.bytes], ?_⟩
    intro v hv
    simp only [List.map_cons, List.map_nil, List.mem_cons, List.not_mem_nil, or_false] at hv
    rcases hv with rfl | rfl | rfl | rfl | rfl | rfl
    · exact derHead_ber (hi 0).1
    · exact derHead_ber (hi 1).1
    · exact derHead_ber (hi 2).1
    · exact derHead_ber (hi 3).1
    · exact derHead_ber (hi 4).1
    · exact derHead_ber (hi 5).1
  generalize h 0 ++ c 0 ++ (h 1 ++ c 1 ++ (h 2 ++ c 2 ++ (h 3 ++ c 3 ++ (h 4 ++ c 4 ++ (h 5 ++ c 5))))) = data at hE ⊢
  have hl := elemLoop_elements (fun s i => placeElement (env K) (ops (env K) (j + 20)) (shapeFields keys.DSAPrivateKey) none i s.1 s.2) data
    [dsaInfo (h 0) (c 0), dsaInfo (h 1) (c 1), dsaInfo (h 2) (c 2), dsaInfo (h 3) (c 3), dsaInfo (h 4) (c 4), dsaInfo (h 5) (c 5)]
    (data.length + 1) 0 (shapeFields keys.DSAPrivateKey, []) (by omega) (by omega) hE
  rw [← seqLoop_eq] at hl
  have hf : ([dsaInfo (h 0) (c 0), dsaInfo (h 1) (c 1), dsaInfo (h 2) (c 2), dsaInfo (h 3) (c 3), dsaInfo (h 4) (c 4), dsaInfo (h 5) (c 5)].foldlM
      (fun s i => placeElement (env K) (ops (env K) (j + 20)) (shapeFields keys.DSAPrivateKey) none i s.1 s.2) (shapeFields keys.DSAPrivateKey, ([] : List Child))).bind
      (fun s => fillAbsent (ops (env K) (j + 20)) s.1 s.2) =
      .ok [.lazy (dsaInfo (h 0) (c 0)) (some Id.core.Integer) none, .lazy (dsaInfo (h 1) (c 1)) (some Id.core.Integer) none,
        .lazy (dsaInfo (h 2) (c 2)) (some Id.core.Integer) none, .lazy (dsaInfo (h 3) (c 3)) (some Id.core.Integer) none,
        .lazy (dsaInfo (h 4) (c 4)) (some Id.core.Integer) none, .lazy (dsaInfo (h 5) (c 5)) (some Id.core.Integer) none] := by kernel_rfl
  rw [← hl] at hf
  exact hf

theorem dsa_first (j : Nat) {h c : Fin 6 → Bytes} (hi : ∀ i, IntElement ⟨0, 0, 2, h i, c i, []⟩) {hd tr : Bytes} :
    Asn1.getItem (env K) (ops (env K) (j + 20)) (dsaNode hd (h 0 ++ c 0 ++ (h 1 ++ c 1 ++ (h 2 ++ c 2 ++ (h 3 ++ c 3 ++ (h 4 ++ c 4 ++ (h 5 ++ c 5)))))) tr none) 1 =
      Asn1.getItem (env K) (ops (env K) (j + 20)) (dsaNode hd (h 0 ++ c 0 ++ (h 1 ++ c 1 ++ (h 2 ++ c 2 ++ (h 3 ++ c 3 ++ (h 4 ++ c 4 ++ (h 5 ++ c 5)))))) tr
        (some [.lazy (dsaInfo (h 0) (c 0)) (some Id.core.Integer) none, .lazy (dsaInfo (h 1) (c 1)) (some Id.core.Integer) none,
        .lazy (dsaInfo (h 2) (c 2)) (some Id.core.Integer) none, .lazy (dsaInfo (h 3) (c 3)) (some Id.core.Integer) none,
        .lazy (dsaInfo (h 4) (c 4)) (some Id.core.Integer) none, .lazy (dsaInfo (h 5) (c 5)) (some Id.core.Integer) none])) 1 := by
  have hc : (env K).cls Id.keys.DSAPrivateKey = .seq { cls := 0, method := 1, tag := 16 } [] false (shapeFields keys.DSAPrivateKey) none := rfl
  unfold Asn1.getItem
  simp only [dsaNode, ensureChildren, parseChildren, hc, dsa_children K j hi, bind, Except.bind]

/-- `DSAParams()` with the three values. -/
def dsaParams (a b d : Val) : Val := .node Id.keys.DSAParams { cls := 0, method := 1, tag := 16 } (some [.val a, .val b, .val d]) true

theorem dsa_read (j : Nat) (h c : Fin 6 → Bytes) (hd data tr : Bytes) :
    dsaParts (env K) (ops (env K) (j + 20)) (dsaNode hd data tr (some [.lazy (dsaInfo (h 0) (c 0)) (some Id.core.Integer) none,
        .lazy (dsaInfo (h 1) (c 1)) (some Id.core.Integer) none,
        .lazy (dsaInfo (h 2) (c 2)) (some Id.core.Integer) none, .lazy (dsaInfo (h 3) (c 3)) (some Id.core.Integer) none,
        .lazy (dsaInfo (h 4) (c 4)) (some Id.core.Integer) none, .lazy (dsaInfo (h 5) (c 5)) (some Id.core.Integer) none])) =
      .ok (dsaParams (dsaInt (h 1) (c 1) none) (dsaInt (h 2) (c 2) none) (dsaInt (h 3) (c 3) none), dsaInt (h 4) (c 4) none, dsaInt (h 5) (c 5) none) := by
  kernel_rfl

theorem dsa_parts (j : Nat) {h c : Fin 6 → Bytes} (hi : ∀ i, IntElement ⟨0, 0, 2, h i, c i, []⟩) {hd tr : Bytes} :
    dsaParts (env K) (ops (env K) (j + 20)) (dsaNode hd (h 0 ++ c 0 ++ (h 1 ++ c 1 ++ (h 2 ++ c 2 ++ (h 3 ++ c 3 ++ (h 4 ++ c 4 ++ (h 5 ++ c 5)))))) tr none) =
      .ok (dsaParams (dsaInt (h 1) (c 1) none) (dsaInt (h 2) (c 2) none) (dsaInt (h 3) (c 3) none), dsaInt (h 4) (c 4) none, dsaInt (h 5) (c 5) none) := by
  have e := dsa_first K j hi (hd := hd) (tr := tr)
  rw [← dsa_read K j h c hd (h 0 ++ c 0 ++ (h 1 ++ c 1 ++ (h 2 ++ c 2 ++ (h 3 ++ c 3 ++ (h 4 ++ c 4 ++ (h 5 ++ c 5)))))) tr]
  unfold dsaParts
  rw [e]

/-! ### The algorithm identifier -/

/-- The identifier with the name alone. -/
def dsaNamed : Val :=
  valOf (((ops (env K) 20).construct Id.keys.PrivateKeyAlgorithm {} (.scalar .none)).bind (fun a =>
    ((ops (env K) 20).construct Id.keys.PrivateKeyAlgorithmId {} (.scalar (.str "dsa".toList))).bind (fun n => setAlgorithm (env K) (ops (env K) 20) a (.asn1 n))))

theorem dsa_named (j : Nat) : ((ops (env K) (j + 20)).construct Id.keys.PrivateKeyAlgorithm {} (.scalar .none)).bind (fun a =>
    ((ops (env K) (j + 20)).construct Id.keys.PrivateKeyAlgorithmId {} (.scalar (.str "dsa".toList))).bind (fun n =>
      setAlgorithm (env K) (ops (env K) (j + 20)) a (.asn1 n))) = .ok (dsaNamed K) := by kernel_rfl

/-- The name in it. -/
def dsaName : Child :=
  match dsaNamed K with
  | .node _ _ (some cs) _ => cs.getD 0 (.val .void)
  | _ => .val .void

/-- The identifier. -/
def dsaAlgo (o : Obj Unit) (n : Child) (P : Val) (m : Bool) : Val := .node Id.keys.PrivateKeyAlgorithm o (some [n, .val P]) m

theorem dsa_set (j : Nat) (x : PyVal) : setField (env K) (ops (env K) (j + 20)) (dsaNamed K) 1 x =
    (makeValue (env K) (ops (env K) (j + 20)) Id.core.Any Id.keys.DSAParams { optional := true } x).bind (fun nv =>
      (assignedContents (env K) (ops (env K) (j + 20)) nv).bind (fun p => match p.1 with
        | none => .error .valueError
        | some _ => .ok (dsaAlgo { cls := 0, method := 1, tag := 16 } (dsaName K) p.2 true))) := by
  kernel_rfl

/-- The parameters once their contents have been asked for, and once they have been written. -/
def dsaHeld (hd : Option Bytes) (ct : Bytes) (a b d : Val) : Val :=
  .node Id.keys.DSAParams { cls := 0, method := 1, tag := 16, header := hd, contents := some ct, trailer := [] } (some [.val a, .val b, .val d]) false

/-- Three integers. -/
def dsaThree (h c : Fin 6 → Bytes) : Bytes := h 1 ++ c 1 ++ (h 2 ++ c 2 ++ (h 3 ++ c 3))

/-- The parameters with integers of these octets. -/
def Three (h c : Fin 6 → Bytes) (a b d : Val) : Prop :=
  ∃ n1 n2 n3, Kept (c 1) n1 ∧ Kept (c 2) n2 ∧ Kept (c 3) n3 ∧ a = dsaInt (h 1) (c 1) n1 ∧ b = dsaInt (h 2) (c 2) n2 ∧ d = dsaInt (h 3) (c 3) n3

theorem params_contents (j : Nat) {h c : Fin 6 → Bytes} (hi : ∀ i, IntElement ⟨0, 0, 2, h i, c i, []⟩) {a b d : Val} (h3 : Three h c a b d) :
    ∃ a' b' d', Three h c a' b' d' ∧ (ops (env K) (j + 20)).contents (dsaParams a b d) = .ok (some (dsaThree h c), dsaHeld none (dsaThree h c) a' b' d') := by
  obtain ⟨n1, n2, n3, k1, k2, k3, rfl, rfl, rfl⟩ := h3
  obtain ⟨m1, l1, e1⟩ := int_dump K (j + 18) (hi 1) k1
  obtain ⟨m2, l2, e2⟩ := int_dump K (j + 18) (hi 2) k2
  obtain ⟨m3, l3, e3⟩ := int_dump K (j + 18) (hi 3) k3
  refine ⟨_, _, _, ⟨m1, m2, m3, l1, l2, l3, rfl, rfl, rfl⟩, ?_⟩
  have hc : (env K).cls Id.keys.DSAParams = .seq { cls := 0, method := 1, tag := 16 } [] false (shapeFields keys.DSAParams) none := rfl
  have hf : shapeFields keys.DSAParams = [⟨"p", Id.core.Integer, {}⟩, ⟨"q", Id.core.Integer, {}⟩, ⟨"g", Id.core.Integer, {}⟩] := rfl
  rw [ops_contents]
  simp only [contentsStep, dsaParams, nodeContents, Val.isMutated, Bool.true_or, if_true, setContents, ensureChildren, encodeChildren, hc, hf, encodeFields, fieldEncoding,
    bind, Except.bind, e1, e2, e3]
  simp [dsaHeld, dsaThree]

theorem params_made (j : Nat) (h c : Fin 6 → Bytes) (n1 n2 n3 : Option IntNative) :
    makeValue (env K) (ops (env K) (j + 20)) Id.core.Any Id.keys.DSAParams { optional := true } (.asn1 (dsaParams (dsaInt (h 1) (c 1) n1) (dsaInt (h 2) (c 2) n2) (dsaInt (h 3) (c 3) n3))) =
      .ok (dsaParams (dsaInt (h 1) (c 1) n1) (dsaInt (h 2) (c 2) n2) (dsaInt (h 3) (c 3) n3)) := by kernel_rfl

theorem dsaAlgorithm_eq (E : Env) (r : Ops) (P : Val) : dsaAlgorithm E r P =
    ((r.construct Id.keys.PrivateKeyAlgorithm {} (.scalar .none)).bind (fun a =>
      (r.construct Id.keys.PrivateKeyAlgorithmId {} (.scalar (.str "dsa".toList))).bind (fun n => setAlgorithm E r a (.asn1 n)))).bind
      (fun x => setField E r x 1 (.asn1 P)) := by
  unfold dsaAlgorithm
  generalize (r.construct Id.keys.PrivateKeyAlgorithm {} (.scalar .none)) = x
  generalize (r.construct Id.keys.PrivateKeyAlgorithmId {} (.scalar (.str "dsa".toList))) = y
  cases x with
  | error e => rfl
  | ok v => cases y <;> rfl

/-- The algorithm identifier is made. -/
theorem dsa_algo (j : Nat) {h c : Fin 6 → Bytes} (hi : ∀ i, IntElement ⟨0, 0, 2, h i, c i, []⟩) {a b d : Val} (h3 : Three h c a b d) :
    ∃ a' b' d', Three h c a' b' d' ∧ dsaAlgorithm (env K) (ops (env K) (j + 20)) (dsaParams a b d) =
      .ok (dsaAlgo { cls := 0, method := 1, tag := 16 } (dsaName K) (dsaHeld none (dsaThree h c) a' b' d') true) := by
  obtain ⟨a', b', d', g3, e⟩ := params_contents K j hi h3
  refine ⟨a', b', d', g3, ?_⟩
  have hn := dsa_named K j
  rw [dsaAlgorithm_eq, hn]
  simp only [Except.bind]
  rw [dsa_set]
  obtain ⟨n1, n2, n3, k1, k2, k3, rfl, rfl, rfl⟩ := h3
  rw [params_made]
  have h2 : assignedContents (env K) (ops (env K) (j + 20)) (dsaParams (dsaInt (h 1) (c 1) n1) (dsaInt (h 2) (c 2) n2) (dsaInt (h 3) (c 3) n3)) =
    (ops (env K) (j + 20)).contents (dsaParams (dsaInt (h 1) (c 1) n1) (dsaInt (h 2) (c 2) n2) (dsaInt (h 3) (c 3) n3)) := rfl
  simp only [Except.bind, h2, e]

/-- The encoding of the name. -/
def dsaOid : Bytes := [6, 7, 0x2a, 0x86, 0x48, 0xce, 0x38, 4, 1]

/-- The name once it has been written. -/
def dsaWritten : Child :=
  match fieldEncoding (ops (env K) 20) false ⟨"algorithm", Id.keys.PrivateKeyAlgorithmId, {}⟩ (dsaName K) with
  | .ok p => p.2
  | _ => .val .void

theorem name_written (j : Nat) : fieldEncoding (ops (env K) (j + 5)) false ⟨"algorithm", Id.keys.PrivateKeyAlgorithmId, {}⟩ (dsaName K) = .ok (dsaOid, dsaWritten K) := by kernel_rfl

theorem params_dump (j : Nat) {h c : Fin 6 → Bytes} {a b d : Val} (h3 : Three h c a b d) {hd : Option Bytes} {ct hp : Bytes} (hh : dumpHeader 0 1 16 ct = .ok hp)
    (hk : hd = none) : (ops (env K) (j + 1)).dump (dsaHeld hd ct a b d) false = .ok (hp ++ ct, dsaHeld (some hp) ct a b d) := by
  subst hk
  obtain ⟨n1, n2, n3, k1, k2, k3, rfl, rfl, rfl⟩ := h3
  have hc : (env K).cls Id.keys.DSAParams = .seq { cls := 0, method := 1, tag := 16 } [] false (shapeFields keys.DSAParams) none := rfl
  have hf : shapeFields keys.DSAParams = [⟨"p", Id.core.Integer, {}⟩, ⟨"q", Id.core.Integer, {}⟩, ⟨"g", Id.core.Integer, {}⟩] := rfl
  rw [ops_dump]
  simp [dumpStep, dsaHeld, nodeDump, headerEnds80_none, checkRequired, hc, hf, requiredPresent, dsaInt, nodeContents, Val.isMutated, childrenMutated, asn1Dump, hh, wrapExplicit,
    bind, Except.bind]

theorem name_calm (cs : List Child) : childrenMutated (dsaWritten K :: cs) = childrenMutated cs := by kernel_rfl

theorem name_there (f : Field) (fs : List Field) (cs : List Child) : requiredPresent (f :: fs) (dsaWritten K :: cs) = requiredPresent fs cs := by kernel_rfl

theorem algo_contents (j : Nat) {h c : Fin 6 → Bytes} {a b d : Val} (h3 : Three h c a b d) {o : Obj Unit} {ct hp : Bytes} (hh : dumpHeader 0 1 16 ct = .ok hp) :
    (ops (env K) (j + 20)).contents (dsaAlgo o (dsaName K) (dsaHeld none ct a b d) true) =
      .ok (some (dsaOid ++ (hp ++ ct)), dsaAlgo { o with contents := some (dsaOid ++ (hp ++ ct)), header := none, trailer := [] } (dsaWritten K) (dsaHeld (some hp) ct a b d) false) := by
  obtain ⟨oid, hc⟩ : ∃ oid, (env K).cls Id.keys.PrivateKeyAlgorithm = .seq { cls := 0, method := 1, tag := 16 } [] false (shapeFields keys.PrivateKeyAlgorithm) oid :=
    ⟨_, rfl⟩
  have hf : shapeFields keys.PrivateKeyAlgorithm = [⟨"algorithm", Id.keys.PrivateKeyAlgorithmId, {}⟩, ⟨"parameters", Id.core.Any, { optional := true }⟩] := rfl
  have e1 := name_written K (j + 14)
  have e2 := params_dump K (j + 18) h3 hh rfl
  rw [ops_contents]
  simp only [contentsStep, dsaAlgo, nodeContents, Val.isMutated, Bool.true_or, if_true, setContents, ensureChildren, encodeChildren, hc, hf, encodeFields, e1, bind, Except.bind]
  simp [fieldEncoding, e2, bind, Except.bind]

theorem algo_dump (j : Nat) {h c : Fin 6 → Bytes} {a b d : Val} (h3 : Three h c a b d) {hp : Option Bytes} {ct ca ha : Bytes} (hh : dumpHeader 0 1 16 ca = .ok ha) :
    (ops (env K) (j + 1)).dump (dsaAlgo { cls := 0, method := 1, tag := 16, contents := some ca, header := none, trailer := [] } (dsaWritten K) (dsaHeld hp ct a b d) false) false =
      .ok (ha ++ ca, dsaAlgo { cls := 0, method := 1, tag := 16, contents := some ca, header := some ha, trailer := [] } (dsaWritten K) (dsaHeld hp ct a b d) false) := by
  obtain ⟨oid, hc⟩ : ∃ oid, (env K).cls Id.keys.PrivateKeyAlgorithm = .seq { cls := 0, method := 1, tag := 16 } [] false (shapeFields keys.PrivateKeyAlgorithm) oid :=
    ⟨_, rfl⟩
  have hf : shapeFields keys.PrivateKeyAlgorithm = [⟨"algorithm", Id.keys.PrivateKeyAlgorithmId, {}⟩, ⟨"parameters", Id.core.Any, { optional := true }⟩] := rfl
  obtain ⟨n1, n2, n3, k1, k2, k3, rfl, rfl, rfl⟩ := h3
  rw [ops_dump]
  simp [dumpStep, dsaAlgo, nodeDump, headerEnds80_none, checkRequired, hc, hf, name_there, requiredPresent, dsaHeld, dsaInt, nodeContents, Val.isMutated, name_calm, childrenMutated,
    asn1Dump, hh, wrapExplicit, bind, Except.bind]

/-! ### The container -/

/-- `PrivateKeyInfo()` with these fields. -/
def dsaCont (o : Obj Unit) (z : Child) (A : Val) (s : Val) (m : Bool) : Val :=
  .node Id.keys.PrivateKeyInfo o (some [z, .val A, .val s, .val .void]) m

/-- The container with the version. -/
def dsaVersion : Val := valOf (setPrivate (env K) (ops (env K) 20) emptyPrivate 0 (.asn1 (zeroVal K)))

theorem dsa_version (j : Nat) : setPrivate (env K) (ops (env K) (j + 20)) emptyPrivate 0 (.asn1 (zeroVal K)) = .ok (dsaVersion K) := by kernel_rfl

theorem cont_algo (j : Nat) (x : PyVal) : setField (env K) (ops (env K) (j + 20)) (dsaVersion K) 1 x =
    (makeValue (env K) (ops (env K) (j + 20)) Id.keys.PrivateKeyAlgorithm Id.keys.PrivateKeyAlgorithm {} x).bind (fun nv =>
      (assignedContents (env K) (ops (env K) (j + 20)) nv).bind (fun p => match p.1 with
        | none => .error .valueError
        | some _ => .ok (dsaCont { cls := 0, method := 1, tag := 16 } (.val (zeroVal K)) p.2 .void true))) := by
  kernel_rfl

theorem algo_made (j : Nat) (o : Obj Unit) (n : Child) (P : Val) (m : Bool) (ho : o.cls = 0 ∧ o.tag = 16 ∧ o.implicit = false ∧ o.explicit = []) :
    makeValue (env K) (ops (env K) (j + 20)) Id.keys.PrivateKeyAlgorithm Id.keys.PrivateKeyAlgorithm {} (.asn1 (dsaAlgo o n P m)) = .ok (dsaAlgo o n P m) := by
  obtain ⟨cls, method, tag, implicit, explicit, header, contents, trailer, indefinite, native⟩ := o
  simp only at ho
  obtain ⟨rfl, rfl, rfl, rfl⟩ := ho
  kernel_rfl

theorem cont_ec (j : Nat) (o o' : Obj Unit) (z : Child) (P s : Val) (m m' : Bool) :
    ecSelected (env K) (ops (env K) (j + 20)) (dsaCont o z (dsaAlgo o' (dsaWritten K) P m') s m) = .ok (false, dsaCont o z (dsaAlgo o' (dsaWritten K) P m') s m) := by kernel_rfl

/-- The algorithm identifier is put into the container. -/
theorem cont_set_algo (j : Nat) {h c : Fin 6 → Bytes} {a b d : Val} (h3 : Three h c a b d) {ct hp : Bytes} (hh : dumpHeader 0 1 16 ct = .ok hp) :
    setPrivate (env K) (ops (env K) (j + 20)) (dsaVersion K) 1 (.asn1 (dsaAlgo { cls := 0, method := 1, tag := 16 } (dsaName K) (dsaHeld none ct a b d) true)) =
      .ok (dsaCont { cls := 0, method := 1, tag := 16 } (.val (zeroVal K))
        (dsaAlgo { cls := 0, method := 1, tag := 16, contents := some (dsaOid ++ (hp ++ ct)), header := none, trailer := [] } (dsaWritten K) (dsaHeld (some hp) ct a b d) false) .void true) := by
  have e := algo_contents K j h3 (o := { cls := 0, method := 1, tag := 16 }) hh
  have h2 : ∀ o n P m, assignedContents (env K) (ops (env K) (j + 20)) (dsaAlgo o n P m) = (ops (env K) (j + 20)).contents (dsaAlgo o n P m) := fun _ _ _ _ => rfl
  unfold setPrivate
  simp only [cont_algo, algo_made K j { cls := 0, method := 1, tag := 16 } _ _ _ ⟨rfl, rfl, rfl, rfl⟩, h2, e, bind, Except.bind, true_or, if_true, cont_ec]

/-- The string around the private key. -/
def dsaString (hd : Option Bytes) (b : Bytes) (v : Val) : Val :=
  .parsable Id.core.ParsableOctetString { cls := 0, method := 0, tag := 4, header := hd, contents := some b, native := some b, trailer := [] } (some v) (some Id.core.Integer)

theorem cont_key (j : Nat) (o o' : Obj Unit) (z : Child) (P s : Val) (m m' : Bool) (x : PyVal) :
    setField (env K) (ops (env K) (j + 20)) (dsaCont o z (dsaAlgo o' (dsaWritten K) P m') s m) 2 x =
    (makeValue (env K) (ops (env K) (j + 20)) Id.core.ParsableOctetString Id.core.Integer {} x).bind (fun nv =>
      (assignedContents (env K) (ops (env K) (j + 20)) nv).bind (fun p => match p.1 with
        | none => .error .valueError
        | some _ => .ok (dsaCont o z (dsaAlgo o' (dsaWritten K) P m') p.2 true))) := by
  kernel_rfl

theorem key_made (j : Nat) {h c : Bytes} {n m : Option IntNative} (hd : (ops (env K) (j + 20)).dump (dsaInt h c n) false = .ok (h ++ c, dsaInt h c m)) :
    makeValue (env K) (ops (env K) (j + 20)) Id.core.ParsableOctetString Id.core.Integer {} (.asn1 (dsaInt h c n)) = .ok (dsaString none (h ++ c) (dsaInt h c m)) := by
  have h1 : makeValue (env K) (ops (env K) (j + 20)) Id.core.ParsableOctetString Id.core.Integer {} (.asn1 (dsaInt h c n)) =
      (embedPayload (ops (env K) (j + 20)) Id.core.ParsableOctetString {} (dsaInt h c n)).bind (fun v => fixTagging (env K) (ops (env K) (j + 20)) v {}) := by kernel_rfl
  have h2 : ((ops (env K) (j + 20)).construct Id.core.ParsableOctetString {} (.scalar (.bytes (h ++ c)))) =
      .ok (.parsable Id.core.ParsableOctetString { cls := 0, method := 0, tag := 4, contents := some (h ++ c), native := some (h ++ c) } none none) := by kernel_rfl
  have h3 : fixTagging (env K) (ops (env K) (j + 20)) (dsaString none (h ++ c) (dsaInt h c m)) {} = .ok (dsaString none (h ++ c) (dsaInt h c m)) := by kernel_rfl
  rw [h1]
  unfold embedPayload
  simp only [hd, h2, bind, Except.bind]
  exact h3

/-- The private key is put into the container. -/
theorem cont_set_key (j : Nat) {h c : Bytes} {n m : Option IntNative} (hd : (ops (env K) (j + 20)).dump (dsaInt h c n) false = .ok (h ++ c, dsaInt h c m))
    (o o' : Obj Unit) (z : Child) (P s : Val) (q q' : Bool) :
    setPrivate (env K) (ops (env K) (j + 20)) (dsaCont o z (dsaAlgo o' (dsaWritten K) P q') s q) 2 (.asn1 (dsaInt h c n)) =
      .ok (dsaCont o z (dsaAlgo o' (dsaWritten K) P q') (dsaString none (h ++ c) (dsaInt h c m)) true) := by
  have h2 : assignedContents (env K) (ops (env K) (j + 20)) (dsaString none (h ++ c) (dsaInt h c m)) = .ok (some (h ++ c), dsaString none (h ++ c) (dsaInt h c m)) := rfl
  unfold setPrivate
  simp only [cont_key, key_made K j hd, h2, bind, Except.bind, or_true, if_true, cont_ec]

/-- The version once it has been written. -/
def zeroWritten : Child :=
  match fieldEncoding (ops (env K) 20) false ⟨"version", Id.core.Integer, {}⟩ (.val (zeroVal K)) with
  | .ok p => p.2
  | _ => .val .void

theorem zero_written (j : Nat) : fieldEncoding (ops (env K) (j + 5)) false ⟨"version", Id.core.Integer, {}⟩ (.val (zeroVal K)) = .ok ([2, 1, 0], zeroWritten K) := by kernel_rfl

theorem zero_there (f : Field) (fs : List Field) (cs : List Child) : requiredPresent (f :: fs) (.val (zeroVal K) :: cs) = requiredPresent fs cs := by kernel_rfl

theorem string_dump (j : Nat) {b hs : Bytes} {v : Val} (hh : dumpHeader 0 0 4 b = .ok hs) :
    (ops (env K) (j + 1)).dump (dsaString none b v) false = .ok (hs ++ b, dsaString (some hs) b v) := by
  rw [ops_dump]
  simp [dumpStep, dsaString, parsableDump, asn1Dump, headerEnds80_none, hh, wrapExplicit, bind, Except.bind]

/-- The container is written. -/
theorem cont_dump (j : Nat) {h c : Fin 6 → Bytes} {a b d v : Val} (h3 : Three h c a b d) {hp : Option Bytes} {ct ca ha k hs ht : Bytes}
    (h1 : dumpHeader 0 1 16 ca = .ok ha) (h2 : dumpHeader 0 0 4 k = .ok hs) (h4 : dumpHeader 0 1 16 ([2, 1, 0] ++ (ha ++ ca ++ (hs ++ k))) = .ok ht) :
    ∃ u, (ops (env K) (j + 20)).dump (dsaCont { cls := 0, method := 1, tag := 16 } (.val (zeroVal K))
      (dsaAlgo { cls := 0, method := 1, tag := 16, contents := some ca, header := none, trailer := [] } (dsaWritten K) (dsaHeld hp ct a b d) false) (dsaString none k v) true) false =
      .ok (ht ++ ([2, 1, 0] ++ (ha ++ ca ++ (hs ++ k))), u) := by
  obtain ⟨oid, hc⟩ : ∃ oid, (env K).cls Id.keys.PrivateKeyInfo = .seq { cls := 0, method := 1, tag := 16 } [] false (shapeFields keys.PrivateKeyInfo) oid := ⟨_, rfl⟩
  have hf : shapeFields keys.PrivateKeyInfo = [⟨"version", Id.core.Integer, {}⟩, ⟨"private_key_algorithm", Id.keys.PrivateKeyAlgorithm, {}⟩,
    ⟨"private_key", Id.core.ParsableOctetString, {}⟩, ⟨"attributes", Id.keys.Attributes, { implicit := some (2, 0), optional := true }⟩] := rfl
  have e1 := zero_written K (j + 14)
  have e2 := algo_dump K (j + 18) h3 (hp := hp) (ct := ct) h1
  have e3 := string_dump K (j + 18) (v := v) h2
  have e4 : (ops (env K) (j + 19)).dump .void false = .ok ([], .void) := rfl
  have hr : checkRequired (env K) Id.keys.PrivateKeyInfo (some [.val (zeroVal K),
      .val (dsaAlgo { cls := 0, method := 1, tag := 16, contents := some ca, header := none, trailer := [] } (dsaWritten K) (dsaHeld hp ct a b d) false),
      .val (dsaString none k v), .val .void]) = .ok () := by
    simp only [checkRequired, hc, hf, zero_there, requiredPresent, dsaAlgo, dsaString, Bool.or_true, if_true]
  rw [ops_dump]
  simp only [dumpStep, dsaCont, nodeDump, headerEnds80_none, Bool.or_self, Bool.false_and, Bool.false_eq_true, if_false, bind, Except.bind, hr, nodeContents, Val.isMutated,
    Bool.true_or, if_true, setContents, ensureChildren, encodeChildren, hc, hf, encodeFields, e1]
  simp only [fieldEncoding, e2, e3, e4, bind, Except.bind, List.append_nil]
  simp only [List.cons_append, List.nil_append, List.append_assoc] at h4
  simp [asn1Dump, headerEnds80_none, h4, wrapExplicit, bind, Except.bind]

end Asn1.Props
