import Verif.Lemmas.DsaWrap
import Verif.Props.C09
import Verif.Props.C14
import Verif.Spec.EcWrap

/-! # The steps of wrapping an EC key -/

namespace Asn1.Props
open Asn1 Asn1.Spec Pkg

variable (K : Codecs)

theorem one_head : DerHead oneElement := der_short (cs := [1]) (by omega) (by omega) (by omega) (by simp)

/-- The instance of the key. -/
def ecNode (hd : Option Bytes) (c t : Bytes) (cs : Option (List Child)) (m : Bool) : Val :=
  .node Id.keys.ECPrivateKey { cls := 0, method := 1, tag := 16, header := hd, contents := some c, trailer := t } cs m

/-- What is read of the version. -/
def ecOne : Child := .lazy ⟨0, 0, 2, [2, 1], [1], []⟩ (some Id.keys.ECPrivateKeyVersion) none

/-- What is read of the private key. -/
def ecPriv (h c : Bytes) : Child := .lazy ⟨0, 0, 4, h, c, []⟩ (some Id.core.IntegerOctetString) none

/-- What is read of the curve. -/
def ecCurveInfo (h c t : Bytes) : Child := .lazy ⟨2, 1, 0, h, c, t⟩ (some Id.keys.ECDomainParameters) none

/-- What is read of the public key. -/
def ecPub : Option (Bytes × Bytes) → Child
  | none => .val .void
  | some y => .lazy ⟨2, 1, 1, y.1, y.2, []⟩ (some Id.keys.ECPointBitString) none

/-- The octets of the public key. -/
def ecPubBytes : Option (Bytes × Bytes) → Bytes
  | none => []
  | some y => y.1 ++ y.2

theorem ec_place (j : Nat) (hp cp hc cc tc : Bytes) (y : Option (Bytes × Bytes)) :
    ((([⟨0, 0, 2, [2, 1], [1], []⟩, ⟨0, 0, 4, hp, cp, []⟩, ⟨2, 1, 0, hc, cc, tc⟩] : List Info) ++ (y.map (fun y => (⟨2, 1, 1, y.1, y.2, []⟩ : Info))).toList).foldlM
      (fun s i => placeElement (env K) (ops (env K) (j + 20)) (shapeFields keys.ECPrivateKey) none i s.1 s.2) (shapeFields keys.ECPrivateKey, ([] : List Child))).bind
      (fun s => fillAbsent (ops (env K) (j + 20)) s.1 s.2) = .ok [ecOne, ecPriv hp cp, ecCurveInfo hc cc tc, ecPub y] := by
  cases y with
  | none => kernel_rfl
  | some y => kernel_rfl

theorem ec_children (j : Nat) {hp cp hc cc tc : Bytes} {y : Option (Bytes × Bytes)} (h1 : Ber 11 ⟨0, 0, 4, hp, cp, []⟩) (h2 : Ber 11 ⟨2, 1, 0, hc, cc, tc⟩)
    (h3 : ∀ z ∈ y, Ber 11 ⟨2, 1, 1, z.1, z.2, []⟩) :
    parseSeq (env K) (ops (env K) (j + 20)) (shapeFields keys.ECPrivateKey) none (some ([2, 1, 1] ++ (hp ++ cp ++ (hc ++ cc ++ tc ++ ecPubBytes y)))) =
      .ok [ecOne, ecPriv hp cp, ecCurveInfo hc cc tc, ecPub y] := by
  have hE : Elements ([2, 1, 1] ++ (hp ++ cp ++ (hc ++ cc ++ tc ++ ecPubBytes y)))
      ((([⟨0, 0, 2, [2, 1], [1], []⟩, ⟨0, 0, 4, hp, cp, []⟩, ⟨2, 1, 0, hc, cc, tc⟩] : List Info) ++ (y.map (fun y => (⟨2, 1, 1, y.1, y.2, []⟩ : Info))).toList).map Info.tlv) := by
    refine ⟨by cases y <;> simp [Info.tlv, TLV.bytes, ecPubBytes], ?_⟩
    intro v hv
    simp only [List.map_append, List.map_cons, List.map_nil, List.mem_append, List.mem_cons, List.not_mem_nil, or_false] at hv
    rcases hv with (rfl | rfl | rfl) | hv
    · exact derHead_ber one_head
    · exact h1
    · exact h2
    · cases y with
      | none => simp at hv
      | some z =>
        simp only [Option.map_some, Option.toList_some, List.map_cons, List.map_nil, List.mem_cons, List.not_mem_nil, or_false] at hv
        subst hv
        exact h3 z rfl
  generalize [2, 1, 1] ++ (hp ++ cp ++ (hc ++ cc ++ tc ++ ecPubBytes y)) = data at hE ⊢
  have hl := elemLoop_elements (fun s i => placeElement (env K) (ops (env K) (j + 20)) (shapeFields keys.ECPrivateKey) none i s.1 s.2) data
    _ (data.length + 1) 0 (shapeFields keys.ECPrivateKey, []) (by omega) (by omega) hE
  rw [← seqLoop_eq] at hl
  have hf := ec_place K j hp cp hc cc tc y
  rw [← hl] at hf
  exact hf

/-- The names of the curves. -/
def curveClass : OidClass :=
  match keys.NamedCurve with
  | .leaf (.oid c _) _ => c
  | _ => { map := none }

/-- The parameters as they are loaded. -/
def ecLoaded (h t ho co : Bytes) : Val :=
  .choice Id.keys.ECDomainParameters { cls := 0, method := 0, tag := 0, explicit := [(2, 0)], header := some h, contents := some (ho ++ co), trailer := t } (some 1)
    (some (.leaf Id.keys.NamedCurve (.oid curveClass
      { cls := 0, method := 0, tag := 6, header := some ho, contents := some co, trailer := [] })))

theorem ec_build (j : Nat) {h t ho co : Bytes} (hb : Ber 11 ⟨0, 0, 6, ho, co, []⟩) :
    (ops (env K) (j + 20)).build ⟨2, 1, 0, h, ho ++ co, t⟩ (some Id.keys.ECDomainParameters) { explicit := [(2, 0)], optional := true } none = .ok (ecLoaded h t ho co) := by
  have hp : parse (ho ++ co) = .ok ⟨0, 0, 6, ho, co, []⟩ := (parse_ok_iff _ _).mpr ⟨[], by simp [TLV.bytes, Info.tlv], hb⟩
  have h2 : buildChoiceBase (env K) (ops (env K) (j + 19)) Id.keys.ECDomainParameters ⟨0, 0, 6, ho, co, []⟩ =
      (parseBuild (ops (env K) (j + 19)) (ho ++ co) (some Id.keys.NamedCurve) {}).bind (fun v =>
        .ok (.choice Id.keys.ECDomainParameters { cls := 0, method := 0, tag := 0, header := some [], contents := some (ho ++ co), trailer := [] } (some 1) (some v))) := by
    kernel_rfl
  have h3 : (ops (env K) (j + 19)).build ⟨0, 0, 6, ho, co, []⟩ (some Id.keys.NamedCurve) {} none = .ok (.leaf Id.keys.NamedCurve (.oid curveClass
      { cls := 0, method := 0, tag := 6, header := some ho, contents := some co, trailer := [] })) := by kernel_rfl
  simp only [parseBuild, hp, bind, Except.bind, h3] at h2
  have h4 : explicitLoop [(2, 0)] ⟨2, 1, 0, h, ho ++ co, t⟩ [] [] = .ok (⟨0, 0, 6, ho, co, []⟩, ho, []) := by
    simp [explicitLoop, hp, bind, Except.bind]
  have h5 : (ops (env K) (j + 20)).build ⟨2, 1, 0, h, ho ++ co, t⟩ (some Id.keys.ECDomainParameters) { explicit := [(2, 0)], optional := true } none =
      (buildChoice (env K) (ops (env K) (j + 19)) Id.keys.ECDomainParameters [(2, 0)] ⟨2, 1, 0, h, ho ++ co, t⟩).bind (fun v => .ok v) := by kernel_rfl
  rw [h5]
  simp only [buildChoice, List.reverse_cons, List.reverse_nil, List.nil_append, h4, h2, bind, Except.bind]
  rfl

/-- The key after reading and deleting the parameters. -/
theorem ec_parts (j : Nat) {hp cp hc tc ho co : Bytes} {y : Option (Bytes × Bytes)} (h1 : Ber 11 ⟨0, 0, 4, hp, cp, []⟩) (h2 : Ber 11 ⟨2, 1, 0, hc, ho ++ co, tc⟩)
    (h3 : ∀ z ∈ y, Ber 11 ⟨2, 1, 1, z.1, z.2, []⟩) (hb : Ber 11 ⟨0, 0, 6, ho, co, []⟩) (hd : Option Bytes) (data tr : Bytes)
    (hx : data = [2, 1, 1] ++ (hp ++ cp ++ (hc ++ (ho ++ co) ++ tc ++ ecPubBytes y))) :
    ∃ k, Asn1.getItem (env K) (ops (env K) (j + 20)) (ecNode hd data tr none false) 2 = .ok (ecLoaded hc tc ho co, k) ∧
      delField (env K) (ops (env K) (j + 20)) k 2 = .ok (ecNode hd data tr (some [ecOne, ecPriv hp cp, .val .void, ecPub y]) true) := by
  subst hx
  have hc' : (env K).cls Id.keys.ECPrivateKey = .seq { cls := 0, method := 1, tag := 16 } [] false (shapeFields keys.ECPrivateKey) none := rfl
  have hf : shapeFields keys.ECPrivateKey = [⟨"version", Id.keys.ECPrivateKeyVersion, {}⟩, ⟨"private_key", Id.core.IntegerOctetString, {}⟩,
    ⟨"parameters", Id.keys.ECDomainParameters, { explicit := [(2, 0)], optional := true }⟩,
    ⟨"public_key", Id.keys.ECPointBitString, { explicit := [(2, 1)], optional := true }⟩] := rfl
  have e1 := ec_children K j h1 h2 h3
  have e2 := ec_build K j (h := hc) (t := tc) hb
  refine ⟨ecNode hd ([2, 1, 1] ++ (hp ++ cp ++ (hc ++ (ho ++ co) ++ tc ++ ecPubBytes y))) tr (some [ecOne, ecPriv hp cp, .val (ecLoaded hc tc ho co), ecPub y]) false, ?_, ?_⟩
  · unfold Asn1.getItem
    simp only [ecNode, ensureChildren, parseChildren, hc', e1, bind, Except.bind]
    simp [ecCurveInfo, buildChild, hf, paramsAt, e2]
  · simp [delField, ecNode, hc', hf, ensureChildren, bind, Except.bind]

theorem ec_bare_place (j : Nat) (hp cp : Bytes) (y : Option (Bytes × Bytes)) :
    ((([⟨0, 0, 2, [2, 1], [1], []⟩, ⟨0, 0, 4, hp, cp, []⟩] : List Info) ++ (y.map (fun y => (⟨2, 1, 1, y.1, y.2, []⟩ : Info))).toList).foldlM
      (fun s i => placeElement (env K) (ops (env K) (j + 20)) (shapeFields keys.ECPrivateKey) none i s.1 s.2) (shapeFields keys.ECPrivateKey, ([] : List Child))).bind
      (fun s => fillAbsent (ops (env K) (j + 20)) s.1 s.2) = .ok [ecOne, ecPriv hp cp, .val .void, ecPub y] := by
  cases y with
  | none => kernel_rfl
  | some y => kernel_rfl

/-- The parts of a key without parameters. -/
theorem ec_bare_parts (j : Nat) {hp cp : Bytes} {y : Option (Bytes × Bytes)} (h1 : Ber 11 ⟨0, 0, 4, hp, cp, []⟩)
    (h3 : ∀ z ∈ y, Ber 11 ⟨2, 1, 1, z.1, z.2, []⟩) (hd : Option Bytes) (data tr : Bytes) (hx : data = [2, 1, 1] ++ (hp ++ cp ++ ecPubBytes y)) :
    ∃ k k', Asn1.getItem (env K) (ops (env K) (j + 20)) (ecNode hd data tr none false) 2 = .ok (.void, k) ∧
      delField (env K) (ops (env K) (j + 20)) k 2 = .ok k' := by
  have hE : Elements data
      ((([⟨0, 0, 2, [2, 1], [1], []⟩, ⟨0, 0, 4, hp, cp, []⟩] : List Info) ++ (y.map (fun y => (⟨2, 1, 1, y.1, y.2, []⟩ : Info))).toList).map Info.tlv) := by
    refine ⟨by rw [hx]; cases y <;> simp [Info.tlv, TLV.bytes, ecPubBytes], ?_⟩
    intro v hv
    simp only [List.map_append, List.map_cons, List.map_nil, List.mem_append, List.mem_cons, List.not_mem_nil, or_false] at hv
    rcases hv with (rfl | rfl) | hv
    · exact derHead_ber one_head
    · exact h1
    · cases y with
      | none => simp at hv
      | some z =>
        simp only [Option.map_some, Option.toList_some, List.map_cons, List.map_nil, List.mem_cons, List.not_mem_nil, or_false] at hv
        subst hv
        exact h3 z rfl
  have hl := elemLoop_elements (fun s i => placeElement (env K) (ops (env K) (j + 20)) (shapeFields keys.ECPrivateKey) none i s.1 s.2) data
    _ (data.length + 1) 0 (shapeFields keys.ECPrivateKey, []) (by omega) (by omega) hE
  rw [← seqLoop_eq] at hl
  have e1 := ec_bare_place K j hp cp y
  rw [← hl] at e1
  replace e1 : parseSeq (env K) (ops (env K) (j + 20)) (shapeFields keys.ECPrivateKey) none (some data) = .ok [ecOne, ecPriv hp cp, .val .void, ecPub y] := e1
  have hc' : (env K).cls Id.keys.ECPrivateKey = .seq { cls := 0, method := 1, tag := 16 } [] false (shapeFields keys.ECPrivateKey) none := rfl
  have hf : shapeFields keys.ECPrivateKey = [⟨"version", Id.keys.ECPrivateKeyVersion, {}⟩, ⟨"private_key", Id.core.IntegerOctetString, {}⟩,
    ⟨"parameters", Id.keys.ECDomainParameters, { explicit := [(2, 0)], optional := true }⟩,
    ⟨"public_key", Id.keys.ECPointBitString, { explicit := [(2, 1)], optional := true }⟩] := rfl
  refine ⟨ecNode hd data tr (some [ecOne, ecPriv hp cp, .val .void, ecPub y]) false, ecNode hd data tr (some [ecOne, ecPriv hp cp, .val .void, ecPub y]) true, ?_, ?_⟩
  · unfold Asn1.getItem
    simp only [ecNode, ensureChildren, parseChildren, hc', e1, bind, Except.bind]
    simp [buildChild]
  · simp [delField, ecNode, hc', hf, ensureChildren, bind, Except.bind]

/-! ### The algorithm identifier -/

/-- The identifier with the name alone. -/
def ecNamed : Val :=
  valOf (((ops (env K) 20).construct Id.keys.PrivateKeyAlgorithm {} (.scalar .none)).bind (fun a =>
    ((ops (env K) 20).construct Id.keys.PrivateKeyAlgorithmId {} (.scalar (.str "ec".toList))).bind (fun n => setAlgorithm (env K) (ops (env K) 20) a (.asn1 n))))

theorem ec_named (j : Nat) : ((ops (env K) (j + 20)).construct Id.keys.PrivateKeyAlgorithm {} (.scalar .none)).bind (fun a =>
    ((ops (env K) (j + 20)).construct Id.keys.PrivateKeyAlgorithmId {} (.scalar (.str "ec".toList))).bind (fun n =>
      setAlgorithm (env K) (ops (env K) (j + 20)) a (.asn1 n))) = .ok (ecNamed K) := by kernel_rfl

/-- The name in it. -/
def ecName : Child :=
  match ecNamed K with
  | .node _ _ (some cs) _ => cs.getD 0 (.val .void)
  | _ => .val .void

theorem ec_set (j : Nat) (x : PyVal) : setField (env K) (ops (env K) (j + 20)) (ecNamed K) 1 x =
    (makeValue (env K) (ops (env K) (j + 20)) Id.core.Any Id.keys.ECDomainParameters { optional := true } x).bind (fun nv =>
      (assignedContents (env K) (ops (env K) (j + 20)) nv).bind (fun p => match p.1 with
        | none => .error .valueError
        | some _ => .ok (dsaAlgo { cls := 0, method := 1, tag := 16 } (ecName K) p.2 true))) := by
  kernel_rfl

theorem ecAlgorithm_eq (E : Env) (r : Ops) (P : Val) : ecAlgorithm E r P =
    ((r.construct Id.keys.PrivateKeyAlgorithm {} (.scalar .none)).bind (fun a =>
      (r.construct Id.keys.PrivateKeyAlgorithmId {} (.scalar (.str "ec".toList))).bind (fun n => setAlgorithm E r a (.asn1 n)))).bind
      (fun x => setField E r x 1 (.asn1 P)) := by
  unfold ecAlgorithm
  generalize (r.construct Id.keys.PrivateKeyAlgorithm {} (.scalar .none)) = x
  generalize (r.construct Id.keys.PrivateKeyAlgorithmId {} (.scalar (.str "ec".toList))) = y
  cases x with
  | error e => rfl
  | ok v => cases y <;> rfl

/-- The parameters without tag: as they are made, and as they are written. -/
def ecCurve (h : Option Bytes) (c : Bytes) (ho : Option Bytes) (co : Bytes) : Val :=
  .choice Id.keys.ECDomainParameters { cls := 0, method := 0, tag := 0, header := h, contents := some c } (some 1)
    (some (.leaf Id.keys.NamedCurve (.oid curveClass { cls := 0, method := 0, tag := 6, header := ho, contents := some co })))

theorem ec_made (j : Nat) (h t ho co : Bytes) :
    makeValue (env K) (ops (env K) (j + 20)) Id.core.Any Id.keys.ECDomainParameters { optional := true } (.asn1 (ecLoaded h t ho co)) = .ok (ecCurve none co none co) := by
  kernel_rfl

/-- The algorithm identifier is made. -/
theorem ec_algo (j : Nat) (h t ho co : Bytes) : ecAlgorithm (env K) (ops (env K) (j + 20)) (ecLoaded h t ho co) =
    .ok (dsaAlgo { cls := 0, method := 1, tag := 16 } (ecName K) (ecCurve none co none co) true) := by
  have h2 : assignedContents (env K) (ops (env K) (j + 20)) (ecCurve none co none co) = .ok (some co, ecCurve none co none co) := rfl
  rw [ecAlgorithm_eq, ec_named K j]
  simp only [Except.bind]
  rw [ec_set, ec_made]
  simp only [Except.bind, h2]

/-- The encoding of the name. -/
def ecOid : Bytes := [6, 7, 0x2a, 0x86, 0x48, 0xce, 0x3d, 2, 1]

/-- The name once it has been written. -/
def ecWritten : Child :=
  match fieldEncoding (ops (env K) 20) false ⟨"algorithm", Id.keys.PrivateKeyAlgorithmId, {}⟩ (ecName K) with
  | .ok p => p.2
  | _ => .val .void

theorem ec_name_written (j : Nat) :
    fieldEncoding (ops (env K) (j + 5)) false ⟨"algorithm", Id.keys.PrivateKeyAlgorithmId, {}⟩ (ecName K) = .ok (ecOid, ecWritten K) := by kernel_rfl

theorem curve_dump (j : Nat) {co ho : Bytes} (hh : dumpHeader 0 0 6 co = .ok ho) :
    (ops (env K) (j + 2)).dump (ecCurve none co none co) false = .ok (ho ++ co, ecCurve (some []) (ho ++ co) (some ho) co) := by
  rw [ops_dump]
  simp [dumpStep, ecCurve, choiceDump, choiceParse, headerEnds80_none, ops_dump, LeafSt.dump, Oid.dump, asn1Dump, hh, wrapExplicit, choiceHeader, bind, Except.bind, pure, Except.pure]

theorem ec_name_calm (cs : List Child) : childrenMutated (ecWritten K :: cs) = childrenMutated cs := by kernel_rfl

theorem ec_name_there (f : Field) (fs : List Field) (cs : List Child) : requiredPresent (f :: fs) (ecWritten K :: cs) = requiredPresent fs cs := by kernel_rfl

theorem ec_algo_contents (j : Nat) {o : Obj Unit} {co ho : Bytes} (hh : dumpHeader 0 0 6 co = .ok ho) :
    (ops (env K) (j + 20)).contents (dsaAlgo o (ecName K) (ecCurve none co none co) true) =
      .ok (some (ecOid ++ (ho ++ co)), dsaAlgo { o with contents := some (ecOid ++ (ho ++ co)), header := none, trailer := [] } (ecWritten K)
        (ecCurve (some []) (ho ++ co) (some ho) co) false) := by
  obtain ⟨oid, hc⟩ : ∃ oid, (env K).cls Id.keys.PrivateKeyAlgorithm = .seq { cls := 0, method := 1, tag := 16 } [] false (shapeFields keys.PrivateKeyAlgorithm) oid :=
    ⟨_, rfl⟩
  have hf : shapeFields keys.PrivateKeyAlgorithm = [⟨"algorithm", Id.keys.PrivateKeyAlgorithmId, {}⟩, ⟨"parameters", Id.core.Any, { optional := true }⟩] := rfl
  have e1 := ec_name_written K (j + 14)
  have e2 := curve_dump K (j + 17) hh
  rw [ops_contents]
  simp only [contentsStep, dsaAlgo, nodeContents, Val.isMutated, Bool.true_or, if_true, setContents, ensureChildren, encodeChildren, hc, hf, encodeFields, e1, bind, Except.bind]
  simp [fieldEncoding, e2, bind, Except.bind]

theorem ec_algo_dump (j : Nat) {h : Option Bytes} {c : Bytes} {ho : Option Bytes} {co ca ha : Bytes} (hh : dumpHeader 0 1 16 ca = .ok ha) :
    (ops (env K) (j + 1)).dump (dsaAlgo { cls := 0, method := 1, tag := 16, contents := some ca, header := none, trailer := [] } (ecWritten K) (ecCurve h c ho co) false) false =
      .ok (ha ++ ca, dsaAlgo { cls := 0, method := 1, tag := 16, contents := some ca, header := some ha, trailer := [] } (ecWritten K) (ecCurve h c ho co) false) := by
  obtain ⟨oid, hc⟩ : ∃ oid, (env K).cls Id.keys.PrivateKeyAlgorithm = .seq { cls := 0, method := 1, tag := 16 } [] false (shapeFields keys.PrivateKeyAlgorithm) oid :=
    ⟨_, rfl⟩
  have hf : shapeFields keys.PrivateKeyAlgorithm = [⟨"algorithm", Id.keys.PrivateKeyAlgorithmId, {}⟩, ⟨"parameters", Id.core.Any, { optional := true }⟩] := rfl
  rw [ops_dump]
  simp [dumpStep, dsaAlgo, nodeDump, headerEnds80_none, checkRequired, hc, hf, ec_name_there, requiredPresent, ecCurve, nodeContents, Val.isMutated, ec_name_calm, childrenMutated,
    asn1Dump, hh, wrapExplicit, bind, Except.bind]

/-! ### The container -/

theorem ec_version (w : Nat → Nat) (sizes : EcKey.Sizes) (j : Nat) :
    setPrivateEc w sizes (env K) (ops (env K) (j + 20)) emptyPrivate 0 (.asn1 (zeroVal K)) = .ok (dsaVersion K) := by kernel_rfl

theorem ec_selected (j : Nat) (o o' : Obj Unit) (z : Child) (P s : Val) (m m' : Bool) :
    ecSelected (env K) (ops (env K) (j + 20)) (dsaCont o z (dsaAlgo o' (ecWritten K) P m') s m) = .ok (true, dsaCont o z (dsaAlgo o' (ecWritten K) P m') s m) := by kernel_rfl

theorem ec_not_held (w : Nat → Nat) (sizes : EcKey.Sizes) (j : Nat) (o o' : Obj Unit) (z n : Child) (h ho : Option Bytes) (c co : Bytes) (m m' : Bool) :
    widenHeld w sizes (env K) (ops (env K) (j + 20)) (dsaCont o z (dsaAlgo o' n (ecCurve h c ho co) m') .void m) =
      .ok (dsaCont o z (dsaAlgo o' n (ecCurve h c ho co) m') .void m) := by kernel_rfl

/-- The algorithm identifier is put into the container. -/
theorem ec_set_algo (w : Nat → Nat) (sizes : EcKey.Sizes) (j : Nat) {co ho : Bytes} (hh : dumpHeader 0 0 6 co = .ok ho) :
    setPrivateEc w sizes (env K) (ops (env K) (j + 20)) (dsaVersion K) 1 (.asn1 (dsaAlgo { cls := 0, method := 1, tag := 16 } (ecName K) (ecCurve none co none co) true)) =
      .ok (dsaCont { cls := 0, method := 1, tag := 16 } (.val (zeroVal K))
        (dsaAlgo { cls := 0, method := 1, tag := 16, contents := some (ecOid ++ (ho ++ co)), header := none, trailer := [] } (ecWritten K)
          (ecCurve (some []) (ho ++ co) (some ho) co) false) .void true) := by
  have e := ec_algo_contents K j (o := { cls := 0, method := 1, tag := 16 }) hh
  have h2 : ∀ o n P m, assignedContents (env K) (ops (env K) (j + 20)) (dsaAlgo o n P m) = (ops (env K) (j + 20)).contents (dsaAlgo o n P m) := fun _ _ _ _ => rfl
  unfold setPrivateEc
  simp only [cont_algo, algo_made K j { cls := 0, method := 1, tag := 16 } _ _ _ ⟨rfl, rfl, rfl, rfl⟩, h2, e, bind, Except.bind, true_or, if_true, ec_selected, ec_not_held]

/-- The contents of the key without parameters. -/
def ecRest (hp cp : Bytes) (y : Option (Bytes × Bytes)) : Bytes := [2, 1, 1] ++ (hp ++ cp ++ ecPubBytes y)

theorem ec_key_dump (j : Nat) {hp cp : Bytes} {y : Option (Bytes × Bytes)} (hd : Option Bytes) (h8 : headerEnds80 hd = false) (data tr : Bytes) {hk : Bytes}
    (hh : dumpHeader 0 1 16 (ecRest hp cp y) = .ok hk) :
    (ops (env K) (j + 20)).dump (ecNode hd data tr (some [ecOne, ecPriv hp cp, .val .void, ecPub y]) true) false =
      .ok (hk ++ ecRest hp cp y, ecNode (some hk) (ecRest hp cp y) [] (some [ecOne, ecPriv hp cp, .val .void, ecPub y]) false) := by
  have hc : (env K).cls Id.keys.ECPrivateKey = .seq { cls := 0, method := 1, tag := 16 } [] false (shapeFields keys.ECPrivateKey) none := rfl
  have hf : shapeFields keys.ECPrivateKey = [⟨"version", Id.keys.ECPrivateKeyVersion, {}⟩, ⟨"private_key", Id.core.IntegerOctetString, {}⟩,
    ⟨"parameters", Id.keys.ECDomainParameters, { explicit := [(2, 0)], optional := true }⟩,
    ⟨"public_key", Id.keys.ECPointBitString, { explicit := [(2, 1)], optional := true }⟩] := rfl
  have e4 : (ops (env K) (j + 19)).dump .void false = .ok ([], .void) := rfl
  rw [ops_dump]
  unfold ecRest at hh
  simp only [List.cons_append, List.nil_append, List.append_assoc] at hh
  cases y with
  | none =>
    simp only [ecPubBytes, List.append_nil] at hh
    simp [dumpStep, ecNode, nodeDump, h8, checkRequired, hc, hf, requiredPresent, ecOne, ecPriv, ecPub, nodeContents, Val.isMutated, setContents, ensureChildren, encodeChildren,
      encodeFields, fieldEncoding, e4, headerEnds80_none, asn1Dump, hh, wrapExplicit, bind, Except.bind, ecRest, ecPubBytes]
  | some z =>
    simp only [ecPubBytes] at hh
    simp [dumpStep, ecNode, nodeDump, h8, checkRequired, hc, hf, requiredPresent, ecOne, ecPriv, ecPub, nodeContents, Val.isMutated, setContents, ensureChildren, encodeChildren,
      encodeFields, fieldEncoding, e4, headerEnds80_none, asn1Dump, hh, wrapExplicit, bind, Except.bind, ecRest, ecPubBytes]

/-- The string around the private key. -/
def ecString (hd : Option Bytes) (b : Bytes) (v : Val) : Val :=
  .parsable Id.core.ParsableOctetString { cls := 0, method := 0, tag := 4, header := hd, contents := some b, native := some b, trailer := [] } (some v) (some Id.keys.ECPrivateKey)

theorem ec_cont_key (j : Nat) (o o' : Obj Unit) (z : Child) (P s : Val) (m m' : Bool) (x : PyVal) :
    setField (env K) (ops (env K) (j + 20)) (dsaCont o z (dsaAlgo o' (ecWritten K) P m') s m) 2 x =
    (makeValue (env K) (ops (env K) (j + 20)) Id.core.ParsableOctetString Id.keys.ECPrivateKey {} x).bind (fun nv =>
      (assignedContents (env K) (ops (env K) (j + 20)) nv).bind (fun p => match p.1 with
        | none => .error .valueError
        | some _ => .ok (dsaCont o z (dsaAlgo o' (ecWritten K) P m') p.2 true))) := by
  kernel_rfl

theorem ec_key_made (j : Nat) {hd hd' : Option Bytes} {a b a' b' c : Bytes} {cs cs' : Option (List Child)} {m m' : Bool}
    (h : (ops (env K) (j + 20)).dump (ecNode hd a b cs m) false = .ok (c, ecNode hd' a' b' cs' m')) :
    makeValue (env K) (ops (env K) (j + 20)) Id.core.ParsableOctetString Id.keys.ECPrivateKey {} (.asn1 (ecNode hd a b cs m)) = .ok (ecString none c (ecNode hd' a' b' cs' m')) := by
  have h1 : makeValue (env K) (ops (env K) (j + 20)) Id.core.ParsableOctetString Id.keys.ECPrivateKey {} (.asn1 (ecNode hd a b cs m)) =
      (embedPayload (ops (env K) (j + 20)) Id.core.ParsableOctetString {} (ecNode hd a b cs m)).bind (fun v => fixTagging (env K) (ops (env K) (j + 20)) v {}) := by kernel_rfl
  have h2 : ((ops (env K) (j + 20)).construct Id.core.ParsableOctetString {} (.scalar (.bytes c))) =
      .ok (.parsable Id.core.ParsableOctetString { cls := 0, method := 0, tag := 4, contents := some c, native := some c } none none) := by kernel_rfl
  have h3 : fixTagging (env K) (ops (env K) (j + 20)) (ecString none c (ecNode hd' a' b' cs' m')) {} = .ok (ecString none c (ecNode hd' a' b' cs' m')) := by kernel_rfl
  rw [h1]
  unfold embedPayload
  simp only [h, h2, bind, Except.bind]
  exact h3

/-- The private key as it is read. -/
def ecInt (h c : Bytes) : IntOctObj := { cls := 0, method := 0, tag := 4, header := some h, contents := some c, trailer := [] }

/-- The key with the private key read and changed. -/
def ecHeld (hk data : Bytes) (x : IntOctObj) (y : Option (Bytes × Bytes)) : Val :=
  ecNode (some hk) data [] (some [ecOne, .val (.leaf Id.core.IntegerOctetString (.intOctets x)), .val .void, ecPub y]) false

theorem ec_widen (j : Nat) {hp cp hk data : Bytes} {y : Option (Bytes × Bytes)} {n : Nat} :
    widenKey (env K) (ops (env K) (j + 20)) (ecNode (some hk) data [] (some [ecOne, ecPriv hp cp, .val .void, ecPub y]) false) n =
      (IntegerOctetString.setEncodedWidth (ecInt hp cp) n).bind (fun x => .ok (ecHeld hk data x y)) := by kernel_rfl

theorem ec_domain (j : Nat) {h ho : Option Bytes} {c co : Bytes} {arcs : List Nat} (hv : OidValid arcs) (hc : OidContents arcs co) :
    domainParams (env K) (ops (env K) (j + 20)) (ecCurve h c ho co) = .ok (.named (String.ofList (dottedText arcs))) := by
  have := C09_dotted { cls := 0, method := 0, tag := 6, header := ho, contents := some co } arcs co hv rfl hc rfl
  simp only [domainParams, ecCurve, choiceParse, bind, Except.bind, this]

theorem ec_held_eq (w : Nat → Nat) (sizes : EcKey.Sizes) (j : Nat) (o o' : Obj Unit) (z n : Child) (h ho : Option Bytes) (c co : Bytes) (m m' : Bool)
    (hs : Option Bytes) (b : Bytes) (hk : Option Bytes) (data tr : Bytes) (cs : Option (List Child)) (mk : Bool) :
    widenHeld w sizes (env K) (ops (env K) (j + 20)) (dsaCont o z (dsaAlgo o' n (ecCurve h c ho co) m') (ecString hs b (ecNode hk data tr cs mk)) m) =
      (domainParams (env K) (ops (env K) (j + 20)) (ecCurve h c ho co)).bind (fun d => (d.keySize w sizes).bind (fun s =>
        (widenKey (env K) (ops (env K) (j + 20)) (ecNode hk data tr cs mk) s).bind (fun k => .ok (dsaCont o z (dsaAlgo o' n (ecCurve h c ho co) m') (ecString hs b k) m)))) := by
  kernel_rfl

/-- The private key is put into the container. -/
theorem ec_set_key (w : Nat → Nat) (sizes : EcKey.Sizes) (j : Nat) {hp cp : Bytes} {y : Option (Bytes × Bytes)} (hd : Option Bytes) (h8 : headerEnds80 hd = false)
    (data tr : Bytes) {hk : Bytes} (hh : dumpHeader 0 1 16 (ecRest hp cp y) = .ok hk) {arcs : List Nat} {co : Bytes} (hv : OidValid arcs) (hc : OidContents arcs co)
    (o o' : Obj Unit) (z : Child) (h ho : Option Bytes) (c : Bytes) (s : Val) (q q' : Bool) :
    setPrivateEc w sizes (env K) (ops (env K) (j + 20)) (dsaCont o z (dsaAlgo o' (ecWritten K) (ecCurve h c ho co) q') s q) 2
        (.asn1 (ecNode hd data tr (some [ecOne, ecPriv hp cp, .val .void, ecPub y]) true)) =
      (EcKey.Params.keySize w sizes (.named (String.ofList (dottedText arcs)))).bind (fun n =>
        (IntegerOctetString.setEncodedWidth (ecInt hp cp) n).bind (fun x => .ok (dsaCont o z (dsaAlgo o' (ecWritten K) (ecCurve h c ho co) q')
          (ecString none (hk ++ ecRest hp cp y) (ecHeld hk (ecRest hp cp y) x y)) true))) := by
  have e1 := ec_key_made K j (ec_key_dump K j hd h8 data tr hh)
  have h2 : ∀ b v, assignedContents (env K) (ops (env K) (j + 20)) (ecString none b v) = .ok (some b, ecString none b v) := fun _ _ => rfl
  unfold setPrivateEc
  simp only [ec_cont_key, e1, h2, bind, Except.bind, or_true, if_true, ec_selected, ec_held_eq, ec_domain K j hv hc, ec_widen]
  cases EcKey.Params.keySize w sizes (.named (String.ofList (dottedText arcs))) with
  | error e => rfl
  | ok n =>
    simp only []
    cases IntegerOctetString.setEncodedWidth (ecInt hp cp) n <;> rfl

theorem ec_string_dump (j : Nat) {b hs : Bytes} {v : Val} (hh : dumpHeader 0 0 4 b = .ok hs) :
    (ops (env K) (j + 1)).dump (ecString none b v) false = .ok (hs ++ b, ecString (some hs) b v) := by
  rw [ops_dump]
  simp [dumpStep, ecString, parsableDump, asn1Dump, headerEnds80_none, hh, wrapExplicit, bind, Except.bind]

/-- The container is written. -/
theorem ec_cont_dump (j : Nat) {v : Val} {h ho : Option Bytes} {c co ca ha k hs ht : Bytes}
    (h1 : dumpHeader 0 1 16 ca = .ok ha) (h2 : dumpHeader 0 0 4 k = .ok hs) (h4 : dumpHeader 0 1 16 ([2, 1, 0] ++ (ha ++ ca ++ (hs ++ k))) = .ok ht) :
    ∃ u, (ops (env K) (j + 20)).dump (dsaCont { cls := 0, method := 1, tag := 16 } (.val (zeroVal K))
      (dsaAlgo { cls := 0, method := 1, tag := 16, contents := some ca, header := none, trailer := [] } (ecWritten K) (ecCurve h c ho co) false) (ecString none k v) true) false =
      .ok (ht ++ ([2, 1, 0] ++ (ha ++ ca ++ (hs ++ k))), u) := by
  obtain ⟨oid, hc⟩ : ∃ oid, (env K).cls Id.keys.PrivateKeyInfo = .seq { cls := 0, method := 1, tag := 16 } [] false (shapeFields keys.PrivateKeyInfo) oid := ⟨_, rfl⟩
  have hf : shapeFields keys.PrivateKeyInfo = [⟨"version", Id.core.Integer, {}⟩, ⟨"private_key_algorithm", Id.keys.PrivateKeyAlgorithm, {}⟩,
    ⟨"private_key", Id.core.ParsableOctetString, {}⟩, ⟨"attributes", Id.keys.Attributes, { implicit := some (2, 0), optional := true }⟩] := rfl
  have e1 := zero_written K (j + 14)
  have e2 := ec_algo_dump K (j + 18) (h := h) (c := c) (ho := ho) (co := co) h1
  have e3 := ec_string_dump K (j + 18) (v := v) h2
  have e4 : (ops (env K) (j + 19)).dump .void false = .ok ([], .void) := rfl
  have hr : checkRequired (env K) Id.keys.PrivateKeyInfo (some [.val (zeroVal K),
      .val (dsaAlgo { cls := 0, method := 1, tag := 16, contents := some ca, header := none, trailer := [] } (ecWritten K) (ecCurve h c ho co) false),
      .val (ecString none k v), .val .void]) = .ok () := by
    simp only [checkRequired, hc, hf, zero_there, requiredPresent, dsaAlgo, ecString, Bool.or_true, if_true]
  rw [ops_dump]
  simp only [dumpStep, dsaCont, nodeDump, headerEnds80_none, Bool.or_self, Bool.false_and, Bool.false_eq_true, if_false, bind, Except.bind, hr, nodeContents, Val.isMutated,
    Bool.true_or, if_true, setContents, ensureChildren, encodeChildren, hc, hf, encodeFields, e1]
  simp only [fieldEncoding, e2, e3, e4, bind, Except.bind, List.append_nil]
  simp only [List.cons_append, List.nil_append, List.append_assoc] at h4
  simp [asn1Dump, headerEnds80_none, h4, wrapExplicit, bind, Except.bind]

end Asn1.Props
