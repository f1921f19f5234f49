import Verif.Lemmas.EcWrap
import Verif.Props.C64
import Verif.Props.C49

/-! # C65: EC private keys are wrapped with their curve, and without it inside -/

namespace Asn1.Props
open Asn1 Asn1.Spec Pkg

variable (K : Codecs)

/-- The Python value of the point, if there is one. -/
def pointValue : Option (List UInt8) → Scalar
  | none => .none
  | some q => .bytes q

/-- The Python value of the container. -/
def ecValue (name : String) (priv : List UInt8) (point : Option (List UInt8)) : PyVal :=
  .dict [("version", .scalar (.int 0)),
    ("private_key_algorithm", .dict [("algorithm", .scalar (.str "ec".toList)), ("parameters", .scalar (.str name.toList))]),
    ("private_key", .dict [("version", .scalar (.str "ecPrivkeyVer1".toList)), ("private_key", .scalar (.int (valU priv))), ("parameters", .scalar .none),
      ("public_key", .scalar (pointValue point))]),
    ("attributes", .scalar .none)]

theorem plain_shape {tag : Nat} {c : Bytes} {t : TLV} (h : PlainElement tag c t) : t = ⟨0, 0, tag, t.header, c, []⟩ := by
  obtain ⟨⟨_, _, _, _, _, h5⟩, h1, h2, h3, h4⟩ := h
  obtain ⟨a, b, d, hd, c', tr⟩ := t
  simp only at h1 h2 h3 h4 h5
  subst h1 h2 h3 h4 h5
  rfl

theorem priv_enc {p : TLV} {priv : Bytes} (h : PlainElement 4 priv p) : Enc (env K) (· < size) (some Id.core.IntegerOctetString) none {} p (.scalar (.int (valU priv))) := by
  obtain ⟨h1, h2, h3, h4, h5⟩ := h
  have hc : (env K).cls Id.core.IntegerOctetString = .leaf (.intOctets { cls := 0, method := 0, tag := 4 }) [] := rfl
  refine .leaf hc ⟨derHead_ber h1, .nil, by simp [h2, h4, LeafSt.base, Obj.erase]⟩ (.inl ⟨h3, ?_⟩)
  rw [h5]
  refine ⟨(fun o ho => by cases ho), ?_⟩
  simp only [LeafSt.map, LeafSt.native, IntegerOctetString.native, Bool.false_eq_true, if_false, mergeObj_false, OctetString.asChunk, bind, Except.bind, pure, Except.pure,
    intFromBytes_unsigned, Int.toNat_natCast]
  exact ⟨_, rfl, rfl⟩

theorem point_enc {y : TLV} {q : Bytes} (h : PointElement q y) :
    Enc (env K) (· < size) (some Id.keys.ECPointBitString) none { explicit := [(2, 1)], optional := true } y (.scalar (.bytes q)) := by
  obtain ⟨h1, h2, h3, h4, s, ⟨s1, s2, s3, s4, s5⟩, h5⟩ := h
  have hc : (env K).cls Id.keys.ECPointBitString = .leaf (.octetBits { cls := 0, method := 0, tag := 3 }) [] := rfl
  refine .leaf hc ⟨derHead_ber h1, ?_, by simp [s2, s4, LeafSt.base, Obj.erase]⟩ (.inl ⟨s3, ?_⟩)
  · have := Inside.cons (es := []) h3 h5 (derHead_ber s1) .nil
    rw [h2, h4] at this
    exact this
  · rw [s5]
    refine ⟨(fun o ho => by cases ho), ?_⟩
    simp only [LeafSt.map, LeafSt.native, OctetBitString.native, OctetBitString.readBytes, OctetBitString.asChunk, Bool.false_eq_true, if_false, if_true, bind, Except.bind, pure,
      Except.pure, UInt8.toNat_zero]
    exact ⟨_, rfl, rfl⟩

/-- The tables of names agree. -/
theorem curve_names : ∀ e ∈ EcKey.curveNames, (match curveClass.map with
    | some m => decide (m.get e.1.toList = some e.2.toList) && decide (m.get e.2.toList = none)
    | none => false) = true := by decide +kernel

theorem curve_enc {o : TLV} {co : Bytes} {arcs : List Nat} {name : String} (h : PlainElement 6 co o) (hv : OidValid arcs) (hc : OidContents arcs co)
    (hn : (String.ofList (dottedText arcs), name) ∈ EcKey.curveNames) :
    Enc (env K) (· < size) (some Id.keys.ECDomainParameters) none { optional := true } o (.scalar (.str name.toList)) := by
  obtain ⟨h1, h2, h3, h4, h5⟩ := h
  have ht : o.trailer = [] := by obtain ⟨_, _, _, _, _, h⟩ := h1; exact h
  have hl : (env K).cls Id.keys.NamedCurve = .leaf (.oid curveClass { cls := 0, method := 0, tag := 6 }) [] := rfl
  refine .choice (k := 1) (f := ⟨"named", Id.keys.NamedCurve, {}⟩) rfl (derHead_ber h1) .nil rfl (by decide) ?_ ht
  refine .leaf hl ⟨derHead_ber h1, .nil, by simp [h2, h4, LeafSt.base, Obj.erase]⟩ (.inl ⟨h3, ?_⟩)
  rw [h5]
  refine ⟨(fun o ho => by cases ho), ?_⟩
  have e := curve_names _ hn
  cases hm : curveClass.map with
  | none => rw [hm] at e; cases e
  | some m =>
    rw [hm] at e
    simp only [Bool.and_eq_true, decide_eq_true_eq, String.toList_ofList] at e
    have hd := C09_dotted { cls := 0, method := 0, tag := 6, contents := some co } arcs co hv rfl hc rfl
    refine ⟨.oid curveClass { cls := 0, method := 0, tag := 6, contents := some co, native := some name.toList, dotted := some (dottedText arcs) }, ?_, ?_⟩
    · simp only [LeafSt.map, LeafSt.native, Oid.native, Bool.false_eq_true, if_false, bind, Except.bind, pure, Except.pure, hd, hm, e.1, Option.getD_some, LeafSt.optScalar]
    · simp only [LeafSt.native, Oid.native, bind, Except.bind, pure, Except.pure, hm, e.2, Option.getD_none, LeafSt.optScalar]

/-- The encoding of the container. -/
theorem ec_enc {p t : TLV} {priv co : Bytes} {arcs : List Nat} {ys : List TLV} {point : Option (List UInt8)} {name : String} (hp : PlainElement 4 priv p)
    (hy : PublicElement point ys) (hv : OidValid arcs) (hc : OidContents arcs co) (hn : (String.ofList (dottedText arcs), name) ∈ EcKey.curveNames) (ht : EcInfo p co ys t) :
    Enc (env K) (· < size) (some Id.keys.PrivateKeyInfo) none {} t (ecValue name priv point) := by
  obtain ⟨o, A, k, s, ho, ⟨a1, a2, a3, a4, a5⟩, ⟨k1, k2, k3, k4, k5⟩, ⟨s1, s2, s3, s4, s5⟩, t1, t2, t3, t4, t5⟩ := ht
  have eA : Enc (env K) (· < size) (some Id.keys.PrivateKeyAlgorithm) none {} A
      (.dict [("algorithm", .scalar (.str "ec".toList)), ("parameters", .scalar (.str name.toList))]) := by
    have d1 : DerHead ecElement := der_short (cs := [0x2a, 0x86, 0x48, 0xce, 0x3d, 2, 1]) (by omega) (by omega) (by omega) (by simp)
    refine .seq (fields := shapeFields keys.PrivateKeyAlgorithm) (ns := [.scalar (.str "ec".toList), .scalar (.str name.toList)])
      rfl (by intro h; cases h) ⟨derHead_ber a1, .nil, by simp [a2, a4]⟩ a3 ?_
    rw [a5]
    refine .present (f := ⟨"algorithm", Id.keys.PrivateKeyAlgorithmId, {}⟩) (pick := .same) rfl
      (.leaf rfl ⟨derHead_ber d1, .nil, rfl⟩ (.inl ⟨rfl, readsB_sound (by kernel_rfl)⟩)) ?_
    exact .present (f := ⟨"parameters", Id.core.Any, { optional := true }⟩) (pick := .value Id.keys.ECDomainParameters) ⟨_, _, rfl, rfl, by kernel_rfl⟩
      (curve_enc K ho hv hc hn) .nil
  have eK : Enc (env K) (· < size) (some Id.keys.ECPrivateKey) none {} k
      (.dict [("version", .scalar (.str "ecPrivkeyVer1".toList)), ("private_key", .scalar (.int (valU priv))), ("parameters", .scalar .none),
      ("public_key", .scalar (pointValue point))]) := by
    refine .seq (fields := shapeFields keys.ECPrivateKey) (ns := [.scalar (.str "ecPrivkeyVer1".toList), .scalar (.int (valU priv)), .scalar .none,
      .scalar (pointValue point)]) rfl (by intro h; cases h) ⟨derHead_ber k1, .nil, by simp [k2, k4]⟩ k3 ?_
    rw [k5]
    refine .present (f := ⟨"version", Id.keys.ECPrivateKeyVersion, {}⟩) (pick := .same) rfl
      (.leaf rfl ⟨derHead_ber one_head, .nil, rfl⟩ (.inl ⟨rfl, readsB_sound (by kernel_rfl)⟩)) ?_
    refine .present (f := ⟨"private_key", Id.core.IntegerOctetString, {}⟩) (pick := .same) rfl (priv_enc K hp) ?_
    refine .absent (f := ⟨"parameters", Id.keys.ECDomainParameters, { explicit := [(2, 0)], optional := true }⟩) rfl rfl ?_
    cases point with
    | none =>
      have hy : ys = [] := hy
      subst hy
      exact .absent (f := ⟨"public_key", Id.keys.ECPointBitString, { explicit := [(2, 1)], optional := true }⟩) rfl rfl .nil
    | some q =>
      obtain ⟨y, rfl, hy⟩ := hy
      exact .present (f := ⟨"public_key", Id.keys.ECPointBitString, { explicit := [(2, 1)], optional := true }⟩) (pick := .same) rfl (point_enc K hy) .nil
  unfold ecValue
  refine .seq (fields := shapeFields keys.PrivateKeyInfo) (ns := [.scalar (.int 0), .dict [("algorithm", .scalar (.str "ec".toList)), ("parameters", .scalar (.str name.toList))],
    .dict [("version", .scalar (.str "ecPrivkeyVer1".toList)), ("private_key", .scalar (.int (valU priv))), ("parameters", .scalar .none),
      ("public_key", .scalar (pointValue point))], .scalar .none]) rfl (by intro h; cases h) ⟨derHead_ber t1, .nil, by simp [t2, t4]⟩ t3 ?_
  rw [t5]
  refine .present (f := ⟨"version", Id.core.Integer, {}⟩) (pick := .same) (by simp [Decides]) (int_enc K zero_int) ?_
  refine .present (f := ⟨"private_key_algorithm", Id.keys.PrivateKeyAlgorithm, {}⟩) (pick := .same) (by simp [Decides]) eA ?_
  refine .present (f := ⟨"private_key", Id.core.ParsableOctetString, {}⟩) (pick := .value Id.keys.ECPrivateKey) ⟨_, _, rfl, ⟨_, _, rfl, rfl⟩, by kernel_rfl⟩ ?_ ?_
  · exact .payload (o := { cls := 0, method := 0, tag := 4 }) (isBit := false) rfl ⟨derHead_ber s1, .nil, by simp [s2, s4]⟩ s3 (by simp [s5, stringContents]) eK
  · exact .absent rfl rfl .nil

/-- What `wrap` does with the instance of the key. -/
theorem ec_steps (wd : Nat → Nat) (sizes : EcKey.Sizes) (j : Nat) {hp cp hc tc ho co : Bytes} {y : Option (Bytes × Bytes)} (h1 : Ber 11 ⟨0, 0, 4, hp, cp, []⟩)
    (h2 : Ber 11 ⟨2, 1, 0, hc, ho ++ co, tc⟩) (h3 : ∀ z ∈ y, Ber 11 ⟨2, 1, 1, z.1, z.2, []⟩) (hb : Ber 11 ⟨0, 0, 6, ho, co, []⟩) {hd : Option Bytes}
    (h8 : headerEnds80 hd = false) {data tr : Bytes} (hx : data = [2, 1, 1] ++ (hp ++ cp ++ (hc ++ (ho ++ co) ++ tc ++ ecPubBytes y)))
    {hk hq : Bytes} (d1 : dumpHeader 0 1 16 (ecRest hp cp y) = .ok hk) (d2 : dumpHeader 0 0 6 co = .ok hq) {arcs : List Nat} (hv : OidValid arcs)
    (hoc : OidContents arcs co) (key : KeyGiven)
    (hg : (match key with
      | .bytes b => loadVal (env K) (ops (env K) (j + 20)) Id.keys.ECPrivateKey {} b
      | .value v => if v.classOf = some Id.keys.ECPrivateKey then copyVal (ops (env K) (j + 20)) v else .error .typeError) = .ok (ecNode hd data tr none false)) :
    wrapPrivateEc wd sizes (env K) (ops (env K) (j + 20)) key =
      (EcKey.Params.keySize wd sizes (.named (String.ofList (dottedText arcs)))).bind (fun n =>
        (IntegerOctetString.setEncodedWidth (ecInt hp cp) n).bind (fun x => .ok (dsaCont { cls := 0, method := 1, tag := 16 } (.val (zeroVal K))
        (dsaAlgo { cls := 0, method := 1, tag := 16, contents := some (ecOid ++ (hq ++ co)), header := none, trailer := [] } (ecWritten K)
          (ecCurve (some []) (hq ++ co) (some hq) co) false) (ecString none (hk ++ ecRest hp cp y) (ecHeld hk (ecRest hp cp y) x y)) true))) := by
  obtain ⟨k, e1, e2⟩ := ec_parts K j h1 h2 h3 hb hd data tr hx
  have e3 := ec_set_key K wd sizes j (hp := hp) (cp := cp) (y := y) hd h8 data tr d1 hv hoc
  unfold wrapPrivateEc
  cases key with
  | bytes b =>
    simp only [] at hg
    simp only [hg, bind, Except.bind, e1, e2, ec_algo, empty_private K (j + 19), zero_built K j, ec_version, ec_set_algo K wd sizes j d2, e3]
  | value v =>
    simp only [] at hg
    by_cases hcl : v.classOf = some Id.keys.ECPrivateKey
    swap
    · rw [if_neg hcl] at hg
      cases hg
    rw [if_pos hcl] at hg
    simp only [if_pos hcl, hg, bind, Except.bind, e1, e2, ec_algo, empty_private K (j + 19), zero_built K j, ec_version, ec_set_algo K wd sizes j d2, e3]

theorem key_size_some (wd : Nat → Nat) {sizes : EcKey.Sizes} {oid : String} {n : Nat} (h : sizes.get oid = some n) : EcKey.Params.keySize wd sizes (.named oid) = .ok n := by
  simp only [EcKey.Params.keySize, h]

theorem key_size_none (wd : Nat → Nat) {sizes : EcKey.Sizes} {oid : String} (h : sizes.get oid = none) :
    EcKey.Params.keySize wd sizes (.named oid) = .error .valueError := by
  simp only [EcKey.Params.keySize, h]

theorem ec_class (hd : Option Bytes) (data tr : Bytes) : (ecNode hd data tr none false).classOf = some Id.keys.ECPrivateKey := rfl

theorem ec_get_string (j : Nat) (o : Obj Unit) (z : Child) (A : Val) (b : Bytes) (v : Val) (m : Bool) :
    Asn1.getItem (env K) (ops (env K) (j + 20)) (dsaCont o z A (ecString none b v) m) 2 = .ok (ecString none b v, dsaCont o z A (ecString none b v) m) := by kernel_rfl

theorem ec_get_private (j : Nat) (hk data : Bytes) (x : IntOctObj) (y : Option (Bytes × Bytes)) :
    Asn1.getItem (env K) (ops (env K) (j + 20)) (ecHeld hk data x y) 1 = .ok (.leaf Id.core.IntegerOctetString (.intOctets x), ecHeld hk data x y) := by kernel_rfl

theorem ec_copied (j : Nat) (hd : Option Bytes) (data tr : Bytes) : copyVal (ops (env K) (j + 20)) (ecNode hd data tr none false) = .ok (ecNode none data [] none false) := by
  kernel_rfl

theorem priv_native (h c : Bytes) : IntegerOctetString.native (ecInt h c) = .ok (some (valU c), { ecInt h c with native := some (valU c) }) := by
  simp [IntegerOctetString.native, ecInt, mergeObj_false, OctetString.asChunk, intFromBytes_unsigned, bind, Except.bind, pure, Except.pure]

/-- How a key is loaded. -/
theorem ec_loaded {w : TLV} (w1 : Ber 11 w) (w2 : w.cls = 0 ∧ w.method = 1 ∧ w.tag = 16) {k : Val} (hk : LoadedFrom (env K) Id.keys.ECPrivateKey w k) :
    k = ecNode (some w.header) w.contents w.trailer none false := by
  obtain ⟨w2, w3, w4⟩ := w2
  have hc : (env K).cls Id.keys.ECPrivateKey = .seq { cls := 0, method := 1, tag := 16 } [] false (shapeFields keys.ECPrivateKey) none := rfl
  refine Ev.unique (f := fun j => loadVal (env K) (ops (env K) j) Id.keys.ECPrivateKey {} w.bytes) hk (Ev.up (Ev.of (fun j => ?_)))
  obtain ⟨i, hi, hp⟩ := parse_front (rest := []) w1 false (fun h => by cases h)
  rw [List.append_nil] at hp
  simp only [loadVal, hp, bind, Except.bind, hc]
  exact build_seq_plain (pkg_types K) (by decide) hc (by simp [w2, w4]) w3 i hi j

theorem ec_point {ys : List TLV} {point : Option (List UInt8)} (hy : PublicElement point ys) :
    ∃ y : Option (Bytes × Bytes), (∀ z ∈ y, Ber 11 ⟨2, 1, 1, z.1, z.2, []⟩) ∧ (ys.map TLV.bytes).flatten = ecPubBytes y := by
  cases point with
  | none =>
    have hy : ys = [] := hy
    subst hy
    exact ⟨none, by simp, rfl⟩
  | some q =>
    obtain ⟨y, rfl, y1, y2, y3, y4, _⟩ := hy
    refine ⟨some (y.header, y.contents), ?_, by simp [ecPubBytes, TLV.bytes, derHead_trailer y1]⟩
    intro z hz
    obtain rfl : (y.header, y.contents) = z := by simpa using hz
    have := derHead_ber y1
    have e := derHead_trailer y1
    obtain ⟨a, b, d, hd, c', tr⟩ := y
    simp only at y2 y3 y4 e
    subst y2 y3 y4 e
    exact this

/-- The parts of a key and of its container. -/
theorem ec_shape {w p t : TLV} {priv co : Bytes} {arcs : List Nat} {ys : List TLV} {point : Option (List UInt8)} (hw : EcKeyElement w p priv arcs co ys point)
    (ht : EcInfo p co ys t) {k : Val} (hk : LoadedFrom (env K) Id.keys.ECPrivateKey w k) :
    ∃ (hc tc ho hk' hq ha hs : Bytes) (y : Option (Bytes × Bytes)), Ber 11 ⟨0, 0, 4, p.header, priv, []⟩ ∧ Ber 11 ⟨2, 1, 0, hc, ho ++ co, tc⟩ ∧
      (∀ z ∈ y, Ber 11 ⟨2, 1, 1, z.1, z.2, []⟩) ∧ Ber 11 ⟨0, 0, 6, ho, co, []⟩ ∧
      w.contents = [2, 1, 1] ++ (p.header ++ priv ++ (hc ++ (ho ++ co) ++ tc ++ ecPubBytes y)) ∧
      dumpHeader 0 1 16 (ecRest p.header priv y) = .ok hk' ∧ dumpHeader 0 0 6 co = .ok hq ∧ dumpHeader 0 1 16 (ecOid ++ (hq ++ co)) = .ok ha ∧
      dumpHeader 0 0 4 (hk' ++ ecRest p.header priv y) = .ok hs ∧
      dumpHeader 0 1 16 ([2, 1, 0] ++ (ha ++ (ecOid ++ (hq ++ co)) ++ (hs ++ (hk' ++ ecRest p.header priv y)))) = .ok t.header ∧
      t.bytes = t.header ++ ([2, 1, 0] ++ (ha ++ (ecOid ++ (hq ++ co)) ++ (hs ++ (hk' ++ ecRest p.header priv y)))) ∧
      k = ecNode (some w.header) w.contents w.trailer none false := by
  obtain ⟨w1, ⟨w2, w3, w4⟩, hp, hy, hn, c, o', c1, c2, c3, c4, c5, o1, o2, o3, o4, o5, w5⟩ := hw
  obtain ⟨o, A, key, s, ho, ⟨a1, a2, a3, a4, a5⟩, ⟨k1, k2, k3, k4, k5⟩, ⟨s1, s2, s3, s4, s5⟩, t1, t2, t3, t4, t5⟩ := ht
  have hv := ec_loaded K w1 ⟨w2, w3, w4⟩ hk
  have tr : ∀ {x : TLV}, DerHead x → x.trailer = [] := fun h => by obtain ⟨_, _, _, _, _, h⟩ := h; exact h
  have o6 : o'.trailer = [] := by
    cases o1 with
    | definite _ _ => rfl
    | indefinite _ _ _ _ => cases o3
  obtain ⟨y, y1, y2⟩ := ec_point hy
  have hpb : Ber 11 ⟨0, 0, 4, p.header, priv, []⟩ := by
    rw [← plain_shape hp]
    exact derHead_ber hp.1
  have ob : o.bytes = o.header ++ co := by simp [TLV.bytes, tr ho.1, ho.2.2.2.2]
  have e1 : key.contents = ecRest p.header priv y := by
    rw [k5]
    simp only [List.map_append, List.flatten_append, y2]
    simp [ecRest, oneElement, TLV.bytes, tr hp.1, hp.2.2.2.2]
  have e2 : key.bytes = key.header ++ ecRest p.header priv y := by simp [TLV.bytes, tr k1, e1]
  have e3 : A.contents = ecOid ++ (o.header ++ co) := by
    rw [a5]
    simp [ob]
    simp [TLV.bytes, ecElement, ecOid]
  have e4 : t.contents = [2, 1, 0] ++ (A.header ++ (ecOid ++ (o.header ++ co)) ++ (s.header ++ (key.header ++ ecRest p.header priv y))) := by
    rw [t5]
    simp [TLV.bytes, zeroElement, tr a1, tr s1, tr k1, e1, e3, s5]
  have d1 := derHead_dumpHeader k1
  have d2 := derHead_dumpHeader ho.1
  have d3 := derHead_dumpHeader a1
  have d4 := derHead_dumpHeader s1
  have d5 := derHead_dumpHeader t1
  rw [k2, k3, k4, e1] at d1
  rw [ho.2.1, ho.2.2.1, ho.2.2.2.1, ho.2.2.2.2] at d2
  rw [a2, a3, a4, e3] at d3
  rw [s2, s3, s4, s5, e2] at d4
  rw [t2, t3, t4, e4] at d5
  refine ⟨c.header, c.trailer, o'.header, key.header, o.header, A.header, s.header, y, hpb, ?_, y1, ?_, ?_, d1, d2, d3, d4, d5, ?_, ?_⟩
  · have e : o'.header ++ co = c.contents := by rw [c5, ← o5]; simp [TLV.bytes, o6]
    rw [e, ← c2, ← c3, ← c4]
    exact c1
  · obtain ⟨a, b, d, hd, c', tr⟩ := o'
    simp only at o2 o3 o4 o5 o6
    subst o2 o3 o4 o5 o6
    exact o1
  · rw [w5]
    simp only [List.map_append, List.flatten_append, y2]
    simp [oneElement, TLV.bytes, c5, o5, o6, tr hp.1, hp.2.2.2.2]
  · rw [← e4]
    simp [TLV.bytes, tr t1]
  · exact hv

/-- `PrivateKeyInfo.wrap(key, 'ec')` with the instance of an EC key that names its curve, or with its bytes unless the header of the SEQUENCE ends with the octet
80: the result is written as the DER encoding of the PrivateKeyInfo with the curve as the parameter of the algorithm and with the key without it, octet for octet;
the private key of the parsed key has as many octets as the order of the curve; and what is written is read back as the name of the curve, the number and the
point. -/
theorem C65_wrap_partial (wd : Nat → Nat) (sizes : EcKey.Sizes) {w p t : TLV} {priv co : Bytes} {arcs : List Nat} {ys : List TLV} {point : Option (List UInt8)}
    (hw : EcKeyElement w p priv arcs co ys point) (ht : EcInfo p co ys t) {k : Val} (hk : LoadedFrom (env K) Id.keys.ECPrivateKey w k) {n : Nat}
    (hn : sizes.get (String.ofList (dottedText arcs)) = some n) (hf : valU priv < 256 ^ n) :
    ∃ N, ∀ j ≥ N, ∃ c u, wrapPrivateEc wd sizes (env K) (ops (env K) j) (.value k) = .ok c ∧
      (w.header.getLast? ≠ some 0x80 → wrapPrivateEc wd sizes (env K) (ops (env K) j) (.bytes w.bytes) = .ok c) ∧
      (ops (env K) j).dump c false = .ok (t.bytes, u) ∧
      (∃ s c' x s' f o cs x', Asn1.getItem (env K) (ops (env K) j) c 2 = .ok (s, c') ∧ parsedOf (env K) (ops (env K) j) s = .ok (x, s') ∧
        Asn1.getItem (env K) (ops (env K) j) x 1 = .ok (.leaf f (.intOctets o), x') ∧ o.contents = some cs ∧ cs.length = n ∧ valU cs = valU priv) ∧
      ∀ name, (String.ofList (dottedText arcs), name) ∈ EcKey.curveNames → ∃ l z, loadVal (env K) (ops (env K) j) Id.keys.PrivateKeyInfo {} t.bytes = .ok l ∧
        (ops (env K) j).native l = .ok (ecValue name priv point, z) := by
  obtain ⟨hc, tc, ho, hk', hq, ha, hs, y, b1, b2, b3, b4, b5, d1, d2, d3, d4, d5, b6, b7⟩ := ec_shape K hw ht hk
  obtain ⟨N, hN⟩ : ∃ N, ∀ j ≥ N, ∀ name, (String.ofList (dottedText arcs), name) ∈ EcKey.curveNames → ∃ l z,
      loadVal (env K) (ops (env K) j) Id.keys.PrivateKeyInfo {} t.bytes = .ok l ∧ (ops (env K) j).native l = .ok (ecValue name priv point, z) := by
    by_cases hm : ∃ name, (String.ofList (dottedText arcs), name) ∈ EcKey.curveNames
    · obtain ⟨name, hm⟩ := hm
      obtain ⟨N, h⟩ := C51_native_partial K (by decide) (by intro h; cases h) (ec_enc K hw.private_key hw.public_key hw.named.1 hw.named.2 hm ht)
      refine ⟨N, fun j hj name' hm' => ?_⟩
      obtain rfl : name = name' := by
        have g1 := curve_names _ hm
        have g2 := curve_names _ hm'
        cases hx : curveClass.map with
        | none => rw [hx] at g1; cases g1
        | some m =>
          rw [hx] at g1 g2
          simp only [Bool.and_eq_true, decide_eq_true_eq] at g1 g2
          have := g1.1.symm.trans g2.1
          injection this with this
          exact String.toList_inj.mp this
      exact h j hj
    · exact ⟨0, fun j _ name h => absurd ⟨name, h⟩ hm⟩
  have hs' := key_size_some wd hn
  obtain ⟨x, x3, cs, f1, f2, f3, f4, f5, f6⟩ := C14_width_fits (ecInt p.header priv) _ (valU priv) n rfl (by intro c h; cases h; rfl) (by simp [ecInt]) (priv_native _ _) hf
  obtain ⟨L, hl⟩ := hk
  refine ⟨max (max N L) 20, fun j hj => ?_⟩
  obtain ⟨i, rfl⟩ : ∃ i, j = i + 20 := ⟨j - 20, by omega⟩
  have g1 := ec_steps K wd sizes i b1 b2 b3 b4 (hd := none) rfl (tr := []) b5 d1 d2 hw.named.1 hw.named.2 (.value k) (by
    subst b7
    simp only []
    rw [if_pos (ec_class _ _ _)]
    exact ec_copied K i _ _ _)
  obtain ⟨u, g2⟩ := ec_cont_dump K i (v := ecHeld hk' (ecRest p.header priv y) x y) (h := some []) (c := hq ++ co) (ho := some hq) (co := co) d3 d4 d5
  rw [hs', Except.bind, f1] at g1
  refine ⟨_, u, g1, fun h8 => ?_, ?_, ⟨_, _, _, _, _, x, cs, _, ec_get_string K i _ _ _ _ _ _, rfl, ec_get_private K i _ _ _ _, f2, f3, f4⟩, hN (i + 20) (by omega)⟩
  · have := ec_steps K wd sizes i b1 b2 b3 b4 (hd := some w.header) (by simpa [headerEnds80] using h8) (tr := w.trailer) b5 d1 d2 hw.named.1 hw.named.2 (.bytes w.bytes) (by
      subst b7
      exact hl (i + 20) (by omega))
    rw [hs', Except.bind, f1] at this
    exact this
  · rw [b6]
    exact g2

/-- A private key that has more octets than the order of its curve, other than zeros in front, is not wrapped. -/
theorem C65_too_big (wd : Nat → Nat) (sizes : EcKey.Sizes) {w p t : TLV} {priv co : Bytes} {arcs : List Nat} {ys : List TLV} {point : Option (List UInt8)}
    (hw : EcKeyElement w p priv arcs co ys point) (ht : EcInfo p co ys t) {k : Val} (hk : LoadedFrom (env K) Id.keys.ECPrivateKey w k) {n : Nat}
    (hn : sizes.get (String.ofList (dottedText arcs)) = some n) (hf : 256 ^ n ≤ valU priv) :
    ∃ N, ∀ j ≥ N, wrapPrivateEc wd sizes (env K) (ops (env K) j) (.value k) = .error .overflowError := by
  obtain ⟨hc, tc, ho, hk', hq, ha, hs, y, b1, b2, b3, b4, b5, d1, d2, d3, d4, d5, b6, b7⟩ := ec_shape K hw ht hk
  refine ⟨20, fun j hj => ?_⟩
  obtain ⟨i, rfl⟩ : ∃ i, j = i + 20 := ⟨j - 20, by omega⟩
  rw [ec_steps K wd sizes i b1 b2 b3 b4 (hd := none) rfl (tr := []) b5 d1 d2 hw.named.1 hw.named.2 (.value k) (by
    subst b7
    simp only []
    rw [if_pos (ec_class _ _ _)]
    exact ec_copied K i _ _ _)]
  rw [key_size_some wd hn, Except.bind, C14_width_overflow (ecInt p.header priv) _ (valU priv) n (by intro c h; cases h; rfl) (by simp [ecInt]) rfl (priv_native _ _) hf]
  rfl

/-- When the key does not load, neither does `wrap` return; an instance of another class is refused. -/
theorem C65_refused (wd : Nat → Nat) (sizes : EcKey.Sizes) (j : Nat) :
    (∀ b e, loadVal (env K) (ops (env K) j) Id.keys.ECPrivateKey {} b = .error e → wrapPrivateEc wd sizes (env K) (ops (env K) j) (.bytes b) = .error e) ∧
    (∀ v, v.classOf ≠ some Id.keys.ECPrivateKey → wrapPrivateEc wd sizes (env K) (ops (env K) j) (.value v) = .error .typeError) := by
  constructor
  · intro b e h
    unfold wrapPrivateEc
    simp only [h, bind, Except.bind]
  · intro v h
    unfold wrapPrivateEc
    simp only [if_neg h, bind, Except.bind]

/-- A key of a curve whose size is not known is not wrapped. -/
theorem C65_unknown_curve (wd : Nat → Nat) (sizes : EcKey.Sizes) {w p t : TLV} {priv co : Bytes} {arcs : List Nat} {ys : List TLV} {point : Option (List UInt8)}
    (hw : EcKeyElement w p priv arcs co ys point) (ht : EcInfo p co ys t) {k : Val} (hk : LoadedFrom (env K) Id.keys.ECPrivateKey w k)
    (hn : sizes.get (String.ofList (dottedText arcs)) = none) :
    ∃ N, ∀ j ≥ N, wrapPrivateEc wd sizes (env K) (ops (env K) j) (.value k) = .error .valueError := by
  obtain ⟨hc, tc, ho, hk', hq, ha, hs, y, b1, b2, b3, b4, b5, d1, d2, d3, d4, d5, b6, b7⟩ := ec_shape K hw ht hk
  refine ⟨20, fun j hj => ?_⟩
  obtain ⟨i, rfl⟩ : ∃ i, j = i + 20 := ⟨j - 20, by omega⟩
  rw [ec_steps K wd sizes i b1 b2 b3 b4 (hd := none) rfl (tr := []) b5 d1 d2 hw.named.1 hw.named.2 (.value k) (by
    subst b7
    simp only []
    rw [if_pos (ec_class _ _ _)]
    exact ec_copied K i _ _ _)]
  rw [key_size_none wd hn]
  rfl

theorem ec_void_algo (j : Nat) : ecAlgorithm (env K) (ops (env K) (j + 20)) .void = .error .keyError := by kernel_rfl

/-- A key without a curve is not wrapped, in either form: the absent parameters have no class that the message of the refusal could name, so that a KeyError is
raised. -/
theorem C65_no_curve (wd : Nat → Nat) (sizes : EcKey.Sizes) {w p : TLV} {priv : Bytes} {ys : List TLV} {point : Option (List UInt8)}
    (w1 : Ber 11 w) (w2 : w.cls = 0 ∧ w.method = 1 ∧ w.tag = 16) (hp : PlainElement 4 priv p) (hy : PublicElement point ys)
    (w5 : w.contents = (([oneElement, p] ++ ys).map TLV.bytes).flatten) {k : Val} (hk : LoadedFrom (env K) Id.keys.ECPrivateKey w k) :
    ∃ N, ∀ j ≥ N, wrapPrivateEc wd sizes (env K) (ops (env K) j) (.value k) = .error .keyError ∧
      wrapPrivateEc wd sizes (env K) (ops (env K) j) (.bytes w.bytes) = .error .keyError := by
  have hv := ec_loaded K w1 w2 hk
  obtain ⟨y, y1, y2⟩ := ec_point hy
  have tr := derHead_trailer hp.1
  have hpb : Ber 11 ⟨0, 0, 4, p.header, priv, []⟩ := by
    rw [← plain_shape hp]
    exact derHead_ber hp.1
  have hx : w.contents = [2, 1, 1] ++ (p.header ++ priv ++ ecPubBytes y) := by
    rw [w5]
    simp only [List.map_append, List.flatten_append, y2]
    simp [oneElement, TLV.bytes, tr, hp.2.2.2.2]
  obtain ⟨L, hl⟩ := hk
  refine ⟨max L 20, fun j hj => ?_⟩
  obtain ⟨i, rfl⟩ : ∃ i, j = i + 20 := ⟨j - 20, by omega⟩
  constructor
  · obtain ⟨k1, k2, e1, e2⟩ := ec_bare_parts K i hpb y1 none w.contents [] hx
    unfold wrapPrivateEc
    simp only [hv, if_pos (ec_class _ _ _), ec_copied, bind, Except.bind, e1, e2, ec_void_algo]
  · obtain ⟨k1, k2, e1, e2⟩ := ec_bare_parts K i hpb y1 (some w.header) w.contents w.trailer hx
    unfold wrapPrivateEc
    simp only [hl (i + 20) (by omega), hv, bind, Except.bind, e1, e2, ec_void_algo]

/-- The key 5 of the curve 1.3.132.0.6, with a zero octet in front, in a SEQUENCE of indefinite length. -/
def zeroFront : Bytes := [0x30, 0x80, 2, 1, 1, 4, 2, 0, 5, 0xa0, 7, 6, 5, 0x2b, 0x81, 4, 0, 6, 0, 0]

/-- The bytes of a key whose SEQUENCE has an indefinite length, with a zero octet in front of the private key: the octet is missing in what is written, although it
is there when the instance loaded from the same bytes is wrapped. -/
theorem C65_indefinite_fails (wd : Nat → Nat) (j : Nat) :
    ((wrapPrivateEc wd EcKey.curveSizes (env K) (ops (env K) (j + 20)) (.bytes zeroFront)).bind (fun c => ((ops (env K) (j + 20)).dump c false).bind (fun r => .ok r.1)) =
      .ok [0x30, 0x1f, 2, 1, 0, 0x30, 0x10, 6, 7, 0x2a, 0x86, 0x48, 0xce, 0x3d, 2, 1, 6, 5, 0x2b, 0x81, 4, 0, 6, 4, 8, 0x30, 6, 2, 1, 1, 4, 1, 5]) ∧
    ((loadVal (env K) (ops (env K) (j + 20)) Id.keys.ECPrivateKey {} zeroFront).bind (fun k =>
      (wrapPrivateEc wd EcKey.curveSizes (env K) (ops (env K) (j + 20)) (.value k)).bind (fun c => ((ops (env K) (j + 20)).dump c false).bind (fun r => .ok r.1))) =
      .ok [0x30, 0x20, 2, 1, 0, 0x30, 0x10, 6, 7, 0x2a, 0x86, 0x48, 0xce, 0x3d, 2, 1, 6, 5, 0x2b, 0x81, 4, 0, 6, 4, 9, 0x30, 7, 2, 1, 1, 4, 2, 0, 5]) := by
  constructor
  · kernel_rfl
  · kernel_rfl

/-! ### A concrete key -/

/-- The private key 5. -/
def smallPriv : TLV := ⟨0, 0, 4, [4, 2], [0, 5], []⟩

theorem smallPriv_ok : PlainElement 4 [0, 5] smallPriv :=
  ⟨der_short (cs := [0, 5]) (by omega) (by omega) (by omega) (by simp), rfl, rfl, rfl, rfl⟩

/-- A point. -/
def smallPoint : TLV := ⟨2, 1, 1, [0xa1, 5], [3, 3, 0, 4, 7], []⟩

theorem smallPoint_ok : PointElement [4, 7] smallPoint :=
  ⟨der_short (cs := [3, 3, 0, 4, 7]) (by omega) (by omega) (by omega) (by simp), rfl, rfl, rfl, ⟨0, 0, 3, [3, 3], [0, 4, 7], []⟩,
    ⟨der_short (cs := [0, 4, 7]) (by omega) (by omega) (by omega) (by simp), rfl, rfl, rfl, rfl⟩, rfl⟩

/-- The octets of the curve 1.3.132.0.6. -/
def smallCurve : List UInt8 := [0x2b, 0x81, 4, 0, 6]

/-- The key, in a SEQUENCE of indefinite length. -/
def smallEc : TLV :=
  ⟨0, 1, 16, [0x30, 0x80], [2, 1, 1, 4, 2, 0, 5, 0xa0, 7, 6, 5, 0x2b, 0x81, 4, 0, 6, 0xa1, 5, 3, 3, 0, 4, 7], [0, 0]⟩

theorem smallCurve_ok : OidValid [1, 3, 132, 0, 6] ∧ OidContents [1, 3, 132, 0, 6] smallCurve := by
  refine ⟨by decide, [[0x2b], [0x81, 4], [0], [6]], rfl, ?_⟩
  exact .cons ⟨[], 0x2b, rfl, by simp, by decide, by decide, by decide⟩ (.cons ⟨[0x81], 4, rfl, by decide, by decide, by decide, by decide⟩
    (.cons ⟨[], 0, rfl, by simp, by decide, by decide, by decide⟩ (.cons ⟨[], 6, rfl, by simp, by decide, by decide, by decide⟩ .nil)))

theorem smallEc_ok : EcKeyElement smallEc smallPriv [0, 5] [1, 3, 132, 0, 6] smallCurve [smallPoint] (some [4, 7]) where
  ber := by
    have h : parse smallEc.bytes = .ok ⟨0, 1, 16, smallEc.header, smallEc.contents, smallEc.trailer⟩ := by kernel_rfl
    obtain ⟨rest, _, hb⟩ := (parse_ok_iff _ _).mp h
    exact hb
  tagged := ⟨rfl, rfl, rfl⟩
  private_key := smallPriv_ok
  public_key := ⟨_, rfl, smallPoint_ok⟩
  named := smallCurve_ok
  contents := by
    refine ⟨⟨2, 1, 0, [0xa0, 7], [6, 5, 0x2b, 0x81, 4, 0, 6], []⟩, ⟨0, 0, 6, [6, 5], smallCurve, []⟩, ?_, rfl, rfl, rfl, rfl, ?_, rfl, rfl, rfl, rfl, rfl⟩
    · exact derHead_ber (der_short (cs := [6, 5, 0x2b, 0x81, 4, 0, 6]) (by omega) (by omega) (by omega) (by simp))
    · exact derHead_ber (der_short (cs := [0x2b, 0x81, 4, 0, 6]) (by omega) (by omega) (by omega) (by simp))

/-- The container for it. -/
def smallEcInfo : TLV :=
  ⟨0, 1, 16, [0x30, 39], [2, 1, 0, 0x30, 0x10, 6, 7, 0x2a, 0x86, 0x48, 0xce, 0x3d, 2, 1, 6, 5, 0x2b, 0x81, 4, 0, 6, 4, 16,
    0x30, 14, 2, 1, 1, 4, 2, 0, 5, 0xa1, 5, 3, 3, 0, 4, 7], []⟩

theorem smallEcInfo_ok : EcInfo smallPriv smallCurve [smallPoint] smallEcInfo :=
  ⟨⟨0, 0, 6, [6, 5], smallCurve, []⟩, ⟨0, 1, 16, [0x30, 0x10], [6, 7, 0x2a, 0x86, 0x48, 0xce, 0x3d, 2, 1, 6, 5, 0x2b, 0x81, 4, 0, 6], []⟩,
    ⟨0, 1, 16, [0x30, 14], [2, 1, 1, 4, 2, 0, 5, 0xa1, 5, 3, 3, 0, 4, 7], []⟩, ⟨0, 0, 4, [4, 16], [0x30, 14, 2, 1, 1, 4, 2, 0, 5, 0xa1, 5, 3, 3, 0, 4, 7], []⟩,
    ⟨der_short (cs := [0x2b, 0x81, 4, 0, 6]) (by omega) (by omega) (by omega) (by simp), rfl, rfl, rfl, rfl⟩,
    ⟨der_short (cs := [6, 7, 0x2a, 0x86, 0x48, 0xce, 0x3d, 2, 1, 6, 5, 0x2b, 0x81, 4, 0, 6]) (by omega) (by omega) (by omega) (by simp), rfl, rfl, rfl, rfl⟩,
    ⟨der_short (cs := [2, 1, 1, 4, 2, 0, 5, 0xa1, 5, 3, 3, 0, 4, 7]) (by omega) (by omega) (by omega) (by simp), rfl, rfl, rfl, rfl⟩,
    ⟨der_short (cs := [0x30, 14, 2, 1, 1, 4, 2, 0, 5, 0xa1, 5, 3, 3, 0, 4, 7]) (by omega) (by omega) (by omega) (by simp), rfl, rfl, rfl, rfl⟩,
    ⟨der_short (cs := [2, 1, 0, 0x30, 0x10, 6, 7, 0x2a, 0x86, 0x48, 0xce, 0x3d, 2, 1, 6, 5, 0x2b, 0x81, 4, 0, 6, 4, 16,
      0x30, 14, 2, 1, 1, 4, 2, 0, 5, 0xa1, 5, 3, 3, 0, 4, 7]) (by omega) (by omega) (by omega) (by simp), rfl, rfl, rfl, rfl⟩⟩

example : ∃ k, LoadedFrom (env K) Id.keys.ECPrivateKey smallEc k := by
  refine ⟨ecNode (some smallEc.header) smallEc.contents smallEc.trailer none false, 20, fun j hj => ?_⟩
  obtain ⟨i, rfl⟩ : ∃ i, j = i + 20 := ⟨j - 20, by omega⟩
  kernel_rfl

example (wd : Nat → Nat) {k : Val} (hk : LoadedFrom (env K) Id.keys.ECPrivateKey smallEc k) : ∃ N, ∀ j ≥ N, ∃ c u l z,
    wrapPrivateEc wd EcKey.curveSizes (env K) (ops (env K) j) (.value k) = .ok c ∧ (ops (env K) j).dump c false = .ok (smallEcInfo.bytes, u) ∧
    loadVal (env K) (ops (env K) j) Id.keys.PrivateKeyInfo {} smallEcInfo.bytes = .ok l ∧
    (ops (env K) j).native l = .ok (ecValue "secp112r1" [0, 5] (some [4, 7]), z) := by
  have hd : String.ofList (dottedText [1, 3, 132, 0, 6]) = "1.3.132.0.6" := by decide +kernel
  obtain ⟨N, h⟩ := C65_wrap_partial K wd EcKey.curveSizes smallEc_ok smallEcInfo_ok hk (n := 14) (by rw [hd]; decide +kernel) (by decide)
  refine ⟨N, fun j hj => ?_⟩
  obtain ⟨c, u, h1, _, h2, _, h3⟩ := h j hj
  obtain ⟨l, z, h3, h4⟩ := h3 "secp112r1" (by rw [hd]; decide +kernel)
  exact ⟨c, u, l, z, h1, h2, h3, h4⟩

example (wd : Nat → Nat) {k : Val} (hk : LoadedFrom (env K) Id.keys.ECPrivateKey smallEc k) : ∃ N, ∀ j ≥ N,
    wrapPrivateEc wd [] (env K) (ops (env K) j) (.value k) = .error .valueError := C65_unknown_curve K wd [] smallEc_ok smallEcInfo_ok hk rfl

example (wd : Nat → Nat) {k : Val} (hk : LoadedFrom (env K) Id.keys.ECPrivateKey smallEc k) : ∃ N, ∀ j ≥ N,
    wrapPrivateEc wd [("1.3.132.0.6", 0)] (env K) (ops (env K) j) (.value k) = .error .overflowError := by
  have hd : String.ofList (dottedText [1, 3, 132, 0, 6]) = "1.3.132.0.6" := by decide +kernel
  exact C65_too_big K wd _ smallEc_ok smallEcInfo_ok hk (n := 0) (by rw [hd]; decide +kernel) (by decide)

/-- The key without its curve. -/
def bareEc : TLV := ⟨0, 1, 16, [0x30, 14], [2, 1, 1, 4, 2, 0, 5, 0xa1, 5, 3, 3, 0, 4, 7], []⟩

example (wd : Nat → Nat) {k : Val} (hk : LoadedFrom (env K) Id.keys.ECPrivateKey bareEc k) : ∃ N, ∀ j ≥ N,
    wrapPrivateEc wd EcKey.curveSizes (env K) (ops (env K) j) (.value k) = .error .keyError := by
  obtain ⟨N, h⟩ := C65_no_curve K wd EcKey.curveSizes
    (derHead_ber (der_short (cs := [2, 1, 1, 4, 2, 0, 5, 0xa1, 5, 3, 3, 0, 4, 7]) (by omega) (by omega) (by omega) (by simp))) ⟨rfl, rfl, rfl⟩ smallPriv_ok
    (point := some [4, 7]) ⟨smallPoint, rfl, smallPoint_ok⟩ rfl hk
  exact ⟨N, fun j hj => (h j hj).1⟩

end Asn1.Props
