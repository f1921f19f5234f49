import Verif.Lemmas.DsaWrap

/-! # C64: DSA private keys are wrapped with exactly their parameters and their private value -/

namespace Asn1.Props
open Asn1 Asn1.Spec Pkg

variable (K : Codecs)

/-- The Python value of the container. -/
def dsaValue (p q g x : TLV) : PyVal :=
  .dict [("version", .scalar (.int 0)),
    ("private_key_algorithm", .dict [("algorithm", .scalar (.str "dsa".toList)),
      ("parameters", .dict [("p", .scalar (.int (valS p.contents))), ("q", .scalar (.int (valS q.contents))), ("g", .scalar (.int (valS g.contents)))])]),
    ("private_key", .scalar (.int (valS x.contents))), ("attributes", .scalar .none)]

theorem int_enc {t : TLV} (h : IntElement t) : Enc (env K) (· < size) (some Id.core.Integer) none {} t (.scalar (.int (valS t.contents))) := by
  obtain ⟨h1, h2, h3, h4, _⟩ := h
  have hc : (env K).cls Id.core.Integer = .leaf (.integer none { cls := 0, method := 0, tag := 2 }) [] := rfl
  refine .leaf hc ⟨derHead_ber h1, .nil, by simp [h2, h4, LeafSt.base, Obj.erase]⟩ (.inl ⟨h3, ?_⟩)
  refine ⟨(fun o ho => by cases ho), ?_⟩
  simp only [LeafSt.map, LeafSt.native, Integer.native, bind, Except.bind, pure, Except.pure, intFromBytes_signed, Bool.false_eq_true, if_false]
  exact ⟨_, rfl, rfl⟩

theorem zero_int : IntElement zeroElement :=
  ⟨der_short (cs := [0]) (by omega) (by omega) (by omega) (by simp), rfl, rfl, rfl, by simp [zeroElement], fun d hd _ => by
    cases d with
    | nil => exact absurd rfl hd
    | cons _ _ => simp [zeroElement]⟩

/-- The encoding of the container. -/
theorem dsa_enc {p q g x t : TLV} (hp : IntElement p) (hq : IntElement q) (hg : IntElement g) (hx : IntElement x) (ht : DsaInfo p q g x t) :
    Enc (env K) (· < size) (some Id.keys.PrivateKeyInfo) none {} t (dsaValue p q g x) := by
  obtain ⟨P, A, s, ⟨p1, p2, p3, p4, p5⟩, ⟨a1, a2, a3, a4, a5⟩, ⟨s1, s2, s3, s4, s5⟩, t1, t2, t3, t4, t5⟩ := ht
  have eP : Enc (env K) (· < size) (some Id.keys.DSAParams) none { optional := true } P
      (.dict [("p", .scalar (.int (valS p.contents))), ("q", .scalar (.int (valS q.contents))), ("g", .scalar (.int (valS g.contents)))]) := by
    refine .seq (fields := shapeFields keys.DSAParams) (ns := [.scalar (.int (valS p.contents)), .scalar (.int (valS q.contents)), .scalar (.int (valS g.contents))])
      rfl (by intro h; cases h) ⟨derHead_ber p1, .nil, by simp [p2, p4]⟩ p3 ?_
    rw [p5]
    exact .present (pick := .same) rfl (int_enc K hp) (.present (pick := .same) rfl (int_enc K hq) (.present (pick := .same) rfl (int_enc K hg) .nil))
  have eA : Enc (env K) (· < size) (some Id.keys.PrivateKeyAlgorithm) none {} A
      (.dict [("algorithm", .scalar (.str "dsa".toList)),
        ("parameters", .dict [("p", .scalar (.int (valS p.contents))), ("q", .scalar (.int (valS q.contents))), ("g", .scalar (.int (valS g.contents)))])]) := by
    have d1 : DerHead dsaElement := der_short (cs := [0x2a, 0x86, 0x48, 0xce, 0x38, 4, 1]) (by omega) (by omega) (by omega) (by simp)
    refine .seq (fields := shapeFields keys.PrivateKeyAlgorithm)
      (ns := [.scalar (.str "dsa".toList), .dict [("p", .scalar (.int (valS p.contents))), ("q", .scalar (.int (valS q.contents))), ("g", .scalar (.int (valS g.contents)))]])
      rfl (by intro h; cases h) ⟨derHead_ber a1, .nil, by simp [a2, a4]⟩ a3 ?_
    rw [a5]
    refine .present (f := ⟨"algorithm", Id.keys.PrivateKeyAlgorithmId, {}⟩) (pick := .same) rfl
      (.leaf rfl ⟨derHead_ber d1, .nil, rfl⟩ (.inl ⟨rfl, readsB_sound (by kernel_rfl)⟩)) ?_
    exact .present (f := ⟨"parameters", Id.core.Any, { optional := true }⟩) (pick := .value Id.keys.DSAParams) ⟨_, _, rfl, rfl, by kernel_rfl⟩ eP .nil
  refine .seq (fields := shapeFields keys.PrivateKeyInfo) (ns := [.scalar (.int 0), .dict [("algorithm", .scalar (.str "dsa".toList)),
        ("parameters", .dict [("p", .scalar (.int (valS p.contents))), ("q", .scalar (.int (valS q.contents))), ("g", .scalar (.int (valS g.contents)))])],
        .scalar (.int (valS x.contents)), .scalar .none]) rfl (by intro h; cases h) ⟨derHead_ber t1, .nil, by simp [t2, t4]⟩ t3 ?_
  rw [t5]
  refine .present (f := ⟨"version", Id.core.Integer, {}⟩) (pick := .same) (by simp [Decides]) (int_enc K zero_int) ?_
  refine .present (f := ⟨"private_key_algorithm", Id.keys.PrivateKeyAlgorithm, {}⟩) (pick := .same) (by simp [Decides]) eA ?_
  refine .present (f := ⟨"private_key", Id.core.ParsableOctetString, {}⟩) (pick := .value Id.core.Integer) ⟨_, _, rfl, ⟨_, _, rfl, rfl⟩, by kernel_rfl⟩ ?_ ?_
  · exact .payload (o := { cls := 0, method := 0, tag := 4 }) (isBit := false) rfl ⟨derHead_ber s1, .nil, by simp [s2, s4]⟩ s3 (by simp [s5, stringContents]) (int_enc K hx)
  · exact .absent rfl rfl .nil

/-- What `wrap` does with the instance of the key. -/
theorem dsa_steps (j : Nat) {h c : Fin 6 → Bytes} (hi : ∀ i, IntElement ⟨0, 0, 2, h i, c i, []⟩) {hd tr hp ha hs ht : Bytes}
    (d1 : dumpHeader 0 1 16 (dsaThree h c) = .ok hp) (d2 : dumpHeader 0 1 16 (dsaOid ++ (hp ++ dsaThree h c)) = .ok ha)
    (d3 : dumpHeader 0 0 4 (h 5 ++ c 5) = .ok hs)
    (d4 : dumpHeader 0 1 16 ([2, 1, 0] ++ (ha ++ (dsaOid ++ (hp ++ dsaThree h c)) ++ (hs ++ (h 5 ++ c 5)))) = .ok ht) {k : Val}
    (hk : k = dsaNode hd (h 0 ++ c 0 ++ (h 1 ++ c 1 ++ (h 2 ++ c 2 ++ (h 3 ++ c 3 ++ (h 4 ++ c 4 ++ (h 5 ++ c 5)))))) tr none) (b : Bytes)
    (hb : loadVal (env K) (ops (env K) (j + 20)) Id.keys.DSAPrivateKey {} b = .ok k) :
    ∃ v u, wrapPrivateDsa (env K) (ops (env K) (j + 20)) (.bytes b) = .ok (v, dsaInt (h 4) (c 4) none) ∧
      wrapPrivateDsa (env K) (ops (env K) (j + 20)) (.value k) = .ok (v, dsaInt (h 4) (c 4) none) ∧
      (ops (env K) (j + 20)).dump v false = .ok (ht ++ ([2, 1, 0] ++ (ha ++ (dsaOid ++ (hp ++ dsaThree h c)) ++ (hs ++ (h 5 ++ c 5)))), u) := by
  obtain ⟨a, b', d, t3, e1⟩ := dsa_algo K j hi ⟨none, none, none, .inl rfl, .inl rfl, .inl rfl, rfl, rfl, rfl⟩
  obtain ⟨m, _, e2⟩ := int_dump K (j + 19) (hi 5) (n := none) (.inl rfl)
  obtain ⟨u, e3⟩ := cont_dump K j t3 (v := dsaInt (h 5) (c 5) m) (hp := some hp) (ct := dsaThree h c) d2 d3 d4
  have hcl : k.classOf = some Id.keys.DSAPrivateKey := by rw [hk]; rfl
  refine ⟨_, u, ?_, ?_, e3⟩
  · unfold wrapPrivateDsa
    simp only [hb, bind, Except.bind]
    rw [hk]
    simp only [dsa_parts K j hi, e1, empty_private K (j + 19), zero_built K j, dsa_version K j, cont_set_algo K j t3 d1, cont_set_key K j e2]
  · unfold wrapPrivateDsa
    simp only [hcl, if_true, bind, Except.bind]
    rw [hk]
    simp only [dsa_parts K j hi, e1, empty_private K (j + 19), zero_built K j, dsa_version K j, cont_set_algo K j t3 d1, cont_set_key K j e2]

/-- `PrivateKeyInfo.wrap(key, 'dsa')` with the bytes of a DSA key, or with the instance loaded from them: the result is written as the DER encoding of the
PrivateKeyInfo with exactly the parameters p, q and g of the key and with its private value, element by element; it is read back as these numbers; and the
public value that is kept with the container is that of the key. -/
theorem C64_wrap {w v p q g y x t : TLV} (hw : DsaKey w v p q g y x) (ht : DsaInfo p q g x t) {k : Val} (hk : LoadedFrom (env K) Id.keys.DSAPrivateKey w k) :
    ∃ N, ∀ j ≥ N, ∃ c pub u l z pub', wrapPrivateDsa (env K) (ops (env K) j) (.bytes w.bytes) = .ok (c, pub) ∧
      wrapPrivateDsa (env K) (ops (env K) j) (.value k) = .ok (c, pub) ∧
      (ops (env K) j).dump c false = .ok (t.bytes, u) ∧
      loadVal (env K) (ops (env K) j) Id.keys.PrivateKeyInfo {} t.bytes = .ok l ∧ (ops (env K) j).native l = .ok (dsaValue p q g x, z) ∧
      (ops (env K) j).native pub = .ok (.scalar (.int (valS y.contents)), pub') := by
  obtain ⟨w1, ⟨w2, w3, w4⟩, w5, w6⟩ := hw
  have iv := w5 v (by simp)
  have ip := w5 p (by simp)
  have iq := w5 q (by simp)
  have ig := w5 g (by simp)
  have iy := w5 y (by simp)
  have ix := w5 x (by simp)
  obtain ⟨N, hn⟩ := C51_native_partial K (by decide) (by intro h; cases h) (dsa_enc K ip iq ig ix ht)
  obtain ⟨P, A, s, ⟨p1, p2, p3, p4, p5⟩, ⟨a1, a2, a3, a4, a5⟩, ⟨s1, s2, s3, s4, s5⟩, t1, t2, t3, t4, t5⟩ := ht
  obtain ⟨hv, cv, rfl⟩ := int_shape iv
  obtain ⟨hp, cp, rfl⟩ := int_shape ip
  obtain ⟨hq, cq, rfl⟩ := int_shape iq
  obtain ⟨hg, cg, rfl⟩ := int_shape ig
  obtain ⟨hy, cy, rfl⟩ := int_shape iy
  obtain ⟨hx, cx, rfl⟩ := int_shape ix
  let h : Fin 6 → Bytes := fun
    | 0 => hv | 1 => hp | 2 => hq | 3 => hg | 4 => hy | 5 => hx
  let c : Fin 6 → Bytes := fun
    | 0 => cv | 1 => cp | 2 => cq | 3 => cg | 4 => cy | 5 => cx
  have hi : ∀ i, IntElement ⟨0, 0, 2, h i, c i, []⟩ := fun
    | 0 => iv | 1 => ip | 2 => iq | 3 => ig | 4 => iy | 5 => ix
  have e1 : P.contents = dsaThree h c := by rw [p5]; simp [dsaThree, TLV.bytes, h, c]
  have e2 : A.contents = dsaOid ++ (P.header ++ dsaThree h c) := by
    rw [a5, ← e1]
    have : P.trailer = [] := by obtain ⟨_, _, _, _, _, h⟩ := p1; exact h
    simp [TLV.bytes, dsaElement, dsaOid, this]
  have e3 : s.contents = h 5 ++ c 5 := by rw [s5]; simp [TLV.bytes, h, c]
  have e4 : t.contents = [2, 1, 0] ++ (A.header ++ (dsaOid ++ (P.header ++ dsaThree h c)) ++ (s.header ++ (h 5 ++ c 5))) := by
    rw [t5, ← e2, ← e3]
    have g1 : A.trailer = [] := by obtain ⟨_, _, _, _, _, h⟩ := a1; exact h
    have g2 : s.trailer = [] := by obtain ⟨_, _, _, _, _, h⟩ := s1; exact h
    simp [TLV.bytes, zeroElement, g1, g2]
  have e5 : t.bytes = t.header ++ t.contents := by
    have : t.trailer = [] := by obtain ⟨_, _, _, _, _, h⟩ := t1; exact h
    simp [TLV.bytes, this]
  have d1 := derHead_dumpHeader p1
  have d2 := derHead_dumpHeader a1
  have d3 := derHead_dumpHeader s1
  have d4 := derHead_dumpHeader t1
  rw [p2, p3, p4, e1] at d1
  rw [a2, a3, a4, e2] at d2
  rw [s2, s3, s4, e3] at d3
  rw [t2, t3, t4, e4] at d4
  have hc : (env K).cls Id.keys.DSAPrivateKey = .seq { cls := 0, method := 1, tag := 16 } [] false (shapeFields keys.DSAPrivateKey) none := rfl
  have hv : k = loadedSeq Id.keys.DSAPrivateKey { cls := 0, method := 1, tag := 16 } w := by
    refine Ev.unique (f := fun j => loadVal (env K) (ops (env K) j) Id.keys.DSAPrivateKey {} w.bytes) hk (Ev.up (Ev.of (fun j => ?_)))
    obtain ⟨i, hi, hp⟩ := parse_front (rest := []) w1 false (fun h => by cases h)
    rw [List.append_nil] at hp
    simp only [loadVal, hp, bind, Except.bind, hc]
    exact build_seq_plain (pkg_types K) (by decide) hc (by simp [w2, w4]) w3 i hi j
  have hw : k = dsaNode w.header (h 0 ++ c 0 ++ (h 1 ++ c 1 ++ (h 2 ++ c 2 ++ (h 3 ++ c 3 ++ (h 4 ++ c 4 ++ (h 5 ++ c 5)))))) w.trailer none := by
    rw [hv, loadedSeq, w6]
    simp [dsaNode, TLV.bytes, h, c]
  obtain ⟨L, hl⟩ := hk
  refine ⟨max (max N L) 20, fun j hj => ?_⟩
  obtain ⟨l, z, n1, n2⟩ := hn j (by omega)
  obtain ⟨i, rfl⟩ : ∃ i, j = i + 20 := ⟨j - 20, by omega⟩
  obtain ⟨r, u, f1, f2, f3⟩ := dsa_steps K i hi d1 d2 d3 d4 hw w.bytes (hl (i + 20) (by omega))
  refine ⟨r, _, u, l, z, dsaInt hy cy (some (.int (valS cy))), f1, f2, ?_, n1, n2, ?_⟩
  · rw [f3, e5, e4]
  · rw [ops_native]
    simp [nativeStep, dsaInt, LeafSt.native, Integer.native, intFromBytes_signed, h, c, LeafSt.optScalar, LeafSt.ofIntNative, bind, Except.bind, pure, Except.pure]

/-- Bytes that are not a SEQUENCE of the six numbers are not wrapped: when the key does not load, neither does `wrap` return; an instance of another class is
refused. -/
theorem C64_refused (j : Nat) : (∀ b e, loadVal (env K) (ops (env K) j) Id.keys.DSAPrivateKey {} b = .error e → wrapPrivateDsa (env K) (ops (env K) j) (.bytes b) = .error e) ∧
    (∀ v, v.classOf ≠ some Id.keys.DSAPrivateKey → wrapPrivateDsa (env K) (ops (env K) j) (.value v) = .error .typeError) := by
  constructor
  · intro b e h
    unfold wrapPrivateDsa
    simp only [h, bind, Except.bind]
  · intro v h
    unfold wrapPrivateDsa
    simp only [if_neg h, bind, Except.bind]

/-! ### A concrete key -/

/-- INTEGER n -/
def smallInt (n : UInt8) : TLV := ⟨0, 0, 2, [2, 1], [n], []⟩

theorem smallInt_ok (n : UInt8) : IntElement (smallInt n) :=
  ⟨der_short (cs := [n]) (by omega) (by omega) (by omega) (by simp), rfl, rfl, rfl, by simp [smallInt], fun d hd _ => by
    cases d with
    | nil => exact absurd rfl hd
    | cons _ _ => simp [smallInt]⟩

/-- p = 7, q = 3, g = 2, y = 4, x = 2, with a length that is longer than it need be. -/
def smallDsa : TLV := ⟨0, 1, 16, [0x30, 0x81, 18], [2, 1, 0, 2, 1, 7, 2, 1, 3, 2, 1, 2, 2, 1, 4, 2, 1, 2], []⟩

theorem smallDsa_ok : DsaKey smallDsa (smallInt 0) (smallInt 7) (smallInt 3) (smallInt 2) (smallInt 4) (smallInt 2) := by
  refine ⟨?_, ⟨rfl, rfl, rfl⟩, ?_, rfl⟩
  · have h : parse smallDsa.bytes = .ok ⟨0, 1, 16, [0x30, 0x81, 18], [2, 1, 0, 2, 1, 7, 2, 1, 3, 2, 1, 2, 2, 1, 4, 2, 1, 2], []⟩ := by kernel_rfl
    obtain ⟨rest, _, hb⟩ := (parse_ok_iff _ _).mp h
    exact hb
  · intro t ht
    simp only [List.mem_cons, List.not_mem_nil, or_false] at ht
    rcases ht with rfl | rfl | rfl | rfl | rfl | rfl <;> exact smallInt_ok _

/-- The container for it. -/
def smallDsaInfo : TLV :=
  ⟨0, 1, 16, [0x30, 0x1e], [2, 1, 0, 0x30, 20, 6, 7, 0x2a, 0x86, 0x48, 0xce, 0x38, 4, 1, 0x30, 9, 2, 1, 7, 2, 1, 3, 2, 1, 2, 4, 3, 2, 1, 2], []⟩

theorem smallDsaInfo_ok : DsaInfo (smallInt 7) (smallInt 3) (smallInt 2) (smallInt 2) smallDsaInfo :=
  ⟨⟨0, 1, 16, [0x30, 9], [2, 1, 7, 2, 1, 3, 2, 1, 2], []⟩,
    ⟨0, 1, 16, [0x30, 20], [6, 7, 0x2a, 0x86, 0x48, 0xce, 0x38, 4, 1, 0x30, 9, 2, 1, 7, 2, 1, 3, 2, 1, 2], []⟩, ⟨0, 0, 4, [4, 3], [2, 1, 2], []⟩,
    ⟨der_short (cs := [2, 1, 7, 2, 1, 3, 2, 1, 2]) (by omega) (by omega) (by omega) (by simp), rfl, rfl, rfl, rfl⟩,
    ⟨der_short (cs := [6, 7, 0x2a, 0x86, 0x48, 0xce, 0x38, 4, 1, 0x30, 9, 2, 1, 7, 2, 1, 3, 2, 1, 2]) (by omega) (by omega) (by omega) (by simp), rfl, rfl, rfl, rfl⟩,
    ⟨der_short (cs := [2, 1, 2]) (by omega) (by omega) (by omega) (by simp), rfl, rfl, rfl, rfl⟩,
    ⟨der_short (cs := [2, 1, 0, 0x30, 20, 6, 7, 0x2a, 0x86, 0x48, 0xce, 0x38, 4, 1, 0x30, 9, 2, 1, 7, 2, 1, 3, 2, 1, 2, 4, 3, 2, 1, 2]) (by omega) (by omega) (by omega)
      (by simp), rfl, rfl, rfl, rfl⟩⟩

example : ∃ k, LoadedFrom (env K) Id.keys.DSAPrivateKey smallDsa k := by
  refine ⟨.node Id.keys.DSAPrivateKey { cls := 0, method := 1, tag := 16, header := some smallDsa.header, contents := some smallDsa.contents, trailer := [] } none false,
    20, fun j hj => ?_⟩
  obtain ⟨i, rfl⟩ : ∃ i, j = i + 20 := ⟨j - 20, by omega⟩
  kernel_rfl

example {k : Val} (hk : LoadedFrom (env K) Id.keys.DSAPrivateKey smallDsa k) : ∃ N, ∀ j ≥ N, ∃ c pub u,
    wrapPrivateDsa (env K) (ops (env K) j) (.value k) = .ok (c, pub) ∧ (ops (env K) j).dump c false = .ok (smallDsaInfo.bytes, u) := by
  obtain ⟨N, h⟩ := C64_wrap K smallDsa_ok smallDsaInfo_ok hk
  refine ⟨N, fun j hj => ?_⟩
  obtain ⟨c, pub, u, _, _, _, _, h1, h2, _⟩ := h j hj
  exact ⟨c, pub, u, h1, h2⟩

end Asn1.Props
