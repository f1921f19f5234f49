import Verif.Props.C51
import Verif.Model.KeyWrap
import Verif.Spec.KeyWrap
import Verif.Props.C53

/-! # C55: RSA keys are wrapped in the structures of X.509 and PKCS#8 -/

namespace Asn1.Props
open Asn1 Asn1.Spec Pkg

variable (K : Codecs)

/-- `Null()` -/
def nullVal : Val := .leaf Id.core.Null (.null { cls := 0, method := 0, tag := 5, contents := some [] })

theorem null_built (j : Nat) : (ops (env K) (j + 20)).construct Id.core.Null {} (.scalar .none) = .ok nullVal := by kernel_rfl

/-- The value, if there is one. -/
def valOf (x : Py Val) : Val :=
  match x with
  | .ok v => v
  | _ => .void

/-- `PublicKeyAlgorithmId('rsa')`, or the same for private keys -/
def rsaName (i : ClassId) : Val := valOf ((ops (env K) 20).construct i {} (.scalar (.str "rsa".toList)))

/-- The dict of the fields of an algorithm identifier. -/
def algoGiven (i : ClassId) : PyVal := .dict [("algorithm", .asn1 (rsaName K i)), ("parameters", .asn1 nullVal)]

/-- The algorithm identifier. -/
def rsaAlgo (c i : ClassId) : Val := valOf ((ops (env K) 20).construct c {} (algoGiven K i))

/-- The value of the algorithm identifier. -/
def rsaAlgoValue : PyVal := .dict [("algorithm", .scalar (.str "rsa".toList)), ("parameters", .scalar .none)]

theorem pub_name (j : Nat) : (ops (env K) (j + 20)).construct Id.keys.PublicKeyAlgorithmId {} (.scalar (.str "rsa".toList)) =
    .ok (rsaName K Id.keys.PublicKeyAlgorithmId) := by kernel_rfl

theorem priv_name (j : Nat) : (ops (env K) (j + 20)).construct Id.keys.PrivateKeyAlgorithmId {} (.scalar (.str "rsa".toList)) =
    .ok (rsaName K Id.keys.PrivateKeyAlgorithmId) := by kernel_rfl

theorem pub_algo (j : Nat) : (ops (env K) (j + 20)).construct Id.keys.PublicKeyAlgorithm {} (algoGiven K Id.keys.PublicKeyAlgorithmId) =
    .ok (rsaAlgo K Id.keys.PublicKeyAlgorithm Id.keys.PublicKeyAlgorithmId) := by kernel_rfl

theorem priv_algo (j : Nat) : (ops (env K) (j + 20)).construct Id.keys.PrivateKeyAlgorithm {} (algoGiven K Id.keys.PrivateKeyAlgorithmId) =
    .ok (rsaAlgo K Id.keys.PrivateKeyAlgorithm Id.keys.PrivateKeyAlgorithmId) := by kernel_rfl

theorem pub_wrapped (j : Nat) : wrapAlgorithm (env K) (ops (env K) (j + 20)) Id.keys.PublicKeyAlgorithm Id.keys.PublicKeyAlgorithmId "rsa" =
    .ok (rsaAlgo K Id.keys.PublicKeyAlgorithm Id.keys.PublicKeyAlgorithmId) := by kernel_rfl

theorem priv_wrapped (j : Nat) : wrapAlgorithm (env K) (ops (env K) (j + 20)) Id.keys.PrivateKeyAlgorithm Id.keys.PrivateKeyAlgorithmId "rsa" =
    .ok (rsaAlgo K Id.keys.PrivateKeyAlgorithm Id.keys.PrivateKeyAlgorithmId) := by kernel_rfl

theorem built_of {E : Env} {c : ClassId} {x : PyVal} {v : Val} (h : ∀ j, (ops E (j + 20)).construct c {} x = .ok v) : Built E c x v :=
  ⟨20, fun j hj => by obtain ⟨k, rfl⟩ : ∃ k, j = k + 20 := ⟨j - 20, by omega⟩; exact h k⟩

/-- The element of the algorithm identifier. -/
def rsaElement : TLV := ⟨0, 1, 16, [0x30, 0x0d], [6, 9, 0x2a, 0x86, 0x48, 0x86, 0xf7, 0x0d, 1, 1, 1, 5, 0], []⟩

theorem rsaElement_bytes : rsaElement.bytes = rsaAlgorithm := rfl

theorem rsaElement_head : DerHead rsaElement :=
  der_short (cs := [6, 9, 0x2a, 0x86, 0x48, 0x86, 0xf7, 0x0d, 1, 1, 1, 5, 0]) (by omega) (by omega) (by omega) (by simp)

theorem pub_gives : Gives (env K) (· < size) Id.keys.PublicKeyAlgorithm (algoGiven K Id.keys.PublicKeyAlgorithmId)
    (.octets 1 rsaElement.contents) rsaAlgoValue := by
  have d1 : DerHead ⟨0, 0, 6, [6, 9], [0x2a, 0x86, 0x48, 0x86, 0xf7, 0x0d, 1, 1, 1], []⟩ :=
    der_short (cs := [0x2a, 0x86, 0x48, 0x86, 0xf7, 0x0d, 1, 1, 1]) (by omega) (by omega) (by omega) (by simp)
  have d2 : DerHead ⟨0, 0, 5, [5, 0], [], []⟩ := der_short (cs := []) (by omega) (by omega) (by omega) (by simp)
  refine .seq (fields := shapeFields keys.PublicKeyAlgorithm) (ns := [.scalar (.str "rsa".toList), .scalar .none]) rfl ?_ ?_ ?_
  · refine .given (f := ⟨"algorithm", Id.keys.PublicKeyAlgorithmId, {}⟩) (pick := .same) (x := .asn1 (rsaName K Id.keys.PublicKeyAlgorithmId))
      (t := ⟨0, 0, 6, [6, 9], [0x2a, 0x86, 0x48, 0x86, 0xf7, 0x0d, 1, 1, 1], []⟩) (b := [5, 0]) (by rfl) (by rfl) ?_ rfl ?_
    · exact .inst (pick := .same) (b := .octets 0 [0x2a, 0x86, 0x48, 0x86, 0xf7, 0x0d, 1, 1, 1]) rfl (built_of (pub_name K))
        (.leaf rfl (fun o h => by cases h) (fun h => by cases h) (writtenB_sound (by kernel_rfl))) ⟨(0, 6), _, rfl, ⟨.nil d1, rfl⟩, rfl, rfl⟩
    · refine .given (f := ⟨"parameters", Id.core.Any, { optional := true }⟩) (pick := .value Id.core.Null) (x := .asn1 nullVal)
        (t := ⟨0, 0, 5, [5, 0], [], []⟩) (b := []) (by rfl) ⟨_, _, rfl, rfl, by kernel_rfl⟩ ?_ rfl .nil
      exact .inst (pick := .value Id.core.Null) (b := .octets 0 []) rfl (built_of (null_built K)) (.null rfl rfl) ⟨(0, 5), _, rfl, ⟨.nil d2, rfl⟩, rfl, rfl⟩
  · exact ⟨_, .head _, by simp [algoGiven, valueOf]⟩
  · intro e he
    simp only [algoGiven, List.mem_cons, List.not_mem_nil, or_false] at he
    rcases he with rfl | rfl
    · exact ⟨_, .head _, rfl⟩
    · exact ⟨_, .tail _ (.head _), rfl⟩

theorem priv_gives : Gives (env K) (· < size) Id.keys.PrivateKeyAlgorithm (algoGiven K Id.keys.PrivateKeyAlgorithmId)
    (.octets 1 rsaElement.contents) rsaAlgoValue := by
  have d1 : DerHead ⟨0, 0, 6, [6, 9], [0x2a, 0x86, 0x48, 0x86, 0xf7, 0x0d, 1, 1, 1], []⟩ :=
    der_short (cs := [0x2a, 0x86, 0x48, 0x86, 0xf7, 0x0d, 1, 1, 1]) (by omega) (by omega) (by omega) (by simp)
  have d2 : DerHead ⟨0, 0, 5, [5, 0], [], []⟩ := der_short (cs := []) (by omega) (by omega) (by omega) (by simp)
  refine .seq (fields := shapeFields keys.PrivateKeyAlgorithm) (ns := [.scalar (.str "rsa".toList), .scalar .none]) rfl ?_ ?_ ?_
  · refine .given (f := ⟨"algorithm", Id.keys.PrivateKeyAlgorithmId, {}⟩) (pick := .same) (x := .asn1 (rsaName K Id.keys.PrivateKeyAlgorithmId))
      (t := ⟨0, 0, 6, [6, 9], [0x2a, 0x86, 0x48, 0x86, 0xf7, 0x0d, 1, 1, 1], []⟩) (b := [5, 0]) (by rfl) (by rfl) ?_ rfl ?_
    · exact .inst (pick := .same) (b := .octets 0 [0x2a, 0x86, 0x48, 0x86, 0xf7, 0x0d, 1, 1, 1]) rfl (built_of (priv_name K))
        (.leaf rfl (fun o h => by cases h) (fun h => by cases h) (writtenB_sound (by kernel_rfl))) ⟨(0, 6), _, rfl, ⟨.nil d1, rfl⟩, rfl, rfl⟩
    · refine .given (f := ⟨"parameters", Id.core.Any, { optional := true }⟩) (pick := .value Id.core.Null) (x := .asn1 nullVal)
        (t := ⟨0, 0, 5, [5, 0], [], []⟩) (b := []) (by rfl) ⟨_, _, rfl, rfl, by kernel_rfl⟩ ?_ rfl .nil
      exact .inst (pick := .value Id.core.Null) (b := .octets 0 []) rfl (built_of (null_built K)) (.null rfl rfl) ⟨(0, 5), _, rfl, ⟨.nil d2, rfl⟩, rfl, rfl⟩
  · exact ⟨_, .head _, by simp [algoGiven, valueOf]⟩
  · intro e he
    simp only [algoGiven, List.mem_cons, List.not_mem_nil, or_false] at he
    rcases he with rfl | rfl
    · exact ⟨_, .head _, rfl⟩
    · exact ⟨_, .tail _ (.head _), rfl⟩

/-! ### Public keys -/

/-- `PublicKeyInfo()` -/
def emptyPublic : Val := .node Id.keys.PublicKeyInfo { cls := 0, method := 1, tag := 16 } none false

theorem empty_public (j : Nat) : (ops (env K) (j + 1)).construct Id.keys.PublicKeyInfo {} (.scalar .none) = .ok emptyPublic := rfl

theorem public_steps {r : Ops} {a s : PyVal} :
    constructStep (env K) r Id.keys.PublicKeyInfo {} (.dict [("algorithm", a), ("public_key", s)]) =
      (setField (env K) r emptyPublic 0 a).bind (fun c => (setField (env K) r c 1 s).bind .ok) := by
  show (setFromDict (env K) r [("algorithm", a), ("public_key", s)] false (shapeFields keys.PublicKeyInfo) 0 emptyPublic).bind (fun v =>
    if [("algorithm", a), ("public_key", s)].all (fun e => (shapeFields keys.PublicKeyInfo).any (fun f => f.name == e.1)) then .ok v
    else .error .valueError) = _
  have h : ([("algorithm", a), ("public_key", s)].all (fun e => (shapeFields keys.PublicKeyInfo).any (fun f => f.name == e.1))) = true := by kernel_rfl
  simp only [h, if_true]
  have h2 : setFromDict (env K) r [("algorithm", a), ("public_key", s)] false (shapeFields keys.PublicKeyInfo) 0 emptyPublic =
    (setField (env K) r emptyPublic 0 a).bind (fun c => (setField (env K) r c 1 s).bind .ok) := by kernel_rfl
  rw [h2]
  cases setField (env K) r emptyPublic 0 a with
  | error e => rfl
  | ok c => cases hs : setField (env K) r c 1 s <;> simp [Except.bind, hs]

/-- The parts of an instance made from a dict with the two fields. -/
theorem public_made {a s : PyVal} {v : Val} (h : Ev (fun j => (ops (env K) j).construct Id.keys.PublicKeyInfo {} (.dict [("algorithm", a), ("public_key", s)]) = .ok v)) :
    Ev (fun j => (setField (env K) (ops (env K) j) emptyPublic 0 a).bind (fun c => setField (env K) (ops (env K) j) c 1 s) = .ok v) := by
  refine h.down.mono (fun j hj => ?_)
  rw [ops_construct, public_steps] at hj
  rw [← hj]
  cases setField (env K) (ops (env K) j) emptyPublic 0 a with
  | error e => rfl
  | ok c => cases hs : setField (env K) (ops (env K) j) c 1 s <;> simp [Except.bind, hs]

/-- The value of a public key info. -/
def publicValue (n : PyVal) : PyVal := .dict [("algorithm", rsaAlgoValue), ("public_key", n)]

/-- The string around the key. -/
def keyString (b : Bytes) : Val := .parsable Id.core.ParsableOctetBitString (parsableSet true { cls := 0, method := 0, tag := 3 } b) none none

theorem keyString_built (b : Bytes) (j : Nat) : (ops (env K) (j + 20)).construct Id.core.ParsableOctetBitString {} (.scalar (.bytes b)) = .ok (keyString b) := rfl

theorem public_gives {w t : TLV} {n : PyVal} (hw : Enc (env K) (· < size) (some Id.keys.RSAPublicKey) none {} w n) (ht : PublicInfo w.bytes t) :
    Gives (env K) (· < size) Id.keys.PublicKeyInfo
      (.dict [("algorithm", .asn1 (rsaAlgo K Id.keys.PublicKeyAlgorithm Id.keys.PublicKeyAlgorithmId)), ("public_key", .asn1 (keyString w.bytes))])
      (.octets 1 t.contents) (publicValue n) ∧ DerElement (env K) Id.keys.PublicKeyInfo {} (.octets 1 t.contents) t := by
  obtain ⟨s, ⟨s1, s2, s3, s4, s5⟩, t1, t2, t3, t4, t5⟩ := ht
  refine ⟨?_, ⟨(0, 16), t, rfl, ⟨.nil t1, by simp [t2, t4]⟩, t3, rfl⟩⟩
  rw [t5]
  refine .seq (fields := shapeFields keys.PublicKeyInfo) (ns := [rsaAlgoValue, n]) rfl ?_ ?_ ?_
  · refine .given (f := ⟨"algorithm", Id.keys.PublicKeyAlgorithm, {}⟩) (pick := .same)
      (x := .asn1 (rsaAlgo K Id.keys.PublicKeyAlgorithm Id.keys.PublicKeyAlgorithmId)) (t := rsaElement) (b := s.bytes) (by rfl) (by rfl) ?_ rfl ?_
    · exact .inst (pick := .same) rfl (built_of (pub_algo K)) (pub_gives K) ⟨(0, 16), _, rfl, ⟨.nil rsaElement_head, rfl⟩, rfl, rfl⟩
    · rw [← List.append_nil s.bytes]
      refine .given (f := ⟨"public_key", Id.core.ParsableOctetBitString, {}⟩) (pick := .value Id.keys.RSAPublicKey) (x := .asn1 (keyString w.bytes))
        (t := s) (b := []) (by rfl) ⟨_, _, rfl, ⟨_, _, rfl, rfl⟩, by kernel_rfl⟩ ?_ rfl .nil
      exact .octets (o := { cls := 0, method := 0, tag := 3 }) (isBit := true) (proto := { cls := 0, method := 1, tag := 16 }) (bad := []) (isSet := false)
        (fields := shapeFields keys.RSAPublicKey) (oid := none) rfl rfl (built_of (keyString_built K w.bytes)) hw ⟨.nil s1, by simp [s2, s4]⟩ s3 s5
  · exact ⟨_, .head _, by simp [valueOf]⟩
  · intro e he
    simp only [List.mem_cons, List.not_mem_nil, or_false] at he
    rcases he with rfl | rfl
    · exact ⟨_, .head _, rfl⟩
    · exact ⟨_, .tail _ (.head _), rfl⟩

theorem pkg_usable {c : ClassId} (hc : c < size) : Usable (env K) (· < size) c {} :=
  usableB_sound (D := []) (fun e he => by cases he) (by simp [usableB, goodTagsB, hc])

/-- What is made, written, and read back. -/
theorem public_result {w t : TLV} {n : PyVal} (hw : Enc (env K) (· < size) (some Id.keys.RSAPublicKey) none {} w n) (ht : PublicInfo w.bytes t) :
    ∃ v, Ev (fun j => (setField (env K) (ops (env K) j) emptyPublic 0 (.asn1 (rsaAlgo K Id.keys.PublicKeyAlgorithm Id.keys.PublicKeyAlgorithmId))).bind
        (fun c => setField (env K) (ops (env K) j) c 1 (.asn1 (keyString w.bytes))) = .ok v) ∧
      ∃ N, ∀ j ≥ N, ∃ u x z, (ops (env K) j).dump v false = .ok (t.bytes, u) ∧
        loadVal (env K) (ops (env K) j) Id.keys.PublicKeyInfo {} t.bytes = .ok x ∧ (ops (env K) j).native x = .ok (publicValue n, z) := by
  obtain ⟨g, d⟩ := public_gives K hw ht
  have hu : Usable (env K) (· < size) Id.keys.PublicKeyInfo {} := pkg_usable K (by decide)
  obtain ⟨N, v, u, h1⟩ := C53_dump_partial (pkg_types K) (pkg_makable K) hu g d (fun _ => rfl)
  obtain ⟨M, h2⟩ := C53_package_partial K (by decide) g d
  refine ⟨v, public_made K ⟨N, fun j hj => (h1 j hj).1⟩, max N M, fun j hj => ?_⟩
  obtain ⟨v', w', bytes, x, z, k1, k2, rfl, k4, k5⟩ := h2 j (by omega)
  exact ⟨u, x, z, (h1 j (by omega)).2, k4, k5⟩

/-- `PublicKeyInfo.wrap(key, 'rsa')` with the encoding of an RSA public key: the result is written as the DER encoding of the SubjectPublicKeyInfo with
exactly these bytes as key, and this is read back as the algorithm and the value of the key. -/
theorem C55_public {w t : TLV} {n : PyVal} (hw : Enc (env K) (· < size) (some Id.keys.RSAPublicKey) none {} w n) (ht : PublicInfo w.bytes t) :
    ∃ N, ∀ j ≥ N, ∃ v u x z, wrapPublic (env K) (ops (env K) j) (.bytes w.bytes) "rsa" = .ok v ∧ (ops (env K) j).dump v false = .ok (t.bytes, u) ∧
      loadVal (env K) (ops (env K) j) Id.keys.PublicKeyInfo {} t.bytes = .ok x ∧ (ops (env K) j).native x = .ok (publicValue n, z) := by
  obtain ⟨v, ⟨N, h1⟩, M, h2⟩ := public_result K hw ht
  refine ⟨max (max N M) 20, fun j hj => ?_⟩
  obtain ⟨u, x, z, k⟩ := h2 j (by omega)
  refine ⟨v, u, x, z, ?_, k⟩
  obtain ⟨i, rfl⟩ : ∃ i, j = i + 20 := ⟨j - 20, by omega⟩
  unfold wrapPublic
  rw [if_neg (by simp), pub_wrapped K i, ← h1 (i + 20) (by omega)]
  simp only [bind, Except.bind, empty_public K (i + 19), keyString_built K w.bytes i]

theorem untag_loaded {E : Env} {d : ClassId} {proto : Obj Unit} {bad : List Nat} {isSet : Bool} {fields : List Field} {oid : Option OidPair} {w : TLV}
    (hc : E.cls d = .seq proto bad isSet fields oid) (hb : Bare proto 1) (hid : (w.cls, w.tag) = (proto.cls, proto.tag)) (hm : w.method = 1) (hd : DerHead w)
    (j : Nat) : ∃ v u, untag E (ops E (j + 1)) (loadedSeq d proto w) = .ok v ∧ (ops E (j + 1)).dump v false = .ok (w.bytes, u) := by
  injection hid with h1 h2
  have hdh := derHead_dumpHeader hd
  rw [hm] at hdh
  have htr : w.trailer = [] := by obtain ⟨_, _, _, _, _, h⟩ := hd; exact h
  have hr : checkRequired E d none = .ok () := by
    unfold checkRequired
    cases E.cls d <;> rfl
  let o : Obj Unit := { cls := w.cls, method := 1, tag := w.tag, implicit := proto.implicit, explicit := proto.explicit, contents := some w.contents }
  refine ⟨.node d o none false, .node d { o with header := some w.header, trailer := [] } none false, ?_, ?_⟩
  · unfold untag retag
    simp only [protoTagging, loadedSeq, Val.classOf, hc, Shape.tagging, ops_copyTo, copyStep, nodeContents, bind, Except.bind, List.append_nil]
    simp only [o, h1, h2]
  · rw [ops_dump]
    simp only [o, dumpStep, nodeDump, headerEnds80_none, Bool.or_false, Bool.false_and, Bool.false_eq_true, if_false, hr, nodeContents, bind, Except.bind,
      asn1Dump, hdh, hb.explicit, wrapExplicit, TLV.bytes, htr, List.append_nil]

/-- The same with a key that has been loaded from its DER encoding. -/
theorem C55_public_loaded {w t : TLV} {n : PyVal} {k : Val} (hw : Enc (env K) (· < size) (some Id.keys.RSAPublicKey) none {} w n) (hd : DerHead w)
    (hk : LoadedFrom (env K) Id.keys.RSAPublicKey w k) (ht : PublicInfo w.bytes t) :
    ∃ N, ∀ j ≥ N, ∃ v u x z, wrapPublic (env K) (ops (env K) j) (.value k) "rsa" = .ok v ∧ (ops (env K) j).dump v false = .ok (t.bytes, u) ∧
      loadVal (env K) (ops (env K) j) Id.keys.PublicKeyInfo {} t.bytes = .ok x ∧ (ops (env K) j).native x = .ok (publicValue n, z) := by
  obtain ⟨v, ⟨N, h1⟩, M, h2⟩ := public_result K hw ht
  have hc : (env K).cls Id.keys.RSAPublicKey = .seq { cls := 0, method := 1, tag := 16 } [] false (shapeFields keys.RSAPublicKey) none := rfl
  have := loaded_seq (pkg_types K) (by decide) hc hw hk
  subst this
  obtain ⟨_, e2, e3⟩ := enc_seq_plain hc hw
  refine ⟨max (max N M) 20, fun j hj => ?_⟩
  obtain ⟨u, x, z, k⟩ := h2 j (by omega)
  refine ⟨v, u, x, z, ?_, k⟩
  obtain ⟨i, rfl⟩ : ∃ i, j = i + 20 := ⟨j - 20, by omega⟩
  obtain ⟨q, q', q1, q2⟩ := untag_loaded hc ⟨by decide, rfl, rfl, rfl, rfl, rfl, rfl⟩ e2 e3 hd (i + 19)
  unfold wrapPublic
  rw [if_neg (by simp), pub_wrapped K i, ← h1 (i + 20) (by omega)]
  simp only [bind, Except.bind, empty_public K (i + 19), q1, q2, keyString_built K w.bytes i]

/-- Any other algorithm than RSA is refused; the algorithm `'rsassa_pss'`, which the check lets pass, then always fails on the parameters. -/
theorem C55_public_refused (j : Nat) (key : KeyGiven) (algorithm : String) (h : algorithm ≠ "rsa") :
    wrapPublic (env K) (ops (env K) (j + 20)) key algorithm = if algorithm = "rsassa_pss" then .error .typeError else .error .valueError := by
  have hp : wrapAlgorithm (env K) (ops (env K) (j + 20)) Id.keys.PublicKeyAlgorithm Id.keys.PublicKeyAlgorithmId "rsassa_pss" = .error .typeError := by kernel_rfl
  unfold wrapPublic
  by_cases h2 : algorithm = "rsassa_pss"
  · subst h2
    rw [if_neg (by simp), hp, if_pos rfl]
    rfl
  · rw [if_pos ⟨h, h2⟩, if_neg h2]

/-! ### Private keys -/

/-- `PrivateKeyInfo()` -/
def emptyPrivate : Val := .node Id.keys.PrivateKeyInfo { cls := 0, method := 1, tag := 16 } none false

theorem empty_private (j : Nat) : (ops (env K) (j + 1)).construct Id.keys.PrivateKeyInfo {} (.scalar .none) = .ok emptyPrivate := rfl

/-- `Integer(0)` -/
def zeroVal : Val := valOf ((ops (env K) 20).construct Id.core.Integer {} (.scalar (.int 0)))

theorem zero_built (j : Nat) : (ops (env K) (j + 20)).construct Id.core.Integer {} (.scalar (.int 0)) = .ok (zeroVal K) := by kernel_rfl

/-- The algorithm identifier. -/
def privAlgo : Val := rsaAlgo K Id.keys.PrivateKeyAlgorithm Id.keys.PrivateKeyAlgorithmId

/-- The container with version and algorithm. -/
def partPrivate : Val :=
  valOf ((setField (env K) (ops (env K) 20) emptyPrivate 0 (.asn1 (zeroVal K))).bind (fun c => setField (env K) (ops (env K) 20) c 1 (.asn1 (privAlgo K))))

theorem part_fields (j : Nat) : (setField (env K) (ops (env K) (j + 20)) emptyPrivate 0 (.asn1 (zeroVal K))).bind
    (fun c => setField (env K) (ops (env K) (j + 20)) c 1 (.asn1 (privAlgo K))) = .ok (partPrivate K) := by kernel_rfl

theorem part_private (j : Nat) : (setPrivate (env K) (ops (env K) (j + 20)) emptyPrivate 0 (.asn1 (zeroVal K))).bind
    (fun c => setPrivate (env K) (ops (env K) (j + 20)) c 1 (.asn1 (privAlgo K))) = .ok (partPrivate K) := by kernel_rfl

/-- The algorithm identifier in the container. -/
def heldAlgo : Child :=
  match partPrivate K with
  | .node _ _ (some cs) _ => cs.getD 1 (.val .void)
  | _ => .val .void

theorem part_set (j : Nat) (x : PyVal) : setField (env K) (ops (env K) (j + 20)) (partPrivate K) 2 x =
    (makeValue (env K) (ops (env K) (j + 20)) Id.core.ParsableOctetString Id.keys.RSAPrivateKey {} x).bind (fun nv =>
      (assignedContents (env K) (ops (env K) (j + 20)) nv).bind (fun p => match p.1 with
        | none => .error .valueError
        | some _ => .ok (.node Id.keys.PrivateKeyInfo { cls := 0, method := 1, tag := 16 } (some [.val (zeroVal K), heldAlgo K, .val p.2, .val .void]) true))) := by
  kernel_rfl

theorem part_read (j : Nat) (nv : Val) : ecSelected (env K) (ops (env K) (j + 20))
    (.node Id.keys.PrivateKeyInfo { cls := 0, method := 1, tag := 16 } (some [.val (zeroVal K), heldAlgo K, .val nv, .val .void]) true) =
    .ok (false, .node Id.keys.PrivateKeyInfo { cls := 0, method := 1, tag := 16 } (some [.val (zeroVal K), heldAlgo K, .val nv, .val .void]) true) := by kernel_rfl

/-- The dict of the fields of the container. -/
def privateGiven (k : PyVal) : PyVal :=
  .dict [("version", .asn1 (zeroVal K)), ("private_key_algorithm", .asn1 (privAlgo K)), ("private_key", k)]

theorem private_steps {r : Ops} {a b s : PyVal} :
    constructStep (env K) r Id.keys.PrivateKeyInfo {} (.dict [("version", a), ("private_key_algorithm", b), ("private_key", s)]) =
      (setField (env K) r emptyPrivate 0 a).bind (fun c => (setField (env K) r c 1 b).bind (fun c => setField (env K) r c 2 s)) := by
  show (setFromDict (env K) r [("version", a), ("private_key_algorithm", b), ("private_key", s)] false (shapeFields keys.PrivateKeyInfo) 0 emptyPrivate).bind
    (fun v => if [("version", a), ("private_key_algorithm", b), ("private_key", s)].all (fun e => (shapeFields keys.PrivateKeyInfo).any
      (fun f => f.name == e.1)) then .ok v else .error .valueError) = _
  have h : ([("version", a), ("private_key_algorithm", b), ("private_key", s)].all (fun e => (shapeFields keys.PrivateKeyInfo).any
    (fun f => f.name == e.1))) = true := by kernel_rfl
  simp only [h, if_true]
  have h2 : setFromDict (env K) r [("version", a), ("private_key_algorithm", b), ("private_key", s)] false (shapeFields keys.PrivateKeyInfo) 0 emptyPrivate =
    (setField (env K) r emptyPrivate 0 a).bind (fun c => (setField (env K) r c 1 b).bind (fun c => (setField (env K) r c 2 s).bind .ok)) := by kernel_rfl
  rw [h2]
  cases setField (env K) r emptyPrivate 0 a with
  | error e => rfl
  | ok c =>
    simp only [Except.bind]
    cases setField (env K) r c 1 b with
    | error e => rfl
    | ok c =>
      simp only []
      generalize setField (env K) r c 2 s = z
      cases z <;> rfl

/-- The key is put into the container. -/
theorem private_set (j : Nat) {k : PyVal} {v : Val}
    (h : (ops (env K) (j + 21)).construct Id.keys.PrivateKeyInfo {} (privateGiven K k) = .ok v) :
    setPrivate (env K) (ops (env K) (j + 20)) (partPrivate K) 2 k = .ok v := by
  rw [ops_construct, privateGiven, private_steps] at h
  have hp := part_fields K j
  have : setField (env K) (ops (env K) (j + 20)) (partPrivate K) 2 k = .ok v := by
    revert h hp
    cases setField (env K) (ops (env K) (j + 20)) emptyPrivate 0 (.asn1 (zeroVal K)) with
    | error e => intro h; cases h
    | ok c =>
      intro h hp
      simp only [Except.bind] at h hp
      rw [hp] at h
      exact h
  unfold setPrivate
  rw [this]
  simp only [bind, Except.bind]
  rw [part_set] at this
  cases hm : makeValue (env K) (ops (env K) (j + 20)) Id.core.ParsableOctetString Id.keys.RSAPrivateKey {} k with
  | error e => rw [hm] at this; cases this
  | ok nv =>
    rw [hm] at this
    simp only [Except.bind] at this
    cases ha : assignedContents (env K) (ops (env K) (j + 20)) nv with
    | error e => rw [ha] at this; cases this
    | ok p =>
      rw [ha] at this
      obtain ⟨b, q⟩ := p
      cases b with
      | none => cases this
      | some b =>
        have e := Except.ok.inj this
        rw [← e]
        simp only [part_read, if_true, or_true]

/-- The value of a private key info. -/
def privateValue (n : PyVal) : PyVal :=
  .dict [("version", .scalar (.int 0)), ("private_key_algorithm", rsaAlgoValue), ("private_key", n), ("attributes", .scalar .none)]

theorem private_gives {w t : TLV} {n : PyVal} {k : Val} (hw : Enc (env K) (· < size) (some Id.keys.RSAPrivateKey) none {} w n)
    (hk : LoadedFrom (env K) Id.keys.RSAPrivateKey w k) (h80 : w.header.getLast? ≠ some 0x80) (ht : PrivateInfo w.bytes t) :
    Gives (env K) (· < size) Id.keys.PrivateKeyInfo (privateGiven K (.asn1 k)) (.octets 1 t.contents) (privateValue n) ∧
      DerElement (env K) Id.keys.PrivateKeyInfo {} (.octets 1 t.contents) t := by
  obtain ⟨s, ⟨s1, s2, s3, s4, s5⟩, t1, t2, t3, t4, t5⟩ := ht
  have d0 : DerHead ⟨0, 0, 2, [2, 1], [0], []⟩ := der_short (cs := [0]) (by omega) (by omega) (by omega) (by simp)
  refine ⟨?_, ⟨(0, 16), t, rfl, ⟨.nil t1, by simp [t2, t4]⟩, t3, rfl⟩⟩
  rw [t5]
  refine .seq (fields := shapeFields keys.PrivateKeyInfo) (ns := [.scalar (.int 0), rsaAlgoValue, n, .scalar .none]) rfl ?_ ?_ ?_
  · refine .given (f := ⟨"version", Id.core.Integer, {}⟩) (pick := .same) (x := .asn1 (zeroVal K)) (t := ⟨0, 0, 2, [2, 1], [0], []⟩)
      (b := rsaAlgorithm ++ s.bytes) (by rfl) (by simp [Decides]) ?_ rfl ?_
    · exact .inst (pick := .same) (b := .octets 0 [0]) rfl (built_of (zero_built K))
        (.leaf rfl (fun o h => by cases h) (fun h => by cases h) (writtenB_sound (by kernel_rfl))) ⟨(0, 2), _, rfl, ⟨.nil d0, rfl⟩, rfl, rfl⟩
    refine .given (f := ⟨"private_key_algorithm", Id.keys.PrivateKeyAlgorithm, {}⟩) (pick := .same) (x := .asn1 (privAlgo K)) (t := rsaElement)
      (b := s.bytes) (by rfl) (by simp [Decides]) ?_ rfl ?_
    · exact .inst (pick := .same) rfl (built_of (priv_algo K)) (priv_gives K) ⟨(0, 16), _, rfl, ⟨.nil rsaElement_head, rfl⟩, rfl, rfl⟩
    · rw [← List.append_nil s.bytes]
      refine .given (f := ⟨"private_key", Id.core.ParsableOctetString, {}⟩) (pick := .value Id.keys.RSAPrivateKey) (x := .asn1 k)
        (t := s) (b := []) (by rfl) ⟨_, _, rfl, ⟨_, _, rfl, rfl⟩, by kernel_rfl⟩ ?_ rfl (.absent (fun x h => by cases h) rfl rfl .nil)
      exact .payloadLoaded (o := { cls := 0, method := 0, tag := 4 }) (isBit := false) (proto := { cls := 0, method := 1, tag := 16 }) (bad := []) (isSet := false)
        (fields := shapeFields keys.RSAPrivateKey) (oid := none) rfl rfl hk hw h80 ⟨.nil s1, by simp [s2, s4]⟩ s3 s5
  · exact ⟨_, .head _, by simp [valueOf]⟩
  · intro e he
    simp only [List.mem_cons, List.not_mem_nil, or_false] at he
    rcases he with rfl | rfl | rfl
    · exact ⟨_, .head _, rfl⟩
    · exact ⟨_, .tail _ (.head _), rfl⟩
    · exact ⟨_, .tail _ (.tail _ (.head _)), rfl⟩

/-- What `wrap` does once key and algorithm are there. -/
def wrapSteps (E : Env) (r : Ops) (algo k : Val) : Py Val :=
  (r.construct Id.keys.PrivateKeyInfo {} (.scalar .none)).bind (fun c =>
    (r.construct Id.core.Integer {} (.scalar (.int 0))).bind (fun version =>
      (setPrivate E r c 0 (.asn1 version)).bind (fun c => (setPrivate E r c 1 (.asn1 algo)).bind (fun c => setPrivate E r c 2 (.asn1 k)))))

theorem wrap_bytes {E : Env} {r : Ops} {b : Bytes} {a : String} {algo k : Val} (h : loadVal E r Id.keys.RSAPrivateKey {} b = .ok k)
    (ha : wrapAlgorithm E r Id.keys.PrivateKeyAlgorithm Id.keys.PrivateKeyAlgorithmId a = .ok algo) :
    wrapPrivateRsa E r (.bytes b) a = wrapSteps E r algo k := by
  unfold wrapPrivateRsa
  simp only [h, ha, bind, Except.bind]
  rfl

theorem wrap_value {E : Env} {r : Ops} {a : String} {algo k : Val} (h : k.classOf = some Id.keys.RSAPrivateKey)
    (ha : wrapAlgorithm E r Id.keys.PrivateKeyAlgorithm Id.keys.PrivateKeyAlgorithmId a = .ok algo) :
    wrapPrivateRsa E r (.value k) a = wrapSteps E r algo k := by
  unfold wrapPrivateRsa
  simp only [h, if_true, ha, bind, Except.bind]
  rfl

/-- `PrivateKeyInfo.wrap(key, 'rsa')` with the encoding of an RSA private key, or with the instance loaded from it: the result is written as the DER
encoding of the PrivateKeyInfo with exactly these bytes as key, and this is read back as version 0, the algorithm, the value of the key and no attributes.
Not covered: encodings whose header ends with the octet 80. -/
theorem C55_private_partial {w t : TLV} {n : PyVal} {k : Val} (hw : Enc (env K) (· < size) (some Id.keys.RSAPrivateKey) none {} w n)
    (hk : LoadedFrom (env K) Id.keys.RSAPrivateKey w k) (h80 : w.header.getLast? ≠ some 0x80) (ht : PrivateInfo w.bytes t) :
    ∃ N, ∀ j ≥ N, ∃ v u x z, wrapPrivateRsa (env K) (ops (env K) j) (.bytes w.bytes) "rsa" = .ok v ∧
      wrapPrivateRsa (env K) (ops (env K) j) (.value k) "rsa" = .ok v ∧ (ops (env K) j).dump v false = .ok (t.bytes, u) ∧
      loadVal (env K) (ops (env K) j) Id.keys.PrivateKeyInfo {} t.bytes = .ok x ∧ (ops (env K) j).native x = .ok (privateValue n, z) := by
  obtain ⟨g, d⟩ := private_gives K hw hk h80 ht
  obtain ⟨N, v, u, h1⟩ := C53_dump_partial (pkg_types K) (pkg_makable K) (pkg_usable K (by decide)) g d (fun _ => rfl)
  obtain ⟨M, h2⟩ := C53_package_partial K (by decide) g d
  have hc : (env K).cls Id.keys.RSAPrivateKey = .seq { cls := 0, method := 1, tag := 16 } [] false (shapeFields keys.RSAPrivateKey) none := rfl
  have hv := loaded_seq (pkg_types K) (by decide) hc hw hk
  obtain ⟨L, hl⟩ := hk
  refine ⟨max (max N M) (max L 20), fun j hj => ?_⟩
  obtain ⟨v', w', bytes, x, z, k1, k2, rfl, k4, k5⟩ := h2 j (by omega)
  obtain ⟨i, rfl⟩ : ∃ i, j = i + 20 := ⟨j - 20, by omega⟩
  have key : wrapSteps (env K) (ops (env K) (i + 20)) (privAlgo K) k = .ok v := by
    unfold wrapSteps
    rw [empty_private K (i + 19), zero_built K i]
    simp only [Except.bind]
    have hp := part_private K i
    revert hp
    cases setPrivate (env K) (ops (env K) (i + 20)) emptyPrivate 0 (.asn1 (zeroVal K)) with
    | error e => intro h; cases h
    | ok c =>
      intro hp
      simp only [Except.bind] at hp ⊢
      rw [hp]
      exact private_set K i ((h1 (i + 21) (by omega)).1)
  refine ⟨v, u, x, z, ?_, ?_, (h1 _ (by omega)).2, k4, k5⟩
  · exact (wrap_bytes (hl (i + 20) (by omega)) (priv_wrapped K i)).trans key
  · exact (wrap_value (by rw [hv]; rfl) (priv_wrapped K i)).trans key

/-- Wrapping with the algorithm `'rsassa_pss'`, which `wrap` lets pass, always fails. -/
theorem C55_pss_fails (j : Nat) (key : KeyGiven) : ∃ e, wrapPrivateRsa (env K) (ops (env K) (j + 20)) key "rsassa_pss" = .error e ∧
    (∀ k, key = .value k → e = .typeError) := by
  have hp : wrapAlgorithm (env K) (ops (env K) (j + 20)) Id.keys.PrivateKeyAlgorithm Id.keys.PrivateKeyAlgorithmId "rsassa_pss" = .error .typeError := by kernel_rfl
  unfold wrapPrivateRsa
  rw [hp]
  cases key with
  | bytes b =>
    simp only [bind, Except.bind]
    cases loadVal (env K) (ops (env K) (j + 20)) Id.keys.RSAPrivateKey {} b with
    | error e => exact ⟨e, rfl, fun k h => by cases h⟩
    | ok v => exact ⟨.typeError, rfl, fun k h => by cases h⟩
  | value v =>
    simp only [bind, Except.bind]
    by_cases h : v.classOf = some Id.keys.RSAPrivateKey
    · rw [if_pos h]; exact ⟨_, rfl, fun _ _ => rfl⟩
    · rw [if_neg h]; exact ⟨_, rfl, fun _ _ => rfl⟩

/-! ### Concrete keys -/

/-- The key with modulus 15 and exponent 3. -/
def smallPublic : TLV := ⟨0, 1, 16, [0x30, 6], [2, 1, 15, 2, 1, 3], []⟩

theorem smallPublic_enc : Enc (env K) (· < size) (some Id.keys.RSAPublicKey) none {} smallPublic
    (.dict [("modulus", .scalar (.int 15)), ("public_exponent", .scalar (.int 3))]) := by
  have b4 : Ber 11 ⟨0, 0, 2, [2, 1], [15], []⟩ := ber_short (cs := [15]) (by omega) (by omega) (by omega) (by simp)
  have b5 : Ber 11 ⟨0, 0, 2, [2, 1], [3], []⟩ := ber_short (cs := [3]) (by omega) (by omega) (by omega) (by simp)
  have b6 : Ber 11 smallPublic := ber_short (cs := [2, 1, 15, 2, 1, 3]) (by omega) (by omega) (by omega) (by simp)
  refine .seq (fields := shapeFields keys.RSAPublicKey) (ns := [.scalar (.int 15), .scalar (.int 3)]) rfl (by intro h; cases h) ⟨b6, .nil, rfl⟩ rfl ?_
  refine .present (pick := .same) (t := ⟨0, 0, 2, [2, 1], [15], []⟩) (b := [2, 1, 3]) rfl (.leaf rfl ⟨b4, .nil, rfl⟩ (.inl ⟨rfl, readsB_sound (by decide +kernel)⟩)) ?_
  exact .present (pick := .same) (t := ⟨0, 0, 2, [2, 1], [3], []⟩) (b := []) rfl (.leaf rfl ⟨b5, .nil, rfl⟩ (.inl ⟨rfl, readsB_sound (by decide +kernel)⟩)) .nil

/-- The container with this key. -/
def smallInfo : TLV := ⟨0, 1, 16, [0x30, 26], rsaAlgorithm ++ [3, 9, 0, 0x30, 6, 2, 1, 15, 2, 1, 3], []⟩

theorem smallInfo_ok : PublicInfo smallPublic.bytes smallInfo :=
  ⟨⟨0, 0, 3, [3, 9], [0, 0x30, 6, 2, 1, 15, 2, 1, 3], []⟩,
    ⟨der_short (cs := [0, 0x30, 6, 2, 1, 15, 2, 1, 3]) (by omega) (by omega) (by omega) (by simp), rfl, rfl, rfl, rfl⟩,
    der_short (cl := 0) (m := 1) (tg := 16) (cs := rsaAlgorithm ++ [3, 9, 0, 0x30, 6, 2, 1, 15, 2, 1, 3]) (by omega) (by omega) (by omega) (by simp [rsaAlgorithm]), rfl, rfl, rfl, rfl⟩

example : ∃ N, ∀ j ≥ N, ∃ v u, wrapPublic (env K) (ops (env K) j) (.bytes [0x30, 6, 2, 1, 15, 2, 1, 3]) "rsa" = .ok v ∧ (ops (env K) j).dump v false = .ok (spkiBytes, u) := by
  obtain ⟨N, h⟩ := C55_public K (smallPublic_enc K) smallInfo_ok
  refine ⟨N, fun j hj => ?_⟩
  obtain ⟨v, u, x, z, h1, h2, _⟩ := h j hj
  exact ⟨v, u, h1, h2⟩

example : DerHead smallPublic ∧ LoadedFrom (env K) Id.keys.RSAPublicKey smallPublic
    (.node Id.keys.RSAPublicKey { cls := 0, method := 1, tag := 16, header := some [0x30, 6], contents := some [2, 1, 15, 2, 1, 3], trailer := [] } none false) := by
  refine ⟨der_short (cs := [2, 1, 15, 2, 1, 3]) (by omega) (by omega) (by omega) (by simp), 20, fun j hj => ?_⟩
  obtain ⟨i, rfl⟩ : ∃ i, j = i + 20 := ⟨j - 20, by omega⟩
  kernel_rfl

/-- A private key for it, with the primes 3 and 5. -/
def smallPrivate : TLV := ⟨0, 1, 16, [0x30, 27], [2, 1, 0, 2, 1, 15, 2, 1, 3, 2, 1, 3, 2, 1, 3, 2, 1, 5, 2, 1, 1, 2, 1, 3, 2, 1, 2], []⟩

theorem smallPrivate_enc : Enc (env K) (· < size) (some Id.keys.RSAPrivateKey) none {} smallPrivate
    (.dict [("version", .scalar (.str "two-prime".toList)), ("modulus", .scalar (.int 15)), ("public_exponent", .scalar (.int 3)), ("private_exponent", .scalar (.int 3)), ("prime1", .scalar (.int 3)), ("prime2", .scalar (.int 5)), ("exponent1", .scalar (.int 1)), ("exponent2", .scalar (.int 3)), ("coefficient", .scalar (.int 2)),
      ("other_prime_infos", .scalar .none)]) := by
  have b : ∀ n : UInt8, Ber 11 ⟨0, 0, 2, [2, 1], [n], []⟩ := fun n => ber_short (cs := [n]) (by omega) (by omega) (by omega) (by simp)
  have bs : Ber 11 smallPrivate := ber_short (cs := [2, 1, 0, 2, 1, 15, 2, 1, 3, 2, 1, 3, 2, 1, 3, 2, 1, 5, 2, 1, 1, 2, 1, 3, 2, 1, 2]) (by omega) (by omega) (by omega) (by simp)
  refine .seq (fields := shapeFields keys.RSAPrivateKey)
    (ns := [.scalar (.str "two-prime".toList), .scalar (.int 15), .scalar (.int 3), .scalar (.int 3), .scalar (.int 3), .scalar (.int 5), .scalar (.int 1), .scalar (.int 3), .scalar (.int 2), .scalar .none])
    rfl (by intro h; cases h) ⟨bs, .nil, rfl⟩ rfl ?_
  refine .present (pick := .same) (t := ⟨0, 0, 2, [2, 1], [0], []⟩) (b := [2, 1, 15, 2, 1, 3, 2, 1, 3, 2, 1, 3, 2, 1, 5, 2, 1, 1, 2, 1, 3, 2, 1, 2]) rfl
    (.leaf rfl ⟨b 0, .nil, rfl⟩ (.inl ⟨rfl, readsB_sound (by decide +kernel)⟩)) ?_
  refine .present (pick := .same) (t := ⟨0, 0, 2, [2, 1], [15], []⟩) (b := [2, 1, 3, 2, 1, 3, 2, 1, 3, 2, 1, 5, 2, 1, 1, 2, 1, 3, 2, 1, 2]) rfl
    (.leaf rfl ⟨b 15, .nil, rfl⟩ (.inl ⟨rfl, readsB_sound (by decide +kernel)⟩)) ?_
  refine .present (pick := .same) (t := ⟨0, 0, 2, [2, 1], [3], []⟩) (b := [2, 1, 3, 2, 1, 3, 2, 1, 5, 2, 1, 1, 2, 1, 3, 2, 1, 2]) rfl
    (.leaf rfl ⟨b 3, .nil, rfl⟩ (.inl ⟨rfl, readsB_sound (by decide +kernel)⟩)) ?_
  refine .present (pick := .same) (t := ⟨0, 0, 2, [2, 1], [3], []⟩) (b := [2, 1, 3, 2, 1, 5, 2, 1, 1, 2, 1, 3, 2, 1, 2]) rfl
    (.leaf rfl ⟨b 3, .nil, rfl⟩ (.inl ⟨rfl, readsB_sound (by decide +kernel)⟩)) ?_
  refine .present (pick := .same) (t := ⟨0, 0, 2, [2, 1], [3], []⟩) (b := [2, 1, 5, 2, 1, 1, 2, 1, 3, 2, 1, 2]) rfl
    (.leaf rfl ⟨b 3, .nil, rfl⟩ (.inl ⟨rfl, readsB_sound (by decide +kernel)⟩)) ?_
  refine .present (pick := .same) (t := ⟨0, 0, 2, [2, 1], [5], []⟩) (b := [2, 1, 1, 2, 1, 3, 2, 1, 2]) rfl
    (.leaf rfl ⟨b 5, .nil, rfl⟩ (.inl ⟨rfl, readsB_sound (by decide +kernel)⟩)) ?_
  refine .present (pick := .same) (t := ⟨0, 0, 2, [2, 1], [1], []⟩) (b := [2, 1, 3, 2, 1, 2]) rfl
    (.leaf rfl ⟨b 1, .nil, rfl⟩ (.inl ⟨rfl, readsB_sound (by decide +kernel)⟩)) ?_
  refine .present (pick := .same) (t := ⟨0, 0, 2, [2, 1], [3], []⟩) (b := [2, 1, 2]) rfl
    (.leaf rfl ⟨b 3, .nil, rfl⟩ (.inl ⟨rfl, readsB_sound (by decide +kernel)⟩)) ?_
  refine .present (pick := .same) (t := ⟨0, 0, 2, [2, 1], [2], []⟩) (b := []) rfl
    (.leaf rfl ⟨b 2, .nil, rfl⟩ (.inl ⟨rfl, readsB_sound (by decide +kernel)⟩)) ?_
  exact .absent rfl rfl .nil

/-- The container with this key. -/
def smallPrivateInfo : TLV := ⟨0, 1, 16, [0x30, 49], [2, 1, 0] ++ rsaAlgorithm ++ (⟨0, 0, 4, [4, 29], smallPrivate.bytes, []⟩ : TLV).bytes, []⟩

example : ∃ N, ∀ j ≥ N, ∃ v u, wrapPrivateRsa (env K) (ops (env K) j) (.bytes smallPrivate.bytes) "rsa" = .ok v ∧
    (ops (env K) j).dump v false = .ok (smallPrivateInfo.bytes, u) := by
  have hi : PrivateInfo smallPrivate.bytes smallPrivateInfo := ⟨⟨0, 0, 4, [4, 29], smallPrivate.bytes, []⟩,
    ⟨der_short (cs := smallPrivate.bytes) (by omega) (by omega) (by omega) (by decide), rfl, rfl, rfl, rfl⟩,
    der_short (cl := 0) (m := 1) (tg := 16) (cs := smallPrivateInfo.contents) (by omega) (by omega) (by omega) (by decide), rfl, rfl, rfl, rfl⟩
  have hl : LoadedFrom (env K) Id.keys.RSAPrivateKey smallPrivate
      (.node Id.keys.RSAPrivateKey { cls := 0, method := 1, tag := 16, header := some smallPrivate.header, contents := some smallPrivate.contents, trailer := [] } none false) := by
    refine ⟨20, fun j hj => ?_⟩
    obtain ⟨i, rfl⟩ : ∃ i, j = i + 20 := ⟨j - 20, by omega⟩
    kernel_rfl
  obtain ⟨N, h⟩ := C55_private_partial K (smallPrivate_enc K) hl (by decide) hi
  refine ⟨N, fun j hj => ?_⟩
  obtain ⟨v, u, x, z, h1, _, h2, _⟩ := h j hj
  exact ⟨v, u, h1, h2⟩

end Asn1.Props
