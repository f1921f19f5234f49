import Verif.Lemmas.TypesCheck
import Verif.Lemmas.Schema

/-!
# C50 — Decoding: an encoding of a value loads, and reads as that value

Encodings (`Enc`), sound definitions (`Types`, `Usable`) and instances that can be read (`Readable`) are in Spec/Enc.lean.
-/

namespace Asn1.Props
open Asn1 Spec

section
variable {E : Env} {U : ClassId → Prop} (hU : Types E U)
include hU

/-- An encoding of the value `n` of a class loads, with whatever behind it unless loading is strict, and what is loaded can be read as a whole
and part by part, any number of times, and gives `n`. -/
theorem C50_load_partial {c : ClassId} {p : Params} {t : TLV} {n : PyVal} (hc : E.cls c ≠ .any) (hg : Usable E U c p) (h : Enc E U (some c) none p t n) :
    ∃ N, ∀ j ≥ N, ∀ strict rest, (strict = true → rest = []) → ∃ v, loadVal E (ops E j) c p (t.bytes ++ rest) strict = .ok v ∧ Readable E N v n :=
  parses_load hc (enc_ber h) (enc_loads hU h hg (fun d h => by cases h))

/-- The same for `Any`: the type is the one the tag says. -/
theorem C50_load_any_partial {c : ClassId} {t : TLV} {n : PyVal} (hc : E.cls c = .any) (h : Enc E U none none {} t n) :
    ∃ N, ∀ j ≥ N, ∀ strict rest, (strict = true → rest = []) → ∃ v, loadVal E (ops E j) c {} (t.bytes ++ rest) strict = .ok v ∧ Readable E N v n :=
  free_load hc (enc_ber h) (enc_loads hU h)

/-- `native` of what was loaded. -/
theorem C50_native_partial {c : ClassId} {p : Params} {t : TLV} {n : PyVal} (hc : E.cls c ≠ .any) (hg : Usable E U c p) (h : Enc E U (some c) none p t n) :
    ∃ N, ∀ j ≥ N, ∃ v w, loadVal E (ops E j) c p t.bytes = .ok v ∧ (ops E j).native v = .ok (n, w) := by
  obtain ⟨N, hN⟩ := C50_load_partial hU hc hg h
  refine ⟨N, fun j hj => ?_⟩
  obtain ⟨v, h1, h2⟩ := hN j hj false [] (fun h => by cases h)
  rw [List.append_nil] at h1
  obtain ⟨w, h3, _⟩ := readable_value h2 j hj
  exact ⟨v, w, h1, h3⟩

/-- Bytes are, up to what comes behind, the encoding of at most one value of a class. -/
theorem C50_unique_partial {c : ClassId} {p : Params} {t t' : TLV} {rest rest' : Bytes} {n n' : PyVal} (hg : Usable E U c p)
    (h : Enc E U (some c) none p t n) (h' : Enc E U (some c) none p t' n') (hb : t.bytes ++ rest = t'.bytes ++ rest') : t = t' ∧ n = n' := by
  have ht := (Ber_unique (enc_ber h) (enc_ber h') hb).1
  subst ht
  refine ⟨rfl, ?_⟩
  obtain ⟨N, hN⟩ := enc_loads hU h hg (fun d h => by cases h)
  obtain ⟨M, hM⟩ := enc_loads hU h' hg (fun d h => by cases h)
  obtain ⟨i, hi⟩ := info_tlv t
  obtain ⟨v, k1, k2, _⟩ := hN i hi (max N M) (by omega)
  obtain ⟨v', l1, l2, _⟩ := hM i hi (max N M) (by omega)
  rw [k1] at l1
  cases l1
  exact readable_unique k2 l2

end

/-! ### A case that meets the hypotheses -/

/-- `AlgorithmIdentifier` -/
def algFields : List Field := [⟨"algorithm", 1, {}⟩, ⟨"parameters", 2, { optional := true }⟩]

/-- The parameters of `rsa` are a NULL, others are ANY. -/
def algPair : OidPair := { oid := 0, value := 1, specs := [("rsa".toList, .value 3)] }

/-- `KeyInfo` -/
def keyFields : List Field :=
  [⟨"version", 0, { explicit := [(2, 0)], default := some (.scalar (.int 1)) }⟩, ⟨"algorithm", 4, {}⟩, ⟨"key", 5, {}⟩,
    ⟨"attributes", 7, { implicit := some (2, 1), optional := true }⟩]

/-- The key is inside an OCTET STRING; for `rsa` it is an INTEGER. -/
def keyPair : OidPair := { oid := 1, sub := some 0, value := 2, specs := [("rsa".toList, .value 0)] }

/-- A SET with an ANY inside an explicit tag -/
def attrFields : List Field := [⟨"a", 0, {}⟩, ⟨"b", 2, { explicit := [(2, 5)] }⟩, ⟨"c", 0, { implicit := some (2, 6), optional := true }⟩]

/-- The classes. -/
def keyEnv : Env where
  cls := fun c => match c with
    | 0 => .leaf (.integer none { cls := 0, method := 0, tag := 2 }) []
    | 1 => .leaf (.oid { map := some [("1.2.3".toList, "rsa".toList), ("1.2.4".toList, "ec".toList)] } { cls := 0, method := 0, tag := 6 }) []
    | 2 => .any
    | 3 => .leaf (.null { cls := 0, method := 0, tag := 5 }) []
    | 4 => .seq { cls := 0, method := 1, tag := 16 } [] false algFields (some algPair)
    | 5 => .parsable { cls := 0, method := 0, tag := 4 } false
    | 6 => .seq { cls := 0, method := 1, tag := 16 } [] false keyFields (some keyPair)
    | 7 => .seq { cls := 0, method := 1, tag := 17 } [] true attrFields none
    | _ => .any
  universal := fun tag => if tag = 2 then some 0 else none

theorem keyEnv_types : Types keyEnv (· < 8) := by
  refine typesB_sound (D := []) (fun e he => by cases he) (fun tag c h => ?_) (by decide +kernel)
  simp only [keyEnv] at h
  split at h <;> cases h
  decide

/-- `{'version': 1, 'algorithm': {'algorithm': 'rsa', 'parameters': None}, 'key': 7, 'attributes': {'a': 1, 'b': 2, 'c': None}}`, the fields of the SET in another order -/
def keyBytes : Bytes := [0x30, 0x1a, 0x30, 6, 6, 2, 0x2a, 3, 5, 0, 4, 3, 2, 1, 7, 0xa1, 0x0b, 0xa5, 6, 2, 0x83, 0, 0, 1, 2, 2, 1, 1]

/-- The value. -/
def keyValue : PyVal :=
  .dict [("version", .scalar (.int 1)), ("algorithm", .dict [("algorithm", .scalar (.str "rsa".toList)), ("parameters", .scalar .none)]), ("key", .scalar (.int 7)),
    ("attributes", .dict [("a", .scalar (.int 1)), ("b", .scalar (.int 2)), ("c", .scalar .none)])]

theorem keyBytes_enc : ∃ t : TLV, t.bytes = keyBytes ∧ Enc keyEnv (· < 8) (some 6) none {} t keyValue := by
  have b1 : Ber 11 ⟨0, 0, 6, [6, 2], [0x2a, 3], []⟩ := ber_short (cs := [0x2a, 3]) (by omega) (by omega) (by omega) (by simp)
  have b2 : Ber 11 ⟨0, 0, 5, [5, 0], [], []⟩ := ber_short (cs := []) (by omega) (by omega) (by omega) (by simp)
  have b3 : Ber 11 ⟨0, 1, 16, [0x30, 6], [6, 2, 0x2a, 3, 5, 0], []⟩ := ber_short (cs := [6, 2, 0x2a, 3, 5, 0]) (by omega) (by omega) (by omega) (by simp)
  have b4 : Ber 11 ⟨0, 0, 2, [2, 1], [7], []⟩ := ber_short (cs := [7]) (by omega) (by omega) (by omega) (by simp)
  have b5 : Ber 11 ⟨0, 0, 4, [4, 3], [2, 1, 7], []⟩ := ber_short (cs := [2, 1, 7]) (by omega) (by omega) (by omega) (by simp)
  have b6 : Ber 11 ⟨0, 0, 2, [2, 0x83, 0, 0, 1], [2], []⟩ :=
    .definite (id := [2]) (len := [0x83, 0, 0, 1]) ⟨by decide, by decide, .inl ⟨by decide, rfl⟩⟩ (.inr ⟨[0, 0, 1], by simp, by simp, rfl, rfl⟩)
  have b7 : Ber 11 ⟨2, 1, 5, [0xa5, 6], [2, 0x83, 0, 0, 1, 2], []⟩ := ber_short (cs := [2, 0x83, 0, 0, 1, 2]) (by omega) (by omega) (by omega) (by simp)
  have b8 : Ber 11 ⟨0, 0, 2, [2, 1], [1], []⟩ := ber_short (cs := [1]) (by omega) (by omega) (by omega) (by simp)
  have b9 : Ber 11 ⟨2, 1, 1, [0xa1, 0x0b], [0xa5, 6, 2, 0x83, 0, 0, 1, 2, 2, 1, 1], []⟩ :=
    ber_short (cs := [0xa5, 6, 2, 0x83, 0, 0, 1, 2, 2, 1, 1]) (by omega) (by omega) (by omega) (by simp)
  have b10 : Ber 11 ⟨0, 1, 16, [0x30, 0x1a], keyBytes.drop 2, []⟩ := ber_short (cs := keyBytes.drop 2) (by omega) (by omega) (by omega) (by decide)
  -- the algorithm
  have e1 : Enc keyEnv (· < 8) (some 1) none {} ⟨0, 0, 6, [6, 2], [0x2a, 3], []⟩ (.scalar (.str "rsa".toList)) :=
    .leaf rfl ⟨b1, .nil, rfl⟩ (.inl ⟨rfl, readsB_sound (by decide +kernel)⟩)
  have e2 : Enc keyEnv (· < 8) (some 3) none { optional := true } ⟨0, 0, 5, [5, 0], [], []⟩ (.scalar .none) :=
    .leaf rfl ⟨b2, .nil, rfl⟩ (.inl ⟨rfl, readsB_sound (by decide +kernel)⟩)
  have f3 : FieldsEnc keyEnv (· < 8) (some algPair) algFields [] [6, 2, 0x2a, 3, 5, 0] [.scalar (.str "rsa".toList), .scalar .none] := by
    refine .present (f := ⟨"algorithm", 1, {}⟩) (pick := .same) (t := ⟨0, 0, 6, [6, 2], [0x2a, 3], []⟩) ?_ e1 ?_
    · simp [Decides, algPair]
    · refine .present (f := ⟨"parameters", 2, { optional := true }⟩) (pick := .value 3) (t := ⟨0, 0, 5, [5, 0], [], []⟩) (b := []) ?_ e2 .nil
      exact ⟨_, _, rfl, rfl, by rfl⟩
  have e3 : Enc keyEnv (· < 8) (some 4) none {} ⟨0, 1, 16, [0x30, 6], [6, 2, 0x2a, 3, 5, 0], []⟩
      (.dict [("algorithm", .scalar (.str "rsa".toList)), ("parameters", .scalar .none)]) :=
    .seq (fields := algFields) (ns := [.scalar (.str "rsa".toList), .scalar .none]) rfl (by simp [algFields]) ⟨b3, .nil, rfl⟩ rfl f3
  -- the key
  have e4 : Enc keyEnv (· < 8) (some 0) none {} ⟨0, 0, 2, [2, 1], [7], []⟩ (.scalar (.int 7)) :=
    .leaf rfl ⟨b4, .nil, rfl⟩ (.inl ⟨rfl, readsB_sound (by decide +kernel)⟩)
  have e5 : Enc keyEnv (· < 8) (some 5) (some 0) {} ⟨0, 0, 4, [4, 3], [2, 1, 7], []⟩ (.scalar (.int 7)) :=
    .payload rfl ⟨b5, .nil, rfl⟩ rfl rfl e4
  -- the attributes
  have e6 : Enc keyEnv (· < 8) none none {} ⟨0, 0, 2, [2, 0x83, 0, 0, 1], [2], []⟩ (.scalar (.int 2)) :=
    .freeLeaf (c := 0) rfl rfl rfl b6 (.inl ⟨rfl, readsB_sound (by decide +kernel)⟩)
  have e7 : Enc keyEnv (· < 8) (some 2) none { explicit := [(2, 5)] } ⟨2, 1, 5, [0xa5, 6], [2, 0x83, 0, 0, 1, 2], []⟩ (.scalar (.int 2)) :=
    .any rfl b7 (Inside.cons (es := []) (v := ⟨2, 1, 5, [0xa5, 6], [2, 0x83, 0, 0, 1, 2], []⟩) rfl rfl b6 .nil) e6
  have e8 : Enc keyEnv (· < 8) (some 0) none {} ⟨0, 0, 2, [2, 1], [1], []⟩ (.scalar (.int 1)) :=
    .leaf rfl ⟨b8, .nil, rfl⟩ (.inl ⟨rfl, readsB_sound (by decide +kernel)⟩)
  have e9 : Enc keyEnv (· < 8) (some 7) none { implicit := some (2, 1), optional := true } ⟨2, 1, 1, [0xa1, 0x0b], [0xa5, 6, 2, 0x83, 0, 0, 1, 2, 2, 1, 1], []⟩
      (.dict [("a", .scalar (.int 1)), ("b", .scalar (.int 2)), ("c", .scalar .none)]) := by
    refine .set (fields := attrFields) (ns := [.scalar (.int 1), .scalar (.int 2), .scalar .none]) (vs := [⟨2, 1, 5, [0xa5, 6], [2, 0x83, 0, 0, 1, 2], []⟩, ⟨0, 0, 2, [2, 1], [1], []⟩]) rfl ⟨b9, .nil, rfl⟩ rfl ⟨rfl, ?_⟩ (by decide) ?_
      (.present (f := ⟨"a", 0, {}⟩) (t := ⟨0, 0, 2, [2, 1], [1], []⟩) (by simp) e8
        (.present (f := ⟨"b", 2, { explicit := [(2, 5)] }⟩) (t := ⟨2, 1, 5, [0xa5, 6], [2, 0x83, 0, 0, 1, 2], []⟩) (by simp) e7
          (.absent (f := ⟨"c", 0, { implicit := some (2, 6), optional := true }⟩) ?_ rfl .nil)))
    · intro v hv
      simp only [List.mem_cons, List.not_mem_nil, or_false] at hv
      rcases hv with rfl | rfl
      · exact b7
      · exact b8
    · intro v hv
      simp only [List.mem_cons, List.not_mem_nil, or_false] at hv
      rcases hv with rfl | rfl
      · exact ⟨⟨"b", 2, { explicit := [(2, 5)] }⟩, by simp [attrFields], .explicit rfl⟩
      · exact ⟨⟨"a", 0, {}⟩, by simp [attrFields], .own rfl trivial rfl⟩
    · intro v hv ho
      have := outerTags_sound (E := keyEnv) 1 (l := [(2, 6)]) rfl _ ho
      simp only [List.mem_cons, List.not_mem_nil, or_false] at hv
      rcases hv with rfl | rfl <;> simp at this
  have hdef : DefaultValue keyEnv 0 { explicit := [(2, 0)], default := some (.scalar (.int 1)) } (.scalar (.int 1)) :=
    leafDefault_sound rfl rfl (by decide +kernel)
  refine ⟨⟨0, 1, 16, [0x30, 0x1a], keyBytes.drop 2, []⟩, rfl, ?_⟩
  refine .seq (fields := keyFields) (ns := [.scalar (.int 1), .dict [("algorithm", .scalar (.str "rsa".toList)), ("parameters", .scalar .none)], .scalar (.int 7),
      .dict [("a", .scalar (.int 1)), ("b", .scalar (.int 2)), ("c", .scalar .none)]]) rfl (by simp [keyFields]) ⟨b10, .nil, rfl⟩ rfl ?_
  refine .default (f := ⟨"version", 0, { explicit := [(2, 0)], default := some (.scalar (.int 1)) }⟩) rfl hdef ?_
  refine .present (f := ⟨"algorithm", 4, {}⟩) (pick := .same) ?_ e3 ?_
  · simp [Decides, keyPair]
  refine .present (f := ⟨"key", 5, {}⟩) (pick := .value 0) ?_ e5 ?_
  · exact ⟨_, _, rfl, ⟨_, _, rfl, rfl⟩, by rfl⟩
  refine .present (f := ⟨"attributes", 7, { implicit := some (2, 1), optional := true }⟩) (pick := .same) (b := []) ?_ e9 .nil
  simp [Decides, keyPair]

/-- It loads and reads as the value. -/
example : ∃ N, ∀ j ≥ N, ∃ v w, loadVal keyEnv (ops keyEnv j) 6 {} keyBytes = .ok v ∧ (ops keyEnv j).native v = .ok (keyValue, w) := by
  obtain ⟨t, h1, h2⟩ := keyBytes_enc
  have := C50_native_partial keyEnv_types (by simp [keyEnv]) (usableB_sound (D := []) (fun e he => by cases he) (by decide +kernel)) h2
  rwa [h1] at this

end Asn1.Props
