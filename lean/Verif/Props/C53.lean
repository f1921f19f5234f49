import Verif.Lemmas.GiveEnc
import Verif.Lemmas.PkgMakable
import Verif.Lemmas.Written
import Verif.Lemmas.DerLeaf
import Verif.Props.C51

/-!
# C53 — Building: a Python value of any kind of type is written as its DER encoding, and reads back

What can be given (`Gives`), its DER encoding (`DerElement`) and the conditions on classes (`Makable`) are in Spec/Give.lean; sound definitions
(`Types`, `Usable`) and instances that can be read (`Readable`) in Spec/Enc.lean.
-/

namespace Asn1.Props
open Asn1 Spec

section
variable {E : Env} {U : ClassId → Prop} (hT : Types E U) (hM : Makable E U)
include hT hM

/-- `c(x, **p).dump()` is the DER encoding of the value. -/
theorem C53_dump_partial {c : ClassId} {p : Params} {x : PyVal} {b : Piece} {t : TLV} {n : PyVal} (hu : Usable E U c p) (h : Gives E U c x b n)
    (hd : DerElement E c p b t) (hx : x = .scalar .none → p.default = none) :
    ∃ N v w, ∀ j ≥ N, (ops E j).construct c p x = .ok v ∧ (ops E j).dump v false = .ok (t.bytes, w) := by
  have hm := gives_makes hT hM h hu.mem
  obtain ⟨v, m1, m2, _, m4, _⟩ := hm.made p hu.tags hu.untagged hx
  obtain ⟨w, d1, _⟩ := m2.dump (t := t) (by rw [m4]; exact derElement_shown hm.tag hd)
  obtain ⟨N, hN⟩ := m1.and d1
  exact ⟨N, v, w, hN⟩

/-- What was written loads, with whatever behind it unless loading is strict, and what is loaded can be read as a whole and part by part, any number
of times, and gives the value. -/
theorem C53_load_partial {c : ClassId} {p : Params} {x : PyVal} {b : Piece} {t : TLV} {n : PyVal} (hu : Usable E U c p) (h : Gives E U c x b n)
    (hd : DerElement E c p b t) :
    ∃ N, ∀ j ≥ N, ∀ strict rest, (strict = true → rest = []) → ∃ v, loadVal E (ops E j) c p (t.bytes ++ rest) strict = .ok v ∧ Readable E N v n :=
  C50_load_partial hT (gives_makes hT hM h hu.mem).notAny hu (gives_enc hT hM h hu.mem p t hd)

/-- `c.load(c(x).dump()).native` is the value. -/
theorem C53_native_partial {c : ClassId} {p : Params} {x : PyVal} {b : Piece} {t : TLV} {n : PyVal} (hu : Usable E U c p) (h : Gives E U c x b n)
    (hd : DerElement E c p b t) (hx : x = .scalar .none → p.default = none) :
    ∃ N, ∀ j ≥ N, ∃ v w bytes u z, (ops E j).construct c p x = .ok v ∧ (ops E j).dump v false = .ok (bytes, w) ∧
      loadVal E (ops E j) c p bytes = .ok u ∧ (ops E j).native u = .ok (n, z) := by
  obtain ⟨N, v, w, h1⟩ := C53_dump_partial hT hM hu h hd hx
  obtain ⟨M, h2⟩ := C50_native_partial hT (gives_makes hT hM h hu.mem).notAny hu (gives_enc hT hM h hu.mem p t hd)
  refine ⟨max N M, fun j hj => ?_⟩
  obtain ⟨u, z, h3, h4⟩ := h2 j (by omega)
  exact ⟨v, w, t.bytes, u, z, (h1 j (by omega)).1, (h1 j (by omega)).2, h3, h4⟩

/-- Values that are written the same are the same: nothing that can be read back is lost. -/
theorem C53_injective_partial {c : ClassId} {p : Params} {x x' : PyVal} {b b' : Piece} {t t' : TLV} {n n' : PyVal} (hu : Usable E U c p)
    (h : Gives E U c x b n) (h' : Gives E U c x' b' n') (hd : DerElement E c p b t) (hd' : DerElement E c p b' t') (hb : t.bytes = t'.bytes) : n = n' :=
  (C50_unique_partial hT (rest := []) (rest' := []) hu (gives_enc hT hM h hu.mem p t hd) (gives_enc hT hM h' hu.mem p t' hd') (by simp [hb])).2

end

/-- Contents octets of primitive values are the DER ones. -/
theorem C53_contents_partial {proto : LeafSt} {s : Scalar} {b : List UInt8} (hp : PlainLeaf proto) (h : Written proto s b s) : DerContents proto s b := by
  obtain ⟨st, h1, h2, _, h4⟩ := h
  obtain ⟨c, k1, k2⟩ := derContents_of_set hp h4 h1
  rw [h2] at k1
  cases k1
  exact k2

/-- Conversely every value that has DER contents octets can be given: those octets are written for it, and read back as the value.
An ENUMERATED is given as a name, and NULL has no value to give. -/
theorem C53_primitive_partial {proto : LeafSt} {s : Scalar} {b : List UInt8} (hp : PlainLeaf proto) (hn : proto.notNull = true)
    (he : ∀ m o, proto = .enumerated m o → ∃ name, s = .str name) (h : DerContents proto s b) : Written proto s b s :=
  written_of_der hp hn he h

example : Written (.integer none { cls := 0, method := 0, tag := 2 }) (.int (-3)) [0xfd] (.int (-3)) :=
  C53_primitive_partial (.integer (by decide) (by simp)) rfl (by simp)
    (.integer (n := -3) (.inl ⟨rfl, by simp⟩) ⟨by simp, by decide, fun d hd _ => List.length_pos_iff.mpr hd⟩)

/-! ### The package -/

/-- The same for every class of the package (`Pkg.size` as for C51). -/
theorem C53_package_partial (K : Pkg.Codecs) {c : ClassId} {x : PyVal} {b : Piece} {t : TLV} {n : PyVal} (hc : c < Pkg.size)
    (h : Gives (Pkg.env K) (· < Pkg.size) c x b n) (hd : DerElement (Pkg.env K) c {} b t) :
    ∃ N, ∀ j ≥ N, ∃ v w bytes u z, (ops (Pkg.env K) j).construct c {} x = .ok v ∧ (ops (Pkg.env K) j).dump v false = .ok (bytes, w) ∧ bytes = t.bytes ∧
      loadVal (Pkg.env K) (ops (Pkg.env K) j) c {} bytes = .ok u ∧ (ops (Pkg.env K) j).native u = .ok (n, z) := by
  have hu : Usable (Pkg.env K) (· < Pkg.size) c {} := usableB_sound (D := []) (fun e he => by cases he) (by simp [usableB, goodTagsB, hc])
  obtain ⟨N, v, w, h1⟩ := C53_dump_partial (Pkg.pkg_types K) (Pkg.pkg_makable K) hu h hd (fun _ => rfl)
  obtain ⟨M, h2⟩ := C53_native_partial (Pkg.pkg_types K) (Pkg.pkg_makable K) hu h hd (fun _ => rfl)
  refine ⟨max N M, fun j hj => ?_⟩
  obtain ⟨v', w', bytes, u, z, h3, h4, h5, h6⟩ := h2 j (by omega)
  obtain ⟨h7, h8⟩ := h1 j (by omega)
  rw [h7] at h3
  cases h3
  rw [h8] at h4
  cases h4
  exact ⟨v, w, t.bytes, u, z, h7, h8, rfl, h5, h6⟩

/-! ### Cases that meet the hypotheses -/

/-- `KeyInfo` with the fields of C50; the attributes are a SET, and there are a SET OF and a CHOICE. -/
def orderFields : List Field :=
  [⟨"version", 0, { explicit := [(2, 0)], default := some (.scalar (.int 1)) }⟩, ⟨"algorithm", 4, {}⟩, ⟨"key", 5, {}⟩,
    ⟨"attributes", 7, { implicit := some (2, 1), optional := true }⟩, ⟨"numbers", 8, { implicit := some (2, 2), optional := true }⟩,
    ⟨"choice", 9, { explicit := [(2, 3)], optional := true }⟩]

def slotFields : List Field := [⟨"a", 0, {}⟩, ⟨"b", 0, { implicit := some (2, 6) }⟩]

def choiceFields : List Field := [⟨"number", 0, {}⟩, ⟨"nothing", 3, { implicit := some (2, 1) }⟩]

/-- The classes. -/
def orderEnv : Env where
  cls := fun c => match c with
    | 0 => .leaf (.integer none { cls := 0, method := 0, tag := 2 }) []
    | 1 => .leaf (.oid { map := some [("1.2.3".toList, "rsa".toList), ("1.2.4".toList, "ec".toList)] } { cls := 0, method := 0, tag := 6 }) []
    | 2 => .any
    | 3 => .leaf (.null { cls := 0, method := 0, tag := 5, contents := some [] }) []
    | 4 => .seq { cls := 0, method := 1, tag := 16 } [] false algFields (some algPair)
    | 5 => .parsable { cls := 0, method := 0, tag := 4 } false
    | 6 => .seq { cls := 0, method := 1, tag := 16 } [] false orderFields (some keyPair)
    | 7 => .seq { cls := 0, method := 1, tag := 17 } [] true slotFields none
    | 8 => .seqOf { cls := 0, method := 1, tag := 17 } [] true (some 0)
    | 9 => .choice [] none choiceFields
    | _ => .any
  universal := fun tag => if tag = 2 then some 0 else none

theorem orderEnv_types : Types orderEnv (· < 10) := by
  refine typesB_sound (D := []) (fun e he => by cases he) (fun tag c h => ?_) (by decide +kernel)
  simp only [orderEnv] at h
  split at h <;> cases h
  decide

theorem orderEnv_makable : Makable orderEnv (· < 10) := makableB_sound (by decide +kernel)

theorem der_short {cl m tg : Nat} {cs : Bytes} (h1 : cl < 4) (h2 : m < 2) (h3 : tg < 31) (h4 : cs.length < 128) :
    DerHead ⟨cl, m, tg, [UInt8.ofNat (64 * cl + 32 * m + tg), UInt8.ofNat cs.length], cs, []⟩ :=
  ⟨[UInt8.ofNat (64 * cl + 32 * m + tg)], [UInt8.ofNat cs.length], ⟨h1, h2, .inl ⟨h3, rfl⟩⟩, .inl ⟨h4, rfl⟩, rfl, rfl⟩

/-- `{'choice': ('number', 4), 'numbers': [5, 3], 'algorithm': {'algorithm': 'rsa', 'parameters': Null()}, 'key': 7, 'attributes': {'b': 2, 'a': 1}}`,
where `Null()` is `z` -/
def orderGiven (z : Val) : PyVal :=
  .dict [("choice", .pair "number" (.scalar (.int 4))), ("numbers", .list [.scalar (.int 5), .scalar (.int 3)]),
    ("algorithm", .dict [("algorithm", .scalar (.str "rsa".toList)), ("parameters", .asn1 z)]), ("key", .scalar (.int 7)),
    ("attributes", .dict [("b", .scalar (.int 2)), ("a", .scalar (.int 1))])]

def orderBytes : Bytes := [0x30, 0x22, 0x30, 6, 6, 2, 0x2a, 3, 5, 0, 4, 3, 2, 1, 7, 0xa1, 6, 2, 1, 1, 0x86, 1, 2, 0xa2, 6, 2, 1, 3, 2, 1, 5, 0xa3, 3, 2, 1, 4]

def orderValue : PyVal :=
  .dict [("version", .scalar (.int 1)), ("algorithm", .dict [("algorithm", .scalar (.str "rsa".toList)), ("parameters", .scalar .none)]), ("key", .scalar (.int 7)),
    ("attributes", .dict [("a", .scalar (.int 1)), ("b", .scalar (.int 2))]), ("numbers", .list [.scalar (.int 3), .scalar (.int 5)]), ("choice", .scalar (.int 4))]

theorem order_given : ∃ z, Built orderEnv 3 (.scalar .none) z ∧
    Gives orderEnv (· < 10) 6 (orderGiven z) (.octets 1 (orderBytes.drop 2)) orderValue := by
  have d1 : DerHead ⟨0, 0, 6, [6, 2], [0x2a, 3], []⟩ := der_short (cs := [0x2a, 3]) (by omega) (by omega) (by omega) (by simp)
  have d2 : DerHead ⟨0, 0, 5, [5, 0], [], []⟩ := der_short (cs := []) (by omega) (by omega) (by omega) (by simp)
  have d3 : DerHead ⟨0, 1, 16, [0x30, 6], [6, 2, 0x2a, 3, 5, 0], []⟩ := der_short (cs := [6, 2, 0x2a, 3, 5, 0]) (by omega) (by omega) (by omega) (by simp)
  have d4 : ∀ x : UInt8, DerHead ⟨0, 0, 2, [2, 1], [x], []⟩ := fun x => der_short (cs := [x]) (by omega) (by omega) (by omega) (by simp)
  have d5 : DerHead ⟨0, 0, 4, [4, 3], [2, 1, 7], []⟩ := der_short (cs := [2, 1, 7]) (by omega) (by omega) (by omega) (by simp)
  have d6 : DerHead ⟨2, 0, 6, [0x86, 1], [2], []⟩ := der_short (cs := [2]) (by omega) (by omega) (by omega) (by simp)
  have d7 : DerHead ⟨2, 1, 1, [0xa1, 6], [2, 1, 1, 0x86, 1, 2], []⟩ := der_short (cs := [2, 1, 1, 0x86, 1, 2]) (by omega) (by omega) (by omega) (by simp)
  have d8 : DerHead ⟨2, 1, 2, [0xa2, 6], [2, 1, 3, 2, 1, 5], []⟩ := der_short (cs := [2, 1, 3, 2, 1, 5]) (by omega) (by omega) (by omega) (by simp)
  have d9 : DerHead ⟨2, 1, 3, [0xa3, 3], [2, 1, 4], []⟩ := der_short (cs := [2, 1, 4]) (by omega) (by omega) (by omega) (by simp)
  have d10 : DerHead ⟨2, 1, 0, [0xa0, 3], [2, 1, 1], []⟩ := der_short (cs := [2, 1, 1]) (by omega) (by omega) (by omega) (by simp)
  have el : ∀ x : UInt8, DerElement orderEnv 0 {} (.octets 0 [x]) ⟨0, 0, 2, [2, 1], [x], []⟩ := fun x => ⟨(0, 2), _, rfl, ⟨.nil (d4 x), rfl⟩, rfl, rfl⟩
  have i1 : Gives orderEnv (· < 10) 0 (.scalar (.int 1)) (.octets 0 [1]) (.scalar (.int 1)) :=
    .leaf rfl (fun o h => by cases h) (fun h => by cases h) (writtenB_sound (by decide +kernel))
  have i2 : Gives orderEnv (· < 10) 0 (.scalar (.int 2)) (.octets 0 [2]) (.scalar (.int 2)) :=
    .leaf rfl (fun o h => by cases h) (fun h => by cases h) (writtenB_sound (by decide +kernel))
  have i3 : Gives orderEnv (· < 10) 0 (.scalar (.int 3)) (.octets 0 [3]) (.scalar (.int 3)) :=
    .leaf rfl (fun o h => by cases h) (fun h => by cases h) (writtenB_sound (by decide +kernel))
  have i4 : Gives orderEnv (· < 10) 0 (.scalar (.int 4)) (.octets 0 [4]) (.scalar (.int 4)) :=
    .leaf rfl (fun o h => by cases h) (fun h => by cases h) (writtenB_sound (by decide +kernel))
  have i5 : Gives orderEnv (· < 10) 0 (.scalar (.int 5)) (.octets 0 [5]) (.scalar (.int 5)) :=
    .leaf rfl (fun o h => by cases h) (fun h => by cases h) (writtenB_sound (by decide +kernel))
  have i7 : Gives orderEnv (· < 10) 0 (.scalar (.int 7)) (.octets 0 [7]) (.scalar (.int 7)) :=
    .leaf rfl (fun o h => by cases h) (fun h => by cases h) (writtenB_sound (by decide +kernel))
  let z : Val := .leaf 3 (.null { cls := 0, method := 0, tag := 5, contents := some [] })
  have hz : Built orderEnv 3 (.scalar .none) z := ⟨1, fun j hj => by obtain ⟨k, rfl⟩ : ∃ k, j = k + 1 := ⟨j - 1, by omega⟩; rfl⟩
  refine ⟨z, hz, ?_⟩
  -- the algorithm
  have a1 : Gives orderEnv (· < 10) 4 (.dict [("algorithm", .scalar (.str "rsa".toList)), ("parameters", .asn1 z)]) (.octets 1 [6, 2, 0x2a, 3, 5, 0])
      (.dict [("algorithm", .scalar (.str "rsa".toList)), ("parameters", .scalar .none)]) := by
    refine .seq (fields := algFields) (oid := some algPair) (ns := [.scalar (.str "rsa".toList), .scalar .none]) rfl ?_ ?_ ?_
    · refine .given (f := ⟨"algorithm", 1, {}⟩) (pick := .same) (t := ⟨0, 0, 6, [6, 2], [0x2a, 3], []⟩) (b := [5, 0]) (x := .scalar (.str "rsa".toList)) (by rfl) ?_ ?_ rfl ?_
      · simp [Decides, algPair]
      · exact .plain (pick := .same) (b := .octets 0 [0x2a, 3]) (fun h => by cases h) rfl
          (.leaf rfl (fun o h => by cases h) (fun h => by cases h) (writtenB_sound (by decide +kernel))) ⟨(0, 6), _, rfl, ⟨.nil d1, rfl⟩, rfl, rfl⟩
      · refine .given (f := ⟨"parameters", 2, { optional := true }⟩) (pick := .value 3) (t := ⟨0, 0, 5, [5, 0], [], []⟩) (b := []) (x := .asn1 z) (by rfl) ?_ ?_ rfl .nil
        · exact ⟨_, _, rfl, rfl, by rfl⟩
        · exact .inst (pick := .value 3) (x := .scalar .none) (b := .octets 0 []) rfl hz (.null (c := 3) rfl rfl) ⟨(0, 5), _, rfl, ⟨.nil d2, rfl⟩, rfl, rfl⟩
    · exact ⟨⟨"algorithm", 1, {}⟩, by simp [algFields], by decide⟩
    · intro e he
      simp only [List.mem_cons, List.not_mem_nil, or_false] at he
      rcases he with rfl | rfl
      · exact ⟨⟨"algorithm", 1, {}⟩, by simp [algFields], rfl⟩
      · exact ⟨⟨"parameters", 2, { optional := true }⟩, by simp [algFields], rfl⟩
  -- the attributes
  have a2 : Gives orderEnv (· < 10) 7 (.dict [("b", .scalar (.int 2)), ("a", .scalar (.int 1))]) (.octets 1 [2, 1, 1, 0x86, 1, 2])
      (.dict [("a", .scalar (.int 1)), ("b", .scalar (.int 2))]) := by
    have h : Gives orderEnv (· < 10) 7 (.dict [("b", .scalar (.int 2)), ("a", .scalar (.int 1))]) _ _ :=
      .set (fields := slotFields) (ns := [.scalar (.int 1), .scalar (.int 2)]) (ts := [⟨0, 0, 2, [2, 1], [1], []⟩, ⟨2, 0, 6, [0x86, 1], [2], []⟩]) rfl
        (.given (f := ⟨"a", 0, {}⟩) (x := .scalar (.int 1)) (by rfl) (.plain (pick := .same) (fun h => by cases h) rfl i1 (el 1)) rfl
          (.given (f := ⟨"b", 0, { implicit := some (2, 6) }⟩) (x := .scalar (.int 2)) (by rfl)
            (.plain (pick := .same) (fun h => by cases h) rfl i2 ⟨(0, 2), _, rfl, ⟨.nil d6, rfl⟩, rfl, rfl⟩) rfl .nil))
        ⟨⟨"a", 0, {}⟩, by simp [slotFields], by decide⟩ (by
          intro e he
          simp only [List.mem_cons, List.not_mem_nil, or_false] at he
          rcases he with rfl | rfl
          · exact ⟨⟨"b", 0, { implicit := some (2, 6) }⟩, by simp [slotFields], rfl⟩
          · exact ⟨⟨"a", 0, {}⟩, by simp [slotFields], rfl⟩)
    rw [List.mergeSort_of_pairwise (by simp)] at h
    exact h
  -- the numbers
  have a3 : Gives orderEnv (· < 10) 8 (.list [.scalar (.int 5), .scalar (.int 3)]) (.octets 1 [2, 1, 3, 2, 1, 5]) (.list [.scalar (.int 3), .scalar (.int 5)]) :=
    .setOf (ch := 0) (ps := [(⟨0, 0, 2, [2, 1], [5], []⟩, .scalar (.int 5)), (⟨0, 0, 2, [2, 1], [3], []⟩, .scalar (.int 3))])
      (qs := [(⟨0, 0, 2, [2, 1], [3], []⟩, .scalar (.int 3)), (⟨0, 0, 2, [2, 1], [5], []⟩, .scalar (.int 5))]) rfl
      (.plain trivial i5 (el 5) (.plain trivial i3 (el 3) .nil)) ⟨List.Perm.swap _ _ _, by
        simp only [List.pairwise_cons, List.mem_cons, List.not_mem_nil, or_false, forall_eq, List.Pairwise.nil, and_true]
        exact ⟨.inr ⟨[2, 1], [], [], 3, 5, rfl, rfl, by decide⟩, fun a h => h.elim⟩⟩
  -- the choice
  have a4 : Gives orderEnv (· < 10) 9 (.pair "number" (.scalar (.int 4))) (.element ⟨0, 0, 2, [2, 1], [4], []⟩) (.scalar (.int 4)) := by
    refine .choice (k := 0) (f := ⟨"number", 0, {}⟩) (alts := choiceFields) rfl rfl rfl ?_ (by decide) (fun h => by cases h) i4 (el 4)
    intro i g hi hg
    match i with
    | 0 => rfl
    | 1 => simp only [choiceFields, List.getElem?_cons_succ, List.getElem?_cons_zero, Option.some.injEq] at hi; subst hi; exact absurd hg (by decide)
    | i + 2 => simp [choiceFields] at hi
  -- all
  have hdef : DefaultValue orderEnv 0 { explicit := [(2, 0)], default := some (.scalar (.int 1)) } (.scalar (.int 1)) :=
    leafDefault_sound rfl rfl (by decide +kernel)
  refine .seq (fields := orderFields) (oid := some keyPair) (ns := [.scalar (.int 1), .dict [("algorithm", .scalar (.str "rsa".toList)), ("parameters", .scalar .none)],
    .scalar (.int 7), .dict [("a", .scalar (.int 1)), ("b", .scalar (.int 2))], .list [.scalar (.int 3), .scalar (.int 5)], .scalar (.int 4)]) rfl ?_ ?_ ?_
  · refine .default (f := ⟨"version", 0, { explicit := [(2, 0)], default := some (.scalar (.int 1)) }⟩) (y := .scalar (.int 1)) (e := .octets 0 [1])
      (t := ⟨2, 1, 0, [0xa0, 3], [2, 1, 1], []⟩) (fun x h => by cases h) rfl rfl (fun h => by cases h) i1
      ⟨(0, 2), ⟨0, 0, 2, [2, 1], [1], []⟩, rfl, ⟨.cons (es := []) (v := ⟨2, 1, 0, [0xa0, 3], [2, 1, 1], []⟩) d10 rfl rfl (.nil (d4 1)), rfl⟩, rfl, rfl⟩ hdef ?_
    refine .given (f := ⟨"algorithm", 4, {}⟩) (pick := .same) (t := ⟨0, 1, 16, [0x30, 6], [6, 2, 0x2a, 3, 5, 0], []⟩) (b := orderBytes.drop 10) (by rfl)
      (by simp [Decides, keyPair]) (.plain (pick := .same) (fun h => by cases h) rfl a1 ⟨(0, 16), _, rfl, ⟨.nil d3, rfl⟩, rfl, rfl⟩) rfl ?_
    refine .given (f := ⟨"key", 5, {}⟩) (pick := .value 0) (t := ⟨0, 0, 4, [4, 3], [2, 1, 7], []⟩) (b := orderBytes.drop 15) (x := .scalar (.int 7)) (by rfl)
      ⟨_, _, rfl, ⟨_, _, rfl, rfl⟩, by rfl⟩ ?_ rfl ?_
    · exact .payload (o := { cls := 0, method := 0, tag := 4 }) (isBit := false) (b := .octets 0 [7]) (w := ⟨0, 0, 2, [2, 1], [7], []⟩) rfl (fun _ _ _ h => by cases h) (by decide)
        (fun h => by cases h) i7 (el 7) ⟨.nil d5, rfl⟩ rfl rfl
    refine .given (f := ⟨"attributes", 7, { implicit := some (2, 1), optional := true }⟩) (pick := .same) (t := ⟨2, 1, 1, [0xa1, 6], [2, 1, 1, 0x86, 1, 2], []⟩)
      (b := orderBytes.drop 23) (by rfl) (by simp [Decides, keyPair]) (.plain (pick := .same) (fun h => by cases h) rfl a2 ⟨(0, 17), _, rfl, ⟨.nil d7, rfl⟩, rfl, rfl⟩) rfl ?_
    refine .given (f := ⟨"numbers", 8, { implicit := some (2, 2), optional := true }⟩) (pick := .same) (t := ⟨2, 1, 2, [0xa2, 6], [2, 1, 3, 2, 1, 5], []⟩)
      (b := orderBytes.drop 31) (by rfl) (by simp [Decides, keyPair]) (.plain (pick := .same) (fun h => by cases h) rfl a3 ⟨(0, 17), _, rfl, ⟨.nil d8, rfl⟩, rfl, rfl⟩) rfl ?_
    exact .given (f := ⟨"choice", 9, { explicit := [(2, 3)], optional := true }⟩) (pick := .same) (t := ⟨2, 1, 3, [0xa3, 3], [2, 1, 4], []⟩)
      (b := []) (by rfl) (by simp [Decides, keyPair]) (.plain (pick := .same) (fun h => by cases h) rfl a4
        (.cons (es := []) (v := ⟨2, 1, 3, [0xa3, 3], [2, 1, 4], []⟩) d9 rfl rfl (.nil (d4 4)))) rfl .nil
  · exact ⟨⟨"algorithm", 4, {}⟩, by simp [orderFields], by decide⟩
  · intro e he
    simp only [List.mem_cons, List.not_mem_nil, or_false] at he
    rcases he with rfl | rfl | rfl | rfl | rfl
    · exact ⟨⟨"choice", 9, { explicit := [(2, 3)], optional := true }⟩, by simp [orderFields], rfl⟩
    · exact ⟨⟨"numbers", 8, { implicit := some (2, 2), optional := true }⟩, by simp [orderFields], rfl⟩
    · exact ⟨⟨"algorithm", 4, {}⟩, by simp [orderFields], rfl⟩
    · exact ⟨⟨"key", 5, {}⟩, by simp [orderFields], rfl⟩
    · exact ⟨⟨"attributes", 7, { implicit := some (2, 1), optional := true }⟩, by simp [orderFields], rfl⟩

/-- It is written and reads back. -/
example : ∃ z N v w, ∀ j ≥ N, (ops orderEnv j).construct 6 {} (orderGiven z) = .ok v ∧ (ops orderEnv j).dump v false = .ok (orderBytes, w) := by
  obtain ⟨z, _, h⟩ := order_given
  exact ⟨z, C53_dump_partial orderEnv_types orderEnv_makable (t := ⟨0, 1, 16, [0x30, 0x22], orderBytes.drop 2, []⟩)
    (usableB_sound (D := []) (fun e he => by cases he) (by decide +kernel)) h
    ⟨(0, 16), _, rfl, ⟨.nil (der_short (cs := orderBytes.drop 2) (by omega) (by omega) (by omega) (by decide)), rfl⟩, rfl, rfl⟩ (fun h => by cases h)⟩

/-- Instances of alternatives: `Entry({'first': ('other', z), 'second': z, 'rest': [z]})` with `z = Integer(4)`, where the fields are of a CHOICE and of
the list of this CHOICE. -/
def entryEnv : Env where
  cls := fun c => match c with
    | 0 => .leaf (.integer none { cls := 0, method := 0, tag := 2 }) []
    | 1 => .choice [] none [⟨"number", 0, {}⟩, ⟨"other", 0, { implicit := some (2, 7) }⟩]
    | 2 => .seqOf { cls := 0, method := 1, tag := 16 } [] false (some 1)
    | 3 => .seq { cls := 0, method := 1, tag := 16 } [] false [⟨"first", 1, {}⟩, ⟨"second", 1, { explicit := [(2, 3)] }⟩, ⟨"rest", 2, {}⟩] none
    | _ => .any
  universal := fun _ => none

def entryBytes : Bytes := [0x30, 13, 0x87, 1, 4, 0xa3, 3, 2, 1, 4, 0x30, 3, 2, 1, 4]

def entryGiven (z : Val) : PyVal := .dict [("first", .pair "other" (.asn1 z)), ("second", .asn1 z), ("rest", .list [.asn1 z])]

theorem entryEnv_types : Types entryEnv (· < 4) := typesB_sound (D := []) (fun e he => by cases he) (fun tag c h => by cases h) (by decide +kernel)

theorem entryEnv_makable : Makable entryEnv (· < 4) := makableB_sound (by decide +kernel)

theorem entry_given : ∃ z, Built entryEnv 0 (.scalar (.int 4)) z ∧
    Gives entryEnv (· < 4) 3 (entryGiven z) (.octets 1 (entryBytes.drop 2))
      (.dict [("first", .scalar (.int 4)), ("second", .scalar (.int 4)), ("rest", .list [.scalar (.int 4)])]) := by
  have d1 : DerHead ⟨2, 0, 7, [0x87, 1], [4], []⟩ := der_short (cs := [4]) (by omega) (by omega) (by omega) (by simp)
  have d2 : DerHead ⟨0, 0, 2, [2, 1], [4], []⟩ := der_short (cs := [4]) (by omega) (by omega) (by omega) (by simp)
  have d3 : DerHead ⟨2, 1, 3, [0xa3, 3], [2, 1, 4], []⟩ := der_short (cs := [2, 1, 4]) (by omega) (by omega) (by omega) (by simp)
  have d4 : DerHead ⟨0, 1, 16, [0x30, 3], [2, 1, 4], []⟩ := der_short (cs := [2, 1, 4]) (by omega) (by omega) (by omega) (by simp)
  have i4 : Gives entryEnv (· < 4) 0 (.scalar (.int 4)) (.octets 0 [4]) (.scalar (.int 4)) :=
    .leaf rfl (fun o h => by cases h) (fun h => by cases h) (writtenB_sound (by decide +kernel))
  have el : DerElement entryEnv 0 {} (.octets 0 [4]) ⟨0, 0, 2, [2, 1], [4], []⟩ := ⟨(0, 2), _, rfl, ⟨.nil d2, rfl⟩, rfl, rfl⟩
  have own : OwnAlternative entryEnv 1 ⟨"number", 0, {}⟩ := ⟨_, rfl, .head _, trivial, rfl, rfl⟩
  have hz : ∃ z, Built entryEnv 0 (.scalar (.int 4)) z := by
    obtain ⟨v, h, _⟩ := (gives_makes entryEnv_types entryEnv_makable i4 (by decide)).made {} goodTags_plain (fun _ => ⟨rfl, rfl⟩) (fun _ => rfl)
    exact ⟨v, h⟩
  obtain ⟨z, hz⟩ := hz
  refine ⟨z, hz, ?_⟩
  have a1 : Gives entryEnv (· < 4) 1 (.pair "other" (.asn1 z)) (.element ⟨2, 0, 7, [0x87, 1], [4], []⟩) (.scalar (.int 4)) := by
    refine .choiceInst (k := 1) (f := ⟨"other", 0, { implicit := some (2, 7) }⟩) rfl rfl rfl ?_ (by decide) hz i4 ⟨(0, 2), _, rfl, ⟨.nil d1, rfl⟩, rfl, rfl⟩
    intro i g hi hg
    match i with
    | 0 => simp only [List.getElem?_cons_zero, Option.some.injEq] at hi; subst hi; exact absurd hg (by decide)
    | 1 => rfl
    | i + 2 => simp at hi
  refine .seq (fields := [⟨"first", 1, {}⟩, ⟨"second", 1, { explicit := [(2, 3)] }⟩, ⟨"rest", 2, {}⟩]) (oid := none)
    (ns := [.scalar (.int 4), .scalar (.int 4), .list [.scalar (.int 4)]]) rfl ?_ ?_ ?_
  · refine .given (f := ⟨"first", 1, {}⟩) (pick := .same) (t := ⟨2, 0, 7, [0x87, 1], [4], []⟩) (b := entryBytes.drop 5) (by rfl) (by rfl)
      (.plain (pick := .same) (fun h => by cases h) rfl a1 (.nil d1)) rfl ?_
    refine .given (f := ⟨"second", 1, { explicit := [(2, 3)] }⟩) (pick := .same) (t := ⟨2, 1, 3, [0xa3, 3], [2, 1, 4], []⟩) (b := entryBytes.drop 10) (by rfl) (by rfl)
      (.alternative (pick := .same) (g := ⟨"number", 0, {}⟩) rfl own (by decide) hz i4 el
        (.cons (es := []) (v := ⟨2, 1, 3, [0xa3, 3], [2, 1, 4], []⟩) d3 rfl rfl (.nil d2))) rfl ?_
    exact .given (f := ⟨"rest", 2, {}⟩) (pick := .same) (t := ⟨0, 1, 16, [0x30, 3], [2, 1, 4], []⟩) (b := []) (by rfl) (by rfl)
      (.plain (pick := .same) (fun h => by cases h) rfl
        (.list (ch := 1) (ps := [(⟨0, 0, 2, [2, 1], [4], []⟩, .scalar (.int 4))]) rfl (.alternative (g := ⟨"number", 0, {}⟩) own (by decide) hz i4 el .nil))
        ⟨(0, 16), _, rfl, ⟨.nil d4, rfl⟩, rfl, rfl⟩) rfl .nil
  · exact ⟨⟨"first", 1, {}⟩, .head _, by simp [valueOf]⟩
  · intro e he
    simp only [List.mem_cons, List.not_mem_nil, or_false] at he
    rcases he with rfl | rfl | rfl
    · exact ⟨_, .head _, rfl⟩
    · exact ⟨_, .tail _ (.head _), rfl⟩
    · exact ⟨_, .tail _ (.tail _ (.head _)), rfl⟩

/-- It is written like this. -/
example : ∃ z, Built entryEnv 0 (.scalar (.int 4)) z ∧
    ∃ N v w, ∀ j ≥ N, (ops entryEnv j).construct 3 {} (entryGiven z) = .ok v ∧ (ops entryEnv j).dump v false = .ok (entryBytes, w) := by
  obtain ⟨z, hz, h⟩ := entry_given
  exact ⟨z, hz, C53_dump_partial entryEnv_types entryEnv_makable (t := ⟨0, 1, 16, [0x30, 13], entryBytes.drop 2, []⟩)
    (usableB_sound (D := []) (fun e he => by cases he) (by decide +kernel)) h
    ⟨(0, 16), _, rfl, ⟨.nil (der_short (cs := entryBytes.drop 2) (by omega) (by omega) (by omega) (by decide)), rfl⟩, rfl, rfl⟩ (fun h => by cases h)⟩

/-- A class of the package: `DigestAlgorithm({'algorithm': 'sha256'}).dump()` -/
example (K : Pkg.Codecs) : ∃ N, ∀ j ≥ N, ∃ v w bytes u z, (ops (Pkg.env K) j).construct Pkg.Id.algos.DigestAlgorithm {} (Pkg.algDefault "sha256") = .ok v ∧
    (ops (Pkg.env K) j).dump v false = .ok (bytes, w) ∧ bytes = [0x30, 0x0b, 6, 9, 0x60, 0x86, 0x48, 1, 0x65, 3, 4, 2, 1] ∧
    loadVal (Pkg.env K) (ops (Pkg.env K) j) Pkg.Id.algos.DigestAlgorithm {} bytes = .ok u ∧ (ops (Pkg.env K) j).native u = .ok (Pkg.algValue "sha256", z) := by
  have d1 : DerHead ⟨0, 0, 6, [6, 9], [0x60, 0x86, 0x48, 1, 0x65, 3, 4, 2, 1], []⟩ :=
    der_short (cs := [0x60, 0x86, 0x48, 1, 0x65, 3, 4, 2, 1]) (by omega) (by omega) (by omega) (by simp)
  have d2 : DerHead ⟨0, 1, 16, [0x30, 0x0b], [6, 9, 0x60, 0x86, 0x48, 1, 0x65, 3, 4, 2, 1], []⟩ :=
    der_short (cs := [6, 9, 0x60, 0x86, 0x48, 1, 0x65, 3, 4, 2, 1]) (by omega) (by omega) (by omega) (by simp)
  have h : Gives (Pkg.env K) (· < Pkg.size) Pkg.Id.algos.DigestAlgorithm (Pkg.algDefault "sha256")
      (.octets 1 [6, 9, 0x60, 0x86, 0x48, 1, 0x65, 3, 4, 2, 1]) (Pkg.algValue "sha256") := by
    refine .seq (fields := shapeFields Pkg.algos.DigestAlgorithm) (ns := [.scalar (.str "sha256".toList), .scalar .none]) rfl ?_ ?_ ?_
    · refine .given (f := ⟨"algorithm", Pkg.Id.algos.DigestAlgorithmId, {}⟩) (pick := .same) (x := .scalar (.str "sha256".toList))
        (t := ⟨0, 0, 6, [6, 9], [0x60, 0x86, 0x48, 1, 0x65, 3, 4, 2, 1], []⟩) (b := []) (by rfl) (by rfl) ?_ rfl ?_
      · exact .plain (pick := .same) (b := .octets 0 [0x60, 0x86, 0x48, 1, 0x65, 3, 4, 2, 1]) (fun h => by cases h) rfl
          (.leaf rfl (fun o h => by cases h) (fun h => by cases h) (writtenB_sound (by kernel_rfl))) ⟨(0, 6), _, rfl, ⟨.nil d1, rfl⟩, rfl, rfl⟩
      · exact .absent (fun x h => by cases h) rfl rfl .nil
    · exact ⟨_, .head _, by decide⟩
    · intro e he
      simp only [Pkg.algDefault, List.mem_cons, List.not_mem_nil, or_false] at he
      subst he
      exact ⟨_, .head _, rfl⟩
  exact C53_package_partial K (t := ⟨0, 1, 16, [0x30, 0x0b], [6, 9, 0x60, 0x86, 0x48, 1, 0x65, 3, 4, 2, 1], []⟩) (by decide) h
    ⟨(0, 16), _, rfl, ⟨.nil d2, rfl⟩, rfl, rfl⟩

/-! ### Where building goes wrong -/

/-- The classes. -/
def wrongEnv : Env where
  cls := fun c => match c with
    | 0 => .leaf (.integer none { cls := 0, method := 0, tag := 2 }) []
    | 1 => .leaf (.oid { map := some [("1.2.3".toList, "rsa".toList)] } { cls := 0, method := 0, tag := 6 }) []
    | 2 => .any
    | 3 => .choice [] none choiceFields
    | 4 => .leaf (.null { cls := 0, method := 0, tag := 5, contents := some [] }) []
    | 5 => .parsable { cls := 0, method := 0, tag := 4 } false
    | 6 => .seq { cls := 0, method := 1, tag := 17 } [] true [⟨"a", 0, {}⟩, ⟨"b", 0, { implicit := some (2, 6), optional := true }⟩] none
    | 7 => .seq { cls := 0, method := 1, tag := 16 } [] false [⟨"x", 2, { explicit := [(2, 0)] }⟩] none
    | 8 => .seq { cls := 0, method := 1, tag := 16 } [] false [⟨"type", 1, {}⟩, ⟨"value", 5, {}⟩] (some { oid := 0, value := 1, specs := [("rsa".toList, .value 3)] })
    | _ => .any
  universal := fun tag => if tag = 2 then some 0 else none

/-- `c(x).dump()` -/
def dumped (E : Env) (j : Nat) (c : ClassId) (x : PyVal) : Py Bytes := do
  let v ← (ops E j).construct c {} x
  let (b, _) ← (ops E j).dump v false
  .ok b

/-- A SET with an optional field that is not given cannot be written: the tags are compared with the `None` of the absent field. -/
theorem C53_not_set_absent (j : Nat) : dumped wrongEnv (j + 20) 6 (.dict [("a", .scalar (.int 1))]) = .error .typeError := by kernel_rfl

/-- An instance given for an ANY with an explicit tag is written without that tag. -/
theorem C53_not_any_explicit (j : Nat) : ((ops wrongEnv (j + 20)).construct 0 {} (.scalar (.int 1))).bind (fun v =>
    dumped wrongEnv (j + 20) 7 (.dict [("x", .asn1 v)])) = .ok [0x30, 3, 2, 1, 1] := by kernel_rfl

/-- It does not read back. -/
theorem C53_not_any_explicit_back (j : Nat) : ((loadVal wrongEnv (ops wrongEnv (j + 20)) 7 {} [0x30, 3, 2, 1, 1]).bind (ops wrongEnv (j + 20)).native).map
    (fun _ => ()) = .error .valueError := by kernel_rfl

/-- A CHOICE given for a string that should hold its encoding is written in place of the string. -/
theorem C53_not_choice_payload (j : Nat) :
    dumped wrongEnv (j + 20) 8 (.dict [("type", .scalar (.str "rsa".toList)), ("value", .pair "number" (.scalar (.int 4)))]) =
      .ok [0x30, 7, 6, 2, 0x2a, 3, 2, 1, 4] := by kernel_rfl

/-- A SET with fields of different tag classes. -/
def mixedEnv : Env where
  cls := fun c => match c with
    | 0 => .leaf (.integer none { cls := 0, method := 0, tag := 2 }) []
    | 1 => .seq { cls := 0, method := 1, tag := 17 } [] true [⟨"b", 0, { implicit := some (2, 1) }⟩, ⟨"a", 0, {}⟩] none
    | _ => .any
  universal := fun _ => none

/-- The fields of a SET are written in the order of the tag numbers, whatever the classes; DER has the universal class first (X.690 §10.3, X.680 §8.6). -/
theorem C53_not_set_order : ∃ N, ∀ j ≥ N, dumped mixedEnv j 1 (.dict [("a", .scalar (.int 1)), ("b", .scalar (.int 2))]) =
    .ok [0x31, 6, 0x81, 1, 2, 2, 1, 1] := by
  have hT : Types mixedEnv (· < 2) := typesB_sound (D := []) (fun e he => by cases he) (fun tag c h => by cases h) (by decide +kernel)
  have hM : Makable mixedEnv (· < 2) := makableB_sound (by decide +kernel)
  have d1 : DerHead ⟨2, 0, 1, [0x81, 1], [2], []⟩ := der_short (cs := [2]) (by omega) (by omega) (by omega) (by simp)
  have d2 : DerHead ⟨0, 0, 2, [2, 1], [1], []⟩ := der_short (cs := [1]) (by omega) (by omega) (by omega) (by simp)
  have d3 : DerHead ⟨0, 1, 17, [0x31, 6], [0x81, 1, 2, 2, 1, 1], []⟩ := der_short (cs := [0x81, 1, 2, 2, 1, 1]) (by omega) (by omega) (by omega) (by simp)
  have h : Gives mixedEnv (· < 2) 1 (.dict [("a", .scalar (.int 1)), ("b", .scalar (.int 2))]) _ _ :=
    .set (fields := [⟨"b", 0, { implicit := some (2, 1) }⟩, ⟨"a", 0, {}⟩]) (ns := [.scalar (.int 2), .scalar (.int 1)])
      (ts := [⟨2, 0, 1, [0x81, 1], [2], []⟩, ⟨0, 0, 2, [2, 1], [1], []⟩]) rfl
      (.given (x := .scalar (.int 2)) (by rfl) (.plain (pick := .same) (b := .octets 0 [2]) (fun h => by cases h) rfl
        (.leaf rfl (fun o h => by cases h) (fun h => by cases h) (writtenB_sound (by decide +kernel))) ⟨(0, 2), _, rfl, ⟨.nil d1, rfl⟩, rfl, rfl⟩) rfl
        (.given (x := .scalar (.int 1)) (by rfl) (.plain (pick := .same) (b := .octets 0 [1]) (fun h => by cases h) rfl
          (.leaf rfl (fun o h => by cases h) (fun h => by cases h) (writtenB_sound (by decide +kernel))) ⟨(0, 2), _, rfl, ⟨.nil d2, rfl⟩, rfl, rfl⟩) rfl .nil))
      ⟨_, .head _, by decide⟩ (by
        intro e he
        simp only [List.mem_cons, List.not_mem_nil, or_false] at he
        rcases he with rfl | rfl
        · exact ⟨_, .tail _ (.head _), rfl⟩
        · exact ⟨_, .head _, rfl⟩)
  rw [List.mergeSort_of_pairwise (by simp)] at h
  obtain ⟨N, v, w, hN⟩ := C53_dump_partial hT hM (p := {}) (t := ⟨0, 1, 17, [0x31, 6], [0x81, 1, 2, 2, 1, 1], []⟩)
    (usableB_sound (D := []) (fun e he => by cases he) (by decide +kernel)) h ⟨(0, 17), _, rfl, ⟨.nil d3, rfl⟩, rfl, rfl⟩ (fun h => by cases h)
  refine ⟨N, fun j hj => ?_⟩
  obtain ⟨h1, h2⟩ := hN j hj
  simp only [dumped, h1, h2, bind, Except.bind]
  rfl

end Asn1.Props
