import Verif.Lemmas.DerLeaf
import Verif.Spec.Give

/-! # Values of primitive classes have their DER contents octets -/

namespace Asn1
open Spec Props

theorem integer_read {m : Option IntMap} {cl tg : Nat} {b : Bytes} : Reads (.integer m { cls := cl, method := 0, tag := tg }) false b
    (LeafSt.ofIntNative (Integer.show m (valS b))) := by
  refine ⟨fun o h => (by cases h), .integer m { cls := cl, method := 0, tag := tg, contents := some b, native := some (Integer.show m (valS b)) }, ?_, rfl⟩
  exact integer_native (o := { cls := cl, method := 0, tag := tg, contents := some b }) rfl rfl

theorem show_name {l l1 l2 : IntMap} {n : Int} {nm : String} (hl : (l.map Prod.fst).Nodup) (h : l = l1 ++ (n, nm) :: l2) :
    Integer.show (some l) n = .name nm := by
  have := IntMap.get_of_mem hl (n := n) (s := nm) (by rw [h]; simp)
  simp [Integer.show, this]

theorem show_number {m : Option IntMap} {n : Int} (h : ∀ l, m = some l → n ∉ l.map Prod.fst) : Integer.show m n = .int n := by
  cases m with
  | none => rfl
  | some l => simp [Integer.show, IntMap.get_none (h l rfl)]

/-- A value with DER contents octets can be set, and those octets are read as the value. -/
theorem der_reads {proto : LeafSt} {s : Scalar} {b : Bytes} (hp : PlainLeaf proto) (hn : proto.notNull = true)
    (he : ∀ m o, proto = .enumerated m o → ∃ nm, s = .str nm) (h : DerContents proto s b) :
    (∃ st, proto.set s = .ok st) ∧ Reads proto false b s := by
  cases hp with
  | boolean hc =>
    cases h with
    | @boolean _ v => cases v <;> exact ⟨⟨_, rfl⟩, fun o h => (by cases h), _, rfl, rfl⟩
  | @integer cl tg m hc hm =>
    cases h with
    | @integer _ _ _ n _ h1 h2 =>
      obtain ⟨c', e1, _, _⟩ := Integer.setInt_spec m { cls := cl, method := 0, tag := tg } n
      have hv : valS b = n := h2.2.1
      have hr := integer_read (m := m) (cl := cl) (tg := tg) (b := b)
      rw [hv] at hr
      rcases h1 with ⟨rfl, h1⟩ | ⟨l, l1, l2, nm, rfl, h3, h4, rfl⟩
      · rw [show_number h1] at hr
        refine ⟨?_, hr⟩
        simp only [LeafSt.set, Integer.set, bind, Except.bind, e1]
        exact ⟨_, rfl⟩
      · rw [show_name (hm l rfl) h3] at hr
        refine ⟨?_, hr⟩
        have hrv := rev_iff.mpr ⟨l1, l2, h3, h4⟩
        simp only [LeafSt.set, Integer.set, bind, Except.bind, String.ofList_toList, hrv, e1]
        exact ⟨_, rfl⟩
  | @enumerated cl tg m hc hm =>
    cases h with
    | @enumerated _ _ _ n _ h1 h2 =>
      obtain ⟨nm', hs⟩ := he _ _ rfl
      rcases h1 with ⟨rfl, h1⟩ | ⟨l, l1, l2, nm, rfl, h3, h4, rfl⟩
      · cases hs
      · obtain ⟨c', e1, _, _⟩ := Integer.setInt_spec (some l) { cls := cl, method := 0, tag := tg } n
        have hrv := rev_iff.mpr ⟨l1, l2, h3, h4⟩
        have hget := IntMap.get_of_mem (hm l rfl) (n := n) (s := nm) (by rw [h3]; simp)
        refine ⟨?_, fun o h => (by cases h), ?_⟩
        · simp only [LeafSt.set, Enumerated.set, Integer.set, bind, Except.bind, String.ofList_toList, hrv, e1]
          exact ⟨_, rfl⟩
        · simp only [LeafSt.map, LeafSt.native, Enumerated.native, bind, Except.bind, intFromBytes_signed, h2.2.1, hget]
          exact ⟨_, rfl, rfl⟩
  | null hc => cases hn
  | @oid cl tg k hc hk =>
    cases h with
    | @oid _ _ nm arcs _ h1 h2 h3 =>
      have hD : pyJoin ['.'] (Oid.dottedLoop b 0 []) = dottedText arcs := by rw [dottedLoop_contents arcs h2 b h3]; exact (dottedText_eq arcs).symm
      have hof : oidName k (dottedText arcs) = nm ∧ oidName k nm = nm ∧ k.resolve nm = .ok (dottedText arcs) := by
        unfold OidOf at h1
        cases hkm : k.map with
        | none =>
          rw [hkm] at h1
          simp only at h1
          subst h1
          have : k.setup.map = none := by
            rw [OidClass.setup, hkm]
            exact hkm
          simp [OidClass.resolve, this, oidName, hkm]
        | some m =>
          rw [hkm] at h1
          simp only at h1
          obtain ⟨g1, g2, g3, g4⟩ := hk.2 m hkm
          have ok : ClassOk k m := ⟨hkm, g1, g2, g3, fun r hr => (by rw [hk.1.1] at hr; cases hr), hk.1.2⟩
          rw [resolve_eq ok]
          simp only [oidName, hkm]
          have absent : ∀ {x : Str}, x ∉ m.map Prod.fst → m.get x = none := by
            intro x hx
            cases hg : m.get x with
            | none => rfl
            | some y => exact absurd (List.mem_map.mpr ⟨_, (get_iff g1 _ _).mp hg, rfl⟩) hx
          rcases h1 with h1 | ⟨h1, rfl⟩
          · rw [(get_iff g1 _ _).mpr h1, absent (g3 nm (List.mem_map.mpr ⟨_, h1, rfl⟩)), ((setup_rev ok).2 nm (dottedText arcs)).mpr h1]
            exact ⟨rfl, rfl, rfl⟩
          · rw [absent h1, setup_rev_none ok (g4 arcs)]
            exact ⟨rfl, rfl, rfl⟩
      obtain ⟨n1, n2, n3⟩ := hof
      obtain ⟨c', e1, e2⟩ := oidLoop_enc arcs h2
      refine ⟨?_, fun o h => (by cases h), .oid k { toObj := { cls := cl, method := 0, tag := tg, contents := some b, native := some nm }, dotted := some (dottedText arcs) }, ?_, ?_⟩
      · simp only [LeafSt.set, oid_set_eq _ n3, e1]
        exact ⟨_, rfl⟩
      · have : (LeafSt.oid k { toObj := { cls := cl, method := 0, tag := tg, contents := some b }, dotted := none }).native =
            .ok (.str nm, .oid k { toObj := { cls := cl, method := 0, tag := tg, contents := some b, native := some nm }, dotted := some (dottedText arcs) }) := by
          simp only [LeafSt.native, Oid.native, Oid.dotted, bind, Except.bind, pure, Except.pure]
          rw [hD]
          show Except.ok (LeafSt.optScalar Scalar.str (some (oidName k (dottedText arcs))), LeafSt.oid k { toObj := { cls := cl, method := 0, tag := tg, contents := some b, native := some (oidName k (dottedText arcs)) }, dotted := some (dottedText arcs) }) = _
          rw [n1]
          rfl
        exact this
      · rw [oid_native_cached rfl rfl, n2]
  | octets hc =>
    cases h with
    | octets => exact ⟨⟨_, rfl⟩, fun o h => (by cases h), _, rfl, rfl⟩
  | chars hc hk =>
    cases h with
    | chars h1 =>
      refine ⟨?_, fun o h => (by cases h), ?_⟩
      · simp only [LeafSt.set, AbstractString.set, bind, Except.bind, h1]
        exact ⟨_, rfl⟩
      · simp only [LeafSt.map, LeafSt.native, AbstractString.native, Bool.false_eq_true, if_false, mergeObj_false, OctetString.asChunk,
            bind, Except.bind, hk _ _ h1]
        exact ⟨_, rfl, rfl⟩
  | @bits cl tg hc =>
    cases h with
    | @bits _ v _ h1 =>
      obtain ⟨c', u, k1, k2, _⟩ := bitString_set_spec { cls := cl, method := 0, tag := tg } v
      obtain ⟨o', h3⟩ := (BitString.native_iff { cls := cl, method := 0, tag := tg, contents := some b } b rfl rfl v).mpr (BitContents.leaf h1)
      refine ⟨?_, fun o h => (by cases h), .bits o', ?_, ?_⟩
      · simp only [LeafSt.set, bind, Except.bind, k1]
        exact ⟨_, rfl⟩
      · show (BitString.native _).bind _ = _
        exact (congrArg (fun x => Except.bind x _) h3).trans rfl
      · rw [BitString.native] at h3
        simp only [bind, Except.bind, pure, Except.pure] at h3
        split at h3
        · cases h3
        · split at h3
          · cases h3
          · cases h3; rfl
  | octetBits hc =>
    cases h with
    | octetBits => exact ⟨⟨_, rfl⟩, fun o h => (by cases h), _, rfl, rfl⟩
  | @intBits cl tg hc =>
    cases h with
    | @intBits _ n c h1 =>
      have hu := valU_of_valS h1.2.1
      obtain ⟨o', h3⟩ := (IntegerBitString.native_iff { cls := cl, method := 0, tag := tg, contents := some (0 :: c) } (0 :: c) rfl rfl n).mpr
        ⟨bitsOf c, BitLeaf_zero c, by rw [valBits_bitsOf, hu]⟩
      refine ⟨?_, fun o h => (by cases h), .intBits o', ?_, ?_⟩
      · simp only [LeafSt.set, IntegerBitString.set, bind, Except.bind, intToBytes_signed]
        rw [if_neg (by omega)]
        exact ⟨_, rfl⟩
      · simp only [LeafSt.map, LeafSt.native, bind, Except.bind]
        split
        · next hh => exact absurd (h3.symm.trans hh) (by simp)
        · next hh =>
          have := h3.symm.trans hh
          cases this
          rfl
      · rw [IntegerBitString.native] at h3
        simp only [bind, Except.bind, pure, Except.pure] at h3
        split at h3
        · cases h3
        · cases h3; rfl
  | @intOctets cl tg hc =>
    cases h with
    | @intOctets _ n _ h1 =>
      obtain ⟨c', k1, k2, _⟩ := intOct_set_spec { cls := cl, method := 0, tag := tg } n (fun w h => by cases h)
      refine ⟨?_, fun o h => (by cases h), ?_⟩
      · simp only [LeafSt.set, bind, Except.bind]
        rw [k1]
        exact ⟨_, rfl⟩
      · simp only [LeafSt.map, LeafSt.native, IntegerOctetString.native, Bool.false_eq_true, if_false, mergeObj_false, OctetString.asChunk,
            bind, Except.bind, intFromBytes_unsigned, h1.2.1]
        exact ⟨_, rfl, rfl⟩

theorem written_of_der {proto : LeafSt} {s : Scalar} {b : Bytes} (hp : PlainLeaf proto) (hn : proto.notNull = true)
    (he : ∀ m o, proto = .enumerated m o → ∃ nm, s = .str nm) (h : DerContents proto s b) : Written proto s b s := by
  obtain ⟨⟨st, hs⟩, hr⟩ := der_reads hp hn he h
  obtain ⟨c', h1, h2⟩ := derContents_of_set hp hr hs
  cases derContents_unique hp h h2
  obtain ⟨c', k1, k2, _⟩ := (plainLeaf_good hp).canon hn false b s st hr hs
  exact ⟨st, hs, h1, k2, hr⟩

end Asn1
