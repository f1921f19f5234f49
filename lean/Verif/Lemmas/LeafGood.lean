import Verif.Lemmas.LeafRep
import Verif.Spec.Universe
import Verif.Props.C09
import Verif.Props.C10
import Verif.Props.C11
import Verif.Props.C14

/-! # The primitive classes of a schema keep their values when set again -/

namespace Asn1
open Spec Props

theorem dottedLoop_arcs : ∀ (c : Bytes) (part : Nat) (arcs : List Nat), (arcs = [] ∨ OidValid arcs) →
    ∃ arcs', (arcs' = [] ∨ OidValid arcs') ∧ Oid.dottedLoop c part (arcs.map pyStrNat) = arcs'.map pyStrNat
  | [], _, arcs, h => ⟨arcs, h, rfl⟩
  | b :: bs, part, arcs, h => by
    rw [Oid.dottedLoop]
    simp only
    split
    · generalize part * 128 + (b.toNat &&& 127) = n
      cases arcs with
      | nil =>
        simp only [List.map_nil, List.length_nil, if_true]
        split
        · exact dottedLoop_arcs bs 0 [2, n - 80] (.inr ⟨by omega, by omega⟩)
        · split
          · exact dottedLoop_arcs bs 0 [1, n - 40] (.inr ⟨by omega, by omega⟩)
          · exact dottedLoop_arcs bs 0 [0, n] (.inr ⟨by omega, by omega⟩)
      | cons a as =>
        simp only [List.length_map, List.length_cons, Nat.add_eq_zero_iff, one_ne_zero, and_false, if_false]
        have := dottedLoop_arcs bs 0 (a :: as ++ [n]) (by
          rcases h with h | h
          · cases h
          · cases as with
            | nil => exact h.elim
            | cons b' as => exact .inr h)
        simpa using this
    · exact dottedLoop_arcs bs _ arcs h

theorem oidLoop_empty : oidLoop 0 0 (pySplit '.' []) [] = ([], some .valueError) := by decide

theorem valU_of_valS {bs : Bytes} {k : Nat} (hvs : valS bs = (k : Int)) : valU bs = k := by
  cases bs with
  | nil => simp [valS] at hvs; simp [valU]; omega
  | cons x xs =>
    rw [valS] at hvs
    split at hvs
    · exact_mod_cast hvs
    · have := valU_lt (x :: xs)
      rw [List.length_cons] at this
      have h256 : ((valU (x :: xs) : Nat) : Int) < 256 ^ (xs.length + 1) := by exact_mod_cast this
      omega

theorem oid_reads {k : OidClass} {cl tg : Nat} {ind : Bool} {c : Bytes} {s : Scalar}
    (h : Reads (.oid k { cls := cl, method := 0, tag := tg }) ind c s) :
    s = .str (oidName k (pyJoin ['.'] (Oid.dottedLoop c 0 []))) ∧
      oidName k (oidName k (pyJoin ['.'] (Oid.dottedLoop c 0 []))) = oidName k (pyJoin ['.'] (Oid.dottedLoop c 0 [])) := by
  obtain ⟨_, st, h1, h2⟩ := h
  cases h1
  rw [oid_native_cached rfl rfl] at h2
  injection h2 with h2
  injection h2 with h2 _
  injection h2 with h2
  exact ⟨rfl, h2⟩

theorem oid_set_eq {k : OidClass} (o : OidObj) {v d : Str} (h : k.resolve v = .ok d) : Oid.set k o v =
    match oidLoop 0 0 (pySplit '.' d) [] with
    | (contents, some e) => ({ o with native := some v, contents := some contents }, some e)
    | (contents, none) => ({ o with native := some v, contents := some contents, header := none, trailer := [] }, none) := by
  unfold Oid.set
  rw [h]
  rfl

theorem integer_native {m : Option IntMap} {o : Obj IntNative} {c : Bytes} (hc : o.contents = some c) (hn : o.native = none) :
    (LeafSt.integer m o).native = .ok (LeafSt.ofIntNative (Integer.show m (valS c)), .integer m { o with native := some (Integer.show m (valS c)) }) := by
  show (Integer.native m o).bind _ = _
  rw [Integer.native_loaded m o c hc hn]
  rfl

/-- Setting an INTEGER to what was read sets a number that reads the same. -/
theorem integer_reads {m : Option IntMap} (hm : ∀ l, m = some l → (l.map Prod.fst).Nodup) {cl tg : Nat} {ind : Bool} {c : Bytes} {s : Scalar} {st : LeafSt}
    (h : Reads (.integer m { cls := cl, method := 0, tag := tg }) ind c s)
    (hs : (LeafSt.integer m { cls := cl, method := 0, tag := tg }).set s = .ok st) :
    ∃ n, s = LeafSt.ofIntNative (Integer.show m n) ∧
      (Integer.setInt m { cls := cl, method := 0, tag := tg } n).bind (fun o => .ok (LeafSt.integer m o)) = .ok st := by
  obtain ⟨_, st0, h1, _⟩ := h
  rw [LeafSt.map, integer_native rfl rfl] at h1
  injection h1 with h1
  injection h1 with h1 _
  subst h1
  cases hsh : Integer.show m (valS c) with
  | int n =>
    have hn : n = valS c := by
      unfold Integer.show at hsh
      split at hsh
      · split at hsh
        · cases hsh
        · cases hsh; rfl
      · cases hsh; rfl
    rw [hsh] at hs
    refine ⟨valS c, by rw [hsh], ?_⟩
    rw [← hn]
    exact hs
  | name nm =>
    rw [hsh] at hs
    cases m with
    | none => cases hsh
    | some l =>
      simp only [LeafSt.ofIntNative, LeafSt.set, String.ofList_toList, Integer.set, bind, Except.bind] at hs
      cases hrv : IntMap.rev l nm with
      | none => rw [hrv] at hs; cases hs
      | some n =>
        rw [hrv] at hs
        refine ⟨n, ?_, hs⟩
        have := IntMap.get_of_mem (hm l rfl) (IntMap.rev_some hrv)
        simp [Integer.show, this]

theorem plainLeaf_good {proto : LeafSt} (h : PlainLeaf proto) : GoodLeaf proto := by
  cases h with
  | boolean hc =>
    refine ⟨⟨hc, rfl, rfl, rfl, rfl, rfl, rfl⟩, fun o h => (by cases h), fun o h => (by cases h), rfl, ?_⟩
    intro _ ind c s st hr hs
    obtain ⟨_, st0, h1, _⟩ := hr
    cases h1
    cases hs
    generalize decide (c ≠ [0]) = b
    refine ⟨_, rfl, rfl, fun o h => (by cases h), ?_⟩
    cases b <;> exact ⟨_, rfl, rfl⟩
  | integer hc hm =>
    refine ⟨⟨hc, rfl, rfl, rfl, rfl, rfl, rfl⟩, fun o h => (by cases h), fun o h => (by cases h), rfl, ?_⟩
    intro _ ind c s st hr hs
    obtain ⟨n, hn, hst⟩ := integer_reads hm hr hs
    obtain ⟨c', e1, _, e3⟩ := Integer.setInt_spec _ _ n
    rw [e1] at hst
    cases hst
    refine ⟨c', rfl, by rw [hn]; rfl, fun o h => (by cases h), ?_⟩
    rw [hn, ← e3]
    exact ⟨_, integer_native rfl rfl, rfl⟩
  | enumerated hc hm =>
    rename_i cl tg m
    refine ⟨⟨hc, rfl, rfl, rfl, rfl, rfl, rfl⟩, fun o h => (by cases h), fun o h => (by cases h), rfl, ?_⟩
    intro _ ind c s st hr hs
    cases m with
    | none => obtain ⟨_, st0, h1, _⟩ := hr; cases h1
    | some l =>
      obtain ⟨_, st0, h1, _⟩ := hr
      simp only [LeafSt.map, LeafSt.native, Enumerated.native, bind, Except.bind, intFromBytes_signed] at h1
      split at h1
      · cases h1
      · next hh =>
        split at hh
        · next nm hg =>
          cases hh
          cases h1
          simp only [LeafSt.set, Enumerated.set, LeafSt.optScalar, LeafSt.ofIntNative, String.ofList_toList, bind, Except.bind] at hs
          split at hs
          · cases hs
          · next hh =>
            split at hh
            · cases hh
            · next n hrv =>
              have hget := IntMap.get_of_mem (hm l rfl) (IntMap.rev_some hrv)
              obtain ⟨c', e1, _, e3⟩ := Integer.setInt_spec (some l) { cls := cl, method := 0, tag := tg } n
              rw [Integer.set, e1] at hh
              cases hh
              cases hs
              have hsh : Integer.show (some l) n = .name nm := by simp [Integer.show, hget]
              refine ⟨c', rfl, by rw [hsh]; rfl, fun o h => (by cases h), ?_⟩
              simp only [LeafSt.map, LeafSt.native, Enumerated.native, bind, Except.bind, intFromBytes_signed, e3, hget]
              exact ⟨_, rfl, rfl⟩
        · cases hh
  | null hc =>
    exact ⟨⟨hc, rfl, rfl, rfl, rfl, rfl, rfl⟩, fun o h => (by cases h; rfl), fun o h => (by cases h), rfl, fun h => (by cases h)⟩
  | oid hc hk =>
    rename_i cl tg k
    refine ⟨⟨hc, rfl, rfl, rfl, rfl, rfl, rfl⟩, fun o h => (by cases h), fun o h => (by cases h), rfl, ?_⟩
    intro _ ind c s st hr hs
    obtain ⟨rfl, hst⟩ := oid_reads hr
    obtain ⟨arcs, ha, hD⟩ := dottedLoop_arcs c 0 [] (.inl rfl)
    rw [List.map_nil] at hD
    rw [hD] at hst hs ⊢
    have hDt : pyJoin ['.'] (arcs.map pyStrNat) = dottedText arcs := (dottedText_eq arcs).symm
    rw [hDt] at hst hs ⊢
    -- the OID that the value stands for
    have hd : k.resolve (oidName k (dottedText arcs)) = .ok (dottedText arcs) := by
      cases hkm : k.map with
      | none =>
        have : k.setup.map = none := by
          rw [OidClass.setup, hkm]
          exact hkm
        simp [OidClass.resolve, this, oidName, hkm]
      | some m =>
        obtain ⟨g1, g2, g3, g4⟩ := hk.2 m hkm
        have ok : ClassOk k m := ⟨hkm, g1, g2, g3, fun r hr => (by rw [hk.1.1] at hr; cases hr), hk.1.2⟩
        rw [resolve_eq ok]
        simp only [oidName, hkm]
        cases hg : m.get (dottedText arcs) with
        | none =>
          rw [Option.getD_none, setup_rev_none ok (g4 arcs)]
          rfl
        | some nm =>
          have := (get_iff g1 _ _).mp hg
          rw [Option.getD_some, ((setup_rev ok).2 nm (dottedText arcs)).mpr this]
          rfl
    generalize hnm : oidName k (dottedText arcs) = nm at hst hs hd ⊢
    rcases ha with rfl | ha
    · exfalso
      simp only [LeafSt.set, oid_set_eq _ hd] at hs
      rw [show dottedText [] = [] from rfl, oidLoop_empty] at hs
      cases hs
    · obtain ⟨c', e1, e2⟩ := oidLoop_enc arcs ha
      simp only [LeafSt.set, oid_set_eq _ hd, e1] at hs
      cases hs
      refine ⟨c', rfl, ?_, fun o h => (by cases h), ?_⟩
      · rw [oid_native_cached rfl rfl, hst]
      · have : (LeafSt.oid k { toObj := { cls := cl, method := 0, tag := tg, contents := some c' }, dotted := none }).native =
            .ok (.str nm, .oid k { toObj := { cls := cl, method := 0, tag := tg, contents := some c', native := some nm }, dotted := some (dottedText arcs) }) := by
          simp only [LeafSt.native, Oid.native, Oid.dotted, bind, Except.bind, pure, Except.pure]
          rw [dottedLoop_contents arcs ha c' e2, hDt, ← hnm]
          rfl
        refine ⟨_, this, ?_⟩
        rw [oid_native_cached rfl rfl, hst]
  | octets hc =>
    refine ⟨⟨hc, rfl, rfl, rfl, rfl, rfl, rfl⟩, fun o h => (by cases h), fun o h => (by cases h), rfl, ?_⟩
    intro _ ind c s st hr hs
    cases s <;> cases hs
    exact ⟨_, rfl, rfl, fun o h => (by cases h), _, rfl, rfl⟩
  | chars hc hk =>
    refine ⟨⟨hc, rfl, rfl, rfl, rfl, rfl, rfl⟩, fun o h => (by cases h), fun o h => (by cases h), rfl, ?_⟩
    intro _ ind c s st hr hs
    cases s with
    | str s =>
      simp only [LeafSt.set, AbstractString.set, bind, Except.bind] at hs
      split at hs
      · cases hs
      · next hh =>
        split at hh
        · cases hh
        · next he =>
          cases hh
          cases hs
          refine ⟨_, rfl, rfl, fun o h => (by cases h), ?_⟩
          simp only [LeafSt.map, LeafSt.native, AbstractString.native, Bool.false_eq_true, if_false, mergeObj_false, OctetString.asChunk,
            bind, Except.bind, hk _ _ he]
          exact ⟨_, rfl, rfl⟩
    | _ => cases hs
  | bits hc =>
    rename_i cl tg
    refine ⟨⟨hc, rfl, rfl, rfl, rfl, rfl, rfl⟩, fun o h => (by cases h), fun o h => (by cases h), rfl, ?_⟩
    intro _ ind c s st hr hs
    cases s with
    | bits b =>
      obtain ⟨c', u, h1, h2, _⟩ := bitString_set_spec { cls := cl, method := 0, tag := tg } b
      simp only [LeafSt.set, bind, Except.bind, h1] at hs
      cases hs
      obtain ⟨o', h3⟩ := (BitString.native_iff { cls := cl, method := 0, tag := tg, contents := some c' } c' rfl rfl b).mpr (BitContents.leaf h2)
      refine ⟨c', rfl, rfl, fun o h => (by cases h), .bits o', ?_, ?_⟩
      · show (BitString.native _).bind _ = _
        exact (congrArg (fun x => Except.bind x _) h3).trans rfl
      · rw [BitString.native] at h3
        simp only [bind, Except.bind, pure, Except.pure] at h3
        split at h3
        · cases h3
        · split at h3
          · cases h3
          · cases h3; rfl
    | _ => cases hs
  | octetBits hc =>
    refine ⟨⟨hc, rfl, rfl, rfl, rfl, rfl, rfl⟩, fun o h => (by cases h), fun o h => (by cases h), rfl, ?_⟩
    intro _ ind c s st hr hs
    cases s <;> cases hs
    exact ⟨_, rfl, rfl, fun o h => (by cases h), _, rfl, rfl⟩
  | intBits hc =>
    rename_i cl tg
    refine ⟨⟨hc, rfl, rfl, rfl, rfl, rfl, rfl⟩, fun o h => (by cases h), fun o h => (by cases h), rfl, ?_⟩
    intro _ ind c s st hr hs
    cases s with
    | int n =>
      simp only [LeafSt.set, IntegerBitString.set, bind, Except.bind] at hs
      split at hs
      · cases hs
      · next hh =>
        split at hh
        · cases hh
        · next hpos =>
          rw [intToBytes_signed n] at hh
          cases hh
          cases hs
          obtain ⟨g1, g2, g3⟩ := signedWidth_fits n
          have hv := valS_beBytes _ _ g3 g1 g2
          generalize beBytes _ _ = bs at hv ⊢
          obtain ⟨k, rfl⟩ := Int.eq_ofNat_of_zero_le (show 0 ≤ n by omega)
          have hu := valU_of_valS hv
          obtain ⟨o', h3⟩ := (IntegerBitString.native_iff { cls := cl, method := 0, tag := tg, contents := some (0 :: bs) } (0 :: bs) rfl rfl k).mpr
            ⟨bitsOf bs, BitLeaf_zero bs, by rw [valBits_bitsOf, hu]⟩
          refine ⟨_, rfl, rfl, fun o h => (by cases h), .intBits o', ?_, ?_⟩
          · simp only [LeafSt.map, LeafSt.native, bind, Except.bind]
            split
            · next hh => exact absurd (h3.symm.trans hh) (by simp)
            · next hh =>
              have := h3.symm.trans hh
              cases this
              rfl
          · rw [IntegerBitString.native] at h3
            simp only [bind, Except.bind, pure, Except.pure] at h3
            split at h3
            · cases h3
            · cases h3; rfl
    | _ => cases hs
  | intOctets hc =>
    rename_i cl tg
    refine ⟨⟨hc, rfl, rfl, rfl, rfl, rfl, rfl⟩, fun o h => (by cases h), fun o h => (by cases h; rfl), rfl, ?_⟩
    intro _ ind c s st hr hs
    cases s with
    | int n =>
      by_cases hpos : n < 0
      · simp only [LeafSt.set, IntegerOctetString.set, hpos, if_true, bind, Except.bind] at hs
        cases hs
      · obtain ⟨k, rfl⟩ := Int.eq_ofNat_of_zero_le (show 0 ≤ n by omega)
        obtain ⟨c', h1, h2, _⟩ := intOct_set_spec { cls := cl, method := 0, tag := tg } k (fun w h => by cases h)
        simp only [LeafSt.set, bind, Except.bind] at hs
        rw [h1] at hs
        cases hs
        refine ⟨c', rfl, rfl, fun o h => (by cases h), ?_⟩
        simp only [LeafSt.map, LeafSt.native, IntegerOctetString.native, Bool.false_eq_true, if_false, mergeObj_false, OctetString.asChunk,
            bind, Except.bind, intFromBytes_unsigned, h2]
        exact ⟨_, rfl, rfl⟩
    | _ => cases hs

end Asn1
