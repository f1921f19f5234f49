import Verif.Spec.Der
import Verif.Lemmas.LeafGood

/-! # DER headers, and DER contents of primitive values -/

namespace Asn1
open Spec Props

/-! ### Headers -/

theorem derLen_unique {a b : Bytes} {n : Nat} (ha : DerLen a n) (hb : DerLen b n) : a = b := by
  rcases ha with ⟨h1, rfl⟩ | ⟨h1, d, ds, hd, hl, rfl, hv⟩ <;> rcases hb with ⟨g1, rfl⟩ | ⟨g1, e, es, he, gl, rfl, gv⟩
  · rfl
  · omega
  · omega
  · have low : ∀ (x : UInt8) (xs : Bytes), x ≠ 0 → 256 ^ xs.length ≤ valU (x :: xs) := by
      intro x xs hx
      have : x.toNat ≠ 0 := fun h => hx (UInt8.toNat_inj.mp (by simpa using h))
      simp only [valU]
      calc 256 ^ xs.length = 1 * 256 ^ xs.length := (Nat.one_mul _).symm
        _ ≤ x.toNat * 256 ^ xs.length := Nat.mul_le_mul_right _ (by omega)
        _ ≤ _ := Nat.le_add_right _ _
    have hlen : (d :: ds).length = (e :: es).length := by
      have h1 := low d ds hd
      have h2 := low e es he
      have h3 := valU_lt (d :: ds)
      have h4 := valU_lt (e :: es)
      rw [hv] at h1 h3
      rw [gv] at h2 h4
      have h5 : ds.length < (e :: es).length := (Nat.pow_lt_pow_iff_right (by decide)).mp (Nat.lt_of_le_of_lt h1 h4)
      have h6 : es.length < (d :: ds).length := (Nat.pow_lt_pow_iff_right (by decide)).mp (Nat.lt_of_le_of_lt h2 h3)
      simp only [List.length_cons] at *
      omega
    rw [valU_inj _ _ hlen (hv.trans gv.symm)]

theorem derHead_unique {t t' : TLV} (h : DerHead t) (h' : DerHead t') (hc : t.cls = t'.cls) (hm : t.method = t'.method) (ht : t.tag = t'.tag)
    (hd : t.contents = t'.contents) : t = t' := by
  obtain ⟨id, len, h1, h2, h3, h4⟩ := h
  obtain ⟨id', len', g1, g2, g3, g4⟩ := h'
  obtain ⟨cls, method, tag, header, contents, trailer⟩ := t
  obtain ⟨cls', method', tag', header', contents', trailer'⟩ := t'
  simp only at *
  subst hc; subst hm; subst ht; subst hd
  rw [h3, h4, g3, g4, Ident_unique h1 g1, derLen_unique h2 g2]

theorem derInside_unique {es : List (Nat × Nat)} {t t' u : TLV} (h : DerInside es t u) (h' : DerInside es t' u) : t = t' := by
  induction es generalizing t t' with
  | nil => cases h; cases h'; rfl
  | cons e es ih =>
    generalize hl : e :: es = l at h
    cases h with
    | nil => cases hl
    | cons h1 h2 h3 h4 =>
      cases hl
      generalize hl : (t.cls, t.tag) :: es = l at h'
      cases h' with
      | nil => cases hl
      | cons g1 g2 g3 g4 =>
        injection hl with e1 e2
        injection e1 with e3 e4
        subst e2
        have := ih h4 g4
        subst this
        exact derHead_unique h1 g1 e3 (h2.trans g2.symm) e4 (h3.trans g3.symm)

theorem derInside_head {es : List (Nat × Nat)} {t u : TLV} (h : DerInside es t u) : DerHead t ∧ DerHead u := by
  induction h with
  | nil h => exact ⟨h, h⟩
  | cons h1 _ _ _ ih => exact ⟨h1, ih.2⟩

theorem derFramed_unique {d : Nat × Nat} {p : Params} {t t' u u' : TLV} (h : DerFramed d p t u) (h' : DerFramed d p t' u')
    (hm : u.method = u'.method) (hd : u.contents = u'.contents) : t = t' := by
  have hi := h.ident.trans h'.ident.symm
  injection hi with h1 h2
  have := derHead_unique (derInside_head h.inside).2 (derInside_head h'.inside).2 h1 hm h2 hd
  subst this
  exact derInside_unique h.inside h'.inside

theorem derInside_append {es es' : List (Nat × Nat)} {t v u : TLV} (h : DerInside es t v) (h' : DerInside es' v u) : DerInside (es ++ es') t u := by
  induction h with
  | nil => exact h'
  | cons h1 h2 h3 _ ih => exact .cons h1 h2 h3 (ih h')

/-- Headers that are written are DER headers. -/
theorem dumpHeader_der {cl m tg : Nat} {c h : Bytes} (hc : cl < 4) (hm : m < 2) (hd : dumpHeader cl m tg c = .ok h) :
    DerHead ⟨cl, m, tg, h, c, []⟩ := by
  have hl := dumpHeader_fits hd
  obtain ⟨id, len, h1, h2, h3, h4⟩ := dumpHeader_spec (t := tg) hc hm c hl
  rw [hd] at h1
  injection h1 with h1
  refine ⟨id, len, h2, ?_, h1, rfl⟩
  by_cases hs : c.length < 128
  · refine .inl ⟨hs, ?_⟩
    obtain ⟨a, b⟩ := h4 _ (Or.inl ⟨hs, rfl⟩)
    rcases h3 with ⟨_, h⟩ | ⟨ds, hne, _, rfl, _⟩
    · exact h
    · simp at a
      exact absurd a hne
  · refine .inr ⟨by show 128 ≤ c.length; omega, ?_⟩
    rcases h3 with ⟨h, _⟩ | ⟨ds, hne, hd, rfl, hv⟩
    · exact absurd h hs
    · cases ds with
      | nil => exact absurd rfl hne
      | cons d ds =>
        refine ⟨d, ds, ?_, hd, rfl, hv⟩
        rintro rfl
        simp [valU] at hv
        have hds : ds ≠ [] := by
          rintro rfl
          simp [valU] at hv
          omega
        obtain ⟨a, _⟩ := h4 _ (Or.inr ⟨ds, hds, by simp at hd; omega, rfl, hv⟩)
        simp at a

theorem wrapExplicit_der : ∀ (es : List (Nat × Nat)) (h c h' : Bytes) (u : TLV), (∀ e ∈ es, e.1 < 4) →
    wrapExplicit es h c = .ok h' → u.bytes = h ++ c → DerHead u →
    ∃ t : TLV, t.bytes = h' ++ c ∧ DerInside es.reverse t u
  | [], h, c, h', u, _, hw, hu, hb => by
    cases hw
    exact ⟨u, hu, .nil hb⟩
  | (cl, tg) :: es, h, c, h', u, he, hw, hu, hb => by
    simp only [wrapExplicit, py_bind] at hw
    obtain ⟨h1, hd, hw⟩ := hw
    have hcl := he (cl, tg) (by simp)
    have hh := dumpHeader_der hcl (by decide) hd
    obtain ⟨t, t1, t2⟩ := wrapExplicit_der es (h1 ++ h) c h' ⟨cl, 1, tg, h1, h ++ c, []⟩ (fun e h => he e (by simp [h])) hw
      (by simp [TLV.bytes]) hh
    refine ⟨t, t1, ?_⟩
    rw [List.reverse_cons]
    exact derInside_append t2 (DerInside.cons (v := ⟨cl, 1, tg, h1, h ++ c, []⟩) hh rfl hu.symm (.nil hb))

/-- What is written with new headers. -/
theorem dump_der {d : Nat × Nat} {p : Params} {cl m tg : Nat} {c h0 h : Bytes} (hp : p.Valid) (hd : d.1 < 4) (hm : m < 2)
    (he : (cl, tg) = effTag d p) (h1 : dumpHeader cl m tg c = .ok h0) (h2 : wrapExplicit p.explicit h0 c = .ok h) :
    ∃ t u : TLV, t.bytes = h ++ c ∧ DerFramed d p t u ∧ u.method = m ∧ u.contents = c := by
  have hcl : cl < 4 := by
    have : cl = (effTag d p).1 := by rw [← he]
    rw [this]; exact effTag_valid hp hd
  obtain ⟨t, t1, t2⟩ := wrapExplicit_der p.explicit h0 c h ⟨cl, m, tg, h0, c, []⟩ hp.1 h2 (by simp [TLV.bytes]) (dumpHeader_der hcl hm h1)
  exact ⟨t, _, t1, ⟨t2, he⟩, rfl, rfl⟩

/-! ### Contents -/

theorem shortestSigned_unique {n : Int} {c d : Bytes} (h : ShortestSigned n c) (h' : ShortestSigned n d) : c = d :=
  valS_inj _ _ (Nat.le_antisymm (h.2.2 d h'.1 h'.2.1) (h'.2.2 c h.1 h.2.1)) (h.2.1.trans h'.2.1.symm)

theorem shortestUnsigned_unique {n : Nat} {c d : Bytes} (h : ShortestUnsigned n c) (h' : ShortestUnsigned n d) : c = d :=
  valU_inj _ _ (Nat.le_antisymm (h.2.2 d h'.1 h'.2.1) (h'.2.2 c h.1 h.2.1)) (h.2.1.trans h'.2.1.symm)

theorem intToBytes_shortest {n : Int} {c : Bytes} (h : intToBytes n true = .ok c) : ShortestSigned n c := by
  rw [intToBytes_signed n] at h
  injection h with h
  obtain ⟨g1, g2, g3⟩ := signedWidth_fits n
  refine ⟨?_, ?_, ?_⟩
  · intro he
    rw [he] at h
    have := congrArg List.length h
    simp at this
    exact g3 this
  · rw [← h]; exact valS_beBytes _ _ g3 g1 g2
  · intro d hd hv
    have hr := valS_range d hd
    rw [hv] at hr
    rw [← h, beBytes_length]
    exact signedWidth_min n d.length (by simpa using hd) hr.1 hr.2

theorem unsigned_shortest (n : Nat) : ShortestUnsigned n (beBytes (byteWidth (bitLength n)) n) := by
  refine ⟨?_, by rw [valU_beBytes, Nat.mod_eq_of_lt (byteWidth_bitLength_fits n)], ?_⟩
  · intro h
    have := congrArg List.length h
    rw [beBytes_length] at this
    exact byteWidth_ne_zero _ this
  · intro d hd hv
    rw [beBytes_length]
    have := valU_lt d
    rw [hv] at this
    exact byteWidth_bitLength_min n d.length (by simpa using hd) this

theorem rev_iff {l : IntMap} {nm : String} {n : Int} : l.rev nm = some n ↔ ∃ l1 l2, l = l1 ++ (n, nm) :: l2 ∧ nm ∉ l2.map Prod.snd := by
  unfold IntMap.rev
  rw [Option.map_eq_some_iff]
  constructor
  · rintro ⟨⟨n', nm'⟩, h1, h2⟩
    obtain ⟨h3, as, bs, h4, h5⟩ := List.find?_eq_some_iff_append.mp h1
    have h2' : n' = n := h2
    have h3' : nm' = nm := by simpa using h3
    subst h2'; subst h3'
    refine ⟨bs.reverse, as.reverse, ?_, ?_⟩
    · have := congrArg List.reverse h4
      simpa using this
    · intro hm
      obtain ⟨e, e1, e2⟩ := List.mem_map.mp hm
      have := h5 e (by simpa using e1)
      rw [e2] at this
      simp at this
  · rintro ⟨l1, l2, rfl, h⟩
    refine ⟨(n, nm), ?_, rfl⟩
    rw [List.find?_eq_some_iff_append]
    refine ⟨by simp, l2.reverse, l1.reverse, by simp, ?_⟩
    intro e he
    have : e.2 ≠ nm := fun h' => h (List.mem_map.mpr ⟨e, by simpa using he, h'⟩)
    simp [this]

theorem numberOf_unique {m : Option IntMap} {s : Scalar} {n n' : Int} (h : NumberOf m s n) (h' : NumberOf m s n') : n = n' := by
  rcases h with ⟨rfl, h⟩ | ⟨l, l1, l2, nm, rfl, h1, h2, rfl⟩ <;> rcases h' with ⟨g, g'⟩ | ⟨k, k1, k2, nm', g0, g1, g2, g3⟩
  · injection g
  · cases g3
  · cases g
  · cases g0
    injection g3 with g3
    have g3 := String.ext g3
    subst g3
    have a := rev_iff.mpr ⟨_, _, h1, h2⟩
    rw [rev_iff.mpr ⟨_, _, g1, g2⟩] at a
    injection a with a
    exact a.symm

theorem dottedText_inj {a b : List Nat} (ha : OidValid a) (hb : OidValid b) (h : dottedText a = dottedText b) : a = b := by
  obtain ⟨c, h1, h2⟩ := oidLoop_enc a ha
  obtain ⟨d, g1, g2⟩ := oidLoop_enc b hb
  rw [h, g1] at h1
  cases h1
  exact (C09_canonical a b c c ha hb h2 g2).mp rfl

theorem derContents_unique {proto : LeafSt} {s : Scalar} {c d : Bytes} (hp : PlainLeaf proto) (h : DerContents proto s c) (h' : DerContents proto s d) :
    c = d := by
  cases h with
  | boolean => cases h'; rfl
  | integer h1 h2 =>
    cases h' with
    | integer g1 g2 =>
      cases numberOf_unique h1 g1
      exact shortestSigned_unique h2 g2
  | enumerated h1 h2 =>
    cases h' with
    | enumerated g1 g2 =>
      cases numberOf_unique h1 g1
      exact shortestSigned_unique h2 g2
  | null => cases h'; rfl
  | @oid k o nm arcs c h1 h2 h3 =>
    cases h' with
    | @oid _ _ _ arcs' _ g1 g2 g3 =>
      have hk : OidNames k := by cases hp; assumption
      have : dottedText arcs = dottedText arcs' := by
        unfold OidOf at h1 g1
        cases hm : k.map with
        | none =>
          rw [hm] at h1 g1
          exact h1.symm.trans g1
        | some m =>
          rw [hm] at h1 g1
          obtain ⟨k1, k2, k3, k4⟩ := hk.2 m hm
          simp only at h1 g1
          rcases h1 with h1 | ⟨h1, rfl⟩ <;> rcases g1 with g1 | ⟨g1, e⟩
          · exact congrArg Prod.fst (List.inj_on_of_nodup_map k2 h1 g1 rfl)
          · exact absurd (e ▸ List.mem_map.mpr ⟨_, h1, rfl⟩) (k4 arcs')
          · exact absurd (List.mem_map.mpr ⟨_, g1, rfl⟩) (k4 arcs)
          · exact e
      cases dottedText_inj h2 g2 this
      exact OidContents_unique h3 g3
  | octets => cases h'; rfl
  | chars h1 =>
    cases h' with
    | chars g1 =>
      rw [h1] at g1
      injection g1
  | bits h1 => cases h' with | bits g1 => exact BitContents_unique h1 g1
  | octetBits => cases h'; rfl
  | intBits h1 =>
    generalize hs : Scalar.int _ = s at h'
    cases h' with
    | intBits g1 =>
      injection hs with hs
      rw [← hs] at g1
      rw [shortestSigned_unique h1 g1]
  | intOctets h1 =>
    generalize hs : Scalar.int _ = s at h'
    cases h' with
    | intOctets g1 =>
      injection hs with hs
      have hs : _ = _ := Int.ofNat.inj hs
      subst hs
      exact shortestUnsigned_unique h1 g1

theorem integer_numberOf {m : Option IntMap} (hm : ∀ l, m = some l → (l.map Prod.fst).Nodup) {cl tg : Nat} {ind : Bool} {c : Bytes} {s : Scalar}
    {st : LeafSt} (hr : Reads (.integer m { cls := cl, method := 0, tag := tg }) ind c s)
    (hs : (LeafSt.integer m { cls := cl, method := 0, tag := tg }).set s = .ok st) :
    ∃ c', st.base.contents = some c' ∧ DerContents (.integer m { cls := cl, method := 0, tag := tg }) s c' := by
  obtain ⟨_, st0, h1, _⟩ := hr
  rw [LeafSt.map, integer_native rfl rfl] at h1
  injection h1 with h1
  injection h1 with h1
  subst h1
  unfold Integer.show at hs ⊢
  have num : ∀ n, (LeafSt.integer m { cls := cl, method := 0, tag := tg }).set (.int n) = .ok st →
      ∃ c', st.base.contents = some c' ∧ ShortestSigned n c' := by
    intro n hs
    obtain ⟨c', e1, e2, e3⟩ := Integer.setInt_spec m { cls := cl, method := 0, tag := tg } n
    simp only [LeafSt.set, Integer.set, bind, Except.bind, e1] at hs
    cases hs
    exact ⟨c', rfl, intToBytes_shortest e2⟩
  cases m with
  | none =>
    obtain ⟨c', e1, e2⟩ := num _ hs
    exact ⟨c', e1, .integer (.inl ⟨rfl, fun l h => (by cases h)⟩) e2⟩
  | some l =>
    simp only at hs ⊢
    cases hg : l.get (valS c) with
    | none =>
      rw [hg] at hs
      obtain ⟨c', e1, e2⟩ := num _ hs
      refine ⟨c', e1, .integer (.inl ⟨rfl, fun l' h => ?_⟩) e2⟩
      cases h
      intro hmem
      obtain ⟨e, e3, e4⟩ := List.mem_map.mp hmem
      have := IntMap.get_of_mem (hm l rfl) (n := e.1) (s := e.2) e3
      rw [e4, hg] at this
      cases this
    | some nm =>
      rw [hg] at hs
      simp only [LeafSt.ofIntNative, LeafSt.set, String.ofList_toList, Integer.set, bind, Except.bind] at hs
      cases hrv : IntMap.rev l nm with
      | none => rw [hrv] at hs; cases hs
      | some n =>
        rw [hrv] at hs
        obtain ⟨c', e1, e2⟩ := num n (by simpa only [LeafSt.set, Integer.set, bind, Except.bind] using hs)
        obtain ⟨l1, l2, e3, e4⟩ := rev_iff.mp hrv
        exact ⟨c', e1, .integer (.inr ⟨l, l1, l2, nm, rfl, e3, e4, rfl⟩) e2⟩

/-- What is written for a value that was read is the DER form. -/
theorem derContents_of_set {proto : LeafSt} (hp : PlainLeaf proto) {ind : Bool} {c : Bytes} {s : Scalar} {st : LeafSt} (hr : Reads proto ind c s)
    (hs : proto.set s = .ok st) : ∃ c', st.base.contents = some c' ∧ DerContents proto s c' := by
  cases hp with
  | boolean hc =>
    obtain ⟨_, st0, h1, _⟩ := hr
    cases h1
    cases hs
    exact ⟨_, rfl, by cases (decide (c ≠ [0])) <;> exact .boolean⟩
  | integer hc hm => exact integer_numberOf hm hr hs
  | enumerated hc hm =>
    rename_i cl tg m
    cases m with
    | none => obtain ⟨_, st0, h1, _⟩ := hr; cases h1
    | some l =>
      obtain ⟨_, st0, h1, _⟩ := hr
      simp only [LeafSt.map, LeafSt.native, Enumerated.native, bind, Except.bind, intFromBytes_signed] at h1
      split at h1
      · cases h1
      · next hh =>
        split at hh
        · next nm hg =>
          cases hh
          cases h1
          simp only [LeafSt.set, Enumerated.set, LeafSt.optScalar, LeafSt.ofIntNative, String.ofList_toList, bind, Except.bind] at hs
          split at hs
          · cases hs
          · next hh =>
            split at hh
            · cases hh
            · next n hrv =>
              obtain ⟨c', e1, e2, e3⟩ := Integer.setInt_spec (some l) { cls := cl, method := 0, tag := tg } n
              rw [Integer.set, e1] at hh
              cases hh
              cases hs
              obtain ⟨l1, l2, k3, k4⟩ := rev_iff.mp hrv
              exact ⟨c', rfl, .enumerated (.inr ⟨l, l1, l2, nm, rfl, k3, k4, rfl⟩) (intToBytes_shortest e2)⟩
        · cases hh
  | null hc =>
    obtain ⟨_, st0, h1, _⟩ := hr
    cases h1
    cases hs
    exact ⟨[], rfl, .null⟩
  | oid hc hk =>
    rename_i cl tg k
    obtain ⟨rfl, hst⟩ := oid_reads hr
    obtain ⟨arcs, ha, hD⟩ := dottedLoop_arcs c 0 [] (.inl rfl)
    rw [List.map_nil] at hD
    rw [hD] at hs ⊢
    have hDt : pyJoin ['.'] (arcs.map pyStrNat) = dottedText arcs := (dottedText_eq arcs).symm
    rw [hDt] at hs ⊢
    have hof : OidOf k (oidName k (dottedText arcs)) arcs ∧ k.resolve (oidName k (dottedText arcs)) = .ok (dottedText arcs) := by
      unfold OidOf
      cases hkm : k.map with
      | none =>
        have : k.setup.map = none := by
          rw [OidClass.setup, hkm]
          exact hkm
        simp [OidClass.resolve, this, oidName, hkm]
      | some m =>
        obtain ⟨g1, g2, g3, g4⟩ := hk.2 m hkm
        have ok : ClassOk k m := ⟨hkm, g1, g2, g3, fun r hr => (by rw [hk.1.1] at hr; cases hr), hk.1.2⟩
        rw [resolve_eq ok]
        simp only [oidName, hkm]
        cases hg : m.get (dottedText arcs) with
        | none =>
          rw [Option.getD_none, setup_rev_none ok (g4 arcs)]
          refine ⟨.inr ⟨fun hmem => ?_, rfl⟩, rfl⟩
          obtain ⟨e, e1, e2⟩ := List.mem_map.mp hmem
          have := (get_iff g1 e.1 e.2).mpr e1
          rw [e2, hg] at this
          cases this
        | some nm =>
          have := (get_iff g1 _ _).mp hg
          rw [Option.getD_some, ((setup_rev ok).2 nm (dottedText arcs)).mpr this]
          exact ⟨.inl this, rfl⟩
    obtain ⟨hof, hd⟩ := hof
    rcases ha with rfl | ha
    · exfalso
      simp only [LeafSt.set, oid_set_eq _ hd] at hs
      rw [show dottedText [] = [] from rfl, oidLoop_empty] at hs
      cases hs
    · obtain ⟨c', e1, e2⟩ := oidLoop_enc arcs ha
      simp only [LeafSt.set, oid_set_eq _ hd, e1] at hs
      cases hs
      exact ⟨c', rfl, .oid hof ha e2⟩
  | octets hc =>
    cases s <;> cases hs
    exact ⟨_, rfl, .octets⟩
  | chars hc hk =>
    cases s with
    | str s =>
      simp only [LeafSt.set, AbstractString.set, bind, Except.bind] at hs
      split at hs
      · cases hs
      · next hh =>
        split at hh
        · cases hh
        · next he =>
          cases hh
          cases hs
          exact ⟨_, rfl, .chars he⟩
    | _ => cases hs
  | bits hc =>
    rename_i cl tg
    cases s with
    | bits b =>
      obtain ⟨c', u, h1, h2, _⟩ := bitString_set_spec { cls := cl, method := 0, tag := tg } b
      simp only [LeafSt.set, bind, Except.bind, h1] at hs
      cases hs
      exact ⟨c', rfl, .bits h2⟩
    | _ => cases hs
  | octetBits hc =>
    cases s <;> cases hs
    exact ⟨_, rfl, .octetBits⟩
  | intBits hc =>
    cases s with
    | int n =>
      simp only [LeafSt.set, IntegerBitString.set, bind, Except.bind] at hs
      split at hs
      · cases hs
      · next hh =>
        split at hh
        · cases hh
        · next hpos =>
          cases hb : intToBytes n true with
          | error e => rw [hb] at hh; cases hh
          | ok bs =>
            rw [hb] at hh
            cases hh
            cases hs
            obtain ⟨k, rfl⟩ := Int.eq_ofNat_of_zero_le (show 0 ≤ n by omega)
            exact ⟨_, rfl, .intBits (intToBytes_shortest hb)⟩
    | _ => cases hs
  | intOctets hc =>
    rename_i cl tg
    cases s with
    | int n =>
      by_cases hpos : n < 0
      · simp only [LeafSt.set, IntegerOctetString.set, hpos, if_true, bind, Except.bind] at hs
        cases hs
      · obtain ⟨k, rfl⟩ := Int.eq_ofNat_of_zero_le (show 0 ≤ n by omega)
        simp only [LeafSt.set, IntegerOctetString.set, hpos, if_false, bind, Except.bind, intToBytes_unsigned] at hs
        cases hs
        exact ⟨_, rfl, .intOctets (unsigned_shortest k)⟩
    | _ => cases hs

end Asn1
