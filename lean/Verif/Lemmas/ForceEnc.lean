import Verif.Lemmas.ForceNode

/-! # What is encoded again by force is an encoding, and is not changed by encoding it once more -/

namespace Asn1
open Spec Props

theorem leafDefault_value {E : Env} {f : Field} {s : Scalar} {t : TLV} (h : LeafDefault E f s t) :
    f.params.default.isSome = true ∧ DefaultValue E f.spec f.params (.scalar s) := by
  obtain ⟨proto, bad, y, u, hc, hnull, hd, hy, hf, hm, hw, _⟩ := h
  obtain ⟨st, w1, w2, w3, _⟩ := hw
  obtain ⟨c0, a1, a2, a3, a4⟩ := LeafSt.set_spec (notNull_of hnull) w1
  have hkind : (proto.init f.params.tags).kind = proto.kind := LeafSt.kind_map _ _
  obtain ⟨t', b1, b2, b3⟩ := a4 _ hkind
  have hn := b3 s w3
  refine ⟨by rw [hd]; rfl, 1, .leaf f.spec t', .leaf f.spec t', fun j hj => ?_, fun j hj => ?_, readable_leaf E hn hn, (fun h => by cases h), rfl⟩
  · obtain ⟨j, rfl⟩ : ∃ k, j = k + 1 := ⟨j - 1, by omega⟩
    rw [ops_construct]
    unfold constructStep
    rw [hd, show givenValue (some (.scalar y)) (.scalar .none) = .scalar y from rfl]
    simp only [hc]
    cases y <;> first | exact absurd rfl hy | simp only [b1, bind, Except.bind]
  · obtain ⟨j, rfl⟩ : ∃ k, j = k + 1 := ⟨j - 1, by omega⟩
    rw [ops_native]
    simp only [nativeStep, hn, bind, Except.bind]

/-- The instance with the default value. -/
theorem leafDefault_made {E : Env} {f : Field} {s : Scalar} {t : TLV} (h : LeafDefault E f s t) (hB : ∀ proto bad, E.cls f.spec = .leaf proto bad → Bare proto.base 0)
    (hq : GoodTags f.params) : ∃ st, (∀ j ≥ 1, (ops E j).construct f.spec f.params (.scalar .none) = .ok (.leaf f.spec st)) ∧
      Forceable E 1 (.leaf f.spec st) (.scalar s) t.bytes ∧ ∀ j ≥ 1, ∃ w, (ops E j).dump (.leaf f.spec st) false = .ok (t.bytes, w) := by
  obtain ⟨proto, bad, y, u, hc, hnull, hd, hy, hf, hm, hw, hw'⟩ := h
  replace hB := hB proto bad hc
  obtain ⟨st, w1, w2, w3, _⟩ := hw
  have hnn := notNull_of hnull
  obtain ⟨c0, a1, a2, a3, a4⟩ := LeafSt.set_spec hnn w1
  have hkind : (proto.init f.params.tags).kind = proto.kind := LeafSt.kind_map _ _
  obtain ⟨t', b1, b2, b3⟩ := a4 _ hkind
  have hc0 : c0 = u.contents := by
    rw [a1] at w2
    exact Option.some.inj w2
  subst hc0
  obtain ⟨c1, d1, d2, _⟩ := LeafSt.set_spec (by rw [LeafSt.kind_notNull hkind]; exact hnn) b1
  rw [LeafSt.base_init] at d1
  obtain ⟨i1, i2, i3, i4, i5, i6, i7⟩ := initTagging_fields proto.base f.params hq.keep
  have hn := b3 s w3
  have hind : t'.base.indefinite = false := by
    rw [d1]
    show (!_ && (initTagging proto.base f.params.tags).indefinite) = false
    rw [i6, hB.indefinite, Bool.and_false]
  have hmeth : t'.base.method = 0 := by
    rw [d1]
    show (if (_ && (initTagging proto.base f.params.tags).indefinite) = true then 0 else (initTagging proto.base f.params.tags).method) = 0
    rw [i6, hB.indefinite, Bool.and_false, i3, hB.method]; rfl
  have hhd : t'.base.header = none := by rw [d1]; rfl
  have hid : (t'.base.cls, t'.base.tag) = effTag (proto.base.cls, proto.base.tag) f.params := by rw [d1]; exact i1
  have hexp : t'.base.explicit = f.params.explicit := by
    rw [d1]
    exact i2.trans (by rw [hB.explicit]; rfl)
  have hidu : (u.cls, u.tag) = (t'.base.cls, t'.base.tag) := hf.ident.trans hid.symm
  have hucls : u.cls = t'.base.cls := (Prod.mk.inj hidu).1
  have hutag : u.tag = t'.base.tag := (Prod.mk.inj hidu).2
  have hins : DerInside t'.base.explicit.reverse t u := by rw [hexp]; exact hf.inside
  have hu := (derInside_head hins).2
  have hdh := derHead_dumpHeader hu
  rw [hucls, hm, hutag] at hdh
  obtain ⟨h1, x1, x2⟩ := derInside_wrap t'.base.explicit (h := u.header) (c := u.contents) hins (by rw [TLV.bytes, derHead_trailer hu, List.append_nil])
  refine ⟨t', fun j hj => ?_, ?_, fun j hj => ⟨.leaf f.spec (t'.headed h1), ?_⟩⟩
  · obtain ⟨j, rfl⟩ : ∃ k, j = k + 1 := ⟨j - 1, by omega⟩
    rw [ops_construct]
    unfold constructStep
    rw [hd, show givenValue (some (.scalar y)) (.scalar .none) = .scalar y from rfl]
    simp only [hc]
    cases y <;> first | exact absurd rfl hy | simp only [b1, bind, Except.bind]
  · refine forceable_leaf E (proto := proto) ⟨d2.trans hkind, rfl, rfl, rfl, ?_, ?_, ⟨_, b2⟩, t', hn, hn⟩ hnull hins hucls hm hutag hw'
    · rw [hmeth, hind]; rfl
    · intro h; rw [hind] at h; cases h
  · obtain ⟨j, rfl⟩ : ∃ k, j = k + 1 := ⟨j - 1, by omega⟩
    rw [ops_dump]
    simp only [dumpStep, LeafSt.dump_new hhd hind b2, hmeth, hdh, x1, Except.bind, bind, x2]

/-! ### Encodings -/

theorem derAround_inside {es : List (Nat × Nat)} {t u : TLV} (h : DerAround es t u) (hu : Ber 11 u) (htr : u.trailer = []) :
    Ber 11 t ∧ Inside es t u ∧ t.trailer = [] := by
  induction h with
  | nil => exact ⟨hu, .nil, htr⟩
  | cons h1 h2 h3 _ ih =>
    obtain ⟨i1, i2, _⟩ := ih hu htr
    exact ⟨derHead_ber h1, .cons h2 h3 i1 i2, derHead_trailer h1⟩

theorem reads_null (o : Obj Unit) : Reads (.null o) false [] .none := ⟨fun _ _ => rfl, _, rfl, rfl⟩

theorem written_reads {proto : LeafSt} {x s : Scalar} {b : Bytes} (h : Written proto x b s) : Reads proto false b s := by
  obtain ⟨_, _, _, _, h⟩ := h; exact h

/-- What is kept as it is is kept as it is once more. -/
theorem reheaded_again {es : List (Nat × Nat)} {t u t' : TLV} (hb : Ber 11 t) (hu : Ber 11 u) (hi : Inside es t u) (h : Reheaded es t u t') :
    ∃ u', Ber 11 t' ∧ Ber 11 u' ∧ Inside es t' u' ∧ u'.cls = u.cls ∧ u'.method = u.method ∧ u'.tag = u.tag ∧ u'.contents = u.contents ∧ Reheaded es t' u' t' ∧
      (t.trailer = [] → t'.trailer = []) := by
  rcases h with ⟨h1, rfl⟩ | ⟨h1, u', h2, h3, h4, h5, h6⟩
  · exact ⟨u, hb, hu, hi, rfl, rfl, rfl, rfl, .inl ⟨h1, rfl⟩, fun h => h⟩
  · obtain ⟨k1, k2⟩ := derInside_inside h2
    obtain ⟨l1, l2⟩ := derInside_head h2
    refine ⟨u', k1, derHead_ber l2, k2, h3, h4, h5, h6, ?_, fun _ => derHead_trailer l1⟩
    by_cases h : u'.header.getLast? = some 0x80
    · exact .inr ⟨h, u', h2, rfl, rfl, rfl, rfl⟩
    · exact .inl ⟨h, rfl⟩

theorem reheaded_framed {d : Nat × Nat} {p : Params} {t u t' : TLV} (hF : Framed d p t u) (h : Reheaded p.explicit.reverse t u t') :
    ∃ u', Framed d p t' u' ∧ u'.method = u.method ∧ u'.contents = u.contents ∧ Reheaded p.explicit.reverse t' u' t' ∧ (t.trailer = [] → t'.trailer = []) := by
  obtain ⟨u', k1, k2, k3, k4, k5, k6, k7, k8, k9⟩ := reheaded_again hF.ber (inside_ber hF.inside hF.ber) hF.inside h
  refine ⟨u', ⟨k1, k3, ?_⟩, k5, k7, k8, k9⟩
  rw [k4, k6]
  exact hF.ident

theorem lists_enc {E : Env} {U : ClassId → Prop} {ch : Option ClassId} : ∀ {ps : List (TLV × PyVal)}, (∀ e ∈ ps, Enc E U ch none {} e.1 e.2) →
    ListEnc E U ch (joined (ps.map Prod.fst)) (ps.map Prod.snd)
  | [], _ => .nil
  | e :: ps, h => .cons (h e (by simp)) (lists_enc (fun e' he => h e' (by simp [he])))

theorem lists_forced {E : Env} {U : ClassId → Prop} {ch : Option ClassId} : ∀ {ps : List (TLV × PyVal)}, (∀ e ∈ ps, Forced E U ch none {} e.1 e.2 e.1 e.2) →
    ListForced E U ch (joined (ps.map Prod.fst)) (ps.map Prod.snd) ps
  | [], _ => .nil
  | e :: ps, h => .cons (h e (by simp)) (lists_forced (fun e' he => h e' (by simp [he])))

theorem forced_enc {E : Env} {U : ClassId → Prop} {spec nested : Option ClassId} {p : Params} {t t' : TLV} {n n' : PyVal}
    (h : Forced E U spec nested p t n t' n') :
    Enc E U spec nested p t n ∧ Enc E U spec nested p t' n' ∧ Forced E U spec nested p t' n' t' n' ∧ (t.trailer = [] → t'.trailer = []) := by
  refine Forced.rec (E := E) (U := U)
    (motive_1 := fun spec nested p t n t' n' _ =>
      Enc E U spec nested p t n ∧ Enc E U spec nested p t' n' ∧ Forced E U spec nested p t' n' t' n' ∧ (t.trailer = [] → t'.trailer = []))
    (motive_2 := fun es t u n t' _ => Enc E U none none {} u n ∧ (Ber 11 t → Inside es t u →
      (∃ u', Ber 11 t' ∧ Inside es t' u' ∧ Enc E U none none {} u' n ∧ FreeForced E U es t' u' n t') ∧ (t.trailer = [] → t'.trailer = [])))
    (motive_3 := fun oid fs before before' b ns b' ns' _ =>
      FieldsEnc E U oid fs before b ns ∧ FieldsEnc E U oid fs before' b' ns' ∧ FieldsForced E U oid fs before' before' b' ns' b' ns')
    (motive_4 := fun ch b ns ps _ => ListEnc E U ch b ns ∧ ∀ e ∈ ps, Enc E U ch none {} e.1 e.2 ∧ Forced E U ch none {} e.1 e.2 e.1 e.2)
    ?leaf ?null ?seq ?openSeq ?list ?setOf ?choice ?any ?string ?payload ?free ?fleaf ?fnull ?fseq ?nil ?present ?other ?same ?absent ?default ?lnil ?lcons h
  case leaf =>
    intro c p t u t' u' s proto bad h1 h2 h3 h4 h5 h6 h7
    have hr : ReadsElement proto u' s := .inl ⟨h6, written_reads h7⟩
    exact ⟨.leaf h1 h3 h4, .leaf h1 (derFramed_framed h5) hr, .leaf h1 h2 (derFramed_framed h5) hr h5 h6 h7,
      fun _ => derHead_trailer (derInside_head h5.inside).1⟩
  case null =>
    intro c p t u t' o bad h1 h2 h3 h4 h5
    obtain ⟨u', k1, k2, k3, k4, k5⟩ := reheaded_framed h2 h5
    exact ⟨.leaf h1 h2 (.inl ⟨h3, by rw [h4]; exact reads_null o⟩), .leaf h1 k1 (.inl ⟨k2.trans h3, by rw [k3, h4]; exact reads_null o⟩),
      .null h1 k1 (k2.trans h3) (k3.trans h4) k4, k5⟩
  case seq =>
    intro c p t u t' u' ns ns' proto bad fields oid h1 h2 h3 h4 h5 h6 h7 ih
    exact ⟨.seq h1 h2 h3 h4 ih.1, .seq h1 h2 (derFramed_framed h6) h7 ih.2.1, .seq h1 h2 (derFramed_framed h6) h7 ih.2.2 h6 h7,
      fun _ => derHead_trailer (derInside_head h6.inside).1⟩
  case openSeq =>
    intro c p t u t' ns ps proto bad oid h1 h2 h3 h4 h5 ih
    obtain ⟨u', k1, k2, k3, k4, k5⟩ := reheaded_framed h2 h5
    exact ⟨.openSeq h1 h2 h3 ih.1, .openSeq h1 k1 (k2.trans h3) (by rw [k3]; exact ih.1), .openSeq h1 k1 (k2.trans h3) (by rw [k3]; exact h4) k4, k5⟩
  case list =>
    intro c p t u t' u' ns ps proto bad ch h1 h2 h3 h4 h5 h6 h7 ih
    refine ⟨.list h1 h2 h3 ih.1, .list h1 (derFramed_framed h5) h6 ?_, .list h1 (derFramed_framed h5) h6 ?_ h5 h6 h7,
      fun _ => derHead_trailer (derInside_head h5.inside).1⟩
    · rw [h7]
      exact lists_enc (fun e he => (ih.2 e he).1)
    · rw [h7]
      exact lists_forced (fun e he => (ih.2 e he).2)
  case setOf =>
    intro c p t u t' u' ns ps qs proto bad ch h1 h2 h3 h4 h5 h6 h7 h8 ih
    refine ⟨.list h1 h2 h3 ih.1, .list h1 (derFramed_framed h6) h7 ?_, .setOf h1 (derFramed_framed h6) h7 (ps := qs) ?_ ⟨.refl _, h5.2⟩ h6 h7 h8,
      fun _ => derHead_trailer (derInside_head h6.inside).1⟩
    · rw [h8]
      exact lists_enc (fun e he => (ih.2 e (h5.1.mem_iff.mp he)).1)
    · rw [h8]
      exact lists_forced (fun e he => (ih.2 e (h5.1.mem_iff.mp he)).2)
  case choice =>
    intro c p t u t' u' k n n' alts f h1 h2 h3 h4 h5 h6 h7 h8 ih
    have htr := ih.2.2.2 h7
    obtain ⟨k1, k2, k3⟩ := derAround_inside h8 (enc_ber ih.2.1) htr
    exact ⟨.choice h1 h2 h3 h4 h5 ih.1 h7, .choice h1 k1 k2 h4 h5 ih.2.1 htr, .choice h1 k1 k2 h4 h5 ih.2.2.1 htr h8, fun _ => k3⟩
  case any =>
    intro c p t u t' n h1 h2 h3 h4 ih
    obtain ⟨⟨u', k1, k2, k3, k4⟩, k5⟩ := ih.2 h2 h3
    exact ⟨.any h1 h2 h3 ih.1, .any h1 k1 k2 k3, .any h1 k1 k2 k4, k5⟩
  case string =>
    intro c p t u t' u' b o isBit h1 h2 h3 h4 h5 h6 h7
    exact ⟨.string h1 h2 h3 h4, .string h1 (derFramed_framed h5) h6 h7, .string h1 (derFramed_framed h5) h6 h7 h5 h6 h7,
      fun _ => derHead_trailer (derInside_head h5.inside).1⟩
  case payload =>
    intro c d p t u w t' u' w' n n' o isBit h1 h2 h3 h4 h5 h6 h7 h8 ih
    exact ⟨.payload h1 h2 h3 h4 ih.1, .payload h1 (derFramed_framed h6) h7 h8 ih.2.1, .payload h1 (derFramed_framed h6) h7 h8 ih.2.2.1 h6 h7 h8,
      fun _ => derHead_trailer (derInside_head h6.inside).1⟩
  case free =>
    intro t t' n h1 ih
    obtain ⟨⟨u', k1, k2, k3, k4⟩, k5⟩ := ih.2 (enc_ber ih.1) .nil
    cases k2
    exact ⟨ih.1, k3, .free k4, k5⟩
  case fleaf =>
    intro es t u t' u' s c proto bad h1 h2 h3 h4 h5 h6 h7 h8 h9 h10 h11 h12
    obtain ⟨k1, k2⟩ := derInside_inside h8
    obtain ⟨l1, l2⟩ := derInside_head h8
    have hr : ReadsElement proto u' s := .inl ⟨h10, written_reads h12⟩
    exact ⟨.freeLeaf h1 h2 h5 h6 h7, fun _ _ => ⟨⟨u', k1, k2, .freeLeaf (by rw [h11]; exact h1) h2 h9 (derHead_ber l2) hr,
      .leaf (by rw [h11]; exact h1) h2 h3 (by rw [h11]; exact h4) h9 (derHead_ber l2) hr h8 h9 h10 rfl h12⟩, fun _ => derHead_trailer l1⟩⟩
  case fnull =>
    intro es t u t' c o bad h1 h2 h3 h4 h5 h6 h7 h8 h9
    refine ⟨.freeLeaf h1 h2 h4 h5 (.inl ⟨h6, by rw [h7]; exact reads_null o⟩), fun hb hi => ?_⟩
    obtain ⟨u', k1, k2, k3, k4, k5, k6, k7, k8, k9⟩ := reheaded_again hb h5 hi h9
    exact ⟨⟨u', k1, k3, .freeLeaf (by rw [k6]; exact h1) h2 (k4.trans h4) k2 (.inl ⟨k5.trans h6, by rw [k7, h7]; exact reads_null o⟩),
      .null (by rw [k6]; exact h1) h2 (h3.trans k6.symm) (k4.trans h4) k2 (k5.trans h6) (k7.trans h7) h8 k8⟩, k9⟩
  case fseq =>
    intro es t u t' ns ps c proto bad oid h1 h2 h3 h4 h5 h6 h7 h8 h9 ih
    refine ⟨.freeSeq h1 h2 h4 h5 h6 ih.1, fun hb hi => ?_⟩
    obtain ⟨u', k1, k2, k3, k4, k5, k6, k7, k8, k9⟩ := reheaded_again hb h6 hi h9
    exact ⟨⟨u', k1, k3, .freeSeq (by rw [k6]; exact h1) h2 (k4.trans h4) (k5.trans h5) k2 (by rw [k7]; exact ih.1),
      .seq (by rw [k6]; exact h1) h2 (h3.trans k6.symm) (k4.trans h4) (k5.trans h5) k2 (by rw [k7]; exact h7) h8 k8⟩, k9⟩
  case nil =>
    intro oid before before'
    exact ⟨.nil, .nil, .nil⟩
  case present =>
    intro oid f fs before before' pick t t' b b' n n' ns ns' h1 h2 h3 h4 h5 ih1 ih2
    exact ⟨.present h1 ih1.1 ih2.1, .present h2 ih1.2.1 ih2.2.1, .present h2 h2 ih1.2.2.1 h4 ih2.2.2⟩
  case other =>
    intro oid f fs before before' t t' td b b' n n' m ns ns' h1 h2 h3 h4 h5 h6 ih1 ih2
    exact ⟨.present h1 ih1.1 ih2.1, .present h2 ih1.2.1 ih2.2.1, .other h2 h2 ih1.2.2.1 h4 h5 ih2.2.2⟩
  case same =>
    intro oid f fs before before' t t' b b' s ns ns' h1 h2 h3 h4 ih1 ih2
    obtain ⟨d1, d2⟩ := leafDefault_value h3
    exact ⟨.present h1 ih1.1 ih2.1, .default d1 d2 ih2.2.1, .default h3 ih2.2.2⟩
  case absent =>
    intro oid f fs before before' b b' ns ns' h1 h2 h3 ih
    exact ⟨.absent h1 h2 ih.1, .absent h1 h2 ih.2.1, .absent h1 h2 ih.2.2⟩
  case default =>
    intro oid f fs before before' t b b' s ns ns' h1 h2 ih
    obtain ⟨d1, d2⟩ := leafDefault_value h1
    exact ⟨.default d1 d2 ih.1, .default d1 d2 ih.2.1, .default h1 ih.2.2⟩
  case lnil =>
    intro ch
    exact ⟨.nil, fun e he => by cases he⟩
  case lcons =>
    intro ch t t' b n n' ns ps h1 h2 ih1 ih2
    refine ⟨.cons ih1.1 ih2.1, fun e he => ?_⟩
    rcases List.mem_cons.mp he with rfl | he
    · exact ⟨ih1.2.1, ih1.2.2.1⟩
    · exact ih2.2 e he

end Asn1
