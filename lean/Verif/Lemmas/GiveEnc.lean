import Verif.Lemmas.MadeAll
import Mathlib.Data.List.Forall2

/-! # What is written is an encoding of the value -/

namespace Asn1
open Spec Props

theorem derLen_defLen {bs : Bytes} {n : Nat} (h : DerLen bs n) : DefLen bs n := by
  rcases h with h | ⟨_, d, ds, _, h2, h3, h4⟩
  · exact .inl h
  · exact .inr ⟨d :: ds, by simp, h2, h3, h4⟩

theorem derHead_ber {t : TLV} (h : DerHead t) : Ber 11 t := by
  obtain ⟨id, len, h1, h2, h3, h4⟩ := h
  obtain ⟨c, m, tg, hd, cs, tr⟩ := t
  simp only at h1 h2 h3 h4
  subst h3; subst h4
  exact .definite h1 (derLen_defLen h2)

theorem derInside_inside {es : List (Nat × Nat)} {t u : TLV} (h : DerInside es t u) : Ber 11 t ∧ Inside es t u := by
  induction h with
  | nil h => exact ⟨derHead_ber h, .nil⟩
  | cons h1 h2 h3 _ ih => exact ⟨derHead_ber h1, .cons h2 h3 ih.1 ih.2⟩

theorem derFramed_framed {d : Nat × Nat} {p : Params} {t u : TLV} (h : DerFramed d p t u) : Framed d p t u :=
  ⟨(derInside_inside h.inside).1, (derInside_inside h.inside).2, h.ident⟩

theorem derHead_trailer {t : TLV} (h : DerHead t) : t.trailer = [] := by
  obtain ⟨_, _, _, _, _, h⟩ := h; exact h

theorem list_enc {E : Env} {U : ClassId → Prop} {ch : ClassId} : ∀ {ps : List (TLV × PyVal)}, (∀ e ∈ ps, Enc E U (some ch) none {} e.1 e.2) →
    ListEnc E U (some ch) (joined (ps.map Prod.fst)) (ps.map Prod.snd)
  | [], _ => .nil
  | e :: ps, h => .cons (h e (by simp)) (list_enc (fun e' he => h e' (by simp [he])))

/-- Elements that belong to different fields have different tags. -/
theorem idents_nodup {E : Env} : ∀ {fs : List Field} {ts : List TLV}, DistinctTags E fs →
    List.Forall₂ (fun f t => OuterTag E f.spec f.params (t.cls, t.tag)) fs ts → (ts.map (fun t => (t.cls, t.tag))).Nodup
  | [], [], _, _ => List.nodup_nil
  | f :: fs, t :: ts, hd, .cons h1 h2 => by
    rw [List.map_cons, List.nodup_cons]
    refine ⟨?_, idents_nodup (fun j k g g' id hj hk o1 o2 => by
      have := hd (j + 1) (k + 1) g g' id (by simpa using hj) (by simpa using hk) o1 o2
      omega) h2⟩
    intro hm
    rw [List.mem_map] at hm
    obtain ⟨t', ht', heq⟩ := hm
    obtain ⟨k, hk⟩ := List.mem_iff_getElem?.mp ht'
    have hlen := h2.length_eq
    have hlt : k < fs.length := by
      rw [hlen]
      exact (List.getElem?_eq_some_iff.mp hk).1
    have hout : OuterTag E fs[k].spec fs[k].params (t'.cls, t'.tag) := by
      have := (List.forall₂_iff_get.mp h2).2 k hlt (by rw [← hlen]; exact hlt)
      rw [List.getElem?_eq_some_iff] at hk
      obtain ⟨_, hk⟩ := hk
      subst hk
      exact this
    have := hd 0 (k + 1) f fs[k] (t.cls, t.tag) rfl (by simp [List.getElem?_eq_getElem hlt]) h1 (heq ▸ hout)
    omega

theorem element_octets {E : Env} {c : ClassId} {p : Params} {m : Nat} {b : Bytes} {t : TLV} {d : Nat × Nat} (hd : (E.cls c).ident = some d)
    (h : DerElement E c p (.octets m b) t) : ∃ u, Framed d p t u ∧ u.method = m ∧ u.contents = b := by
  obtain ⟨d', u, h1, h2, h3, h4⟩ := h
  rw [hd] at h1
  injection h1 with h1
  subst h1
  exact ⟨u, derFramed_framed h2, h3, h4⟩

theorem enc_universal {E : Env} {U : ClassId → Prop} {d : ClassId} {t : TLV} {s : Scalar} {proto : LeafSt} {bad : List Nat} (hc : E.cls d = .leaf proto bad)
    (h : Enc E U (some d) none {} t (.scalar s)) : Ber 11 t ∧ ReadsElement proto t s := by
  refine ⟨enc_ber h, ?_⟩
  cases h with
  | leaf h1 h2 h3 =>
    rw [hc] at h1
    injection h1 with h1
    subst h1
    have := h2.inside
    cases this
    exact h3
  | choice h => rw [hc] at h; cases h
  | any h => rw [hc] at h; cases h
  | string h => rw [hc] at h; cases h

/-- See above. -/
theorem gives_enc {E : Env} {U : ClassId → Prop} (hT : Types E U) (hM : Makable E U) {c : ClassId} {x : PyVal} {b : Piece} {n : PyVal}
    (h : Gives E U c x b n) : U c → ∀ p t, DerElement E c p b t → Enc E U (some c) none p t n := by
  refine Gives.rec (E := E) (U := U) (motive_1 := fun c x b n _ => U c → ∀ p t, DerElement E c p b t → Enc E U (some c) none p t n)
    (motive_2 := fun f pick x t n _ => Usable E U f.spec f.params → PickOk E U f pick → Enc E U (some (pickedSpec E f pick)) (pickedNested E f pick) f.params t n)
    (motive_3 := fun oid d fs before b ns _ => ∀ c proto bad pre, U c → E.cls c = .seq proto bad false (pre ++ fs) oid → pre.length = before.length →
      FieldsEnc E U oid fs before b ns)
    (motive_4 := fun d fs ts ns _ => ∀ c proto bad pre, U c → E.cls c = .seq proto bad true (pre ++ fs) none →
      (∀ vs, (∀ t ∈ ts, t ∈ vs) → SlotsEnc E U vs fs ns) ∧ (∀ t ∈ ts, Ber 11 t) ∧
        List.Forall₂ (fun f t => OuterTag E f.spec f.params (t.cls, t.tag)) fs ts)
    (motive_5 := fun ch xs ps _ => Usable E U ch {} → ∀ e ∈ ps, Enc E U (some ch) none {} e.1 e.2)
    ?leaf ?null ?seq ?set ?list ?setOf ?choice ?choiceInst ?string ?plain ?entry ?inst ?alternative ?payload ?payloadInst ?payloadLoaded ?octets ?any ?fnil ?given ?other ?same ?default ?absent ?snil ?sgiven
    ?lnil ?lplain ?linst ?lalternative h
  case leaf =>
    intro c x s b proto bad h1 h2 h3 h4 hU p t ht
    obtain ⟨u, k1, k2, k3⟩ := element_octets (by rw [h1]; rfl) ht
    obtain ⟨_, _, _, _, w4⟩ := h4
    exact .leaf h1 k1 (.inl ⟨k2, by rw [k3]; exact w4⟩)
  case null =>
    intro c o bad h1 h2 hU p t ht
    obtain ⟨u, k1, k2, k3⟩ := element_octets (by rw [h1]; rfl) ht
    exact .leaf h1 k1 (.inl ⟨k2, by rw [k3]; exact ⟨fun _ _ => rfl, _, rfl, rfl⟩⟩)
  case seq =>
    intro c d b ns proto bad fields oid h1 h2 h3 h4 ih hU p t ht
    obtain ⟨u, k1, k2, k3⟩ := element_octets (by rw [h1]; rfl) ht
    refine .seq h1 ?_ k1 k2 (by rw [k3]; exact ih c proto bad [] hU h1 rfl)
    rintro rfl
    obtain ⟨f, hf, _⟩ := h3
    cases hf
  case set =>
    intro c d ts ns proto bad fields h1 h2 h3 h4 ih hU p t ht
    obtain ⟨u, k1, k2, k3⟩ := element_octets (by rw [h1]; rfl) ht
    obtain ⟨i1, i2, i3⟩ := ih c proto bad [] hU h1
    have hdist := ((hT.seq c proto bad true fields none hU h1).2.2.2 rfl).1
    have hperm := List.mergeSort_perm ts (fun a b => decide (a.tag ≤ b.tag))
    refine .set (vs := ts.mergeSort (fun a b => decide (a.tag ≤ b.tag))) h1 k1 k2 ⟨k3, fun v hv => i2 v (hperm.mem_iff.mp hv)⟩ ?_ ?_
      (i1 _ (fun t ht => hperm.mem_iff.mpr ht))
    · exact (hperm.map _).nodup_iff.mpr (idents_nodup hdist i3)
    · intro v hv
      obtain ⟨k, hk⟩ := List.mem_iff_getElem?.mp (hperm.mem_iff.mp hv)
      have hlt := (List.getElem?_eq_some_iff.mp hk).1
      have hlt' : k < fields.length := by rw [i3.length_eq]; exact hlt
      refine ⟨fields[k], List.getElem_mem hlt', ?_⟩
      have := (List.forall₂_iff_get.mp i3).2 k hlt' hlt
      rw [List.getElem?_eq_some_iff] at hk
      obtain ⟨_, hk⟩ := hk
      subst hk
      exact this
  case list =>
    intro c ch xs ps proto bad h1 h2 ih hU p t ht
    obtain ⟨u, k1, k2, k3⟩ := element_octets (by rw [h1]; rfl) ht
    exact .list h1 k1 k2 (by rw [k3]; exact list_enc (ih ((hT.seqOf c proto bad false (some ch) hU h1).2 ch rfl)))
  case setOf =>
    intro c ch xs ps qs proto bad h1 h2 h3 ih hU p t ht
    obtain ⟨u, k1, k2, k3⟩ := element_octets (by rw [h1]; rfl) ht
    have := ih ((hT.seqOf c proto bad true (some ch) hU h1).2 ch rfl)
    exact .list h1 k1 k2 (by rw [k3]; exact list_enc (fun e he => this e (h3.1.mem_iff.mp he)))
  case choice =>
    intro c name k f x b t n alts h1 h2 h3 h4 h5 h6 h7 h8 ih hU p t' ht
    have ht : DerInside p.explicit.reverse t' t := ht
    obtain ⟨k1, k2⟩ := derInside_inside ht
    exact .choice h1 k1 k2 h2 h5 (ih h5 _ _ h8) (derHead_trailer (derInside_head ht).2)
  case choiceInst =>
    intro c name k f x v b t n alts h1 h2 h3 h4 h5 h6 h7 h8 ih hU p t' ht
    have ht : DerInside p.explicit.reverse t' t := ht
    obtain ⟨k1, k2⟩ := derInside_inside ht
    exact .choice h1 k1 k2 h2 h5 (ih h5 _ _ h8) (derHead_trailer (derInside_head ht).2)
  case string =>
    intro c b o isBit h1 hU p t ht
    obtain ⟨u, k1, k2, k3⟩ := element_octets (by rw [h1]; rfl) ht
    exact .string h1 k1 k2 k3
  case plain =>
    intro f pick x b t n h1 h2 h3 h4 ih hu hp
    rw [h2]
    exact ih (picked_usable hu hp).mem _ _ h4
  case entry =>
    intro f pick name x b t n h2 h3 h4 ih hu hp
    rw [h2]
    exact ih (picked_usable hu hp).mem _ _ h4
  case inst =>
    intro f pick x v b t n h1 h2 h3 h4 ih hu hp
    rw [h1]
    exact ih (picked_usable hu hp).mem _ _ h4
  case alternative =>
    intro f g pick x v b t u n h1 h2 h3 h4 h5 h6 h7 ih hu hp
    rw [h1]
    obtain ⟨alts, k1, k2, _⟩ := h2
    obtain ⟨k, k2⟩ := List.mem_iff_getElem?.mp k2
    have h7 : DerInside f.params.explicit.reverse t u := h7
    obtain ⟨j1, j2⟩ := derInside_inside h7
    exact .choice k1 j1 j2 k2 h3 (ih h3 _ _ h6) (derHead_trailer (derInside_head h7).2)
  case payload =>
    intro f d x b w t u n o isBit h1 h2 h3 h4 h5 h6 h7 h8 h9 ih hu hp
    have hUd : U d := by
      unfold PickOk at hp
      simp only [h1] at hp
      exact hp.mem
    have e1 : pickedSpec E f (.value d) = f.spec := by unfold pickedSpec; rw [h1]
    have e2 : pickedNested E f (.value d) = some d := by unfold pickedNested; rw [h1]
    rw [e1, e2]
    exact .payload h1 (derFramed_framed h7) h8 h9 (ih hUd _ _ h6)
  case payloadInst =>
    intro f d x v b w t u n o isBit h1 h2 h3 h4 h5 h6 h7 h8 h9 ih hu hp
    obtain ⟨hUd, e1, e2⟩ := picked_value h1 hp
    rw [e1, e2]
    exact .payload h1 (derFramed_framed h7) h8 h9 (ih hUd _ _ h6)
  case payloadLoaded =>
    intro f d v w t u n o isBit proto bad isSet fields oid h1 h2 h3 h4 h5 h7 h8 h9 hu hp
    obtain ⟨hUd, e1, e2⟩ := picked_value h1 hp
    rw [e1, e2]
    exact .payload h1 (derFramed_framed h7) h8 h9 h4
  case octets =>
    intro f d v w t u n o isBit proto bad isSet fields oid h1 h2 h3 h4 h7 h8 h9 hu hp
    obtain ⟨hUd, e1, e2⟩ := picked_value h1 hp
    rw [e1, e2]
    exact .payload h1 (derFramed_framed h7) h8 h9 h4
  case any =>
    intro f d x s v b t proto bad h1 h2 h3 h4 h5 h6 h7 h8 h9 ih hu hp
    obtain ⟨k1, k2⟩ := enc_universal h4 (ih (hT.universal _ _ h3) _ _ h8)
    refine .any (u := t) h1 k1 ?_ (.freeLeaf h3 h4 h5 k1 k2)
    rw [h2]
    exact .nil
  case fnil => intro oid d before c proto bad pre hU hc hl; exact .nil
  case given =>
    intro oid d f fs before pick x t b n ns h1 h2 h3 h4 h5 ih1 ih2 c proto bad pre hU hc hl
    obtain ⟨_, k2, k3, _⟩ := hT.seq c proto bad false _ oid hU hc
    have hget : (pre ++ f :: fs)[before.length]? = some f := by
      rw [← hl, List.getElem?_append_right (Nat.le_refl _), Nat.sub_self]; rfl
    exact .present h2 (ih1 (k2 f (by simp)) (decides_ok (k3 rfl).2 hget h2)) (ih2 c proto bad (pre ++ [f]) hU (by simpa using hc) (by simp [hl]))
  case other =>
    intro oid d f fs before x y e t td b n m ns h1 h2 h3 h4 h5 h6 h7 h8 h9 ih1 ih2 ih3 c proto bad pre hU hc hl
    obtain ⟨_, k2, k3, _⟩ := hT.seq c proto bad false _ oid hU hc
    have hget : (pre ++ f :: fs)[before.length]? = some f := by
      rw [← hl, List.getElem?_append_right (Nat.le_refl _), Nat.sub_self]; rfl
    have hfree : Free oid before.length := by
      intro p hp heq
      subst hp
      have := (hM.pair c proto bad false _ p hU hc).1 f (by rw [heq]; exact hget)
      rw [this] at h3; cases h3
    exact .present (decides_free hfree) (ih1 (k2 f (by simp)) trivial) (ih3 c proto bad (pre ++ [f]) hU (by simpa using hc) (by simp [hl]))
  case same =>
    intro oid d f fs before x y e t b n ns h1 h2 h3 h4 h5 h6 h7 h8 h9 ih1 ih2 ih3 c proto bad pre hU hc hl
    exact .default (by rw [h3]; rfl) h8 (ih3 c proto bad (pre ++ [f]) hU (by simpa using hc) (by simp [hl]))
  case default =>
    intro oid d f fs before y e t b n ns h1 h3 h4 h5 h6 h7 h8 h9 ih2 ih3 c proto bad pre hU hc hl
    exact .default (by rw [h3]; rfl) h8 (ih3 c proto bad (pre ++ [f]) hU (by simpa using hc) (by simp [hl]))
  case absent =>
    intro oid d f fs before b ns h1 h2 h3 h4 ih c proto bad pre hU hc hl
    exact .absent h2 h3 (ih c proto bad (pre ++ [f]) hU (by simpa using hc) (by simp [hl]))
  case snil => intro d c proto bad pre hU hc; exact ⟨fun _ _ => .nil, fun _ h => (by cases h), .nil⟩
  case sgiven =>
    intro d f fs x t ts n ns h1 h2 h3 h4 ih1 ih2 c proto bad pre hU hc
    obtain ⟨_, k2, _, k4⟩ := hT.seq c proto bad true _ none hU hc
    have hu := k2 f (by simp)
    have henc : Enc E U (some f.spec) none f.params t n := ih1 hu trivial
    obtain ⟨i1, i2, i3⟩ := ih2 c proto bad (pre ++ [f]) hU (by simpa using hc)
    refine ⟨fun vs hvs => .present (hvs t (by simp)) henc (i1 vs (fun t' h => hvs t' (by simp [h]))), ?_, .cons ?_ i3⟩
    · intro t' h
      rcases List.mem_cons.mp h with rfl | h
      · exact enc_ber henc
      · exact i2 t' h
    · exact (enc_begins hT hu henc).2 ((k4 rfl).2 f (by simp)).1
  case lnil => intro ch hu e he; cases he
  case lplain =>
    intro ch x xs b t n ps h1 h2 h3 h4 ih1 ih2 hu e he
    rcases List.mem_cons.mp he with rfl | he
    · exact ih1 hu.mem _ _ h3
    · exact ih2 hu e he
  case linst =>
    intro ch x v xs b t n ps h1 h2 h3 h4 ih1 ih2 hu e he
    rcases List.mem_cons.mp he with rfl | he
    · exact ih1 hu.mem _ _ h3
    · exact ih2 hu e he
  case lalternative =>
    intro ch g x v xs b t n ps h1 h2 h3 h4 h5 h6 ih1 ih2 hu e he
    rcases List.mem_cons.mp he with rfl | he
    · obtain ⟨alts, k1, k2, _⟩ := h1
      obtain ⟨k, k2⟩ := List.mem_iff_getElem?.mp k2
      have henc := ih1 h2 _ _ h5
      exact .choice k1 (enc_ber henc) .nil k2 h2 henc (derHead_trailer (derElement_head h5))
    · exact ih2 hu e he

end Asn1
