import Verif.Lemmas.ForceSeq
import Verif.Lemmas.EncLoad

/-! # Loading encodings of all kinds of types, to be encoded again by force -/

namespace Asn1
open Spec Props

/-! ### Primitive types -/

theorem leafFor_reads {proto : LeafSt} {ind : Bool} {data : Bytes} {s : Scalar} (hr : Reads proto ind data s) (b : Obj Unit)
    (hm : b.method = if ind then 1 else 0) (hc : b.contents = some data) (hi : b.indefinite = ind) (hk : ind = true → proto.constructable = true) :
    LeafFor proto b.cls b.tag b.explicit s (proto.map (Obj.over b)) := by
  have e1 : (proto.map (Obj.over b)).base.cls = b.cls := by cases proto <;> rfl
  have e2 : (proto.map (Obj.over b)).base.tag = b.tag := by cases proto <;> rfl
  have e3 : (proto.map (Obj.over b)).base.explicit = b.explicit := by cases proto <;> rfl
  have e4 : (proto.map (Obj.over b)).base.method = b.method := by cases proto <;> rfl
  have e5 : (proto.map (Obj.over b)).base.indefinite = b.indefinite := by cases proto <;> rfl
  have e6 : (proto.map (Obj.over b)).base.contents = b.contents := by cases proto <;> rfl
  refine ⟨LeafSt.kind_map _ _, e1, e2, e3, by rw [e4, e5, hm, hi], ?_, ⟨data, by rw [e6]; exact hc⟩, reads_native hr b hm hc hi⟩
  rw [e5, hi]
  exact hk

/-- `buildObj_framed` for the plain case, which also tells what the header ends with. -/
theorem buildObj_split {ν : Type} {k : Bool} {bad : List Nat} {o : Obj ν} {p : Params} {t u : TLV} {i : Info} (ho : BlankObj o u.method) (hp : GoodParams p)
    (hF : Framed (o.cls, o.tag) p t u) (hi : i.tlv = t) :
    ∃ pre post, t.bytes = pre ++ u.header ++ u.contents ++ (u.trailer ++ post) ∧
      buildObj k bad (initTagging o p.tags) i = .ok (framedObj (initTagging o p.tags) (pre ++ u.header) u.contents (u.trailer ++ post) false) := by
  obtain ⟨f1, f2, f3, f4, f5, f6, f7⟩ := initTagging_fields o p hp.keep
  rw [ho.explicit, List.nil_append] at f2
  rw [ho.method] at f3
  rw [ho.indefinite] at f6
  obtain ⟨j, pre, post, j1, j2, j3, q, j4⟩ := explicitLoop_inside hF.inside i [] [] hi
  rw [List.append_nil, List.nil_append] at j2 j3
  have hid := hF.ident
  rw [show (if p.explicit = [] then p.implicit.getD (o.cls, o.tag) else (o.cls, o.tag)) = effTag (o.cls, o.tag) p from rfl, ← f1] at hid
  subst j1
  refine ⟨pre, post, ?_, ?_⟩
  · rw [← j3]; simp [TLV.bytes, Info.tlv]
  · rw [buildObj_eq, f2, j2]
    simp only [Except.bind]
    unfold buildBase
    have h1 : j.cls = (initTagging o p.tags).cls := (Prod.mk.inj hid).1
    have h2 : j.tag = (initTagging o p.tags).tag := (Prod.mk.inj hid).2
    have f3 : (initTagging o p.tags).method = j.method := f3
    simp only [h1, ne_eq, not_true_eq_false, if_false, f3, Info.tlv]
    simp only [not_true_eq_false, if_false, bind, Except.bind, h2, false_and]
    simp only [framedObj, f2, f3, f6, Bool.false_eq_true, if_false]

/-- What is kept as it is. -/
theorem kept_of {es : List (Nat × Nat)} {t u t' : TLV} {o : Obj Unit} {pre : Bytes} (hR : Reheaded es.reverse t u t') (hu : Ber 11 u)
    (h1 : o.header = some (pre ++ u.header)) (h2 : o.contents = some u.contents) (h3 : o.indefinite = false)
    (h4 : pre ++ u.header ++ u.contents ++ o.trailer = t.bytes) (h5 : o.cls = u.cls) (h6 : o.method = u.method) (h7 : o.tag = u.tag) (h8 : o.explicit = es) :
    KeptObj u.contents t'.bytes o := by
  have hlast : (pre ++ u.header).getLast? = u.header.getLast? := List.getLast?_append_of_ne_nil _ (ber_header_ne hu)
  refine ⟨h2, h3, ?_⟩
  rcases hR with ⟨k1, rfl⟩ | ⟨k1, u', k2, k3, k4, k5, k6⟩
  · refine .inl ⟨_, h1, ?_, h4⟩
    simp only [headerEnds80, hlast, beq_eq_false_iff_ne]
    exact k1
  · refine .inr ⟨?_, ?_⟩
    · rw [h1]
      simp only [headerEnds80, hlast, k1, beq_self_eq_true]
    · have hd' := (derInside_head k2).2
      have hd := derHead_dumpHeader hd'
      obtain ⟨hh, w1, w2⟩ := derInside_wrap es (h := u'.header) (c := u'.contents) k2 (by rw [TLV.bytes, derHead_trailer hd', List.append_nil])
      rw [k3, k4, k5, k6] at hd
      rw [k6] at w1 w2
      exact ⟨_, hh, by rw [h5, h6, h7]; exact hd, by rw [h8]; exact w1, w2.symm⟩

theorem fparses_leaf {E : Env} {U : ClassId → Prop} (hU : Types E U) {c : ClassId} {p : Params} {t u t' u' : TLV} {s : Scalar} {proto : LeafSt} {bad : List Nat}
    (h1 : E.cls c = .leaf proto bad) (hnn : ∀ o, proto ≠ .null o) (h2 : Framed (proto.base.cls, proto.base.tag) p t u) (h3 : ReadsElement proto u s)
    (h4 : DerFramed (proto.base.cls, proto.base.tag) p t' u') (h5 : u'.method = 0) (h6 : Written proto s u'.contents s) (hg : Usable E U c p) :
    FParses E (some c) none p t (.scalar s) t'.bytes := by
  have hbare := hU.leaf _ _ _ hg.mem h1
  obtain ⟨N, hN⟩ := defaultCheck_ok hg
  obtain ⟨f1, f2, f3, f4, f5, f6, f7⟩ := initTagging_fields proto.base p hg.tags.keep
  rw [hbare.explicit, List.nil_append] at f2
  refine ⟨N + 1, fun i hi j hj => ?_⟩
  obtain ⟨j, rfl⟩ : ∃ k, j = k + 1 := ⟨j - 1, by omega⟩
  obtain ⟨h, tr, b1, b2, b3⟩ := buildObj_framed (bad := bad) (k := (proto.init p.tags).constructable) hbare.blank (goodParams hg.tags) h2 hi
  have hk : (proto.init p.tags).constructable = proto.constructable := by cases proto <;> rfl
  have key : ∃ b : Obj Unit, ∃ ind, buildObj (proto.init p.tags).constructable bad (proto.init p.tags).base i = .ok b ∧ b.contents = some u.contents ∧
      b.indefinite = ind ∧ b.method = (if ind then 1 else 0) ∧ Reads proto ind u.contents s ∧ (ind = true → proto.constructable = true) ∧
      (b.cls, b.tag) = effTag (proto.base.cls, proto.base.tag) p ∧ b.explicit = p.explicit := by
    rw [LeafSt.base_init, b3]
    rcases h3 with ⟨m1, m2⟩ | ⟨m1, m2, m3, m4⟩
    · rw [if_pos m1]
      exact ⟨_, false, rfl, rfl, rfl, by simp [framedObj, f3, hbare.method], m2, fun h => (by cases h), f1, f2⟩
    · rw [if_neg (by rw [m1]; decide), if_pos ⟨m1, rfl, m2, hk.trans m3⟩]
      exact ⟨_, true, rfl, rfl, rfl, rfl, m4, fun _ => m3, f1, f2⟩
  obtain ⟨b, ind, k1, k2, k3, k4, k5, k6, k7, k8⟩ := key
  have hid := h4.ident
  rw [show (if p.explicit = [] then p.implicit.getD (proto.base.cls, proto.base.tag) else (proto.base.cls, proto.base.tag)) =
    effTag (proto.base.cls, proto.base.tag) p from rfl, ← k7] at hid
  refine ⟨.leaf c (proto.map (Obj.over b)), ?_, ?_, (fun h => by cases h), fun c' _ _ _ _ _ hc hs => ?_⟩
  · rw [ops_build]
    refine buildStep_plain ?_
    have : LeafSt.build bad (proto.init p.tags) i = .ok (proto.map (Obj.over b)) := by
      rw [LeafSt.build_eq, k1]
      simp only [Except.map, LeafSt.init, LeafSt.map_map]
      rfl
    simp only [buildPlain, h1, bind, Except.bind, hbare.explicit, buildTags_nil, hN j (by omega), this]
  · refine Forceable.mono (N := 1) ?_ (by omega)
    refine forceable_leaf E (leafFor_reads k5 b k4 k2 k3 k6) hnn (u := u') (by rw [k8]; exact h4.inside) (Prod.mk.inj hid).1 h5 (Prod.mk.inj hid).2 h6
  · cases hc
    rw [h1] at hs; cases hs

theorem fparses_null {E : Env} {U : ClassId → Prop} (hU : Types E U) {c : ClassId} {p : Params} {t u t' : TLV} {o : Obj Unit} {bad : List Nat}
    (h1 : E.cls c = .leaf (.null o) bad) (h2 : Framed (o.cls, o.tag) p t u) (h3 : u.method = 0) (h4 : u.contents = []) (h5 : Reheaded p.explicit.reverse t u t')
    (hg : Usable E U c p) : FParses E (some c) none p t (.scalar .none) t'.bytes := by
  have hbare := hU.leaf _ _ _ hg.mem h1
  have hblank := hbare.blank
  have hbe : (LeafSt.null o).base.explicit = [] := hbare.explicit
  obtain ⟨N, hN⟩ := defaultCheck_ok hg
  obtain ⟨f1, f2, f3, f4, f5, f6, f7⟩ := initTagging_fields (LeafSt.null o).base p hg.tags.keep
  rw [hbare.explicit, List.nil_append] at f2
  refine ⟨N + 1, fun i hi j hj => ?_⟩
  obtain ⟨j, rfl⟩ : ∃ k, j = k + 1 := ⟨j - 1, by omega⟩
  have h2' : Framed ((LeafSt.null o).base.cls, (LeafSt.null o).base.tag) p t u := h2
  rw [← h3] at hblank
  obtain ⟨pre, post, b1, b3⟩ := buildObj_split (bad := bad) (k := ((LeafSt.null o).init p.tags).constructable) hblank (goodParams hg.tags) h2' hi
  have hid := h2'.ident
  rw [show (if p.explicit = [] then p.implicit.getD ((LeafSt.null o).base.cls, (LeafSt.null o).base.tag) else ((LeafSt.null o).base.cls, (LeafSt.null o).base.tag)) =
    effTag ((LeafSt.null o).base.cls, (LeafSt.null o).base.tag) p from rfl, ← f1] at hid
  generalize hfo : framedObj (initTagging (LeafSt.null o).base p.tags) (pre ++ u.header) u.contents (u.trailer ++ post) false = b at b3
  have hu := inside_ber h2.inside h2.ber
  have hkept : KeptObj u.contents t'.bytes b := by
    refine kept_of (pre := pre) h5 hu ?_ ?_ ?_ ?_ ?_ ?_ ?_ ?_
    · rw [← hfo]; rfl
    · rw [← hfo]; rfl
    · rw [← hfo]; rfl
    · rw [← hfo]; exact b1.symm
    · rw [← hfo]; exact (Prod.mk.inj hid).1.symm
    · rw [← hfo]; exact (f3.trans hbare.method).trans h3.symm
    · rw [← hfo]; exact (Prod.mk.inj hid).2.symm
    · rw [← hfo]; exact f2
  have hover : (LeafSt.null o).map (Obj.over b) = .null (Obj.over b o) := rfl
  have hkept' : KeptObj [] t'.bytes (Obj.over b o) := by
    rw [h4] at hkept
    exact ⟨hkept.contents, hkept.ind, hkept.writes⟩
  refine ⟨.leaf c ((LeafSt.null o).map (Obj.over b)), ?_, ?_, (fun h => by cases h), fun c' _ _ _ _ _ hc hs => ?_⟩
  · rw [ops_build]
    refine buildStep_plain ?_
    have : LeafSt.build bad ((LeafSt.null o).init p.tags) i = .ok ((LeafSt.null o).map (Obj.over b)) := by
      rw [LeafSt.build_eq, LeafSt.base_init, b3]
      simp only [Except.map, LeafSt.init, LeafSt.map_map]
      rfl
    simp only [buildPlain, h1, bind, Except.bind, hbe, buildTags_nil, hN j (by omega), this]
  · rw [hover]
    exact (forceable_null E hkept').mono (by omega)
  · cases hc
    rw [h1] at hs; cases hs

/-! ### Containers -/

theorem nodeObj_framed {proto : Obj Unit} {p : Params} {h c tr : Bytes} (hb : Bare proto 1) (hg : GoodTags p) :
    NodeObj (effTag (proto.cls, proto.tag) p).1 (effTag (proto.cls, proto.tag) p).2 p.explicit (framedObj (initTagging proto p.tags) h c tr false) := by
  obtain ⟨f1, f2, f3, f4, f5, f6, f7⟩ := initTagging_fields proto p hg.keep
  rw [hb.explicit, List.nil_append] at f2
  refine ⟨?_, ?_, f2, ?_, rfl, c, rfl⟩
  · rw [← f1]; rfl
  · rw [← f1]; rfl
  · exact f3.trans hb.method

theorem fparses_seq {E : Env} {U : ClassId → Prop} (hU : Types E U) {c : ClassId} {p : Params} {t u t' u' : TLV} {ps : List (PyVal × Bytes)} {proto : Obj Unit}
    {bad : List Nat} {fields : List Field} {oid : Option OidPair} (h1 : E.cls c = .seq proto bad false fields oid) (hne : fields ≠ [])
    (h2 : Framed (proto.cls, proto.tag) p t u) (h3 : u.method = 1) (hg : Usable E U c p) (hlen : ps.length = fields.length)
    (h4 : DerFramed (proto.cls, proto.tag) p t' u') (h5 : u'.method = 1) {M : Nat} (hw : Writes E M fields ps u'.contents)
    (hM : ∀ j ≥ M, ∃ cs, parseChildren E (ops E j) c (some u.contents) = .ok cs ∧ FKids E M (paramsAt fields) (fun _ => none) cs ps) :
    FParses E (some c) none p t (.dict (named fields 0 (ps.map Prod.fst))) t'.bytes := by
  obtain ⟨hbare, _⟩ := hU.seq _ _ _ _ _ _ hg.mem h1
  obtain ⟨N, hN⟩ := defaultCheck_ok hg
  refine ⟨max N (M + 1) + 1, fun i hi j hj => ?_⟩
  obtain ⟨j, rfl⟩ : ∃ k, j = k + 1 := ⟨j - 1, by omega⟩
  obtain ⟨h, tr, b1, b2, b3⟩ := buildObj_framed (k := false) (bad := bad) hbare.blank (goodParams hg.tags) h2 hi
  rw [if_pos h3] at b3
  have hno := nodeObj_framed (h := h) (c := u.contents) (tr := tr) hbare hg.tags
  generalize ho : framedObj (initTagging proto p.tags) h u.contents tr false = o at b3 hno
  have hcon : o.contents = some u.contents := by rw [← ho]; rfl
  have hid := h4.ident
  rw [show (if p.explicit = [] then p.implicit.getD (proto.cls, proto.tag) else (proto.cls, proto.tag)) = effTag (proto.cls, proto.tag) p from rfl] at hid
  have hoe := hno.explicit
  obtain ⟨r1, r2⟩ := forceable_seq (o := o) (N := M) h1 hne hno hM hw h4.inside (by rw [← hid]) h5 (by rw [← hid]) rfl
  have hdc := hN j (by omega)
  have hform : ∀ cs, formOf (.node c o cs false) ≠ .void ∧ ∀ c' proto bad isSet fields oid, some c = some c' → E.cls c' = .seq proto bad isSet fields oid →
      formOf (.node c o cs false) = .node c' := by
    intro cs
    exact ⟨fun h => (by cases h), fun c' _ _ _ _ _ hc _ => (by cases hc; rfl)⟩
  by_cases hdf : p.explicit = [] ∧ p.default.isSome = true
  · obtain ⟨he, hd⟩ := hdf
    obtain ⟨d, hd⟩ := Option.isSome_iff_exists.mp hd
    obtain ⟨hq, _, kvs, rfl, hk1, hk2⟩ := hg.harmless d _ _ _ _ _ hd h1 he
    obtain ⟨cs, c1, c2⟩ := hM j (by omega)
    refine ⟨.node c o (some cs) false, ?_, (r2 cs c2).mono (by omega), hform _⟩
    rw [ops_build]
    refine buildStep_plain ?_
    simp only [buildPlain, h1, bind, Except.bind, hbare.explicit, buildTags_nil, b3, hdc, hoe, he, hd]
    simp only [defaultFill, ensureChildren, hcon, c1, bind, Except.bind, seqInit]
    rw [setFromDict_skip]
    · simp only
      rw [if_pos]
      rw [List.all_eq_true]
      intro kv hkv
      obtain ⟨f, hf, hn⟩ := hk1 kv hkv
      rw [List.any_eq_true]
      exact ⟨f, hf, by simp [hn]⟩
    · intro k f hf
      rw [Nat.zero_add]
      have hklt : k < fields.length := by
        rcases Nat.lt_or_ge k fields.length with h | h
        · exact h
        · rw [List.getElem?_eq_none h] at hf; cases hf
      obtain ⟨ch, hch⟩ : ∃ ch, cs[k]? = some ch := ⟨_, List.getElem?_eq_getElem (h := by rw [c2.1, hlen]; exact hklt)⟩
      obtain ⟨⟨n, b⟩, hn⟩ : ∃ n, ps[k]? = some n := ⟨_, List.getElem?_eq_getElem (h := by rw [hlen]; exact hklt)⟩
      have hkid := c2.2 k ch n b hch hn
      by_cases hv : ch = .val .void
      · right
        subst hv
        have hpar : paramsAt fields k = f.params := by simp [paramsAt, hf]
        have := hkid.2.1 rfl
        rw [hpar] at this
        rw [List.find?_eq_none]
        intro kv hkv
        simp only [beq_iff_eq]
        intro hname
        obtain ⟨g1, g2⟩ := hk2 kv hkv f (List.mem_of_getElem? hf) hname.symm
        rcases this with h | h
        · rw [g1] at h; cases h
        · rw [g2] at h; cases h
      · left
        simp only [fieldPresent, hch]
  · refine ⟨.node c o none false, ?_, (r1 hcon).mono (by omega), hform _⟩
    rw [ops_build]
    refine buildStep_plain ?_
    simp only [buildPlain, h1, bind, Except.bind, hbare.explicit, buildTags_nil, b3, hdc, hoe]
    cases he : p.explicit with
    | cons e es => rfl
    | nil =>
      cases hd : p.default with
      | none => rfl
      | some d => exact absurd ⟨he, by rw [hd]; rfl⟩ hdf

/-- A SEQUENCE of no particular class. -/
theorem fparses_open {E : Env} {U : ClassId → Prop} (hU : Types E U) {c : ClassId} {p : Params} {t u t' : TLV} {ps : List (PyVal × Bytes)} {proto : Obj Unit}
    {bad : List Nat} {oid : Option OidPair} (h1 : E.cls c = .seq proto bad false [] oid)
    (h2 : Framed (proto.cls, proto.tag) p t u) (h3 : u.method = 1) (hg : Usable E U c p) (h5 : Reheaded p.explicit.reverse t u t') {M : Nat}
    (hM : ∀ j ≥ M, ∃ cs, parseChildren E (ops E j) c (some u.contents) = .ok cs ∧ FKids E M (paramsAt []) (fun _ => none) cs ps) :
    FParses E (some c) none p t (.dict (named [] 0 (ps.map Prod.fst))) t'.bytes := by
  obtain ⟨hbare, _⟩ := hU.seq _ _ _ _ _ _ hg.mem h1
  obtain ⟨N, hN⟩ := defaultCheck_ok hg
  obtain ⟨f1, f2, f3, f4, f5, f6, f7⟩ := initTagging_fields proto p hg.tags.keep
  rw [hbare.explicit, List.nil_append] at f2
  refine ⟨max N (M + 1) + 1, fun i hi j hj => ?_⟩
  obtain ⟨j, rfl⟩ : ∃ k, j = k + 1 := ⟨j - 1, by omega⟩
  have hblank := hbare.blank
  rw [← h3] at hblank
  obtain ⟨pre, post, b1, b3⟩ := buildObj_split (bad := bad) (k := false) hblank (goodParams hg.tags) h2 hi
  have hid := h2.ident
  rw [show (if p.explicit = [] then p.implicit.getD (proto.cls, proto.tag) else (proto.cls, proto.tag)) = effTag (proto.cls, proto.tag) p from rfl, ← f1] at hid
  generalize ho : framedObj (initTagging proto p.tags) (pre ++ u.header) u.contents (u.trailer ++ post) false = o at b3
  have hu := inside_ber h2.inside h2.ber
  have hkept : KeptObj u.contents t'.bytes o := by
    refine kept_of (pre := pre) h5 hu ?_ ?_ ?_ ?_ ?_ ?_ ?_ ?_
    · rw [← ho]; rfl
    · rw [← ho]; rfl
    · rw [← ho]; rfl
    · rw [← ho]; exact b1.symm
    · rw [← ho]; exact (Prod.mk.inj hid).1.symm
    · rw [← ho]; exact (f3.trans hbare.method).trans h3.symm
    · rw [← ho]; exact (Prod.mk.inj hid).2.symm
    · rw [← ho]; exact f2
  have hoe : o.explicit = p.explicit := by rw [← ho]; exact f2
  have hdc := hN j (by omega)
  obtain ⟨r1, r2⟩ := forceable_open (N := M) h1 hkept hM
  refine ⟨.node c o none false, ?_, r1.mono (by omega), (fun h => by cases h), fun c' _ _ _ _ _ hc _ => (by cases hc; rfl)⟩
  rw [ops_build]
  refine buildStep_plain ?_
  simp only [buildPlain, h1, bind, Except.bind, hbare.explicit, buildTags_nil, b3, hdc, hoe]
  cases he : p.explicit with
  | cons e es => rfl
  | nil =>
    cases hd : p.default with
    | none => rfl
    | some d => exact absurd rfl (hg.harmless d _ _ _ _ _ hd h1 he).2.1

theorem fparses_list {E : Env} {U : ClassId → Prop} (hU : Types E U) {c : ClassId} {p : Params} {t u t' u' : TLV} {ps : List (PyVal × Bytes)} {proto : Obj Unit}
    {bad : List Nat} {isSet : Bool} {ch : Option ClassId} (h1 : E.cls c = .seqOf proto bad isSet ch)
    (h2 : Framed (proto.cls, proto.tag) p t u) (h3 : u.method = 1) (hg : Usable E U c p) {M : Nat} {cs0 : List Child}
    (hp : parseSeqOf ch (some u.contents) = .ok cs0) (hk : FKids E M (fun _ => {}) (fun _ => none) cs0 ps)
    (h4 : DerFramed (proto.cls, proto.tag) p t' u') (h5 : u'.method = 1)
    (hb : u'.contents = if isSet then ((ps.map Prod.snd).mergeSort bytesLe).flatten else (ps.map Prod.snd).flatten) :
    FParses E (some c) none p t (.list (ps.map Prod.fst)) t'.bytes := by
  obtain ⟨hbare, _⟩ := hU.seqOf _ _ _ _ _ hg.mem h1
  obtain ⟨N, hN⟩ := defaultCheck_ok hg
  refine ⟨max N (M + 1) + 1, fun i hi j hj => ?_⟩
  obtain ⟨j, rfl⟩ : ∃ k, j = k + 1 := ⟨j - 1, by omega⟩
  obtain ⟨h, tr, b1, b2, b3⟩ := buildObj_framed (k := false) (bad := bad) hbare.blank (goodParams hg.tags) h2 hi
  rw [if_pos h3] at b3
  have hno := nodeObj_framed (h := h) (c := u.contents) (tr := tr) hbare hg.tags
  generalize ho : framedObj (initTagging proto p.tags) h u.contents tr false = o at b3 hno
  have hcon : o.contents = some u.contents := by rw [← ho]; rfl
  have hid := h4.ident
  rw [show (if p.explicit = [] then p.implicit.getD (proto.cls, proto.tag) else (proto.cls, proto.tag)) = effTag (proto.cls, proto.tag) p from rfl] at hid
  refine ⟨.node c o none false, ?_, (forceable_list h1 hno hcon hp hk h4.inside (by rw [← hid]) h5 (by rw [← hid]) hb).mono (by omega), (fun h => by cases h),
    fun c' _ _ _ _ _ hc hs => ?_⟩
  · rw [ops_build]
    refine buildStep_plain ?_
    simp only [buildPlain, h1, bind, Except.bind, hbare.explicit, buildTags_nil, b3, hN j (by omega)]
  · cases hc
    rw [h1] at hs; cases hs

/-! ### Elements without a class -/

/-- The element `u`, with the explicit tags `es` around, can be loaded without a class, read, and encoded again by force. -/
def FreeForces (E : Env) (es : List (Nat × Nat)) (t u : TLV) (n : PyVal) (b : Bytes) : Prop :=
  Inside es t u → ∃ N, ∀ i : Info, i.tlv = u → ∃ v, buildFree E i = .ok v ∧ formOf v ≠ .void ∧ (es = [] → Forceable E N v n b) ∧
    ∀ i0 : Info, i0.tlv = t → es ≠ [] → Forceable E N (v.rewrap (fun h => i0.header ++ h) (fun tr => tr ++ i0.trailer) es.reverse) n b

theorem freeforces_build {E : Env} {t : TLV} {n : PyVal} {b : Bytes} (h : FreeForces E [] t t n b) : FParses E none none {} t n b := by
  obtain ⟨N, h⟩ := h .nil
  refine ⟨N + 1, fun i hi j hj => ?_⟩
  obtain ⟨j, rfl⟩ : ∃ k, j = k + 1 := ⟨j - 1, by omega⟩
  obtain ⟨v, h1, h2, h3, _⟩ := h i hi
  refine ⟨v, ?_, (h3 rfl).mono (by omega), h2, fun c' _ _ _ _ _ hc => (by cases hc)⟩
  rw [ops_build]
  simp only [buildStep, buildPlain, ne_eq, not_true_eq_false, if_false, h1, bind, Except.bind]

theorem freeforces_leaf {E : Env} {U : ClassId → Prop} (hU : Types E U) {es : List (Nat × Nat)} {c : ClassId} {t u t' u' : TLV} {s : Scalar} {proto : LeafSt}
    {bad : List Nat} (h1 : E.universal u.tag = some c) (h2 : E.cls c = .leaf proto bad) (hnn : ∀ o, proto ≠ .null o) (htag : proto.base.tag = u.tag) (hcls : u.cls = 0)
    (h3 : ReadsElement proto u s) (h4 : DerInside es t' u') (h5 : u'.cls = 0) (h6 : u'.method = 0) (h7 : u'.tag = u.tag) (h8 : Written proto s u'.contents s) :
    FreeForces E es t u (.scalar s) t'.bytes := by
  have hbare := hU.leaf _ _ _ (hU.universal _ _ h1) h2
  refine fun _ => ⟨1, fun i hi => ?_⟩
  subst hi
  have key : ∃ ind, (proto.base.indefinite || (i.method == 1 && proto.base.method == 0 && i.trailer == [0, 0] && proto.constructable)) = ind ∧
      i.method = (if ind then 1 else 0) ∧ Reads proto ind i.contents s ∧ (ind = true → proto.constructable = true) := by
    rw [hbare.indefinite, hbare.method]
    rcases h3 with ⟨m1, m2⟩ | ⟨m1, m2, m3, m4⟩
    · have m1 : i.method = 0 := m1
      exact ⟨false, by simp [m1], by simp [m1], m2, fun h => (by cases h)⟩
    · have m1 : i.method = 1 := m1
      have m2 : i.trailer = [0, 0] := m2
      exact ⟨true, by simp [m1, m2, m3], by simp [m1], m4, fun _ => m3⟩
  obtain ⟨ind, k1, k2, k3, k4⟩ := key
  have main : ∀ b : Obj Unit, b.cls = i.cls → b.tag = proto.base.tag → b.explicit = es.reverse → b.method = i.method → b.contents = some i.contents → b.indefinite = ind →
      Forceable E 1 (.leaf c (proto.map (Obj.over b))) (.scalar s) t'.bytes := by
    intro b hb1 hb2 hb3 hb4 hb5 hb6
    refine forceable_leaf E (leafFor_reads k3 b (hb4.trans k2) hb5 hb6 k4) hnn (u := u') ?_ ?_ h6 ?_ h8
    · rw [hb3, List.reverse_reverse]; exact h4
    · rw [hb1, h5]; exact hcls.symm
    · rw [hb2, htag, h7]
  have e1 : proto.buildFree i = proto.map (Obj.over { proto.base with
      cls := i.cls, method := i.method, indefinite := ind, header := some i.header, contents := some i.contents, trailer := i.trailer }) := by
    unfold LeafSt.buildFree
    apply LeafSt.map_congr
    intro ν o ho
    rw [← k1, ← ho]
    rfl
  refine ⟨.leaf c (proto.buildFree i), ?_, (fun h => by cases h), fun hes => ?_, fun i0 hi0 hes => ?_⟩
  · have h1 : E.universal i.tag = some c := h1
    simp only [buildFree, h1, h2]
  · rw [e1]
    subst hes
    exact main _ rfl rfl hbare.explicit rfl rfl rfl
  · rw [e1]
    simp only [Val.rewrap, LeafSt.map_map]
    exact main { cls := i.cls, method := i.method, tag := proto.base.tag, implicit := proto.base.implicit, explicit := es.reverse, header := some (i0.header ++ i.header), contents := some i.contents, trailer := i.trailer ++ i0.trailer, indefinite := ind } rfl rfl rfl rfl rfl rfl

/-- The bytes of an element in at most one explicit tag. -/
theorem inside_one {es : List (Nat × Nat)} {t u : TLV} (h : Inside es t u) (hl : es.length ≤ 1) (hes : es ≠ []) :
    t.header ++ u.header ++ u.contents ++ (u.trailer ++ t.trailer) = t.bytes := by
  cases h with
  | nil => exact absurd rfl hes
  | cons h1 h2 h3 h4 =>
    cases h4 with
    | nil => simp [TLV.bytes, h2]
    | cons _ _ _ _ => simp at hl

theorem freeforces_null {E : Env} {U : ClassId → Prop} (hU : Types E U) {es : List (Nat × Nat)} {c : ClassId} {t u t' : TLV} {o : Obj Unit} {bad : List Nat}
    (h1 : E.universal u.tag = some c) (h2 : E.cls c = .leaf (.null o) bad) (htag : o.tag = u.tag) (hu : Ber 11 u) (hm : u.method = 0)
    (hcon : u.contents = []) (hl : es.length ≤ 1) (hR : Reheaded es t u t') : FreeForces E es t u (.scalar .none) t'.bytes := by
  have hbare := hU.leaf _ _ _ (hU.universal _ _ h1) h2
  have hind : o.indefinite = false := hbare.indefinite
  have hexp : o.explicit = [] := hbare.explicit
  refine fun hins => ⟨1, fun i hi => ?_⟩
  subst hi
  have hm' : i.method = 0 := hm
  have hcon' : i.contents = [] := hcon
  rw [← List.reverse_reverse es] at hR
  refine ⟨.leaf c ((LeafSt.null o).buildFree i), ?_, (fun h => by cases h), fun hes => ?_, fun i0 hi0 hes => ?_⟩
  · have h1 : E.universal i.tag = some c := h1
    simp only [buildFree, h1, h2]
  · subst hes
    cases hins
    refine forceable_null E ?_
    have := kept_of (o := { o with cls := i.cls, method := i.method, indefinite := (o.indefinite || (i.method == 1 && o.method == 0 && i.trailer == [0, 0] && (LeafSt.null o).constructable)), header := some i.header, contents := some i.contents, trailer := i.trailer, native := none })
      (pre := []) hR hu rfl rfl (by simp [hind, hm']) rfl rfl rfl htag hexp
    rw [hcon] at this
    exact this
  · refine forceable_null E ?_
    have hb := inside_one hins hl hes
    rw [← hi0] at hb
    have := kept_of (o := { o with cls := i.cls, method := i.method, indefinite := (o.indefinite || (i.method == 1 && o.method == 0 && i.trailer == [0, 0] && (LeafSt.null o).constructable)), header := some (i0.header ++ i.header), contents := some i.contents, trailer := i.trailer ++ i0.trailer, explicit := es.reverse, native := none })
      (pre := i0.header) hR hu rfl rfl (by simp [hind, hm']) (by rw [← hi0]; exact hb) rfl rfl htag rfl
    rw [hcon] at this
    exact this

theorem freeforces_seq {E : Env} {U : ClassId → Prop} (hU : Types E U) {es : List (Nat × Nat)} {c : ClassId} {t u t' : TLV} {ps : List (PyVal × Bytes)} {proto : Obj Unit}
    {bad : List Nat} {oid : Option OidPair} (h1 : E.universal u.tag = some c) (h2 : E.cls c = .seq proto bad false [] oid) (htag : proto.tag = u.tag) (hu : Ber 11 u)
    (hl : es.length ≤ 1) (hR : Reheaded es t u t') {M : Nat}
    (hM : ∀ j ≥ M, ∃ cs, parseChildren E (ops E j) c (some u.contents) = .ok cs ∧ FKids E M (paramsAt []) (fun _ => none) cs ps) :
    FreeForces E es t u (.dict (named [] 0 (ps.map Prod.fst))) t'.bytes := by
  obtain ⟨hbare, _⟩ := hU.seq _ _ _ _ _ _ (hU.universal _ _ h1) h2
  refine fun hins => ⟨M + 1, fun i hi => ?_⟩
  subst hi
  rw [← List.reverse_reverse es] at hR
  refine ⟨.node c { proto with
        cls := i.cls, method := i.method, header := some i.header, contents := some i.contents, trailer := i.trailer } none false, ?_,
    (fun h => by cases h), fun hes => ?_, fun i0 hi0 hes => ?_⟩
  · have h1 : E.universal i.tag = some c := h1
    simp only [buildFree, h1, h2]
  · subst hes
    cases hins
    exact (forceable_open h2 (kept_of (o := { proto with cls := i.cls, method := i.method, header := some i.header, contents := some i.contents, trailer := i.trailer })
      (pre := []) hR hu rfl rfl hbare.indefinite rfl rfl rfl htag hbare.explicit) hM).1
  · have hb := inside_one hins hl hes
    rw [← hi0] at hb
    exact (forceable_open h2 (kept_of (o := { proto with cls := i.cls, method := i.method, header := some (i0.header ++ i.header), contents := some i.contents, trailer := i.trailer ++ i0.trailer, explicit := es.reverse })
      (pre := i0.header) hR hu rfl rfl hbare.indefinite (by rw [← hi0]; exact hb) rfl rfl htag rfl) hM).1

/-! ### Explicit tags around -/

theorem fparses_choice {E : Env} {U : ClassId → Prop} (hU : Types E U) {c : ClassId} {p : Params} {t u t' u' : TLV} {k : Nat} {n : PyVal} {alts : List Field} {f : Field}
    (h1 : E.cls c = .choice [] none alts) (h2 : Inside p.explicit.reverse t u) (h3 : alts[k]? = some f)
    (hm' : U f.spec) (h4 : Enc E U (some f.spec) none f.params u n) (h5 : u.trailer = []) (hg : Usable E U c p) (h6 : DerAround p.explicit.reverse t' u')
    (ih : Usable E U f.spec f.params → FParses E (some f.spec) none f.params u n u'.bytes) : FParses E (some c) none p t n t'.bytes := by
  obtain ⟨_, _, hdt, hal⟩ := hU.choice _ _ _ _ hg.mem h1
  obtain ⟨him, hdef⟩ := hg.untagged (by rw [h1]; exact fun h => h)
  have hm := List.mem_of_getElem? h3
  obtain ⟨hpt, hgf⟩ := hal f hm
  replace hgf := hgf hm'
  obtain ⟨N, hN⟩ := ih hgf
  have hce : choiceExplicit [] p = p.explicit := by
    unfold choiceExplicit
    rw [hg.tags.keep]; rfl
  have hfind := find_alt (fun g hm => (hal g hm).1) hdt h3 ((enc_begins hU hgf h4).2 hpt)
  have base : ∀ i : Info, i.tlv = u → ∀ j ≥ N, ∃ w, Forceable E N w n u'.bytes ∧ buildChoiceBase E (ops E j) c i = .ok (.choice c (choiceObj i) (some k) (some w)) := by
    intro i hi j hj
    obtain ⟨w, k1, k2, _⟩ := hN i hi j hj
    refine ⟨w, k2, ?_⟩
    subst hi
    have hv : choiceValidate E [] none alts i.cls i.tag i.contents = .ok k := by
      simp only [choiceValidate, List.getLast?_nil, bind, Except.bind]
      rw [show alts.zipIdx.reverse.find? (fun a => fieldIdent E a.1 == some (i.cls, i.tag)) = some (f, k) from hfind]
    have htr : i.trailer = [] := h5
    have hbytes : i.header ++ i.contents = i.tlv.bytes := by
      simp [TLV.bytes, Info.tlv, htr]
    have hpb : parseBuild (ops E j) (i.header ++ i.contents) (some f.spec) f.params = (ops E j).build i (some f.spec) f.params none := by
      unfold parseBuild
      rw [hbytes, parse_whole (enc_ber h4) false]
      rfl
    simp only [buildChoiceBase, h1, hv, bind, Except.bind, h3, hpb, k1, choiceObj]
  refine ⟨N + 1, fun i hi j hj => ?_⟩
  obtain ⟨j, rfl⟩ : ∃ k, j = k + 1 := ⟨j - 1, by omega⟩
  have key : ∃ o w, Forceable E N w n u'.bytes ∧ o.explicit = p.explicit ∧ buildChoice E (ops E j) c p.explicit i = .ok (.choice c o (some k) (some w)) := by
    cases he : p.explicit with
    | nil =>
      rw [he] at h2
      cases h2
      obtain ⟨w, k1, k2⟩ := base i hi j (by omega)
      exact ⟨_, w, k1, rfl, k2⟩
    | cons e es =>
      rw [he] at h2
      obtain ⟨i', h', t', j1, j2, _⟩ := explicitLoop_any h2 i [] [] hi
      obtain ⟨w, k1, k2⟩ := base i' j1 j (by omega)
      have : buildChoice E (ops E j) c (e :: es) i =
          .ok ((Val.choice c (choiceObj i') (some k) (some w)).rewrap (fun _ => i.header) (fun _ => i.trailer) (e :: es)) := by
        simp only [buildChoice, bind, Except.bind, j2, k2]
      rw [Val.rewrap] at this
      exact ⟨_, w, k1, rfl, this⟩
  obtain ⟨o, w, k1, k3, k2⟩ := key
  refine ⟨.choice c o (some k) (some w), ?_, forceable_choice (by rw [k3]; exact h6) k1, (fun h => by cases h), fun c' _ _ _ _ _ hc hs => ?_⟩
  · rw [ops_build]
    refine buildStep_plain ?_
    simp only [buildPlain, h1, hce, hdef, Option.isSome_none, Bool.false_eq_true, and_false, if_false, him, k2]
  · cases hc
    rw [h1] at hs; cases hs

theorem fparses_any {E : Env} {U : ClassId → Prop} {c : ClassId} {p : Params} {t u : TLV} {n : PyVal} {b : Bytes}
    (h1 : E.cls c = .any) (hb : Ber 11 t) (h2 : Inside p.explicit.reverse t u) (h3 : FreeForces E p.explicit.reverse t u n b) (hg : Usable E U c p) :
    FParses E (some c) none p t n b := by
  obtain ⟨him, hdef⟩ := hg.untagged (by rw [h1]; exact fun h => h)
  obtain ⟨N, hN⟩ := h3 h2
  have hce : choiceExplicit [] p = p.explicit := by
    unfold choiceExplicit
    rw [hg.tags.keep]; rfl
  refine ⟨N + 3, fun i hi j hj => ?_⟩
  obtain ⟨j, rfl⟩ : ∃ k, j = k + 1 := ⟨j - 1, by omega⟩
  -- the instance, and what reading it builds
  have key : ∃ o : Obj Unit, ∃ h cs v, buildPlain E (ops E j) i (some c) p = .ok (.any c o none none) ∧ o.header = some h ∧ o.contents = some cs ∧
      h ++ cs ++ o.trailer = t.bytes ∧ Forceable E N v n b ∧ ∀ j', (ops E (j' + 1)).build i none { explicit := o.explicit } none = .ok v := by
    cases he : p.explicit with
    | nil =>
      rw [he] at h2 hN
      cases h2
      obtain ⟨v, k1, k2, k3, k4⟩ := hN i hi
      refine ⟨{ cls := 0, method := 0, tag := 0, header := some i.header, contents := some i.contents, trailer := i.trailer }, i.header, i.contents, v, ?_, rfl, rfl, ?_,
        k3 rfl, fun j' => ?_⟩
      · simp only [buildPlain, h1, hce, he]
      · rw [← hi]; rfl
      · rw [ops_build]
        simp only [buildStep, buildPlain, ne_eq, not_true_eq_false, if_false, k1, bind, Except.bind]
    | cons e es =>
      rw [he] at h2 hN
      obtain ⟨i', pre, post, j1, j2, j3, _⟩ := explicitLoop_inside h2 i [] [] hi
      rw [List.append_nil, List.nil_append] at j2 j3
      obtain ⟨i'', h', t', l1, l2, l3⟩ := explicitLoop_any h2 i i.header i.trailer hi
      rw [j2] at l2
      cases l2
      obtain ⟨v, k1, k2, k3, k4⟩ := hN i' j1
      have k4 := k4 i hi (by simp)
      rw [List.reverse_reverse] at k4
      refine ⟨{ cls := 0, method := 0, tag := 0, header := some (pre ++ i'.header), contents := some i'.contents, trailer := i'.trailer ++ post, explicit := e :: es }, _, _,
        v.rewrap (fun h => i.header ++ h) (fun t => t ++ i.trailer) (e :: es), ?_, rfl, rfl, ?_, k4, fun j' => ?_⟩
      · simp only [buildPlain, h1, hce, he, hdef, Option.isSome_none, Bool.false_eq_true, if_false, bind, Except.bind, j2]
      · rw [← j3, ← j1]
        simp [TLV.bytes, Info.tlv]
      · rw [ops_build]
        simp only [buildStep, buildPlain, ne_eq, reduceCtorEq, not_false_eq_true, if_true, buildFreeExplicit, bind, Except.bind]
        rw [show (e :: es).reverse.foldlM (fun (j : Info) _ => parse j.contents) i = .ok i' from l3]
        simp only [k1]
  obtain ⟨o, h, cs, v, b1, b2, b3, b4, b5, b6⟩ := key
  have hpb : ∀ j', parseBuild (ops E (j' + 1)) (h ++ cs ++ o.trailer) none { explicit := o.explicit } = .ok v := by
    intro j'
    unfold parseBuild
    rw [b4, parse_whole hb false]
    rw [← hi]
    exact b6 j'
  refine ⟨.any c o none none, ?_, ?_, (fun h => by cases h), fun c' _ _ _ _ _ hc hs => ?_⟩
  · rw [ops_build]
    exact buildStep_plain b1
  · refine forceable_first rfl (fun j' hj' => ?_) (fun j' hj' => ?_)
    · obtain ⟨j', rfl⟩ : ∃ k, j' = k + 2 := ⟨j' - 2, by omega⟩
      obtain ⟨w, d1, d2, d3⟩ := (renewing_forceable E N).native b5 (j' + 1) (by omega)
      refine ⟨.any c { o with explicit := [], implicit := false, header := some [], contents := some (h ++ cs ++ o.trailer), trailer := [] } (some w) none, ?_,
        (forceable_any d2).mono (by omega), rfl⟩
      rw [ops_native]
      simp only [nativeStep, anyParse, b2, b3, hpb, bind, Except.bind, d1]
    · obtain ⟨j', rfl⟩ : ∃ k, j' = k + 2 := ⟨j' - 2, by omega⟩
      obtain ⟨w, d1, d2, d3⟩ := (renewing_forceable E N).force b5 (j' + 1) (by omega)
      refine ⟨.any c { o with explicit := [], implicit := false, header := some [], contents := some (h ++ cs ++ o.trailer), trailer := [] } (some w) none, ?_,
        (forceable_any d2).mono (by omega), rfl⟩
      rw [ops_dump]
      simp only [dumpStep, anyParse, b2, b3, hpb, bind, Except.bind, d1]
  · cases hc
    rw [h1] at hs; cases hs

/-! ### Strings -/

theorem fbuild_string {E : Env} {U : ClassId → Prop} (hU : Types E U) {c : ClassId} {p : Params} {t u : TLV} {b : List UInt8} {pr : Obj Bytes} {isBit : Bool}
    (h1 : E.cls c = .parsable pr isBit) (h2 : Framed (pr.cls, pr.tag) p t u) (h3 : u.method = 0) (h4 : u.contents = stringContents isBit b) (hg : Usable E U c p) :
    ∃ N, ∀ i : Info, i.tlv = t → ∃ o, (∀ j ≥ N, buildPlain E (ops E j) i (some c) p = .ok (.parsable c o none none)) ∧ o.contents = some (stringContents isBit b) ∧
      o.native = none ∧ StringObj (effTag (pr.cls, pr.tag) p).1 (effTag (pr.cls, pr.tag) p).2 p.explicit o := by
  have hbare := hU.parsable _ _ _ hg.mem h1
  obtain ⟨N, hN⟩ := defaultCheck_ok hg
  obtain ⟨f1, f2, f3, f4, f5, f6, f7⟩ := initTagging_fields pr p hg.tags.keep
  rw [hbare.explicit, List.nil_append] at f2
  refine ⟨N, fun i hi => ?_⟩
  obtain ⟨h, tr, b1, b2, b3⟩ := buildObj_framed (bad := []) (k := true) hbare.blank (goodParams hg.tags) h2 hi
  rw [if_pos h3] at b3
  refine ⟨framedObj (initTagging pr p.tags) h u.contents tr false, fun j hj => ?_, ?_, rfl, ?_, ?_, f2, f3.trans hbare.method, rfl, _, rfl⟩
  · simp only [buildPlain, h1, bind, Except.bind, hbare.explicit, buildTags_nil, b3, hN j hj]
  · show some u.contents = _
    rw [h4]
  · rw [← f1]; rfl
  · rw [← f1]; rfl

theorem fparses_string {E : Env} {U : ClassId → Prop} (hU : Types E U) {c : ClassId} {p : Params} {t u t' u' : TLV} {b : List UInt8} {pr : Obj Bytes} {isBit : Bool}
    (h1 : E.cls c = .parsable pr isBit) (h2 : Framed (pr.cls, pr.tag) p t u) (h3 : u.method = 0) (h4 : u.contents = stringContents isBit b)
    (h5 : DerFramed (pr.cls, pr.tag) p t' u') (h6 : u'.method = 0) (h7 : u'.contents = stringContents isBit b) (hg : Usable E U c p) :
    FParses E (some c) none p t (.scalar (.bytes b)) t'.bytes := by
  obtain ⟨N, hN⟩ := fbuild_string hU h1 h2 h3 h4 hg
  refine ⟨N + 1, fun i hi j hj => ?_⟩
  obtain ⟨j, rfl⟩ : ∃ k, j = k + 1 := ⟨j - 1, by omega⟩
  obtain ⟨o, k1, k2, k3, k4⟩ := hN i hi
  have hid := h5.ident
  rw [show (if p.explicit = [] then p.implicit.getD (pr.cls, pr.tag) else (pr.cls, pr.tag)) = effTag (pr.cls, pr.tag) p from rfl] at hid
  refine ⟨.parsable c o none none, ?_, ?_, (fun h => by cases h), fun c' _ _ _ _ _ hc hs => ?_⟩
  · rw [ops_build]
    exact buildStep_plain (k1 j (by omega))
  · exact (forceable_string h1 k4 k2 (.inl k3) h5.inside (by rw [← hid]) h6 (by rw [← hid]) h7).mono (by omega)
  · cases hc
    rw [h1] at hs; cases hs

theorem parsableBytes_string {isBit : Bool} {cp o : Obj Bytes} {b : Bytes} {cl tg : Nat} {es : List (Nat × Nat)} (ho : StringObj cl tg es o)
    (h1 : o.contents = some (stringContents isBit b)) (h3 : o.native = none) : ∃ o', parsableBytes isBit cp o = .ok (b, o') ∧ StringObj cl tg es o' := by
  unfold parsableBytes
  rw [h1]
  simp only [h3, ho.ind, mergeObj]
  rw [show mergeChunks (parsableChunk isBit) cp ((stringContents isBit b).length + 1) false (stringContents isBit b) = .ok b from by
    rw [mergeChunks]; exact parsableChunk_contents isBit false b]
  simp only [bind, Except.bind]
  exact ⟨_, rfl, ho.cls, ho.tag, ho.explicit, ho.method, rfl, _, rfl⟩

theorem fparses_payload {E : Env} {U : ClassId → Prop} (hU : Types E U) {c d : ClassId} {p : Params} {t u w t' u' : TLV} {n : PyVal} {b' : Bytes} {pr : Obj Bytes}
    {isBit : Bool}
    (h1 : E.cls c = .parsable pr isBit) (h2 : Framed (pr.cls, pr.tag) p t u) (h3 : u.method = 0) (h4 : u.contents = stringContents isBit w.bytes)
    (hb : Ber 11 w) (h5 : FParses E (some d) none {} w n b') (h6 : DerFramed (pr.cls, pr.tag) p t' u') (h7 : u'.method = 0)
    (h8 : u'.contents = stringContents isBit b') (hg : Usable E U c p) : FParses E (some c) (some d) p t n t'.bytes := by
  obtain ⟨N, hN⟩ := fbuild_string hU h1 h2 h3 h4 hg
  obtain ⟨M, hM⟩ := h5
  refine ⟨max N M + 1, fun i hi j hj => ?_⟩
  obtain ⟨j, rfl⟩ : ∃ k, j = k + 1 := ⟨j - 1, by omega⟩
  obtain ⟨o, k1, k2, k3, k4⟩ := hN i hi
  have hpp : parsableProto E c = (pr, isBit) := by simp only [parsableProto, h1]
  obtain ⟨o', l1, l2⟩ := parsableBytes_string (cp := pr) k4 k2 k3
  obtain ⟨i', hi'⟩ := info_tlv w
  obtain ⟨v, m1, m2, m3, _⟩ := hM i' hi' j (by omega)
  have hid := h6.ident
  rw [show (if p.explicit = [] then p.implicit.getD (pr.cls, pr.tag) else (pr.cls, pr.tag)) = effTag (pr.cls, pr.tag) p from rfl] at hid
  refine ⟨.parsable c o' (some v) (some d), ?_, (forceable_payload h1 l2 h6.inside (by rw [← hid]) h7 (by rw [← hid]) h8 m2).mono (by omega), (fun h => by cases h),
    fun c' _ _ _ _ _ hc hs => ?_⟩
  · rw [ops_build]
    have hpb : parseBuild (ops E j) w.bytes (some d) {} = .ok v := by
      unfold parseBuild
      rw [parse_whole hb false, ← hi']
      exact m1
    simp only [buildStep, k1 j (by omega), bind, Except.bind, parseAs, parsableParse, hpp, l1, hpb]
  · cases hc
    rw [h1] at hs; cases hs

/-! ### Lists of elements -/

/-- The elements of a list can be loaded, read and encoded again. -/
def FLists (E : Env) (ch : Option ClassId) (b : List UInt8) (ps : List (PyVal × Bytes)) : Prop :=
  ∃ N ts, Elements b ts ∧ ∀ is : List Info, is.map Info.tlv = ts → ∀ M ≥ N,
    FKids E M (fun _ => {}) (fun _ => none) (is.map (fun i => .lazy i ch none)) ps

theorem flists_nil {E : Env} {ch : Option ClassId} : FLists E ch [] [] := by
  refine ⟨0, [], ⟨rfl, by simp⟩, fun is his M hM => ?_⟩
  have : is = [] := List.map_eq_nil_iff.mp his
  subst this
  exact fkids_nil

theorem flists_cons {E : Env} {ch : Option ClassId} {t : TLV} {b : List UInt8} {n : PyVal} {nb : Bytes} {ps : List (PyVal × Bytes)} (hb : Ber 11 t)
    (h1 : FParses E ch none {} t n nb) (h2 : FLists E ch b ps) : FLists E ch (t.bytes ++ b) ((n, nb) :: ps) := by
  obtain ⟨N, hN⟩ := h1
  obtain ⟨M, ts, g1, g2⟩ := h2
  refine ⟨max N M, t :: ts, elements_cons hb g1, fun is his K hK => ?_⟩
  cases is with
  | nil => cases his
  | cons i is =>
    rw [List.map_cons] at his
    injection his with hi his
    have ih := g2 is his K (by omega)
    refine ⟨by simpa using ih.1, fun k c' n' b' h1 h2 => ?_⟩
    cases k with
    | zero =>
      cases h1; cases h2
      intro j hj
      obtain ⟨v, k1, k2, k3, _⟩ := hN i hi j (by omega)
      exact ⟨v, k1, k2.mono (by omega), k3, fun c hc => by cases hc⟩
    | succ k => exact ih.2 k c' n' b' h1 h2

theorem flists_seqOf {E : Env} {ch : Option ClassId} {b : List UInt8} {ps : List (PyVal × Bytes)} (h : FLists E ch b ps) :
    ∃ N cs, parseSeqOf ch (some b) = .ok cs ∧ FKids E N (fun _ => {}) (fun _ => none) cs ps := by
  obtain ⟨N, ts, h1, h2⟩ := h
  obtain ⟨is, his⟩ := infos_exist ts
  subst his
  exact ⟨N, _, (parseSeqOf_ok_iff _ _ _).mpr ⟨is, h1, rfl⟩, h2 is rfl N (Nat.le_refl N)⟩

theorem flists_open {E : Env} {c : ClassId} {proto : Obj Unit} {bad : List Nat} {oid : Option OidPair} (hE : E.cls c = .seq proto bad false [] oid)
    {b : List UInt8} {ps : List (PyVal × Bytes)} (h : FLists E none b ps) :
    ∃ N, ∀ j ≥ N, ∃ cs, parseChildren E (ops E j) c (some b) = .ok cs ∧ FKids E N (paramsAt []) (fun _ => none) cs ps := by
  obtain ⟨N, ts, h1, h2⟩ := h
  obtain ⟨is, his⟩ := infos_exist ts
  subst his
  have hpar : paramsAt [] = fun _ => {} := by
    funext k; simp [paramsAt]
  refine ⟨N, fun j hj => ⟨_, ?_, by rw [hpar]; exact h2 is rfl N (Nat.le_refl N)⟩⟩
  simp only [parseChildren, hE, parseSeq]
  rw [seqLoop_eq, elemLoop_elements _ b is (b.length + 1) 0 _ (by omega) (by omega) h1, place_open]
  simp only [bind, Except.bind, fillAbsent, List.nil_append]

/-! ### All types -/

/-- What is proved of encodings: with a class, and without. -/
def FLoads (E : Env) (U : ClassId → Prop) (spec nested : Option ClassId) (p : Params) (t : TLV) (n : PyVal) (b : Bytes) : Prop :=
  match spec with
  | some c => Usable E U c p → (∀ d, nested = some d → Usable E U d {}) → FParses E (some c) nested p t n b
  | none => FreeForces E [] t t n b

theorem fieldWrites_plain {E : Env} {f : Field} {b : Bytes} (h : f.params.default = none) : FieldWrites E 0 f b b := .inl ⟨h, rfl⟩

theorem fieldWrites_default {E : Env} {U : ClassId → Prop} (hU : Types E U) {f : Field} {s : Scalar} {t : TLV} (h : LeafDefault E f s t) (hg : Usable E U f.spec f.params)
    (b : Bytes) : FieldWrites E 1 f b (if t.bytes = b then [] else b) := by
  obtain ⟨hd, _⟩ := leafDefault_value h
  obtain ⟨st, k1, _, k3⟩ := leafDefault_made h (fun proto bad hc => hU.leaf _ _ _ hg.mem hc) hg.tags
  refine .inr ⟨hd, t.bytes, rfl, fun j hj => ?_⟩
  obtain ⟨w, hw⟩ := k3 j hj
  exact ⟨_, w, k1 j hj, hw⟩

theorem forced_loads {E : Env} {U : ClassId → Prop} (hU : Types E U) {spec nested : Option ClassId} {p : Params} {t t' : TLV} {n n' : PyVal}
    (h : Forced E U spec nested p t n t' n') : FLoads E U spec nested p t n t'.bytes := by
  refine Forced.rec (E := E) (U := U)
    (motive_1 := fun spec nested p t n t' n' _ => FLoads E U spec nested p t n t'.bytes)
    (motive_2 := fun es t u n t' _ => FreeForces E es t u n t'.bytes)
    (motive_3 := fun oid fs before _ b ns b' _ _ => FPlaces E U oid fs before b ns b')
    (motive_4 := fun ch b ns ps _ => ps.length = ns.length ∧ ((∀ d, ch = some d → Usable E U d {}) → FLists E ch b (ns.zip (ps.map (fun e => e.1.bytes)))))
    ?_ ?_ ?_ ?_ ?_ ?_ ?_ ?_ ?_ ?_ ?_ ?_ ?_ ?_ ?_ ?_ ?_ ?_ ?_ ?_ ?_ ?_ h
  · -- leaf
    intro c p t u t' u' s proto bad h1 h2 h3 h4 h5 h6 h7 hg _
    exact fparses_leaf hU h1 h2 h3 h4 h5 h6 h7 hg
  · -- null
    intro c p t u t' o bad h1 h2 h3 h4 h5 hg _
    exact fparses_null hU h1 h2 h3 h4 h5 hg
  · -- seq
    intro c p t u t' u' ns ns' proto bad fields oid h1 h2 h3 h4 h5 h6 h7 ih hg _
    obtain ⟨_, hus, hf, _⟩ := hU.seq _ _ _ _ _ _ hg.mem h1
    obtain ⟨hap, hoid⟩ := hf rfl
    obtain ⟨N, ps, k1, k2, k3, k4⟩ := parseSeq_fplaces ih hus hap hoid
    rw [← k1]
    refine fparses_seq hU h1 h2 h3 h4 hg k2 h6 h7 k3 (fun j hj => ?_)
    simp only [parseChildren, h1]
    exact k4 j hj
  · -- openSeq
    intro c p t u t' ns ps proto bad oid h1 h2 h3 h4 h5 ih hg _
    obtain ⟨hl, ih⟩ := ih
    obtain ⟨N, hN⟩ := flists_open h1 (ih (fun d h => by cases h))
    have := fparses_open hU h1 h2 h3 hg h5 hN
    rwa [List.map_fst_zip (by simp [hl])] at this
  · -- list
    intro c p t u t' u' ns ps proto bad ch h1 h2 h3 h4 h5 h6 h7 ih hg _
    obtain ⟨hl, ih⟩ := ih
    obtain ⟨_, hch⟩ := hU.seqOf _ _ _ _ _ hg.mem h1
    obtain ⟨N, cs, k1, k2⟩ := flists_seqOf (ih hch)
    have := fparses_list hU h1 h2 h3 hg k1 k2 h5 h6 (by
      rw [h7, List.map_snd_zip (by simp [hl])]
      simp [joined, List.map_map, Function.comp_def])
    rwa [List.map_fst_zip (by simp [hl])] at this
  · -- setOf
    intro c p t u t' u' ns ps qs proto bad ch h1 h2 h3 h4 ho h5 h6 h7 ih hg _
    obtain ⟨hl, ih⟩ := ih
    obtain ⟨_, hch⟩ := hU.seqOf _ _ _ _ _ hg.mem h1
    obtain ⟨N, cs, k1, k2⟩ := flists_seqOf (ih hch)
    have := fparses_list hU h1 h2 h3 hg k1 k2 h5 h6 (by
      rw [h7, List.map_snd_zip (by simp [hl]), sorted_joined ho, if_pos rfl, List.map_map]
      rfl)
    rwa [List.map_fst_zip (by simp [hl])] at this
  · -- choice
    intro c p t u t' u' k n n' alts f h1 h2 h3 h4 h5 h6 h7 h8 ih hg _
    exact fparses_choice hU h1 h3 h4 h5 (forced_enc h6).1 h7 hg h8 (fun hgf => ih hgf (fun d h => by cases h))
  · -- any
    intro c p t u t' n h1 h2 h3 h4 ih hg _
    exact fparses_any h1 h2 h3 ih hg
  · -- string
    intro c p t u t' u' b o isBit h1 h2 h3 h4 h5 h6 h7 hg _
    exact fparses_string hU h1 h2 h3 h4 h5 h6 h7 hg
  · -- payload
    intro c d p t u w t' u' w' n n' o isBit h1 h2 h3 h4 h5 h6 h7 h8 ih hg hn
    exact fparses_payload hU h1 h2 h3 h4 (enc_ber (forced_enc h5).1) (ih (hn d rfl) (fun d h => by cases h)) h6 h7 h8 hg
  · -- free
    intro t t' n h1 ih
    exact ih
  · -- free leaf
    intro es t u t' u' s c proto bad h1 h2 h3 h4 h5 h6 h7 h8 h9 h10 h11 h12
    exact freeforces_leaf hU h1 h2 h3 h4 h5 h7 h8 h9 h10 h11 h12
  · -- free null
    intro es t u t' c o bad h1 h2 h3 h4 h5 h6 h7 h8 h9
    exact freeforces_null hU h1 h2 h3 h5 h6 h7 h8 h9
  · -- free seq
    intro es t u t' ns ps c proto bad oid h1 h2 h3 h4 h5 h6 h7 h8 h9 ih
    obtain ⟨hl, ih⟩ := ih
    obtain ⟨N, hN⟩ := flists_open h2 (ih (fun d h => by cases h))
    have := freeforces_seq hU h1 h2 h3 h6 h8 h9 hN
    rwa [List.map_fst_zip (by simp [hl])] at this
  · -- fields
    intro oid before before'
    exact fplaces_nil
  · -- present
    intro oid f fs before before' pick t t' b b' n n' ns ns' h1 h2 h3 h4 h5 ih1 ih2
    exact fplaces_present hU h1 (forced_enc h3).1 ih1 (fun _ => ⟨0, fieldWrites_plain h4⟩) ih2
  · -- other
    intro oid f fs before before' t t' td b b' n n' m ns ns' h1 h2 h3 h4 h5 h6 ih1 ih2
    refine fplaces_present (pick := .same) hU h1 (forced_enc h3).1 ih1 (fun hg => ⟨1, ?_⟩) ih2
    have := fieldWrites_default hU h4 hg t'.bytes
    rwa [if_neg h5] at this
  · -- same
    intro oid f fs before before' t t' b b' s ns ns' h1 h2 h3 h4 ih1 ih2
    refine fplaces_present (x := []) (pick := .same) hU h1 (forced_enc h2).1 ih1 (fun hg => ⟨1, ?_⟩) ih2
    have := fieldWrites_default hU h3 hg t'.bytes
    rwa [if_pos rfl] at this
  · -- absent
    intro oid f fs before before' b b' ns ns' h1 h2 h3 ih
    exact fplaces_skip hU (by simp [Field.skippable, h1]) (.inl ⟨h1, h2, rfl⟩) ih
  · -- default
    intro oid f fs before before' t b b' s ns ns' h1 h2 ih
    exact fplaces_skip hU (by simp [Field.skippable, (leafDefault_value h1).1]) (.inr ⟨s, t, rfl, h1⟩) ih
  · -- lists
    intro ch
    exact ⟨rfl, fun _ => flists_nil⟩
  · intro ch t t' b n n' ns ps h1 h2 ih1 ih2
    obtain ⟨hl, ih2⟩ := ih2
    refine ⟨by simp [hl], fun hch => ?_⟩
    rw [List.map_cons, List.zip_cons_cons]
    refine flists_cons (enc_ber (forced_enc h1).1) ?_ (ih2 hch)
    cases ch with
    | none => exact freeforces_build ih1
    | some d => exact ih1 (hch d rfl) (fun d h => by cases h)

/-! ### Loading -/

theorem forced_load {E : Env} {U : ClassId → Prop} (hU : Types E U) {c : ClassId} {p : Params} {t t' : TLV} {n n' : PyVal} (ha : E.cls c ≠ .any)
    (hg : Usable E U c p) (h : Forced E U (some c) none p t n t' n') :
    ∃ N, ∀ j ≥ N, ∀ strict rest, (strict = true → rest = []) → ∃ v, loadVal E (ops E j) c p (t.bytes ++ rest) strict = .ok v ∧ Forceable E N v n t'.bytes := by
  obtain ⟨N, hN⟩ := forced_loads hU h hg (fun d h => by cases h)
  refine ⟨N, fun j hj strict rest hs => ?_⟩
  obtain ⟨i, hi, hp⟩ := parse_front (rest := rest) (enc_ber (forced_enc h).1) strict hs
  obtain ⟨v, k1, k2, _⟩ := hN i hi j hj
  refine ⟨v, ?_, k2⟩
  simp only [loadVal, hp, bind, Except.bind]
  cases hE : E.cls c with
  | any => exact absurd hE ha
  | _ => exact k1

theorem forced_load_free {E : Env} {U : ClassId → Prop} (hU : Types E U) {c : ClassId} {t t' : TLV} {n n' : PyVal} (ha : E.cls c = .any)
    (h : Forced E U none none {} t n t' n') :
    ∃ N, ∀ j ≥ N, ∀ strict rest, (strict = true → rest = []) → ∃ v, loadVal E (ops E j) c {} (t.bytes ++ rest) strict = .ok v ∧ Forceable E N v n t'.bytes := by
  obtain ⟨N, hN⟩ := freeforces_build (forced_loads hU h)
  refine ⟨N, fun j hj strict rest hs => ?_⟩
  obtain ⟨i, hi, hp⟩ := parse_front (rest := rest) (enc_ber (forced_enc h).1) strict hs
  obtain ⟨v, k1, k2, _⟩ := hN i hi j hj
  refine ⟨v, ?_, k2⟩
  simp only [loadVal, hp, bind, Except.bind, ha]
  exact k1

end Asn1
