import Verif.Lemmas.RepHist
import Verif.Spec.Depth

/-! # Encodings of a value can be loaded and read -/

namespace Asn1
open Spec Props

theorem set_init_ok {proto : LeafSt} {x s : Scalar} {tp : TagParams} (h : Holds proto x s) : ∃ st, (proto.init tp).set x = .ok st := by
  obtain ⟨st0, _, _, g1, _⟩ := h
  have hk : (proto.init tp).kind = proto.kind := LeafSt.kind_map _ _
  by_cases hnn : proto.notNull = true
  · obtain ⟨_, _, _, _, tr⟩ := LeafSt.set_spec hnn g1
    obtain ⟨st', t1, _⟩ := tr _ hk
    exact ⟨st', t1⟩
  · cases proto with
    | null o => exact ⟨_, rfl⟩
    | _ => exact absurd rfl hnn

/-- The value of a field that is left out. -/
theorem default_ok {E : Env} {U : ClassId → Prop} {r : Ops} (hU : Universe E U) {f : Field} {a : AVal} (hg : GoodUse E U f.spec f.params)
    (h : DefaultIs E f a) : ∃ proto bad st s, a = .prim s ∧ E.cls f.spec = .leaf proto bad ∧
      constructStep E r f.spec f.params (.scalar .none) = .ok (.leaf f.spec st) ∧ LeafRep false f.params proto st s := by
  obtain ⟨proto, bad, d, s, e1, e2, e3, rfl, e5⟩ := h
  obtain ⟨rfl, hpl⟩ := hU.leaf _ _ _ hg.mem e1
  obtain ⟨st, hst⟩ := set_init_ok (tp := f.params.tags) e5
  refine ⟨proto, _, st, s, rfl, e1, ?_, leafRep_construct (plainLeaf_good hpl) (goodParams hg.tags) e5 hst⟩
  simp only [constructStep, e1, e2, givenValue, bind, Except.bind, hst]

/-- An instance that has just been loaded. -/
inductive JustLoaded (E : Env) : ClassId → Params → Val → AVal → Prop
  | leaf {c : ClassId} {p : Params} {st proto : LeafSt} {bad : List Nat} {s : Scalar} :
      E.cls c = .leaf proto bad → LeafRep false p proto st s → JustLoaded E c p (.leaf c st) (.prim s)
  | seq {c : ClassId} {p : Params} {o proto : Obj Unit} {bad : List Nat} {fields : List Field} {as : List AVal} {data : Bytes} :
      E.cls c = .seq proto bad false fields none → o.contents = some data → FieldsDec E fields data as → JustLoaded E c p (.node c o none false) (.seq as)
  | list {c : ClassId} {p : Params} {o proto : Obj Unit} {bad : List Nat} {ch : ClassId} {as : List AVal} {data : Bytes} :
      E.cls c = .seqOf proto bad false (some ch) → o.contents = some data → ListDec E ch data as → JustLoaded E c p (.node c o none false) (.list as)
  | choice {c : ClassId} {p : Params} {o : Obj Unit} {alts : List Field} {k : Nat} {f : Field} {v : Val} {a : AVal} :
      E.cls c = .choice [] none alts → alts[k]? = some f → JustLoaded E f.spec f.params v a → JustLoaded E c p (.choice c o (some k) (some v)) (.alt k a)

theorem buildStep_plain {E : Env} {r : Ops} {i : Info} {c : ClassId} {p : Params} {v : Val} (h : buildPlain E r i (some c) p = .ok v) :
    buildStep E r i (some c) p none = .ok v := by
  simp only [buildStep, bind, Except.bind, h]

/-- Loading an element that encodes a value other than a CHOICE. -/
theorem build_base {E : Env} {U : ClassId → Prop} {r : Ops} (hU : Universe E U) {c : ClassId} {p : Params} {a : AVal}
    {i : Info} (hg : GoodUse E U c p) (hd : Dec E c p i.tlv a) (hc : ∀ e t alts, E.cls c ≠ .choice e t alts) :
    ∃ v, buildStep E r i (some c) p none = .ok v ∧ JustLoaded E c p v a := by
  cases hd with
  | @leaf _ _ _ u s proto bad h1 h2 h3 =>
    obtain ⟨rfl, hpl⟩ := hU.leaf _ _ _ hg.mem h1
    have hgl := plainLeaf_good hpl
    have h4 : defaultCheck E r c p [] = .ok () := by
      unfold defaultCheck
      split
      · next hcond =>
        obtain ⟨d, hd⟩ := Option.isSome_iff_exists.mp hcond.2.2
        obtain ⟨ho, proto', bad', x, s', g1, rfl, g3, g4⟩ := hg.default d hd
        have hdi : DefaultIs E ⟨"", c, p⟩ (.prim s') := ⟨proto', bad', x, s', g1, hd, g3, rfl, g4⟩
        obtain ⟨_, _, _, _, _, _, k, _⟩ := default_ok (f := ⟨"", c, p⟩) (r := r) hU hg hdi
        have k : constructStep E r c p (.scalar .none) = _ := k
        simp only [bind, Except.bind, k]
      · rfl
    have h5 : ∃ st, LeafSt.build [] (proto.init p.tags) i = .ok st := by
      rw [LeafSt.build_eq, LeafSt.base_init]
      obtain ⟨h, tr, b1, b2, b3⟩ := buildObj_framed (k := (proto.init p.tags).constructable) hgl.blank (goodParams hg.tags) h2 rfl
      have hk : (proto.init p.tags).constructable = proto.constructable := by cases proto <;> rfl
      rw [b3]
      rcases h3 with ⟨m1, m2⟩ | ⟨m1, m2, m3, m4⟩
      · rw [if_pos m1]
        exact ⟨_, rfl⟩
      · rw [if_neg (by rw [m1]; decide), if_pos ⟨m1, rfl, m2, hk.trans m3⟩]
        exact ⟨_, rfl⟩
    obtain ⟨st, h5⟩ := h5
    refine ⟨.leaf c st, buildStep_plain ?_, .leaf h1 (leafRep_build hgl (goodParams hg.tags) h2 h3 rfl (fun h => by cases h) h5)⟩
    simp only [buildPlain, h1, bind, Except.bind, hgl.blank.explicit, buildTags_nil, h4, h5]
  | @seq _ _ _ u as proto bad fields h1 h2 h3 h4 =>
    obtain ⟨rfl, _, _, hpn, _⟩ := hU.seq _ _ _ _ _ _ hg.mem h1
    have hbl := plainNode_blank hpn
    have hdef := default_leaf hg (by rw [h1]; intro _ _ h; cases h)
    obtain ⟨h, tr, k1, k2, k3⟩ := buildObj_framed (k := false) (bad := []) hbl (goodParams hg.tags) h2 rfl
    rw [if_pos h3] at k3
    have hdc : defaultCheck E r c p [] = .ok () := by
      unfold defaultCheck
      rw [if_neg]
      rw [hdef]
      exact fun h => by cases h.2.2
    refine ⟨_, buildStep_plain (v := .node c (framedObj (initTagging proto p.tags) h u.contents tr false) none false) ?_, .seq h1 rfl h4⟩
    simp only [buildPlain, h1, bind, Except.bind, hbl.explicit, buildTags_nil, k3, hdef, hdc]
    cases (framedObj (initTagging proto p.tags) h u.contents tr false).explicit <;> rfl
  | @seqOf _ _ _ u as proto bad ch h1 h2 h3 h4 =>
    obtain ⟨rfl, _, hpn, _⟩ := hU.seqOf _ _ _ _ _ hg.mem h1
    have hbl := plainNode_blank hpn
    have hdef := default_leaf hg (by rw [h1]; intro _ _ h; cases h)
    obtain ⟨h, tr, k1, k2, k3⟩ := buildObj_framed (k := false) (bad := []) hbl (goodParams hg.tags) h2 rfl
    rw [if_pos h3] at k3
    have hdc : defaultCheck E r c p [] = .ok () := by
      unfold defaultCheck
      rw [if_neg]
      rw [hdef]
      exact fun h => by cases h.2.2
    refine ⟨_, buildStep_plain (v := .node c (framedObj (initTagging proto p.tags) h u.contents tr false) none false) ?_, .list h1 rfl h4⟩
    simp only [buildPlain, h1, bind, Except.bind, hbl.explicit, buildTags_nil, k3, hdc]
  | choice h1 => exact absurd h1 (hc _ _ _)

/-- Loading an element that encodes a value takes at most two levels. -/
theorem build_total {E : Env} {U : ClassId → Prop} (hU : Universe E U) {c : ClassId} {p : Params} {a : AVal}
    {i : Info} {n : Nat} (hg : GoodUse E U c p) (hd : Dec E c p i.tlv a) (hn : 2 ≤ n) :
    ∃ v, (ops E n).build i (some c) p none = .ok v ∧ JustLoaded E c p v a := by
  obtain ⟨n, rfl⟩ : ∃ k, n = k + 2 := ⟨n - 2, by omega⟩
  by_cases hc : ∀ e t alts, E.cls c ≠ .choice e t alts
  · exact build_base hU hg hd hc
  · cases hd with
    | leaf h1 => exact absurd (fun _ _ _ h => by rw [h1] at h; cases h) hc
    | seq h1 => exact absurd (fun _ _ _ h => by rw [h1] at h; cases h) hc
    | seqOf h1 => exact absurd (fun _ _ _ h => by rw [h1] at h; cases h) hc
    | @choice _ _ _ k a alts f h1 h2 h3 h4 h5 =>
      obtain ⟨_, _, hdt, hal⟩ := hU.choice _ _ _ _ hg.mem h1
      obtain ⟨he, him⟩ := hg.choice _ _ _ h1
      have hce : choiceExplicit [] p = [] := by
        unfold choiceExplicit
        rw [he, hg.tags.keep]; rfl
      obtain ⟨hgf, _, hpt⟩ := hal f (List.mem_of_getElem? h3)
      have hfind := find_alt (fun g hm => (hal g hm).2.2) hdt h3 (dec_outer hU hgf h4)
      have hv : choiceValidate E [] none alts i.cls i.tag i.contents = .ok k := by
        simp only [choiceValidate, List.getLast?_nil, bind, Except.bind]
        rw [show alts.zipIdx.reverse.find? (fun a => fieldIdent E a.1 == some (i.cls, i.tag)) = some (f, k) from hfind]
      have htr : i.trailer = [] := h5
      have hbytes : i.header ++ i.contents = i.tlv.bytes := by
        simp [TLV.bytes, Info.tlv, htr]
      have hpb : parseBuild (ops E (n + 1)) (i.header ++ i.contents) (some f.spec) f.params = (ops E (n + 1)).build i (some f.spec) f.params none := by
        unfold parseBuild
        rw [hbytes, parse_whole (dec_ber h4) false]
        rfl
      have hnc : ∀ e t alts, E.cls f.spec ≠ .choice e t alts := by
        intro e t alts hh
        rcases hpt.2 with g | g
        · exact g (hgf.choice _ _ _ hh).1
        · rw [hh] at g; exact g.1
      obtain ⟨w, k1, k2⟩ := build_base (r := ops E n) hU hgf h4 hnc
      have k1 : (ops E (n + 1)).build i (some f.spec) f.params none = .ok w := k1
      refine ⟨_, buildStep_plain (v := .choice c { cls := 0, method := 0, tag := 0, header := some [], contents := some (i.header ++ i.contents), trailer := i.trailer } (some k) (some w)) ?_, .choice h1 h3 k2⟩
      simp only [buildPlain, h1, hce, ne_eq, not_true_eq_false, false_and, if_false, him, Option.isSome_none, Bool.false_eq_true, buildChoice,
        buildChoiceBase, hv, bind, Except.bind, h3, hpb, k1]

/-! ### The children of what has been loaded -/

/-- Children that have just been parsed. -/
inductive FreshRep (E : Env) : List Field → List Child → List AVal → Prop
  | nil : FreshRep E [] [] []
  | lazy {f : Field} {fs : List Field} {i : Info} {cs : List Child} {a : AVal} {as : List AVal} :
      Dec E f.spec f.params i.tlv a → FreshRep E fs cs as → FreshRep E (f :: fs) (.lazy i (some f.spec) none :: cs) (a :: as)
  | dflt {f : Field} {fs : List Field} {st proto : LeafSt} {s : Scalar} {cs : List Child} {as : List AVal} :
      LeafRep false f.params proto st s → FreshRep E fs cs as → FreshRep E (f :: fs) (.val (.leaf f.spec st) :: cs) (.prim s :: as)
  | void {f : Field} {fs : List Field} {cs : List Child} {as : List AVal} : FreshRep E fs cs as → FreshRep E (f :: fs) (.val .void :: cs) (.absent :: as)

theorem place_ok {E : Env} {U : ClassId → Prop} {r : Ops} (hU : Universe E U)
    (hr : ∀ c p x, r.construct c p x = constructStep E r c p x ∨ ∃ r', r.construct c p x = constructStep E r' c p x) (all : List Field) :
    ∀ (fs : List Field) (b : Bytes) (as : List AVal), (∀ f ∈ fs, GoodUse E U f.spec f.params) → Distinguishable E fs → FieldsDec E fs b as →
    ∃ is : List Info, Elements b (is.map Info.tlv) ∧ (∀ i is', is = i :: is' → NextTag E fs (i.cls, i.tag)) ∧
      ∃ cs, FreshRep E fs cs as ∧
      ∀ cs0, (is.foldlM (fun s i => placeElement E r all none i s.1 s.2) (fs, cs0)).bind (fun s => fillAbsent r s.1 s.2) = .ok (cs0 ++ cs)
  | [], b, as, _, _, h => by
    cases h
    refine ⟨[], ⟨rfl, by simp⟩, fun i is' h => (by cases h), [], .nil, fun cs0 => ?_⟩
    rw [List.foldlM_nil, List.append_nil]
    rfl
  | f :: fs, b, as, hg, hd, h => by
    have hgf := hg f (by simp)
    have hgs : ∀ f ∈ fs, GoodUse E U f.spec f.params := fun g hm => hg g (by simp [hm])
    -- a field that is left out
    have skip : ∀ (a : AVal) (as' : List AVal) (ch : Child), Field.skippable f = true → FieldsDec E fs b as' → skipChild r f = .ok ch →
        (∀ cs, FreshRep E fs cs as' → FreshRep E (f :: fs) (ch :: cs) (a :: as')) →
        ∃ is : List Info, Elements b (is.map Info.tlv) ∧ (∀ i is', is = i :: is' → NextTag E (f :: fs) (i.cls, i.tag)) ∧
          ∃ cs, FreshRep E (f :: fs) cs (a :: as') ∧
          ∀ cs0, (is.foldlM (fun s i => placeElement E r all none i s.1 s.2) (f :: fs, cs0)).bind (fun s => fillAbsent r s.1 s.2) = .ok (cs0 ++ cs) := by
      intro a as' ch hs hfd hch hmk
      obtain ⟨is, h1, h2, cs, h3, h4⟩ := place_ok hU hr all fs b as' hgs hd.2 hfd
      refine ⟨is, h1, fun i is' h => .inr ⟨hs, h2 i is' h⟩, ch :: cs, hmk cs h3, fun cs0 => ?_⟩
      have h4 := h4 (cs0 ++ [ch])
      rw [List.append_assoc] at h4
      rw [show cs0 ++ ch :: cs = cs0 ++ ([ch] ++ cs) from rfl, ← h4]
      have hdo : f.params.default.isSome = true → f.params.optional = false := by
        intro h
        obtain ⟨d, hd⟩ := Option.isSome_iff_exists.mp h
        exact (hgf.default d hd).1
      unfold skipChild at hch
      cases is with
      | nil =>
        simp only [List.foldlM_nil, pure, Except.pure, Except.bind]
        rw [fillAbsent]
        by_cases hdf : f.params.default.isSome = true
        · rw [if_pos hdf] at hch ⊢
          cases hc : r.construct f.spec f.params (.scalar .none) with
          | error e => rw [hc] at hch; cases hch
          | ok d => rw [hc] at hch; cases hch; rfl
        · rw [if_neg hdf] at hch ⊢
          have : f.params.optional = true := by
            have hs := hs
            simp only [Field.skippable, Bool.or_eq_true] at hs
            exact hs.resolve_right hdf
          rw [if_pos this]
          cases hch; rfl
      | cons i is' =>
        have hn := h2 i is' rfl
        have hno : ¬ OuterTag E f.spec f.params (i.cls, i.tag) := fun ho => hd.1 hs _ ho hn
        have ha := (fieldAbsent_spec hU hgf i).2 hno hs
        rw [List.foldlM_cons, List.foldlM_cons]
        rw [placeElement]
        simp only [oidOverride, ha, bind, Except.bind]
        by_cases hdf : f.params.default.isSome = true
        · rw [if_pos hdf] at hch
          simp only [hdo hdf, Bool.false_eq_true, if_false]
          cases hc : r.construct f.spec f.params (.scalar .none) with
          | error e => rw [hc] at hch; cases hch
          | ok d => rw [hc] at hch; cases hch; rfl
        · rw [if_neg hdf] at hch
          have : f.params.optional = true := by
            have hs := hs
            simp only [Field.skippable, Bool.or_eq_true] at hs
            exact hs.resolve_right hdf
          simp only [this, if_true]
          cases hch; rfl
    cases h with
    | @present _ _ t b a as' h1 h2 =>
      obtain ⟨is, g1, g2, cs, g3, g4⟩ := place_ok hU hr all fs b as' hgs hd.2 h2
      obtain ⟨i, rfl⟩ := info_tlv t
      have ho : OuterTag E f.spec f.params (i.cls, i.tag) := dec_outer hU hgf h1
      refine ⟨i :: is, elements_cons (dec_ber h1) g1, ?_, .lazy i (some f.spec) none :: cs, .lazy h1 g3, fun cs0 => ?_⟩
      · intro j is' hj
        cases hj
        exact .inl ho
      · rw [List.foldlM_cons, placeElement]
        simp only [oidOverride, (fieldAbsent_spec hU hgf i).1 ho, bind, Except.bind]
        simp only [Bool.false_eq_true, if_false]
        have := g4 (cs0 ++ [.lazy i (some f.spec) none])
        rw [List.append_assoc] at this
        exact this
    | @absent _ _ _ as' h1 h2 =>
      have hdf : f.params.default = none := by
        cases hx : f.params.default with
        | none => rfl
        | some d => rw [(hgf.default d hx).1] at h1; cases h1
      refine skip .absent as' (.val .void) (by simp [Field.skippable, h1]) h2 ?_ (fun cs k => .void k)
      rw [skipChild, hdf]
      rfl
    | @default _ _ _ a as' h1 h2 =>
      have hdf : f.params.default.isSome = true := by
        obtain ⟨_, _, d, _, _, h, _⟩ := h1
        rw [h]; rfl
      have : ∃ proto st s, a = .prim s ∧ r.construct f.spec f.params (.scalar .none) = .ok (.leaf f.spec st) ∧ LeafRep false f.params proto st s := by
        rcases hr f.spec f.params (.scalar .none) with hr | ⟨r', hr⟩
        · obtain ⟨proto, _, st, s, k1, _, k2, k3⟩ := default_ok (r := r) hU hgf h1
          exact ⟨proto, st, s, k1, hr.trans k2, k3⟩
        · obtain ⟨proto, _, st, s, k1, _, k2, k3⟩ := default_ok (r := r') hU hgf h1
          exact ⟨proto, st, s, k1, hr.trans k2, k3⟩
      obtain ⟨proto, st, s, rfl, k2, k3⟩ := this
      refine skip _ as' (.val (.leaf f.spec st)) (by simp [Field.skippable, hdf]) h2 ?_ (fun cs k => .dflt k3 k)
      rw [skipChild, if_pos hdf, k2]
      rfl

theorem parseSeq_ok {E : Env} {U : ClassId → Prop} (hU : Universe E U) {n : Nat} {fs : List Field} {b : Bytes} {as : List AVal}
    (hg : ∀ f ∈ fs, GoodUse E U f.spec f.params) (hd : Distinguishable E fs) (h : FieldsDec E fs b as) :
    ∃ cs, parseSeq E (ops E (n + 1)) fs none (some b) = .ok cs ∧ FreshRep E fs cs as := by
  obtain ⟨is, h1, _, cs, h3, h4⟩ := place_ok (r := ops E (n + 1)) hU (fun c p x => .inr ⟨ops E n, rfl⟩) fs fs b as hg hd h
  refine ⟨cs, ?_, h3⟩
  have := h4 []
  rw [← elemLoop_elements _ b is (b.length + 1) 0 _ (by omega) (by omega) h1, ← seqLoop_eq] at this
  exact this

theorem parseSeqOf_ok {E : Env} {ch : ClassId} {b : Bytes} {as : List AVal} (h : ListDec E ch b as) :
    ∃ is : List Info, parseSeqOf (some ch) (some b) = .ok (is.map (fun i => .lazy i (some ch) none)) ∧
      ListRep E ch (is.map (fun i => .lazy i (some ch) none)) as := by
  obtain ⟨is, g1, g2⟩ := listDec_elements h
  exact ⟨is, (parseSeqOf_ok_iff _ _ _).mpr ⟨is, g1, rfl⟩, g2⟩

/-! ### Reading -/

theorem depths_mem {a : AVal} : ∀ {as : List AVal}, a ∈ as → a.depth ≤ AVal.depths as
  | [], h => by cases h
  | b :: as, h => by
    rw [AVal.depths]
    rcases List.mem_cons.mp h with rfl | h
    · omega
    · have := depths_mem h
      omega

theorem nativeFields_ok {E : Env} {r : Ops} (all : List Field) : ∀ (fs pre : List Field) (cs : List Child) (as : List AVal), all = pre ++ fs →
    FreshRep E fs cs as → (∀ f ∈ fs, ∀ a ∈ as, ∀ i : Info, Dec E f.spec f.params i.tlv a →
      ∃ v y, r.build i (some f.spec) f.params none = .ok v ∧ r.native v = .ok y) →
    (∀ (c : ClassId) (q : Bool) (p : Params) (proto st : LeafSt) (s : Scalar), LeafRep q p proto st s → ∃ y, r.native (.leaf c st) = .ok y) →
    (∃ y, r.native .void = .ok y) → ∃ y, nativeFields r all pre.length cs = .ok y
  | [], pre, cs, as, _, h, _, _, _ => by
    cases h
    exact ⟨_, rfl⟩
  | f :: fs, pre, cs, as, ha, h, hl, hf, hv => by
    have hidx : all[pre.length]? = some f := by rw [ha]; simp
    have hpar : paramsAt all pre.length = f.params := by simp [paramsAt, hidx]
    have key : ∃ ch cs1 a as1, cs = ch :: cs1 ∧ as = a :: as1 ∧ FreshRep E fs cs1 as1 ∧ ∃ v y, buildChild r f.params ch = .ok v ∧ r.native v = .ok y := by
      cases h with
      | @lazy _ _ i cs a as h1 h2 =>
        obtain ⟨v, y, k1, k2⟩ := hl f (by simp) a (by simp) i h1
        exact ⟨_, _, _, _, rfl, rfl, h2, v, y, k1, k2⟩
      | @dflt _ _ st proto s cs as h1 h2 =>
        obtain ⟨y, k⟩ := hf f.spec _ _ _ _ _ h1
        exact ⟨_, _, _, _, rfl, rfl, h2, _, y, rfl, k⟩
      | void h2 =>
        obtain ⟨y, k⟩ := hv
        exact ⟨_, _, _, _, rfl, rfl, h2, _, y, rfl, k⟩
    obtain ⟨ch, cs1, a, as1, rfl, rfl, h2, v, ⟨n, w⟩, k1, k2⟩ := key
    obtain ⟨⟨ns, cs2⟩, k3⟩ := nativeFields_ok all fs (pre ++ [f]) cs1 as1 (by rw [ha]; simp) h2
      (fun g hm b hb => hl g (by simp [hm]) b (by simp [hb])) hf hv
    rw [List.length_append, List.length_singleton] at k3
    refine ⟨((((all[pre.length]?).map Field.name).getD (toString pre.length), n) :: ns, .val w :: cs2), ?_⟩
    simp only [nativeFields, hpar, bind, Except.bind, k1, k2, k3]

theorem nativeElements_ok {E : Env} {r : Ops} {ch : ClassId} : ∀ (is : List Info) (as : List AVal),
    ListRep E ch (is.map (fun i => .lazy i (some ch) none)) as → (∀ a ∈ as, ∀ i : Info, Dec E ch {} i.tlv a →
      ∃ v y, r.build i (some ch) {} none = .ok v ∧ r.native v = .ok y) →
    ∃ y, nativeElements r (is.map (fun i => .lazy i (some ch) none)) = .ok y
  | [], as, h, _ => ⟨_, rfl⟩
  | i :: is, as, h, hl => by
    have : ∃ a as1, as = a :: as1 ∧ Dec E ch {} i.tlv a ∧ ListRep E ch (is.map (fun i => .lazy i (some ch) none)) as1 := by
      cases h with
      | lazy h1 h2 => exact ⟨_, _, rfl, h1, h2⟩
    obtain ⟨a, as1, rfl, h1, h2⟩ := this
    obtain ⟨v, ⟨n, w⟩, k1, k2⟩ := hl a (by simp) i h1
    obtain ⟨⟨ns, cs⟩, k3⟩ := nativeElements_ok is as1 h2 (fun b hb => hl b (by simp [hb]))
    have k1' : buildChild r {} (.lazy i (some ch) none) = .ok v := k1
    refine ⟨(n :: ns, .val w :: cs), ?_⟩
    simp only [List.map_cons, nativeElements, bind, Except.bind, k1', k2, k3]

theorem leaf_native_ok {E : Env} {r : Ops} {c : ClassId} {q : Bool} {p : Params} {proto st : LeafSt} {s : Scalar} (h : LeafRep q p proto st s) :
    ∃ y, nativeStep E r (.leaf c st) = .ok y := by
  obtain ⟨st', h1, _⟩ := h.native
  exact ⟨(.scalar s, .leaf c st'), by simp only [nativeStep, bind, Except.bind, h1]⟩

/-- Reading what has been loaded. -/
theorem native_total {E : Env} {U : ClassId → Prop} (hU : Universe E U) : ∀ (N : Nat) {a : AVal} {c : ClassId} {p : Params} {v : Val} {n : Nat},
    a.depth ≤ N → GoodUse E U c p → JustLoaded E c p v a → N + 3 ≤ n → ∃ y, (ops E n).native v = .ok y
  | N, a, c, p, v, n, hN, hg, hv, hn => by
    obtain ⟨n, rfl⟩ : ∃ k, n = k + 1 := ⟨n - 1, by omega⟩
    -- the children
    have kid : ∀ {b : AVal} {d : ClassId} {p' : Params} {i : Info}, b.depth < N → GoodUse E U d p' → Dec E d p' i.tlv b →
        ∃ v y, (ops E n).build i (some d) p' none = .ok v ∧ (ops E n).native v = .ok y := by
      intro b d p' i hb hgd hdec
      obtain ⟨w, k1, k2⟩ := build_total (n := n) hU hgd hdec (by omega)
      obtain ⟨M, rfl⟩ : ∃ M, N = M + 1 := ⟨N - 1, by omega⟩
      obtain ⟨y, k3⟩ := native_total hU M (by omega) hgd k2 (show M + 3 ≤ n by omega)
      exact ⟨w, y, k1, k3⟩
    have hnpos : ∃ k, n = k + 1 := ⟨n - 1, by omega⟩
    show ∃ y, nativeStep E (ops E n) v = .ok y
    cases hv with
    | leaf h1 h2 => exact leaf_native_ok h2
    | @seq _ _ o proto bad fields as data h1 h2 h3 =>
      obtain ⟨_, _, _, _, _, hdist, hfs⟩ := hU.seq _ _ _ _ _ _ hg.mem h1
      rw [AVal.depth] at hN
      obtain ⟨k, rfl⟩ := hnpos
      obtain ⟨cs, k1, k2⟩ := parseSeq_ok (n := k) hU hfs hdist h3
      obtain ⟨⟨ns, cs'⟩, k3⟩ := nativeFields_ok (r := ops E (k + 1)) fields fields [] cs as rfl k2
        (fun f hf b hb i hdec => kid (by have := depths_mem hb; omega) (hfs f hf) hdec)
        (fun c q p proto st s hl => leaf_native_ok (E := E) (r := ops E k) hl) ⟨_, rfl⟩
      have k3 : nativeFields (ops E (k + 1)) fields 0 cs = .ok (ns, cs') := k3
      refine ⟨(.dict ns, .node c o (some cs') false), ?_⟩
      simp only [nativeStep, nodeNative, nodeContents, bind, Except.bind, h2, ensureChildren, parseChildren, h1, k1, k3]
    | @list _ _ o proto bad ch as data h1 h2 h3 =>
      obtain ⟨_, _, _, d, hd, hUd⟩ := hU.seqOf _ _ _ _ _ hg.mem h1
      cases hd
      rw [AVal.depth] at hN
      obtain ⟨is, k1, k2⟩ := parseSeqOf_ok h3
      obtain ⟨⟨ns, cs'⟩, k3⟩ := nativeElements_ok (r := ops E n) is as k2
        (fun b hb i hdec => kid (by have := depths_mem hb; omega) (goodUse_plain hUd) hdec)
      refine ⟨(.list ns, .node c o (some cs') false), ?_⟩
      simp only [nativeStep, nodeNative, nodeContents, bind, Except.bind, h2, ensureChildren, parseChildren, h1, k1, k3]
    | @choice _ _ o alts k f w b h1 h3 h4 =>
      obtain ⟨_, _, _, hal⟩ := hU.choice _ _ _ _ hg.mem h1
      obtain ⟨hgf, _, _⟩ := hal f (List.mem_of_getElem? h3)
      rw [AVal.depth] at hN
      obtain ⟨M, rfl⟩ : ∃ M, N = M + 1 := ⟨N - 1, by omega⟩
      obtain ⟨⟨x, w'⟩, k1⟩ := native_total hU M (by omega) hgf h4 (show M + 3 ≤ n by omega)
      exact ⟨(x, .choice c o (some k) (some w')), by simp only [nativeStep, choiceParse, bind, Except.bind, k1]⟩

/-- An encoding of a value can be loaded, and then read. -/
theorem load_total {E : Env} {U : ClassId → Prop} (hU : Universe E U) {c : ClassId} {p : Params} {t : TLV} {a : AVal} {n : Nat} {strict : Bool}
    (hg : GoodUse E U c p) (hd : Dec E c p t a) (hn : a.depth + 3 ≤ n) :
    ∃ w w', loadVal E (ops E n) c p t.bytes strict = .ok w ∧ JustLoaded E c p w a ∧ (ops E n).native w = .ok (a.native E c, w') := by
  obtain ⟨i, rfl⟩ := info_tlv t
  obtain ⟨w, k1, k2⟩ := build_total (n := n) hU hg hd (by omega)
  obtain ⟨⟨x, w'⟩, k3⟩ := native_total hU _ (Nat.le_refl _) hg k2 hn
  have k4 := ((sim_ops hU n).native hg ((sim_ops hU n).build (q := false) hg hd (fun h => by cases h) k1) k3).1
  refine ⟨w, w', ?_, k2, by rw [← k4]; exact k3⟩
  unfold loadVal
  rw [parse_whole (dec_ber hd)]
  simp only [bind, Except.bind]
  cases hcl : E.cls c with
  | any => exact absurd hcl (hU.any _ hg.mem)
  | _ => exact k1

end Asn1
