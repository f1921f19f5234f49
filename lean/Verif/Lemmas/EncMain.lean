import Verif.Lemmas.EncSeq
import Verif.Props.C21
import Verif.Lemmas.Parsable

/-! # Encodings of all kinds of types can be loaded and read -/

namespace Asn1
open Spec Props

/-! ### Primitive types -/

theorem readable_reads {E : Env} {c : ClassId} {proto : LeafSt} {ind : Bool} {data : Bytes} {s : Scalar} (hr : Reads proto ind data s) (b : Obj Unit)
    (hm : b.method = if ind then 1 else 0) (hc : b.contents = some data) (hi : b.indefinite = ind) :
    Readable E 1 (.leaf c (proto.map (Obj.over b))) (.scalar s) := by
  obtain ⟨st', h1, h2⟩ := reads_native hr b hm hc hi
  exact readable_leaf E h1 h2

/-- The throw-away instance with the default value can be made. -/
theorem defaultCheck_ok {E : Env} {U : ClassId → Prop} {c : ClassId} {p : Params} (hg : Usable E U c p) :
    ∃ N, ∀ j ≥ N, ∀ es, defaultCheck E (ops E j) c p es = .ok () := by
  by_cases hd : p.default.isSome = true
  · obtain ⟨n, N, v, w, h, _⟩ := hg.default hd
    refine ⟨N, fun j hj es => ?_⟩
    have : constructStep E (ops E j) c p (.scalar .none) = .ok v := h (j + 1) (by omega)
    unfold defaultCheck
    split
    · simp only [this, bind, Except.bind]
    · rfl
  · refine ⟨0, fun j _ es => ?_⟩
    unfold defaultCheck
    rw [if_neg (fun h => hd h.2.2)]

theorem ops_build (E : Env) (j : Nat) (i : Info) (spec nested : Option ClassId) (p : Params) :
    (ops E (j + 1)).build i spec p nested = buildStep E (ops E j) i spec p nested := rfl

theorem parses_leaf {E : Env} {U : ClassId → Prop} (hU : Types E U) {c : ClassId} {p : Params} {t u : TLV} {s : Scalar} {proto : LeafSt} {bad : List Nat}
    (h1 : E.cls c = .leaf proto bad) (h2 : Framed (proto.base.cls, proto.base.tag) p t u) (h3 : ReadsElement proto u s) (hg : Usable E U c p) :
    Parses E (some c) none p t (.scalar s) := by
  have hbare := hU.leaf _ _ _ hg.mem h1
  obtain ⟨N, hN⟩ := defaultCheck_ok hg
  refine ⟨N + 1, fun i hi j hj => ?_⟩
  obtain ⟨j, rfl⟩ : ∃ k, j = k + 1 := ⟨j - 1, by omega⟩
  obtain ⟨h, tr, b1, b2, b3⟩ := buildObj_framed (bad := bad) (k := (proto.init p.tags).constructable) hbare.blank (goodParams hg.tags) h2 hi
  have hk : (proto.init p.tags).constructable = proto.constructable := by cases proto <;> rfl
  have key : ∃ b : Obj Unit, ∃ ind, buildObj (proto.init p.tags).constructable bad (proto.init p.tags).base i = .ok b ∧ b.contents = some u.contents ∧
      b.indefinite = ind ∧ b.method = (if ind then 1 else 0) ∧ Reads proto ind u.contents s := by
    rw [LeafSt.base_init, b3]
    have hmeth := (initTagging_fields proto.base p hg.tags.keep).2.2.1
    rcases h3 with ⟨m1, m2⟩ | ⟨m1, m2, m3, m4⟩
    · rw [if_pos m1]
      exact ⟨_, false, rfl, rfl, rfl, by simp [framedObj, hmeth, hbare.method], m2⟩
    · rw [if_neg (by rw [m1]; decide), if_pos ⟨m1, rfl, m2, hk.trans m3⟩]
      exact ⟨_, true, rfl, rfl, rfl, rfl, m4⟩
  obtain ⟨b, ind, k1, k2, k3, k4, k5⟩ := key
  refine ⟨.leaf c (proto.map (Obj.over b)), ?_, (readable_reads k5 b k4 k2 k3).mono (by omega), (fun h => by cases h), fun c' _ _ _ _ _ hc hs => ?_⟩
  · rw [ops_build]
    refine buildStep_plain ?_
    have : LeafSt.build bad (proto.init p.tags) i = .ok (proto.map (Obj.over b)) := by
      rw [LeafSt.build_eq, k1]
      simp only [Except.map, LeafSt.init, LeafSt.map_map]
      rfl
    simp only [buildPlain, h1, bind, Except.bind, hbare.explicit, buildTags_nil, hN j (by omega), this]
  · cases hc
    rw [h1] at hs; cases hs

/-! ### Containers -/

theorem setFromDict_skip {E : Env} {r : Ops} {d : List (String × PyVal)} {v : Val} : ∀ (fs : List Field) (idx : Nat),
    (∀ k f, fs[k]? = some f → fieldPresent v (idx + k) = true ∨ d.find? (fun e => e.1 == f.name) = none) →
    setFromDict E r d true fs idx v = .ok v
  | [], _, _ => rfl
  | f :: fs, idx, h => by
    have ih := setFromDict_skip (E := E) (r := r) (d := d) (v := v) fs (idx + 1) (fun k g hk => by
      have := h (k + 1) g hk
      rwa [show idx + (k + 1) = idx + 1 + k by omega] at this)
    rw [setFromDict]
    rcases h 0 f rfl with h0 | h0
    · rw [Nat.add_zero] at h0
      simp only [h0, Bool.true_and, if_true]
      exact ih
    · split
      · exact ih
      · rw [h0]
        exact ih

/-- A container with fields. -/
theorem parses_seq {E : Env} {U : ClassId → Prop} (hU : Types E U) {c : ClassId} {p : Params} {t u : TLV} {ns : List PyVal} {proto : Obj Unit}
    {bad : List Nat} {isSet : Bool} {fields : List Field} {oid : Option OidPair} (h1 : E.cls c = .seq proto bad isSet fields oid)
    (h2 : Framed (proto.cls, proto.tag) p t u) (h3 : u.method = 1) (hg : Usable E U c p) (hlen : fields ≠ [] → ns.length = fields.length)
    (hp : ∃ N, ∀ j ≥ N, ∃ cs, parseChildren E (ops E j) c (some u.contents) = .ok cs ∧ KidList E N (QuietFields E fields) fields (fun _ => none) cs ns) :
    Parses E (some c) none p t (.dict (named fields 0 ns)) := by
  obtain ⟨hbare, _⟩ := hU.seq _ _ _ _ _ _ hg.mem h1
  obtain ⟨N, hN⟩ := defaultCheck_ok hg
  obtain ⟨M, hM⟩ := hp
  refine ⟨max N (M + 1) + 1, fun i hi j hj => ?_⟩
  obtain ⟨j, rfl⟩ : ∃ k, j = k + 1 := ⟨j - 1, by omega⟩
  obtain ⟨h, tr, b1, b2, b3⟩ := buildObj_framed (k := false) (bad := bad) hbare.blank (goodParams hg.tags) h2 hi
  rw [if_pos h3] at b3
  generalize ho : framedObj (initTagging proto p.tags) h u.contents tr false = o at b3
  have hcon : o.contents = some u.contents := by rw [← ho]; rfl
  have hoe : o.explicit = p.explicit := by
    rw [← ho]
    show (initTagging proto p.tags).explicit = _
    rw [(initTagging_fields proto p hg.tags.keep).2.1, hbare.explicit]; rfl
  obtain ⟨r1, r2⟩ := readable_seq (o := o) (N := M) h1 hcon hM
  have hdc := hN j (by omega)
  have hform : ∀ cs, formOf (.node c o cs false) ≠ .void ∧ ∀ c' proto bad isSet fields oid, some c = some c' → E.cls c' = .seq proto bad isSet fields oid →
      formOf (.node c o cs false) = .node c' := by
    intro cs
    exact ⟨fun h => (by cases h), fun c' _ _ _ _ _ hc _ => (by cases hc; rfl)⟩
  by_cases hdf : p.explicit = [] ∧ p.default.isSome = true
  · obtain ⟨he, hd⟩ := hdf
    obtain ⟨d, hd⟩ := Option.isSome_iff_exists.mp hd
    obtain ⟨hq, hne, kvs, rfl, hk1, hk2⟩ := hg.harmless d _ _ _ _ _ hd h1 he
    obtain ⟨cs, c1, c2⟩ := hM j (by omega)
    refine ⟨.node c o (some cs) false, ?_, (r2 cs (c2.forget (fun _ => hq))).mono (by omega), hform _⟩
    rw [ops_build]
    refine buildStep_plain ?_
    simp only [buildPlain, h1, bind, Except.bind, hbare.explicit, buildTags_nil, b3, hdc, hoe, he, hd]
    simp only [defaultFill, ensureChildren, hcon, c1, bind, Except.bind, seqInit]
    rw [setFromDict_skip]
    · simp only
      rw [if_pos]
      rw [List.all_eq_true]
      intro kv hkv
      obtain ⟨f, hf, hn⟩ := hk1 kv hkv
      rw [List.any_eq_true]
      exact ⟨f, hf, by simp [hn]⟩
    · intro k f hf
      rw [Nat.zero_add]
      have hklt : k < fields.length := by
        rcases Nat.lt_or_ge k fields.length with h | h
        · exact h
        · rw [List.getElem?_eq_none h] at hf; cases hf
      obtain ⟨ch, hch⟩ : ∃ ch, cs[k]? = some ch := ⟨_, List.getElem?_eq_getElem (h := by rw [c2.1, hlen hne]; exact hklt)⟩
      obtain ⟨n, hn⟩ : ∃ n, ns[k]? = some n := ⟨_, List.getElem?_eq_getElem (h := by rw [hlen hne]; exact hklt)⟩
      have hkid := c2.2 k ch n hch hn
      by_cases hv : ch = .val .void
      · right
        subst hv
        have hpar : paramsAt fields k = f.params := by simp [paramsAt, hf]
        have := hkid.2.2.1 rfl
        rw [hpar] at this
        rw [List.find?_eq_none]
        intro kv hkv
        simp only [beq_iff_eq]
        intro hname
        obtain ⟨g1, g2⟩ := hk2 kv hkv f (List.mem_of_getElem? hf) hname.symm
        rcases this with h | h
        · rw [g1] at h; cases h
        · rw [g2] at h; cases h
      · left
        simp only [fieldPresent, hch]
  · refine ⟨.node c o none false, ?_, r1.mono (by omega), hform _⟩
    rw [ops_build]
    refine buildStep_plain ?_
    simp only [buildPlain, h1, bind, Except.bind, hbare.explicit, buildTags_nil, b3, hdc, hoe]
    cases he : p.explicit with
    | cons e es => rfl
    | nil =>
      cases hd : p.default with
      | none => rfl
      | some d => exact absurd ⟨he, by rw [hd]; rfl⟩ hdf

/-- A list. -/
theorem parses_list {E : Env} {U : ClassId → Prop} (hU : Types E U) {c : ClassId} {p : Params} {t u : TLV} {ns : List PyVal} {proto : Obj Unit}
    {bad : List Nat} {isSet : Bool} {ch : Option ClassId} (h1 : E.cls c = .seqOf proto bad isSet ch)
    (h2 : Framed (proto.cls, proto.tag) p t u) (h3 : u.method = 1) (hg : Usable E U c p) {M : Nat} {cs0 : List Child}
    (hp : parseSeqOf ch (some u.contents) = .ok cs0) (hk : KidList E M True [] (fun _ => none) cs0 ns) :
    Parses E (some c) none p t (.list ns) := by
  obtain ⟨hbare, _⟩ := hU.seqOf _ _ _ _ _ hg.mem h1
  obtain ⟨N, hN⟩ := defaultCheck_ok hg
  refine ⟨max N (M + 1) + 1, fun i hi j hj => ?_⟩
  obtain ⟨j, rfl⟩ : ∃ k, j = k + 1 := ⟨j - 1, by omega⟩
  obtain ⟨h, tr, b1, b2, b3⟩ := buildObj_framed (k := false) (bad := bad) hbare.blank (goodParams hg.tags) h2 hi
  rw [if_pos h3] at b3
  generalize ho : framedObj (initTagging proto p.tags) h u.contents tr false = o at b3
  have hcon : o.contents = some u.contents := by rw [← ho]; rfl
  refine ⟨.node c o none false, ?_, (readable_list h1 hcon hp hk).mono (by omega), (fun h => by cases h), fun c' _ _ _ _ _ hc hs => ?_⟩
  · rw [ops_build]
    refine buildStep_plain ?_
    simp only [buildPlain, h1, bind, Except.bind, hbare.explicit, buildTags_nil, b3, hN j (by omega)]
  · cases hc
    rw [h1] at hs; cases hs

/-! ### Elements without a class -/

/-- The element can be loaded without a class, and read. -/
def FreeParses (E : Env) (t : TLV) (n : PyVal) : Prop :=
  ∃ N, ∀ i : Info, i.tlv = t → ∃ v, buildFree E i = .ok v ∧ formOf v ≠ .void ∧ Readable E N v n ∧
    ∀ h tr es, Readable E N (v.rewrap h tr es) n

theorem free_build {E : Env} {t : TLV} {n : PyVal} (h : FreeParses E t n) : Parses E none none {} t n := by
  obtain ⟨N, h⟩ := h
  refine ⟨N + 1, fun i hi j hj => ?_⟩
  obtain ⟨j, rfl⟩ : ∃ k, j = k + 1 := ⟨j - 1, by omega⟩
  obtain ⟨v, h1, h2, h3, _⟩ := h i hi
  refine ⟨v, ?_, h3.mono (by omega), h2, fun c' _ _ _ _ _ hc => (by cases hc)⟩
  rw [ops_build]
  simp only [buildStep, buildPlain, ne_eq, not_true_eq_false, if_false, h1, bind, Except.bind]

theorem free_leaf {E : Env} {U : ClassId → Prop} (hU : Types E U) {c : ClassId} {t : TLV} {s : Scalar} {proto : LeafSt} {bad : List Nat}
    (h1 : E.universal t.tag = some c) (h2 : E.cls c = .leaf proto bad) (h3 : ReadsElement proto t s) : FreeParses E t (.scalar s) := by
  have hbare := hU.leaf _ _ _ (hU.universal _ _ h1) h2
  refine ⟨1, fun i hi => ?_⟩
  subst hi
  have key : ∃ ind, (proto.base.indefinite || (i.method == 1 && proto.base.method == 0 && i.trailer == [0, 0] && proto.constructable)) = ind ∧
      i.method = (if ind then 1 else 0) ∧ Reads proto ind i.contents s := by
    rw [hbare.indefinite, hbare.method]
    rcases h3 with ⟨m1, m2⟩ | ⟨m1, m2, m3, m4⟩
    · have m1 : i.method = 0 := m1
      exact ⟨false, by simp [m1], by simp [m1], m2⟩
    · have m1 : i.method = 1 := m1
      have m2 : i.trailer = [0, 0] := m2
      exact ⟨true, by simp [m1, m2, m3], by simp [m1], m4⟩
  obtain ⟨ind, k1, k2, k3⟩ := key
  have main : ∀ b : Obj Unit, b.method = i.method → b.contents = some i.contents → b.indefinite = ind →
      Readable E 1 (.leaf c (proto.map (Obj.over b))) (.scalar s) := fun b hb1 hb2 hb3 => readable_reads k3 b (hb1.trans k2) hb2 hb3
  have e1 : proto.buildFree i = proto.map (Obj.over { proto.base with
      cls := i.cls, method := i.method, indefinite := ind, header := some i.header, contents := some i.contents, trailer := i.trailer }) := by
    unfold LeafSt.buildFree
    apply LeafSt.map_congr
    intro ν o ho
    rw [← k1, ← ho]
    rfl
  refine ⟨.leaf c (proto.buildFree i), ?_, (fun h => by cases h), ?_, fun h tr es => ?_⟩
  · have h1 : E.universal i.tag = some c := h1
    simp only [buildFree, h1, h2]
  · rw [e1]
    exact main _ rfl rfl rfl
  · rw [e1]
    simp only [Val.rewrap, LeafSt.map_map]
    exact main { cls := i.cls, method := i.method, tag := proto.base.tag, implicit := proto.base.implicit, explicit := es, header := some (h i.header), contents := some i.contents, trailer := tr i.trailer, indefinite := ind } rfl rfl rfl

theorem free_seq {E : Env} {c : ClassId} {t : TLV} {ns : List PyVal} {proto : Obj Unit} {bad : List Nat} {oid : Option OidPair}
    (h1 : E.universal t.tag = some c) (h2 : E.cls c = .seq proto bad false [] oid)
    (hp : ∃ N, ∀ j ≥ N, ∃ cs, parseChildren E (ops E j) c (some t.contents) = .ok cs ∧ KidList E N (QuietFields E []) [] (fun _ => none) cs ns) :
    FreeParses E t (.dict (named [] 0 ns)) := by
  obtain ⟨M, hM⟩ := hp
  refine ⟨M + 1, fun i hi => ?_⟩
  subst hi
  refine ⟨.node c { proto with
        cls := i.cls, method := i.method, header := some i.header, contents := some i.contents, trailer := i.trailer } none false, ?_,
    (fun h => by cases h), (readable_seq h2 rfl hM).1, fun h tr es => ?_⟩
  · have h1 : E.universal i.tag = some c := h1
    simp only [buildFree, h1, h2]
  · exact (readable_seq h2 rfl hM).1

/-! ### Explicit tags around -/

theorem explicitLoop_any {es : List (Nat × Nat)} {t u : TLV} (h : Inside es t u) : ∀ (i : Info) (h0 t0 : Bytes), i.tlv = t →
    ∃ (j : Info) (h' t' : Bytes), j.tlv = u ∧ explicitLoop es i h0 t0 = .ok (j, h', t') ∧ es.foldlM (fun (j : Info) _ => parse j.contents) i = .ok j := by
  induction h with
  | nil =>
    intro i h0 t0 hi
    exact ⟨i, h0, t0, hi, rfl, rfl⟩
  | @cons es v v' w h1 h2 h3 h4 ih =>
    intro i h0 t0 hi
    subst hi
    have hp : parse i.contents = .ok ⟨v'.cls, v'.method, v'.tag, v'.header, v'.contents, v'.trailer⟩ :=
      (parse_ok_iff _ _).mpr ⟨[], by rw [List.append_nil]; exact h2, h3⟩
    obtain ⟨j, h', t', j1, j2, j3⟩ := ih ⟨v'.cls, v'.method, v'.tag, v'.header, v'.contents, v'.trailer⟩ (h0 ++ v'.header) (v'.trailer ++ t0) rfl
    refine ⟨j, h', t', j1, ?_, ?_⟩
    · simp only [explicitLoop, Info.tlv, ne_eq, not_true_eq_false, if_false]
      have h1' : i.method = 1 := h1
      simp only [h1', not_true_eq_false, if_false, hp, bind, Except.bind]
      exact j2
    · rw [List.foldlM_cons]
      simp only [hp, bind, Except.bind]
      exact j3

/-- The object of a CHOICE around an element. -/
def choiceObj (i : Info) : Obj Unit :=
  { cls := 0, method := 0, tag := 0, header := some [], contents := some (i.header ++ i.contents), trailer := i.trailer }

theorem parses_choice {E : Env} {U : ClassId → Prop} (hU : Types E U) {c : ClassId} {p : Params} {t u : TLV} {k : Nat} {n : PyVal} {alts : List Field} {f : Field}
    (h1 : E.cls c = .choice [] none alts) (h2 : Inside p.explicit.reverse t u) (h3 : alts[k]? = some f)
    (hm' : U f.spec) (h4 : Enc E U (some f.spec) none f.params u n) (h5 : u.trailer = []) (hg : Usable E U c p)
    (ih : Usable E U f.spec f.params → Parses E (some f.spec) none f.params u n) : Parses E (some c) none p t n := by
  obtain ⟨_, _, hdt, hal⟩ := hU.choice _ _ _ _ hg.mem h1
  obtain ⟨him, hdef⟩ := hg.untagged (by rw [h1]; exact fun h => h)
  have hm := List.mem_of_getElem? h3
  obtain ⟨hpt, hgf⟩ := hal f hm
  replace hgf := hgf hm'
  obtain ⟨N, hN⟩ := ih hgf
  have hce : choiceExplicit [] p = p.explicit := by
    unfold choiceExplicit
    rw [hg.tags.keep]; rfl
  have hfind := find_alt (fun g hm => (hal g hm).1) hdt h3 ((enc_begins hU hgf h4).2 hpt)
  have base : ∀ i : Info, i.tlv = u → ∀ j ≥ N, ∃ w, Readable E N w n ∧ buildChoiceBase E (ops E j) c i = .ok (.choice c (choiceObj i) (some k) (some w)) := by
    intro i hi j hj
    obtain ⟨w, k1, k2, _⟩ := hN i hi j hj
    refine ⟨w, k2, ?_⟩
    subst hi
    have hv : choiceValidate E [] none alts i.cls i.tag i.contents = .ok k := by
      simp only [choiceValidate, List.getLast?_nil, bind, Except.bind]
      rw [show alts.zipIdx.reverse.find? (fun a => fieldIdent E a.1 == some (i.cls, i.tag)) = some (f, k) from hfind]
    have htr : i.trailer = [] := h5
    have hbytes : i.header ++ i.contents = i.tlv.bytes := by
      simp [TLV.bytes, Info.tlv, htr]
    have hpb : parseBuild (ops E j) (i.header ++ i.contents) (some f.spec) f.params = (ops E j).build i (some f.spec) f.params none := by
      unfold parseBuild
      rw [hbytes, parse_whole (enc_ber h4) false]
      rfl
    simp only [buildChoiceBase, h1, hv, bind, Except.bind, h3, hpb, k1, choiceObj]
  refine ⟨N + 1, fun i hi j hj => ?_⟩
  obtain ⟨j, rfl⟩ : ∃ k, j = k + 1 := ⟨j - 1, by omega⟩
  have key : ∃ o w, Readable E N w n ∧ buildChoice E (ops E j) c p.explicit i = .ok (.choice c o (some k) (some w)) := by
    cases he : p.explicit with
    | nil =>
      rw [he] at h2
      cases h2
      obtain ⟨w, k1, k2⟩ := base i hi j (by omega)
      exact ⟨_, w, k1, k2⟩
    | cons e es =>
      rw [he] at h2
      obtain ⟨i', h', t', j1, j2, _⟩ := explicitLoop_any h2 i [] [] hi
      obtain ⟨w, k1, k2⟩ := base i' j1 j (by omega)
      have : buildChoice E (ops E j) c (e :: es) i =
          .ok ((Val.choice c (choiceObj i') (some k) (some w)).rewrap (fun _ => i.header) (fun _ => i.trailer) (e :: es)) := by
        simp only [buildChoice, bind, Except.bind, j2, k2]
      rw [Val.rewrap] at this
      exact ⟨_, w, k1, this⟩
  obtain ⟨o, w, k1, k2⟩ := key
  refine ⟨.choice c o (some k) (some w), ?_, (readable_choice k1).mono (by omega), (fun h => by cases h), fun c' _ _ _ _ _ hc hs => ?_⟩
  · rw [ops_build]
    refine buildStep_plain ?_
    simp only [buildPlain, h1, hce, hdef, Option.isSome_none, Bool.false_eq_true, and_false, if_false, him, k2]
  · cases hc
    rw [h1] at hs; cases hs

theorem parses_any {E : Env} {U : ClassId → Prop} {c : ClassId} {p : Params} {t u : TLV} {n : PyVal}
    (h1 : E.cls c = .any) (hb : Ber 11 t) (h2 : Inside p.explicit.reverse t u) (h3 : FreeParses E u n) (hg : Usable E U c p) : Parses E (some c) none p t n := by
  obtain ⟨him, hdef⟩ := hg.untagged (by rw [h1]; exact fun h => h)
  obtain ⟨N, hN⟩ := h3
  have hce : choiceExplicit [] p = p.explicit := by
    unfold choiceExplicit
    rw [hg.tags.keep]; rfl
  refine ⟨N + 3, fun i hi j hj => ?_⟩
  obtain ⟨j, rfl⟩ : ∃ k, j = k + 1 := ⟨j - 1, by omega⟩
  -- the instance, and what reading it builds
  have key : ∃ o : Obj Unit, ∃ h cs v, buildPlain E (ops E j) i (some c) p = .ok (.any c o none none) ∧ o.header = some h ∧ o.contents = some cs ∧
      h ++ cs ++ o.trailer = t.bytes ∧ Readable E N v n ∧ ∀ j', (ops E (j' + 1)).build i none { explicit := o.explicit } none = .ok v := by
    cases he : p.explicit with
    | nil =>
      rw [he] at h2
      cases h2
      obtain ⟨v, k1, k2, k3, k4⟩ := hN i hi
      refine ⟨{ cls := 0, method := 0, tag := 0, header := some i.header, contents := some i.contents, trailer := i.trailer }, i.header, i.contents, v, ?_, rfl, rfl, ?_,
        k3, fun j' => ?_⟩
      · simp only [buildPlain, h1, hce, he]
      · rw [← hi]; rfl
      · rw [ops_build]
        simp only [buildStep, buildPlain, ne_eq, not_true_eq_false, if_false, k1, bind, Except.bind]
    | cons e es =>
      rw [he] at h2
      obtain ⟨i', pre, post, j1, j2, j3, _⟩ := explicitLoop_inside h2 i [] [] hi
      rw [List.append_nil, List.nil_append] at j2 j3
      obtain ⟨i'', h', t', l1, l2, l3⟩ := explicitLoop_any h2 i i.header i.trailer hi
      rw [j2] at l2
      cases l2
      obtain ⟨v, k1, k2, k3, k4⟩ := hN i' j1
      refine ⟨{ cls := 0, method := 0, tag := 0, header := some (pre ++ i'.header), contents := some i'.contents, trailer := i'.trailer ++ post, explicit := e :: es }, _, _,
        v.rewrap (fun h => i.header ++ h) (fun t => t ++ i.trailer) (e :: es), ?_, rfl, rfl, ?_, k4 _ _ _, fun j' => ?_⟩
      · simp only [buildPlain, h1, hce, he, hdef, Option.isSome_none, Bool.false_eq_true, if_false, bind, Except.bind, j2]
      · rw [← j3, ← j1]
        simp [TLV.bytes, Info.tlv]
      · rw [ops_build]
        simp only [buildStep, buildPlain, ne_eq, reduceCtorEq, not_false_eq_true, if_true, buildFreeExplicit, bind, Except.bind]
        rw [show (e :: es).reverse.foldlM (fun (j : Info) _ => parse j.contents) i = .ok i' from l3]
        simp only [k1]
  obtain ⟨o, h, cs, v, b1, b2, b3, b4, b5, b6⟩ := key
  refine ⟨.any c o none none, ?_, ?_, (fun h => by cases h), fun c' _ _ _ _ _ hc hs => ?_⟩
  · rw [ops_build]
    exact buildStep_plain b1
  · refine readable_first rfl (fun j' hj' => ?_)
    obtain ⟨j', rfl⟩ : ∃ k, j' = k + 2 := ⟨j' - 2, by omega⟩
    obtain ⟨w, d1, d2, d3⟩ := (closed_readable E N).native b5 (j' + 1) (by omega)
    refine ⟨.any c { o with explicit := [], implicit := false, header := some [], contents := some (h ++ cs ++ o.trailer), trailer := [] } (some w) none, ?_,
      (readable_any d2).mono (by omega), rfl⟩
    rw [ops_native]
    have hpb : parseBuild (ops E (j' + 1)) (h ++ cs ++ o.trailer) none { explicit := o.explicit } = .ok v := by
      unfold parseBuild
      rw [b4, parse_whole hb false]
      rw [← hi]
      exact b6 j'
    simp only [nativeStep, anyParse, b2, b3, hpb, bind, Except.bind, d1]
  · cases hc
    rw [h1] at hs; cases hs

/-! ### Strings -/

theorem parsableBytes_plain {isBit : Bool} {cp o : Obj Bytes} {b : Bytes} (h1 : o.contents = some (stringContents isBit b)) (h2 : o.indefinite = false)
    (h3 : o.native = none ∨ o.native = some b) : ∃ o', parsableBytes isBit cp o = .ok (b, o') ∧ o'.contents = some (stringContents isBit b) ∧
      o'.indefinite = false ∧ (o'.native = none ∨ o'.native = some b) := by
  unfold parsableBytes
  rw [h1]
  rcases h3 with hn | hn
  · simp only [hn, h2, mergeObj]
    rw [show mergeChunks (parsableChunk isBit) cp ((stringContents isBit b).length + 1) false (stringContents isBit b) = .ok b from by
      rw [mergeChunks]; exact parsableChunk_contents isBit false b]
    exact ⟨_, rfl, rfl, rfl, .inr rfl⟩
  · simp only [hn]
    exact ⟨o, rfl, h1, h2, .inr hn⟩

theorem build_string {E : Env} {U : ClassId → Prop} (hU : Types E U) {c : ClassId} {p : Params} {t u : TLV} {b : List UInt8} {pr : Obj Bytes} {isBit : Bool}
    (h1 : E.cls c = .parsable pr isBit) (h2 : Framed (pr.cls, pr.tag) p t u) (h3 : u.method = 0) (h4 : u.contents = stringContents isBit b) (hg : Usable E U c p) :
    ∃ N, ∀ i : Info, i.tlv = t → ∃ o, (∀ j ≥ N, buildPlain E (ops E j) i (some c) p = .ok (.parsable c o none none)) ∧ o.contents = some (stringContents isBit b) ∧
      o.indefinite = false ∧ (o.native = none ∨ o.native = some b) := by
  have hbare := hU.parsable _ _ _ hg.mem h1
  obtain ⟨N, hN⟩ := defaultCheck_ok hg
  refine ⟨N, fun i hi => ?_⟩
  obtain ⟨h, tr, b1, b2, b3⟩ := buildObj_framed (bad := []) (k := true) hbare.blank (goodParams hg.tags) h2 hi
  rw [if_pos h3] at b3
  refine ⟨framedObj (initTagging pr p.tags) h u.contents tr false, fun j hj => ?_, ?_, rfl, .inl rfl⟩
  · simp only [buildPlain, h1, bind, Except.bind, hbare.explicit, buildTags_nil, b3, hN j hj]
  · show some u.contents = _
    rw [h4]

theorem parses_string {E : Env} {U : ClassId → Prop} (hU : Types E U) {c : ClassId} {p : Params} {t u : TLV} {b : List UInt8} {pr : Obj Bytes} {isBit : Bool}
    (h1 : E.cls c = .parsable pr isBit) (h2 : Framed (pr.cls, pr.tag) p t u) (h3 : u.method = 0) (h4 : u.contents = stringContents isBit b) (hg : Usable E U c p) :
    Parses E (some c) none p t (.scalar (.bytes b)) := by
  obtain ⟨N, hN⟩ := build_string hU h1 h2 h3 h4 hg
  refine ⟨N + 1, fun i hi j hj => ?_⟩
  obtain ⟨j, rfl⟩ : ∃ k, j = k + 1 := ⟨j - 1, by omega⟩
  obtain ⟨o, k1, k2, k3, k4⟩ := hN i hi
  refine ⟨.parsable c o none none, ?_, ?_, (fun h => by cases h), fun c' _ _ _ _ _ hc hs => ?_⟩
  · rw [ops_build]
    exact buildStep_plain (k1 j (by omega))
  · refine Readable.mono (N := 1) ?_ (by omega)
    refine readable_other (P := fun v n => n = .scalar (.bytes b) ∧ ∃ o : Obj Bytes, v = .parsable c o none none ∧ o.contents = some (stringContents isBit b) ∧
      o.indefinite = false ∧ (o.native = none ∨ o.native = some b)) ?_ ?_ ⟨rfl, o, rfl, k2, k3, k4⟩
    · rintro v n ⟨rfl, o, rfl, _⟩ c h
      cases h
    · rintro v n ⟨rfl, o, rfl, g1, g2, g3⟩ j hj
      obtain ⟨j, rfl⟩ : ∃ k, j = k + 1 := ⟨j - 1, by omega⟩
      have hpp : parsableProto E c = (pr, isBit) := by simp only [parsableProto, h1]
      obtain ⟨o', l1, l2⟩ := parsableBytes_plain (cp := pr) g1 g2 g3
      refine ⟨.parsable c o' none none, ?_, .inl ⟨rfl, o', rfl, l2⟩, rfl⟩
      rw [ops_native]
      simp only [nativeStep, g1, hpp, l1, bind, Except.bind]
  · cases hc
    rw [h1] at hs; cases hs

theorem parses_payload {E : Env} {U : ClassId → Prop} (hU : Types E U) {c d : ClassId} {p : Params} {t u w : TLV} {n : PyVal} {pr : Obj Bytes} {isBit : Bool}
    (h1 : E.cls c = .parsable pr isBit) (h2 : Framed (pr.cls, pr.tag) p t u) (h3 : u.method = 0) (h4 : u.contents = stringContents isBit w.bytes)
    (hb : Ber 11 w) (h5 : Parses E (some d) none {} w n) (hg : Usable E U c p) : Parses E (some c) (some d) p t n := by
  obtain ⟨N, hN⟩ := build_string hU h1 h2 h3 h4 hg
  obtain ⟨M, hM⟩ := h5
  refine ⟨max N M + 1, fun i hi j hj => ?_⟩
  obtain ⟨j, rfl⟩ : ∃ k, j = k + 1 := ⟨j - 1, by omega⟩
  obtain ⟨o, k1, k2, k3, k4⟩ := hN i hi
  have hpp : parsableProto E c = (pr, isBit) := by simp only [parsableProto, h1]
  obtain ⟨o', l1, l2, _⟩ := parsableBytes_plain (cp := pr) k2 k3 k4
  obtain ⟨i', hi'⟩ := info_tlv w
  obtain ⟨v, m1, m2, m3, _⟩ := hM i' hi' j (by omega)
  refine ⟨.parsable c o' (some v) (some d), ?_, (readable_payload l2 m2).mono (by omega), (fun h => by cases h), fun c' _ _ _ _ _ hc hs => ?_⟩
  · rw [ops_build]
    have hpb : parseBuild (ops E j) w.bytes (some d) {} = .ok v := by
      unfold parseBuild
      rw [parse_whole hb false, ← hi']
      exact m1
    simp only [buildStep, k1 j (by omega), bind, Except.bind, parseAs, parsableParse, hpp, l1, hpb]
  · cases hc
    rw [h1] at hs; cases hs

/-! ### Lists of elements and SETs -/

/-- The elements of a list can be loaded and read. -/
def Lists (E : Env) (ch : Option ClassId) (b : List UInt8) (ns : List PyVal) : Prop :=
  ∃ N ts, Elements b ts ∧ ∀ is : List Info, is.map Info.tlv = ts → ∀ M ≥ N,
    KidList E M True [] (fun _ => none) (is.map (fun i => .lazy i ch none)) ns

theorem lists_nil {E : Env} {ch : Option ClassId} : Lists E ch [] [] := by
  refine ⟨0, [], ⟨rfl, by simp⟩, fun is his M hM => ?_⟩
  have : is = [] := List.map_eq_nil_iff.mp his
  subst this
  exact ⟨rfl, fun k ch n h => by simp at h⟩

theorem lists_cons {E : Env} {ch : Option ClassId} {t : TLV} {b : List UInt8} {n : PyVal} {ns : List PyVal} (hb : Ber 11 t)
    (h1 : Parses E ch none {} t n) (h2 : Lists E ch b ns) : Lists E ch (t.bytes ++ b) (n :: ns) := by
  obtain ⟨N, hN⟩ := h1
  obtain ⟨M, ts, g1, g2⟩ := h2
  refine ⟨max N M, t :: ts, elements_cons hb g1, fun is his K hK => ?_⟩
  cases is with
  | nil => cases his
  | cons i is =>
    rw [List.map_cons] at his
    injection his with hi his
    have ih := g2 is his K (by omega)
    refine ⟨by simpa using ih.1, fun k c' n' h1 h2 => ?_⟩
    cases k with
    | zero =>
      cases h1; cases h2
      intro j hj
      obtain ⟨v, k1, k2, k3, _⟩ := hN i hi j (by omega)
      exact ⟨v, k1, k2.mono (by omega), k3, fun c hc => by cases hc⟩
    | succ k => exact ih.2 k c' n' h1 h2

theorem lists_seqOf {E : Env} {ch : Option ClassId} {b : List UInt8} {ns : List PyVal} (h : Lists E ch b ns) :
    ∃ N cs, parseSeqOf ch (some b) = .ok cs ∧ KidList E N True [] (fun _ => none) cs ns := by
  obtain ⟨N, ts, h1, h2⟩ := h
  obtain ⟨is, his⟩ := infos_exist ts
  subst his
  exact ⟨N, _, (parseSeqOf_ok_iff _ _ _).mpr ⟨is, h1, rfl⟩, h2 is rfl N (Nat.le_refl N)⟩

theorem place_open (E : Env) (r : Ops) (all : List Field) (oid : Option OidPair) : ∀ (is : List Info) (cs : List Child),
    is.foldlM (fun s i => placeElement E r all oid i s.1 s.2) ([], cs) = .ok ([], cs ++ is.map (fun i => .lazy i none none))
  | [], cs => by simp; rfl
  | i :: is, cs => by
    rw [List.foldlM_cons]
    show (placeElement E r all oid i [] cs).bind _ = _
    rw [placeElement]
    simp only [Except.bind]
    rw [place_open E r all oid is]
    simp

theorem lists_open {E : Env} {c : ClassId} {proto : Obj Unit} {bad : List Nat} {oid : Option OidPair} (hE : E.cls c = .seq proto bad false [] oid)
    {b : List UInt8} {ns : List PyVal} (h : Lists E none b ns) :
    ∃ N, ∀ j ≥ N, ∃ cs, parseChildren E (ops E j) c (some b) = .ok cs ∧ KidList E N (QuietFields E []) [] (fun _ => none) cs ns := by
  obtain ⟨N, ts, h1, h2⟩ := h
  obtain ⟨is, his⟩ := infos_exist ts
  subst his
  refine ⟨N, fun j hj => ⟨_, ?_, (h2 is rfl N (Nat.le_refl N)).forget (fun _ => trivial)⟩⟩
  simp only [parseChildren, hE, parseSeq]
  rw [seqLoop_eq, elemLoop_elements _ b is (b.length + 1) 0 _ (by omega) (by omega) h1, place_open]
  simp only [bind, Except.bind, fillAbsent, List.nil_append]

/-- A field of a SET. -/
def SlotField (E : Env) (f : Field) : Prop := PlainTag E f ∧ (f.params.default.isSome = true → f.params.optional = false)

/-- The fields of a SET can be loaded and read. -/
def Slots (E : Env) (U : ClassId → Prop) (vs : List TLV) (fs : List Field) (ns : List PyVal) : Prop :=
  ∀ all, (∀ f ∈ fs, f ∈ all ∧ Usable E U f.spec f.params ∧ SlotField E f) → ns.length = fs.length ∧ ∃ N0, ∀ is : List Info, is.map Info.tlv = vs → NoDuplicates is →
    ∀ N ≥ N0, ∀ j ≥ N, ∃ cs, fs.mapM (fun f => fillOne (ops E j) f (slotOf E is f)) = .ok cs ∧ cs.length = fs.length ∧
      ∀ (k : Nat) (ch : Child) (f : Field) (n : PyVal), cs[k]? = some ch → fs[k]? = some f → ns[k]? = some n → Kid E N (QuietFields E all) f.params none n ch

theorem slots_cons {E : Env} {U : ClassId → Prop} {vs : List TLV} {f : Field} {fs : List Field} {n : PyVal} {ns : List PyVal}
    (h : ∀ all, f ∈ all → Usable E U f.spec f.params → SlotField E f → ∃ N0, ∀ is : List Info, is.map Info.tlv = vs → NoDuplicates is → ∀ N ≥ N0, ∀ j ≥ N, ∃ ch,
      Assigned E (ops E j) is f ch ∧ Kid E N (QuietFields E all) f.params none n ch)
    (ih : Slots E U vs fs ns) : Slots E U vs (f :: fs) (n :: ns) := by
  intro all hall
  obtain ⟨hf, hu, hp⟩ := hall f (by simp)
  obtain ⟨N1, h1⟩ := h all hf hu hp
  obtain ⟨hl, N2, h2⟩ := ih all (fun g hg => hall g (by simp [hg]))
  refine ⟨by simp [hl], max N1 N2, fun is his hnd N hN j hj => ?_⟩
  obtain ⟨ch, k1, k2⟩ := h1 is his hnd N (by omega) j hj
  obtain ⟨cs, g1, g2, g3⟩ := h2 is his hnd N (by omega) j hj
  refine ⟨ch :: cs, ?_, by simp [g2], fun k ch' f' n' e1 e2 e3 => ?_⟩
  · rw [List.mapM_cons, (fillOne_iff E (ops E j) hnd hp.1 ch).mpr k1, g1]
    rfl
  · cases k with
    | zero => cases e1; cases e2; cases e3; exact k2
    | succ k => exact g3 k ch' f' n' e1 e2 e3

theorem slots_parse {E : Env} {U : ClassId → Prop} {c : ClassId} {proto : Obj Unit} {bad : List Nat} {oid : Option OidPair} {fields : List Field}
    (hE : E.cls c = .seq proto bad true fields oid) (hu : ∀ f ∈ fields, Usable E U f.spec f.params) (hp : ∀ f ∈ fields, SlotField E f)
    (hd : DistinctTags E fields) {b : List UInt8} {vs : List TLV} {ns : List PyVal} (hel : Elements b vs) (hnd : (vs.map (fun v => (v.cls, v.tag))).Nodup)
    (hk : ∀ v ∈ vs, ∃ f ∈ fields, OuterTag E f.spec f.params (v.cls, v.tag)) (h : Slots E U vs fields ns) :
    ns.length = fields.length ∧
    ∃ N, ∀ j ≥ N, ∃ cs, parseChildren E (ops E j) c (some b) = .ok cs ∧ KidList E N (QuietFields E fields) fields (fun _ => none) cs ns := by
  obtain ⟨hl, N, hN⟩ := h fields (fun f hf => ⟨hf, hu f hf, hp f hf⟩)
  refine ⟨hl, N, fun j hj => ?_⟩
  obtain ⟨is, his⟩ := infos_exist vs
  subst his
  have hnd' : NoDuplicates is := by
    rw [List.map_map] at hnd
    exact hnd
  have hknown : Known E fields is := fun i hi => hk i.tlv (List.mem_map.mpr ⟨i, hi, rfl⟩)
  obtain ⟨cs, g1, g2, g3⟩ := hN is rfl hnd' N (Nat.le_refl N) j hj
  refine ⟨cs, ?_, g2.trans hl.symm, fun k ch n h1 h2 => ?_⟩
  · simp only [parseChildren, hE]
    rw [parseSet_elements E (ops E j) fields (fun f hf => (hp f hf).1) hd hel hknown]
    exact g1
  · have hklt : k < fields.length := by
      rcases Nat.lt_or_ge k fields.length with h | h
      · exact h
      · rw [List.getElem?_eq_none (by omega)] at h1; cases h1
    obtain ⟨f, hf⟩ : ∃ f, fields[k]? = some f := ⟨_, List.getElem?_eq_getElem (h := hklt)⟩
    have : paramsAt fields k = f.params := by simp [paramsAt, hf]
    rw [this]
    exact g3 k ch f n h1 hf h2

/-! ### All types -/

/-- What is proved of encodings: with a class, and without. -/
def Loads (E : Env) (U : ClassId → Prop) (spec nested : Option ClassId) (p : Params) (t : TLV) (n : PyVal) : Prop :=
  match spec with
  | some c => Usable E U c p → (∀ d, nested = some d → Usable E U d {}) → Parses E (some c) nested p t n
  | none => FreeParses E t n

theorem enc_loads {E : Env} {U : ClassId → Prop} (hU : Types E U) {spec nested : Option ClassId} {p : Params} {t : TLV} {n : PyVal}
    (h : Enc E U spec nested p t n) : Loads E U spec nested p t n := by
  refine Enc.rec (motive_1 := fun spec nested p t n _ => Loads E U spec nested p t n) (motive_2 := fun oid fs before b ns _ => Places E U oid fs before b ns)
    (motive_3 := fun ch b ns _ => (∀ d, ch = some d → Usable E U d {}) → Lists E ch b ns) (motive_4 := fun vs fs ns _ => Slots E U vs fs ns)
    ?_ ?_ ?_ ?_ ?_ ?_ ?_ ?_ ?_ ?_ ?_ ?_ ?_ ?_ ?_ ?_ ?_ ?_ ?_ ?_ ?_ h
  · -- leaf
    intro c p t u s proto bad h1 h2 h3 hg _
    exact parses_leaf hU h1 h2 h3 hg
  · -- seq
    intro c p t u ns proto bad fields oid h1 h2 h3 h4 h5 ih hg _
    obtain ⟨_, hus, hf, _⟩ := hU.seq _ _ _ _ _ _ hg.mem h1
    obtain ⟨hap, hoid⟩ := hf rfl
    refine parses_seq hU h1 h3 h4 hg (fun _ => ih.1) ?_
    obtain ⟨N, hN⟩ := parseSeq_places ih hus hap hoid
    refine ⟨N, fun j hj => ?_⟩
    simp only [parseChildren, h1]
    exact hN j hj
  · -- openSeq
    intro c p t u ns proto bad oid h1 h2 h3 h4 ih hg _
    exact parses_seq hU h1 h2 h3 hg (fun h => absurd rfl h) (lists_open h1 (ih (fun d h => by cases h)))
  · -- set
    intro c p t u vs ns proto bad fields oid h1 h2 h3 h4 h5 h6 h7 ih hg _
    obtain ⟨_, hus, _, hf⟩ := hU.seq _ _ _ _ _ _ hg.mem h1
    obtain ⟨hd, hp⟩ := hf rfl
    obtain ⟨hl, hN⟩ := slots_parse h1 hus hp hd h4 h5 h6 ih
    exact parses_seq hU h1 h2 h3 hg (fun _ => hl) hN
  · -- list
    intro c p t u ns proto bad isSet ch h1 h2 h3 h4 ih hg _
    obtain ⟨_, hch⟩ := hU.seqOf _ _ _ _ _ hg.mem h1
    obtain ⟨N, cs, k1, k2⟩ := lists_seqOf (ih hch)
    exact parses_list hU h1 h2 h3 hg k1 k2
  · -- choice
    intro c p t u k n alts f h1 h2 h3 h4 hm' h5 h6 ih hg _
    exact parses_choice hU h1 h3 h4 hm' h5 h6 hg (fun hgf => ih hgf (fun d h => by cases h))
  · -- any
    intro c p t u n h1 h2 h3 h4 ih hg _
    exact parses_any h1 h2 h3 ih hg
  · -- string
    intro c p t u b o isBit h1 h2 h3 h4 hg _
    exact parses_string hU h1 h2 h3 h4 hg
  · -- payload
    intro c d p t u w n o isBit h1 h2 h3 h4 h5 ih hg hn
    exact parses_payload hU h1 h2 h3 h4 (enc_ber h5) (ih (hn d rfl) (fun d h => by cases h)) hg
  · -- freeLeaf
    intro c t s proto bad h1 h2 h3 h4 h5
    exact free_leaf hU h1 h2 h5
  · -- freeSeq
    intro c t ns proto bad oid h1 h2 h3 h4 h5 h6 ih
    exact free_seq h1 h2 (lists_open h2 (ih (fun d h => by cases h)))
  · -- fields
    intro oid before
    exact places_nil
  · intro oid f fs before pick t b n ns h1 h2 h3 ih1 ih2
    exact places_present hU h1 h2 (fun c hc hu hn => by cases hc; exact ih1 hu hn) ih2
  · intro oid f fs before b ns h1 h1' h2 ih
    exact places_skip hU (by simp [Field.skippable, h1]) (.inl ⟨h1, h1', rfl⟩) ih
  · intro oid f fs before b n ns h1 h2 h3 ih
    exact places_skip hU (by simp [Field.skippable, h1]) (.inr ⟨h1, h2⟩) ih
  · -- lists
    intro ch _
    exact lists_nil
  · intro ch t b n ns h1 h2 ih1 ih2 hch
    refine lists_cons (enc_ber h1) ?_ (ih2 hch)
    cases ch with
    | none => exact free_build ih1
    | some d => exact ih1 (hch d rfl) (fun d h => by cases h)
  · -- slots
    intro vs all _
    refine ⟨rfl, 0, fun is _ _ N _ j _ => ⟨[], rfl, rfl, fun k ch f n h => by simp at h⟩⟩
  · intro vs f fs t n ns h1 h2 h3 ih1 ih2
    refine slots_cons (fun all hf hu hp => ?_) ih2
    obtain ⟨N, hN⟩ := ih1 hu (fun d h => by cases h)
    refine ⟨N, fun is his hnd M hM j hj => ?_⟩
    subst his
    obtain ⟨i, hi, rfl⟩ := List.mem_map.mp h1
    refine ⟨_, .present hi ((enc_begins hU hu h2).2 hp.1), fun j' hj' => ?_⟩
    obtain ⟨v, k1, k2, k3, _⟩ := hN i rfl j' (by omega)
    exact ⟨v, k1, k2.mono hM, k3, fun c hc => by cases hc⟩
  · intro vs f fs ns h1 h2 h3 ih
    refine slots_cons (fun all hf hu hp => ⟨1, fun is his hnd M hM j hj => ?_⟩) ih
    subst his
    exact ⟨_, .absent (fun i hi => h1 _ (List.mem_map.mpr ⟨i, hi, rfl⟩)) h2, kid_void hM h2⟩
  · intro vs f fs n ns h1 h2 h3 h4 ih
    refine slots_cons (fun all hf hu hp => ?_) ih
    obtain ⟨N, v, k1, k2⟩ := kid_default hf h2 h3
    refine ⟨N, fun is his hnd M hM j hj => ?_⟩
    subst his
    exact ⟨_, .default (fun i hi => h1 _ (List.mem_map.mpr ⟨i, hi, rfl⟩)) (hp.2 h2) h2 (k1 j (by omega)), k2 M hM⟩

end Asn1
