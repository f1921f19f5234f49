import Verif.Lemmas.Tag

/-!
# C16 — explicit and implicit tagging

`Encoded es cls method tag contents b` (Spec/Tagging.lean) says that `b` is the contents under an identifier and length,
inside constructed wrappers `es` (innermost first). `Chain` descends through wrappers (outermost first).
`effTag d p` is the innermost (class, tag): the implicit tag of the params `p` if given, else the class-level one `d`.
-/

namespace Asn1.Props
open Asn1 Spec

section leaf
variable (E : Env) (n : Nat) (c : ClassId) (proto : LeafSt) (bad : List Nat)

theorem construct_leaf (hE : E.cls c = .leaf proto bad) (p : Params) (hd : p.default = none) (x : Scalar) (hx : x ≠ .none) :
    (ops E (n + 1)).construct c p (.scalar x) = ((proto.init p.tags).set x).map (Val.leaf c) := by
  show constructStep E (ops E n) c p (.scalar x) = _
  unfold constructStep
  simp only [hE, hd]
  cases x <;> first | exact absurd rfl hx | skip
  all_goals (simp only [givenValue, bind, Except.bind]; cases (proto.init p.tags).set _ <;> rfl)

theorem dump_leaf (s : LeafSt) (force : Bool) :
    (ops E (n + 1)).dump (.leaf c s) force = (s.dump force).map (fun r => (r.1, .leaf c r.2)) := by
  show dumpStep E (ops E n) (.leaf c s) force = _
  simp only [dumpStep, bind, Except.bind]
  cases s.dump force <;> rfl

theorem contents_leaf (s : LeafSt) : (ops E (n + 1)).contents (.leaf c s) = .ok (s.base.contents, .leaf c s) := rfl

theorem native_leaf (s : LeafSt) :
    (ops E (n + 1)).native (.leaf c s) = s.native.map (fun r => (.scalar r.1, .leaf c r.2)) := by
  show nativeStep E (ops E n) (.leaf c s) = _
  simp only [nativeStep, bind, Except.bind]
  cases s.native <;> rfl

theorem load_leaf (hE : E.cls c = .leaf proto bad) (p : Params) (hd : p.default = none) (hn : p.noExplicit = false)
    (himp : p.implicit = none ∨ proto.base.explicit = []) (data : Bytes) (strict : Bool) :
    loadVal E (ops E (n + 1)) c p data strict =
      (loadObj proto.constructable bad (initTagging proto.base p.tags) data strict).map
        (fun b => .leaf c ((proto.init p.tags).map (Obj.over b))) := by
  have hb : p.buildTags proto.base.explicit = p.tags := by
    unfold Params.buildTags
    split
    · next h =>
      rcases himp with hi | hi
      · unfold Params.tags; simp [hi]
      · exact absurd hi h.2
    · rfl
  have hk : (proto.init p.tags).constructable = proto.constructable := by cases proto <;> rfl
  unfold loadVal loadObj
  cases hp : parse data strict with
  | error e => rfl
  | ok i =>
    simp only [bind, Except.bind, hE]
    show buildStep E (ops E n) i (some c) p none = _
    simp only [buildStep, buildPlain, hE, defaultCheck, hd, Option.isSome_none, Bool.false_eq_true, and_false, if_false, bind, Except.bind, hb]
    rw [LeafSt.build_eq, LeafSt.base_init, hk]
    cases buildObj proto.constructable bad (initTagging proto.base p.tags) i <;> rfl

/-- Constructing with tags and dumping gives the nested headers around the contents of the untagged value. -/
theorem C16_dump (hE : E.cls c = .leaf proto bad) (hp : ClassObj proto.base 0) (p : Params) (hd : p.default = none)
    (hn : p.noExplicit = false) (hv : p.Valid) (x : Scalar) (hx : x ≠ .none) (v v' : Val) (b : Bytes)
    (h1 : (ops E (n + 1)).construct c p (.scalar x) = .ok v) (h2 : (ops E (n + 1)).dump v false = .ok (b, v')) (hf : Fits b) :
    ∃ contents v0, (ops E (n + 1)).construct c {} (.scalar x) = .ok v0 ∧
      (ops E (n + 1)).contents v0 = .ok (some contents, v0) ∧ (ops E (n + 1)).contents v = .ok (some contents, v) ∧
      Encoded (proto.base.explicit ++ p.explicit) (effTag (proto.base.cls, proto.base.tag) p).1 0
        (effTag (proto.base.cls, proto.base.tag) p).2 contents b := by
  rw [construct_leaf E n c proto bad hE p hd x hx] at h1
  rw [construct_leaf E n c proto bad hE {} rfl x hx]
  have h0 : proto.init ({} : Params).tags = proto := by
    cases proto <;> rfl
  rw [h0]
  rw [LeafSt.init_eq, LeafSt.set_retag] at h1
  cases hs : proto.set x with
  | error e => rw [hs] at h1; cases h1
  | ok s0 =>
    rw [hs] at h1
    injection h1 with h1
    subst h1
    obtain ⟨contents, hc⟩ := LeafSt.set_base hp.fresh hs
    have hbase := LeafSt.base_retag (initTagging proto.base p.tags).cls (initTagging proto.base p.tags).tag
      (initTagging proto.base p.tags).implicit (initTagging proto.base p.tags).explicit s0
    generalize hsr : s0.map (Obj.retag _ _ _ _) = s at *
    have hcl := initTagging_valid hp hv hn
    obtain ⟨hf1, hf2, hf3, _⟩ := initTagging_fields proto.base p hn
    have hhead : s.base.header = none := by rw [hbase, hc]; exact hp.fresh.header
    rw [dump_leaf] at h2
    have hdump := LeafSt.dump_base (s := s) (by rw [hhead]; rfl)
    cases hsd : s.dump false with
    | error e => rw [hsd] at h2; cases h2
    | ok r =>
      rw [hsd] at h2 hdump
      injection h2 with h2
      have hb : r.1 = b := congrArg Prod.fst h2
      have henc := (asn1Dump_encoded (c := contents) (by rw [hbase, hc]; rfl) hhead (by rw [hbase, hc]; exact hp.fresh.indefinite)
        (by rw [hbase]; exact hcl.cls) (by rw [hbase, hc]; show proto.base.method < 2; rw [hp.method]; decide)
        (by rw [hbase]; exact hcl.explicit) hdump.symm (by rw [hb]; exact hf)).1
      refine ⟨contents, .leaf c s0, rfl, ?_, ?_, ?_⟩
      · show contentsStep E (ops E n) (.leaf c s0) = _
        simp only [contentsStep, hc]
      · show contentsStep E (ops E n) (.leaf c s) = _
        simp only [contentsStep, hbase, hc]; rfl
      · rw [hb, hbase, hc] at henc
        have e1 : (initTagging proto.base p.tags).cls = (effTag (proto.base.cls, proto.base.tag) p).1 := by rw [← hf1]
        have e2 : (initTagging proto.base p.tags).tag = (effTag (proto.base.cls, proto.base.tag) p).2 := by rw [← hf1]
        rw [← e1, ← e2, ← hf2]
        have : proto.base.method = 0 := hp.method
        simpa [Obj.retag, this] using henc

/-- Loading accepts exactly the encodings whose wrappers and innermost identifier are the expected ones. -/
theorem C16_load_iff (hE : E.cls c = .leaf proto bad) (hp : ClassObj proto.base 0) (p : Params) (hd : p.default = none)
    (hn : p.noExplicit = false) (himp : p.implicit = none ∨ proto.base.explicit = []) (data contents : Bytes) :
    ((∃ v, loadVal E (ops E (n + 1)) c p data = .ok v ∧ (ops E (n + 1)).contents v = .ok (some contents, v)) ↔
      ∃ (v w : TLV) (rest : Bytes), data = v.bytes ++ rest ∧ Ber 11 v ∧
        Chain (proto.base.explicit ++ p.explicit).reverse v w ∧ w.cls = (effTag (proto.base.cls, proto.base.tag) p).1 ∧
        (w.tag = (effTag (proto.base.cls, proto.base.tag) p).2 ∨ w.tag ∈ bad) ∧
        (w.method = 0 ∨ (proto.constructable = true ∧ w.method = 1 ∧ w.trailer = [0, 0])) ∧ contents = w.contents) ∧
    ∀ e, loadVal E (ops E (n + 1)) c p data = .error e → e = .valueError := by
  obtain ⟨hf1, hf2, hf3, _⟩ := initTagging_fields proto.base p hn
  have e1 : (initTagging proto.base p.tags).cls = (effTag (proto.base.cls, proto.base.tag) p).1 := by rw [← hf1]
  have e2 : (initTagging proto.base p.tags).tag = (effTag (proto.base.cls, proto.base.tag) p).2 := by rw [← hf1]
  rw [load_leaf E n c proto bad hE p hd hn himp]
  refine ⟨?_, ?_⟩
  · have hL := loadObj_iff (k := proto.constructable) (bad := bad) (p := initTagging proto.base p.tags) (data := data) (c := contents)
    rw [hf2, e1, e2, hf3, hp.method] at hL
    simp only [true_and] at hL
    rw [← hL]
    constructor
    · rintro ⟨v, h1, h2⟩
      cases hl : loadObj proto.constructable bad (initTagging proto.base p.tags) data with
      | error e => rw [hl] at h1; cases h1
      | ok o =>
        rw [hl] at h1
        injection h1 with h1
        subst h1
        refine ⟨o, rfl, ?_⟩
        have : contentsStep E (ops E n) (.leaf c ((proto.init p.tags).map (Obj.over o))) = _ := h2
        simp only [contentsStep, LeafSt.base_over] at this
        injection this with this
        exact congrArg Prod.fst this
    · rintro ⟨o, h1, h2⟩
      rw [h1]
      refine ⟨_, rfl, ?_⟩
      rw [contents_leaf, LeafSt.base_over, show o.erase.contents = o.contents from rfl, h2]
  · intro e he
    cases hl : loadObj proto.constructable bad (initTagging proto.base p.tags) data with
    | error e' =>
      rw [hl] at he
      injection he with he
      rw [← he]
      exact loadObj_error hl
    | ok o => rw [hl] at he; cases he

/-- An encoding made with one tagging is refused with `ValueError` by every other tagging: other class, other number,
more or fewer wrappers. (`L` and `L'` list all (class, tag) pairs, outermost first.) -/
theorem C16_mismatch (hE : E.cls c = .leaf proto bad) (hp : ClassObj proto.base 0) (p : Params) (hd : p.default = none)
    (hn : p.noExplicit = false) (himp : p.implicit = none ∨ proto.base.explicit = [])
    (es : List (Nat × Nat)) (cls tag : Nat) (contents b rest : Bytes) (henc : Encoded es cls 0 tag contents b) (hbad : tag ∉ bad)
    (hbad' : ∀ e ∈ es, e.2 ∉ bad)
    (hne : es.reverse ++ [(cls, tag)] ≠ (proto.base.explicit ++ p.explicit).reverse ++ [effTag (proto.base.cls, proto.base.tag) p]) :
    loadVal E (ops E (n + 1)) c p (b ++ rest) = .error .valueError := by
  obtain ⟨hiff, herr⟩ := C16_load_iff E n c proto bad hE hp p hd hn himp (b ++ rest) contents
  cases hl : loadVal E (ops E (n + 1)) c p (b ++ rest) with
  | error e => rw [herr e hl]
  | ok v =>
    exfalso
    have hex : ∃ ct, (ops E (n + 1)).contents v = .ok (some ct, v) := by
      rw [load_leaf E n c proto bad hE p hd hn himp] at hl
      cases hl' : loadObj proto.constructable bad (initTagging proto.base p.tags) (b ++ rest) with
      | error e => rw [hl'] at hl; cases hl
      | ok o =>
        rw [hl'] at hl
        injection hl with hl
        subst hl
        obtain ⟨_, ct, hct⟩ := loadObj_contents hl'
        refine ⟨ct, ?_⟩
        rw [contents_leaf, LeafSt.base_over, show o.erase.contents = o.contents from rfl, hct]
    obtain ⟨ct, hct⟩ := hex
    obtain ⟨v1, w, rest', h1, h2, h3, h4, h5, h6, _⟩ := (C16_load_iff E n c proto bad hE hp p hd hn himp (b ++ rest) ct).1.mp ⟨v, hl, hct⟩
    obtain ⟨v2, h7, h8, h9⟩ := wrapped_chain henc
    have : v2 = v1 := (Ber_unique h8 h2 (by rw [h7]; exact h1)).1
    subst this
    rcases h9 _ _ h3 with ⟨h10, h11, h12, h13⟩ | ⟨_, h10⟩
    · have hm : w.method = 0 := by
        rcases h6 with h | ⟨_, _, h⟩
        · exact h
        · rw [h11] at h; cases h
      have hlen : (proto.base.explicit ++ p.explicit).reverse.length = es.length := by
        by_contra hcon
        rw [h13 hcon] at hm
        cases hm
      have heq := List.IsPrefix.eq_of_length h10 (by simp only [List.length_append, List.length_reverse] at hlen ⊢; simp [hlen])
      have hwt : w.tag = (effTag (proto.base.cls, proto.base.tag) p).2 := by
        rcases h5 with h | h
        · exact h
        · have hlast := (List.append_inj heq (by simp only [List.length_reverse] at hlen ⊢; exact hlen)).2
          simp only [List.cons.injEq, Prod.mk.injEq, and_true] at hlast
          rw [hlast.2] at h
          exact absurd h hbad
      apply hne
      rw [← heq, h4, hwt]
    · cases h10

theorem over_frame (s : LeafSt) (p : TagParams) (a b : Obj Unit) (hc : a.contents = b.contents) (hm : a.method = b.method)
    (hi : a.indefinite = b.indefinite) :
    (s.init p).map (Obj.over a) = (s.map (Obj.over b)).map (Obj.frame a.cls a.tag a.implicit a.explicit a.header a.trailer) := by
  cases s <;> simp [LeafSt.init, LeafSt.map, Obj.over, Obj.frame, hc, hm, hi]

/-- Loading with the same tagging gives the value back: same contents and same native value as the untagged
encoding. Missing from the property: a class with class-level explicit tags together with an implicit tag argument
(excluded by `himp`), for which it is false, see `C16_class_explicit_implicit`. -/
theorem C16_round_trip_partial (hE : E.cls c = .leaf proto bad) (hp : ClassObj proto.base 0) (p : Params) (hd : p.default = none)
    (hn : p.noExplicit = false) (hv : p.Valid) (himp : p.implicit = none ∨ proto.base.explicit = [])
    (x : Scalar) (hx : x ≠ .none) (v v' v0 v0' : Val) (b b0 : Bytes) (strict : Bool)
    (h1 : (ops E (n + 1)).construct c p (.scalar x) = .ok v) (h2 : (ops E (n + 1)).dump v false = .ok (b, v')) (hf : Fits b)
    (h3 : (ops E (n + 1)).construct c {} (.scalar x) = .ok v0) (h4 : (ops E (n + 1)).dump v0 false = .ok (b0, v0')) (hf0 : Fits b0) :
    ∃ contents w w0, (ops E (n + 1)).contents v = .ok (some contents, v) ∧
      loadVal E (ops E (n + 1)) c p b strict = .ok w ∧ loadVal E (ops E (n + 1)) c {} b0 strict = .ok w0 ∧
      (ops E (n + 1)).contents w = .ok (some contents, w) ∧ (ops E (n + 1)).contents w0 = .ok (some contents, w0) ∧
      (((ops E (n + 1)).native w).map fun (r : PyVal × Val) => r.1) = (((ops E (n + 1)).native w0).map fun (r : PyVal × Val) => r.1) := by
  rw [construct_leaf E n c proto bad hE p hd x hx] at h1
  rw [construct_leaf E n c proto bad hE {} rfl x hx] at h3
  have h0 : proto.init ({} : Params).tags = proto := by cases proto <;> rfl
  rw [h0] at h3
  rw [LeafSt.init_eq, LeafSt.set_retag] at h1
  cases hs : proto.set x with
  | error e => rw [hs] at h1; cases h1
  | ok s0 =>
    rw [hs] at h1 h3
    injection h1 with h1
    injection h3 with h3
    subst h1
    subst h3
    obtain ⟨contents, hc⟩ := LeafSt.set_base hp.fresh hs
    have hcl := initTagging_valid hp hv hn
    -- one tagged and one untagged use of `load_dump`
    have main : ∀ (q : Params) (s : LeafSt) (u : Val) (bb : Bytes), q.default = none → q.noExplicit = false → q.Valid →
        (q.implicit = none ∨ proto.base.explicit = []) → s.base = { initTagging proto.base q.tags with contents := some contents } →
        (ops E (n + 1)).dump (.leaf c s) false = .ok (bb, u) → Fits bb →
        s.constructable = proto.constructable →
        ∃ h o, loadVal E (ops E (n + 1)) c q bb strict = .ok (.leaf c ((proto.init q.tags).map (Obj.over o))) ∧
          o = { initTagging proto.base q.tags with header := some h, contents := some contents, trailer := [], native := none } := by
      intro q s u bb hd hn hv himp hbase hdu hfb hk
      have hcl := initTagging_valid hp hv hn
      rw [dump_leaf] at hdu
      have hdump := LeafSt.dump_base (s := s) (by rw [hbase]; show headerEnds80 (initTagging proto.base q.tags).header = false; rw [hcl.fresh.header]; rfl)
      cases hsd : s.dump false with
      | error e => rw [hsd] at hdu; cases hdu
      | ok r =>
        rw [hsd] at hdu hdump
        injection hdu with hdu
        have hb : r.1 = bb := congrArg Prod.fst hdu
        have hdump' : asn1Dump s.constructable s.base = .ok (bb, r.2.base) := by rw [← hdump, ← hb]; rfl
        rw [hbase] at hdump'
        obtain ⟨h, hl⟩ := load_dump_class (bad := bad) hcl (by decide) strict hdump' hfb
        refine ⟨h, _, ?_, rfl⟩
        rw [load_leaf E n c proto bad hE q hd hn himp, ← hk, hl]
        rfl
    have hk : ∀ f : ({ν : Type} → Obj ν → Obj ν), (s0.map f).constructable = s0.constructable := by
      intro f; cases s0 <;> rfl
    have hk0 : s0.constructable = proto.constructable := by
      clear main h2 h4 hk hcl
      cases proto <;> cases x <;> simp only [LeafSt.set, bind, Except.bind] at hs <;> (try cases hs; done) <;>
        (repeat' split at hs) <;> first | (cases hs; done) | (injection hs with hs; subst hs; rfl)
    obtain ⟨h, o, hl1, ho⟩ := main p _ _ b hd hn hv himp (by rw [LeafSt.base_retag, hc]; conv_rhs => rw [initTagging_eq]
                                                             rfl) h2 hf (by rw [hk, hk0])
    obtain ⟨h', o', hl2, ho'⟩ := main {} s0 _ b0 rfl rfl ⟨by simp, by simp⟩ (.inl rfl) (by rw [hc]; rfl) h4 hf0 hk0
    refine ⟨contents, _, _, ?_, hl1, hl2, ?_, ?_, ?_⟩
    · rw [contents_leaf, LeafSt.base_retag, hc]; rfl
    · rw [contents_leaf, LeafSt.base_over, ho]; rfl
    · rw [contents_leaf, LeafSt.base_over, ho']; rfl
    · rw [native_leaf, native_leaf, h0, over_frame proto p.tags o o' (by rw [ho, ho']) (by
        rw [ho, ho']
        show (initTagging proto.base p.tags).method = proto.base.method
        exact (initTagging_fields proto.base p hn).2.2.1) (by
        rw [ho, ho']
        show (initTagging proto.base p.tags).indefinite = proto.base.indefinite
        exact (initTagging_fields proto.base p hn).2.2.2.2.2.1)]
      rw [LeafSt.native_frame (d := contents) _ (by rw [LeafSt.base_over, ho']; rfl)]
      cases (proto.map (Obj.over o')).native <;> rfl

end leaf

/-! ### Containers -/

/-- `c` is a Sequence, Set, SequenceOf or SetOf class with class attributes `proto`. -/
def NodeClass (E : Env) (c : ClassId) (proto : Obj Unit) (bad : List Nat) : Prop :=
  (∃ isSet fields oid, E.cls c = .seq proto bad isSet fields oid) ∨ (∃ isSet child, E.cls c = .seqOf proto bad isSet child)

section node
variable (E : Env) (n : Nat) (c : ClassId) (proto : Obj Unit) (bad : List Nat)

theorem construct_node (hE : NodeClass E c proto bad) (p : Params) (hd : p.default = none) (value : PyVal) :
    (ops E (n + 1)).construct c p value = ((ops E (n + 1)).construct c {} value).map
      (Val.setTag (initTagging proto p.tags).cls (initTagging proto p.tags).tag (initTagging proto p.tags).implicit
        (initTagging proto p.tags).explicit) := by
  show constructStep E (ops E n) c p value = (constructStep E (ops E n) c {} value).map _
  have h0 : initTagging proto ({} : Params).tags = proto := by cases proto; rfl
  have hv : givenValue none value = value := by
    cases value <;> first | rfl | (rename_i x; cases x <;> rfl)
  generalize hA : (initTagging proto p.tags).cls = A
  generalize hB : (initTagging proto p.tags).tag = B
  generalize hC : (initTagging proto p.tags).implicit = C
  generalize hD : (initTagging proto p.tags).explicit = D
  have hT : initTagging proto p.tags = proto.retag A B C D := by subst hA hB hC hD; exact initTagging_eq _ _
  rcases hE with ⟨isSet, fields, oid, hE⟩ | ⟨isSet, child, hE⟩
  · simp only [constructStep, hE, hd, hv, h0, hT]
    exact seqInit_tag ..
  · simp only [constructStep, hE, hd, hv, h0, hT]
    split
    · rfl
    · rw [setFromList_tag]
      simp only [bind, Except.bind]
      cases hs : setFromList E (ops E n) _ 0 (.node c proto none false) with
      | error e => rfl
      | ok v =>
        obtain ⟨cs, m, rfl⟩ := setFromList_node _ _ hs
        simp only [Except.map, Val.setTag, contentsStep, nodeContents_tag, bind, Except.bind]
        cases nodeContents E (ops E n) c proto cs m with
        | error e => rfl
        | ok q =>
          obtain ⟨o, cs, m⟩ := q
          obtain ⟨a1, a2, a3, a4, a5, a6, ct, a8, a9, a10⟩ := o
          cases ct with
          | some b => rfl
          | none =>
            simp only [Obj.retag]
            have := setContents_tag E (ops E n) A B C D c ⟨a1, a2, a3, a4, a5, a6, none, a8, a9, a10⟩ cs false
            simp only [Obj.retag] at this
            rw [this]
            cases setContents E (ops E n) c ⟨a1, a2, a3, a4, a5, a6, none, a8, a9, a10⟩ cs false <;> rfl
    · rfl

/-- A constructed container is an instance with the class attributes, up to its contents. -/
theorem construct_node_inv (hE : NodeClass E c proto bad) (hp : ClassObj proto 1) {value : PyVal} {v : Val}
    (h : (ops E (n + 1)).construct c {} value = .ok v) : ∃ x cs m, v = .node c { proto with contents := x } cs m := by
  have h : constructStep E (ops E n) c {} value = .ok v := h
  have h0 : initTagging proto ({} : Params).tags = proto := by cases proto; rfl
  have hsc : ∀ {o cs cs' o'}, setContents E (ops E n) c o cs false = .ok (o', cs') → ∀ x, o = { proto with contents := x } →
      ∃ y, o' = { proto with contents := y } := by
    intro o cs cs' o' hs x hx
    subst hx
    unfold setContents at hs
    simp only [bind, Except.bind] at hs
    repeat' split at hs
    all_goals first | (cases hs; done) | skip
    injection hs with hs
    injection hs with h1 h2
    refine ⟨o'.contents, ?_⟩
    subst h1
    have := hp.fresh
    cases proto
    obtain ⟨a, b, _⟩ := this
    simp only at a b
    subst a b
    rfl
  have hid : proto = { proto with contents := proto.contents } := by cases proto; rfl
  rcases hE with ⟨isSet, fields, oid, hE⟩ | ⟨isSet, child, hE⟩
  · simp only [constructStep, hE, h0] at h
    unfold seqInit at h
    split at h
    · injection h with h; exact ⟨proto.contents, none, false, h.symm⟩
    · simp only [bind, Except.bind] at h
      split at h
      · cases h
      · next v' hs =>
        split at h
        · injection h with h
          subst h
          obtain ⟨cs, m, rfl⟩ := setFromDict_node _ _ hs
          exact ⟨proto.contents, cs, m, rfl⟩
        · cases h
    · cases h
  · simp only [constructStep, hE, h0] at h
    split at h
    · injection h with h; exact ⟨proto.contents, none, false, h.symm⟩
    · simp only [bind, Except.bind] at h
      split at h
      · cases h
      · next v' hs =>
        obtain ⟨cs, m, rfl⟩ := setFromList_node _ _ hs
        split at h
        · cases h
        · next q hc =>
          have hq : ∃ x cs m, q.2 = .node c { proto with contents := x } cs m := by
            simp only [contentsStep, bind, Except.bind] at hc
            split at hc
            · cases hc
            · next q' hc' =>
              injection hc with hc
              subst hc
              unfold nodeContents at hc'
              split at hc'
              · injection hc' with hc'; subst hc'; exact ⟨proto.contents, _, _, rfl⟩
              · simp only [bind, Except.bind] at hc'
                repeat' split at hc'
                · cases hc'
                · next hsc' =>
                  injection hc' with hc'
                  subst hc'
                  obtain ⟨y, hy⟩ := hsc hsc' proto.contents rfl
                  exact ⟨y, _, _, by rw [hy]⟩
                · injection hc' with hc'; subst hc'; exact ⟨proto.contents, _, _, rfl⟩
          obtain ⟨x, cs', m', hq⟩ := hq
          obtain ⟨q1, q2⟩ := q
          simp only at hq
          subst hq
          cases q1 with
          | some b => injection h with h; exact ⟨x, cs', m', h.symm⟩
          | none =>
            simp only at h
            split at h
            · cases h
            · next hsc' =>
              injection h with h
              obtain ⟨y, hy⟩ := hsc hsc' x rfl
              exact ⟨y, _, _, by rw [← h, hy]⟩
    · cases h

/-- Dumping a fresh container: its contents are put under the tagging. -/
theorem dump_node {o : Obj Unit} (ho : ClassObj o 1) (x : Option Bytes) (cs : Option (List Child)) (m : Bool) {b : Bytes} {v' : Val}
    (h : (ops E (n + 1)).dump (.node c { o with contents := x } cs m) false = .ok (b, v')) :
    ∃ ct cs' m' o', nodeContents E (ops E n) c { o with contents := x } cs m = .ok ({ o with contents := some ct }, cs', m') ∧
      asn1Dump false { o with contents := some ct } = .ok (b, o') := by
  have h : nodeDump E (ops E n) c { o with contents := x } cs m false = .ok (b, v') := h
  have h80 : headerEnds80 ({ o with contents := x } : Obj Unit).header = false := by
    show headerEnds80 o.header = false
    rw [ho.fresh.header]; rfl
  generalize hgo : ({ o with contents := x } : Obj Unit) = og at h h80 ⊢
  unfold nodeDump at h
  simp only [h80, Bool.false_or, Bool.false_and, Bool.false_eq_true, if_false, bind, Except.bind] at h
  subst hgo
  split at h
  · cases h
  · split at h
    · cases h
    · next q hq =>
      obtain ⟨o1, cs', m'⟩ := q
      have ho1 : ∃ y, o1 = { o with contents := y } := by
        unfold nodeContents at hq
        split at hq
        · injection hq with hq; injection hq with h1 _; exact ⟨x, h1.symm⟩
        · split at hq
          · unfold setContents at hq
            simp only [bind, Except.bind] at hq
            repeat' split at hq
            all_goals first | (cases hq; done) | skip
            rename_i hs
            repeat' split at hs
            all_goals first | (cases hs; done) | skip
            injection hs with hs
            injection hq with hq
            subst hs
            injection hq with h1 _
            refine ⟨o1.contents, ?_⟩
            subst h1
            have := ho.fresh
            cases o
            obtain ⟨a, b, _⟩ := this
            simp only at a b
            subst a b
            rfl
          · injection hq with hq; injection hq with h1 _; exact ⟨x, h1.symm⟩
      obtain ⟨y, rfl⟩ := ho1
      simp only at h
      split at h
      · cases h
      · next q' hd =>
        injection h with h
        cases y with
        | none => cases hd
        | some ct => exact ⟨ct, cs', m', q'.2, hq, by rw [hd]; injection h with h1 h2; rw [← h1]⟩

/-- Constructing a container with tags and dumping it gives the nested headers around the contents of the untagged value. -/
theorem C16_dump_node (hE : NodeClass E c proto bad) (hp : ClassObj proto 1) (p : Params) (hd : p.default = none)
    (hn : p.noExplicit = false) (hv : p.Valid) (x : PyVal) (v v' : Val) (b : Bytes)
    (h1 : (ops E (n + 1)).construct c p x = .ok v) (h2 : (ops E (n + 1)).dump v false = .ok (b, v')) (hf : Fits b) :
    ∃ contents v0 u u0, (ops E (n + 1)).construct c {} x = .ok v0 ∧
      (ops E (n + 1)).contents v0 = .ok (some contents, u0) ∧ (ops E (n + 1)).contents v = .ok (some contents, u) ∧
      Encoded (proto.explicit ++ p.explicit) (effTag (proto.cls, proto.tag) p).1 1
        (effTag (proto.cls, proto.tag) p).2 contents b := by
  rw [construct_node E n c proto bad hE p hd x] at h1
  cases h0 : (ops E (n + 1)).construct c {} x with
  | error e => rw [h0] at h1; cases h1
  | ok v0 =>
    rw [h0] at h1
    injection h1 with h1
    obtain ⟨y, cs, m, rfl⟩ := construct_node_inv E n c proto bad hE hp h0
    have hcl := initTagging_valid hp hv hn
    obtain ⟨hf1, hf2, hf3, _⟩ := initTagging_fields proto p hn
    have hv1 : v = .node c { initTagging proto p.tags with contents := y } cs m := by
      rw [← h1]
      conv_rhs => rw [initTagging_eq]
      rfl
    rw [hv1] at h2
    obtain ⟨ct, cs', m', o', hc, ha⟩ := dump_node E n c hcl y cs m h2
    have henc := (asn1Dump_encoded (o := { initTagging proto p.tags with contents := some ct }) (c := ct) rfl hcl.fresh.header hcl.fresh.indefinite hcl.cls
      (by show (initTagging proto p.tags).method < 2; rw [hcl.method]; decide) hcl.explicit ha hf).1
    simp only at henc
    rw [hf2, hcl.method, show (initTagging proto p.tags).cls = (effTag (proto.cls, proto.tag) p).1 from by rw [← hf1],
      show (initTagging proto p.tags).tag = (effTag (proto.cls, proto.tag) p).2 from by rw [← hf1]] at henc
    have hc0 : ∃ o0, nodeContents E (ops E n) c { proto with contents := y } cs m = .ok (o0, cs', m') ∧ o0.contents = some ct := by
      rw [initTagging_eq] at hc
      have := nodeContents_tag E (ops E n) (initTagging proto p.tags).cls (initTagging proto p.tags).tag (initTagging proto p.tags).implicit
        (initTagging proto p.tags).explicit c { proto with contents := y } cs m
      rw [show ({ proto.retag (initTagging proto p.tags).cls (initTagging proto p.tags).tag (initTagging proto p.tags).implicit (initTagging proto p.tags).explicit with contents := y } : Obj Unit) = ({ proto with contents := y } : Obj Unit).retag (initTagging proto p.tags).cls (initTagging proto p.tags).tag (initTagging proto p.tags).implicit (initTagging proto p.tags).explicit from rfl, this] at hc
      cases hn0 : nodeContents E (ops E n) c { proto with contents := y } cs m with
      | error e => rw [hn0] at hc; cases hc
      | ok q =>
        rw [hn0] at hc
        injection hc with hc
        injection hc with ha hb
        refine ⟨q.1, ?_, ?_⟩
        · rw [← hb]
        · have := congrArg Obj.contents ha
          exact this
    obtain ⟨o0, hc0, hct0⟩ := hc0
    refine ⟨ct, _, .node c { initTagging proto p.tags with contents := some ct } cs' m', .node c o0 cs' m', rfl, ?_, ?_, henc⟩
    · show contentsStep E (ops E n) (.node c { proto with contents := y } cs m) = _
      simp only [contentsStep, hc0, bind, Except.bind, hct0]
    · rw [hv1]
      show contentsStep E (ops E n) (.node c { initTagging proto p.tags with contents := y } cs m) = _
      simp only [contentsStep, hc, bind, Except.bind]

theorem load_node (hE : NodeClass E c proto bad) (p : Params) (hd : p.default = none)
    (himp : p.implicit = none ∨ proto.explicit = []) (data : Bytes) (strict : Bool) :
    loadVal E (ops E (n + 1)) c p data strict =
      (loadObj false bad (initTagging proto p.tags) data strict).map (fun o => .node c o none false) := by
  have hb : p.buildTags proto.explicit = p.tags := by
    unfold Params.buildTags
    split
    · next h =>
      rcases himp with hi | hi
      · unfold Params.tags; simp [hi]
      · exact absurd hi h.2
    · rfl
  unfold loadVal loadObj
  cases hp : parse data strict with
  | error e => rfl
  | ok i =>
    rcases hE with ⟨isSet, fields, oid, hE⟩ | ⟨isSet, child, hE⟩
    · simp only [bind, Except.bind, hE]
      show buildStep E (ops E n) i (some c) p none = _
      simp only [buildStep, buildPlain, hE, defaultCheck, hd, Option.isSome_none, Bool.false_eq_true, and_false, if_false, bind, Except.bind, hb]
      cases hbo : buildObj false bad (initTagging proto p.tags) i with
      | error e => rfl
      | ok o => simp only; cases o.explicit <;> rfl
    · simp only [bind, Except.bind, hE]
      show buildStep E (ops E n) i (some c) p none = _
      simp only [buildStep, buildPlain, hE, defaultCheck, hd, Option.isSome_none, Bool.false_eq_true, and_false, if_false, bind, Except.bind, hb]
      cases hbo : buildObj false bad (initTagging proto p.tags) i with
      | error e => rfl
      | ok o => rfl

theorem C16_load_iff_node (hE : NodeClass E c proto bad) (hp : ClassObj proto 1) (p : Params) (hd : p.default = none)
    (hn : p.noExplicit = false) (himp : p.implicit = none ∨ proto.explicit = []) (data contents : Bytes) :
    ((∃ v, loadVal E (ops E (n + 1)) c p data = .ok v ∧ (ops E (n + 1)).contents v = .ok (some contents, v)) ↔
      ∃ (v w : TLV) (rest : Bytes), data = v.bytes ++ rest ∧ Ber 11 v ∧
        Chain (proto.explicit ++ p.explicit).reverse v w ∧ w.cls = (effTag (proto.cls, proto.tag) p).1 ∧
        (w.tag = (effTag (proto.cls, proto.tag) p).2 ∨ w.tag ∈ bad) ∧ w.method = 1 ∧ contents = w.contents) ∧
    ∀ e, loadVal E (ops E (n + 1)) c p data = .error e → e = .valueError := by
  obtain ⟨hf1, hf2, hf3, _⟩ := initTagging_fields proto p hn
  have e1 : (initTagging proto p.tags).cls = (effTag (proto.cls, proto.tag) p).1 := by rw [← hf1]
  have e2 : (initTagging proto p.tags).tag = (effTag (proto.cls, proto.tag) p).2 := by rw [← hf1]
  rw [load_node E n c proto bad hE p hd himp]
  refine ⟨?_, ?_⟩
  · have hL := loadObj_iff (k := false) (bad := bad) (p := initTagging proto p.tags) (data := data) (c := contents)
    rw [hf2, e1, e2, hf3, hp.method] at hL
    simp only [Bool.false_eq_true, false_and, or_false] at hL
    rw [← hL]
    constructor
    · rintro ⟨v, h1, h2⟩
      cases hl : loadObj false bad (initTagging proto p.tags) data with
      | error e => rw [hl] at h1; cases h1
      | ok o =>
        rw [hl] at h1
        injection h1 with h1
        subst h1
        refine ⟨o, rfl, ?_⟩
        have : contentsStep E (ops E n) (.node c o none false) = _ := h2
        simp only [contentsStep, nodeContents, bind, Except.bind] at this
        injection this with this
        exact congrArg Prod.fst this
    · rintro ⟨o, h1, h2⟩
      rw [h1]
      refine ⟨_, rfl, ?_⟩
      show contentsStep E (ops E n) (.node c o none false) = _
      simp only [contentsStep, nodeContents, bind, Except.bind, h2]
  · intro e he
    cases hl : loadObj false bad (initTagging proto p.tags) data with
    | error e' =>
      rw [hl] at he
      injection he with he
      rw [← he]
      exact loadObj_error hl
    | ok o => rw [hl] at he; cases he

/-- The same refusal for containers. A constructed value can itself look like a wrapper, so the lists may not be
prefixes of each other: `C16_mismatch_prefix` shows what happens otherwise. -/
theorem C16_mismatch_node (hE : NodeClass E c proto bad) (hp : ClassObj proto 1) (p : Params) (hd : p.default = none)
    (hn : p.noExplicit = false) (himp : p.implicit = none ∨ proto.explicit = [])
    (es : List (Nat × Nat)) (cls m tag : Nat) (contents b rest : Bytes) (henc : Encoded es cls m tag contents b) (hbad : bad = [])
    (hne : ¬ (proto.explicit ++ p.explicit).reverse ++ [effTag (proto.cls, proto.tag) p] <+: es.reverse ++ [(cls, tag)])
    (hne' : ¬ (m = 1 ∧ es.reverse ++ [(cls, tag)] <+: (proto.explicit ++ p.explicit).reverse)) :
    loadVal E (ops E (n + 1)) c p (b ++ rest) = .error .valueError := by
  obtain ⟨hiff, herr⟩ := C16_load_iff_node E n c proto bad hE hp p hd hn himp (b ++ rest) contents
  cases hl : loadVal E (ops E (n + 1)) c p (b ++ rest) with
  | error e => rw [herr e hl]
  | ok v =>
    exfalso
    have hex : ∃ ct, (ops E (n + 1)).contents v = .ok (some ct, v) := by
      rw [load_node E n c proto bad hE p hd himp] at hl
      cases hl' : loadObj false bad (initTagging proto p.tags) (b ++ rest) with
      | error e => rw [hl'] at hl; cases hl
      | ok o =>
        rw [hl'] at hl
        injection hl with hl
        subst hl
        obtain ⟨_, ct, hct⟩ := loadObj_contents hl'
        refine ⟨ct, ?_⟩
        show contentsStep E (ops E n) (.node c o none false) = _
        simp only [contentsStep, nodeContents, bind, Except.bind, hct]
    obtain ⟨ct, hct⟩ := hex
    obtain ⟨v1, w, rest', h1, h2, h3, h4, h5, h6, _⟩ := (C16_load_iff_node E n c proto bad hE hp p hd hn himp (b ++ rest) ct).1.mp ⟨v, hl, hct⟩
    obtain ⟨v2, h7, h8, h9⟩ := wrapped_chain henc
    have : v2 = v1 := (Ber_unique h8 h2 (by rw [h7]; exact h1)).1
    subst this
    have hwt : w.tag = (effTag (proto.cls, proto.tag) p).2 := by
      rcases h5 with h | h
      · exact h
      · rw [hbad] at h; cases h
    rcases h9 _ _ h3 with ⟨h10, _⟩ | ⟨h10, h11⟩
    · rw [h4, hwt] at h10
      exact hne h10
    · exact hne' ⟨h11, h10⟩

theorem nodeNative_frame (r : Ops) (o : Obj Unit) (A B : Nat) (C : Bool) (D : List (Nat × Nat)) (H : Option Bytes) (T : Bytes) :
    (nodeNative E r c (o.frame A B C D H T) none false).map (fun q : PyVal × Val => q.1) =
      (nodeNative E r c o none false).map (fun q : PyVal × Val => q.1) := by
  simp only [nodeNative, nodeContents, ensureChildren, Obj.frame, bind, Except.bind]
  cases o.contents with
  | none => rfl
  | some b =>
    simp only
    cases parseChildren E r c (some b) with
    | error e => rfl
    | ok cs =>
      simp only
      cases E.cls c <;> simp only
      case seq => cases nativeFields r _ 0 cs <;> rfl
      all_goals cases nativeElements r cs <;> rfl

/-- Round trip for containers; the same restriction as for the other values. -/
theorem C16_round_trip_node_partial (hE : NodeClass E c proto bad) (hp : ClassObj proto 1) (p : Params) (hd : p.default = none)
    (hn : p.noExplicit = false) (hv : p.Valid) (himp : p.implicit = none ∨ proto.explicit = [])
    (x : PyVal) (v v' v0 v0' : Val) (b b0 : Bytes) (strict : Bool)
    (h1 : (ops E (n + 1)).construct c p x = .ok v) (h2 : (ops E (n + 1)).dump v false = .ok (b, v')) (hf : Fits b)
    (h3 : (ops E (n + 1)).construct c {} x = .ok v0) (h4 : (ops E (n + 1)).dump v0 false = .ok (b0, v0')) (hf0 : Fits b0) :
    ∃ contents w w0, (∃ u, (ops E (n + 1)).contents v = .ok (some contents, u)) ∧
      loadVal E (ops E (n + 1)) c p b strict = .ok w ∧ loadVal E (ops E (n + 1)) c {} b0 strict = .ok w0 ∧
      (ops E (n + 1)).contents w = .ok (some contents, w) ∧ (ops E (n + 1)).contents w0 = .ok (some contents, w0) ∧
      (((ops E (n + 1)).native w).map fun (r : PyVal × Val) => r.1) = (((ops E (n + 1)).native w0).map fun (r : PyVal × Val) => r.1) := by
  rw [construct_node E n c proto bad hE p hd x, h3] at h1
  injection h1 with h1
  obtain ⟨y, cs, m, rfl⟩ := construct_node_inv E n c proto bad hE hp h3
  have hcl := initTagging_valid hp hv hn
  have hv1 : v = .node c { initTagging proto p.tags with contents := y } cs m := by
    rw [← h1]
    conv_rhs => rw [initTagging_eq]
    rfl
  have h0 : initTagging proto ({} : Params).tags = proto := by cases proto; rfl
  rw [hv1] at h2 ⊢
  obtain ⟨ct, cs', m', o', hc, ha⟩ := dump_node E n c hcl y cs m h2
  obtain ⟨ct0, cs0, m0, o0, hc0, ha0⟩ := dump_node E n c hp y cs m h4
  have hct : ct = ct0 := by
    have := nodeContents_tag E (ops E n) (initTagging proto p.tags).cls (initTagging proto p.tags).tag (initTagging proto p.tags).implicit
        (initTagging proto p.tags).explicit c { proto with contents := y } cs m
    rw [hc0] at this
    rw [show ({ proto with contents := y } : Obj Unit).retag (initTagging proto p.tags).cls (initTagging proto p.tags).tag (initTagging proto p.tags).implicit (initTagging proto p.tags).explicit = { initTagging proto p.tags with contents := y } from by
      conv_rhs => rw [initTagging_eq]
      rfl, hc] at this
    injection this with this
    injection this with this _
    have := congrArg Obj.contents this
    injection this
  subst hct
  obtain ⟨h, hl⟩ := load_dump_class (bad := bad) hcl (by decide) strict ha hf
  obtain ⟨h', hl'⟩ := load_dump_class (bad := bad) hp (by decide) strict ha0 hf0
  refine ⟨ct, .node c { initTagging proto p.tags with header := some h, contents := some ct, trailer := [], native := none } none false,
    .node c { proto with header := some h', contents := some ct, trailer := [], native := none } none false, ?_, ?_, ?_, ?_, ?_, ?_⟩
  · refine ⟨.node c { initTagging proto p.tags with contents := some ct } cs' m', ?_⟩
    show contentsStep E (ops E n) (.node c { initTagging proto p.tags with contents := y } cs m) = _
    simp only [contentsStep, hc, bind, Except.bind]
  · rw [load_node E n c proto bad hE p hd himp, hl]; rfl
  · rw [load_node E n c proto bad hE {} rfl (.inl rfl), h0, hl']; rfl
  · rfl
  · rfl
  · have hfr : ({ initTagging proto p.tags with header := some h, contents := some ct, trailer := [], native := none } : Obj Unit) =
        ({ proto with header := some h', contents := some ct, trailer := [], native := none } : Obj Unit).frame (initTagging proto p.tags).cls
          (initTagging proto p.tags).tag (initTagging proto p.tags).implicit (initTagging proto p.tags).explicit (some h) [] := by
      conv_lhs => rw [initTagging_eq]
      rfl
    rw [hfr]
    exact nodeNative_frame E c (ops E n) _ _ _ _ _ _ _

end node

/-! ### `retag` and `untag` -/

theorem fresh_base (s : LeafSt) (A B : Nat) (C : Bool) (D : List (Nat × Nat)) :
    (s.fresh A B C D).base = LeafSt.freshObj A B C D s.base ∧ (s.fresh A B C D).constructable = s.constructable := by
  cases s <;> exact ⟨rfl, rfl⟩

/-- `retag` of a leaf that is not in indefinite form: a new instance with the same contents under the new tagging. -/
theorem retag_leaf (E : Env) (n : Nat) (c : ClassId) (proto : LeafSt) (bad : List Nat) (hE : E.cls c = .leaf proto bad) (s : LeafSt)
    (hi : s.base.indefinite = false) (es : List (Nat × Nat)) (imp : Option (Nat × Nat)) :
    retag E (ops E (n + 1)) (.leaf c s) es imp =
      .ok (.leaf c (s.fresh (effTag (proto.base.cls, proto.base.tag) { explicit := es, implicit := imp }).1
        (effTag (proto.base.cls, proto.base.tag) { explicit := es, implicit := imp }).2
        (if es = [] ∧ imp.isSome then true else proto.base.implicit) (proto.base.explicit ++ es))) := by
  have hcp : ∀ A B C D, (ops E (n + 1)).copyTo (.leaf c s) A B C D = .ok (.leaf c (s.fresh A B C D)) := by
    intro A B C D
    show copyStep E (ops E n) (.leaf c s) A B C D = _
    simp only [copyStep, LeafSt.copyTo, hi, Bool.and_false, Bool.false_eq_true, if_false, bind, Except.bind]
  unfold retag
  simp only [protoTagging, Val.classOf, hE, Shape.tagging, effTag]
  cases imp with
  | none => simp only [hcp]; cases es <;> simp
  | some q =>
    cases es with
    | nil => simp only [hcp]; simp
    | cons e es => simp only [hcp]; simp

/-- Tagging an untagged or tagged value and removing the tags again gives the encoding of the untagged value. -/
theorem C16_retag_untag (E : Env) (n : Nat) (c : ClassId) (proto : LeafSt) (bad : List Nat) (hE : E.cls c = .leaf proto bad)
    (hp : ClassObj proto.base 0) (p : Params) (hd : p.default = none) (x : Scalar) (hx : x ≠ .none) (v v0 : Val)
    (h1 : (ops E (n + 1)).construct c p (.scalar x) = .ok v) (h2 : (ops E (n + 1)).construct c {} (.scalar x) = .ok v0)
    (es : List (Nat × Nat)) (imp : Option (Nat × Nat)) :
    ∃ v1 v2, retag E (ops E (n + 1)) v es imp = .ok v1 ∧ untag E (ops E (n + 1)) v1 = .ok v2 ∧
      (((ops E (n + 1)).dump v2 false).map fun (r : Bytes × Val) => r.1) =
        (((ops E (n + 1)).dump v0 false).map fun (r : Bytes × Val) => r.1) := by
  rw [construct_leaf E n c proto bad hE p hd x hx] at h1
  rw [construct_leaf E n c proto bad hE {} rfl x hx] at h2
  have h0 : proto.init ({} : Params).tags = proto := by cases proto <;> rfl
  rw [h0] at h2
  rw [LeafSt.init_eq, LeafSt.set_retag] at h1
  cases hs : proto.set x with
  | error e => rw [hs] at h1; cases h1
  | ok s0 =>
    rw [hs] at h1 h2
    injection h1 with h1
    injection h2 with h2
    subst h1
    subst h2
    obtain ⟨contents, hc⟩ := LeafSt.set_base hp.fresh hs
    refine ⟨_, _, retag_leaf E n c proto bad hE _ ?_ es imp, retag_leaf E n c proto bad hE _ ?_ [] none, ?_⟩
    · rw [LeafSt.base_retag, hc]; exact hp.fresh.indefinite
    · rw [(fresh_base _ _ _ _ _).1]; rfl
    · have hb : ∀ s : LeafSt, headerEnds80 s.base.header = false →
          (((ops E (n + 1)).dump (.leaf c s) false).map fun (r : Bytes × Val) => r.1) =
            (asn1Dump s.constructable s.base).map fun (r : Bytes × Obj Unit) => r.1 := by
        intro s hh
        rw [dump_leaf, ← LeafSt.dump_base hh]
        cases s.dump false <;> rfl
      rw [hb, hb]
      · rw [(fresh_base _ _ _ _ _).1, (fresh_base _ _ _ _ _).1, (fresh_base _ _ _ _ _).2, (fresh_base _ _ _ _ _).2, LeafSt.base_retag, hc]
        have hk : ∀ (s : LeafSt) (f : ({ν : Type} → Obj ν → Obj ν)), (s.map f).constructable = s.constructable := by
          intro s f; cases s <;> rfl
        rw [hk]
        congr 2
        obtain ⟨⟨a1, a2, a3⟩, _, hm, _, hnat⟩ := hp
        generalize proto.base = o at *
        cases o
        simp only at a1 a2 a3 hm hnat
        subst a1 a2 a3 hm hnat
        simp [LeafSt.freshObj, Obj.retag, effTag]
      · rw [hc]
        show headerEnds80 proto.base.header = false
        rw [hp.fresh.header]; rfl
      · rw [(fresh_base _ _ _ _ _).1]; rfl

/-- The same for containers. -/
theorem C16_retag_untag_node (E : Env) (n : Nat) (c : ClassId) (proto : Obj Unit) (bad : List Nat) (hE : NodeClass E c proto bad)
    (hp : ClassObj proto 1) (p : Params) (hd : p.default = none) (hn : p.noExplicit = false) (hv : p.Valid) (x : PyVal) (v v0 v0' : Val) (b0 : Bytes)
    (h1 : (ops E (n + 1)).construct c p x = .ok v) (h2 : (ops E (n + 1)).construct c {} x = .ok v0)
    (h3 : (ops E (n + 1)).dump v0 false = .ok (b0, v0')) (es : List (Nat × Nat)) (imp : Option (Nat × Nat)) :
    ∃ v1 v2, retag E (ops E (n + 1)) v es imp = .ok v1 ∧ untag E (ops E (n + 1)) v1 = .ok v2 ∧
      ((ops E (n + 1)).dump v2 false).map (fun (r : Bytes × Val) => r.1) = .ok b0 := by
  rw [construct_node E n c proto bad hE p hd x, h2] at h1
  injection h1 with h1
  obtain ⟨y, cs, m, rfl⟩ := construct_node_inv E n c proto bad hE hp h2
  obtain ⟨ct, cs', m', o', hc, ha⟩ := dump_node E n c hp y cs m h3
  have hc' : ∀ A B C D, ∃ q, nodeContents E (ops E n) c (({ proto with contents := y } : Obj Unit).retag A B C D) cs m = .ok q ∧ q.1.contents = some ct := by
    intro A B C D
    rw [nodeContents_tag, hc]
    exact ⟨_, rfl, rfl⟩
  have htag : (E.cls c).tagging = (proto.cls, proto.tag, proto.implicit, proto.explicit) := by
    rcases hE with ⟨isSet, fields, oid, hE⟩ | ⟨isSet, child, hE⟩ <;> rw [hE] <;> rfl
  have hcopy : ∀ A B C D, (ops E (n + 1)).copyTo v A B C D =
      .ok (.node c { cls := A, method := 1, tag := B, implicit := C, explicit := D, contents := some ct } none false) := by
    intro A B C D
    rw [← h1]
    show copyStep E (ops E n) (.node c (({ proto with contents := y } : Obj Unit).retag _ _ _ _) cs m) A B C D = _
    obtain ⟨q, hq, hq'⟩ := hc' (initTagging proto p.tags).cls (initTagging proto p.tags).tag (initTagging proto p.tags).implicit (initTagging proto p.tags).explicit
    simp only [copyStep, hq, bind, Except.bind, hq']
  have hre : ∃ A B C D, retag E (ops E (n + 1)) v es imp =
      .ok (.node c { cls := A, method := 1, tag := B, implicit := C, explicit := D, contents := some ct } none false) := by
    have hcl : protoTagging E v = (E.cls c).tagging := by rw [← h1]; rfl
    unfold retag
    rw [hcl, htag]
    rw [← h1] at hcopy ⊢
    simp only [Val.setTag] at hcopy ⊢
    cases imp with
    | none => simp only [hcopy]; exact ⟨_, _, _, _, rfl⟩
    | some q => cases es <;> (simp only [hcopy]; exact ⟨_, _, _, _, rfl⟩)
  obtain ⟨A, B, C, D, hre⟩ := hre
  refine ⟨_, .node c { proto with contents := some ct } none false, hre, ?_, ?_⟩
  · unfold untag retag
    simp only [protoTagging, Val.classOf, htag]
    show copyStep E (ops E n) (.node c { cls := A, method := 1, tag := B, implicit := C, explicit := D, contents := some ct } none false) _ _ _ _ = _
    simp only [copyStep, nodeContents, bind, Except.bind]
    obtain ⟨⟨a1, a2, a3⟩, _, hm, _, hnat⟩ := hp
    cases proto
    simp only at a1 a2 a3 hm hnat
    subst a1 a2 a3 hm hnat
    simp
  · show (nodeDump E (ops E n) c { proto with contents := some ct } none false false).map _ = _
    have h80 : headerEnds80 ({ proto with contents := some ct } : Obj Unit).header = false := by
      show headerEnds80 proto.header = false
      rw [hp.fresh.header]; rfl
    generalize hgo : ({ proto with contents := some ct } : Obj Unit) = og at h80 ha ⊢
    have hcr : checkRequired E c none = .ok () := by
      rcases hE with ⟨isSet, fields, oid, hE⟩ | ⟨isSet, child, hE⟩ <;> simp only [checkRequired, hE]
    unfold nodeDump
    simp only [h80, Bool.false_or, Bool.false_and, Bool.false_eq_true, if_false, bind, Except.bind, hcr, nodeContents, ha]
    rfl

/-! ### Where the code does not have the property -/

/-- Class 0 is INTEGER, class 1 is INTEGER with a class-level explicit tag, class 2 a SEQUENCE OF INTEGER. -/
def tagEnv : Env where
  cls
    | 1 => .leaf (.integer none { cls := 0, method := 0, tag := 2, explicit := [(2, 0)] }) []
    | 2 => .seqOf { cls := 0, method := 1, tag := 16 } [] false (some 0)
    | _ => .leaf (.integer none { cls := 0, method := 0, tag := 2 }) []
  universal _ := none

/-- The bytes of `cls(value, **params).dump()`. -/
def encoding (c : ClassId) (p : Params) (x : PyVal) : Py Bytes := do
  let v ← (ops tagEnv 5).construct c p x
  let (b, _) ← (ops tagEnv 5).dump v false
  .ok b

/-- When an explicit tag is given, an implicit tag given with it is silently ignored. -/
theorem C16_implicit_ignored :
    encoding 0 { explicit := [(2, 1)], implicit := some (2, 5) } (.scalar (.int 7)) = .ok [0xa1, 3, 2, 1, 7] := by decide +kernel

/-- With class-level explicit tags and an implicit tag, the value dumps with both but its encoding is refused. -/
theorem C16_class_explicit_implicit :
    encoding 1 { implicit := some (2, 5) } (.scalar (.int 7)) = .ok [0xa0, 3, 0x85, 1, 7] ∧
    ((loadVal tagEnv (ops tagEnv 5) 1 { implicit := some (2, 5) } [0xa0, 3, 0x85, 1, 7]).map fun _ => ()) = .error .valueError := by
  decide +kernel

/-- The restriction in `C16_mismatch_node` is needed: a container loaded with fewer tags takes the wrapper for the
container when the identifiers agree. -/
theorem C16_mismatch_prefix :
    encoding 2 { explicit := [(2, 0)] } (.list [.scalar (.int 7)]) = .ok [0xa0, 5, 0x30, 3, 2, 1, 7] ∧
    ((loadVal tagEnv (ops tagEnv 5) 2 { implicit := some (2, 0) } [0xa0, 5, 0x30, 3, 2, 1, 7]).map fun _ => ()) = .ok () := by
  decide +kernel

/-! ### Non-vacuity -/

example : encoding 0 { explicit := [(2, 1), (1, 40)] } (.scalar (.int 7)) = .ok [0x7f, 40, 5, 0xa1, 3, 2, 1, 7] := by decide +kernel
example : tagEnv.cls 0 = .leaf (.integer none { cls := 0, method := 0, tag := 2 }) [] ∧
    ClassObj (LeafSt.integer none { cls := 0, method := 0, tag := 2 }).base 0 ∧ ({ explicit := [(2, 1), (1, 40)] } : Params).Valid :=
  ⟨rfl, ⟨⟨rfl, rfl, rfl⟩, by decide, rfl, by simp [LeafSt.base, Obj.erase], rfl⟩, ⟨by simp, by simp⟩⟩
example : NodeClass tagEnv 2 { cls := 0, method := 1, tag := 16 } [] := .inr ⟨false, some 0, rfl⟩
example : ClassObj { cls := 0, method := 1, tag := 16 } 1 := ⟨⟨rfl, rfl, rfl⟩, by decide, rfl, by simp, rfl⟩
example : encoding 2 { implicit := some (2, 3) } (.list [.scalar (.int 7), .scalar (.int 8)]) =
    .ok [0xa3, 6, 2, 1, 7, 2, 1, 8] := by decide +kernel
example : ((loadVal tagEnv (ops tagEnv 5) 0 { explicit := [(2, 1), (1, 40)] } [0x7f, 40, 5, 0xa1, 3, 2, 1, 7]).bind fun w =>
    ((ops tagEnv 5).contents w).map fun q => q.1) = .ok (some [7]) := by decide +kernel
example : ((loadVal tagEnv (ops tagEnv 5) 0 { explicit := [(2, 1)] } [0x7f, 40, 5, 0xa1, 3, 2, 1, 7]).map fun _ => ()) = .error .valueError := by
  decide +kernel

end Asn1.Props
