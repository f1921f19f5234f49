import Verif.Lemmas.RepGiven
import Verif.Props.C22

/-! # The operations treat instances as what they stand for -/

namespace Asn1
open Spec Props

theorem default_leaf {E : Env} {U : ClassId → Prop} {c : ClassId} {p : Params} (hg : GoodUse E U c p) (hc : ∀ proto bad, E.cls c ≠ .leaf proto bad) :
    p.default = none := by
  cases hd : p.default with
  | none => rfl
  | some d =>
    obtain ⟨_, proto, bad, _, _, hl, _⟩ := hg.default d hd
    exact absurd hl (hc _ _)

theorem nodeTag_init {proto : Obj Unit} {p : Params} (hb : BlankObj proto 1) (hp : GoodTags p) : NodeTag proto p (initTagging proto p.tags) := by
  obtain ⟨f1, f2, f3, f4, f5, f6, f7⟩ := initTagging_fields proto p hp.keep
  have f8 : (initTagging proto p.tags).implicit = (p.explicit.isEmpty && p.implicit.isSome) := by
    have := hb.implicit
    obtain ⟨pe, pi, pn, po, pd⟩ := p
    cases pe <;> cases pi <;> cases pn <;> simp [initTagging, Params.tags, this]
  exact ⟨f1, f3.trans hb.method, f8, by rw [f2, hb.explicit, List.nil_append]⟩

theorem nodeTag_framed {proto o : Obj Unit} {p : Params} {h c tr : Bytes} (ht : NodeTag proto p o) : NodeTag proto p (framedObj o h c tr false) :=
  ⟨ht.tag, ht.method, ht.implicit, ht.explicit⟩

theorem buildTags_nil (p : Params) : p.buildTags [] = p.tags := by
  unfold Params.buildTags
  rw [if_neg]
  exact fun h => h.2 rfl

theorem null_rep {q : Bool} {p : Params} {o : Obj Unit} (h : PlainLeaf (.null o)) (hp : GoodParams p) :
    LeafRep q p (.null o) ((LeafSt.null o).init p.tags) .none := by
  have hg := plainLeaf_good h
  cases h with
  | @null cl tg hcl =>
    refine leafRep_construct hg hp (x := .none) ?_ ?_
    · exact ⟨_, _, [], rfl, rfl, rfl, ⟨fun _ _ => rfl, _, rfl, rfl⟩, rfl, rfl⟩
    · obtain ⟨pe, pi, pn, po, pd⟩ := p
      cases pe <;> cases pi <;> cases pn <;> rfl

theorem step_build {E : Env} {U : ClassId → Prop} {r : Ops} (hU : Universe E U) (hS : Sim E U r) {q : Bool} {c : ClassId} {p : Params} {a : AVal}
    {i : Info} {v : Val} (hg : GoodUse E U c p) (hd : Dec E c p i.tlv a) (hq : q = true → i.trailer = [])
    (hb : buildStep E r i (some c) p none = .ok v) : Rep E q c p v a := by
  have hb : buildPlain E r i (some c) p = .ok v := by
    simp only [buildStep, bind, Except.bind] at hb
    cases h : buildPlain E r i (some c) p with
    | error e => rw [h] at hb; cases hb
    | ok w => rw [h] at hb; exact hb
  cases hd with
  | @leaf _ _ _ u s proto bad h1 h2 h3 =>
    obtain ⟨rfl, hpl⟩ := hU.leaf _ _ _ hg.mem h1
    have hgl := plainLeaf_good hpl
    simp only [buildPlain, h1, bind, Except.bind, hgl.blank.explicit, buildTags_nil] at hb
    cases h4 : defaultCheck E r c p [] with
    | error e => rw [h4] at hb; cases hb
    | ok _ =>
      rw [h4] at hb
      simp only at hb
      cases h5 : LeafSt.build [] (proto.init p.tags) i with
      | error e => rw [h5] at hb; cases hb
      | ok st =>
        rw [h5] at hb
        cases hb
        exact .leaf h1 (leafRep_build hgl (goodParams hg.tags) h2 h3 rfl hq h5)
  | @seq _ _ _ u as proto bad fields h1 h2 h3 h4 =>
    obtain ⟨rfl, _, _, hpn, _⟩ := hU.seq _ _ _ _ _ _ hg.mem h1
    have hbl := plainNode_blank hpn
    have hdef := default_leaf hg (by rw [h1]; intro _ _ h; cases h)
    obtain ⟨h, tr, k1, k2, k3⟩ := buildObj_framed (k := false) (bad := []) hbl (goodParams hg.tags) h2 rfl
    rw [if_pos h3] at k3
    have hdc : defaultCheck E r c p [] = .ok () := by
      unfold defaultCheck
      rw [if_neg]
      rw [hdef]
      exact fun h => by cases h.2.2
    simp only [buildPlain, h1, bind, Except.bind, hbl.explicit, buildTags_nil, k3, hdef, hdc] at hb
    have hb : (Except.ok (Val.node c (framedObj (initTagging proto p.tags) h u.contents tr false) none false) : Py Val) = Except.ok v := by
      rw [← hb]
      cases (framedObj (initTagging proto p.tags) h u.contents tr false).explicit <;> rfl
    cases hb
    refine .seqRaw h1 (nodeTag_framed (nodeTag_init hbl hg.tags)) rfl h4 ?_
    intro h' hh
    cases hh
    exact ⟨i.tlv, k1, .seq h1 h2 h3 h4, hq⟩
  | @seqOf _ _ _ u as proto bad ch h1 h2 h3 h4 =>
    obtain ⟨rfl, _, hpn, _⟩ := hU.seqOf _ _ _ _ _ hg.mem h1
    have hbl := plainNode_blank hpn
    have hdef := default_leaf hg (by rw [h1]; intro _ _ h; cases h)
    obtain ⟨h, tr, k1, k2, k3⟩ := buildObj_framed (k := false) (bad := []) hbl (goodParams hg.tags) h2 rfl
    rw [if_pos h3] at k3
    have hdc : defaultCheck E r c p [] = .ok () := by
      unfold defaultCheck
      rw [if_neg]
      rw [hdef]
      exact fun h => by cases h.2.2
    simp only [buildPlain, h1, bind, Except.bind, hbl.explicit, buildTags_nil, k3, hdc] at hb
    cases hb
    refine .listRaw h1 (nodeTag_framed (nodeTag_init hbl hg.tags)) rfl h4 ?_
    intro h' hh
    cases hh
    exact ⟨i.tlv, k1, .seqOf h1 h2 h3 h4, hq⟩
  | @choice _ _ _ k a alts f h1 h2 h3 h4 h5 =>
    obtain ⟨_, _, hdt, hal⟩ := hU.choice _ _ _ _ hg.mem h1
    obtain ⟨he, him⟩ := hg.choice _ _ _ h1
    have hce : choiceExplicit [] p = [] := by
      unfold choiceExplicit
      rw [he, hg.tags.keep]; rfl
    obtain ⟨hgf, _, _⟩ := hal f (List.mem_of_getElem? h3)
    have hfind := find_alt (fun g hm => (hal g hm).2.2) hdt h3 (dec_outer hU hgf h4)
    have hv : choiceValidate E [] none alts i.cls i.tag i.contents = .ok k := by
      simp only [choiceValidate, List.getLast?_nil, bind, Except.bind]
      rw [show alts.zipIdx.reverse.find? (fun a => fieldIdent E a.1 == some (i.cls, i.tag)) = some (f, k) from hfind]
    have htr : i.trailer = [] := h5
    have hbytes : i.header ++ i.contents = i.tlv.bytes := by
      simp [TLV.bytes, Info.tlv, htr]
    have hpb : parseBuild r (i.header ++ i.contents) (some f.spec) f.params = r.build i (some f.spec) f.params none := by
      unfold parseBuild
      rw [hbytes, parse_whole (dec_ber h4) false]
      rfl
    simp only [buildPlain, h1, hce, ne_eq, not_true_eq_false, false_and, if_false, him, Option.isSome_none, Bool.false_eq_true, buildChoice,
      buildChoiceBase, hv, bind, Except.bind, h3, hpb] at hb
    cases h6 : r.build i (some f.spec) f.params none with
    | error e => rw [h6] at hb; cases hb
    | ok w =>
      rw [h6] at hb
      cases hb
      exact .choice h1 h2 h3 rfl (.inr rfl) (hS.build hgf h4 (fun _ => htr) h6)

theorem step_native {E : Env} {U : ClassId → Prop} {r : Ops} (hU : Universe E U) (hS : Sim E U r) {q : Bool} {c : ClassId} {p : Params} {a : AVal}
    {v v' : Val} {x : PyVal} (hg : GoodUse E U c p) (h : Rep E q c p v a) (hn : nativeStep E r v = .ok (x, v')) :
    x = a.native E c ∧ Rep E q c p v' a := by
  have node : ∀ {c' o ch m}, Rep E q c p (.node c' o ch m) a → nativeStep E r (.node c' o ch m) = .ok (x, v') → x = a.native E c ∧ Rep E q c p v' a := by
    intro c' o ch m h hn
    obtain rfl := (rep_node.mp h).1
    exact nodeNative_rep hU hS hg h hn
  cases h with
  | @leaf _ _ _ st proto bad s h1 h2 =>
    simp only [nativeStep, bind, Except.bind] at hn
    cases h3 : st.native with
    | error e => rw [h3] at hn; cases hn
    | ok y =>
      obtain ⟨n, st'⟩ := y
      rw [h3] at hn
      cases hn
      obtain ⟨k1, _, k2⟩ := h2.native_step h3
      exact ⟨by rw [k1]; simp only [AVal.native], .leaf h1 k2⟩
  | seqRaw h1 h2 h3 h4 h5 => exact node (.seqRaw h1 h2 h3 h4 h5) hn
  | seq h1 h2 h3 h4 => exact node (.seq h1 h2 h3 h4) hn
  | listRaw h1 h2 h3 h4 h5 => exact node (.listRaw h1 h2 h3 h4 h5) hn
  | list h1 h2 h3 h4 => exact node (.list h1 h2 h3 h4) hn
  | @choice _ _ _ o alts k f w a h1 h2 h3 h4 h5 h6 =>
    obtain ⟨_, _, _, hal⟩ := hU.choice _ _ _ _ hg.mem h1
    obtain ⟨hgf, _, _⟩ := hal f (List.mem_of_getElem? h3)
    simp only [nativeStep, choiceParse, bind, Except.bind] at hn
    cases h7 : r.native w with
    | error e => rw [h7] at hn; cases hn
    | ok y =>
      obtain ⟨n, w'⟩ := y
      rw [h7] at hn
      cases hn
      obtain ⟨k1, k2⟩ := hS.native hgf h6 h7
      refine ⟨?_, .choice h1 h2 h3 h4 h5 k2⟩
      rw [k1, AVal.native, h1]
      simp only [h3]

theorem step_dump {E : Env} {U : ClassId → Prop} {r : Ops} (hU : Universe E U) (hS : Sim E U r) {q : Bool} {c : ClassId} {p : Params} {a : AVal}
    {v v' : Val} {b : Bytes} {force : Bool} (hg : GoodUse E U c p) (h : Rep E q c p v a) (hn : dumpStep E r v force = .ok (b, v')) :
    Rep E q c p v' a ∧ Whole E c a ∧ ∃ t : TLV, t.bytes = b ∧ Dec E c p t a ∧ (q = true → t.trailer = []) := by
  have node : ∀ {c' o ch m}, Rep E q c p (.node c' o ch m) a → dumpStep E r (.node c' o ch m) force = .ok (b, v') →
      Rep E q c p v' a ∧ Whole E c a ∧ ∃ t : TLV, t.bytes = b ∧ Dec E c p t a ∧ (q = true → t.trailer = []) := by
    intro c' o ch m h hn
    obtain rfl := (rep_node.mp h).1
    exact nodeDump_rep hU hS hg h hn
  cases h with
  | @leaf _ _ _ st proto bad s h1 h2 =>
    obtain ⟨rfl, hpl⟩ := hU.leaf _ _ _ hg.mem h1
    simp only [dumpStep, bind, Except.bind] at hn
    cases h3 : st.dump force with
    | error e => rw [h3] at hn; cases hn
    | ok y =>
      obtain ⟨n, st'⟩ := y
      rw [h3] at hn
      cases hn
      obtain ⟨k1, t, u, k2, k3, k4, k5⟩ := h2.dump_step (plainLeaf_good hpl) (goodParams hg.tags).valid h3
      exact ⟨.leaf h1 k1, by simp only [Whole], t, k2, .leaf h1 k3 k4, k5⟩
  | seqRaw h1 h2 h3 h4 h5 => exact node (.seqRaw h1 h2 h3 h4 h5) hn
  | seq h1 h2 h3 h4 => exact node (.seq h1 h2 h3 h4) hn
  | listRaw h1 h2 h3 h4 h5 => exact node (.listRaw h1 h2 h3 h4 h5) hn
  | list h1 h2 h3 h4 => exact node (.list h1 h2 h3 h4) hn
  | @choice _ _ _ o alts k f w a h1 h2 h3 h4 h5 h6 =>
    obtain ⟨_, _, _, hal⟩ := hU.choice _ _ _ _ hg.mem h1
    obtain ⟨hgf, _, _⟩ := hal f (List.mem_of_getElem? h3)
    have h80 : headerEnds80 o.header = false := by
      rcases h5 with h5 | h5 <;> rw [h5] <;> rfl
    simp only [dumpStep, choiceDump, choiceParse, bind, Except.bind, h80, Bool.or_false] at hn
    cases h7 : r.dump w force with
    | error e => rw [h7] at hn; cases hn
    | ok y =>
      obtain ⟨n, w'⟩ := y
      rw [h7] at hn
      obtain ⟨k1, t, k2, k3, k4⟩ := hS.dump hgf h6 h7
      have key : b = n ∧ Rep E q c p v' (.alt k a) := by
        rcases h5 with h5 | h5
        · rw [h5] at hn
          simp only [h4, choiceHeader] at hn
          cases hn
          exact ⟨rfl, .choice h1 h2 h3 rfl (.inr rfl) k1⟩
        · rw [h5] at hn
          cases force <;> simp only [h4, choiceHeader] at hn <;> cases hn
          · exact ⟨rfl, .choice h1 h2 h3 rfl (.inr rfl) k1⟩
          · exact ⟨rfl, .choice h1 h2 h3 rfl (.inr rfl) k1⟩
      refine ⟨key.2, ?_, t, k2.trans key.1.symm, .choice h1 h2 h3 k3 (k4 rfl), fun _ => k4 rfl⟩
      simp only [Whole]
      intro e tg alts' f' hcl hf'
      rw [h1] at hcl
      cases hcl
      rw [h3] at hf'
      cases hf'
      exact hS.dumpWhole hgf h6 h7

theorem step_contents {E : Env} {U : ClassId → Prop} {r : Ops} (hU : Universe E U) (hS : Sim E U r) {q : Bool} {c : ClassId} {p : Params} {a : AVal}
    {v v' : Val} {b : Option Bytes} (hg : GoodUse E U c p) (h : Rep E q c p v a) (hn : contentsStep E r v = .ok (b, v')) :
    Rep E q c p v' a := by
  have node : ∀ {c' o ch m}, Rep E q c p (.node c' o ch m) a → contentsStep E r (.node c' o ch m) = .ok (b, v') → Rep E q c p v' a := by
    intro c' o ch m h hn
    obtain rfl := (rep_node.mp h).1
    simp only [contentsStep, bind, Except.bind] at hn
    cases h3 : nodeContents E r c' o ch m with
    | error e => rw [h3] at hn; cases hn
    | ok y =>
      obtain ⟨o', ch', m'⟩ := y
      rw [h3] at hn
      cases hn
      exact (nodeContents_rep hU hS hg.mem h h3).1
  cases h with
  | leaf h1 h2 =>
    cases hn
    exact .leaf h1 h2
  | seqRaw h1 h2 h3 h4 h5 => exact node (.seqRaw h1 h2 h3 h4 h5) hn
  | seq h1 h2 h3 h4 => exact node (.seq h1 h2 h3 h4) hn
  | listRaw h1 h2 h3 h4 h5 => exact node (.listRaw h1 h2 h3 h4 h5) hn
  | list h1 h2 h3 h4 => exact node (.list h1 h2 h3 h4) hn
  | @choice _ _ _ o alts k f w a h1 h2 h3 h4 h5 h6 =>
    obtain ⟨_, _, _, hal⟩ := hU.choice _ _ _ _ hg.mem h1
    obtain ⟨hgf, _, _⟩ := hal f (List.mem_of_getElem? h3)
    simp only [contentsStep, bind, Except.bind] at hn
    cases h7 : r.contents w with
    | error e => rw [h7] at hn; cases hn
    | ok y =>
      obtain ⟨n, w'⟩ := y
      rw [h7] at hn
      cases hn
      exact .choice h1 h2 h3 h4 h5 (hS.contents hgf h6 h7)

theorem step_default {E : Env} {U : ClassId → Prop} {r : Ops} (hU : Universe E U) {q : Bool} {f : Field} {v : Val}
    (hg : GoodUse E U f.spec f.params) (hd : f.params.default.isSome = true) (hn : constructStep E r f.spec f.params (.scalar .none) = .ok v) :
    ∃ a, DefaultIs E f a ∧ Rep E q f.spec f.params v a := by
  obtain ⟨d, hd⟩ := Option.isSome_iff_exists.mp hd
  obtain ⟨ho, proto, bad, x, s, g1, rfl, g3, g4⟩ := hg.default d hd
  obtain ⟨rfl, hpl⟩ := hU.leaf _ _ _ hg.mem g1
  refine ⟨.prim s, ⟨proto, _, x, s, g1, hd, g3, rfl, g4⟩, ?_⟩
  simp only [constructStep, g1, hd, givenValue] at hn
  simp only [bind, Except.bind] at hn
  cases h2 : (proto.init f.params.tags).set x with
  | error e => rw [h2] at hn; cases hn
  | ok st =>
    rw [h2] at hn
    cases hn
    exact .leaf g1 (leafRep_construct (plainLeaf_good hpl) (goodParams hg.tags) g4 h2)

theorem step_construct {E : Env} {U : ClassId → Prop} {r : Ops} (hU : Universe E U) (hS : Sim E U r) {q : Bool} {c : ClassId} {p : Params} {x : PyVal}
    {a : AVal} {v : Val} (hg : GoodUse E U c p) (h : Conv E (Inst E U) q c p x a) (hn : constructStep E r c p x = .ok v) : Rep E q c p v a := by
  cases h with
  | @prim _ _ _ x s proto bad h1 h2 h3 =>
    obtain ⟨rfl, hpl⟩ := hU.leaf _ _ _ hg.mem h1
    have hgv : givenValue p.default (.scalar x) = .scalar x := by
      cases x <;> first | rfl | exact absurd rfl h2
    simp only [constructStep, h1, hgv] at hn
    simp only [bind, Except.bind] at hn
    cases h4 : (proto.init p.tags).set x with
    | error e => rw [h4] at hn; cases hn
    | ok st =>
      rw [h4] at hn
      cases hn
      exact .leaf h1 (leafRep_construct (plainLeaf_good hpl) (goodParams hg.tags) h3 h4)
  | @null _ _ _ o bad h1 h2 =>
    obtain ⟨rfl, hpl⟩ := hU.leaf _ _ _ hg.mem h1
    simp only [constructStep, h1, h2, givenValue] at hn
    cases hn
    exact .leaf h1 (null_rep hpl (goodParams hg.tags))
  | @seq _ _ _ d as proto bad fields h1 h2 h3 _ =>
    obtain ⟨_, _, _, hpn, _, _, hfs⟩ := hU.seq _ _ _ _ _ _ hg.mem h1
    have hbl := plainNode_blank hpn
    have hcn : (initTagging proto p.tags).contents = none := by
      obtain ⟨_, _, _, _, _, _, f7⟩ := initTagging_fields proto p hg.tags.keep
      obtain ⟨_, _, _, rfl⟩ := hpn
      exact f7
    have ht := nodeTag_init hbl hg.tags
    simp only [constructStep, h1, givenValue, seqInit, bind, Except.bind] at hn
    cases h4 : setFromDict E r d false fields 0 (.node c (initTagging proto p.tags) none false) with
    | error e => rw [h4] at hn; cases hn
    | ok w =>
      rw [h4] at hn
      simp only at hn
      split at hn
      · cases hn
        obtain ⟨as0, has0⟩ := fresh_exists fields hfs
        obtain ⟨ch', m', rfl, k2, k3⟩ := setFromDict_rep hU hS hg.mem h1 fields [] [] as0 as none false v rfl rfl h2 has0
          (fresh_kids hU hS hg.mem h1 hcn has0) h4
        rcases k3 with ⟨_, _, k3⟩ | ⟨rfl, cs, rfl⟩
        · obtain ⟨f, hf1, hf2⟩ := h3
          exact absurd (k3 f hf1) hf2
        · exact .seq h1 ht (k2 cs rfl) (fun h => by simp [Val.isMutated] at h)
      · cases hn
  | @list _ _ _ xs as proto bad ch h1 h2 =>
    obtain ⟨_, _, hpn, d, hd, hUd⟩ := hU.seqOf _ _ _ _ _ hg.mem h1
    cases hd
    have hbl := plainNode_blank hpn
    have hcn : (initTagging proto p.tags).contents = none := by
      obtain ⟨_, _, _, _, _, _, f7⟩ := initTagging_fields proto p hg.tags.keep
      obtain ⟨_, _, _, rfl⟩ := hpn
      exact f7
    have ht := nodeTag_init hbl hg.tags
    simp only [constructStep, h1, givenValue, bind, Except.bind] at hn
    cases h4 : setFromList E r xs 0 (.node c (initTagging proto p.tags) none false) with
    | error e => rw [h4] at hn; cases hn
    | ok w =>
      rw [h4] at hn
      simp only at hn
      obtain ⟨ch', m', rfl, k2, k3⟩ := setFromList_rep hU hS hUd h1 xs [] as none false w h2
        (by
          intro cs hcs
          simp only [ensureChildren, parseChildren, h1, hcn, parseSeqOf] at hcs
          cases hcs
          exact .nil) h4
      rcases k3 with ⟨rfl, rfl⟩ | ⟨rfl, cs, rfl⟩
      · simp only [contentsStep, nodeContents, bind, Except.bind, hcn] at hn
        cases h5 : setContents E r c (initTagging proto p.tags) none false with
        | error e => rw [h5] at hn; cases hn
        | ok y =>
          obtain ⟨o', cs'⟩ := y
          rw [h5] at hn
          cases hn
          obtain ⟨j1, j2, j3, j4⟩ := setContents_rep (a := .list as) hU hS hg.mem (fun cs hcs => .list h1 (k2 cs hcs)) h5
          exact rep_node.mpr ⟨rfl, proto, .inr ⟨_, _, h1⟩, j4 _ _ ht, .inr ⟨cs', rfl, j1, fun _ => j2 _ _⟩⟩
      · have hrep : Rep E q c p (.node c (initTagging proto p.tags) (some cs) true) (.list as) :=
          .list h1 ht (k2 cs rfl) (fun h => by simp [Val.isMutated] at h)
        simp only [contentsStep, bind, Except.bind] at hn
        cases h5 : nodeContents E r c (initTagging proto p.tags) (some cs) true with
        | error e => rw [h5] at hn; cases hn
        | ok y =>
          obtain ⟨o', ch', m'⟩ := y
          rw [h5] at hn
          obtain ⟨j1, ⟨data, j2, _⟩, _⟩ := nodeContents_rep hU hS hg.mem hrep h5
          simp only [j2] at hn
          cases hn
          exact j1
  | @alt _ _ _ n x k a alts f h1 h2 h3 h4 =>
    obtain ⟨_, _, _, hal⟩ := hU.choice _ _ _ _ hg.mem h1
    obtain ⟨hgf, _, _⟩ := hal f (List.mem_of_getElem? h3)
    obtain ⟨he, him⟩ := hg.choice _ _ _ h1
    have hdef := default_leaf hg (by rw [h1]; intro _ _ h; cases h)
    have hce : choiceExplicit [] p = [] := by
      unfold choiceExplicit
      rw [he, hg.tags.keep]; rfl
    have fin : ∀ {y}, Rep E true f.spec f.params y a →
        Rep E q c p (.choice c { cls := 0, method := 0, tag := 0, explicit := choiceExplicit [] p } (some k) (some y)) (.alt k a) :=
      fun hy => .choice h1 he h3 hce (.inl rfl) hy
    simp only [constructStep, h1, hdef, him, h2, h3, bind, Except.bind] at hn
    have other : (∀ w, x ≠ .asn1 w) → ∃ y, r.construct f.spec f.params x = .ok y ∧
        v = .choice c { cls := 0, method := 0, tag := 0, explicit := choiceExplicit [] p } (some k) (some y) := by
      intro hx
      cases x with
      | asn1 w => exact absurd rfl (hx w)
      | _ =>
        simp only at hn
        split at hn
        · cases hn
        · next y hy =>
          cases hn
          exact ⟨y, hy, rfl⟩
    by_cases hx : ∃ w, x = .asn1 w
    · obtain ⟨w, rfl⟩ := hx
      cases h4 with
      | inst g1 g2 =>
        simp only [rep_classOf g1.2, if_true] at hn
        cases h5 : fixTagging E r w f.params with
        | error e => rw [h5] at hn; cases hn
        | ok y =>
          rw [h5] at hn
          cases hn
          exact fin (fixTagging_rep hU hS g1.1 hgf g1.2 g2 h5)
    · obtain ⟨y, hy, rfl⟩ := other (fun w hw => hx ⟨w, hw⟩)
      exact fin (hS.construct hgf h4 hy)
  | @inst _ _ _ _ w _ h1 h2 =>
    exfalso
    cases hcl : E.cls c with
    | leaf proto bad => simp [constructStep, hcl, givenValue] at hn
    | seq proto bad isSet fields oid => simp [constructStep, hcl, givenValue, seqInit] at hn
    | seqOf proto bad isSet ch => simp [constructStep, hcl, givenValue] at hn
    | choice e t alts =>
      obtain ⟨he, him⟩ := hg.choice _ _ _ hcl
      have hdef := default_leaf hg (by rw [hcl]; intro _ _ h; cases h)
      simp [constructStep, hcl, hdef, him] at hn
    | any => exact absurd hcl (hU.any _ hg.mem)
    | parsable o b => exact absurd hcl (hU.parsable _ _ _ hg.mem)

theorem step_copyTo {E : Env} {U : ClassId → Prop} {r : Ops} (hU : Universe E U) (hS : Sim E U r) {q q' : Bool} {c : ClassId} {p p' : Params} {a : AVal}
    {v v' : Val} {cl tg : Nat} {im : Bool} {es : List (Nat × Nat)} (hg : GoodUse E U c p) (h : Rep E q c p v a) (hw : Whole E c a)
    (ha : TagArgs E c p' cl tg im es) (hn : copyStep E r v cl tg im es = .ok v') : Rep E q' c p' v' a := by
  have node : ∀ {c' o ch m}, Rep E q c p (.node c' o ch m) a → copyStep E r (.node c' o ch m) cl tg im es = .ok v' → Rep E q' c p' v' a := by
    intro c' o ch m h hn
    obtain rfl := (rep_node.mp h).1
    simp only [copyStep, bind, Except.bind] at hn
    cases h3 : nodeContents E r c' o ch m with
    | error e => rw [h3] at hn; cases hn
    | ok y =>
      obtain ⟨o', ch', m'⟩ := y
      rw [h3] at hn
      cases hn
      obtain ⟨_, ⟨data, k1, k2⟩, ⟨proto, k3, _⟩, _⟩ := nodeContents_rep hU hS hg.mem h h3
      refine rep_node.mpr ⟨rfl, proto, k3, ?_, .inl ⟨rfl, rfl, data, k1, (k2 hw).1, fun h hh => by cases hh⟩⟩
      obtain ⟨t1, t2⟩ := ha
      rcases k3 with ⟨bad, fields, hcl⟩ | ⟨bad, ch, hcl⟩
      · rw [hcl] at t2
        exact ⟨t2.1, rfl, t2.2, t1⟩
      · rw [hcl] at t2
        exact ⟨t2.1, rfl, t2.2, t1⟩
  cases h with
  | @leaf _ _ _ st proto bad s h1 h2 =>
    obtain ⟨rfl, hpl⟩ := hU.leaf _ _ _ hg.mem h1
    simp only [copyStep, bind, Except.bind] at hn
    cases h3 : st.copyTo cl tg im es with
    | error e => rw [h3] at hn; cases hn
    | ok st' =>
      rw [h3] at hn
      cases hn
      obtain ⟨t1, t2⟩ := ha
      rw [h1] at t2
      exact .leaf h1 (h2.copy_step (plainLeaf_good hpl) t2.1 t2.2 t1 h3)
  | seqRaw h1 h2 h3 h4 h5 => exact node (.seqRaw h1 h2 h3 h4 h5) hn
  | seq h1 h2 h3 h4 => exact node (.seq h1 h2 h3 h4) hn
  | listRaw h1 h2 h3 h4 h5 => exact node (.listRaw h1 h2 h3 h4 h5) hn
  | list h1 h2 h3 h4 => exact node (.list h1 h2 h3 h4) hn
  | @choice _ _ _ o alts k f w a h1 h2 h3 h4 h5 h6 =>
    obtain ⟨_, _, _, hal⟩ := hU.choice _ _ _ _ hg.mem h1
    obtain ⟨hgf, _, _⟩ := hal f (List.mem_of_getElem? h3)
    have hwf : Whole E f.spec a := by
      simp only [Whole] at hw
      exact hw _ _ _ _ h1 h3
    obtain ⟨t1, t2⟩ := ha
    rw [h1] at t2
    simp only [copyStep, bind, Except.bind] at hn
    cases h7 : contentsStep E r (.choice c o (some k) (some w)) with
    | error e => rw [h7] at hn; cases hn
    | ok y =>
      obtain ⟨b, y⟩ := y
      rw [h7] at hn
      simp only at hn
      cases h8 : copyVal r w with
      | error e => rw [h8] at hn; cases hn
      | ok w' =>
        rw [h8] at hn
        cases hn
        exact .choice h1 t2 h3 (t1.trans t2) (.inl rfl) (copyVal_rep hS hgf h6 hwf h8)

theorem sim_zero (E : Env) (U : ClassId → Prop) : Sim E U Ops.zero := by
  constructor <;> intros <;> simp_all [Ops.zero]

theorem sim_step {E : Env} {U : ClassId → Prop} {r : Ops} (hU : Universe E U) (hS : Sim E U r) : Sim E U (r.step E) where
  build := step_build hU hS
  native := step_native hU hS
  dump := fun hg h hn => ⟨(step_dump hU hS hg h hn).1, (step_dump hU hS hg h hn).2.2⟩
  dumpWhole := fun hg h hn => (step_dump hU hS hg h hn).2.1
  contents := step_contents hU hS
  default := step_default hU
  construct := step_construct hU hS
  copyTo := fun hg _ h hw ha hn => step_copyTo hU hS hg h hw ha hn
  voidNative := fun h => by cases h; exact ⟨rfl, rfl⟩
  voidDump := fun h => by cases h; exact ⟨rfl, rfl⟩
  voidContents := fun h => by cases h; rfl

/-- The operations of the library treat instances as what they stand for. -/
theorem sim_ops {E : Env} {U : ClassId → Prop} (hU : Universe E U) : ∀ n, Sim E U (ops E n)
  | 0 => sim_zero E U
  | n + 1 => sim_step hU (sim_ops hU n)

end Asn1
