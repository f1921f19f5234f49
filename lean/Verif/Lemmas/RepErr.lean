import Verif.Lemmas.RepRead

/-! # Missing fields and unexpected elements of a SEQUENCE -/

namespace Asn1
open Spec Props

/-- An element with the tagging of a SEQUENCE is loaded without looking at its contents. -/
theorem build_framed {E : Env} {U : ClassId → Prop} {r : Ops} (hU : Universe E U) {c : ClassId} {p : Params} {i : Info} {u : TLV}
    {proto : Obj Unit} {bad : List Nat} {isSet : Bool} {fields : List Field} {oid : Option OidPair} (hg : GoodUse E U c p)
    (h1 : E.cls c = .seq proto bad isSet fields oid) (h2 : Framed (proto.cls, proto.tag) p i.tlv u) (h3 : u.method = 1) :
    ∃ o, buildStep E r i (some c) p none = .ok (.node c o none false) ∧ o.contents = some u.contents := by
  obtain ⟨rfl, _, _, hpn, _⟩ := hU.seq _ _ _ _ _ _ hg.mem h1
  have hbl := plainNode_blank hpn
  have hdef := default_leaf hg (by rw [h1]; intro _ _ h; cases h)
  obtain ⟨h, tr, k1, k2, k3⟩ := buildObj_framed (k := false) (bad := []) hbl (goodParams hg.tags) h2 rfl
  rw [if_pos h3] at k3
  have hdc : defaultCheck E r c p [] = .ok () := by
    unfold defaultCheck
    rw [if_neg]
    rw [hdef]
    exact fun h => by cases h.2.2
  refine ⟨framedObj (initTagging proto p.tags) h u.contents tr false, buildStep_plain ?_, rfl⟩
  simp only [buildPlain, h1, bind, Except.bind, hbl.explicit, buildTags_nil, k3, hdef, hdc]
  cases (framedObj (initTagging proto p.tags) h u.contents tr false).explicit <;> rfl

/-- The same for `load`. -/
theorem load_framed {E : Env} {U : ClassId → Prop} (hU : Universe E U) {c : ClassId} {p : Params} {t u : TLV} {n : Nat} {strict : Bool}
    {proto : Obj Unit} {bad : List Nat} {isSet : Bool} {fields : List Field} {oid : Option OidPair} (hg : GoodUse E U c p)
    (h1 : E.cls c = .seq proto bad isSet fields oid) (h2 : Framed (proto.cls, proto.tag) p t u) (h3 : u.method = 1) :
    ∃ o, loadVal E (ops E (n + 1)) c p t.bytes strict = .ok (.node c o none false) ∧ o.contents = some u.contents := by
  obtain ⟨i, rfl⟩ := info_tlv t
  obtain ⟨o, k1, k2⟩ := build_framed (r := ops E n) hU hg h1 h2 h3
  refine ⟨o, ?_, k2⟩
  unfold loadVal
  rw [parse_whole h2.ber]
  simp only [bind, Except.bind]
  rw [h1]
  exact k1

/-- What a SEQUENCE built from a dict looks like. -/
theorem construct_dict {E : Env} {U : ClassId → Prop} (hU : Universe E U) {c : ClassId} {p : Params} {d : List (String × PyVal)} {as : List AVal}
    {proto : Obj Unit} {bad : List Nat} {fields : List Field} {n : Nat} {v : Val} (hg : GoodUse E U c p)
    (h1 : E.cls c = .seq proto bad false fields none) (h2 : FieldsConv E (Inst E U) fields d as) (h3 : ∃ f ∈ fields, valueOf d f.name ≠ none)
    (hn : (ops E n).construct c p (.dict d) = .ok v) :
    ∃ o cs, v = .node c o (some cs) true ∧ o.header = none ∧ FieldsRep E fields cs as := by
  cases n with
  | zero => cases hn
  | succ n =>
    have hS := sim_ops (E := E) hU n
    replace hn : constructStep E (ops E n) c p (.dict d) = .ok v := hn
    generalize ops E n = r at hS hn
    obtain ⟨_, _, _, hpn, _, _, hfs⟩ := hU.seq _ _ _ _ _ _ hg.mem h1
    have hf := initTagging_fields proto p hg.tags.keep
    have hcn : (initTagging proto p.tags).contents = none := by
      obtain ⟨_, _, _, _, _, _, f7⟩ := hf
      obtain ⟨_, _, _, rfl⟩ := hpn
      exact f7
    have hhn : (initTagging proto p.tags).header = none := by
      obtain ⟨_, _, _, f4, _⟩ := hf
      obtain ⟨_, _, _, rfl⟩ := hpn
      exact f4
    simp only [constructStep, h1, givenValue, seqInit, bind, Except.bind] at hn
    cases h4 : setFromDict E r d false fields 0 (.node c (initTagging proto p.tags) none false) with
    | error e => rw [h4] at hn; cases hn
    | ok w =>
      rw [h4] at hn
      simp only at hn
      split at hn
      · cases hn
        obtain ⟨as0, has0⟩ := fresh_exists fields hfs
        obtain ⟨ch', m', rfl, k2, k3⟩ := setFromDict_rep hU hS hg.mem h1 fields [] [] as0 as none false v rfl rfl h2 has0
          (fresh_kids hU hS hg.mem h1 hcn has0) h4
        rcases k3 with ⟨_, _, k3⟩ | ⟨rfl, cs, rfl⟩
        · obtain ⟨f, hf1, hf2⟩ := h3
          exact absurd (k3 f hf1) hf2
        · exact ⟨_, cs, rfl, hhn, k2 cs rfl⟩
      · cases hn

/-- The check for required fields that are missing. -/
theorem requiredPresent_incomplete {E : Env} : ∀ {fs : List Field} {cs : List Child} {as : List AVal}, FieldsRep E fs cs as →
    ¬ Complete fs as → requiredPresent fs cs = .error .valueError
  | [], _, _, h, hc => by cases h; exact absurd .nil hc
  | f :: fs, _, _, h, hc => by
    cases h with
    | @lazy _ _ i cs a as h1 h2 =>
      have hc' : ¬ Complete fs as := fun h => hc (.cons (fun h => absurd h (dec_ne_absent h1)) h)
      have := requiredPresent_incomplete h2 hc'
      exact this
    | @val _ _ v cs a as h1 h2 =>
      have hc' : ¬ Complete fs as := fun h => hc (.cons (fun h => absurd h (rep_ne_absent h1)) h)
      have := requiredPresent_incomplete h2 hc'
      cases h1 <;> exact this
    | @void _ _ cs as h1 h2 =>
      simp only [requiredPresent, h1, Option.isSome_none, Bool.false_or]
      by_cases ho : f.params.optional = true
      · rw [if_pos ho]
        exact requiredPresent_incomplete h2 (fun h => hc (.cons (fun _ => ho) h))
      · rw [if_neg ho]

theorem nodeDump_incomplete {E : Env} {r : Ops} {c : ClassId} {o : Obj Unit} {cs : List Child} {m : Bool} {as : List AVal}
    {proto : Obj Unit} {bad : List Nat} {isSet : Bool} {fields : List Field} {oid : Option OidPair} (h1 : E.cls c = .seq proto bad isSet fields oid)
    (hh : o.header = none) (hr : FieldsRep E fields cs as) (hc : ¬ Complete fields as) :
    nodeDump E r c o (some cs) m false = .error .valueError := by
  simp only [nodeDump, hh, headerEnds80, Bool.or_false, Bool.false_and, Bool.false_eq_true, if_false, bind, Except.bind, checkRequired, h1,
    requiredPresent_incomplete hr hc]

/-- Reading the fields of a SEQUENCE whose elements are not those of the fields. -/
theorem unexpected_field {E : Env} {U : ClassId → Prop} (hU : Universe E U) {c : ClassId} {p : Params} {o : Obj Unit} {ts : List TLV} {data : Bytes} {n : Nat}
    {proto : Obj Unit} {bad : List Nat} {isSet : Bool} {fields : List Field} {oid : Option OidPair} (hg : GoodUse E U c p)
    (h1 : E.cls c = .seq proto bad isSet fields oid) (ho : o.contents = some data) (he : Elements data ts)
    (hp : ∀ used extra, ts = used ++ extra → ¬ Placed E fields used) :
    (∃ (k : Nat) (f : Field), fields[k]? = some f ∧ getItem E (ops E (n + 1)) (.node c o none false) k = .error .valueError) ∧
      ∀ y, (ops E (n + 2)).native (.node c o none false) ≠ .ok y := by
  obtain ⟨rfl, rfl, rfl, _, hne, _, hfs⟩ := hU.seq _ _ _ _ _ _ hg.mem h1
  obtain ⟨is, rfl⟩ := elements_infos ts
  have hens : ensureChildren E (ops E (n + 1)) c o none = parseSeq E (ops E (n + 1)) fields none (some data) := by
    simp only [ensureChildren, parseChildren, h1, ho]
  have hnat : ∀ y, (ops E (n + 2)).native (.node c o none false) = .ok y → ∃ cs z, parseSeq E (ops E (n + 1)) fields none (some data) = .ok cs ∧
      nativeFields (ops E (n + 1)) fields 0 cs = .ok z := by
    intro y hy
    replace hy : nodeNative E (ops E (n + 1)) c o none false = .ok y := hy
    simp only [nodeNative, nodeContents, ho, bind, Except.bind, hens, h1] at hy
    cases h2 : parseSeq E (ops E (n + 1)) fields none (some data) with
    | error e => rw [h2] at hy; cases hy
    | ok cs =>
      rw [h2] at hy
      simp only at hy
      cases h3 : nativeFields (ops E (n + 1)) fields 0 cs with
      | error e => rw [h3] at hy; cases hy
      | ok z => exact ⟨cs, z, rfl, h3⟩
  rcases parseSeq_took (n := n) hU hfs he with hps | ⟨cs, hps, ht⟩
  · obtain ⟨f, fs, rfl⟩ := List.exists_cons_of_ne_nil hne
    refine ⟨⟨0, f, rfl, ?_⟩, fun y hy => ?_⟩
    · simp only [getItem, hens, hps, bind, Except.bind]
    · obtain ⟨cs, _, h2, _⟩ := hnat y hy
      rw [hps] at h2
      cases h2
  · rcases took_placed ht with ⟨used, extra, g1, g2⟩ | ⟨k, f, i, g1, g2, _, g4, g5⟩
    · exact absurd g2 (hp _ _ g1)
    · have hgf := hfs f (List.mem_of_getElem? g1)
      have hdn : f.params.default = none := by
        simp only [Field.skippable, Bool.or_eq_false_iff] at g4
        simpa using g4.2
      have hb : buildChild (ops E (n + 1)) (paramsAt fields k) (.lazy i (some f.spec) none) = .error .valueError := by
        have : paramsAt fields k = f.params := by simp [paramsAt, g1]
        rw [this]
        exact build_mismatch hU hgf hdn g5
      refine ⟨⟨k, f, g1, ?_⟩, fun y hy => ?_⟩
      · simp only [getItem, hens, hps, bind, Except.bind, g2, h1, hb]
      · obtain ⟨cs', z, h2, h3⟩ := hnat y hy
        rw [hps] at h2
        cases h2
        exact nativeFields_error (idx := 0) g2 (by rw [Nat.zero_add]; exact hb) _ h3

end Asn1
