import Verif.Lemmas.MadeSeq
import Verif.Lemmas.SetOf

/-! # Making instances of the different kinds of classes -/

namespace Asn1
open Spec Props

theorem given_some {default : Option PyVal} {x : PyVal} (h : x = .scalar .none → default = none) : givenValue default x = x := by
  unfold givenValue
  split
  · next d => exact absurd (h rfl) (by simp)
  · rfl

theorem makes_leaf {E : Env} {U : ClassId → Prop} (hT : Types E U) {c : ClassId} (hU : U c) {x s : Scalar} {b : Bytes} {proto : LeafSt} {bad : List Nat}
    (hc : E.cls c = .leaf proto bad) (hnull : ∀ o, proto ≠ .null o) (hx : x ≠ .none) (hw : Written proto x b s) :
    Makes E c (.scalar x) (.octets 0 b) (.scalar s) := by
  refine ⟨fun _ => (by rw [hc]; trivial), fun v h => (by cases h), ⟨?_, ?_⟩, by rw [hc]; simp, ?_⟩
  · rintro ⟨e, tagged, alts, h⟩; rw [hc] at h; cases h
  · rintro ⟨_, _, h⟩; cases h
  intro q hq _ _
  have hB := hT.leaf c proto bad hU hc
  obtain ⟨st, w1, w2, w3, _⟩ := hw
  have hnn : proto.notNull = true := by
    cases proto <;> first | rfl | exact absurd rfl (hnull _)
  obtain ⟨c0, a1, a2, a3, a4⟩ := LeafSt.set_spec hnn w1
  have hkind : (proto.init q.tags).kind = proto.kind := LeafSt.kind_map _ _
  obtain ⟨t', b1, b2, b3⟩ := a4 _ hkind
  have hc0 : c0 = b := by
    rw [a1] at w2
    exact Option.some.inj w2
  subst hc0
  obtain ⟨c1, d1, _⟩ := LeafSt.set_spec (by rw [LeafSt.kind_notNull hkind]; exact hnn) b1
  rw [LeafSt.base_init] at d1
  obtain ⟨i1, i2, i3, i4, i5, i6, i7⟩ := initTagging_fields proto.base q hq.keep
  refine ⟨.leaf c t', Ev.up (Ev.of (fun j => ?_)), .leaf b2 ?_ ?_ ?_, by rw [hc]; rfl, ?_, ?_, ?_⟩
  · rw [ops_construct]
    unfold constructStep
    rw [given_some (fun h => by injection h with h; exact absurd h hx)]
    simp only [hc]
    cases x <;> first | exact absurd rfl hx | simp only [b1, bind, Except.bind]
  · rw [d1]; rfl
  · rw [d1]
    show (!_ && (initTagging proto.base q.tags).indefinite) = false
    rw [i6, hB.indefinite, Bool.and_false]
  · rw [d1]
    show (if (_ && (initTagging proto.base q.tags).indefinite) = true then 0 else (initTagging proto.base q.tags).method) = 0
    rw [i6, hB.indefinite, Bool.and_false, i3, hB.method]; rfl
  · rw [hc]
    have := init_tags hB hq
    show ((some t'.base.cls, some t'.base.tag, t'.base.implicit, t'.base.explicit) : Tags) = _
    rw [d1]
    exact this
  · intro proto' bad' _
    exact ⟨t', s, rfl, rfl, b3 s w3⟩
  · intro cs v' _ proto' bad' fs oid k g ns name m h
    rw [hc] at h; cases h

theorem makes_null {E : Env} {U : ClassId → Prop} (hT : Types E U) {c : ClassId} (hU : U c) {o : Obj Unit} {bad : List Nat}
    (hc : E.cls c = .leaf (.null o) bad) (ho : o.contents = some []) : Makes E c (.scalar .none) (.octets 0 []) (.scalar .none) := by
  refine ⟨fun _ => (by rw [hc]; trivial), fun v h => (by cases h), ⟨?_, ?_⟩, by rw [hc]; simp, ?_⟩
  · rintro ⟨e, tagged, alts, h⟩; rw [hc] at h; cases h
  · rintro ⟨_, _, h⟩; cases h
  intro q hq _ hd
  have hB := hT.leaf c _ bad hU hc
  have hB : Bare o 0 := by
    exact ⟨hB.cls, hB.method, hB.implicit, hB.explicit, hB.header, hB.trailer, hB.indefinite⟩
  obtain ⟨i1, i2, i3, i4, i5, i6, i7⟩ := initTagging_fields o q hq.keep
  refine ⟨.leaf c (.null (initTagging o q.tags)), Ev.up (Ev.of (fun j => ?_)), .leaf ?_ ?_ ?_ ?_, by rw [hc]; rfl, ?_, ?_, ?_⟩
  · rw [ops_construct]
    unfold constructStep
    rw [given_some hd]
    simp only [hc]
    rfl
  · exact i7.trans ho
  · exact i4.trans hB.header
  · exact i6.trans hB.indefinite
  · exact i3.trans hB.method
  · rw [hc]
    exact init_tags hB hq
  · intro proto' bad' _
    exact ⟨_, .none, rfl, rfl, rfl⟩
  · intro cs v' _ proto' bad' fs oid k g ns name m h
    rw [hc] at h; cases h

theorem makes_string {E : Env} {U : ClassId → Prop} (hT : Types E U) {c : ClassId} (hU : U c) {b : Bytes} {o : Obj Bytes} {isBit : Bool}
    (hc : E.cls c = .parsable o isBit) : Makes E c (.scalar (.bytes b)) (.octets 0 (stringContents isBit b)) (.scalar (.bytes b)) := by
  refine ⟨fun _ => (by rw [hc]; trivial), fun v h => (by cases h), ⟨?_, ?_⟩, by rw [hc]; simp, ?_⟩
  · rintro ⟨e, tagged, alts, h⟩; rw [hc] at h; cases h
  · rintro ⟨_, _, h⟩; cases h
  intro q hq _ _
  have hB := hT.parsable c o isBit hU hc
  obtain ⟨i1, i2, i3, i4, i5, i6, i7⟩ := initTagging_fields o q hq.keep
  refine ⟨.parsable c (parsableSet isBit (initTagging o q.tags) b) none none, Ev.up (Ev.of (fun j => ?_)), .string rfl rfl rfl ?_, by rw [hc]; rfl, ?_, ?_, ?_⟩
  · rw [ops_construct]
    unfold constructStep
    rw [given_some (fun h => by cases h)]
    simp only [hc]
  · show (if (initTagging o q.tags).indefinite then 0 else (initTagging o q.tags).method) = 0
    rw [i6, i3, hB.indefinite, hB.method]; rfl
  · rw [hc]
    exact init_tags hB hq
  · intro proto' bad' h
    rw [hc] at h; cases h
  · intro cs v' _ proto' bad' fs oid k g ns name m h
    rw [hc] at h; cases h

theorem fieldIndex_unique {alts : List Field} {k : Nat} {f : Field} {name : String} (hk : alts[k]? = some f) (hn : f.name = name)
    (hu : ∀ i g, alts[i]? = some g → g.name = name → i = k) : fieldIndex alts name = some k := by
  unfold fieldIndex
  have hmem : (f, k) ∈ alts.zipIdx.reverse := by
    rw [List.mem_reverse, List.mem_zipIdx_iff_getElem?]
    exact hk
  cases hf : alts.zipIdx.reverse.find? (fun f => f.1.name == name) with
  | none =>
    have := List.find?_eq_none.mp hf (f, k) hmem
    simp [hn] at this
  | some e =>
    have h1 := List.mem_of_find?_eq_some hf
    have h2 := List.find?_some hf
    rw [List.mem_reverse, List.mem_zipIdx_iff_getElem?] at h1
    have := hu e.2 e.1 h1 (by simpa using h2)
    simp [this]

theorem makes_choice {E : Env} {U : ClassId → Prop} (hT : Types E U) {c : ClassId} (hU : U c) {name : String} {k : Nat} {f : Field} {x : PyVal} {b : Piece}
    {t : TLV} {n : PyVal} {alts : List Field} (hc : E.cls c = .choice [] none alts) (hk : alts[k]? = some f) (hn : f.name = name)
    (hu : ∀ i g, alts[i]? = some g → g.name = name → i = k) (hUf : U f.spec) (hx : x = .scalar .none → f.params.default = none)
    (hg : Makes E f.spec x b n) (hd : DerElement E f.spec f.params b t) : Makes E c (.pair name x) (.element t) n := by
  refine ⟨fun ⟨_, _, h⟩ => (by cases h), fun v h => (by cases h), ⟨fun _ => ⟨_, _, rfl⟩, fun _ => ⟨_, _, _, hc⟩⟩, by rw [hc]; simp, ?_⟩
  intro q hq hq' _
  obtain ⟨q1, q2⟩ := hq' (by rw [hc]; exact id)
  have hus := ((hT.choice c [] none alts hU hc).2.2.2 f (List.mem_of_getElem? hk)).2 hUf
  obtain ⟨v, m1, m2, m3, m4, m5, m6⟩ := hg.made f.params hus.tags hus.untagged hx
  refine ⟨.choice c { cls := 0, method := 0, tag := 0, explicit := q.explicit } (some k) (some v), Ev.up (m1.mono (fun j hj => ?_)), .choice rfl m2 ?_,
    by rw [hc]; rfl, ?_, ?_, ?_⟩
  · rw [ops_construct]
    unfold constructStep
    have hex : choiceExplicit [] q = q.explicit := by unfold choiceExplicit; rw [hq.keep]; rfl
    simp only [hc, q1, q2, fieldIndex_unique hk hn hu, hk, hex]
    cases x <;> first | exact absurd rfl (hg.plain _) | simp only [hj, bind, Except.bind]
  · rw [m4]
    exact derElement_shown hg.tag hd
  · rw [hc]; rfl
  · intro proto' bad' h
    rw [hc] at h; cases h
  · intro cs v' _ proto' bad' fs oid k g ns name m h
    rw [hc] at h; cases h

/-- The value of the alternative is given as an instance. -/
theorem makes_choice_inst {E : Env} {U : ClassId → Prop} (hT : Types E U) {c : ClassId} (hU : U c) {name : String} {k : Nat} {f : Field} {x : PyVal} {v : Val}
    {b : Piece} {t : TLV} {n : PyVal} {alts : List Field} (hc : E.cls c = .choice [] none alts) (hk : alts[k]? = some f) (hn : f.name = name)
    (hu : ∀ i g, alts[i]? = some g → g.name = name → i = k) (hUf : U f.spec) (hb : Built E f.spec x v)
    (hg : Makes E f.spec x b n) (hd : DerElement E f.spec f.params b t) : Makes E c (.pair name (.asn1 v)) (.element t) n := by
  refine ⟨fun ⟨_, _, h⟩ => (by cases h), fun v h => (by cases h), ⟨fun _ => ⟨_, _, rfl⟩, fun _ => ⟨_, _, _, hc⟩⟩, by rw [hc]; simp, ?_⟩
  intro q hq hq' _
  obtain ⟨q1, q2⟩ := hq' (by rw [hc]; exact id)
  have hus := ((hT.choice c [] none alts hU hc).2.2.2 f (List.mem_of_getElem? hk)).2 hUf
  obtain ⟨v', m1, m2, m3, m4, m5, m6⟩ := hg.made {} goodTags_plain (fun _ => ⟨rfl, rfl⟩) (fun _ => rfl)
  have : v = v' := Ev.unique hb m1
  subst this
  obtain ⟨v1, f1, f2, f3, f4, f5⟩ := fix_tagging (types_tagging hT hUf) m2 m3 m4 hus.tags (fun h => (hus.untagged h).1)
  have hcl : v.classOf = some f.spec := by rw [classOf_mark, m3]
  refine ⟨.choice c { cls := 0, method := 0, tag := 0, explicit := q.explicit } (some k) (some v1), Ev.up (f1.mono (fun j hj => ?_)), .choice rfl f2 ?_,
    by rw [hc]; rfl, ?_, ?_, ?_⟩
  · rw [ops_construct]
    unfold constructStep
    have hex : choiceExplicit [] q = q.explicit := by unfold choiceExplicit; rw [hq.keep]; rfl
    simp only [hc, q1, q2, fieldIndex_unique hk hn hu, hk, hex, hcl, if_true, hj, bind, Except.bind]
  · rw [f3]
    exact derElement_shown hg.tag hd
  · rw [hc]; rfl
  · intro proto' bad' h
    rw [hc] at h; cases h
  · intro cs v' _ proto' bad' fs oid k g ns name m h
    rw [hc] at h; cases h

/-! ### SEQUENCE -/

theorem node_tags {E : Env} {c : ClassId} {proto : Obj Unit} {q : Params} (hB : Bare proto 1) (hq : GoodTags q)
    (hc : (∃ bad s fields oid, E.cls c = .seq proto bad s fields oid) ∨ ∃ bad s ch, E.cls c = .seqOf proto bad s ch) {ch : Option (List Child)} {m : Bool} :
    (Val.node c (initTagging proto q.tags) ch m).tagging = tagsFor (E.cls c) q := by
  rcases hc with ⟨_, _, _, _, hc⟩ | ⟨_, _, _, hc⟩ <;> rw [hc] <;> exact init_tags hB hq

/-- A container with changed children. -/
theorem node_pending {E : Env} {c : ClassId} {proto : Obj Unit} {q : Params} (hB : Bare proto 1) (hq : GoodTags q) {cs cs' : List Child} {b : Bytes}
    (h1 : checkRequired E c (some cs) = .ok ()) (h2 : checkRequired E c (some cs') = .ok ()) (h3 : childrenMutated cs' = false)
    (h4 : Ev (fun j => encodeChildren E (ops E j) c false cs = .ok (b, cs'))) :
    Pending E (.node c (initTagging proto q.tags) (some cs) true) (.octets 1 b) ∧
    ∀ b' v', Ev (fun j => (ops E j).contents (.node c (initTagging proto q.tags) (some cs) true) = .ok (some b', v')) →
      v' = .node c { initTagging proto q.tags with contents := some b } (some cs') false := by
  obtain ⟨i1, i2, i3, i4, i5, i6, i7⟩ := initTagging_fields proto q hq.keep
  have hnc : Ev (fun j => nodeContents E (ops E j) c (initTagging proto q.tags) (some cs) true =
      .ok ({ initTagging proto q.tags with contents := some b }, some cs', false)) := by
    refine h4.mono (fun j hj => ?_)
    unfold nodeContents
    simp only [Val.isMutated, Bool.true_or, if_true, setContents, ensureChildren, hj, bind, Except.bind]
    have e1 := i4.trans hB.header
    have e2 := i5.trans hB.trailer
    revert e1 e2
    generalize initTagging proto q.tags = o
    obtain ⟨_, _, _, _, _, _, _, _, _, _⟩ := o
    intro e1 e2
    simp only at e1 e2
    subst e1; subst e2
    rfl
  refine ⟨.node (i4.trans hB.header) (i6.trans hB.indefinite) (i5.trans hB.trailer) (i3.trans hB.method) h1 h2 ?_ hnc, ?_⟩
  · simp only [Val.isMutated, Bool.false_or, h3]
  · intro b' v' hv
    obtain ⟨j, h, h'⟩ := (hnc.and hv.down).get
    rw [ops_contents] at h'
    simp only [contentsStep, h, bind, Except.bind] at h'
    injection h' with h'
    injection h' with _ h'
    exact h'.symm

theorem all_names {d : List (String × PyVal)} {fields : List Field} (h : ∀ e ∈ d, ∃ f ∈ fields, f.name = e.1) :
    d.all (fun e => fields.any (fun f => f.name == e.1)) = true := by
  rw [List.all_eq_true]
  intro e he
  obtain ⟨f, hf, hn⟩ := h e he
  rw [List.any_eq_true]
  exact ⟨f, hf, by simp [hn]⟩

theorem dict_made {E : Env} {c : ClassId} {proto : Obj Unit} {bad : List Nat} {isSet : Bool} {fields : List Field} {oid : Option OidPair}
    (hc : E.cls c = .seq proto bad isSet fields oid) (hp : proto.contents = none) (ha : Asked E oid fields) {d : List (String × PyVal)}
    {ns : List PyVal} {bs : List Bytes} {vs us ws : List Val} (h : FieldsMake E d oid fields [] bs ns vs us ws)
    (hsome : ∃ f ∈ fields, valueOf d f.name ≠ none) (hnames : ∀ e ∈ d, ∃ f ∈ fields, f.name = e.1)
    (hfree : isSet = false → ∀ i f, fields[i]? = some f → f.params.default.isSome = true → Free oid i) {q : Params} (hq : GoodTags q) :
    Ev (fun j => (ops E j).construct c q (.dict d) = .ok (.node c (initTagging proto q.tags) (some (us.map Child.val)) true)) := by
  obtain ⟨i1, i2, i3, i4, i5, i6, i7⟩ := initTagging_fields proto q hq.keep
  have hne : fields.isEmpty = false := by
    obtain ⟨f, hf, _⟩ := hsome
    cases fields with
    | nil => cases hf
    | cons => rfl
  have hvoid : fields.map (fun _ => Child.val .void) = (fields.map (fun _ => Val.void)).map Child.val := by simp
  have hens : Ev (fun j => ensureChildren E (ops E j) c (initTagging proto q.tags) none = .ok (([] ++ vs).map Child.val)) := by
    cases isSet with
    | false =>
      refine (fresh_children (all := fields) h oid [] (fun i f hf hd => by simpa using hfree rfl i f hf hd)).mono (fun j hj => ?_)
      unfold ensureChildren parseChildren
      simp only [hc, parseSeq, i7, hp, hne, Bool.false_eq_true, if_false, hvoid]
      exact hj
    | true =>
      refine (fresh_children (all := fields) h none [] (fun i f hf hd => fun p hp => by cases hp)).mono (fun j hj => ?_)
      unfold ensureChildren parseChildren
      simp only [hc, parseSet, i7, hp, hne, Bool.false_eq_true, if_false, hvoid]
      exact hj
  obtain ⟨children', m', s1, s2⟩ := set_from_dict hc ha (o := initTagging proto q.tags) h [] [] none false rfl rfl rfl
    (fun p _ n m hn => by simp at hn) hens
  obtain ⟨rfl, rfl⟩ := s2 (.inl hsome)
  refine Ev.up (s1.mono (fun j hj => ?_))
  rw [ops_construct]
  unfold constructStep
  rw [given_some (fun h => by cases h)]
  simp only [hc, seqInit]
  have hj : setFromDict E (ops E j) d false fields 0 (.node c (initTagging proto q.tags) none false) = _ := hj
  simp only [hj, bind, Except.bind, all_names hnames, if_true]
  simp

theorem makes_seq {E : Env} {U : ClassId → Prop} (hT : Types E U) {c : ClassId} (hU : U c) {proto : Obj Unit} {bad : List Nat} {fields : List Field}
    {oid : Option OidPair} (hc : E.cls c = .seq proto bad false fields oid) (hp : proto.contents = none) (ha : Asked E oid fields)
    {d : List (String × PyVal)} {ns : List PyVal} {bs : List Bytes} {vs us ws : List Val} (h : FieldsMake E d oid fields [] bs ns vs us ws)
    (hsome : ∃ f ∈ fields, valueOf d f.name ≠ none) (hnames : ∀ e ∈ d, ∃ f ∈ fields, f.name = e.1)
    (hfree : ∀ i f, fields[i]? = some f → f.params.default.isSome = true → Free oid i) :
    Makes E c (.dict d) (.octets 1 bs.flatten) (.dict (named fields 0 ns)) := by
  refine ⟨fun _ => (by rw [hc]; trivial), fun v h => (by cases h), ⟨?_, ?_⟩, by rw [hc]; simp, ?_⟩
  · rintro ⟨e, tagged, alts, h⟩; rw [hc] at h; cases h
  · rintro ⟨_, _, h⟩; cases h
  intro q hq _ _
  have hB := (hT.seq c proto bad false fields oid hU hc).1
  obtain ⟨r1, r2⟩ := required_present h
  obtain ⟨p1, p2⟩ := node_pending (E := E) (c := c) hB hq (cs := us.map Child.val) (cs' := ws.map Child.val) (b := bs.flatten)
    (by unfold checkRequired; rw [hc]; exact r1) (by unfold checkRequired; rw [hc]; exact r2) (children_calm h)
    ((encode_fields h).mono (fun j hj => by unfold encodeChildren; simp only [hc]; exact hj))
  refine ⟨_, dict_made hc hp ha h hsome hnames (fun _ => hfree) hq, p1, by rw [hc]; rfl, node_tags hB hq (.inl ⟨_, _, _, _, hc⟩), ?_, ?_⟩
  · intro proto' bad' h
    rw [hc] at h; cases h
  · intro cs v' hv proto' bad' fs oid' k g ns' name m h' hg ht hfr hns hm
    have := p2 cs v' hv
    subst this
    rw [hc] at h'
    injection h' with _ _ _ h1 h2
    subst h1; subst h2
    injection hns with hns
    subst hns
    obtain ⟨w, w', w1, w2⟩ := field_at h hg (named_get hm) ht (by rw [List.length_nil, Nat.zero_add]; exact fun p hp => hfr p hp)
    have hget : (ws.map Child.val)[k]? = some (.val w) := by rw [List.getElem?_map, w1]; rfl
    have hitem : Ev (fun j => (ops E j).item (.node c { initTagging proto q.tags with contents := some bs.flatten } (some (ws.map Child.val)) false) k =
        .ok (w, .node c { initTagging proto q.tags with contents := some bs.flatten } (some (ws.map Child.val)) false)) := by
      refine Ev.up (Ev.of (fun j => ?_))
      rw [ops_item]
      unfold Asn1.getItem
      simp only [ensureChildren, bind, Except.bind, hget, hc, buildChild]
      rw [list_set_self hget]
    refine hitem.map2 w2 (fun j h1 h2 => ?_)
    unfold decisive
    simp only [h1, h2, bind, Except.bind]

end Asn1
