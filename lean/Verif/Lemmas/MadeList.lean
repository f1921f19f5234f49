import Verif.Lemmas.MadeKinds

/-! # Making a SET from a dict, and lists -/

namespace Asn1
open Spec Props

/-! ### SET -/

/-- The elements the fields of a SET are written as. -/
inductive SlotsDump (E : Env) : List Field → List Val → List TLV → List Val → Prop
  | nil : SlotsDump E [] [] [] []
  | cons {f : Field} {fs : List Field} {u w : Val} {us ws : List Val} {t : TLV} {ts : List TLV} : f.params.default = none →
      Ev (fun j => (ops E j).dump u false = .ok (t.bytes, w)) → w.tagging.2.1 = some t.tag → SlotsDump E fs us ts ws →
      SlotsDump E (f :: fs) (u :: us) (t :: ts) (w :: ws)

theorem encode_slots {E : Env} {fs : List Field} {us ws : List Val} {ts : List TLV} (h : SlotsDump E fs us ts ws) :
    Ev (fun j => encodeSetFields (ops E j) false fs (us.map Child.val) = .ok (ts.map (fun t => (some t.tag, t.bytes)), ws.map Child.val)) := by
  induction h with
  | nil => exact Ev.of (fun j => rfl)
  | cons h1 h2 h3 _ ih =>
    refine h2.map2 ih (fun j a b => ?_)
    simp only [List.map_cons, encodeSetFields, a, b, h1, h3, bind, Except.bind, Bool.false_eq_true, if_false]

theorem sort_slots (ts : List TLV) : ∃ bs, sortByTag (ts.map (fun t => (some t.tag, t.bytes))) = .ok bs ∧
    bs.flatten = joined (ts.mergeSort (fun a b => decide (a.tag ≤ b.tag))) := by
  unfold sortByTag
  rw [if_neg (by
    rintro ⟨_, h⟩
    rw [List.any_eq_true] at h
    obtain ⟨e, he, h⟩ := h
    rw [List.mem_map] at he
    obtain ⟨t, _, rfl⟩ := he
    cases h)]
  refine ⟨_, rfl, ?_⟩
  have hm : (ts.mergeSort (fun a b => decide (a.tag ≤ b.tag))).map (fun t => (some t.tag, t.bytes)) =
      (ts.map (fun t => (some t.tag, t.bytes))).mergeSort (fun a b => decide (a.1.getD 0 ≤ b.1.getD 0)) :=
    List.map_mergeSort (fun a _ b _ => rfl)
  rw [← hm, List.map_map]
  rfl

theorem makes_set {E : Env} {U : ClassId → Prop} (hT : Types E U) {c : ClassId} (hU : U c) {proto : Obj Unit} {bad : List Nat} {fields : List Field}
    (hc : E.cls c = .seq proto bad true fields none) (hp : proto.contents = none)
    {d : List (String × PyVal)} {ns : List PyVal} {ts : List TLV} {bs : List Bytes} {vs us ws : List Val} (h : FieldsMake E d none fields [] bs ns vs us ws)
    (hd : SlotsDump E fields us ts ws)
    (hsome : ∃ f ∈ fields, valueOf d f.name ≠ none) (hnames : ∀ e ∈ d, ∃ f ∈ fields, f.name = e.1) :
    Makes E c (.dict d) (.octets 1 (joined (ts.mergeSort (fun a b => decide (a.tag ≤ b.tag))))) (.dict (named fields 0 ns)) := by
  refine ⟨fun _ => (by rw [hc]; trivial), fun v h => (by cases h), ⟨?_, ?_⟩, by rw [hc]; simp, ?_⟩
  · rintro ⟨e, tagged, alts, h⟩; rw [hc] at h; cases h
  · rintro ⟨_, _, h⟩; cases h
  intro q hq _ _
  have hB := (hT.seq c proto bad true fields none hU hc).1
  obtain ⟨r1, r2⟩ := required_present h
  obtain ⟨ss, s1, s2⟩ := sort_slots ts
  obtain ⟨p1, p2⟩ := node_pending (E := E) (c := c) hB hq (cs := us.map Child.val) (cs' := ws.map Child.val)
    (b := joined (ts.mergeSort (fun a b => decide (a.tag ≤ b.tag))))
    (by unfold checkRequired; rw [hc]; exact r1) (by unfold checkRequired; rw [hc]; exact r2) (children_calm h)
    ((encode_slots hd).mono (fun j hj => by
      unfold encodeChildren
      simp only [hc, hj, s1, bind, Except.bind, s2]))
  refine ⟨_, dict_made hc hp (fun p hp => by cases hp) h hsome hnames (fun h => by cases h) hq, p1, by rw [hc]; rfl,
    node_tags hB hq (.inl ⟨_, _, _, _, hc⟩), ?_, ?_⟩
  · intro proto' bad' h
    rw [hc] at h; cases h
  · intro cs v' hv proto' bad' fs oid' k g ns' name m h'
    rw [hc] at h'; cases h'

/-! ### Lists -/

/-- The elements of a list are made and written. -/
inductive ListMake (E : Env) (ch : ClassId) : List PyVal → List TLV → List Val → List Val → Prop
  | nil : ListMake E ch [] [] [] []
  | cons {x : PyVal} {xs : List PyVal} {t : TLV} {ts : List TLV} {u w : Val} {us ws : List Val} :
      Ev (fun j => makeElement E (ops E j) ch x = .ok u) → Ev (fun j => (ops E j).dump u false = .ok (t.bytes, w)) → w.isMutated = false →
      ListMake E ch xs ts us ws → ListMake E ch (x :: xs) (t :: ts) (u :: us) (w :: ws)

theorem element_plain {E : Env} {ch : ClassId} {x : PyVal} {b : Piece} {t : TLV} {n : PyVal} (ht : HasTag (E.cls ch)) (hg : Makes E ch x b n)
    (hd : DerElement E ch {} b t) : ∃ u w, Ev (fun j => makeElement E (ops E j) ch x = .ok u) ∧
      Ev (fun j => (ops E j).dump u false = .ok (t.bytes, w)) ∧ w.isMutated = false := by
  obtain ⟨v, m1, m2, m3, m4, m5, m6⟩ := hg.made {} goodTags_plain (fun _ => ⟨rfl, rfl⟩) (fun _ => rfl)
  obtain ⟨w, d1, d2, d3, d4⟩ := m2.dump (t := t) (by rw [m4]; exact derElement_shown hg.tag hd)
  refine ⟨v, w, m1.mono (fun j hj => ?_), d1, d2.calm⟩
  rw [← hj]
  unfold makeElement
  cases hc : E.cls ch <;> first | (rw [hc] at ht; exact absurd ht id) | (cases x <;> first | rfl | exact absurd rfl (hg.plain _))

theorem element_inst {E : Env} {U : ClassId → Prop} (hT : Types E U) {ch : ClassId} (hU : U ch) {x : PyVal} {v : Val} {b : Piece} {t : TLV} {n : PyVal}
    (hb : Built E ch x v) (hg : Makes E ch x b n)
    (hd : DerElement E ch {} b t) : ∃ w, Ev (fun j => makeElement E (ops E j) ch (.asn1 v) = .ok v) ∧
      Ev (fun j => (ops E j).dump v false = .ok (t.bytes, w)) ∧ w.isMutated = false := by
  obtain ⟨v', m1, m2, m3, m4, m5, m6⟩ := hg.made {} goodTags_plain (fun _ => ⟨rfl, rfl⟩) (fun _ => rfl)
  have : v = v' := Ev.unique hb m1
  subst this
  obtain ⟨w, d1, d2, d3, d4⟩ := m2.dump (t := t) (by rw [m4]; exact derElement_shown hg.tag hd)
  have hfix : ∀ j, fixElement E (ops E j) ch v = .ok v := by
    intro j
    have h1 := types_tagging hT hU
    have h2 : v.tagging.2.2 = (false, []) := by
      rw [m4]
      rcases shape_cases (E.cls ch) with ⟨_, _, _, h⟩ | ⟨_, _, h⟩ <;> rw [h] <;> rfl
    unfold fixElement
    revert h1 h2
    generalize (E.cls ch).tagging = T
    obtain ⟨a, b, i, es⟩ := T
    intro h1 h2
    simp only [Prod.mk.injEq] at h1
    obtain ⟨rfl, rfl⟩ := h1
    unfold fixTags
    revert h2
    generalize v.tagging = T
    obtain ⟨a', b', i', es'⟩ := T
    intro h2
    simp only [Prod.mk.injEq] at h2
    obtain ⟨rfl, rfl⟩ := h2
    rfl
  have hcl : v.classOf = some ch := by rw [classOf_mark, m3]
  refine ⟨w, Ev.of (fun j => ?_), d1, d2.calm⟩
  unfold makeElement
  cases hc : E.cls ch <;> simp only [hcl, if_true, hfix]

theorem derElement_head {E : Env} {c : ClassId} {p : Params} {b : Piece} {t : TLV} (h : DerElement E c p b t) : DerHead t := by
  cases b with
  | octets m cs =>
    obtain ⟨d, u, _, h, _⟩ := h
    exact (derInside_head h.inside).1
  | element w => exact (derInside_head h).1

theorem element_alternative {E : Env} {U : ClassId → Prop} (hT : Types E U) {ch : ClassId} (hU : U ch) {g : Field} {x : PyVal} {v : Val} {b : Piece} {t : TLV}
    {n : PyVal} (ha : OwnAlternative E ch g) (hb : Built E g.spec x v) (hg : Makes E g.spec x b n)
    (hd : DerElement E g.spec g.params b t) : ∃ u w, Ev (fun j => makeElement E (ops E j) ch (.asn1 v) = .ok u) ∧
      Ev (fun j => (ops E j).dump u false = .ok (t.bytes, w)) ∧ w.isMutated = false := by
  obtain ⟨hcl, k, w, h1, h2⟩ := wrapped_alternative hT hU ha hb hg hd
  obtain ⟨alts, hc, _⟩ := ha
  obtain ⟨w', d1, d2, d3, d4⟩ := h2.dump (t := t) (.nil (derElement_head hd))
  refine ⟨_, w', h1.mono (fun j hj => ?_), d1, d2.calm⟩
  unfold makeElement
  simp only [hc, hcl, if_false, hj, bind, Except.bind, fixElement, Shape.tagging]
  rfl

theorem encode_list {E : Env} {ch : ClassId} {xs : List PyVal} {ts : List TLV} {us ws : List Val} (h : ListMake E ch xs ts us ws) :
    Ev (fun j => encodeElements (ops E j) false (us.map Child.val) = .ok (ts.map TLV.bytes, ws.map Child.val)) := by
  induction h with
  | nil => exact Ev.of (fun j => rfl)
  | cons h1 h2 h3 _ ih =>
    refine h2.map2 ih (fun j a b => ?_)
    simp only [List.map_cons, encodeElements, buildChild, a, b, bind, Except.bind]

theorem list_calm {E : Env} {ch : ClassId} {xs : List PyVal} {ts : List TLV} {us ws : List Val} (h : ListMake E ch xs ts us ws) :
    childrenMutated (ws.map Child.val) = false := by
  induction h with
  | nil => rfl
  | cons h1 h2 h3 _ ih => simp only [List.map_cons, childrenMutated, h3, ih, Bool.or_false]

theorem set_from_list {E : Env} {c ch : ClassId} {proto : Obj Unit} {bad : List Nat} {isSet : Bool} (hc : E.cls c = .seqOf proto bad isSet (some ch))
    {o : Obj Unit} {xs : List PyVal} {ts : List TLV} {us ws : List Val} (h : ListMake E ch xs ts us ws) :
    ∀ (pre : List Val), Ev (fun j => setFromList E (ops E j) xs pre.length (.node c o (some (pre.map Child.val)) true) =
      .ok (.node c o (some ((pre ++ us).map Child.val)) true)) := by
  induction h with
  | nil => intro pre; exact Ev.of (fun j => by simp [setFromList])
  | @cons x xs t ts u w us ws h1 h2 h3 _ ih =>
    intro pre
    have := ih (pre ++ [u])
    rw [List.length_append, List.length_singleton, List.append_assoc, List.singleton_append] at this
    refine h1.map2 this (fun j a b => ?_)
    simp only [setFromList, setElement, hc, ensureChildren, a, bind, Except.bind, List.length_map, if_true]
    simpa using b

theorem makes_list {E : Env} {U : ClassId → Prop} (hT : Types E U) {c ch : ClassId} (hU : U c) {proto : Obj Unit} {bad : List Nat} {isSet : Bool}
    (hc : E.cls c = .seqOf proto bad isSet (some ch)) (hp : proto.contents = none) {xs : List PyVal} {ts : List TLV} {us ws : List Val}
    (h : ListMake E ch xs ts us ws) {b : Bytes} {n : PyVal} (hb : b = if isSet then ((ts.map TLV.bytes).mergeSort bytesLe).flatten else joined ts) :
    Makes E c (.list xs) (.octets 1 b) n := by
  refine ⟨fun _ => (by rw [hc]; trivial), fun v h => (by cases h), ⟨?_, ?_⟩, by rw [hc]; simp, ?_⟩
  · rintro ⟨e, tagged, alts, h⟩; rw [hc] at h; cases h
  · rintro ⟨_, _, h⟩; cases h
  intro q hq _ _
  have hB := (hT.seqOf c proto bad isSet (some ch) hU hc).1
  obtain ⟨i1, i2, i3, i4, i5, i6, i7⟩ := initTagging_fields proto q hq.keep
  have henc : Ev (fun j => encodeChildren E (ops E j) c false (us.map Child.val) = .ok (b, ws.map Child.val)) := by
    refine (encode_list h).mono (fun j hj => ?_)
    unfold encodeChildren
    cases isSet <;> simp only [hc, hj, bind, Except.bind, hb] <;> rfl
  have hset : ∀ ch, Ev (fun j => ensureChildren E (ops E j) c (initTagging proto q.tags) ch = .ok (us.map Child.val)) →
      Ev (fun j => setContents E (ops E j) c (initTagging proto q.tags) ch false =
        .ok ({ initTagging proto q.tags with contents := some b }, ws.map Child.val)) := by
    intro ch hch
    refine hch.map2 henc (fun j h1 h2 => ?_)
    unfold setContents
    simp only [h1, h2, bind, Except.bind]
    have e1 := i4.trans hB.header
    have e2 := i5.trans hB.trailer
    revert e1 e2
    generalize initTagging proto q.tags = o
    obtain ⟨_, _, _, _, _, _, _, _, _, _⟩ := o
    intro e1 e2
    simp only at e1 e2
    subst e1; subst e2
    rfl
  have hmut : (Val.node c { initTagging proto q.tags with contents := some b } (some (ws.map Child.val)) false).isMutated = false := by
    simp only [Val.isMutated, Bool.false_or, list_calm h]
  have hreq : checkRequired E c (some (ws.map Child.val)) = .ok () := by unfold checkRequired; rw [hc]
  refine ⟨.node c { initTagging proto q.tags with contents := some b } (some (ws.map Child.val)) false, ?_,
    .node (i4.trans hB.header) (i6.trans hB.indefinite) (i5.trans hB.trailer) (i3.trans hB.method) hreq hreq hmut
      (Ev.of (fun j => ?_)), by rw [hc]; rfl, ?_, ?_, ?_⟩
  · cases h with
    | nil =>
      refine Ev.up ((hset none (Ev.of (fun j => ?_))).mono (fun j hj => ?_))
      · unfold ensureChildren parseChildren
        simp only [hc, i7, hp, parseSeqOf, List.map_nil]
      · rw [ops_construct]
        unfold constructStep
        rw [given_some (fun h => by cases h)]
        simp only [hc, setFromList, bind, Except.bind, contentsStep, nodeContents, i7, hp, hj]
    | @cons x xs t ts u w us ws h1 h2 h3 h4 =>
      refine Ev.up (((hset (some ((u :: us).map Child.val)) (Ev.of (fun j => rfl))).and ((set_from_list hc (o := initTagging proto q.tags) h4 [u]).and h1)).mono
        (fun j hj => ?_))
      obtain ⟨j1, j2, j3⟩ := hj
      have j2 : setFromList E (ops E j) xs 1 (.node c (initTagging proto q.tags) (some [Child.val u]) true) =
        .ok (.node c (initTagging proto q.tags) (some ((u :: us).map Child.val)) true) := j2
      have hens : ensureChildren E (ops E j) c (initTagging proto q.tags) none = .ok [] := by
        unfold ensureChildren parseChildren
        simp only [hc, i7, hp, parseSeqOf]
      have hel : setElement E (ops E j) (.node c (initTagging proto q.tags) none false) 0 x = .ok (.node c (initTagging proto q.tags) (some [Child.val u]) true) := by
        simp only [setElement, hc, hens, j3, bind, Except.bind, List.length_nil, if_true, List.nil_append]
      rw [ops_construct]
      unfold constructStep
      rw [given_some (fun h => by cases h)]
      simp only [hc, setFromList, hel, Nat.zero_add, j2, bind, Except.bind, contentsStep, nodeContents, Val.isMutated, Bool.true_or, if_true, j1]
  · unfold nodeContents
    simp only [hmut, Bool.false_eq_true, if_false]
  · rw [hc]
    exact init_tags hB hq
  · intro proto' bad' h
    rw [hc] at h; cases h
  · intro cs v' hv proto' bad' fs oid' k g ns' name m h'
    rw [hc] at h'; cases h'

theorem sorted_joined {ps qs : List (TLV × PyVal)} (h : InOrder ps qs) :
    joined (qs.map Prod.fst) = (((ps.map Prod.fst).map TLV.bytes).mergeSort bytesLe).flatten := by
  unfold joined
  congr 1
  refine (Spec.Ascending.unique (vs := (ps.map Prod.fst).map TLV.bytes) ⟨(h.1.map _).map _, ?_⟩ (sort_ascending _))
  rw [List.map_map, List.pairwise_map]
  exact h.2

end Asn1
