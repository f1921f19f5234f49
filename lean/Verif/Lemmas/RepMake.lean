import Verif.Lemmas.RepNode

/-! # Copies, tag fixing, and values given to constructors and assignments -/

namespace Asn1
open Spec

/-! ### The tagging matters only through the explicit and implicit tags -/

theorem framed_congr {d : Nat × Nat} {p p' : Params} {t u : TLV} (he : p.explicit = p'.explicit) (hi : p.implicit = p'.implicit)
    (h : Framed d p t u) : Framed d p' t u := by
  obtain ⟨h1, h2, h3⟩ := h
  exact ⟨h1, he ▸ h2, by rw [← he, ← hi]; exact h3⟩

theorem dec_congr {E : Env} {c : ClassId} {p p' : Params} {t : TLV} {a : AVal} (he : p.explicit = p'.explicit) (hi : p.implicit = p'.implicit)
    (h : Dec E c p t a) : Dec E c p' t a := by
  cases h with
  | leaf h1 h2 h3 => exact .leaf h1 (framed_congr he hi h2) h3
  | seq h1 h2 h3 h4 => exact .seq h1 (framed_congr he hi h2) h3 h4
  | seqOf h1 h2 h3 h4 => exact .seqOf h1 (framed_congr he hi h2) h3 h4
  | choice h1 h2 h3 h4 h5 => exact .choice h1 (he ▸ h2) h3 h4 h5

theorem effTag_congr {d : Nat × Nat} {p p' : Params} (he : p.explicit = p'.explicit) (hi : p.implicit = p'.implicit) : effTag d p = effTag d p' := by
  unfold effTag; rw [he, hi]

theorem nodeTag_congr {proto o : Obj Unit} {p p' : Params} (he : p.explicit = p'.explicit) (hi : p.implicit = p'.implicit)
    (h : NodeTag proto p o) : NodeTag proto p' o :=
  ⟨by rw [← effTag_congr he hi]; exact h.tag, h.method, by rw [← he, ← hi]; exact h.implicit, by rw [← he]; exact h.explicit⟩

theorem headed_congr {E : Env} {q : Bool} {c : ClassId} {p p' : Params} {a : AVal} {o : Obj Unit} {data : Bytes} (he : p.explicit = p'.explicit)
    (hi : p.implicit = p'.implicit) (h : Headed E q c p a o data) : Headed E q c p' a o data := by
  intro h0 hh
  obtain ⟨t, h1, h2, h3⟩ := h h0 hh
  exact ⟨t, h1, dec_congr he hi h2, h3⟩

theorem upToDate_congr {E : Env} {q : Bool} {c : ClassId} {p p' : Params} {a : AVal} {o : Obj Unit} (he : p.explicit = p'.explicit)
    (hi : p.implicit = p'.implicit) (h : UpToDate E q c p a o) : UpToDate E q c p' a o := by
  obtain ⟨data, h1, h2⟩ := h
  exact ⟨data, h1, fun hw => ⟨(h2 hw).1, headed_congr he hi (h2 hw).2⟩⟩

theorem leafRep_congr {q : Bool} {p p' : Params} {proto st : LeafSt} {s : Scalar} (he : p.explicit = p'.explicit) (hi : p.implicit = p'.implicit)
    (h : LeafRep q p proto st s) : LeafRep q p' proto st s where
  kind := h.kind
  tag := by rw [← effTag_congr he hi]; exact h.tag
  implicit := by rw [← he, ← hi]; exact h.implicit
  explicit := by rw [← he]; exact h.explicit
  method := h.method
  ind := h.ind
  data := h.data
  native := h.native
  blank := h.blank
  head := by
    intro h0 data h1 h2
    obtain ⟨t, u, k1, k2, k3⟩ := h.head h0 data h1 h2
    exact ⟨t, u, k1, framed_congr he hi k2, k3⟩
  bare := h.bare

theorem rep_congr {E : Env} {q : Bool} {c : ClassId} {p p' : Params} {v : Val} {a : AVal} (he : p.explicit = p'.explicit)
    (hi : p.implicit = p'.implicit) (h : Rep E q c p v a) : Rep E q c p' v a := by
  have node : ∀ {c' o ch m}, Rep E q c p (.node c' o ch m) a → Rep E q c p' (.node c' o ch m) a := by
    intro c' o ch m h
    obtain ⟨h0, proto, h1, h2, h3⟩ := rep_node.mp h
    refine rep_node.mpr ⟨h0, proto, h1, nodeTag_congr he hi h2, ?_⟩
    rcases h3 with ⟨h3, h4, data, h5, h6, h7⟩ | ⟨cs, h3, h4, h5⟩
    · exact .inl ⟨h3, h4, data, h5, h6, headed_congr he hi h7⟩
    · exact .inr ⟨cs, h3, h4, fun hm => upToDate_congr he hi (h5 hm)⟩
  cases h with
  | leaf h1 h2 => exact .leaf h1 (leafRep_congr he hi h2)
  | seqRaw h1 h2 h3 h4 h5 => exact node (.seqRaw h1 h2 h3 h4 h5)
  | seq h1 h2 h3 h4 => exact node (.seq h1 h2 h3 h4)
  | listRaw h1 h2 h3 h4 h5 => exact node (.listRaw h1 h2 h3 h4 h5)
  | list h1 h2 h3 h4 => exact node (.list h1 h2 h3 h4)
  | choice h1 h2 h3 h4 h5 h6 => exact .choice h1 (he ▸ h2) h3 h4 h5 h6

theorem rep_classOf {E : Env} {q : Bool} {c : ClassId} {p : Params} {v : Val} {a : AVal} (h : Rep E q c p v a) : v.classOf = some c := by
  cases h <;> rfl

/-! ### `_fix_tagging` -/

theorem class_blank {E : Env} {U : ClassId → Prop} (hU : Universe E U) {c : ClassId} (hc : U c) :
    (E.cls c).tagging.2.2 = (false, []) := by
  cases h : E.cls c with
  | leaf proto bad =>
    have := (plainLeaf_good (hU.leaf c proto bad hc h).2).blank
    exact Prod.ext this.implicit this.explicit
  | seq proto bad isSet fields oid =>
    have := plainNode_blank (hU.seq c _ _ _ _ _ hc h).2.2.2.1
    exact Prod.ext this.implicit this.explicit
  | seqOf proto bad isSet ch =>
    have := plainNode_blank (hU.seqOf c _ _ _ _ hc h).2.2.1
    exact Prod.ext this.implicit this.explicit
  | choice e t alts => rw [(hU.choice c _ _ _ hc h).1]; rfl
  | any => exact absurd h (hU.any c hc)
  | parsable o b => exact absurd h (hU.parsable c o b hc)

/-- The tagging of an instance. -/
theorem rep_tagging {E : Env} {q : Bool} {c : ClassId} {p : Params} {v : Val} {a : AVal} (h : Rep E q c p v a) :
    v.tagging.2.2.2 = p.explicit ∧
    ((∃ c' o k w, v = .choice c' o k w) ∧ (∃ e t alts, E.cls c = .choice e t alts) ∧ v.tagging.2.2.1 = false ∨
     (∀ e t alts, E.cls c ≠ .choice e t alts) ∧ (∀ c' o k w, v ≠ .choice c' o k w) ∧
      (v.tagging.1, v.tagging.2.1) = (some (effTag ((E.cls c).tagging.1, (E.cls c).tagging.2.1) p).1, some (effTag ((E.cls c).tagging.1, (E.cls c).tagging.2.1) p).2) ∧
      v.tagging.2.2.1 = (p.explicit.isEmpty && p.implicit.isSome)) := by
  have node : ∀ {c' o ch m}, Rep E q c p (.node c' o ch m) a →
      (Val.node c' o ch m).tagging.2.2.2 = p.explicit ∧ (∀ e t alts, E.cls c ≠ .choice e t alts) ∧
      (some o.cls, some o.tag) = (some (effTag ((E.cls c).tagging.1, (E.cls c).tagging.2.1) p).1, some (effTag ((E.cls c).tagging.1, (E.cls c).tagging.2.1) p).2) ∧
      o.implicit = (p.explicit.isEmpty && p.implicit.isSome) := by
    intro c' o ch m h
    obtain ⟨h0, proto, h1, h2, h3⟩ := rep_node.mp h
    have ht : ((E.cls c).tagging.1, (E.cls c).tagging.2.1) = (proto.cls, proto.tag) := by
      rcases h1 with ⟨_, _, h1⟩ | ⟨_, _, h1⟩ <;> (rw [h1]; rfl)
    refine ⟨h2.explicit, ?_, ?_, h2.implicit⟩
    · rcases h1 with ⟨_, _, h1⟩ | ⟨_, _, h1⟩ <;> (rw [h1]; intro e t alts h; cases h)
    · rw [ht, ← h2.tag]
  cases h with
  | leaf h1 h2 =>
    refine ⟨h2.explicit, .inr ⟨(by rw [h1]; intro e t alts h; cases h), (fun _ _ _ _ h => by cases h), ?_, h2.implicit⟩⟩
    rw [h1]
    show (some _, some _) = (some (effTag _ p).1, some (effTag _ p).2)
    rw [show (effTag ((Shape.leaf _ _).tagging.1, (Shape.leaf _ _).tagging.2.1) p) = _ from h2.tag.symm]
  | seqRaw h1 h2 h3 h4 h5 =>
    obtain ⟨k1, k2, k3, k4⟩ := node (.seqRaw h1 h2 h3 h4 h5)
    exact ⟨k1, .inr ⟨k2, (fun _ _ _ _ h => by cases h), k3, k4⟩⟩
  | seq h1 h2 h3 h4 =>
    obtain ⟨k1, k2, k3, k4⟩ := node (.seq h1 h2 h3 h4)
    exact ⟨k1, .inr ⟨k2, (fun _ _ _ _ h => by cases h), k3, k4⟩⟩
  | listRaw h1 h2 h3 h4 h5 =>
    obtain ⟨k1, k2, k3, k4⟩ := node (.listRaw h1 h2 h3 h4 h5)
    exact ⟨k1, .inr ⟨k2, (fun _ _ _ _ h => by cases h), k3, k4⟩⟩
  | list h1 h2 h3 h4 =>
    obtain ⟨k1, k2, k3, k4⟩ := node (.list h1 h2 h3 h4)
    exact ⟨k1, .inr ⟨k2, (fun _ _ _ _ h => by cases h), k3, k4⟩⟩
  | choice h1 h2 h3 h4 h5 h6 => exact ⟨h4.trans h2.symm, .inl ⟨⟨_, _, _, _, rfl⟩, ⟨_, _, _, h1⟩, rfl⟩⟩

theorem tagArgs_choice {E : Env} {c : ClassId} {p : Params} {cl tg : Nat} {im : Bool} {es : List (Nat × Nat)} {e : List (Nat × Nat)}
    {t : Option (Nat × Nat)} {alts : List Field} (hc : E.cls c = .choice e t alts) (hp : p.explicit = []) (hes : es = []) : TagArgs E c p cl tg im es := by
  unfold TagArgs
  rw [hc]
  exact ⟨hes.trans hp.symm, hp⟩

theorem tagArgs_other {E : Env} {c : ClassId} {p : Params} {cl tg : Nat} {im : Bool} {es : List (Nat × Nat)}
    (hc : ∀ e t alts, E.cls c ≠ .choice e t alts) (hes : es = p.explicit) (ht : (cl, tg) = effTag ((E.cls c).tagging.1, (E.cls c).tagging.2.1) p)
    (him : im = (p.explicit.isEmpty && p.implicit.isSome)) : TagArgs E c p cl tg im es := by
  unfold TagArgs
  refine ⟨hes, ?_⟩
  cases h : E.cls c with
  | choice e t alts => exact absurd h (hc e t alts)
  | _ => rw [h] at ht; exact ⟨ht, him⟩

/-- `copy()` keeps the tagging. -/
theorem copyVal_rep {E : Env} {U : ClassId → Prop} {r : Ops} (hS : Sim E U r) {q q' : Bool} {c : ClassId} {p : Params} {v v' : Val} {a : AVal}
    (hg : GoodUse E U c p) (h : Rep E q c p v a) (hw : Whole E c a) (hc : copyVal r v = .ok v') : Rep E q' c p v' a := by
  obtain ⟨h1, h2⟩ := rep_tagging h
  unfold copyVal at hc
  generalize hT : v.tagging = T at *
  obtain ⟨cl, tg, im, es⟩ := T
  simp only at h1 h2 hc
  refine hS.copyTo hg hg h hw ?_ hc
  rcases h2 with ⟨_, ⟨e, t, alts, h2⟩, _⟩ | ⟨h2, _, h3, h4⟩
  · have := (hg.choice _ _ _ h2).1
    exact tagArgs_choice h2 this (h1.trans this)
  · refine tagArgs_other h2 h1 ?_ h4
    simp only [Prod.mk.injEq] at h3
    rw [h3.1, h3.2]
    rfl

/-- `_fix_tagging` gives the instance the tagging of the field. -/
theorem fixTags_rep {E : Env} {U : ClassId → Prop} {r : Ops} (hU : Universe E U) (hS : Sim E U r) {q : Bool} {c : ClassId} {p p' : Params} {v v' : Val}
    {a : AVal} {same : Bool} (hg : GoodUse E U c p) (hg' : GoodUse E U c p') (h : Rep E q c p v a) (hw : Whole E c a)
    (hs : same = true → p'.explicit = [] ∧ v.tagging.2.2.2 = [])
    (hf : fixTags E r v p'.explicit p'.implicit same = .ok v') : Rep E q c p' v' a := by
  obtain ⟨h1, h2⟩ := rep_tagging h
  have hcls := rep_classOf h
  have hbl := class_blank hU hg.mem
  -- with another tagging
  have moved : retag E r v p'.explicit p'.implicit = .ok v' → Rep E q c p' v' a := by
    intro hr
    unfold retag at hr
    have hpt : protoTagging E v = ((E.cls c).tagging.1, (E.cls c).tagging.2.1, false, []) := by
      unfold protoTagging
      rw [hcls]
      show (E.cls c).tagging = _
      rw [← hbl]
    rw [hpt] at hr
    simp only [List.nil_append] at hr
    rcases h2 with ⟨_, ⟨e, t, alts, h2⟩, _⟩ | ⟨h2, h2', _, _⟩
    · obtain ⟨k1, k2⟩ := hg'.choice _ _ _ h2
      rw [k1, k2] at hr
      have hr : r.copyTo v (E.cls c).tagging.1 (E.cls c).tagging.2.1 false [] = .ok v' := by
        cases v <;> exact hr
      exact hS.copyTo hg hg' h hw (tagArgs_choice h2 k1 rfl) hr
    · cases hi : p'.implicit with
      | none =>
        rw [hi] at hr
        have hr : r.copyTo v (E.cls c).tagging.1 (E.cls c).tagging.2.1 false p'.explicit = .ok v' := by
          cases v <;> exact hr
        refine hS.copyTo hg hg' h hw (tagArgs_other h2 rfl ?_ ?_) hr
        · unfold effTag
          rw [hi]
          split <;> rfl
        · rw [hi]; simp
      | some e =>
        have he := hg'.tags.one.resolve_right (by rw [hi]; intro h; cases h)
        rw [hi, he] at hr
        have hr : r.copyTo v e.1 e.2 true [] = .ok v' := by
          cases v with
          | choice c' o k w => exact absurd rfl (h2' c' o k w)
          | _ => exact hr
        refine hS.copyTo hg hg' h hw (tagArgs_other h2 he.symm ?_ ?_) hr
        · unfold effTag
          rw [hi, if_pos he]
          rfl
        · rw [he, hi]; rfl
  -- with the same tagging
  have kept : same = true → (p'.implicit = none → v.tagging.2.2.1 = false) →
      (∀ pc pt, p'.implicit = some (pc, pt) → (v.tagging.2.2.1 = true ∧ v.tagging.1 = some pc) ∧ v.tagging.2.1 = some pt) → Rep E q c p' v a := by
    intro hn hn1 hn2
    obtain ⟨k1, k2⟩ := hs hn
    have hpe : p.explicit = [] := h1.symm.trans k2
    refine rep_congr (hpe.trans k1.symm) ?_ h
    rcases h2 with ⟨_, ⟨e, t, alts, h2⟩, _⟩ | ⟨h2, h2', h3, h4⟩
    · rw [(hg.choice _ _ _ h2).2, (hg'.choice _ _ _ h2).2]
    · rw [hpe, List.isEmpty_nil, Bool.true_and] at h4
      cases hi : p'.implicit with
      | none =>
        have hn1 := hn1 hi
        rw [h4] at hn1
        cases hi2 : p.implicit with
        | none => rfl
        | some e => rw [hi2] at hn1; cases hn1
      | some e =>
        obtain ⟨pc, pt⟩ := e
        obtain ⟨⟨m1, m2⟩, m3⟩ := hn2 pc pt hi
        rw [h4] at m1
        obtain ⟨e, he⟩ := Option.isSome_iff_exists.mp m1
        have : effTag ((E.cls c).tagging.1, (E.cls c).tagging.2.1) p = e := by
          unfold effTag
          rw [if_pos hpe, he]; rfl
        rw [this] at h3
        simp only [Prod.mk.injEq] at h3
        rw [h3.1] at m2
        rw [h3.2] at m3
        cases m2; cases m3
        exact he
  unfold fixTags at hf
  cases hi : p'.implicit with
  | none =>
    rw [hi] at hf moved
    simp only at hf
    split at hf
    · exact moved hf
    · next hn =>
      cases hf
      simp only [Bool.or_eq_true, Bool.not_eq_true', not_or, Bool.not_eq_true, Bool.not_eq_false] at hn
      exact kept hn.2 (fun _ => hn.1) (fun pc pt h => by rw [hi] at h; cases h)
  | some e =>
    obtain ⟨pc, pt⟩ := e
    rw [hi] at hf moved
    simp only at hf
    split at hf
    · exact moved hf
    · next hn =>
      cases hf
      simp only [Bool.or_eq_true, Bool.not_eq_true', not_or, Bool.not_eq_true, Bool.not_eq_false, bne_eq_false_iff_eq] at hn
      refine kept hn.2 (fun h => by rw [hi] at h; cases h) (fun pc' pt' h => ?_)
      rw [hi] at h
      cases h
      exact hn.1

theorem fixTagging_rep {E : Env} {U : ClassId → Prop} {r : Ops} (hU : Universe E U) (hS : Sim E U r) {q : Bool} {c : ClassId} {p p' : Params}
    {v v' : Val} {a : AVal} (hg : GoodUse E U c p) (hg' : GoodUse E U c p') (h : Rep E q c p v a) (hw : Whole E c a)
    (hf : fixTagging E r v p' = .ok v') : Rep E q c p' v' a := by
  refine fixTags_rep hU hS hg hg' h hw ?_ hf
  intro hs
  simp only [Bool.and_eq_true, List.isEmpty_iff] at hs
  exact hs

theorem fixElement_rep {E : Env} {U : ClassId → Prop} {r : Ops} (hU : Universe E U) (hS : Sim E U r) {q : Bool} {c : ClassId} {p : Params}
    {v v' : Val} {a : AVal} (hg : GoodUse E U c p) (h : Rep E q c p v a) (hw : Whole E c a)
    (hf : fixElement E r c v = .ok v') : Rep E q c {} v' a := by
  have hbl := class_blank hU hg.mem
  unfold fixElement at hf
  generalize hT : (E.cls c).tagging = T at *
  obtain ⟨cl, tg, im, es⟩ := T
  simp only [Prod.mk.injEq] at hbl hf
  obtain ⟨rfl, rfl⟩ := hbl
  refine fixTags_rep hU hS (p' := {}) hg (goodUse_plain hg.mem) h hw ?_ hf
  intro hs
  exact ⟨rfl, (eq_of_beq hs).symm⟩

end Asn1
