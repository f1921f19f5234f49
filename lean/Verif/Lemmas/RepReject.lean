import Verif.Lemmas.RepTotal
import Verif.Spec.Placed

/-! # Elements that do not belong to the fields -/

namespace Asn1
open Spec Props

/-- The outermost tag that is expected. -/
def outerId (d : Nat × Nat) (p : Params) : Nat × Nat := match p.explicit.getLast? with
  | some e => e
  | none => p.implicit.getD d

theorem buildObj_mismatch {k : Bool} {o : Obj Unit} {m : Nat} {p : Params} (ho : BlankObj o m) (hk : p.noExplicit = false) {i : Info}
    (h : (i.cls, i.tag) ≠ outerId (o.cls, o.tag) p) : buildObj k [] (initTagging o p.tags) i = .error .valueError := by
  obtain ⟨f1, f2, f3, f4, f5, f6, f7⟩ := initTagging_fields o p hk
  rw [ho.explicit, List.nil_append] at f2
  rw [buildObj_eq, f2]
  unfold outerId at h
  cases he : p.explicit.reverse with
  | nil =>
    rw [List.reverse_eq_nil_iff] at he
    rw [he] at h
    have h : (i.cls, i.tag) ≠ effTag (o.cls, o.tag) p := by
      unfold effTag
      rw [if_pos he]
      exact h
    rw [← f1] at h
    simp only [explicitLoop, Except.bind]
    unfold buildBase
    simp only
    by_cases hc : i.cls = (initTagging o p.tags).cls
    · have ht : i.tag ≠ (initTagging o p.tags).tag := fun ht => h (by rw [hc, ht])
      rw [if_neg (by simpa using hc)]
      simp only [bind, Except.bind]
      by_cases hm : i.method = (initTagging o p.tags).method
      · simp [hm, ht]
      · by_cases hq : i.method = 1 ∧ (initTagging o p.tags).method = 0 ∧ i.trailer = [0, 0] ∧ k = true
        · simp [hm, hq, ht]
        · simp [hm, hq]
    · rw [if_pos hc]
  | cons e es =>
    have hl : p.explicit.getLast? = some e := by
      rw [← List.head?_reverse, he]; rfl
    rw [hl] at h
    obtain ⟨c, t⟩ := e
    simp only at h
    simp only [explicitLoop]
    by_cases hc : i.cls = c
    · rw [if_neg (by simpa using hc)]
      split
      · rfl
      · rw [if_pos (fun ht => h (by rw [hc, ht]))]
        rfl
    · rw [if_pos hc]
      rfl

theorem outerId_outer {E : Env} {U : ClassId → Prop} (hU : Universe E U) {c : ClassId} {p : Params} (hg : GoodUse E U c p) (ht : HasTag (E.cls c))
    {id : Nat × Nat} (h : ¬ OuterTag E c p id) : id ≠ outerId ((E.cls c).tagging.1, (E.cls c).tagging.2.1) p := by
  have hx : explicitOf E c p = p.explicit := by
    unfold explicitOf
    rw [hg.tags.keep, goodUse_hasTag hU hg.mem ht]
    rfl
  rintro rfl
  apply h
  unfold outerId
  cases hl : p.explicit.getLast? with
  | some e => exact .explicit (by rw [hx]; exact hl)
  | none =>
    rw [List.getLast?_eq_none_iff] at hl
    cases hi : p.implicit with
    | some e => exact .implicit (by rw [hx]; exact hl) ht hi
    | none => exact .own (by rw [hx]; exact hl) ht hi

/-- An element with a tag the class does not have is refused. -/
theorem build_mismatch {E : Env} {U : ClassId → Prop} {r : Ops} (hU : Universe E U) {c : ClassId} {p : Params} {i : Info}
    (hg : GoodUse E U c p) (hd : p.default = none) (h : ¬ OuterTag E c p (i.cls, i.tag)) :
    buildStep E r i (some c) p none = .error .valueError := by
  have plain : buildPlain E r i (some c) p = .error .valueError → buildStep E r i (some c) p none = .error .valueError := by
    intro h
    simp only [buildStep, bind, Except.bind, h]
  have hdc : ∀ bad, defaultCheck E r c p bad = .ok () := by
    intro bad
    unfold defaultCheck
    rw [if_neg]
    rw [hd]
    exact fun h => by cases h.2.2
  cases hc : E.cls c with
  | leaf proto bad =>
    obtain ⟨rfl, hpl⟩ := hU.leaf _ _ _ hg.mem hc
    have hgl := plainLeaf_good hpl
    have hne := outerId_outer hU hg (by rw [hc]; trivial) h
    rw [hc] at hne
    have hm := buildObj_mismatch (k := (proto.init p.tags).constructable) hgl.blank hg.tags.keep hne
    apply plain
    simp only [buildPlain, hc, bind, Except.bind, hgl.blank.explicit, buildTags_nil, hdc]
    rw [LeafSt.build_eq, LeafSt.base_init, hm]
    rfl
  | seq proto bad isSet fields oid =>
    obtain ⟨rfl, rfl, rfl, hpn, _⟩ := hU.seq _ _ _ _ _ _ hg.mem hc
    have hbl := plainNode_blank hpn
    have hne := outerId_outer hU hg (by rw [hc]; trivial) h
    rw [hc] at hne
    have hm := buildObj_mismatch (k := false) hbl hg.tags.keep hne
    apply plain
    simp only [buildPlain, hc, bind, Except.bind, hbl.explicit, buildTags_nil, hdc, hm]
  | seqOf proto bad isSet ch =>
    obtain ⟨rfl, rfl, hpn, _⟩ := hU.seqOf _ _ _ _ _ hg.mem hc
    have hbl := plainNode_blank hpn
    have hne := outerId_outer hU hg (by rw [hc]; trivial) h
    rw [hc] at hne
    have hm := buildObj_mismatch (k := false) hbl hg.tags.keep hne
    apply plain
    simp only [buildPlain, hc, bind, Except.bind, hbl.explicit, buildTags_nil, hdc, hm]
  | choice e t alts =>
    obtain ⟨rfl, rfl, hdt, hal⟩ := hU.choice _ _ _ _ hg.mem hc
    obtain ⟨he, him⟩ := hg.choice _ _ _ hc
    have hx : explicitOf E c p = [] := by
      unfold explicitOf
      rw [hc, hg.tags.keep, he]; rfl
    refine C22_none E r c [] alts hc (fun f hf => (hal f hf).2.2) p hd him i ?_
    intro j hch f hf ho
    rw [hx] at hch
    have : i.tlv = j.tlv := by
      generalize hi : i.tlv = a at hch
      generalize hj : j.tlv = b at hch
      cases hch
      rfl
    have := Info.eq_of_tlv this
    subst this
    exact h (.alternative hx hc hf ho)
  | any => exact absurd hc (hU.any _ hg.mem)
  | parsable o b => exact absurd hc (hU.parsable _ _ _ hg.mem)

/-- How `_parse_children` goes through the fields. -/
inductive Took (E : Env) : List Field → List Info → List Child → Prop
  | nil {is : List Info} : Took E [] is (is.map (fun i => .lazy i none none))
  | take {f : Field} {fs : List Field} {i : Info} {is : List Info} {cs : List Child} :
      (OuterTag E f.spec f.params (i.cls, i.tag) ∨ Field.skippable f = false) → Took E fs is cs →
      Took E (f :: fs) (i :: is) (.lazy i (some f.spec) none :: cs)
  | skip {f : Field} {fs : List Field} {is : List Info} {v : Val} {cs : List Child} :
      Field.skippable f = true → Took E fs is cs → Took E (f :: fs) is (.val v :: cs)

theorem skip_ok {E : Env} {U : ClassId → Prop} {r : Ops} (hU : Universe E U) (hr : ∃ r', r.construct = constructStep E r') {f : Field}
    (hg : GoodUse E U f.spec f.params) (_ : Field.skippable f = true) : ∃ v, skipChild r f = .ok (.val v) := by
  unfold skipChild
  obtain ⟨r', hr⟩ := hr
  cases hd : f.params.default with
  | none => exact ⟨_, rfl⟩
  | some d =>
    obtain ⟨ho, proto', bad', x, s', g1, rfl, g3, g4⟩ := hg.default d hd
    obtain ⟨_, _, st, _, _, _, k, _⟩ := default_ok (r := r') hU hg ⟨proto', bad', x, s', g1, hd, g3, rfl, g4⟩
    refine ⟨.leaf f.spec st, ?_⟩
    rw [hr, k]
    rfl

theorem place_took {E : Env} {U : ClassId → Prop} {r : Ops} (hU : Universe E U) (hr : ∃ r', r.construct = constructStep E r') (all : List Field) :
    ∀ (fs : List Field) (is : List Info), (∀ f ∈ fs, GoodUse E U f.spec f.params) →
    (∀ cs0, (is.foldlM (fun s i => placeElement E r all none i s.1 s.2) (fs, cs0)).bind (fun s => fillAbsent r s.1 s.2) = .error .valueError) ∨
      ∃ cs, Took E fs is cs ∧
      ∀ cs0, (is.foldlM (fun s i => placeElement E r all none i s.1 s.2) (fs, cs0)).bind (fun s => fillAbsent r s.1 s.2) = .ok (cs0 ++ cs)
  | [], is, _ => by
    refine .inr ⟨_, .nil, ?_⟩
    induction is with
    | nil => intro cs0; simp [fillAbsent, Except.bind, pure, Except.pure]
    | cons i is ih =>
      intro cs0
      rw [List.foldlM_cons]
      simp only [placeElement, bind, Except.bind]
      have := ih (cs0 ++ [.lazy i none none])
      rw [List.append_assoc] at this
      exact this
  | f :: fs, is, hg => by
    have hgf := hg f (by simp)
    have hgs : ∀ f ∈ fs, GoodUse E U f.spec f.params := fun g hm => hg g (by simp [hm])
    have hdo : f.params.default.isSome = true → f.params.optional = false := by
      intro h
      obtain ⟨d, hd⟩ := Option.isSome_iff_exists.mp h
      exact (hgf.default d hd).1
    -- a field that is left out
    have skip : Field.skippable f = true → (∀ i is', is = i :: is' → ¬ OuterTag E f.spec f.params (i.cls, i.tag)) →
        ∃ v, ∀ cs0, (is.foldlM (fun s i => placeElement E r all none i s.1 s.2) (f :: fs, cs0)).bind (fun s => fillAbsent r s.1 s.2) =
          (is.foldlM (fun s i => placeElement E r all none i s.1 s.2) (fs, cs0 ++ [.val v])).bind (fun s => fillAbsent r s.1 s.2) := by
      intro hs hno
      obtain ⟨v, hv⟩ := skip_ok (r := r) hU hr hgf hs
      refine ⟨v, fun cs0 => ?_⟩
      unfold skipChild at hv
      cases is with
      | nil =>
        simp only [List.foldlM_nil, pure, Except.pure, Except.bind]
        rw [fillAbsent]
        by_cases hdf : f.params.default.isSome = true
        · rw [if_pos hdf] at hv ⊢
          cases hc : r.construct f.spec f.params (.scalar .none) with
          | error e => rw [hc] at hv; cases hv
          | ok d => rw [hc] at hv; cases hv; rfl
        · rw [if_neg hdf] at hv ⊢
          have : f.params.optional = true := by
            have hs := hs
            simp only [Field.skippable, Bool.or_eq_true] at hs
            exact hs.resolve_right hdf
          rw [if_pos this]
          cases hv; rfl
      | cons i is' =>
        have ha := (fieldAbsent_spec hU hgf i).2 (hno i is' rfl) hs
        rw [List.foldlM_cons, List.foldlM_cons]
        rw [placeElement]
        simp only [oidOverride, ha, bind, Except.bind]
        by_cases hdf : f.params.default.isSome = true
        · rw [if_pos hdf] at hv
          simp only [hdo hdf, Bool.false_eq_true, if_false]
          cases hc : r.construct f.spec f.params (.scalar .none) with
          | error e => rw [hc] at hv; cases hv
          | ok d => rw [hc] at hv; cases hv; rfl
        · rw [if_neg hdf] at hv
          have : f.params.optional = true := by
            have hs := hs
            simp only [Field.skippable, Bool.or_eq_true] at hs
            exact hs.resolve_right hdf
          simp only [this, if_true]
          cases hv; rfl
    have skipped : Field.skippable f = true → (∀ i is', is = i :: is' → ¬ OuterTag E f.spec f.params (i.cls, i.tag)) →
        (∀ cs0, (is.foldlM (fun s i => placeElement E r all none i s.1 s.2) (f :: fs, cs0)).bind (fun s => fillAbsent r s.1 s.2) = .error .valueError) ∨
          ∃ cs, Took E (f :: fs) is cs ∧
          ∀ cs0, (is.foldlM (fun s i => placeElement E r all none i s.1 s.2) (f :: fs, cs0)).bind (fun s => fillAbsent r s.1 s.2) = .ok (cs0 ++ cs) := by
      intro hs hno
      obtain ⟨v, hv⟩ := skip hs hno
      rcases place_took hU hr all fs is hgs with h | ⟨cs, h1, h2⟩
      · exact .inl (fun cs0 => by rw [hv, h])
      · exact .inr ⟨.val v :: cs, .skip hs h1, fun cs0 => by rw [hv, h2, List.append_assoc]; rfl⟩
    cases is with
    | nil =>
      by_cases hs : Field.skippable f = true
      · exact skipped hs (fun i is' h => by cases h)
      · refine .inl (fun cs0 => ?_)
        simp only [Field.skippable, Bool.or_eq_true, not_or] at hs
        simp only [List.foldlM_nil, pure, Except.pure, Except.bind]
        rw [fillAbsent, if_neg hs.2, if_neg hs.1]
    | cons i is =>
      by_cases hskip : Field.skippable f = true ∧ ¬ OuterTag E f.spec f.params (i.cls, i.tag)
      · refine skipped hskip.1 (fun i' is' h => ?_)
        cases h
        exact hskip.2
      · have hfa : fieldAbsent E f i = .ok false := by
          by_cases ho : OuterTag E f.spec f.params (i.cls, i.tag)
          · exact (fieldAbsent_spec hU hgf i).1 ho
          · have hs : Field.skippable f = false := by
              cases hs : Field.skippable f with
              | false => rfl
              | true => exact absurd ⟨hs, ho⟩ hskip
            unfold fieldAbsent
            rw [show (f.params.optional || f.params.default.isSome) = false from hs]
            rfl
        have hor : OuterTag E f.spec f.params (i.cls, i.tag) ∨ Field.skippable f = false := by
          by_cases ho : OuterTag E f.spec f.params (i.cls, i.tag)
          · exact .inl ho
          · refine .inr ?_
            cases hs : Field.skippable f with
            | false => rfl
            | true => exact absurd ⟨hs, ho⟩ hskip
        have step : ∀ cs0, ((i :: is).foldlM (fun s i => placeElement E r all none i s.1 s.2) (f :: fs, cs0)).bind (fun s => fillAbsent r s.1 s.2) =
            (is.foldlM (fun s i => placeElement E r all none i s.1 s.2) (fs, cs0 ++ [.lazy i (some f.spec) none])).bind (fun s => fillAbsent r s.1 s.2) := by
          intro cs0
          rw [List.foldlM_cons, placeElement]
          simp only [oidOverride, hfa, bind, Except.bind]
          simp only [Bool.false_eq_true, if_false]
        rcases place_took hU hr all fs is hgs with h | ⟨cs, h1, h2⟩
        · exact .inl (fun cs0 => by rw [step, h])
        · exact .inr ⟨.lazy i (some f.spec) none :: cs, .take hor h1, fun cs0 => by rw [step, h2, List.append_assoc]; rfl⟩

/-- Either the elements belong to the fields (with others behind them), or a required field got an element with another tag. -/
theorem took_placed {E : Env} : ∀ {fs : List Field} {is : List Info} {cs : List Child}, Took E fs is cs →
    (∃ used extra, is.map Info.tlv = used ++ extra ∧ Placed E fs used) ∨
      ∃ (k : Nat) (f : Field) (i : Info), fs[k]? = some f ∧ cs[k]? = some (Child.lazy i (some f.spec) none) ∧ i ∈ is ∧ Field.skippable f = false ∧
        ¬ OuterTag E f.spec f.params (i.cls, i.tag)
  | _, _, _, .nil => .inl ⟨[], _, rfl, .nil⟩
  | _, _, _, @Took.take _ f fs i is cs h1 h2 => by
    by_cases ho : OuterTag E f.spec f.params (i.cls, i.tag)
    · rcases took_placed h2 with ⟨used, extra, g1, g2⟩ | ⟨k, g, j, g1, g2, g3, g4⟩
      · exact .inl ⟨i.tlv :: used, extra, by rw [List.map_cons, g1]; rfl, .take ho g2⟩
      · exact .inr ⟨k + 1, g, j, g1, g2, List.mem_cons_of_mem _ g3, g4⟩
    · exact .inr ⟨0, f, i, rfl, rfl, by simp, h1.resolve_left ho, ho⟩
  | _, _, _, .skip h1 h2 => by
    rcases took_placed h2 with ⟨used, extra, g1, g2⟩ | ⟨k, g, j, g1, g2, g3, g4⟩
    · exact .inl ⟨used, extra, g1, .skip h1 g2⟩
    · exact .inr ⟨k + 1, g, j, g1, g2, g3, g4⟩

theorem parseSeq_took {E : Env} {U : ClassId → Prop} (hU : Universe E U) {n : Nat} {fs : List Field} {is : List Info} {b : Bytes}
    (hg : ∀ f ∈ fs, GoodUse E U f.spec f.params) (h : Elements b (is.map Info.tlv)) :
    parseSeq E (ops E (n + 1)) fs none (some b) = .error .valueError ∨ ∃ cs, parseSeq E (ops E (n + 1)) fs none (some b) = .ok cs ∧ Took E fs is cs := by
  have heq : parseSeq E (ops E (n + 1)) fs none (some b) =
      (is.foldlM (fun s i => placeElement E (ops E (n + 1)) fs none i s.1 s.2) (fs, [])).bind (fun s => fillAbsent (ops E (n + 1)) s.1 s.2) := by
    rw [← elemLoop_elements _ b is (b.length + 1) 0 _ (by omega) (by omega) h, ← seqLoop_eq]
    rfl
  rw [heq]
  rcases place_took (r := ops E (n + 1)) hU ⟨ops E n, rfl⟩ fs fs is hg with h | ⟨cs, h1, h2⟩
  · exact .inl (h [])
  · exact .inr ⟨cs, h2 [], h1⟩

theorem elements_infos : ∀ (ts : List TLV), ∃ is : List Info, is.map Info.tlv = ts
  | [] => ⟨[], rfl⟩
  | t :: ts => by
    obtain ⟨i, hi⟩ := info_tlv t
    obtain ⟨is, his⟩ := elements_infos ts
    exact ⟨i :: is, by rw [List.map_cons, his, hi]⟩

/-- A field whose children cannot be had. -/
theorem nativeFields_error {r : Ops} {all : List Field} : ∀ {cs : List Child} {idx k : Nat} {ch : Child} {e : PyErr}, cs[k]? = some ch →
    buildChild r (paramsAt all (idx + k)) ch = .error e → ∀ y, nativeFields r all idx cs ≠ .ok y
  | [], _, _, _, _, h, _, _ => by cases h
  | ch0 :: cs, idx, 0, ch, e, h, hb, y => by
    cases h
    rw [Nat.add_zero] at hb
    simp only [nativeFields, hb, bind, Except.bind]
    exact fun h => by cases h
  | ch0 :: cs, idx, k + 1, ch, e, h, hb, y => by
    intro hy
    simp only [nativeFields, bind, Except.bind] at hy
    cases h1 : buildChild r (paramsAt all idx) ch0 with
    | error e => rw [h1] at hy; cases hy
    | ok v =>
      rw [h1] at hy
      simp only at hy
      cases h2 : r.native v with
      | error e => rw [h2] at hy; cases hy
      | ok q =>
        rw [h2] at hy
        simp only at hy
        cases h3 : nativeFields r all (idx + 1) cs with
        | error e => rw [h3] at hy; cases hy
        | ok z => exact nativeFields_error (cs := cs) (idx := idx + 1) (k := k) h (by rw [show idx + 1 + k = idx + (k + 1) by omega]; exact hb) _ h3

end Asn1
