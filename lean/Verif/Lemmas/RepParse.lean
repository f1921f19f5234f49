import Verif.Lemmas.Rep

/-! # The children of a container that has been loaded -/

namespace Asn1
open Spec

theorem dec_ber {E : Env} {c : ClassId} {p : Params} {t : TLV} {a : AVal} (h : Dec E c p t a) : Ber 11 t := by
  have : ∀ {c p a}, Dec E c p t a → Ber 11 t := by
    intro c p a h
    exact Dec.rec (motive_1 := fun c p t a _ => Ber 11 t) (motive_2 := fun _ _ _ _ => True) (motive_3 := fun _ _ _ _ => True)
      (fun _ h _ => h.ber) (fun _ h _ _ _ => h.ber) (fun _ h _ _ _ => h.ber) (fun _ _ _ _ _ h => h)
      trivial (fun _ _ _ _ => trivial) (fun _ _ _ => trivial) (fun _ _ _ => trivial) trivial (fun _ _ _ _ => trivial) h
  exact this h

theorem info_tlv (t : TLV) : ∃ i : Info, i.tlv = t := ⟨⟨t.cls, t.method, t.tag, t.header, t.contents, t.trailer⟩, rfl⟩

theorem elements_cons {t : TLV} {b : Bytes} {ts : List TLV} (ht : Ber 11 t) (h : Elements b ts) : Elements (t.bytes ++ b) (t :: ts) := by
  obtain ⟨h1, h2⟩ := h
  exact ⟨by rw [h1]; rfl, by simpa using ⟨ht, h2⟩⟩

/-- The child for a field that is left out. -/
def skipChild (r : Ops) (f : Field) : Py Child :=
  if f.params.default.isSome then (r.construct f.spec f.params (.scalar .none)).map Child.val else .ok (.val .void)

/-- Loading the fields: the loop over the elements and the filling up at the end. -/
theorem place_rep {E : Env} {U : ClassId → Prop} {r : Ops} (hU : Universe E U) (hS : Sim E U r) (all : List Field) :
    ∀ (fs : List Field) (b : Bytes) (as : List AVal), (∀ f ∈ fs, GoodUse E U f.spec f.params) → Distinguishable E fs → FieldsDec E fs b as →
    ∃ is : List Info, Elements b (is.map Info.tlv) ∧ (∀ i is', is = i :: is' → NextTag E fs (i.cls, i.tag)) ∧
      ∀ cs0 out, (is.foldlM (fun s i => placeElement E r all none i s.1 s.2) (fs, cs0)).bind (fun s => fillAbsent r s.1 s.2) = .ok out →
        ∃ cs, out = cs0 ++ cs ∧ FieldsRep E fs cs as
  | [], b, as, _, _, h => by
    cases h
    refine ⟨[], ⟨rfl, by simp⟩, fun i is' h => (by cases h), fun cs0 out h => ?_⟩
    rw [List.foldlM_nil] at h
    cases h
    exact ⟨[], by simp, .nil⟩
  | f :: fs, b, as, hg, hd, h => by
    have hgf := hg f (by simp)
    have hgs : ∀ f ∈ fs, GoodUse E U f.spec f.params := fun g hm => hg g (by simp [hm])
    -- a field that is left out
    have skip : ∀ (a : AVal) (as' : List AVal), Field.skippable f = true → FieldsDec E fs b as' →
        (∀ ch, skipChild r f = .ok ch → ∀ cs, FieldsRep E fs cs as' → FieldsRep E (f :: fs) (ch :: cs) (a :: as')) →
        ∃ is : List Info, Elements b (is.map Info.tlv) ∧ (∀ i is', is = i :: is' → NextTag E (f :: fs) (i.cls, i.tag)) ∧
          ∀ cs0 out, (is.foldlM (fun s i => placeElement E r all none i s.1 s.2) (f :: fs, cs0)).bind (fun s => fillAbsent r s.1 s.2) = .ok out →
            ∃ cs, out = cs0 ++ cs ∧ FieldsRep E (f :: fs) cs (a :: as') := by
      intro a as' hs hfd hmk
      obtain ⟨is, h1, h2, h3⟩ := place_rep hU hS all fs b as' hgs hd.2 hfd
      refine ⟨is, h1, fun i is' h => .inr ⟨hs, h2 i is' h⟩, fun cs0 out h => ?_⟩
      have key : ∃ ch, skipChild r f = .ok ch ∧
          (is.foldlM (fun s i => placeElement E r all none i s.1 s.2) (fs, cs0 ++ [ch])).bind (fun s => fillAbsent r s.1 s.2) = .ok out := by
        have hdo : f.params.default.isSome = true → f.params.optional = false := by
          intro h
          obtain ⟨d, hd⟩ := Option.isSome_iff_exists.mp h
          exact (hgf.default d hd).1
        unfold skipChild
        cases is with
        | nil =>
          simp only [List.foldlM_nil, pure, Except.pure, Except.bind, fillAbsent] at h ⊢
          by_cases hdf : f.params.default.isSome = true
          · rw [if_pos hdf] at h ⊢
            cases hc : r.construct f.spec f.params (.scalar .none) with
            | error e => rw [hc] at h; cases h
            | ok d => rw [hc] at h; exact ⟨_, rfl, h⟩
          · rw [if_neg hdf] at h ⊢
            have : f.params.optional = true := by
              have hs := hs
              simp only [Field.skippable, Bool.or_eq_true] at hs
              exact hs.resolve_right hdf
            rw [if_pos this] at h
            exact ⟨_, rfl, h⟩
        | cons i is' =>
          have hn := h2 i is' rfl
          have hno : ¬ OuterTag E f.spec f.params (i.cls, i.tag) := fun ho => hd.1 hs _ ho hn
          have ha := (fieldAbsent_spec hU hgf i).2 hno hs
          rw [List.foldlM_cons] at h
          rw [placeElement] at h
          simp only [oidOverride, ha, bind, Except.bind] at h
          by_cases hdf : f.params.default.isSome = true
          · rw [if_pos hdf]
            simp only [hdo hdf, Bool.false_eq_true, if_false, if_true] at h
            cases hc : r.construct f.spec f.params (.scalar .none) with
            | error e => rw [hc] at h; cases h
            | ok d =>
              rw [hc] at h
              refine ⟨_, rfl, ?_⟩
              rw [List.foldlM_cons]
              exact h
          · rw [if_neg hdf]
            have : f.params.optional = true := by
              have hs := hs
              simp only [Field.skippable, Bool.or_eq_true] at hs
              exact hs.resolve_right hdf
            simp only [this, if_true] at h
            refine ⟨_, rfl, ?_⟩
            rw [List.foldlM_cons]
            exact h
      obtain ⟨ch, k1, k2⟩ := key
      have k3 := hmk ch k1
      obtain ⟨cs, rfl, k4⟩ := h3 _ _ k2
      exact ⟨ch :: cs, by simp, k3 cs k4⟩
    cases h with
    | @present _ _ t b a as' h1 h2 =>
      obtain ⟨is, g1, g2, g3⟩ := place_rep hU hS all fs b as' hgs hd.2 h2
      obtain ⟨i, rfl⟩ := info_tlv t
      have ho : OuterTag E f.spec f.params (i.cls, i.tag) := dec_outer hU hgf h1
      refine ⟨i :: is, elements_cons (dec_ber h1) g1, ?_, fun cs0 out h => ?_⟩
      · intro j is' hj
        cases hj
        exact .inl ho
      · rw [List.foldlM_cons, placeElement] at h
        simp only [oidOverride, (fieldAbsent_spec hU hgf i).1 ho, bind, Except.bind] at h
        simp only [Bool.false_eq_true, if_false] at h
        obtain ⟨cs, rfl, k⟩ := g3 _ _ h
        exact ⟨.lazy i (some f.spec) none :: cs, by simp, .lazy h1 k⟩
    | @absent _ _ _ as' h1 h2 =>
      refine skip .absent as' (by simp [Field.skippable, h1]) h2 ?_
      intro ch h
      have hdf : f.params.default = none := by
        cases hx : f.params.default with
        | none => rfl
        | some d => rw [(hgf.default d hx).1] at h1; cases h1
      rw [skipChild, hdf] at h
      cases h
      exact fun cs k => .void hdf k
    | @default _ _ _ a as' h1 h2 =>
      have hdf : f.params.default.isSome = true := by
        obtain ⟨_, _, d, _, _, h, _⟩ := h1
        rw [h]; rfl
      refine skip a as' (by simp [Field.skippable, hdf]) h2 ?_
      intro ch h
      rw [skipChild, if_pos hdf] at h
      cases hc : r.construct f.spec f.params (.scalar .none) with
      | error e => rw [hc] at h; cases h
      | ok d =>
        rw [hc] at h
        cases h
        obtain ⟨a', k1, k2⟩ := hS.default (q := false) hgf hdf hc
        rw [default_unique h1 k1]
        exact fun cs k => .val k2 k

theorem parseSeq_rep {E : Env} {U : ClassId → Prop} {r : Ops} (hU : Universe E U) (hS : Sim E U r) {fs : List Field} {b : Bytes} {as : List AVal}
    {cs : List Child} (hg : ∀ f ∈ fs, GoodUse E U f.spec f.params) (hd : Distinguishable E fs) (h : FieldsDec E fs b as)
    (hp : parseSeq E r fs none (some b) = .ok cs) : FieldsRep E fs cs as := by
  obtain ⟨is, h1, _, h3⟩ := place_rep hU hS fs fs b as hg hd h
  have : (is.foldlM (fun s i => placeElement E r fs none i s.1 s.2) (fs, [])).bind (fun s => fillAbsent r s.1 s.2) = .ok cs := by
    rw [← elemLoop_elements _ b is (b.length + 1) 0 _ (by omega) (by omega) h1, ← seqLoop_eq]
    exact hp
  obtain ⟨cs', rfl, k⟩ := h3 _ _ this
  exact k

theorem listDec_elements {E : Env} {ch : ClassId} : ∀ {as : List AVal} {b : Bytes}, ListDec E ch b as →
    ∃ is : List Info, Elements b (is.map Info.tlv) ∧ ListRep E ch (is.map (fun i => .lazy i (some ch) none)) as
  | [], b, h => by
    cases h
    exact ⟨[], ⟨rfl, by simp⟩, .nil⟩
  | a :: as, b, h => by
    cases h with
    | @cons _ t b _ _ h1 h2 =>
      obtain ⟨is, g1, g2⟩ := listDec_elements h2
      obtain ⟨i, rfl⟩ := info_tlv t
      exact ⟨i :: is, elements_cons (dec_ber h1) g1, .lazy h1 g2⟩

theorem parseSeqOf_rep {E : Env} {ch : ClassId} {b : Bytes} {as : List AVal} {cs : List Child} (h : ListDec E ch b as)
    (hp : parseSeqOf (some ch) (some b) = .ok cs) : ListRep E ch cs as := by
  obtain ⟨is, h1, h2⟩ := (parseSeqOf_ok_iff _ _ _).mp hp
  obtain ⟨is', g1, g2⟩ := listDec_elements h
  have h3 : is.map Info.tlv = is'.map Info.tlv := Elements.unique h1 g1
  have h4 : is = is' := by
    apply List.map_injective_iff.mpr _ h3
    intro i j hij
    exact Info.eq_of_tlv hij
  subst h4
  rw [h2]; exact g2

end Asn1
