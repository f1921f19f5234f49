import Verif.Lemmas.PendingVal

/-! # New instances, continued: tags -/

namespace Asn1
open Spec Props

theorem shape_cases (sh : Shape) : (HasTag sh ∧ sh.mark ≠ 3 ∧ sh.mark ≠ 4 ∧ ∀ p, tagsFor sh p =
      (some (effTag (sh.tagging.1, sh.tagging.2.1) p).1, some (effTag (sh.tagging.1, sh.tagging.2.1) p).2, p.explicit.isEmpty && p.implicit.isSome,
      p.explicit)) ∨ (¬ HasTag sh ∧ (sh.mark = 3 ∨ sh.mark = 4) ∧ ∀ p, tagsFor sh p = (none, none, false, p.explicit)) := by
  cases sh <;> simp [HasTag, Shape.mark, tagsFor]

theorem derElement_shown {E : Env} {c : ClassId} {p : Params} {b : Piece} {t : TLV} (hb : (∃ m cs, b = .octets m cs) → HasTag (E.cls c))
    (h : DerElement E c p b t) : Shown (tagsFor (E.cls c) p) b t := by
  cases b with
  | octets m cs =>
    obtain ⟨d, u, h1, h2, h3, h4⟩ := h
    have hd : d = ((E.cls c).tagging.1, (E.cls c).tagging.2.1) := by
      have := hb ⟨m, cs, rfl⟩
      cases hc : E.cls c <;> rw [hc] at h1 this <;> simp [Shape.ident, HasTag] at h1 this <;> simp [Shape.tagging, ← h1]
    rcases shape_cases (E.cls c) with ⟨_, _, _, hs⟩ | ⟨hn, _⟩
    · refine ⟨u, ?_, ?_, h3, h4, ?_⟩
      · rw [hs, ← hd]
        have := congrArg Prod.fst h2.ident
        simp only at this
        rw [this]; rfl
      · rw [hs, ← hd]
        have := congrArg Prod.snd h2.ident
        simp only at this
        rw [this]; rfl
      · rw [hs]; exact h2.inside
    · exact absurd (hb ⟨m, cs, rfl⟩) hn
  | element w =>
    have h : DerInside p.explicit.reverse t w := h
    rcases shape_cases (E.cls c) with ⟨_, _, _, hs⟩ | ⟨_, _, hs⟩
    · show DerInside _ _ _; rw [hs]; exact h
    · show DerInside _ _ _; rw [hs]; exact h

theorem fix_tagging {E : Env} {c : ClassId} {v : Val} {b : Piece} {p q : Params} (hc : (E.cls c).tagging.2.2 = (false, [])) (hv : Pending E v b)
    (hm : v.mark = ((E.cls c).mark, some c)) (ht : v.tagging = tagsFor (E.cls c) q) (hp : GoodTags p)
    (hu : ¬ HasTag (E.cls c) → p.implicit = none) :
    ∃ w, Ev (fun j => fixTagging E (ops E j) v p = .ok w) ∧ Pending E w b ∧ w.tagging = tagsFor (E.cls c) p ∧ w.mark = v.mark ∧
      (p.explicit = [] → p.implicit = none → q.explicit = [] → q.implicit = none → w = v) := by
  have hcl : v.classOf = some c := by rw [classOf_mark, hm]
  have hpt : ∀ a b, (E.cls c).tagging = (a, b, false, []) → protoTagging E v = (a, b, false, []) := by
    intro a b h
    unfold protoTagging
    rw [hcl]
    exact h
  obtain ⟨a, d, hT⟩ : ∃ a d, (E.cls c).tagging = (a, d, false, []) := ⟨(E.cls c).tagging.1, (E.cls c).tagging.2.1, by rw [← hc]⟩
  have hpt := hpt a d hT
  rcases shape_cases (E.cls c) with ⟨ht1, ht2, ht3, hs⟩ | ⟨ht1, ht2, hs⟩
  · -- a class with a tag
    rw [hT] at hs
    have hnc : ∀ k o i x, v ≠ .choice k o i x := by
      rintro k o i x rfl
      have := congrArg Prod.fst hm
      exact ht2 this.symm
    have hct : ∀ cl tg im es, copiedTags v cl tg im es = (some cl, some tg, im, es) := by
      intro cl tg im es
      cases v <;> first | rfl | exact absurd rfl (hnc _ _ _ _)
    cases hpi : p.implicit with
    | none =>
      by_cases hskip : (q.explicit.isEmpty && q.implicit.isSome) = false ∧ p.explicit = [] ∧ q.explicit = []
      · obtain ⟨k1, k2, k3⟩ := hskip
        refine ⟨v, Ev.of (fun j => ?_), hv, ?_, rfl, fun _ _ _ _ => rfl⟩
        · unfold fixTagging fixTags
          rw [ht, hs, hpi]
          simp only [k2, k3, List.isEmpty_nil, Bool.true_and, Bool.not_true, Bool.false_eq_true, if_false]
          simp only [k3, List.isEmpty_nil, Bool.true_and] at k1
          simp [k1]
        · have : q.implicit = none := by
            rw [k3] at k1
            simpa using k1
          rw [ht, hs, hs]
          simp only [effTag, k2, k3, hpi, this]
      · obtain ⟨w, w1, w2, w3, w4⟩ := hv.copy a d false p.explicit
        refine ⟨w, w1.mono (fun j hj => ?_), w2, ?_, w4, ?_⟩
        · unfold fixTagging fixTags
          rw [ht, hs, hpi]
          have : ((q.explicit.isEmpty && q.implicit.isSome) || !(p.explicit.isEmpty && q.explicit.isEmpty)) = true := by
            by_contra hn
            apply hskip
            simp only [Bool.not_eq_true, Bool.or_eq_false_iff, Bool.not_eq_false', Bool.and_eq_true, List.isEmpty_iff] at hn
            exact ⟨hn.1, hn.2.1, hn.2.2⟩
          simp only [this, if_true]
          unfold retag
          rw [hpt]
          cases v <;> exact hj
        · rw [w3, hct, hs]
          simp only [effTag, hpi, Option.isSome_none, Bool.and_false]
          split <;> rfl
        · intro e1 _ e3 e4
          exact absurd ⟨by simp [e4], e1, e3⟩ hskip
    | some e =>
      have hpe : p.explicit = [] := by
        rcases hp.one with h | h
        · exact h
        · rw [hpi] at h; cases h
      obtain ⟨e1, e2⟩ := e
      by_cases hskip : (q.explicit.isEmpty && q.implicit.isSome) = true ∧ (effTag (a, d) q) = (e1, e2) ∧ q.explicit = []
      · obtain ⟨k1, k2, k3⟩ := hskip
        refine ⟨v, Ev.of (fun j => ?_), hv, ?_, rfl, fun _ _ _ _ => rfl⟩
        · unfold fixTagging fixTags
          rw [ht, hs, hpi]
          simp only at k2 ⊢
          rw [k2, k1, hpe, k3]
          simp
        · rw [ht, hs, hs, k2, k1, k3, hpe, hpi]
          simp [effTag, hpe, hpi]
      · obtain ⟨w, w1, w2, w3, w4⟩ := hv.copy e1 e2 true []
        refine ⟨w, w1.mono (fun j hj => ?_), w2, ?_, w4, ?_⟩
        · unfold fixTagging fixTags
          rw [ht, hs, hpi, hpe]
          have : ((!(q.explicit.isEmpty && q.implicit.isSome) || (some (effTag (a, d) q).1 != some e1) || (some (effTag (a, d) q).2 != some e2)) ||
              !(List.isEmpty ([] : List (Nat × Nat)) && q.explicit.isEmpty)) = true := by
            by_contra hn
            apply hskip
            simp only [Bool.not_eq_true, Bool.or_eq_false_iff, Bool.not_eq_false', Bool.and_eq_true, List.isEmpty_iff, bne_eq_false_iff_eq] at hn
            obtain ⟨⟨⟨⟨n1, n2⟩, n3⟩, n4⟩, n5⟩ := hn
            injection n3 with n3
            injection n4 with n4
            exact ⟨by simp [n1, n2], by rw [← n3, ← n4], n1⟩
          simp only [this, if_true]
          unfold retag
          rw [hpt]
          revert hj
          cases v <;> first | exact id | exact absurd rfl (hnc _ _ _ _)
        · rw [w3, hct, hs]
          simp [effTag, hpe, hpi]
        · intro _ h
          cases h
  · -- CHOICE
    have hpi := hu ht1
    have hct : ∀ cl tg im es, copiedTags v cl tg im es = (none, none, false, es) := by
      intro cl tg im es
      cases hv with
      | choice => rfl
      | leaf => rcases ht2 with h | h <;> rw [h] at hm <;> cases hm
      | string => rcases ht2 with h | h <;> rw [h] at hm <;> cases hm
      | payload => rcases ht2 with h | h <;> rw [h] at hm <;> cases hm
      | node => rcases ht2 with h | h <;> rw [h] at hm <;> cases hm
    by_cases hskip : p.explicit = [] ∧ q.explicit = []
    · obtain ⟨k1, k2⟩ := hskip
      refine ⟨v, Ev.of (fun j => ?_), hv, ?_, rfl, fun _ _ _ _ => rfl⟩
      · unfold fixTagging fixTags
        rw [ht, hs, hpi, k1, k2]
        rfl
      · rw [ht, hs, hs, k1, k2]
    · obtain ⟨w, w1, w2, w3, w4⟩ := hv.copy a d false p.explicit
      refine ⟨w, w1.mono (fun j hj => ?_), w2, ?_, w4, ?_⟩
      · unfold fixTagging fixTags
        rw [ht, hs, hpi]
        have : (false || !(p.explicit.isEmpty && q.explicit.isEmpty)) = true := by
          by_contra hn
          apply hskip
          simp only [Bool.not_eq_true, Bool.or_eq_false_iff, Bool.not_eq_false', Bool.and_eq_true, List.isEmpty_iff] at hn
          exact hn.2
        simp only [this, if_true]
        unfold retag
        rw [hpt]
        cases v <;> exact hj
      · rw [w3, hct, hs]
      · intro e1 _ e3 _
        exact absurd ⟨e1, e3⟩ hskip

theorem types_tagging {E : Env} {U : ClassId → Prop} (hT : Types E U) {c : ClassId} (hU : U c) : (E.cls c).tagging.2.2 = (false, []) := by
  cases hc : E.cls c with
  | leaf proto bad => have := hT.leaf c proto bad hU hc; simp [Shape.tagging, this.implicit, this.explicit]
  | seq proto bad s fields oid => have := (hT.seq c proto bad s fields oid hU hc).1; simp [Shape.tagging, this.implicit, this.explicit]
  | seqOf proto bad s ch => have := (hT.seqOf c proto bad s ch hU hc).1; simp [Shape.tagging, this.implicit, this.explicit]
  | choice e tagged alts => have := (hT.choice c e tagged alts hU hc).1; simp [Shape.tagging, this]
  | any => rfl
  | parsable o b => have := hT.parsable c o b hU hc; simp [Shape.tagging, this.implicit, this.explicit]

/-- Tagging of a new instance. -/
theorem init_tags {ν : Type} {o : Obj ν} {m : Nat} {q : Params} (hb : Bare o m) (hq : GoodTags q) :
    ((some (initTagging o q.tags).cls, some (initTagging o q.tags).tag, (initTagging o q.tags).implicit, (initTagging o q.tags).explicit) : Tags) =
      (some (effTag (o.cls, o.tag) q).1, some (effTag (o.cls, o.tag) q).2, q.explicit.isEmpty && q.implicit.isSome, q.explicit) := by
  obtain ⟨h1, h2, h3, h4, h5, h6, h7⟩ := initTagging_fields o q hq.keep
  have hi : (initTagging o q.tags).implicit = (q.explicit.isEmpty && q.implicit.isSome) := by
    unfold initTagging Params.tags
    have := hq.keep
    simp only [this, Bool.false_eq_true, if_false]
    by_cases he : q.explicit = []
    · simp only [he, ne_eq, not_true_eq_false, if_false, List.isEmpty_nil, Bool.true_and]
      cases hi : q.implicit with
      | none => simp [hb.implicit]
      | some e => rfl
    · simp only [ne_eq, he, not_false_eq_true, if_true, hb.implicit]
      cases hq : q.explicit with
      | nil => exact absurd hq he
      | cons a l => rfl
  rw [← h1, h2, hi, hb.explicit, List.nil_append]

/-- A cached value is copied. -/
theorem LeafSt.native_fresh {st : LeafSt} {d : Bytes} {s : Scalar} (hc : st.base.contents = some d) (h : st.native = .ok (s, st))
    (cl tg : Nat) (im : Bool) (es : List (Nat × Nat)) : (st.fresh cl tg im es).native = .ok (s, st.fresh cl tg im es) := by
  cases st with
  | boolean o =>
    obtain ⟨_, _, _, _, _, _, co, _, na, ind⟩ := o
    cases hc
    cases na with
    | none => cases h
    | some n => cases h; rfl
  | integer m o =>
    obtain ⟨_, _, _, _, _, _, co, _, na, ind⟩ := o
    cases hc
    cases na with
    | none => cases h
    | some n => cases h; rfl
  | enumerated m o =>
    obtain ⟨_, _, _, _, _, _, co, _, na, ind⟩ := o
    cases hc
    cases na with
    | none =>
      cases m with
      | none => cases h
      | some m =>
        simp only [LeafSt.native, Enumerated.native] at h
        cases hm : IntMap.get m (intFromBytes d true) <;> rw [hm] at h <;> cases h
    | some n => cases h; rfl
  | null o => cases h; rfl
  | oid k o =>
    obtain ⟨⟨_, _, _, _, _, _, co, _, na, ind⟩, dt⟩ := o
    cases hc
    cases na with
    | none => cases dt <;> cases h
    | some n =>
      injection h with h
      injection h with h1 h2
      injection h2 with _ h2
      injection h2 with h2 _
      injection h2 with _ _ _ _ _ _ _ _ h2 _
      injection h2 with h2
      subst h1
      have h2' : (match k.map with
        | some m => (m.get n).getD n
        | none => n) = n := h2
      show Except.ok (optScalar Scalar.str (some (match k.map with
        | some m => (m.get n).getD n
        | none => n)), LeafSt.oid k { toObj := { cls := cl, method := 0, tag := tg, implicit := im, explicit := es, contents := some d, native := some (match k.map with
        | some m => (m.get n).getD n
        | none => n) } }) = _
      rw [h2']
      exact congrArg (fun x => Except.ok (optScalar Scalar.str (some x), _)) h2'.symm
  | octets o =>
    obtain ⟨_, _, _, _, _, _, co, _, na, ind⟩ := o
    cases hc
    cases na with
    | none =>
      simp only [LeafSt.native, OctetString.native] at h
      cases hm : mergeObj OctetString.asChunk OctetString.new ind d <;> rw [hm] at h <;> cases h
    | some n => cases h; rfl
  | chars k u o =>
    obtain ⟨_, _, _, _, _, _, co, _, na, ind⟩ := o
    cases hc
    cases na with
    | none =>
      simp only [LeafSt.native, AbstractString.native, bind, Except.bind] at h
      split at h
      · cases h
      · next hq =>
        split at hq
        · cases hq
        · split at hq
          · cases hq
          · cases hq; cases h
    | some n => cases h; rfl
  | bits o =>
    obtain ⟨⟨_, _, _, _, _, _, co, _, na, ind⟩, un⟩ := o
    cases hc
    cases na with
    | none =>
      simp only [LeafSt.native, BitString.native, bind, pure, Except.bind, Except.pure, Option.getD_some] at h
      generalize chunksToInt BitString.new.toObj ind d = a at h
      cases a with
      | error e => cases h
      | ok a =>
        simp only at h
        generalize intToBitTuple a.1 a.2.1 = b at h
        cases b <;> cases h
    | some n => cases h; rfl
  | named m o =>
    obtain ⟨⟨_, _, _, _, _, _, co, _, na, ind⟩, un⟩ := o
    cases hc
    cases na with
    | none =>
      simp only [LeafSt.native, NamedBits.native, bind, pure, Except.bind, Except.pure, Option.getD_some] at h
      generalize chunksToInt NamedBits.new.toObj ind d = a at h
      cases a with
      | error e => cases h
      | ok a =>
        simp only at h
        generalize intToBitTuple a.1 a.2.1 = b at h
        cases b <;> cases h
    | some n => cases h; rfl
  | octetBits o =>
    obtain ⟨⟨_, _, _, _, _, _, co, _, na, ind⟩, un⟩ := o
    cases hc
    cases na with
    | none =>
      simp only [LeafSt.native, OctetBitString.native] at h
      generalize OctetBitString.readBytes ind d = a at h
      cases a <;> cases h
    | some n => cases h; rfl
  | intBits o =>
    obtain ⟨⟨_, _, _, _, _, _, co, _, na, ind⟩, un⟩ := o
    cases hc
    cases na with
    | none =>
      simp only [LeafSt.native, IntegerBitString.native] at h
      generalize chunksToInt IntegerBitString.new.toObj ind d = a at h
      cases a <;> cases h
    | some n => cases h; rfl
  | intOctets o =>
    obtain ⟨⟨_, _, _, _, _, _, co, _, na, ind⟩, w⟩ := o
    cases hc
    cases na with
    | none =>
      simp only [LeafSt.native, IntegerOctetString.native] at h
      generalize mergeObj OctetString.asChunk IntegerOctetString.new.toObj ind d = a at h
      cases a <;> cases h
    | some n => cases h; rfl

/-- Other tags do not change the value of a primitive instance. -/
theorem fix_leaf {E : Env} {c : ClassId} {st : LeafSt} {d : Bytes} {s : Scalar} {p : Params} {w : Val} (hc : st.base.contents = some d)
    (hi : st.base.indefinite = false) (h : st.native = .ok (s, st)) (hw : Ev (fun j => fixTagging E (ops E j) (.leaf c st) p = .ok w)) :
    ∃ st', w = .leaf c st' ∧ st'.native = .ok (s, st') := by
  obtain ⟨j, hj⟩ := hw.down.get
  have key : ∀ cl tg im es, (ops E (j + 1)).copyTo (.leaf c st) cl tg im es = .ok w → ∃ st', w = .leaf c st' ∧ st'.native = .ok (s, st') := by
    intro cl tg im es hcp
    rw [ops_copyTo] at hcp
    simp only [copyStep, copyTo_leaf hi, bind, Except.bind] at hcp
    cases hcp
    exact ⟨_, rfl, LeafSt.native_fresh hc h cl tg im es⟩
  have key2 : ∀ ex im, retag E (ops E (j + 1)) (.leaf c st) ex im = .ok w → ∃ st', w = .leaf c st' ∧ st'.native = .ok (s, st') := by
    intro ex im hr
    unfold retag at hr
    simp only at hr
    split at hr
    · next h' => cases h'
    · exact key _ _ _ _ hr
    · exact key _ _ _ _ hr
  unfold fixTagging fixTags at hj
  simp only at hj
  by_cases hb : (((match p.implicit with
    | none => (Val.leaf c st).tagging.2.2.1
    | some (pc, pt) => !(Val.leaf c st).tagging.2.2.1 || (Val.leaf c st).tagging.1 != some pc || (Val.leaf c st).tagging.2.1 != some pt) ||
      !(p.explicit.isEmpty && (Val.leaf c st).tagging.2.2.2.isEmpty)) = true)
  · exact key2 p.explicit p.implicit ((if_pos hb).symm.trans hj)
  · have := (if_neg hb).symm.trans hj
    cases this
    exact ⟨_, rfl, h⟩

end Asn1
