import Verif.Lemmas.LeafMap
import Verif.Spec.Tagging
import Verif.Model.Core

/-! # Explicit wrappers: encoding and decoding against the specification -/

namespace Asn1
open Spec

theorem wrapExplicit_wrapped (es : List (Nat × Nat)) (hes : ∀ e ∈ es, e.1 < 4) (h c : Bytes) :
    ∀ h', wrapExplicit es h c = .ok h' → Fits (h' ++ c) → Wrapped es (h ++ c) (h' ++ c) := by
  induction es using List.reverseRecOn with
  | nil =>
    intro h' hw _
    injection hw with hw
    subst hw
    exact .nil
  | append_singleton es e ih =>
    intro h' hw hf
    obtain ⟨k, t⟩ := e
    rw [wrapExplicit_append] at hw
    cases hw1 : wrapExplicit es h c with
    | error e => rw [hw1] at hw; cases hw
    | ok h1 =>
      rw [hw1] at hw
      simp only [Except.bind, wrapExplicit] at hw
      cases hd : dumpHeader k 1 t (h1 ++ c) with
      | error e => rw [hd] at hw; cases hw
      | ok h2 =>
        rw [hd] at hw
        simp only [bind, Except.bind] at hw
        injection hw with hw
        subst hw
        have hf1 : Fits (h1 ++ c) := by rw [List.append_assoc] at hf; exact hf.of_append_right
        have := ih (fun e he => hes e (by simp [he])) h1 hw1 hf1
        obtain ⟨id, len, h3, h4, h5, _⟩ := dumpHeader_spec (t := t) (hes (k, t) (by simp)) (by decide : 1 < 2) (h1 ++ c) hf1
        rw [hd] at h3
        injection h3 with h3
        subst h3
        have := Wrapped.snoc this h4 h5
        simpa [List.append_assoc] using this

/-- Unforced or forced dump of an instance that has no header. -/
theorem asn1Dump_encoded {ν : Type} {k : Bool} {o o' : Obj ν} {c b : Bytes} {force : Bool} (hc : o.contents = some c) (hh : o.header = none)
    (hi : o.indefinite = false) (hcls : o.cls < 4) (hm : o.method < 2) (hes : ∀ e ∈ o.explicit, e.1 < 4)
    (hd : asn1Dump k o force = .ok (b, o')) (hf : Fits b) :
    Encoded o.explicit o.cls o.method o.tag c b ∧ ∃ h, b = h ++ c ∧ o' = { o with header := some h, trailer := [] } := by
  rw [asn1Dump_fresh hc hh hi] at hd
  cases h1 : dumpHeader o.cls o.method o.tag c with
  | error e => rw [h1] at hd; cases hd
  | ok h0 =>
    rw [h1] at hd
    simp only [Except.bind] at hd
    cases h2 : wrapExplicit o.explicit h0 c with
    | error e => rw [h2] at hd; cases hd
    | ok h =>
      rw [h2] at hd
      simp only [Except.ok.injEq, Prod.mk.injEq] at hd
      obtain ⟨rfl, rfl⟩ := hd
      obtain ⟨id, len, h3, h4, h5, _⟩ := dumpHeader_spec (t := o.tag) hcls hm c hf.of_append_right
      rw [h1] at h3
      injection h3 with h3
      subst h3
      exact ⟨⟨id, len, h4, h5, wrapExplicit_wrapped _ hes _ _ _ h2 hf⟩, h, rfl, rfl⟩

theorem Info.eq_of_tlv {i j : Info} (h : i.tlv = j.tlv) : i = j := by
  cases i; cases j
  simp only [Info.tlv, TLV.mk.injEq] at h
  obtain ⟨h1, h2, h3, h4, h5, h6⟩ := h
  subst h1; subst h2; subst h3; subst h4; subst h5; subst h6
  rfl

theorem explicitLoop_chain : ∀ (es : List (Nat × Nat)) (i : Info) (h t : Bytes) (w : Info),
    (∃ r, explicitLoop es i h t = .ok r ∧ r.1 = w) ↔ Chain es i.tlv w.tlv := by
  intro es
  induction es with
  | nil =>
    intro i h t w
    constructor
    · rintro ⟨r, hr, rfl⟩
      injection hr with hr
      subst hr
      exact .nil
    · intro hc
      generalize hv : i.tlv = v at hc
      generalize hw : w.tlv = u at hc
      cases hc
      exact ⟨_, rfl, Info.eq_of_tlv (hv.trans hw.symm)⟩
  | cons e es ih =>
    intro i h t w
    obtain ⟨c, tg⟩ := e
    constructor
    · rintro ⟨r, hr, rfl⟩
      simp only [explicitLoop] at hr
      split at hr
      · cases hr
      next h1 =>
      split at hr
      · cases hr
      next h2 =>
      split at hr
      · cases hr
      next h3 =>
      cases hp : parse i.contents with
      | error e => rw [hp] at hr; cases hr
      | ok i' =>
        rw [hp] at hr
        simp only [bind, Except.bind] at hr
        obtain ⟨junk, hj, hb⟩ := (parse_ok_iff _ _).mp hp
        have := (ih i' _ _ r.1).mp ⟨r, hr, rfl⟩
        simp only [ne_eq, Decidable.not_not] at h1 h2 h3
        subst h1; subst h3
        exact Chain.cons (v := i.tlv) h2 hj hb this
    · intro hc
      generalize hv : i.tlv = v at hc
      generalize hw : w.tlv = u at hc
      cases hc with
      | cons h1 h2 h3 h4 =>
        subst hv; subst hw
        rename_i v' junk
        have hp := (parse_ok_iff i.contents ⟨v'.cls, v'.method, v'.tag, v'.header, v'.contents, v'.trailer⟩).mpr ⟨junk, h2, h3⟩
        obtain ⟨r, hr, hrw⟩ := (ih ⟨v'.cls, v'.method, v'.tag, v'.header, v'.contents, v'.trailer⟩ (h ++ v'.header) (v'.trailer ++ t) w).mpr h4
        refine ⟨r, ?_, hrw⟩
        have h1 : i.method = 1 := h1
        simp only [explicitLoop, Info.tlv, ne_eq, not_true_eq_false, if_false, h1, hp, bind, Except.bind]
        exact hr

/-- When `load` accepts, and what it keeps. -/
theorem loadObj_iff {ν : Type} {k : Bool} {bad : List Nat} {p : Obj ν} {data c : Bytes} :
    (∃ o, loadObj k bad p data = .ok o ∧ o.contents = some c) ↔
      ∃ (v w : TLV) (rest : Bytes), data = v.bytes ++ rest ∧ Ber 11 v ∧ Chain p.explicit.reverse v w ∧ w.cls = p.cls ∧
        (w.tag = p.tag ∨ w.tag ∈ bad) ∧ (w.method = p.method ∨ (k = true ∧ p.method = 0 ∧ w.method = 1 ∧ w.trailer = [0, 0])) ∧
        c = w.contents := by
  constructor
  · rintro ⟨o, h, hc⟩
    obtain ⟨i, r, o0, h1, h2, h3, rfl⟩ := loadObj_inv h
    obtain ⟨rest, hr, hb⟩ := (parse_ok_iff _ _).mp h1
    have hch := (explicitLoop_chain _ _ _ _ r.1).mp ⟨r, h2, rfl⟩
    obtain ⟨h4, h5, ⟨h6, rfl⟩ | ⟨h6, h7, h8, h9, rfl⟩⟩ := buildBase_ok.mp h3
    · injection hc with hc
      exact ⟨i.tlv, r.1.tlv, rest, hr, hb, hch, h4, h5, .inl h6, hc.symm⟩
    · injection hc with hc
      exact ⟨i.tlv, r.1.tlv, rest, hr, hb, hch, h4, h5, .inr ⟨h9, h7, h6, h8⟩, hc.symm⟩
  · rintro ⟨v, w, rest, hd, hb, hch, h1, h2, h3, rfl⟩
    have hp := (parse_ok_iff data ⟨v.cls, v.method, v.tag, v.header, v.contents, v.trailer⟩).mpr ⟨rest, hd, hb⟩
    obtain ⟨r, hr, hrw⟩ := (explicitLoop_chain _ ⟨v.cls, v.method, v.tag, v.header, v.contents, v.trailer⟩ v.header v.trailer
      ⟨w.cls, w.method, w.tag, w.header, w.contents, w.trailer⟩).mpr hch
    unfold loadObj
    rw [hp]
    simp only [bind, Except.bind]
    rw [buildObj_eq, hr]
    simp only [Except.bind]
    rw [hrw]
    rcases h3 with h3 | ⟨h3, h4, h5, h6⟩
    · rw [(buildBase_ok (k := k) (bad := bad) (p := { p with explicit := [] }) (i := ⟨w.cls, w.method, w.tag, w.header, w.contents, w.trailer⟩)).mpr ⟨h1, h2, .inl ⟨h3, rfl⟩⟩]
      exact ⟨_, rfl, rfl⟩
    · rw [(buildBase_ok (k := k) (bad := bad) (p := { p with explicit := [] }) (i := ⟨w.cls, w.method, w.tag, w.header, w.contents, w.trailer⟩)).mpr ⟨h1, h2, .inr ⟨h5, h4, h6, h3, rfl⟩⟩]
      exact ⟨_, rfl, rfl⟩

/-- Descending into an encoding made with given tags meets exactly those tags. -/
theorem wrapped_chain {es : List (Nat × Nat)} {cls m tag : Nat} {c w : Bytes} (h : Encoded es cls m tag c w) :
    ∃ v : TLV, v.bytes = w ∧ Ber 1 v ∧ ∀ (es' : List (Nat × Nat)) (u : TLV), Chain es' v u →
      (es' ++ [(u.cls, u.tag)] <+: es.reverse ++ [(cls, tag)] ∧ u.trailer = [] ∧ (es'.length = es.length → u.method = m ∧ u.contents = c) ∧
        (es'.length ≠ es.length → u.method = 1)) ∨
      (es.reverse ++ [(cls, tag)] <+: es' ∧ m = 1) := by
  obtain ⟨id, len, h1, h2, hw⟩ := h
  generalize hb : id ++ len ++ c = b at hw
  induction hw with
  | nil =>
    refine ⟨⟨cls, m, tag, id ++ len, c, []⟩, by simpa [TLV.bytes] using hb, .definite h1 h2, ?_⟩
    intro es' u hc
    generalize hv : (⟨cls, m, tag, id ++ len, c, []⟩ : TLV) = v at hc
    cases hc with
    | nil => subst hv; left; exact ⟨by simp, rfl, fun _ => ⟨rfl, rfl⟩, fun h => absurd rfl h⟩
    | cons h3 h4 h5 h6 =>
      subst hv
      right
      exact ⟨by simp, h3⟩
  | @snoc es b w id' len' c' t' hw hid hlen ih =>
    obtain ⟨v, hv1, hv2, hv3⟩ := ih hb
    refine ⟨⟨c', 1, t', id' ++ len', w, []⟩, by simp [TLV.bytes], .definite hid hlen, ?_⟩
    intro es' u hc
    generalize hv : (⟨c', 1, t', id' ++ len', w, []⟩ : TLV) = v0 at hc
    cases hc with
    | nil =>
      subst hv
      left
      exact ⟨by simp, rfl, fun h => by simp at h, fun _ => rfl⟩
    | @cons es'' _ v' _ junk h3 h4 h5 h6 =>
      subst hv
      have : v = v' := (Ber_unique (r := []) hv2 h5 (by rw [hv1, List.append_nil]; exact h4)).1
      subst this
      rcases hv3 _ _ h6 with ⟨h7, h8, h9, h10⟩ | ⟨h7, h8⟩
      · left
        refine ⟨by simpa using h7, h8, fun h => h9 (by simpa using h), fun h => h10 (by simpa using h)⟩
      · right
        exact ⟨by simpa using h7, h8⟩

end Asn1

namespace Asn1
open Spec

/-- (class, tag) of the innermost header for class-level (class, tag) `d`: an implicit tag replaces it unless explicit
tags are given too (core.py:346-378). -/
def effTag (d : Nat × Nat) (p : Params) : Nat × Nat := if p.explicit = [] then p.implicit.getD d else d

theorem initTagging_fields {ν : Type} (o : Obj ν) (p : Params) (hn : p.noExplicit = false) :
    ((initTagging o p.tags).cls, (initTagging o p.tags).tag) = effTag (o.cls, o.tag) p ∧
    (initTagging o p.tags).explicit = o.explicit ++ p.explicit ∧ (initTagging o p.tags).method = o.method ∧
    (initTagging o p.tags).header = o.header ∧ (initTagging o p.tags).trailer = o.trailer ∧
    (initTagging o p.tags).indefinite = o.indefinite ∧ (initTagging o p.tags).contents = o.contents := by
  obtain ⟨pe, pi, pn, po, pd⟩ := p
  simp only at hn
  subst hn
  unfold initTagging effTag Params.tags
  cases pe with
  | nil => cases pi <;> simp
  | cons e es => simp

/-- Tag classes of the params are valid. -/
def Params.Valid (p : Params) : Prop := (∀ e ∈ p.explicit, e.1 < 4) ∧ (∀ e, p.implicit = some e → e.1 < 4)

/-- Class attributes of a class: never loaded, valid tag classes. -/
structure ClassObj (o : Obj Unit) (method : Nat) : Prop where
  fresh : Fresh o
  cls : o.cls < 4
  method : o.method = method
  explicit : ∀ e ∈ o.explicit, e.1 < 4
  native : o.native = none

theorem initTagging_valid {o : Obj Unit} {m : Nat} (ho : ClassObj o m) {p : Params} (hp : p.Valid) (hn : p.noExplicit = false) :
    ClassObj (initTagging o p.tags) m := by
  obtain ⟨h1, h2, h3, h4, h5, h6, _⟩ := initTagging_fields o p hn
  refine ⟨⟨h4.trans ho.fresh.header, h5.trans ho.fresh.trailer, h6.trans ho.fresh.indefinite⟩, ?_, h3.trans ho.method, ?_, ?_⟩
  · have : (initTagging o p.tags).cls = (effTag (o.cls, o.tag) p).1 := by rw [← h1]
    rw [this]
    unfold effTag
    split
    · cases hi : p.implicit with
      | none => exact ho.cls
      | some e => exact hp.2 e hi
    · exact ho.cls
  · rw [h2]
    intro e he
    rcases List.mem_append.mp he with h | h
    · exact ho.explicit e h
    · exact hp.1 e h
  · rw [initTagging_eq]; exact ho.native

/-- Loading does not look at the contents of the prototype. -/
theorem buildObj_no_contents {ν : Type} (k : Bool) (bad : List Nat) (o : Obj ν) (i : Info) :
    buildObj k bad o i = buildObj k bad { o with contents := none } i := by
  rw [buildObj_eq, buildObj_eq]
  cases explicitLoop o.explicit.reverse i i.header i.trailer with
  | error e => rfl
  | ok r =>
    simp only [Except.bind]
    have : buildBase k bad { o with explicit := [] } r.1 =
        buildBase k bad { ({ o with contents := none } : Obj ν) with explicit := [] } r.1 := by
      unfold buildBase
      simp only
      split
      · rfl
      · simp only [bind, Except.bind]
    rw [this]

theorem ClassObj.proto {o : Obj Unit} {m : Nat} (h : ClassObj o m) (x : Option Bytes) :
    ({ o with contents := x } : Obj Unit).proto = { o with contents := none } := by
  obtain ⟨⟨a1, a2, a3⟩, _, _, _, hnat⟩ := h
  cases o
  simp only at a1 a2 a3 hnat
  subst a1; subst a2; subst a3; subst hnat
  rfl

/-- Dumping a freshly made value and loading the bytes with the prototype it was made from. -/
theorem load_dump_class {k : Bool} {bad : List Nat} {o o1 : Obj Unit} {m : Nat} {c bytes : Bytes} (ho : ClassObj o m) (hm : m < 2)
    {force : Bool} (strict : Bool) (hd : asn1Dump k { o with contents := some c } force = .ok (bytes, o1)) (hf : Fits bytes) :
    ∃ h, loadObj k bad o bytes strict = .ok { o with header := some h, contents := some c, trailer := [], native := none } := by
  obtain ⟨h, _, _, hl⟩ := load_dump (o := { o with contents := some c }) (bad := bad) (c := c) rfl ho.fresh.header ho.fresh.indefinite ho.cls
    (by show o.method < 2; rw [ho.method]; exact hm) ho.explicit strict hd hf
  refine ⟨h, ?_⟩
  rw [ho.proto] at hl
  have : loadObj k bad o bytes strict = loadObj k bad { o with contents := none } bytes strict := by
    unfold loadObj
    cases parse bytes strict with
    | error e => rfl
    | ok i => exact buildObj_no_contents _ _ _ _
  rw [this, hl]

/-- Replaces the tagging of a container. -/
def Val.setTag (c t : Nat) (i : Bool) (es : List (Nat × Nat)) : Val → Val
  | .node k o cs m => .node k (o.retag c t i es) cs m
  | v => v

section
variable (E : Env) (r : Ops) (c t : Nat) (i : Bool) (es : List (Nat × Nat))

theorem setField_tag (k : ClassId) (o : Obj Unit) (cs : Option (List Child)) (m : Bool) (idx : Nat) (x : PyVal) :
    setField E r (.node k (o.retag c t i es) cs m) idx x =
      (setField E r (.node k o cs m) idx x).map (Val.setTag c t i es) := by
  have he : ensureChildren E r k (o.retag c t i es) cs = ensureChildren E r k o cs := rfl
  simp only [setField, he]
  cases E.cls k <;> try rfl
  rename_i fields oid
  simp only [bind, Except.bind]
  cases ensureChildren E r k o cs with
  | error e => rfl
  | ok cs =>
    simp only
    cases fields[idx]? with
    | none => rfl
    | some f =>
      simp only
      cases oidOverride r fields oid idx cs with
      | error e => rfl
      | ok ov =>
        simp only
        cases makeValue E r (ov.1.fieldSpec f.spec) (ov.1.valueSpec f.spec) f.params x with
        | error e => rfl
        | ok nv =>
          simp only
          cases assignedContents E r nv with
          | error e => rfl
          | ok q =>
            simp only
            cases q.1 with
            | none => rfl
            | some _ =>
              simp only
              by_cases hl : idx < ov.2.length
              · simp only [if_pos hl]; rfl
              · simp only [if_neg hl]; rfl

theorem setField_node {k : ClassId} {o : Obj Unit} {cs : Option (List Child)} {m : Bool} {idx : Nat} {x : PyVal} {v : Val}
    (h : setField E r (.node k o cs m) idx x = .ok v) : ∃ cs', v = .node k o (some cs') true := by
  simp only [setField] at h
  split at h
  · simp only [bind, Except.bind] at h
    repeat' split at h
    all_goals first | (cases h; done) | (injection h with h; exact ⟨_, h.symm⟩)
  · cases h

theorem setFromDict_tag (d : List (String × PyVal)) (sk : Bool) (k : ClassId) (o : Obj Unit) : ∀ (fs : List Field) (idx : Nat)
    (cs : Option (List Child)) (m : Bool),
    setFromDict E r d sk fs idx (.node k (o.retag c t i es) cs m) =
      (setFromDict E r d sk fs idx (.node k o cs m)).map (Val.setTag c t i es)
  | [], _, _, _ => rfl
  | f :: fs, idx, cs, m => by
    have ih := setFromDict_tag d sk k o fs (idx + 1)
    simp only [setFromDict]
    have hpr : fieldPresent (.node k (o.retag c t i es) cs m) idx = fieldPresent (.node k o cs m) idx := by
      cases cs <;> rfl
    rw [hpr]
    generalize fieldPresent (.node k o cs m) idx = pr
    cases hs : (sk && pr) with
    | true => simp only [if_true]; exact ih cs m
    | false =>
      simp only [Bool.false_eq_true, if_false]
      cases d.find? (fun e => e.1 == f.name) with
      | none => exact ih cs m
      | some e =>
        simp only [setField_tag, bind, Except.bind]
        cases hf : setField E r (.node k o cs m) idx e.2 with
        | error e => rfl
        | ok v =>
          obtain ⟨cs', rfl⟩ := setField_node E r hf
          exact ih _ _

theorem seqInit_tag (fields : List Field) (k : ClassId) (o : Obj Unit) (cs : Option (List Child)) (m : Bool) (value : PyVal) (sk : Bool) :
    seqInit E r fields (.node k (o.retag c t i es) cs m) value sk =
      (seqInit E r fields (.node k o cs m) value sk).map (Val.setTag c t i es) := by
  unfold seqInit
  split
  · rfl
  · rw [setFromDict_tag]
    simp only [bind, Except.bind]
    cases setFromDict E r _ sk fields 0 (.node k o cs m) with
    | error e => rfl
    | ok v =>
      simp only [Except.map]
      split <;> rfl
  · rfl

theorem setElement_tag (k : ClassId) (o : Obj Unit) (cs : Option (List Child)) (m : Bool) (idx : Nat) (x : PyVal) :
    setElement E r (.node k (o.retag c t i es) cs m) idx x =
      (setElement E r (.node k o cs m) idx x).map (Val.setTag c t i es) := by
  have he : ensureChildren E r k (o.retag c t i es) cs = ensureChildren E r k o cs := rfl
  simp only [setElement, he]
  cases E.cls k <;> try rfl
  rename_i child
  cases child with
  | none => rfl
  | some child =>
    simp only [bind, Except.bind]
    cases ensureChildren E r k o cs with
    | error e => rfl
    | ok cs =>
      simp only
      cases makeElement E r child x with
      | error e => rfl
      | ok nv =>
        simp only
        by_cases h1 : idx = cs.length
        · simp only [if_pos h1]; rfl
        · simp only [if_neg h1]
          by_cases h2 : idx < cs.length
          · simp only [if_pos h2]; rfl
          · simp only [if_neg h2]; rfl

theorem setElement_node {k : ClassId} {o : Obj Unit} {cs : Option (List Child)} {m : Bool} {idx : Nat} {x : PyVal} {v : Val}
    (h : setElement E r (.node k o cs m) idx x = .ok v) : ∃ cs', v = .node k o (some cs') true := by
  simp only [setElement] at h
  split at h
  · simp only [bind, Except.bind] at h
    repeat' split at h
    all_goals first | (cases h; done) | (injection h with h; exact ⟨_, h.symm⟩)
  · cases h

theorem setFromList_tag (k : ClassId) (o : Obj Unit) : ∀ (xs : List PyVal) (idx : Nat) (cs : Option (List Child)) (m : Bool),
    setFromList E r xs idx (.node k (o.retag c t i es) cs m) =
      (setFromList E r xs idx (.node k o cs m)).map (Val.setTag c t i es)
  | [], _, _, _ => rfl
  | x :: xs, idx, cs, m => by
    simp only [setFromList, setElement_tag, bind, Except.bind]
    cases hf : setElement E r (.node k o cs m) idx x with
    | error e => rfl
    | ok v =>
      obtain ⟨cs', rfl⟩ := setElement_node E r hf
      exact setFromList_tag k o xs (idx + 1) _ _

theorem setFromList_node {k : ClassId} {o : Obj Unit} : ∀ {xs : List PyVal} {idx : Nat} {cs : Option (List Child)} {m : Bool} {v : Val},
    setFromList E r xs idx (.node k o cs m) = .ok v → ∃ cs' m', v = .node k o cs' m'
  | [], _, cs, m, v, h => by injection h with h; exact ⟨cs, m, h.symm⟩
  | x :: xs, idx, cs, m, v, h => by
    simp only [setFromList, bind, Except.bind] at h
    cases hf : setElement E r (.node k o cs m) idx x with
    | error e => rw [hf] at h; cases h
    | ok v' =>
      rw [hf] at h
      obtain ⟨cs', rfl⟩ := setElement_node E r hf
      exact setFromList_node h

theorem setFromDict_node {d : List (String × PyVal)} {sk : Bool} {k : ClassId} {o : Obj Unit} : ∀ {fs : List Field} {idx : Nat}
    {cs : Option (List Child)} {m : Bool} {v : Val},
    setFromDict E r d sk fs idx (.node k o cs m) = .ok v → ∃ cs' m', v = .node k o cs' m'
  | [], _, cs, m, v, h => by injection h with h; exact ⟨cs, m, h.symm⟩
  | f :: fs, idx, cs, m, v, h => by
    simp only [setFromDict] at h
    split at h
    · exact setFromDict_node h
    · cases hd : d.find? (fun e => e.1 == f.name) with
      | none => rw [hd] at h; exact setFromDict_node h
      | some e =>
        rw [hd] at h
        simp only [bind, Except.bind] at h
        cases hf : setField E r (.node k o cs m) idx e.2 with
        | error e => rw [hf] at h; cases h
        | ok v =>
          rw [hf] at h
          obtain ⟨cs', rfl⟩ := setField_node E r hf
          exact setFromDict_node h

theorem setContents_tag (k : ClassId) (o : Obj Unit) (cs : Option (List Child)) (force : Bool) :
    setContents E r k (o.retag c t i es) cs force = (setContents E r k o cs force).map (fun q => (q.1.retag c t i es, q.2)) := by
  have he : ensureChildren E r k (o.retag c t i es) cs = ensureChildren E r k o cs := rfl
  simp only [setContents, he, bind, Except.bind]
  cases ensureChildren E r k o cs with
  | error e => rfl
  | ok cs =>
    simp only
    cases encodeChildren E r k force cs <;> rfl

theorem isMutated_tag (k : ClassId) (o o' : Obj Unit) (cs : Option (List Child)) (m : Bool) :
    (Val.node k o cs m).isMutated = (Val.node k o' cs m).isMutated := by
  cases cs <;> simp only [Val.isMutated]

theorem nodeContents_tag (k : ClassId) (o : Obj Unit) (cs : Option (List Child)) (m : Bool) :
    nodeContents E r k (o.retag c t i es) cs m = (nodeContents E r k o cs m).map (fun q => (q.1.retag c t i es, q.2)) := by
  cases cs with
  | none => rfl
  | some cs =>
    simp only [nodeContents, setContents_tag, isMutated_tag k (o.retag c t i es) o]
    split
    · simp only [bind, Except.bind]
      cases setContents E r k o (some cs) false <;> rfl
    · rfl

end

end Asn1
