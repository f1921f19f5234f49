import Verif.Lemmas.RepMake

/-! # Assignments and constructors with Python values -/

namespace Asn1
open Spec

/-- A field holds the value, or is absent. -/
def FieldRep (E : Env) (f : Field) (v : Val) (a : AVal) : Prop :=
  Rep E false f.spec f.params v a ∨ (v = .void ∧ a = .absent ∧ f.params.default = none)

theorem makeRaw_plain {E : Env} {r : Ops} {c : ClassId} {p : Params} {x : PyVal} (h1 : ∀ e t alts, E.cls c ≠ .choice e t alts)
    (h2 : ∀ v, x ≠ .asn1 v) : makeRaw E r c c p x = r.construct c p x := by
  unfold makeRaw
  cases hc : E.cls c with
  | choice e t alts => exact absurd hc (h1 e t alts)
  | _ =>
    cases x with
    | asn1 v => exact absurd rfl (h2 v)
    | _ => simp

theorem makeRaw_inst {E : Env} {r : Ops} {c : ClassId} {p : Params} {v : Val} (h : v.classOf = some c) : makeRaw E r c c p (.asn1 v) = .ok v := by
  unfold makeRaw
  cases hc : E.cls c <;> simp [h]

theorem makeRaw_rep {E : Env} {U : ClassId → Prop} {r : Ops} (hS : Sim E U r) {c : ClassId} {p : Params} {x : PyVal}
    {v : Val} {a : AVal} (hg : GoodUse E U c p) (h : Conv E (Inst E U) false c p x a) (hm : makeRaw E r c c p x = .ok v) :
    ∃ p', GoodUse E U c p' ∧ Rep E false c p' v a := by
  have plain : (∀ e t alts, E.cls c ≠ .choice e t alts) → (∀ v, x ≠ .asn1 v) → Conv E (Inst E U) false c p x a →
      ∃ p', GoodUse E U c p' ∧ Rep E false c p' v a := by
    intro h1 h2 h
    rw [makeRaw_plain h1 h2] at hm
    exact ⟨p, hg, hS.construct hg h hm⟩
  cases h with
  | prim h1 h2 h3 => exact plain (by rw [h1]; intro _ _ _ h; cases h) (fun _ h => by cases h) (.prim h1 h2 h3)
  | null h1 h2 => exact plain (by rw [h1]; intro _ _ _ h; cases h) (fun _ h => by cases h) (.null h1 h2)
  | seq h1 h2 h3 h4 => exact plain (by rw [h1]; intro _ _ _ h; cases h) (fun _ h => by cases h) (.seq h1 h2 h3 h4)
  | list h1 h2 => exact plain (by rw [h1]; intro _ _ _ h; cases h) (fun _ h => by cases h) (.list h1 h2)
  | alt h1 h2 h3 h4 =>
    unfold makeRaw at hm
    rw [h1] at hm
    exact ⟨{}, goodUse_plain hg.mem, hS.construct (goodUse_plain hg.mem) (.alt h1 h2 h3 h4) hm⟩
  | inst h1 h2 =>
    rw [makeRaw_inst (rep_classOf h1.2)] at hm
    cases hm
    exact ⟨_, h1.1, h1.2⟩

theorem makeValue_rep {E : Env} {U : ClassId → Prop} {r : Ops} (hU : Universe E U) (hS : Sim E U r) {f : Field} {x : PyVal} {v : Val} {a : AVal}
    (hg : GoodUse E U f.spec f.params) (h : FieldConv E (Inst E U) f (some x) a) (hm : makeValue E r f.spec f.spec f.params x = .ok v) :
    FieldRep E f v a := by
  have step : (x = .scalar .none → f.params.optional = false) → ∃ w, makeRaw E r f.spec f.spec f.params x = .ok w ∧ fixTagging E r w f.params = .ok v := by
    intro hx
    unfold makeValue at hm
    split at hm
    · next ho =>
      rw [hx rfl] at ho
      cases ho
    · rename_i y _ _ _
      simp only [bind, Except.bind] at hm
      cases hw : makeRaw E r f.spec f.spec f.params y with
      | error e => rw [hw] at hm; cases hm
      | ok w => rw [hw] at hm; exact ⟨w, rfl, hm⟩
  cases h with
  | none h1 =>
    unfold makeValue at hm
    rw [h1] at hm
    cases hm
    refine .inr ⟨rfl, rfl, ?_⟩
    cases hd : f.params.default with
    | none => rfl
    | some d => rw [(hg.default d hd).1] at h1; cases h1
  | noneDefault h1 =>
    obtain ⟨proto, bad, d, s, e1, e2, e3, e4, e5⟩ := id h1
    obtain ⟨w, k1, k2⟩ := step (fun _ => (hg.default _ e2).1)
    rw [makeRaw_plain (by rw [e1]; intro _ _ _ h; cases h) (fun _ h => by cases h)] at k1
    obtain ⟨a', k3, k4⟩ := hS.default (q := false) hg (by rw [e2]; rfl) k1
    rw [default_unique h1 k3]
    obtain ⟨_, _, _, _, _, _, _, rfl, _⟩ := id k3
    exact .inl (fixTagging_rep hU hS hg hg k4 (by simp only [Whole]) k2)
  | given h1 h2 h3 =>
    obtain ⟨w, k1, k2⟩ := step h1
    obtain ⟨p', k3, k4⟩ := makeRaw_rep hS hg h2 k1
    exact .inl (fixTagging_rep hU hS k3 hg k4 h3 k2)

theorem assignedContents_rep {E : Env} {U : ClassId → Prop} {r : Ops} (hS : Sim E U r) {f : Field} {v v' : Val} {a : AVal}
    {b : Option Bytes} (hg : GoodUse E U f.spec f.params) (h : FieldRep E f v a) (hm : assignedContents E r v = .ok (b, v')) : FieldRep E f v' a := by
  have hr : r.contents v = .ok (b, v') := by
    rcases h with h | ⟨rfl, _⟩
    · cases h <;> exact hm
    · exact hm
  rcases h with h | ⟨rfl, h⟩
  · exact .inl (hS.contents hg h hr)
  · rw [hS.voidContents hr]
    exact .inr ⟨rfl, h⟩

theorem fieldsRep_set {E : Env} : ∀ {fs : List Field} {cs : List Child} {as : List AVal} {idx : Nat} {f : Field} {v : Val} {a : AVal},
    FieldsRep E fs cs as → fs[idx]? = some f → FieldRep E f v a → FieldsRep E fs (cs.set idx (.val v)) (as.set idx a)
  | [], _, _, _, _, _, _, _, h, _ => by simp at h
  | g :: fs, cs, as, 0, f, v, a, h, hf, hr => by
    obtain ⟨ch, cs1, a', as1, rfl, rfl, h'⟩ := fieldsRep_uncons h
    simp only [List.getElem?_cons_zero, Option.some.injEq] at hf
    subst hf
    exact fieldsRep_cons hr h'
  | g :: fs, cs, as, idx + 1, f, v, a, h, hf, hr => by
    simp only [List.getElem?_cons_succ] at hf
    cases h with
    | lazy h1 h2 => exact .lazy h1 (fieldsRep_set h2 hf hr)
    | val h1 h2 => exact .val h1 (fieldsRep_set h2 hf hr)
    | void h1 h2 => exact .void h1 (fieldsRep_set h2 hf hr)

theorem fieldsRep_length {E : Env} : ∀ {fs : List Field} {cs : List Child} {as : List AVal}, FieldsRep E fs cs as →
    cs.length = fs.length ∧ as.length = fs.length
  | [], _, _, h => by cases h; exact ⟨rfl, rfl⟩
  | g :: fs, cs, as, h => by
    obtain ⟨ch, cs1, a', as1, rfl, rfl, h'⟩ := fieldsRep_uncons h
    obtain ⟨k1, k2⟩ := fieldsRep_length h'
    simp [k1, k2]

/-- `value[idx] = x` on a SEQUENCE. -/
theorem setField_kids {E : Env} {U : ClassId → Prop} {r : Ops} (hU : Universe E U) (hS : Sim E U r) {c : ClassId} {o : Obj Unit}
    {ch : Option (List Child)} {m : Bool} {idx : Nat} {x : PyVal} {v' : Val} {as : List AVal} {a : AVal} {f : Field} {proto : Obj Unit} {bad : List Nat}
    {fields : List Field} (hc : U c) (hcl : E.cls c = .seq proto bad false fields none) (hf : fields[idx]? = some f)
    (h : ∀ cs, ensureChildren E r c o ch = .ok cs → FieldsRep E fields cs as) (hx : FieldConv E (Inst E U) f (some x) a)
    (hs : setField E r (.node c o ch m) idx x = .ok v') :
    ∃ cs', v' = .node c o (some cs') true ∧ FieldsRep E fields cs' (as.set idx a) := by
  have hg : GoodUse E U f.spec f.params := (hU.seq _ _ _ _ _ _ hc hcl).2.2.2.2.2.2 f (List.mem_of_getElem? hf)
  unfold setField at hs
  simp only [hcl, bind, Except.bind, hf, oidOverride, Pick.fieldSpec, Pick.valueSpec] at hs
  cases h1 : ensureChildren E r c o ch with
  | error e => rw [h1] at hs; cases hs
  | ok cs =>
    rw [h1] at hs
    simp only at hs
    cases h2 : makeValue E r f.spec f.spec f.params x with
    | error e => rw [h2] at hs; cases hs
    | ok nv =>
      rw [h2] at hs
      simp only at hs
      cases h3 : assignedContents E r nv with
      | error e => rw [h3] at hs; cases hs
      | ok y =>
        obtain ⟨b, nv'⟩ := y
        rw [h3] at hs
        simp only at hs
        cases b with
        | none => cases hs
        | some b =>
          simp only at hs
          split at hs
          · cases hs
            exact ⟨_, rfl, fieldsRep_set (h cs h1) hf (assignedContents_rep hS hg (makeValue_rep hU hS hg hx h2) h3)⟩
          · cases hs

/-! ### A new SEQUENCE -/

theorem fieldConv_none_unique {E : Env} {V : Bool → ClassId → Params → Val → AVal → Prop} {f : Field} {a a' : AVal} (h : FieldConv E V f none a)
    (h' : FieldConv E V f none a') : a = a' := by
  cases h with
  | missing h1 =>
    cases h' with
    | missing _ => rfl
    | missingDefault h2 =>
      obtain ⟨_, _, _, _, _, h3, _⟩ := h2
      rw [h1] at h3; cases h3
  | missingDefault h1 =>
    cases h' with
    | missing h2 =>
      obtain ⟨_, _, _, _, _, h3, _⟩ := h1
      rw [h2] at h3; cases h3
    | missingDefault h2 => exact default_unique h1 h2

/-- The values of the fields of a new SEQUENCE. -/
theorem freshChildren_rep {E : Env} {U : ClassId → Prop} {r : Ops} (hU : Universe E U) (hS : Sim E U r) (all : List Field) : ∀ (fs : List Field)
    (pre cs : List Child), (∀ f ∈ fs, GoodUse E U f.spec f.params) →
    freshChildren E r all none fs pre.length (pre ++ fs.map (fun _ => .val .void)) = .ok cs →
    ∃ cs' as, cs = pre ++ cs' ∧ FieldsRep E fs cs' as ∧ List.Forall₂ (fun f a => FieldConv E (Inst E U) f none a) fs as
  | [], pre, cs, _, h => by
    simp only [freshChildren, List.map_nil] at h
    cases h
    exact ⟨[], [], rfl, .nil, .nil⟩
  | f :: fs, pre, cs, hg, h => by
    have hgf := hg f (by simp)
    rw [freshChildren] at h
    cases hd : f.params.default with
    | none =>
      simp only [hd] at h
      obtain ⟨cs', as, rfl, k1, k2⟩ := freshChildren_rep hU hS all fs (pre ++ [.val .void]) cs (fun g hm => hg g (by simp [hm])) (by simpa using h)
      exact ⟨.val .void :: cs', .absent :: as, by simp, .void hd k1, .cons (.missing hd) k2⟩
    | some d =>
      simp only [hd, oidOverride, Pick.fieldSpec, Pick.valueSpec, bind, Except.bind] at h
      cases h2 : makeValue E r f.spec f.spec f.params (.scalar .none) with
      | error e => rw [h2] at h; cases h
      | ok v =>
        rw [h2] at h
        simp only at h
        have he : (pre ++ (f :: fs).map (fun _ => Child.val .void)).set pre.length (.val v) = (pre ++ [.val v]) ++ fs.map (fun _ => .val .void) := by
          simp
        rw [he] at h
        obtain ⟨cs', as, rfl, k1, k2⟩ := freshChildren_rep hU hS all fs (pre ++ [.val v]) cs (fun g hm => hg g (by simp [hm])) (by simpa using h)
        obtain ⟨ho, proto, bad, x, s, g1, g2, g3, g4⟩ := hgf.default d hd
        have hdi : DefaultIs E f (.prim s) := ⟨proto, bad, x, s, g1, by rw [hd, g2], g3, rfl, g4⟩
        exact ⟨.val v :: cs', .prim s :: as, by simp, fieldsRep_cons (makeValue_rep hU hS hgf (.noneDefault hdi) h2) k1, .cons (.missingDefault hdi) k2⟩

theorem fresh_exists {E : Env} {U : ClassId → Prop} (fs : List Field) (hg : ∀ f ∈ fs, GoodUse E U f.spec f.params) :
    ∃ as, List.Forall₂ (fun f a => FieldConv E (Inst E U) f none a) fs as := by
  induction fs with
  | nil => exact ⟨[], .nil⟩
  | cons f fs ih =>
    obtain ⟨as, h⟩ := ih (fun g hm => hg g (by simp [hm]))
    cases hd : f.params.default with
    | none => exact ⟨_, .cons (.missing hd) h⟩
    | some d =>
      obtain ⟨ho, proto, bad, x, s, g1, g2, g3, g4⟩ := (hg f (by simp)).default d hd
      exact ⟨_, .cons (.missingDefault ⟨proto, bad, x, s, g1, by rw [hd, g2], g3, rfl, g4⟩) h⟩

theorem fresh_unique {E : Env} {V : Bool → ClassId → Params → Val → AVal → Prop} {fs : List Field} {as as' : List AVal}
    (h : List.Forall₂ (fun f a => FieldConv E V f none a) fs as) (h' : List.Forall₂ (fun f a => FieldConv E V f none a) fs as') : as = as' := by
  induction h generalizing as' with
  | nil => cases h'; rfl
  | cons h1 _ ih =>
    cases h' with
    | cons h2 h3 => rw [fieldConv_none_unique h1 h2, ih h3]

/-- The children of a new SEQUENCE. -/
theorem fresh_kids {E : Env} {U : ClassId → Prop} {r : Ops} (hU : Universe E U) (hS : Sim E U r) {c : ClassId} {o : Obj Unit} {as : List AVal}
    {proto : Obj Unit} {bad : List Nat} {fields : List Field} (hc : U c) (hcl : E.cls c = .seq proto bad false fields none) (ho : o.contents = none)
    (has : List.Forall₂ (fun f a => FieldConv E (Inst E U) f none a) fields as) :
    ∀ cs, ensureChildren E r c o none = .ok cs → FieldsRep E fields cs as := by
  intro cs h
  unfold ensureChildren parseChildren at h
  simp only [hcl, ho, parseSeq] at h
  split at h
  · cases h
  · obtain ⟨cs', as', rfl, k1, k2⟩ := freshChildren_rep hU hS fields fields [] cs (hU.seq _ _ _ _ _ _ hc hcl).2.2.2.2.2.2 h
    rw [fresh_unique has k2]
    exact k1

/-- Setting the fields from a dict, one after the other. -/
theorem setFromDict_rep {E : Env} {U : ClassId → Prop} {r : Ops} (hU : Universe E U) (hS : Sim E U r) {c : ClassId} {o : Obj Unit}
    {d : List (String × PyVal)} {proto : Obj Unit} {bad : List Nat} {fields : List Field} (hc : U c) (hcl : E.cls c = .seq proto bad false fields none) :
    ∀ (fs : List Field) (pre : List Field) (done rest as : List AVal) (ch : Option (List Child)) (m : Bool) (v' : Val), fields = pre ++ fs →
    done.length = pre.length → FieldsConv E (Inst E U) fs d as → List.Forall₂ (fun f a => FieldConv E (Inst E U) f none a) fs rest →
    (∀ cs, ensureChildren E r c o ch = .ok cs → FieldsRep E fields cs (done ++ rest)) →
    setFromDict E r d false fs pre.length (.node c o ch m) = .ok v' →
    ∃ ch' m', v' = .node c o ch' m' ∧ (∀ cs, ensureChildren E r c o ch' = .ok cs → FieldsRep E fields cs (done ++ as)) ∧
      ((ch' = ch ∧ m' = m ∧ ∀ f ∈ fs, valueOf d f.name = none) ∨ (m' = true ∧ ∃ cs, ch' = some cs))
  | [], pre, done, rest, as, ch, m, v', hp, hl, h, hr, hk, hs => by
    cases h
    cases hr
    cases hs
    exact ⟨ch, m, rfl, hk, .inl ⟨rfl, rfl, fun f hf => by cases hf⟩⟩
  | f :: fs, pre, done, rest, as, ch, m, v', hp, hl, h, hr, hk, hs => by
    have hp' : fields = (pre ++ [f]) ++ fs := by rw [hp]; simp
    have hl' : ∀ a : AVal, (done ++ [a]).length = (pre ++ [f]).length := by intro a; simp [hl]
    cases h with
    | @cons _ _ _ a as' h1 h2 =>
      cases hr with
      | @cons _ a0 _ rest' r1 r2 =>
        rw [setFromDict] at hs
        simp only [Bool.false_and, Bool.false_eq_true, if_false] at hs
        cases hv : d.find? (fun e => e.1 == f.name) with
        | none =>
          have hvo : valueOf d f.name = none := by unfold valueOf; rw [hv]; rfl
          rw [hvo] at h1
          have he := fieldConv_none_unique h1 r1
          subst he
          simp only [hv] at hs
          obtain ⟨ch', m', k1, k2, k3⟩ := setFromDict_rep hU hS hc hcl fs (pre ++ [f]) (done ++ [a]) rest' as' ch m v' hp' (hl' a) h2 r2
            (by simpa using hk) (by simpa using hs)
          refine ⟨ch', m', k1, by simpa using k2, ?_⟩
          rcases k3 with ⟨k3, k4, k5⟩ | k3
          · refine .inl ⟨k3, k4, ?_⟩
            intro g hg
            rcases List.mem_cons.mp hg with rfl | hg
            · exact hvo
            · exact k5 g hg
          · exact .inr k3
        | some e =>
          have hvo : valueOf d f.name = some e.2 := by unfold valueOf; rw [hv]; rfl
          rw [hvo] at h1
          simp only [hv, bind, Except.bind] at hs
          cases h3 : setField E r (.node c o ch m) pre.length e.2 with
          | error e => rw [h3] at hs; cases hs
          | ok v1 =>
            rw [h3] at hs
            simp only at hs
            have hf : fields[pre.length]? = some f := by rw [hp]; simp
            obtain ⟨cs', rfl, k1⟩ := setField_kids hU hS hc hcl hf hk h1 h3
            have hset : (done ++ a0 :: rest').set pre.length a = (done ++ [a]) ++ rest' := by
              rw [← hl]; simp
            rw [hset] at k1
            obtain ⟨ch', m', k2, k3, k4⟩ := setFromDict_rep hU hS hc hcl fs (pre ++ [f]) (done ++ [a]) rest' as' (some cs') true v' hp' (hl' a) h2 r2
              (by intro cs hcs; cases hcs; exact k1) (by simpa using hs)
            refine ⟨ch', m', k2, by simpa using k3, .inr ?_⟩
            rcases k4 with ⟨k4, k5, _⟩ | k4
            · exact ⟨k5, cs', k4⟩
            · exact k4

/-! ### SEQUENCE OF -/

theorem makeElement_rep {E : Env} {U : ClassId → Prop} {r : Ops} (hU : Universe E U) (hS : Sim E U r) {ch : ClassId} {x : PyVal} {v : Val} {a : AVal}
    (hc : U ch) (h : Conv E (Inst E U) false ch {} x a) (hm : makeElement E r ch x = .ok v) : Rep E false ch {} v a := by
  have hg := goodUse_plain (E := E) hc
  have plain : (∀ e t alts, E.cls ch ≠ .choice e t alts) → (∀ v, x ≠ .asn1 v) → Conv E (Inst E U) false ch {} x a → Rep E false ch {} v a := by
    intro h1 h2 h
    refine hS.construct hg h ?_
    unfold makeElement at hm
    cases hcl : E.cls ch with
    | choice e t alts => exact absurd hcl (h1 e t alts)
    | any => exact absurd hcl (hU.any _ hc)
    | _ =>
      rw [hcl] at hm
      cases x with
      | asn1 v => exact absurd rfl (h2 v)
      | _ => exact hm
  cases h with
  | prim h1 h2 h3 => exact plain (by rw [h1]; intro _ _ _ h; cases h) (fun _ h => by cases h) (.prim h1 h2 h3)
  | null h1 h2 => exact plain (by rw [h1]; intro _ _ _ h; cases h) (fun _ h => by cases h) (.null h1 h2)
  | seq h1 h2 h3 h4 => exact plain (by rw [h1]; intro _ _ _ h; cases h) (fun _ h => by cases h) (.seq h1 h2 h3 h4)
  | list h1 h2 => exact plain (by rw [h1]; intro _ _ _ h; cases h) (fun _ h => by cases h) (.list h1 h2)
  | alt h1 h2 h3 h4 =>
    unfold makeElement at hm
    rw [h1] at hm
    cases hm
  | @inst _ _ _ _ w _ h1 h2 =>
    have hcls := rep_classOf h1.2
    have hf : fixElement E r ch w = .ok v := by
      unfold makeElement at hm
      cases hcl : E.cls ch with
      | any => exact absurd hcl (hU.any _ hc)
      | _ =>
        rw [hcl] at hm
        simp only [hcls, if_true] at hm
        exact hm
    exact fixElement_rep hU hS h1.1 h1.2 h2 hf

theorem listRep_append {E : Env} {ch : ClassId} : ∀ {cs cs' : List Child} {as as' : List AVal}, ListRep E ch cs as → ListRep E ch cs' as' →
    ListRep E ch (cs ++ cs') (as ++ as')
  | [], _, _, _, h, h' => by cases h; exact h'
  | c :: cs, _, _, _, h, h' => by
    cases h with
    | lazy h1 h2 => exact .lazy h1 (listRep_append h2 h')
    | val h1 h2 => exact .val h1 (listRep_append h2 h')

theorem listRep_length {E : Env} {ch : ClassId} : ∀ {cs : List Child} {as : List AVal}, ListRep E ch cs as → cs.length = as.length
  | [], _, h => by cases h; rfl
  | c :: cs, _, h => by
    cases h with
    | lazy h1 h2 => simp [listRep_length h2]
    | val h1 h2 => simp [listRep_length h2]

theorem listRep_set {E : Env} {ch : ClassId} {v : Val} {a : AVal} (hr : Rep E false ch {} v a) : ∀ {cs : List Child} {as : List AVal} {idx : Nat},
    ListRep E ch cs as → ListRep E ch (cs.set idx (.val v)) (as.set idx a)
  | [], _, _, h => by cases h; exact .nil
  | c :: cs, _, 0, h => by
    cases h with
    | lazy h1 h2 => exact .val hr h2
    | val h1 h2 => exact .val hr h2
  | c :: cs, _, idx + 1, h => by
    cases h with
    | lazy h1 h2 => exact .lazy h1 (listRep_set hr h2)
    | val h1 h2 => exact .val h1 (listRep_set hr h2)

theorem listRep_erase {E : Env} {ch : ClassId} : ∀ {cs : List Child} {as : List AVal} {idx : Nat},
    ListRep E ch cs as → ListRep E ch (cs.eraseIdx idx) (as.eraseIdx idx)
  | [], _, _, h => by cases h; exact .nil
  | c :: cs, _, 0, h => by
    cases h with
    | lazy h1 h2 => exact h2
    | val h1 h2 => exact h2
  | c :: cs, _, idx + 1, h => by
    cases h with
    | lazy h1 h2 => exact .lazy h1 (listRep_erase h2)
    | val h1 h2 => exact .val h1 (listRep_erase h2)

/-- `value[idx] = x` on a SEQUENCE OF. -/
theorem setElement_kids {E : Env} {U : ClassId → Prop} {r : Ops} (hU : Universe E U) (hS : Sim E U r) {c : ClassId} {o : Obj Unit}
    {ch : Option (List Child)} {m : Bool} {idx : Nat} {x : PyVal} {v' : Val} {as : List AVal} {a : AVal} {proto : Obj Unit} {bad : List Nat} {d : ClassId}
    (hd : U d) (hcl : E.cls c = .seqOf proto bad false (some d)) (h : ∀ cs, ensureChildren E r c o ch = .ok cs → ListRep E d cs as)
    (hx : Conv E (Inst E U) false d {} x a) (hs : setElement E r (.node c o ch m) idx x = .ok v') :
    ∃ cs', v' = .node c o (some cs') true ∧ ((idx = as.length ∧ ListRep E d cs' (as ++ [a])) ∨ (idx < as.length ∧ ListRep E d cs' (as.set idx a))) := by
  unfold setElement at hs
  simp only [hcl, bind, Except.bind] at hs
  cases h1 : ensureChildren E r c o ch with
  | error e => rw [h1] at hs; cases hs
  | ok cs =>
    rw [h1] at hs
    simp only at hs
    have hk := h cs h1
    have hlen := listRep_length hk
    cases h2 : makeElement E r d x with
    | error e => rw [h2] at hs; cases hs
    | ok nv =>
      rw [h2] at hs
      simp only at hs
      have hv := makeElement_rep hU hS hd hx h2
      split at hs
      · cases hs
        exact ⟨_, rfl, .inl ⟨by omega, listRep_append hk (.val hv .nil)⟩⟩
      · split at hs
        · cases hs
          exact ⟨_, rfl, .inr ⟨by omega, listRep_set hv hk⟩⟩
        · cases hs

theorem listConv_cons {E : Env} {V : Bool → ClassId → Params → Val → AVal → Prop} {d : ClassId} {x : PyVal} {xs : List PyVal} {as : List AVal}
    (h : ListConv E V d (x :: xs) as) : ∃ a as', as = a :: as' ∧ Conv E V false d {} x a ∧ ListConv E V d xs as' ∧ AsElement E d x := by
  cases h with
  | cons h1 h2 h3 => exact ⟨_, _, rfl, h1, h3, h2⟩

theorem listConv_nil {E : Env} {V : Bool → ClassId → Params → Val → AVal → Prop} {d : ClassId} {as : List AVal}
    (h : ListConv E V d [] as) : as = [] := by
  cases h
  rfl

theorem setFromList_rep {E : Env} {U : ClassId → Prop} {r : Ops} (hU : Universe E U) (hS : Sim E U r) {c : ClassId} {o : Obj Unit}
    {proto : Obj Unit} {bad : List Nat} {d : ClassId} (hd : U d) (hcl : E.cls c = .seqOf proto bad false (some d)) :
    ∀ (xs : List PyVal) (done as : List AVal) (ch : Option (List Child)) (m : Bool) (v' : Val), ListConv E (Inst E U) d xs as →
    (∀ cs, ensureChildren E r c o ch = .ok cs → ListRep E d cs done) → setFromList E r xs done.length (.node c o ch m) = .ok v' →
    ∃ ch' m', v' = .node c o ch' m' ∧ (∀ cs, ensureChildren E r c o ch' = .ok cs → ListRep E d cs (done ++ as)) ∧
      ((ch' = ch ∧ m' = m) ∨ (m' = true ∧ ∃ cs, ch' = some cs))
  | [], done, as, ch, m, v', h, hk, hs => by
    rw [listConv_nil h]
    cases hs
    exact ⟨ch, m, rfl, by simpa using hk, .inl ⟨rfl, rfl⟩⟩
  | x :: xs, done, as, ch, m, v', h, hk, hs => by
    obtain ⟨a, as', rfl, h1, h2, _⟩ := listConv_cons h
    · simp only [setFromList, bind, Except.bind] at hs
      cases h3 : setElement E r (.node c o ch m) done.length x with
      | error e => rw [h3] at hs; cases hs
      | ok v1 =>
        rw [h3] at hs
        simp only at hs
        obtain ⟨cs', rfl, k⟩ := setElement_kids hU hS hd hcl hk h1 h3
        rcases k with ⟨_, k⟩ | ⟨k, _⟩
        · obtain ⟨ch', m', k2, k3, k4⟩ := setFromList_rep hU hS hd hcl xs (done ++ [a]) as' (some cs') true v' h2
            (by intro cs hcs; cases hcs; exact k) (by simpa using hs)
          refine ⟨ch', m', k2, by simpa using k3, .inr ?_⟩
          rcases k4 with ⟨k4, k5⟩ | k4
          · exact ⟨k5, cs', k4⟩
          · exact k4
        · omega

end Asn1
