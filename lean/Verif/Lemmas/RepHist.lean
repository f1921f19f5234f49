import Verif.Lemmas.RepStep
import Verif.Spec.History

/-! # Histories keep the representation -/

namespace Asn1
open Spec

/-! ### Flags -/

theorem isMutated_node (c : ClassId) (o : Obj Unit) (cs : List Child) (m : Bool) : (Val.node c o (some cs) m).isMutated = (m || childrenMutated cs) := by
  rw [Val.isMutated]

theorem childrenMutated_set_val {cs : List Child} {k : Nat} {x : Val} (hk : k < cs.length) (hx : x.isMutated = true) :
    childrenMutated (cs.set k (.val x)) = true := by
  induction cs generalizing k with
  | nil => simp at hk
  | cons c cs ih =>
    cases k with
    | zero => simp [childrenMutated, hx]
    | succ k =>
      have := ih (k := k) (by simpa using hk)
      cases c <;> simp [childrenMutated, this]

/-- What is at a position before and after: a lazy child is not marked as changed. -/
theorem childrenMutated_set_le {cs : List Child} {k : Nat} {x : Val} (hx : ∀ y, cs[k]? = some (.val y) → x.isMutated = false → y.isMutated = false)
    (h : childrenMutated (cs.set k (.val x)) = false) : childrenMutated cs = false := by
  induction cs generalizing k with
  | nil => rfl
  | cons c cs ih =>
    cases k with
    | zero =>
      cases c with
      | lazy i s n =>
        simp only [List.set_cons_zero, childrenMutated, Bool.or_eq_false_iff] at h ⊢
        exact h.2
      | val y =>
        simp only [List.set_cons_zero, childrenMutated, Bool.or_eq_false_iff] at h ⊢
        exact ⟨hx y rfl h.1, h.2⟩
    | succ k =>
      cases c with
      | lazy i s n =>
        simp only [List.set_cons_succ, childrenMutated] at h ⊢
        exact ih (by simpa using hx) h
      | val y =>
        simp only [List.set_cons_succ, childrenMutated, Bool.or_eq_false_iff] at h ⊢
        exact ⟨h.1, ih (by simpa using hx) h.2⟩

/-! ### Item access -/

theorem fieldsRep_get {E : Env} {U : ClassId → Prop} {r : Ops} (hS : Sim E U r) : ∀ {fs : List Field} {cs : List Child} {as : List AVal} {k : Nat} {ch : Child}
    {x : Val}, (∀ f ∈ fs, GoodUse E U f.spec f.params) → FieldsRep E fs cs as → cs[k]? = some ch → buildChild r (paramsAt fs k) ch = .ok x →
    ∃ f b, fs[k]? = some f ∧ as[k]? = some b ∧ FieldRep E f x b ∧ (ch = .val x ∨ ∃ i s n, ch = .lazy i s n)
  | [], cs, as, k, ch, x, _, h, hk, _ => by cases h; simp at hk
  | f :: fs, cs, as, 0, ch, x, hg, h, hk, hb => by
    obtain ⟨ch1, cs1, a, as1, rfl, rfl, h'⟩ := fieldsRep_uncons h
    simp only [List.getElem?_cons_zero, Option.some.injEq] at hk
    subst hk
    have hb : buildChild r f.params ch1 = .ok x := hb
    obtain ⟨k1, k2⟩ := buildField_rep hS (hg f (by simp)) h hb
    exact ⟨f, a, rfl, rfl, k1, k2⟩
  | f :: fs, cs, as, k + 1, ch, x, hg, h, hk, hb => by
    obtain ⟨ch1, cs1, a, as1, rfl, rfl, h'⟩ := fieldsRep_uncons h
    have hb : buildChild r (paramsAt fs k) ch = .ok x := by
      simpa [paramsAt] using hb
    obtain ⟨g, b, k1, k2, k3⟩ := fieldsRep_get hS (fun g hm => hg g (by simp [hm])) h' (by simpa using hk) hb
    exact ⟨g, b, by simpa using k1, by simpa using k2, k3⟩

theorem listRep_get {E : Env} {U : ClassId → Prop} {r : Ops} (hS : Sim E U r) {d : ClassId} (hd : U d) : ∀ {cs : List Child} {as : List AVal} {k : Nat} {ch : Child}
    {x : Val}, ListRep E d cs as → cs[k]? = some ch → buildChild r {} ch = .ok x →
    ∃ b, as[k]? = some b ∧ Rep E false d {} x b ∧ (ch = .val x ∨ ∃ i s n, ch = .lazy i s n)
  | [], as, k, ch, x, h, hk, _ => by simp at hk
  | c :: cs, as, 0, ch, x, h, hk, hb => by
    simp only [List.getElem?_cons_zero, Option.some.injEq] at hk
    subst hk
    obtain ⟨a, as', rfl, k1, k2⟩ := buildChild_rep hS hd h hb
    refine ⟨a, rfl, k1, ?_⟩
    cases c with
    | lazy i s n => exact .inr ⟨i, s, n, rfl⟩
    | val y => cases hb; exact .inl rfl
  | c :: cs, as, k + 1, ch, x, h, hk, hb => by
    have : ∃ a as', as = a :: as' ∧ ListRep E d cs as' := by
      cases h with
      | lazy h1 h2 => exact ⟨_, _, rfl, h2⟩
      | val h1 h2 => exact ⟨_, _, rfl, h2⟩
    obtain ⟨a, as', rfl, h'⟩ := this
    obtain ⟨b, k1, k2⟩ := listRep_get hS hd h' (by simpa using hk) hb
    exact ⟨b, by simpa using k1, k2⟩

/-- `value[idx]`: the child stands for what is at that position, and the container for the same value as before. -/
theorem getItem_rep {E : Env} {U : ClassId → Prop} {r : Ops} (hU : Universe E U) (hS : Sim E U r) {q : Bool} {c : ClassId} {p : Params} {v v' x : Val}
    {a : AVal} {idx : Nat} (hc : U c) (h : Rep E q c p v a) (hn : getItem E r v idx = .ok (x, v')) :
    ∃ o cs m, v' = .node c o (some cs) m ∧ cs[idx]? = some (.val x) ∧ Rep E q c p v' a ∧ (v'.isMutated = false → v.isMutated = false) ∧
      ((∃ proto bad fields as f b, E.cls c = .seq proto bad false fields none ∧ a = .seq as ∧ fields[idx]? = some f ∧ as[idx]? = some b ∧ FieldRep E f x b) ∨
       (∃ proto bad d as b, E.cls c = .seqOf proto bad false (some d) ∧ a = .list as ∧ as[idx]? = some b ∧ Rep E false d {} x b)) := by
  have hnode : ∃ o ch m, v = .node c o ch m := by
    cases v with
    | node c' o ch m =>
      obtain rfl := (rep_node.mp h).1
      exact ⟨o, ch, m, rfl⟩
    | _ => simp [getItem] at hn
  obtain ⟨o, ch, m, rfl⟩ := hnode
  obtain ⟨_, proto, hp, ht, _⟩ := rep_node.mp h
  simp only [getItem, bind, Except.bind] at hn
  cases h1 : ensureChildren E r c o ch with
  | error e => rw [h1] at hn; cases hn
  | ok cs =>
    rw [h1] at hn
    simp only at hn
    obtain ⟨hk, hu, hnone⟩ := ensure_kids hU hS hc h h1
    have hflag : childrenMutated cs = false → m = false → (Val.node c o ch m).isMutated = false := by
      intro e1 e2
      cases ch with
      | none => rw [Val.isMutated]; exact e2
      | some cs' =>
        cases h1
        rw [isMutated_node, e1, e2]; rfl
    have close : ∀ {ch1 : Child}, cs[idx]? = some ch1 → (ch1 = .val x ∨ ∃ i s n, ch1 = .lazy i s n) → Kids E c a (cs.set idx (.val x)) →
        (cs.set idx (.val x))[idx]? = some (.val x) ∧ Rep E q c p (.node c o (some (cs.set idx (.val x))) m) a ∧
        ((Val.node c o (some (cs.set idx (.val x))) m).isMutated = false → (Val.node c o ch m).isMutated = false) := by
      intro ch1 e1 e2 e3
      have hlt : idx < cs.length := (List.getElem?_eq_some_iff.mp e1).1
      have hle : childrenMutated (cs.set idx (.val x)) = false → childrenMutated cs = false := by
        apply childrenMutated_set_le
        intro y hy hx
        rw [e1] at hy
        cases hy
        rcases e2 with e2 | ⟨_, _, _, e2⟩
        · cases e2; exact hx
        · cases e2
      refine ⟨by simp [hlt], rep_node.mpr ⟨rfl, proto, hp, ht, .inr ⟨_, rfl, e3, ?_⟩⟩, ?_⟩
      · intro hm
        rw [isMutated_node, Bool.or_eq_false_iff] at hm
        apply hu
        rw [isMutated_node, hm.1, hle hm.2]; rfl
      · intro hm
        rw [isMutated_node, Bool.or_eq_false_iff] at hm
        exact hflag (hle hm.2) hm.1
    cases hk with
    | @seq _ bad fields as _ hcl hfr =>
      simp only [hcl] at hn
      cases h2 : cs[idx]? with
      | none => rw [h2] at hn; cases hn
      | some ch1 =>
        rw [h2] at hn
        simp only at hn
        cases h3 : buildChild r (paramsAt fields idx) ch1 with
        | error e => rw [h3] at hn; cases hn
        | ok y =>
          rw [h3] at hn
          cases hn
          obtain ⟨f, b, k1, k2, k3, k4⟩ := fieldsRep_get hS (hU.seq _ _ _ _ _ _ hc hcl).2.2.2.2.2.2 hfr h2 h3
          have hset := fieldsRep_set hfr k1 k3
          have has : as.set idx b = as := by
            obtain ⟨hlt, rfl⟩ := List.getElem?_eq_some_iff.mp k2
            exact List.set_getElem_self hlt
          rw [has] at hset
          obtain ⟨c1, c2, c3⟩ := close h2 k4 (.seq hcl hset)
          exact ⟨o, _, m, rfl, c1, c2, c3, .inl ⟨_, bad, fields, as, f, b, hcl, rfl, k1, k2, k3⟩⟩
    | @list _ bad d as _ hcl hlr =>
      obtain ⟨_, _, _, d', hd', hUd⟩ := hU.seqOf _ _ _ _ _ hc hcl
      cases hd'
      simp only [hcl] at hn
      cases h2 : cs[idx]? with
      | none => rw [h2] at hn; cases hn
      | some ch1 =>
        rw [h2] at hn
        simp only at hn
        cases h3 : buildChild r {} ch1 with
        | error e => rw [h3] at hn; cases hn
        | ok y =>
          rw [h3] at hn
          cases hn
          obtain ⟨b, k1, k2, k3⟩ := listRep_get hS hUd hlr h2 h3
          have hset := listRep_set (idx := idx) k2 hlr
          have has : as.set idx b = as := by
            obtain ⟨hlt, rfl⟩ := List.getElem?_eq_some_iff.mp k1
            exact List.set_getElem_self hlt
          rw [has] at hset
          obtain ⟨c1, c2, c3⟩ := close h2 k3 (.list hcl hset)
          exact ⟨o, _, m, rfl, c1, c2, c3, .inr ⟨_, bad, d, as, b, hcl, rfl, k1, k2⟩⟩

theorem lenOf_rep {E : Env} {U : ClassId → Prop} {r : Ops} (hU : Universe E U) (hS : Sim E U r) {q : Bool} {c : ClassId} {p : Params} {v v' : Val}
    {a : AVal} {k : Nat} (hc : U c) (h : Rep E q c p v a) (hn : lenOf E r v = .ok (k, v')) :
    Rep E q c p v' a ∧ (v'.isMutated = false → v.isMutated = false) ∧ ((∃ as, a = .seq as ∧ k = as.length) ∨ (∃ as, a = .list as ∧ k = as.length)) := by
  have hnode : ∃ o ch m, v = .node c o ch m := by
    cases v with
    | node c' o ch m =>
      obtain rfl := (rep_node.mp h).1
      exact ⟨o, ch, m, rfl⟩
    | _ => simp [lenOf] at hn
  obtain ⟨o, ch, m, rfl⟩ := hnode
  obtain ⟨_, proto, hp, ht, _⟩ := rep_node.mp h
  simp only [lenOf, bind, Except.bind] at hn
  cases h1 : ensureChildren E r c o ch with
  | error e => rw [h1] at hn; cases hn
  | ok cs =>
    rw [h1] at hn
    cases hn
    obtain ⟨hk, hu, hnone⟩ := ensure_kids hU hS hc h h1
    refine ⟨rep_node.mpr ⟨rfl, proto, hp, ht, .inr ⟨_, rfl, hk, hu⟩⟩, ?_, ?_⟩
    · intro hm
      rw [isMutated_node, Bool.or_eq_false_iff] at hm
      cases ch with
      | none => rw [Val.isMutated]; exact hm.1
      | some cs' =>
        cases h1
        rw [isMutated_node, hm.1, hm.2]; rfl
    · cases hk with
      | seq hcl hfr => exact .inl ⟨_, rfl, by rw [(fieldsRep_length hfr).1, (fieldsRep_length hfr).2]⟩
      | list hcl hlr => exact .inr ⟨_, rfl, listRep_length hlr⟩

theorem rep_seq_inv {E : Env} {q : Bool} {c : ClassId} {p : Params} {v : Val} {as : List AVal} (h : Rep E q c p v (.seq as)) :
    ∃ o ch m proto bad fields, v = .node c o ch m ∧ E.cls c = .seq proto bad false fields none ∧ NodeTag proto p o := by
  cases h with
  | seqRaw h1 h2 h3 h4 h5 => exact ⟨_, _, _, _, _, _, rfl, h1, h2⟩
  | seq h1 h2 h3 h4 => exact ⟨_, _, _, _, _, _, rfl, h1, h2⟩

theorem rep_list_inv {E : Env} {q : Bool} {c : ClassId} {p : Params} {v : Val} {as : List AVal} (h : Rep E q c p v (.list as)) :
    ∃ o ch m proto bad d, v = .node c o ch m ∧ E.cls c = .seqOf proto bad false (some d) ∧ NodeTag proto p o := by
  cases h with
  | listRaw h1 h2 h3 h4 h5 => exact ⟨_, _, _, _, _, _, rfl, h1, h2⟩
  | list h1 h2 h3 h4 => exact ⟨_, _, _, _, _, _, rfl, h1, h2⟩

theorem ensure_fields {E : Env} {U : ClassId → Prop} {r : Ops} (hU : Universe E U) (hS : Sim E U r) {q : Bool} {c : ClassId} {p : Params} {as : List AVal}
    {o : Obj Unit} {ch : Option (List Child)} {m : Bool} {proto : Obj Unit} {bad : List Nat} {fields : List Field} (hc : U c)
    (h : Rep E q c p (.node c o ch m) (.seq as)) (hcl : E.cls c = .seq proto bad false fields none) :
    ∀ cs, ensureChildren E r c o ch = .ok cs → FieldsRep E fields cs as := by
  intro cs hcs
  cases (ensure_kids hU hS hc h hcs).1 with
  | seq h1 h2 =>
    rw [hcl] at h1
    cases h1
    exact h2

theorem ensure_elements {E : Env} {U : ClassId → Prop} {r : Ops} (hU : Universe E U) (hS : Sim E U r) {q : Bool} {c : ClassId} {p : Params} {as : List AVal}
    {o : Obj Unit} {ch : Option (List Child)} {m : Bool} {proto : Obj Unit} {bad : List Nat} {d : ClassId} (hc : U c)
    (h : Rep E q c p (.node c o ch m) (.list as)) (hcl : E.cls c = .seqOf proto bad false (some d)) :
    ∀ cs, ensureChildren E r c o ch = .ok cs → ListRep E d cs as := by
  intro cs hcs
  cases (ensure_kids hU hS hc h hcs).1 with
  | list h1 h2 =>
    rw [hcl] at h1
    cases h1
    exact h2

/-- Item access does to the instance what it does to the value. If the value is changed, the instance is marked as changed. -/
theorem runEdit_rep {E : Env} {U : ClassId → Prop} {r : Ops} (hU : Universe E U) (hS : Sim E U r) : ∀ (e : Edit) {q : Bool} {c : ClassId} {p : Params}
    {v v' : Val} {a a' : AVal}, U c → Rep E q c p v a → Edited E (Inst E U) c a e a' → runEdit E r e v = .ok v' →
    Rep E q c p v' a' ∧ (v'.isMutated = true ∨ (a' = a ∧ (v'.isMutated = false → v.isMutated = false)))
  | .setField idx x, q, c, p, v, v', a, a', hc, h, he, hn => by
    cases he with
    | setField h1 h2 h3 =>
      obtain ⟨o, ch, m, proto, bad, fields, rfl, hcl, ht⟩ := rep_seq_inv h
      rw [hcl] at h1
      cases h1
      obtain ⟨cs', rfl, k⟩ := setField_kids hU hS hc hcl h2 (ensure_fields hU hS hc h hcl) h3 hn
      exact ⟨.seq hcl ht k (fun h => by simp [Val.isMutated] at h), .inl (by simp [Val.isMutated])⟩
  | .delField idx, q, c, p, v, v', a, a', hc, h, he, hn => by
    cases he with
    | @delOptional _ as _ f _ _ fields h1 h2 h3 =>
      obtain ⟨o, ch, m, proto, bad, fields, rfl, hcl, ht⟩ := rep_seq_inv h
      rw [hcl] at h1
      cases h1
      simp only [runEdit, Asn1.delField, hcl, bind, Except.bind] at hn
      cases h4 : ensureChildren E r c o ch with
      | error e => rw [h4] at hn; cases hn
      | ok cs =>
        rw [h4] at hn
        simp only [h2, h3, if_true] at hn
        split at hn
        · cases hn
          have hdf : f.params.default = none := by
            cases hx : f.params.default with
            | none => rfl
            | some d =>
              rw [((hU.seq _ _ _ _ _ _ hc hcl).2.2.2.2.2.2 f (List.mem_of_getElem? h2)).default d hx |>.1] at h3
              cases h3
          exact ⟨.seq hcl ht (fieldsRep_set (ensure_fields hU hS hc h hcl cs h4) h2 (.inr ⟨rfl, rfl, hdf⟩)) (fun h => by simp [Val.isMutated] at h),
            .inl (by simp [Val.isMutated])⟩
        · cases hn
    | @delDefault _ as _ b f _ _ fields h1 h2 h3 =>
      obtain ⟨o, ch, m, proto, bad, fields, rfl, hcl, ht⟩ := rep_seq_inv h
      rw [hcl] at h1
      cases h1
      have hgf := (hU.seq _ _ _ _ _ _ hc hcl).2.2.2.2.2.2 f (List.mem_of_getElem? h2)
      have hdf : f.params.default.isSome = true := by
        obtain ⟨_, _, d, _, _, h, _⟩ := h3
        rw [h]; rfl
      have hop : f.params.optional = false := by
        obtain ⟨d, hd⟩ := Option.isSome_iff_exists.mp hdf
        exact (hgf.default d hd).1
      simp only [runEdit, Asn1.delField, hcl, bind, Except.bind] at hn
      cases h4 : ensureChildren E r c o ch with
      | error e => rw [h4] at hn; cases hn
      | ok cs =>
        rw [h4] at hn
        simp only [h2, hop, hdf, Bool.false_eq_true, if_false, if_true] at hn
        obtain ⟨cs', rfl, k⟩ := setField_kids hU hS hc hcl h2 (ensure_fields hU hS hc h hcl) (.noneDefault h3) hn
        exact ⟨.seq hcl ht k (fun h => by simp [Val.isMutated] at h), .inl (by simp [Val.isMutated])⟩
  | .setElement idx x, q, c, p, v, v', a, a', hc, h, he, hn => by
    cases he with
    | setElement h1 h2 h3 =>
      obtain ⟨o, ch, m, proto, bad, d, rfl, hcl, ht⟩ := rep_list_inv h
      rw [hcl] at h1
      cases h1
      obtain ⟨_, _, _, d', hd', hUd⟩ := hU.seqOf _ _ _ _ _ hc hcl
      cases hd'
      obtain ⟨cs', rfl, k⟩ := setElement_kids hU hS hUd hcl (ensure_elements hU hS hc h hcl) h2 hn
      rcases k with ⟨k, _⟩ | ⟨_, k⟩
      · omega
      · exact ⟨.list hcl ht k (fun h => by simp [Val.isMutated] at h), .inl (by simp [Val.isMutated])⟩
    | setEnd h1 h2 =>
      obtain ⟨o, ch, m, proto, bad, d, rfl, hcl, ht⟩ := rep_list_inv h
      rw [hcl] at h1
      cases h1
      obtain ⟨_, _, _, d', hd', hUd⟩ := hU.seqOf _ _ _ _ _ hc hcl
      cases hd'
      obtain ⟨cs', rfl, k⟩ := setElement_kids hU hS hUd hcl (ensure_elements hU hS hc h hcl) h2 hn
      rcases k with ⟨_, k⟩ | ⟨k, _⟩
      · exact ⟨.list hcl ht k (fun h => by simp [Val.isMutated] at h), .inl (by simp [Val.isMutated])⟩
      · omega
  | .append x, q, c, p, v, v', a, a', hc, h, he, hn => by
    cases he with
    | @append _ d0 _ _ _ _ _ h1 h2 =>
      obtain ⟨o, ch, m, proto, bad, d, rfl, hcl, ht⟩ := rep_list_inv h
      have hdd : d = d0 := by
        rw [hcl] at h1
        cases h1; rfl
      subst hdd
      obtain ⟨_, _, _, d', hd', hUd⟩ := hU.seqOf _ _ _ _ _ hc hcl
      cases hd'
      simp only [runEdit, appendItem, hcl, bind, Except.bind] at hn
      cases h4 : ensureChildren E r c o ch with
      | error e => rw [h4] at hn; cases hn
      | ok cs =>
        rw [h4] at hn
        simp only at hn
        cases h5 : makeElement E r d x with
        | error e => rw [h5] at hn; cases hn
        | ok nv =>
          rw [h5] at hn
          cases hn
          have k := listRep_append (ensure_elements hU hS hc h hcl cs h4) (.val (makeElement_rep hU hS hUd h2 h5) .nil)
          exact ⟨.list hcl ht k (fun h => by simp [Val.isMutated] at h), .inl (by simp [Val.isMutated])⟩
  | .delElement idx, q, c, p, v, v', a, a', hc, h, he, hn => by
    cases he with
    | delElement h1 h2 =>
      obtain ⟨o, ch, m, proto, bad, d, rfl, hcl, ht⟩ := rep_list_inv h
      simp only [runEdit, Asn1.delElement, hcl, bind, Except.bind] at hn
      cases h4 : ensureChildren E r c o ch with
      | error e => rw [h4] at hn; cases hn
      | ok cs =>
        rw [h4] at hn
        simp only at hn
        split at hn
        · cases hn
          exact ⟨.list hcl ht (listRep_erase (ensure_elements hU hS hc h hcl cs h4)) (fun h => by simp [Val.isMutated] at h),
            .inl (by simp [Val.isMutated])⟩
        · cases hn
  | .get idx, q, c, p, v, v', a, a', hc, h, he, hn => by
    cases he
    simp only [runEdit] at hn
    cases h1 : getItem E r v idx with
    | error e => rw [h1] at hn; cases hn
    | ok y =>
      obtain ⟨x, w⟩ := y
      rw [h1] at hn
      cases hn
      obtain ⟨o, cs, m, _, _, k1, k2, _⟩ := getItem_rep hU hS hc h h1
      exact ⟨k1, .inr ⟨rfl, k2⟩⟩
  | .len, q, c, p, v, v', a, a', hc, h, he, hn => by
    cases he
    simp only [runEdit] at hn
    cases h1 : lenOf E r v with
    | error e => rw [h1] at hn; cases hn
    | ok y =>
      obtain ⟨x, w⟩ := y
      rw [h1] at hn
      cases hn
      obtain ⟨k1, k2, _⟩ := lenOf_rep hU hS hc h h1
      exact ⟨k1, .inr ⟨rfl, k2⟩⟩
  | .at k e, q, c, p, v, v', a, a', hc, h, he, hn => by
    simp only [runEdit, bind, Except.bind] at hn
    cases h1 : getItem E r v k with
    | error e => rw [h1] at hn; cases hn
    | ok y =>
      obtain ⟨x, w⟩ := y
      rw [h1] at hn
      simp only at hn
      cases h2 : runEdit E r e x with
      | error e => rw [h2] at hn; cases hn
      | ok x' =>
        rw [h2] at hn
        cases hn
        obtain ⟨o, cs, m, rfl, k1, k2, k3, k4⟩ := getItem_rep hU hS hc h h1
        obtain ⟨_, proto, hp, ht, k5⟩ := rep_node.mp k2
        have hlt : k < cs.length := (List.getElem?_eq_some_iff.mp k1).1
        -- the container with the child put back
        have close : ∀ {a'' b b' : AVal}, Kids E c a'' (cs.set k (.val x')) → (b' = b → a'' = a) →
            (x'.isMutated = true ∨ (b' = b ∧ (x'.isMutated = false → x.isMutated = false))) →
            Rep E q c p (putChild k x' (.node c o (some cs) m)) a'' ∧
            ((putChild k x' (.node c o (some cs) m)).isMutated = true ∨
              (a'' = a ∧ ((putChild k x' (.node c o (some cs) m)).isMutated = false → v.isMutated = false))) := by
          intro a'' b b' e1 e2 e3
          rcases e3 with e3 | ⟨e3, e4⟩
          · have hm : (Val.node c o (some (cs.set k (.val x'))) m).isMutated = true := by
              rw [isMutated_node, childrenMutated_set_val hlt e3, Bool.or_true]
            refine ⟨rep_node.mpr ⟨rfl, proto, hp, ht, .inr ⟨_, rfl, e1, ?_⟩⟩, .inl hm⟩
            intro h
            rw [hm] at h; cases h
          · obtain rfl := e2 e3
            have hle : (Val.node c o (some (cs.set k (.val x'))) m).isMutated = false → (Val.node c o (some cs) m).isMutated = false := by
              intro hm
              rw [isMutated_node, Bool.or_eq_false_iff] at hm
              rw [isMutated_node, hm.1, Bool.false_or]
              refine childrenMutated_set_le ?_ hm.2
              intro y hy hx
              rw [k1] at hy
              cases hy
              exact e4 hx
            refine ⟨rep_node.mpr ⟨rfl, proto, hp, ht, .inr ⟨_, rfl, e1, ?_⟩⟩, .inr ⟨rfl, fun hm => k3 (hle hm)⟩⟩
            intro hm
            rcases k5 with ⟨k5, _⟩ | ⟨cs0, k5, _, k6⟩
            · cases k5
            · cases k5
              exact k6 (hle hm)
        cases he with
        | @atField _ as _ _ b b' f _ _ fields h3 h4 h5 h6 =>
          rcases k4 with ⟨proto', bad', fields', as', f', b0, g1, g2, g3, g4, g5⟩ | ⟨proto', bad', d, as', b0, g1, _⟩
          · cases g2
            rw [g1] at h3
            cases h3
            rw [g3] at h4
            cases h4
            rw [g4] at h5
            cases h5
            have hgf := (hU.seq _ _ _ _ _ _ hc g1).2.2.2.2.2.2 f (List.mem_of_getElem? g3)
            have hx : Rep E false f.spec f.params x b := by
              rcases g5 with g5 | ⟨rfl, rfl, _⟩
              · exact g5
              · exfalso
                cases e with
                | «at» k' e' => simp [runEdit, getItem, bind, Except.bind] at h2
                | get idx => simp [runEdit, getItem, Except.map] at h2
                | len => simp [runEdit, lenOf, Except.map] at h2
                | setField idx y => simp [runEdit, Asn1.setField] at h2
                | delField idx => simp [runEdit, Asn1.delField] at h2
                | setElement idx y => simp [runEdit, Asn1.setElement] at h2
                | append y => simp [runEdit, appendItem] at h2
                | delElement idx => simp [runEdit, Asn1.delElement] at h2
            obtain ⟨j1, j2⟩ := runEdit_rep hU hS e hgf.mem hx h6 h2
            refine close (b := b) (b' := b') ?_ ?_ j2
            · cases hkids : k5 with
              | inl k5 => cases k5.1
              | inr k5 =>
                obtain ⟨cs0, q1, q2, _⟩ := k5
                cases q1
                cases q2 with
                | seq q3 q4 =>
                  rw [g1] at q3
                  cases q3
                  exact .seq g1 (fieldsRep_set q4 g3 (.inl j1))
            · rintro rfl
              obtain ⟨hlt, rfl⟩ := List.getElem?_eq_some_iff.mp g4
              rw [List.set_getElem_self hlt]
          · rw [g1] at h3; cases h3
        | @atElement _ ch as _ _ b b' _ _ h3 h5 h6 =>
          rcases k4 with ⟨proto', bad', fields', as', f', b0, g1, _⟩ | ⟨proto', bad', d, as', b0, g1, g2, g4, g5⟩
          · rw [g1] at h3; cases h3
          · cases g2
            rw [g1] at h3
            cases h3
            rw [g4] at h5
            cases h5
            obtain ⟨_, _, _, d', hd', hUd⟩ := hU.seqOf _ _ _ _ _ hc g1
            cases hd'
            obtain ⟨j1, j2⟩ := runEdit_rep hU hS e hUd g5 h6 h2
            refine close (b := b) (b' := b') ?_ ?_ j2
            · cases hkids : k5 with
              | inl k5 => cases k5.1
              | inr k5 =>
                obtain ⟨cs0, q1, q2, _⟩ := k5
                cases q1
                cases q2 with
                | list q3 q4 =>
                  rw [g1] at q3
                  cases q3
                  exact .list g1 (listRep_set j1 q4)
            · rintro rfl
              obtain ⟨hlt, rfl⟩ := List.getElem?_eq_some_iff.mp g4
              rw [List.set_getElem_self hlt]

theorem map_ok {α β : Type} {f : α → β} {e : Py α} {y : β} (h : e.map f = .ok y) : ∃ x, e = .ok x ∧ y = f x := by
  cases e with
  | error e => cases h
  | ok x => cases h; exact ⟨x, rfl, rfl⟩

theorem runOp_rep {E : Env} {U : ClassId → Prop} {r : Ops} (hU : Universe E U) (hS : Sim E U r) {o : Op} {q : Bool} {c : ClassId} {p : Params}
    {v v' : Val} {a a' : AVal} (hg : GoodUse E U c p) (h : Rep E q c p v a) (ho : After E (Inst E U) c a o a') (hn : runOp E r o v = .ok v') :
    Rep E q c p v' a' := by
  cases ho with
  | edit h1 => exact (runEdit_rep hU hS _ hg.mem h h1 hn).1
  | dump =>
    obtain ⟨y, h1, rfl⟩ := map_ok hn
    exact (hS.dump hg h h1).1
  | native =>
    obtain ⟨y, h1, rfl⟩ := map_ok hn
    exact (hS.native hg h h1).2
  | contents =>
    obtain ⟨y, h1, rfl⟩ := map_ok hn
    exact hS.contents hg h h1
  | copy hw => exact copyVal_rep hS hg h hw hn

/-! ### More instances can stand for more -/

mutual
theorem conv_mono {E : Env} {V W : Bool → ClassId → Params → Val → AVal → Prop} (hVW : ∀ {q c p v a}, V q c p v a → W q c p v a) :
    ∀ {q c p x a}, Conv E V q c p x a → Conv E W q c p x a
  | _, _, _, _, _, .prim h1 h2 h3 => .prim h1 h2 h3
  | _, _, _, _, _, .null h1 h2 => .null h1 h2
  | _, _, _, _, _, .seq h1 h2 h3 h4 => .seq h1 (fieldsConv_mono hVW h2) h3 h4
  | _, _, _, _, _, .list h1 h2 => .list h1 (listConv_mono hVW h2)
  | _, _, _, _, _, .alt h1 h2 h3 h4 => .alt h1 h2 h3 (conv_mono hVW h4)
  | _, _, _, _, _, .inst h1 h2 => .inst (hVW h1) h2
theorem fieldConv_mono {E : Env} {V W : Bool → ClassId → Params → Val → AVal → Prop} (hVW : ∀ {q c p v a}, V q c p v a → W q c p v a) :
    ∀ {f x a}, FieldConv E V f x a → FieldConv E W f x a
  | _, _, _, .missing h => .missing h
  | _, _, _, .missingDefault h => .missingDefault h
  | _, _, _, .none h => .none h
  | _, _, _, .noneDefault h => .noneDefault h
  | _, _, _, .given h1 h2 h3 => .given h1 (conv_mono hVW h2) h3
theorem fieldsConv_mono {E : Env} {V W : Bool → ClassId → Params → Val → AVal → Prop} (hVW : ∀ {q c p v a}, V q c p v a → W q c p v a) :
    ∀ {fs d as}, FieldsConv E V fs d as → FieldsConv E W fs d as
  | _, _, _, .nil => .nil
  | _, _, _, .cons h1 h2 => .cons (fieldConv_mono hVW h1) (fieldsConv_mono hVW h2)
theorem listConv_mono {E : Env} {V W : Bool → ClassId → Params → Val → AVal → Prop} (hVW : ∀ {q c p v a}, V q c p v a → W q c p v a) :
    ∀ {ch xs as}, ListConv E V ch xs as → ListConv E W ch xs as
  | _, _, _, .nil => .nil
  | _, _, _, .cons h1 h2 h3 => .cons (conv_mono hVW h1) h2 (listConv_mono hVW h3)
end

theorem edited_mono {E : Env} {V W : Bool → ClassId → Params → Val → AVal → Prop} (hVW : ∀ {q c p v a}, V q c p v a → W q c p v a) {c : ClassId}
    {a a' : AVal} {e : Edit} (h : Edited E V c a e a') : Edited E W c a e a' := by
  induction h with
  | setField h1 h2 h3 => exact .setField h1 h2 (fieldConv_mono hVW h3)
  | delOptional h1 h2 h3 => exact .delOptional h1 h2 h3
  | delDefault h1 h2 h3 => exact .delDefault h1 h2 h3
  | setElement h1 h2 h3 h4 => exact .setElement h1 (conv_mono hVW h2) h3 h4
  | setEnd h1 h2 h3 => exact .setEnd h1 (conv_mono hVW h2) h3
  | append h1 h2 h3 => exact .append h1 (conv_mono hVW h2) h3
  | delElement h1 h2 => exact .delElement h1 h2
  | get h1 h2 => exact .get h1 h2
  | len h1 => exact .len h1
  | atField h1 h2 h3 _ ih => exact .atField h1 h2 h3 ih
  | atElement h1 h2 _ ih => exact .atElement h1 h2 ih

theorem after_mono {E : Env} {V W : Bool → ClassId → Params → Val → AVal → Prop} (hVW : ∀ {q c p v a}, V q c p v a → W q c p v a) {c : ClassId}
    {a a' : AVal} {o : Op} (h : After E V c a o a') : After E W c a o a' := by
  cases h with
  | edit h => exact .edit (edited_mono hVW h)
  | dump => exact .dump
  | native => exact .native
  | contents => exact .contents
  | copy h => exact .copy h

theorem load_build {E : Env} {U : ClassId → Prop} (hU : Universe E U) {r : Ops} {c : ClassId} {p : Params} {t : TLV} {rest : Bytes} {strict : Bool}
    {v : Val} (hc : U c) (ht : Ber 11 t) (h : loadVal E r c p (t.bytes ++ rest) strict = .ok v) :
    ∃ i : Info, i.tlv = t ∧ r.build i (some c) p none = .ok v := by
  simp only [loadVal, bind, Except.bind] at h
  cases h1 : parse (t.bytes ++ rest) strict with
  | error e => rw [h1] at h; cases h
  | ok i =>
    rw [h1] at h
    have hi : i.tlv = t := by
      cases strict with
      | false =>
        obtain ⟨rest', h2, h3⟩ := (parse_ok_iff _ _).mp h1
        exact (Ber_unique h3 ht h2.symm).1
      | true =>
        obtain ⟨h2, h3⟩ := (parse_strict_ok_iff _ _).mp h1
        exact (Ber_unique (r := []) h3 ht (by rw [List.append_nil]; exact h2.symm)).1
    refine ⟨i, hi, ?_⟩
    cases hcl : E.cls c with
    | any => exact absurd hcl (hU.any _ hc)
    | _ => rw [hcl] at h; exact h

theorem fieldsConv_fresh {E : Env} {V : Bool → ClassId → Params → Val → AVal → Prop} : ∀ {fs : List Field} {as : List AVal}, FieldsConv E V fs [] as →
    List.Forall₂ (fun f a => FieldConv E V f none a) fs as
  | _, _, .nil => .nil
  | _, _, .cons h1 h2 => .cons h1 (fieldsConv_fresh h2)

/-- The children of an instance without a value, once they are looked at. -/
theorem empty_kids {E : Env} {U : ClassId → Prop} {r : Ops} (hU : Universe E U) (hS : Sim E U r) {c : ClassId} {p : Params} {a : AVal} {v : Val} {r' : Ops}
    (hg : GoodUse E U c p) (hp : p.default = none) (h : Empty E (Inst E U) c a) (hn : constructStep E r' c p (.scalar .none) = .ok v) :
    ∃ proto, NodeProto E c proto ∧ v = .node c (initTagging proto p.tags) none false ∧ NodeTag proto p (initTagging proto p.tags) ∧
      (initTagging proto p.tags).contents = none ∧ ∀ cs, ensureChildren E r c (initTagging proto p.tags) none = .ok cs → Kids E c a cs := by
  cases h with
  | @seq as proto bad fields h1 h2 =>
    obtain ⟨_, _, _, hpn, _⟩ := hU.seq _ _ _ _ _ _ hg.mem h1
    have hcn : (initTagging proto p.tags).contents = none := by
      obtain ⟨_, _, _, _, _, _, f7⟩ := initTagging_fields proto p hg.tags.keep
      obtain ⟨_, _, _, rfl⟩ := hpn
      exact f7
    simp only [constructStep, h1, hp, givenValue, seqInit] at hn
    cases hn
    exact ⟨proto, .inl ⟨_, _, h1⟩, rfl, nodeTag_init (plainNode_blank hpn) hg.tags, hcn,
      fun cs hcs => .seq h1 (fresh_kids hU hS hg.mem h1 hcn (fieldsConv_fresh h2) cs hcs)⟩
  | @list ch proto bad h1 =>
    obtain ⟨_, _, hpn, _⟩ := hU.seqOf _ _ _ _ _ hg.mem h1
    have hcn : (initTagging proto p.tags).contents = none := by
      obtain ⟨_, _, _, _, _, _, f7⟩ := initTagging_fields proto p hg.tags.keep
      obtain ⟨_, _, _, rfl⟩ := hpn
      exact f7
    simp only [constructStep, h1, hp, givenValue] at hn
    cases hn
    refine ⟨proto, .inr ⟨_, _, h1⟩, rfl, nodeTag_init (plainNode_blank hpn) hg.tags, hcn, fun cs hcs => ?_⟩
    simp only [ensureChildren, parseChildren, h1, hcn, parseSeqOf] at hcs
    cases hcs
    exact .list h1 .nil

theorem setField_parsed {E : Env} {r : Ops} {c : ClassId} {o : Obj Unit} {m : Bool} {cs : List Child} {idx : Nat} {x : PyVal}
    (h : ensureChildren E r c o none = .ok cs) : Asn1.setField E r (.node c o none m) idx x = Asn1.setField E r (.node c o (some cs) true) idx x := by
  unfold Asn1.setField
  simp only [h]
  rfl

/-- A change is the same whether or not the children have been looked at. -/
theorem runEdit_parsed {E : Env} {r : Ops} {c : ClassId} {o : Obj Unit} {m : Bool} {e : Edit} {cs : List Child} (he : e.changes = true)
    (h : ensureChildren E r c o none = .ok cs) : runEdit E r e (.node c o none m) = runEdit E r e (.node c o (some cs) true) := by
  cases e with
  | setField idx x => exact setField_parsed h
  | delField idx =>
    simp only [runEdit, Asn1.delField, h, setField_parsed (idx := idx) (m := m) h]
    rfl
  | setElement idx x => simp only [runEdit, Asn1.setElement, h]; rfl
  | append x => simp only [runEdit, appendItem, h]; rfl
  | delElement idx => simp only [runEdit, Asn1.delElement, h]; rfl
  | get _ => cases he
  | len => cases he
  | «at» _ _ => cases he

/-- A change looks at the children. -/
theorem runEdit_ensure {E : Env} {r : Ops} {c : ClassId} {o : Obj Unit} {m : Bool} {e : Edit} {v' : Val} (he : e.changes = true)
    (h : runEdit E r e (.node c o none m) = .ok v') : ∃ cs, ensureChildren E r c o none = .ok cs := by
  cases hx : ensureChildren E r c o none with
  | ok cs => exact ⟨cs, rfl⟩
  | error err =>
    exfalso
    cases e with
    | setField idx x => simp only [runEdit, Asn1.setField, hx, bind, Except.bind] at h; split at h <;> cases h
    | delField idx => simp only [runEdit, Asn1.delField, hx, bind, Except.bind] at h; split at h <;> cases h
    | setElement idx x => simp only [runEdit, Asn1.setElement, hx, bind, Except.bind] at h; split at h <;> cases h
    | append x => simp only [runEdit, appendItem, hx, bind, Except.bind] at h; split at h <;> cases h
    | delElement idx => simp only [runEdit, Asn1.delElement, hx, bind, Except.bind] at h; split at h <;> cases h
    | get _ => cases he
    | len => cases he
    | «at» _ _ => cases he

theorem started_rep {E : Env} {U : ClassId → Prop} {r : Ops} (hU : Universe E U) (hS : Sim E U r) {q : Bool} {c : ClassId} {p : Params} {v v' : Val}
    {a a' : AVal} {e : Edit} {r' : Ops} (hg : GoodUse E U c p) (hp : p.default = none) (h : Empty E (Inst E U) c a)
    (hv : constructStep E r' c p (.scalar .none) = .ok v) (he : e.changes = true) (h1 : Edited E (Inst E U) c a e a') (hn : runEdit E r e v = .ok v') :
    Rep E q c p v' a' := by
  obtain ⟨proto, k1, rfl, k2, _, k3⟩ := empty_kids hU hS hg hp h hv
  obtain ⟨cs, hcs⟩ := runEdit_ensure he hn
  rw [runEdit_parsed he hcs] at hn
  have hr : Rep E q c p (.node c (initTagging proto p.tags) (some cs) true) a :=
    rep_node.mpr ⟨rfl, proto, k1, k2, .inr ⟨cs, rfl, k3 cs hcs, fun h => by simp [Val.isMutated] at h⟩⟩
  exact (runEdit_rep hU hS e hg.mem hr h1 hn).1

theorem empty_mono {E : Env} {V W : Bool → ClassId → Params → Val → AVal → Prop} (hVW : ∀ {q c p v a}, V q c p v a → W q c p v a) {c : ClassId}
    {a : AVal} (h : Empty E V c a) : Empty E W c a := by
  cases h with
  | seq h1 h2 => exact .seq h1 (fieldsConv_mono hVW h2)
  | list h1 => exact .list h1

theorem madeFrom_rep {E : Env} {U : ClassId → Prop} (hU : Universe E U) {V : Bool → ClassId → Params → Val → AVal → Prop}
    (hV : ∀ {q c p v a}, V q c p v a → Inst E U q c p v a) {q : Bool} {c : ClassId} {p : Params} {v : Val} {a : AVal}
    (h : MadeFrom E U V q c p v a) : GoodUse E U c p ∧ Rep E q c p v a := by
  induction h with
  | loaded h1 h2 h3 h4 =>
    obtain ⟨i, rfl, hi⟩ := load_build hU h1.mem (dec_ber h2) h4
    exact ⟨h1, (sim_ops hU _).build h1 h2 h3 hi⟩
  | constructed h1 h2 h3 => exact ⟨h1, (sim_ops hU _).construct h1 (conv_mono hV h2) h3⟩
  | op h1 h2 h3 ih2 => exact ⟨ih2.1, runOp_rep hU (sim_ops hU _) ih2.1 ih2.2 (after_mono hV h2) h3⟩
  | @started _ _ _ _ _ _ _ n _ _ h1 h2 h3 h4 h5 h6 h7 =>
    cases n with
    | zero => cases h4
    | succ n => exact ⟨h1, started_rep hU (sim_ops hU _) h1 h2 (empty_mono hV h3) h4 h5 (edited_mono hV h6) h7⟩
  | field h0 h1 h2 h3 h4 h5 ih2 =>
    obtain ⟨hg, hr⟩ := ih2
    obtain ⟨_, _, _, _, _, _, _, k | ⟨_, _, _, _, _, k, _⟩⟩ := getItem_rep hU (sim_ops hU _) hg.mem hr h5
    · obtain ⟨_, _, _, _, _, _, k1, k2, k3, k4, k5⟩ := k
      rw [h1] at k1
      cases k1
      cases k2
      rw [h2] at k3
      cases k3
      rw [h3] at k4
      cases k4
      rcases k5 with k5 | ⟨_, k5, _⟩
      · exact ⟨(hU.seq _ _ _ _ _ _ hg.mem h1).2.2.2.2.2.2 _ (List.mem_of_getElem? h2), k5⟩
      · exact absurd k5 h4
    · rw [h1] at k; cases k
  | element h0 h1 h3 h5 ih2 =>
    obtain ⟨hg, hr⟩ := ih2
    obtain ⟨_, _, _, _, _, _, _, ⟨_, _, _, _, _, _, k, _⟩ | k⟩ := getItem_rep hU (sim_ops hU _) hg.mem hr h5
    · rw [h1] at k; cases k
    · obtain ⟨_, _, _, _, _, k1, k2, k4, k5⟩ := k
      rw [h1] at k1
      cases k1
      cases k2
      rw [h3] at k4
      cases k4
      obtain ⟨_, _, _, d', hd', hUd⟩ := hU.seqOf _ _ _ _ _ hg.mem h1
      cases hd'
      exact ⟨goodUse_plain hUd, k5⟩

/-- Whatever has been done with an instance, it stands for the value a user expects it to have. -/
theorem made_rep {E : Env} {U : ClassId → Prop} (hU : Universe E U) {q : Bool} {c : ClassId} {p : Params} {v : Val} {a : AVal}
    (h : Made E U q c p v a) : GoodUse E U c p ∧ Rep E q c p v a := by
  obtain ⟨k, h⟩ := h
  induction k generalizing q c p v a with
  | zero => exact h.elim
  | succ k ih => exact madeFrom_rep hU (fun h => ih h) h

theorem madeFrom_mono {E : Env} {U : ClassId → Prop} {V W : Bool → ClassId → Params → Val → AVal → Prop} (hVW : ∀ {q c p v a}, V q c p v a → W q c p v a)
    {q : Bool} {c : ClassId} {p : Params} {v : Val} {a : AVal} (h : MadeFrom E U V q c p v a) : MadeFrom E U W q c p v a := by
  induction h with
  | loaded h1 h2 h3 h4 => exact .loaded h1 h2 h3 h4
  | constructed h1 h2 h3 => exact .constructed h1 (conv_mono hVW h2) h3
  | op _ h2 h3 ih => exact .op ih (after_mono hVW h2) h3
  | started h1 h2 h3 h4 h5 h6 h7 => exact .started h1 h2 (empty_mono hVW h3) h4 h5 (edited_mono hVW h6) h7
  | field _ h1 h2 h3 h4 h5 ih => exact .field ih h1 h2 h3 h4 h5
  | element _ h1 h3 h5 ih => exact .element ih h1 h3 h5

theorem madeIn_mono {E : Env} {U : ClassId → Prop} {k m : Nat} (hkm : k ≤ m) {q : Bool} {c : ClassId} {p : Params} {v : Val} {a : AVal}
    (h : MadeIn E U k q c p v a) : MadeIn E U m q c p v a := by
  induction m generalizing k q c p v a with
  | zero => obtain rfl := Nat.le_zero.mp hkm; exact h
  | succ m ih =>
    cases k with
    | zero => exact h.elim
    | succ k => exact madeFrom_mono (fun h => ih (by omega) h) h

end Asn1
