import Verif.Lemmas.WorksNode

/-! # Copying, assigning and constructing succeeds -/

namespace Asn1
open Spec Props

variable {E : Env} {U : ClassId → Prop}

theorem retag_works {N : Nat} {r : Ops} (hW : Working E U N r) {q : Bool} {c : ClassId} {p p' : Params} {v : Val} {a : AVal}
    (hg : GoodUse E U c p) (hg' : GoodUse E U c p') (h : Rep E q c p v a) (hr : Ready E c a) (hd : a.depth < N) :
    Works (retag E r v p'.explicit p'.implicit) := by
  have hc : ∀ cl tg im es, Works (r.copyTo v cl tg im es) := fun _ _ _ _ => hW.copyTo _ _ _ _ hg h hr hd
  unfold retag
  generalize protoTagging E v = T
  obtain ⟨c0, t0, i0, e0⟩ := T
  simp only
  split
  · next heq =>
    cases h with
    | choice h1 _ _ _ _ _ =>
      rw [(hg'.choice _ _ _ h1).2] at heq
      cases heq
  · exact hc _ _ _ _
  · exact hc _ _ _ _

theorem works_ite {α : Type} {P : Prop} [Decidable P] {x y : Py α} (hx : Works x) (hy : Works y) : Works (if P then x else y) := by
  split
  · exact hx
  · exact hy

theorem fixTags_works {N : Nat} {r : Ops} (hW : Working E U N r) {q : Bool} {c : ClassId} {p p' : Params} {v : Val} {a : AVal} {same : Bool}
    (hg : GoodUse E U c p) (hg' : GoodUse E U c p') (h : Rep E q c p v a) (hr : Ready E c a) (hd : a.depth < N) :
    Works (fixTags E r v p'.explicit p'.implicit same) := by
  have hc := retag_works hW hg hg' h hr hd
  unfold fixTags
  generalize v.tagging = T
  obtain ⟨c0, t0, i0, e0⟩ := T
  simp only
  exact works_ite hc (.ok rfl)

theorem fixElement_works (hU : Universe E U) {N : Nat} {r : Ops} (hW : Working E U N r) {q : Bool} {c : ClassId} {p : Params} {v : Val} {a : AVal}
    (hg : GoodUse E U c p) (h : Rep E q c p v a) (hr : Ready E c a) (hd : a.depth < N) : Works (fixElement E r c v) := by
  have hbl := class_blank hU hg.mem
  unfold fixElement
  generalize hT : (E.cls c).tagging = T at *
  obtain ⟨cl, tg, im, es⟩ := T
  simp only [Prod.mk.injEq] at hbl
  obtain ⟨rfl, rfl⟩ := hbl
  exact fixTags_works (p' := {}) hW hg (goodUse_plain hg.mem) h hr hd

theorem copyVal_works {N : Nat} {r : Ops} (hW : Working E U N r) {q : Bool} {c : ClassId} {p : Params} {v : Val} {a : AVal}
    (hg : GoodUse E U c p) (h : Rep E q c p v a) (hr : Ready E c a) (hd : a.depth < N) : Works (copyVal r v) :=
  hW.copyTo _ _ _ _ hg h hr hd

theorem makeRaw_works {N : Nat} {r : Ops} (hW : Working E U N r) {c : ClassId} {p : Params} {x : PyVal} {a : AVal} (hg : GoodUse E U c p)
    (h : Conv E (Inst E U) false c p x a) (hr : Ready E c a) (hd : a.depth < N) : Works (makeRaw E r c c p x) := by
  have plain : (∀ e t alts, E.cls c ≠ .choice e t alts) → (∀ v, x ≠ .asn1 v) → Works (makeRaw E r c c p x) := by
    intro h1 h2
    rw [makeRaw_plain h1 h2]
    exact hW.construct hg h h2 hr hd
  cases h with
  | prim h1 h2 h3 => exact plain (by rw [h1]; intro _ _ _ h; cases h) (fun _ h => by cases h)
  | null h1 h2 => exact plain (by rw [h1]; intro _ _ _ h; cases h) (fun _ h => by cases h)
  | seq h1 h2 h3 h4 => exact plain (by rw [h1]; intro _ _ _ h; cases h) (fun _ h => by cases h)
  | list h1 h2 => exact plain (by rw [h1]; intro _ _ _ h; cases h) (fun _ h => by cases h)
  | alt h1 h2 h3 h4 =>
    unfold makeRaw
    rw [h1]
    exact hW.construct (goodUse_plain hg.mem) (.alt h1 h2 h3 h4 : Conv E (Inst E U) false c {} _ _) (fun _ h => by cases h) hr hd
  | inst h1 h2 => exact .ok (makeRaw_inst (rep_classOf h1.2))

theorem ready_default {f : Field} {a : AVal} (h : DefaultIs E f a) : Ready E f.spec a ∧ Whole E f.spec a ∧ a.depth = 0 := by
  obtain ⟨proto, bad, d, s, e1, e2, e3, rfl, e5⟩ := h
  obtain ⟨_, st', _, _, _, _, _, g5, _⟩ := e5
  exact ⟨(ready_prim e1).mpr ⟨_, g5⟩, by simp only [Whole], rfl⟩

theorem makeValue_works (hU : Universe E U) {N n : Nat} (hW : Working E U N (ops E (n + 1))) {f : Field} {x : PyVal} {a : AVal}
    (hg : GoodUse E U f.spec f.params) (h : FieldConv E (Inst E U) f (some x) a) (hr : Ready E f.spec a) (hd : a.depth < N) :
    Works (makeValue E (ops E (n + 1)) f.spec f.spec f.params x) := by
  have step : (x = .scalar .none → f.params.optional = false) →
      makeValue E (ops E (n + 1)) f.spec f.spec f.params x = (do
        let v ← makeRaw E (ops E (n + 1)) f.spec f.spec f.params x
        fixTagging E (ops E (n + 1)) v f.params) := by
    intro hx
    unfold makeValue
    split
    · next ho =>
      rw [hx rfl] at ho
      cases ho
    · rfl
  cases h with
  | none h1 =>
    unfold makeValue
    rw [h1]
    exact .ok rfl
  | noneDefault h1 =>
    obtain ⟨proto, bad, d, s, e1, e2, e3, e4, e5⟩ := id h1
    rw [step (fun _ => (hg.default _ e2).1), makeRaw_plain (by rw [e1]; intro _ _ _ h; cases h) (fun _ h => by cases h)]
    obtain ⟨proto', bad', st, s', k1, k2, k3, k4⟩ := default_ok (r := ops E n) hU hg h1
    have k3 : (ops E (n + 1)).construct f.spec f.params (.scalar .none) = .ok (.leaf f.spec st) := k3
    rw [k3]
    subst k1
    exact fixTags_works hW hg hg (.leaf k2 k4) hr hd
  | given h1 h2 h3 =>
    rw [step h1]
    refine (makeRaw_works hW hg h2 hr hd).bind (fun w hw => ?_)
    obtain ⟨p', k3, k4⟩ := makeRaw_rep (sim_ops hU _) hg h2 hw
    exact fixTags_works hW k3 hg k4 hr hd

theorem assignedContents_works {N n : Nat} (hW : Working E U N (ops E (n + 1))) {f : Field} {v : Val} {a : AVal}
    (hg : GoodUse E U f.spec f.params) (h : FieldRep E f v a) (hr : Ready E f.spec a) (hd : a.depth < N) :
    Works (assignedContents E (ops E (n + 1)) v) ∧ ∀ b v', assignedContents E (ops E (n + 1)) v = .ok (b, v') → b ≠ none := by
  rcases h with h | ⟨rfl, _⟩
  · have : assignedContents E (ops E (n + 1)) v = (ops E (n + 1)).contents v := by
      cases h <;> rfl
    rw [this]
    exact hW.contents hg h hr hd
  · refine ⟨.ok (y := (some [], .void)) rfl, ?_⟩
    intro b v' h
    have h : (Except.ok (some [], Val.void) : Py (Option Bytes × Val)) = .ok (b, v') := h
    cases h
    exact fun h => by cases h

theorem setField_works (hU : Universe E U) {N n : Nat} (hW : Working E U N (ops E (n + 1))) {c : ClassId} {o : Obj Unit}
    {ch : Option (List Child)} {m : Bool} {idx : Nat} {x : PyVal} {as : List AVal} {a : AVal} {f : Field} {proto : Obj Unit} {bad : List Nat}
    {fields : List Field} (hc : U c) (hcl : E.cls c = .seq proto bad false fields none) (hf : fields[idx]? = some f)
    (he : Works (ensureChildren E (ops E (n + 1)) c o ch))
    (h : ∀ cs, ensureChildren E (ops E (n + 1)) c o ch = .ok cs → FieldsRep E fields cs as) (hx : FieldConv E (Inst E U) f (some x) a)
    (hr : Ready E f.spec a) (hd : a.depth < N) : Works (setField E (ops E (n + 1)) (.node c o ch m) idx x) := by
  have hg : GoodUse E U f.spec f.params := (hU.seq _ _ _ _ _ _ hc hcl).2.2.2.2.2.2 f (List.mem_of_getElem? hf)
  unfold setField
  simp only [hcl]
  refine he.bind (fun cs hcs => ?_)
  simp only [hf, oidOverride]
  refine (makeValue_works hU hW hg hx hr hd).bind (fun nv hnv => ?_)
  obtain ⟨k1, k2⟩ := assignedContents_works hW hg (makeValue_rep hU (sim_ops hU _) hg hx hnv) hr hd
  refine k1.bind ?_
  rintro ⟨b, nv'⟩ hb
  cases b with
  | none => exact absurd rfl (k2 _ _ hb)
  | some b =>
    have hlen : idx < cs.length := by
      rw [(fieldsRep_length (h cs hcs)).1]
      exact (List.getElem?_eq_some_iff.mp hf).1
    simp only [hlen, if_true]
    exact .ok rfl

theorem freshChildren_works (hU : Universe E U) {N n : Nat} (hW : Working E U N (ops E (n + 1))) (hN : 0 < N) (all : List Field) : ∀ (fs : List Field)
    (k : Nat) (cs : List Child), (∀ f ∈ fs, GoodUse E U f.spec f.params) → Works (freshChildren E (ops E (n + 1)) all none fs k cs)
  | [], _, _, _ => .ok rfl
  | f :: fs, k, cs, hg => by
    have hgf := hg f (by simp)
    have ih := fun k cs => freshChildren_works hU hW hN all fs k cs (fun g hm => hg g (by simp [hm]))
    rw [freshChildren]
    cases hd : f.params.default with
    | none => exact ih _ _
    | some d =>
      obtain ⟨ho, proto, bad, x, s, g1, g2, g3, g4⟩ := hgf.default d hd
      have hdi : DefaultIs E f (.prim s) := ⟨proto, bad, x, s, g1, by rw [hd, g2], g3, rfl, g4⟩
      simp only [oidOverride]
      exact (makeValue_works hU hW hgf (.noneDefault hdi) (ready_default hdi).1 (by simpa [AVal.depth] using hN)).bind (fun v _ => ih _ _)

theorem fieldsConv_cons {V : Bool → ClassId → Params → Val → AVal → Prop} {f : Field} {fs : List Field} {d : List (String × PyVal)} {as : List AVal}
    (h : FieldsConv E V (f :: fs) d as) : ∃ a as', as = a :: as' ∧ FieldConv E V f (valueOf d f.name) a ∧ FieldsConv E V fs d as' := by
  cases h with
  | cons h1 h2 => exact ⟨_, _, rfl, h1, h2⟩

theorem setFromDict_works (hU : Universe E U) {N n : Nat} (hW : Working E U N (ops E (n + 1))) {c : ClassId} {o : Obj Unit}
    {d : List (String × PyVal)} {proto : Obj Unit} {bad : List Nat} {fields : List Field} (hc : U c) (hcl : E.cls c = .seq proto bad false fields none) :
    ∀ (fs : List Field) (pre : List Field) (done rest as : List AVal) (ch : Option (List Child)) (m : Bool), fields = pre ++ fs →
    done.length = pre.length → FieldsConv E (Inst E U) fs d as → List.Forall₂ (fun f a => FieldConv E (Inst E U) f none a) fs rest →
    Works (ensureChildren E (ops E (n + 1)) c o ch) →
    (∀ cs, ensureChildren E (ops E (n + 1)) c o ch = .ok cs → FieldsRep E fields cs (done ++ rest)) → ReadyFields E fs as → AVal.depths as < N →
    Works (setFromDict E (ops E (n + 1)) d false fs pre.length (.node c o ch m))
  | [], pre, done, rest, as, ch, m, hp, hl, h, hr, he, hk, hrd, hd => .ok rfl
  | f :: fs, pre, done, rest, as, ch, m, hp, hl, h, hr, he, hk, hrd, hd => by
    have hp' : fields = (pre ++ [f]) ++ fs := by rw [hp]; simp
    have hl' : ∀ a : AVal, (done ++ [a]).length = (pre ++ [f]).length := by intro a; simp [hl]
    obtain ⟨a, as', rfl, h1, h2⟩ := fieldsConv_cons h
    rw [AVal.depths] at hd
    rw [ReadyFields] at hrd
    cases hr with
    | @cons _ a0 _ rest' r1 r2 =>
      rw [setFromDict]
      simp only [Bool.false_and, Bool.false_eq_true, if_false]
      cases hv : d.find? (fun e => e.1 == f.name) with
      | none =>
        have hvo : valueOf d f.name = none := by unfold valueOf; rw [hv]; rfl
        rw [hvo] at h1
        have he' := fieldConv_none_unique h1 r1
        subst he'
        have := setFromDict_works hU hW hc hcl fs (pre ++ [f]) (done ++ [a]) rest' as' ch m hp' (hl' a) h2 r2 he (by simpa using hk) hrd.2.2 (by omega)
        simpa using this
      | some e =>
        have hvo : valueOf d f.name = some e.2 := by unfold valueOf; rw [hv]; rfl
        rw [hvo] at h1
        have hf : fields[pre.length]? = some f := by rw [hp]; simp
        simp only
        refine (setField_works hU hW hc hcl hf he hk h1 hrd.1 (by omega)).bind (fun v1 h3 => ?_)
        obtain ⟨cs', rfl, k1⟩ := setField_kids hU (sim_ops hU _) hc hcl hf hk h1 h3
        have hset : (done ++ a0 :: rest').set pre.length a = (done ++ [a]) ++ rest' := by
          rw [← hl]; simp
        rw [hset] at k1
        have := setFromDict_works (o := o) hU hW hc hcl fs (pre ++ [f]) (done ++ [a]) rest' as' (some cs') true hp' (hl' a) h2 r2 (.ok rfl)
          (by intro cs hcs; cases hcs; exact k1) hrd.2.2 (by omega)
        simpa using this

theorem makeElement_works (hU : Universe E U) {N : Nat} {r : Ops} (hW : Working E U N r) {ch : ClassId} {x : PyVal} {a : AVal}
    (hc : U ch) (h : Conv E (Inst E U) false ch {} x a) (hx : AsElement E ch x) (hr : Ready E ch a) (hd : a.depth < N) : Works (makeElement E r ch x) := by
  have hg := goodUse_plain (E := E) hc
  by_cases hi : ∃ w, x = .asn1 w
  · obtain ⟨w, rfl⟩ := hi
    cases h with
    | @inst _ _ _ _ w _ h1 h2 =>
      have hcls := rep_classOf h1.2
      have hf := fixElement_works hU hW h1.1 h1.2 hr hd
      unfold makeElement
      cases hcl : E.cls ch with
      | any => exact absurd hcl (hU.any _ hc)
      | _ =>
        simp only [hcls, if_true]
        exact hf
  · have hne : ∀ w, x ≠ .asn1 w := fun w hw => hi ⟨w, hw⟩
    have hcon := hW.construct hg h hne hr hd
    unfold makeElement
    cases hcl : E.cls ch with
    | any => exact absurd hcl (hU.any _ hc)
    | choice e t alts => exact absurd (hx _ _ _ hcl) hi
    | _ =>
      cases x with
      | asn1 v => exact absurd rfl (hne v)
      | _ => exact hcon

theorem setElement_works (hU : Universe E U) {N : Nat} {r : Ops} (hW : Working E U N r) {c : ClassId} {o : Obj Unit}
    {ch : Option (List Child)} {m : Bool} {idx : Nat} {x : PyVal} {as : List AVal} {a : AVal} {proto : Obj Unit} {bad : List Nat} {d : ClassId}
    (hd : U d) (hcl : E.cls c = .seqOf proto bad false (some d)) (he : Works (ensureChildren E r c o ch))
    (h : ∀ cs, ensureChildren E r c o ch = .ok cs → ListRep E d cs as) (hx : Conv E (Inst E U) false d {} x a) (hxe : AsElement E d x)
    (hr : Ready E d a) (hdp : a.depth < N) (hi : idx ≤ as.length) : Works (setElement E r (.node c o ch m) idx x) := by
  unfold setElement
  simp only [hcl]
  refine he.bind (fun cs hcs => ?_)
  refine (makeElement_works hU hW hd hx hxe hr hdp).bind (fun nv _ => ?_)
  have hlen := listRep_length (h cs hcs)
  split
  · exact .ok rfl
  · split
    · exact .ok rfl
    · omega

theorem appendItem_works (hU : Universe E U) {N : Nat} {r : Ops} (hW : Working E U N r) {c : ClassId} {o : Obj Unit}
    {ch : Option (List Child)} {m : Bool} {x : PyVal} {a : AVal} {proto : Obj Unit} {bad : List Nat} {d : ClassId}
    (hd : U d) (hcl : E.cls c = .seqOf proto bad false (some d)) (he : Works (ensureChildren E r c o ch))
    (hx : Conv E (Inst E U) false d {} x a) (hxe : AsElement E d x)
    (hr : Ready E d a) (hdp : a.depth < N) : Works (appendItem E r (.node c o ch m) x) := by
  unfold appendItem
  simp only [hcl]
  refine he.bind (fun cs hcs => ?_)
  exact (makeElement_works hU hW hd hx hxe hr hdp).bind (fun nv _ => .ok rfl)

theorem setFromList_works (hU : Universe E U) {N : Nat} {r : Ops} (hS : Sim E U r) (hW : Working E U N r) {c : ClassId} {o : Obj Unit}
    {proto : Obj Unit} {bad : List Nat} {d : ClassId} (hd : U d) (hcl : E.cls c = .seqOf proto bad false (some d)) :
    ∀ (xs : List PyVal) (done as : List AVal) (ch : Option (List Child)) (m : Bool), ListConv E (Inst E U) d xs as →
    Works (ensureChildren E r c o ch) → (∀ cs, ensureChildren E r c o ch = .ok cs → ListRep E d cs done) → ReadyList E d as → AVal.depths as < N →
    Works (setFromList E r xs done.length (.node c o ch m))
  | [], _, _, _, _, _, _, _, _, _ => .ok rfl
  | x :: xs, done, as, ch, m, h, he, hk, hr, hdp => by
    obtain ⟨a, as', rfl, h1, h2, h3⟩ := listConv_cons h
    rw [AVal.depths] at hdp
    rw [ReadyList] at hr
    simp only [setFromList]
    refine (setElement_works hU hW hd hcl he hk h1 h3 hr.1 (by omega) (Nat.le_refl _)).bind (fun v1 hv1 => ?_)
    obtain ⟨cs', rfl, k⟩ := setElement_kids hU hS hd hcl hk h1 hv1
    rcases k with ⟨_, k⟩ | ⟨k, _⟩
    · have := setFromList_works (o := o) hU hS hW hd hcl xs (done ++ [a]) as' (some cs') true h2 (.ok rfl) (by intro cs hcs; cases hcs; exact k) hr.2.2 (by omega)
      simpa using this
    · omega

/-! ### One more level -/

theorem step_contents_works (hU : Universe E U) {N n : Nat} (hW : Working E U N (ops E n)) (hn : 2 ≤ n) {q : Bool} {c : ClassId} {p : Params} {v : Val}
    {a : AVal} (hg : GoodUse E U c p) (h : Rep E q c p v a) (hr : Ready E c a) (hd : a.depth < N + 1) :
    Works (contentsStep E (ops E n) v) ∧ ∀ b v', contentsStep E (ops E n) v = .ok (b, v') → b ≠ none := by
  have node : ∀ {c' o ch m}, Rep E q c p (.node c' o ch m) a → Works (contentsStep E (ops E n) (.node c' o ch m)) ∧
      ∀ b v', contentsStep E (ops E n) (.node c' o ch m) = .ok (b, v') → b ≠ none := by
    intro c' o ch m h
    obtain rfl := (rep_node.mp h).1
    have hw := nodeContents_works hU hW hn hg.mem h hr hd
    refine ⟨hw.bind (fun y _ => .ok rfl), ?_⟩
    intro b v' hb
    simp only [contentsStep, bind, Except.bind] at hb
    cases h3 : nodeContents E (ops E n) c' o ch m with
    | error e => rw [h3] at hb; cases hb
    | ok y =>
      obtain ⟨o', ch', m'⟩ := y
      rw [h3] at hb
      cases hb
      obtain ⟨_, ⟨data, k1, _⟩, _⟩ := nodeContents_rep hU (sim_ops hU _) hg.mem h h3
      rw [k1]
      exact fun h => by cases h
  cases h with
  | leaf h1 h2 =>
    refine ⟨.ok rfl, ?_⟩
    intro b v' hb
    cases hb
    obtain ⟨d, k, _⟩ := h2.data
    rw [k]
    exact fun h => by cases h
  | seqRaw h1 h2 h3 h4 h5 => exact node (.seqRaw h1 h2 h3 h4 h5)
  | seq h1 h2 h3 h4 => exact node (.seq h1 h2 h3 h4)
  | listRaw h1 h2 h3 h4 h5 => exact node (.listRaw h1 h2 h3 h4 h5)
  | list h1 h2 h3 h4 => exact node (.list h1 h2 h3 h4)
  | @choice _ _ _ o alts k f w a h1 h2 h3 h4 h5 h6 =>
    obtain ⟨_, _, _, hal⟩ := hU.choice _ _ _ _ hg.mem h1
    obtain ⟨hgf, _, _⟩ := hal f (List.mem_of_getElem? h3)
    rw [ready_alt h1 h3] at hr
    rw [AVal.depth] at hd
    obtain ⟨k1, k2⟩ := hW.contents hgf h6 hr (by omega)
    refine ⟨k1.bind (fun y _ => .ok rfl), ?_⟩
    intro b v' hb
    simp only [contentsStep, bind, Except.bind] at hb
    cases h7 : (ops E n).contents w with
    | error e => rw [h7] at hb; cases hb
    | ok y =>
      obtain ⟨b', w'⟩ := y
      rw [h7] at hb
      cases hb
      exact k2 _ _ h7

theorem step_dump_works (hU : Universe E U) {N n : Nat} (hW : Working E U N (ops E n)) (hn : 2 ≤ n) {q : Bool} {c : ClassId} {p : Params} {v : Val}
    {a : AVal} {force : Bool} (hg : GoodUse E U c p) (h : Rep E q c p v a) (hr : Ready E c a) (hw : Whole E c a) (hd : a.depth < N + 1) :
    Works (dumpStep E (ops E n) v force) := by
  have node : ∀ {c' o ch m}, Rep E q c p (.node c' o ch m) a → Works (dumpStep E (ops E n) (.node c' o ch m) force) := by
    intro c' o ch m h
    obtain rfl := (rep_node.mp h).1
    exact nodeDump_works hU hW hn hg h hr hw hd
  cases h with
  | @leaf _ _ _ st proto bad s h1 h2 =>
    obtain ⟨rfl, hpl⟩ := hU.leaf _ _ _ hg.mem h1
    exact (leaf_dump_works (plainLeaf_good hpl) (goodParams hg.tags).valid h2 ((ready_prim h1).mp hr)).bind (fun y _ => .ok rfl)
  | seqRaw h1 h2 h3 h4 h5 => exact node (.seqRaw h1 h2 h3 h4 h5)
  | seq h1 h2 h3 h4 => exact node (.seq h1 h2 h3 h4)
  | listRaw h1 h2 h3 h4 h5 => exact node (.listRaw h1 h2 h3 h4 h5)
  | list h1 h2 h3 h4 => exact node (.list h1 h2 h3 h4)
  | @choice _ _ _ o alts k f w a h1 h2 h3 h4 h5 h6 =>
    obtain ⟨_, _, _, hal⟩ := hU.choice _ _ _ _ hg.mem h1
    obtain ⟨hgf, _, _⟩ := hal f (List.mem_of_getElem? h3)
    rw [ready_alt h1 h3] at hr
    rw [whole_alt h1 h3] at hw
    rw [AVal.depth] at hd
    unfold dumpStep choiceDump
    simp only [choiceParse]
    refine Works.bind (x := (ops E n).dump w _) (hW.dump _ hgf h6 hr hw (by omega)) ?_
    rintro ⟨b, w'⟩ _
    simp only [h4, choiceHeader]
    split
    · exact .ok rfl
    · exact .ok rfl

theorem step_native_works (hU : Universe E U) {N n : Nat} (hW : Working E U N (ops E n)) (hn : 2 ≤ n) {q : Bool} {c : ClassId} {p : Params} {v : Val}
    {a : AVal} (hg : GoodUse E U c p) (h : Rep E q c p v a) (hr : Ready E c a) (hd : a.depth < N + 1) :
    Works (nativeStep E (ops E n) v) := by
  have node : ∀ {c' o ch m}, Rep E q c p (.node c' o ch m) a → Works (nativeStep E (ops E n) (.node c' o ch m)) := by
    intro c' o ch m h
    obtain rfl := (rep_node.mp h).1
    exact nodeNative_works hU hW hn hg h hr hd
  cases h with
  | @leaf _ _ _ st proto bad s h1 h2 =>
    obtain ⟨st', k, _⟩ := h2.native
    unfold nativeStep
    simp only [k]
    exact .ok rfl
  | seqRaw h1 h2 h3 h4 h5 => exact node (.seqRaw h1 h2 h3 h4 h5)
  | seq h1 h2 h3 h4 => exact node (.seq h1 h2 h3 h4)
  | listRaw h1 h2 h3 h4 h5 => exact node (.listRaw h1 h2 h3 h4 h5)
  | list h1 h2 h3 h4 => exact node (.list h1 h2 h3 h4)
  | @choice _ _ _ o alts k f w a h1 h2 h3 h4 h5 h6 =>
    obtain ⟨_, _, _, hal⟩ := hU.choice _ _ _ _ hg.mem h1
    obtain ⟨hgf, _, _⟩ := hal f (List.mem_of_getElem? h3)
    rw [ready_alt h1 h3] at hr
    rw [AVal.depth] at hd
    exact Works.bind (x := (ops E n).native w) (hW.native hgf h6 hr (by omega)) (fun y _ => .ok rfl)

theorem step_copy_works (hU : Universe E U) {N n : Nat} (hW : Working E U N (ops E n)) (hn : 2 ≤ n) {q : Bool} {c : ClassId} {p : Params} {v : Val}
    {a : AVal} (cl tg : Nat) (im : Bool) (es : List (Nat × Nat)) (hg : GoodUse E U c p) (h : Rep E q c p v a) (hr : Ready E c a) (hd : a.depth < N + 1) :
    Works (copyStep E (ops E n) v cl tg im es) := by
  have node : ∀ {c' o ch m}, Rep E q c p (.node c' o ch m) a → Works (copyStep E (ops E n) (.node c' o ch m) cl tg im es) := by
    intro c' o ch m h
    obtain rfl := (rep_node.mp h).1
    exact (nodeContents_works hU hW hn hg.mem h hr hd).bind (fun y _ => .ok rfl)
  cases h with
  | @leaf _ _ _ st proto bad s h1 h2 =>
    obtain ⟨rfl, hpl⟩ := hU.leaf _ _ _ hg.mem h1
    obtain ⟨st', k⟩ := leaf_copy_ok (cl := cl) (tg := tg) (im := im) (es := es) (plainLeaf_good hpl) h2 ((ready_prim h1).mp hr)
    unfold copyStep
    simp only [k]
    exact .ok rfl
  | seqRaw h1 h2 h3 h4 h5 => exact node (.seqRaw h1 h2 h3 h4 h5)
  | seq h1 h2 h3 h4 => exact node (.seq h1 h2 h3 h4)
  | listRaw h1 h2 h3 h4 h5 => exact node (.listRaw h1 h2 h3 h4 h5)
  | list h1 h2 h3 h4 => exact node (.list h1 h2 h3 h4)
  | @choice _ _ _ o alts k f w a h1 h2 h3 h4 h5 h6 =>
    have hcs := (step_contents_works (q := q) hU hW hn hg (.choice h1 h2 h3 h4 h5 h6) hr hd).1
    obtain ⟨_, _, _, hal⟩ := hU.choice _ _ _ _ hg.mem h1
    obtain ⟨hgf, _, _⟩ := hal f (List.mem_of_getElem? h3)
    rw [ready_alt h1 h3] at hr
    rw [AVal.depth] at hd
    unfold copyStep
    refine hcs.bind ?_
    rintro ⟨b, _⟩ _
    exact Works.bind (x := copyVal (ops E n) w) (copyVal_works hW hgf h6 hr (by omega)) (fun y _ => .ok rfl)

theorem step_construct_works (hU : Universe E U) {N n : Nat} (hW : Working E U N (ops E n)) (hn : 2 ≤ n) {q : Bool} {c : ClassId} {p : Params} {x : PyVal}
    {a : AVal} (hg : GoodUse E U c p) (h : Conv E (Inst E U) q c p x a) (hx : ∀ w, x ≠ .asn1 w) (hr : Ready E c a) (hd : a.depth < N + 1) :
    Works (constructStep E (ops E n) c p x) := by
  cases h with
  | @prim _ _ _ x s proto bad h1 h2 h3 =>
    have hgv : givenValue p.default (.scalar x) = .scalar x := by
      cases x <;> first | rfl | exact absurd rfl h2
    obtain ⟨st, hst⟩ := set_init_ok (tp := p.tags) h3
    refine .ok (y := .leaf c st) ?_
    simp only [constructStep, h1, hgv, bind, Except.bind, hst]
  | @null _ _ _ o bad h1 h2 =>
    refine .ok (y := .leaf c ((LeafSt.null o).init p.tags)) ?_
    simp only [constructStep, h1, h2, givenValue]
  | @seq _ _ _ d as proto bad fields h1 h2 h3 h4 =>
    obtain ⟨_, _, _, hpn, _, _, hfs⟩ := hU.seq _ _ _ _ _ _ hg.mem h1
    have hcn : (initTagging proto p.tags).contents = none := by
      obtain ⟨_, _, _, _, _, _, f7⟩ := initTagging_fields proto p hg.tags.keep
      obtain ⟨_, _, _, rfl⟩ := hpn
      exact f7
    rw [ready_seq h1] at hr
    rw [AVal.depth] at hd
    obtain ⟨n, rfl⟩ : ∃ k, n = k + 1 := ⟨n - 1, by omega⟩
    obtain ⟨as0, has0⟩ := fresh_exists fields hfs
    have hfresh : Works (ensureChildren E (ops E (n + 1)) c (initTagging proto p.tags) none) := by
      obtain ⟨f, hf, _⟩ := h3
      have hne : fields.isEmpty = false := by
        cases fields with
        | nil => cases hf
        | cons _ _ => rfl
      simp only [ensureChildren, parseChildren, h1, hcn, parseSeq, hne, Bool.false_eq_true, if_false]
      exact freshChildren_works hU hW (by omega) _ _ _ _ hfs
    have hsd := setFromDict_works hU hW hg.mem h1 fields [] [] as0 as none false rfl rfl h2 has0 hfresh
      (fresh_kids hU (sim_ops hU _) hg.mem h1 hcn has0) hr (by omega)
    simp only [constructStep, h1, givenValue, seqInit]
    refine hsd.bind (fun w _ => ?_)
    have hall : (d.all fun e => fields.any fun f => f.name == e.1) = true := by
      rw [List.all_eq_true]
      intro e he
      obtain ⟨f, hf, hfe⟩ := h4 e he
      exact List.any_eq_true.mpr ⟨f, hf, by simp [hfe]⟩
    rw [hall]
    exact .ok rfl
  | @list _ _ _ xs as proto bad ch h1 h2 =>
    have hlist := hr
    rw [ready_list h1] at hr
    obtain ⟨_, _, hpn, d, hd', hUd⟩ := hU.seqOf _ _ _ _ _ hg.mem h1
    cases hd'
    have hcn : (initTagging proto p.tags).contents = none := by
      obtain ⟨_, _, _, _, _, _, f7⟩ := initTagging_fields proto p hg.tags.keep
      obtain ⟨_, _, _, rfl⟩ := hpn
      exact f7
    have ht := nodeTag_init (plainNode_blank hpn) hg.tags
    have hens : ensureChildren E (ops E n) c (initTagging proto p.tags) none = .ok [] := by
      simp only [ensureChildren, parseChildren, h1, hcn, parseSeqOf]
    have hk0 : ∀ cs, ensureChildren E (ops E n) c (initTagging proto p.tags) none = .ok cs → ListRep E ch cs [] := by
      intro cs hcs
      rw [hens] at hcs
      cases hcs
      exact .nil
    have hdep := hd
    rw [AVal.depth] at hd
    have hsl := setFromList_works hU (sim_ops hU _) hW hUd h1 xs [] as none false h2 (.ok hens) hk0 hr (by omega)
    simp only [constructStep, h1, givenValue]
    refine hsl.bind (fun w hw => ?_)
    obtain ⟨ch', m', rfl, k2, k3⟩ := setFromList_rep hU (sim_ops hU _) hUd h1 xs [] as none false w h2 hk0 hw
    rcases k3 with ⟨rfl, rfl⟩ | ⟨rfl, cs, rfl⟩
    · have hcs : contentsStep E (ops E n) (.node c (initTagging proto p.tags) none false) = .ok (none, .node c (initTagging proto p.tags) none false) := by
        simp only [contentsStep, nodeContents, bind, Except.bind, hcn]
      rw [hcs]
      refine Works.bind (x := setContents E (ops E n) c (initTagging proto p.tags) none false) ?_ (fun y _ => .ok rfl)
      exact setContents_works hU hW hn hg.mem ⟨_, hens⟩ (fun cs hcs => .list h1 (k2 cs hcs)) hlist hdep
    · have hrep : Rep E q c p (.node c (initTagging proto p.tags) (some cs) true) (.list as) :=
        .list h1 ht (k2 cs rfl) (fun h => by simp [Val.isMutated] at h)
      obtain ⟨k4, k5⟩ := step_contents_works hU hW hn hg hrep hlist hdep
      refine k4.bind ?_
      rintro ⟨b, w⟩ hb
      cases b with
      | none => exact absurd rfl (k5 _ _ hb)
      | some b => exact .ok rfl
  | @alt _ _ _ nm x k a alts f h1 h2 h3 h4 =>
    obtain ⟨_, _, _, hal⟩ := hU.choice _ _ _ _ hg.mem h1
    obtain ⟨hgf, _, _⟩ := hal f (List.mem_of_getElem? h3)
    obtain ⟨he, him⟩ := hg.choice _ _ _ h1
    have hdef := default_leaf hg (by rw [h1]; intro _ _ h; cases h)
    rw [ready_alt h1 h3] at hr
    rw [AVal.depth] at hd
    simp only [constructStep, h1, hdef, him, h2, h3]
    by_cases hi : ∃ w, x = .asn1 w
    · obtain ⟨w, rfl⟩ := hi
      cases h4 with
      | inst g1 g2 =>
        simp only [rep_classOf g1.2, if_true]
        exact Works.bind (x := fixTagging E (ops E n) w f.params) (fixTags_works hW g1.1 hgf g1.2 hr (by omega)) (fun y _ => .ok rfl)
    · have hne : ∀ w, x ≠ .asn1 w := fun w hw => hi ⟨w, hw⟩
      have hcon := hW.construct hgf h4 hne hr (by omega)
      cases x with
      | asn1 v => exact absurd rfl (hne v)
      | _ => exact hcon.bind (fun y _ => .ok rfl)
  | @inst _ _ _ _ w _ h1 h2 => exact absurd rfl (hx w)

theorem working_step (hU : Universe E U) {N n : Nat} (hW : Working E U N (ops E n)) (hn : 2 ≤ n) : Working E U (N + 1) (ops E (n + 1)) where
  dump := fun _ hg h hr hw hd => step_dump_works hU hW hn hg h hr hw hd
  contents := fun hg h hr hd => step_contents_works hU hW hn hg h hr hd
  native := fun hg h hr hd => step_native_works hU hW hn hg h hr hd
  copyTo := fun cl tg im es hg h hr hd => step_copy_works hU hW hn cl tg im es hg h hr hd
  construct := fun hg h hx hr hd => step_construct_works hU hW hn hg h hx hr hd

/-- With enough levels of recursion the operations work on every value. -/
theorem working_ops (hU : Universe E U) : ∀ {N n : Nat}, N + 2 ≤ n → Working E U N (ops E n)
  | 0, _, _ => working_zero E U _
  | N + 1, 0, h => by omega
  | N + 1, n + 1, h => working_step hU (working_ops hU (by omega)) (by omega)

end Asn1
