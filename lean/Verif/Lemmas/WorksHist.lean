import Verif.Lemmas.WorksMake
import Verif.Spec.Copies

/-! # Histories succeed -/

namespace Asn1
open Spec Props

variable {E : Env} {U : ClassId → Prop}

theorem works_map {α β : Type} {f : α → β} {x : Py α} (h : Works x) : Works (x.map f) := by
  rcases h with ⟨y, rfl⟩ | rfl
  · exact .ok rfl
  · exact .inr rfl

theorem fieldsRep_build (hU : Universe E U) {n : Nat} (hn : 2 ≤ n) : ∀ {fs : List Field} {cs : List Child} {as : List AVal} {k : Nat} {ch : Child},
    (∀ f ∈ fs, GoodUse E U f.spec f.params) → FieldsRep E fs cs as → cs[k]? = some ch → ∃ x, buildChild (ops E n) (paramsAt fs k) ch = .ok x
  | [], _, _, _, _, _, h, hk => by cases h; simp at hk
  | f :: fs, cs, as, 0, ch, hg, h, hk => by
    obtain ⟨ch1, cs1, a, as1, rfl, rfl, h'⟩ := fieldsRep_uncons h
    simp only [List.getElem?_cons_zero, Option.some.injEq] at hk
    subst hk
    obtain ⟨v, k1, _⟩ := buildField_ok hU hn (hg f (by simp)) h
    exact ⟨v, k1⟩
  | f :: fs, cs, as, k + 1, ch, hg, h, hk => by
    obtain ⟨ch1, cs1, a, as1, rfl, rfl, h'⟩ := fieldsRep_uncons h
    obtain ⟨x, hx⟩ := fieldsRep_build hU hn (fun g hm => hg g (by simp [hm])) h' (by simpa using hk)
    exact ⟨x, by simpa [paramsAt] using hx⟩

theorem listRep_build (hU : Universe E U) {n : Nat} (hn : 2 ≤ n) {d : ClassId} (hd : U d) : ∀ {cs : List Child} {as : List AVal} {k : Nat} {ch : Child},
    ListRep E d cs as → cs[k]? = some ch → ∃ x, buildChild (ops E n) {} ch = .ok x
  | [], _, _, _, _, hk => by simp at hk
  | c :: cs, as, 0, ch, h, hk => by
    simp only [List.getElem?_cons_zero, Option.some.injEq] at hk
    subst hk
    obtain ⟨a, as', rfl, _⟩ := listRep_uncons h
    obtain ⟨v, k1, _⟩ := buildElement_ok hU hn hd h
    exact ⟨v, k1⟩
  | c :: cs, as, k + 1, ch, h, hk => by
    obtain ⟨a, as', rfl, h'⟩ := listRep_uncons h
    exact listRep_build hU hn hd h' (by simpa using hk)

theorem getItem_ok (hU : Universe E U) {n : Nat} (hn : 2 ≤ n) {q : Bool} {c : ClassId} {p : Params} {v : Val} {a : AVal} {as : List AVal} {idx : Nat}
    (hc : U c) (h : Rep E q c p v a) (ha : a = .seq as ∨ a = .list as) (hi : idx < as.length) : ∃ y, getItem E (ops E n) v idx = .ok y := by
  obtain ⟨n, rfl⟩ : ∃ k, n = k + 1 := ⟨n - 1, by omega⟩
  rcases ha with rfl | rfl
  · obtain ⟨o, ch, m, proto, bad, fields, rfl, hcl, ht⟩ := rep_seq_inv h
    obtain ⟨cs, hcs⟩ := ensure_ok (n := n) hU hc h
    have hf := ensure_fields hU (sim_ops hU _) hc h hcl cs hcs
    have hl := fieldsRep_length hf
    obtain ⟨ch1, hch⟩ : ∃ ch1, cs[idx]? = some ch1 := ⟨cs[idx]'(by omega), List.getElem?_eq_getElem (by omega)⟩
    obtain ⟨x, hx⟩ := fieldsRep_build hU hn (hU.seq _ _ _ _ _ _ hc hcl).2.2.2.2.2.2 hf hch
    refine ⟨(x, .node c o (some (cs.set idx (.val x))) m), ?_⟩
    simp only [getItem, bind, Except.bind, hcs, hch, hcl, hx]
  · obtain ⟨o, ch, m, proto, bad, d, rfl, hcl, ht⟩ := rep_list_inv h
    obtain ⟨_, _, _, d', hd', hUd⟩ := hU.seqOf _ _ _ _ _ hc hcl
    cases hd'
    obtain ⟨cs, hcs⟩ := ensure_ok (n := n) hU hc h
    have hf := ensure_elements hU (sim_ops hU _) hc h hcl cs hcs
    have hl := listRep_length hf
    obtain ⟨ch1, hch⟩ : ∃ ch1, cs[idx]? = some ch1 := ⟨cs[idx]'(by omega), List.getElem?_eq_getElem (by omega)⟩
    obtain ⟨x, hx⟩ := listRep_build hU hn hUd hf hch
    refine ⟨(x, .node c o (some (cs.set idx (.val x))) m), ?_⟩
    simp only [getItem, bind, Except.bind, hcs, hch, hcl, hx]

theorem lenOf_ok (hU : Universe E U) {n : Nat} {q : Bool} {c : ClassId} {p : Params} {v : Val} {a : AVal} {as : List AVal}
    (hc : U c) (h : Rep E q c p v a) (ha : a = .seq as ∨ a = .list as) : ∃ y, lenOf E (ops E (n + 1)) v = .ok y := by
  have : ∃ o ch m, v = .node c o ch m := by
    rcases ha with rfl | rfl
    · obtain ⟨o, ch, m, _, _, _, rfl, _⟩ := rep_seq_inv h
      exact ⟨_, _, _, rfl⟩
    · obtain ⟨o, ch, m, _, _, _, rfl, _⟩ := rep_list_inv h
      exact ⟨_, _, _, rfl⟩
  obtain ⟨o, ch, m, rfl⟩ := this
  obtain ⟨cs, hcs⟩ := ensure_ok (n := n) hU hc h
  exact ⟨_, by simp only [lenOf, bind, Except.bind, hcs]; rfl⟩

theorem readyFields_set : ∀ {fs : List Field} {as : List AVal} {idx : Nat} {f : Field} {b : AVal}, fs[idx]? = some f → idx < as.length →
    ReadyFields E fs (as.set idx b) → Ready E f.spec b
  | [], _, _, _, _, h, _, _ => by simp at h
  | g :: fs, [], _, _, _, _, h, _ => by simp at h
  | g :: fs, a :: as, 0, f, b, h, _, hr => by
    simp only [List.getElem?_cons_zero, Option.some.injEq] at h
    subst h
    rw [List.set_cons_zero, ReadyFields] at hr
    exact hr.1
  | g :: fs, a :: as, k + 1, f, b, h, hl, hr => by
    rw [List.set_cons_succ, ReadyFields] at hr
    exact readyFields_set (by simpa using h) (by simpa using hl) hr.2.2

theorem readyList_mem {ch : ClassId} : ∀ {as : List AVal} {b : AVal}, b ∈ as → ReadyList E ch as → Ready E ch b
  | [], _, h, _ => by simp at h
  | a :: as, b, h, hr => by
    rw [ReadyList] at hr
    rcases List.mem_cons.mp h with rfl | h
    · exact hr.1
    · exact readyList_mem h hr.2.2

theorem mem_set {as : List AVal} {idx : Nat} {b : AVal} (h : idx < as.length) : b ∈ as.set idx b :=
  List.mem_of_getElem? (i := idx) (by simp [h])

/-- Item access that is possible on the value works on the instance. -/
theorem runEdit_works (hU : Universe E U) {N n : Nat} (hW : Working E U N (ops E n)) (hn : 2 ≤ n) : ∀ (e : Edit) {q : Bool} {c : ClassId} {p : Params}
    {v : Val} {a a' : AVal}, U c → Rep E q c p v a → Edited E (Inst E U) c a e a' → Ready E c a' → a'.depth < N + 1 → Works (runEdit E (ops E n) e v)
  | .setField idx x, q, c, p, v, a, a', hc, h, he, hr, hd => by
    cases he with
    | @setField _ as _ _ b f _ _ _ h1 h2 h3 =>
      obtain ⟨o, ch, m, proto, bad, fields, rfl, hcl, ht⟩ := rep_seq_inv h
      rw [hcl] at h1
      cases h1
      obtain ⟨n, rfl⟩ : ∃ k, n = k + 1 := ⟨n - 1, by omega⟩
      obtain ⟨cs, hcs⟩ := ensure_ok (n := n) hU hc h
      have hf := ensure_fields hU (sim_ops hU (n + 1)) hc h hcl
      have hlt : idx < as.length := by
        rw [(fieldsRep_length (hf cs hcs)).2]
        exact (List.getElem?_eq_some_iff.mp h2).1
      rw [ready_seq hcl] at hr
      rw [AVal.depth] at hd
      have := depths_mem (mem_set (b := b) hlt)
      exact setField_works hU hW hc hcl h2 (.ok hcs) hf h3 (readyFields_set h2 hlt hr) (by omega)
  | .delField idx, q, c, p, v, a, a', hc, h, he, hr, hd => by
    cases he with
    | @delOptional _ as _ f _ _ _ h1 h2 h3 =>
      obtain ⟨o, ch, m, proto, bad, fields, rfl, hcl, ht⟩ := rep_seq_inv h
      rw [hcl] at h1
      cases h1
      obtain ⟨n, rfl⟩ : ∃ k, n = k + 1 := ⟨n - 1, by omega⟩
      obtain ⟨cs, hcs⟩ := ensure_ok (n := n) hU hc h
      have hf := ensure_fields hU (sim_ops hU (n + 1)) hc h hcl
      have hlt : idx < cs.length := by
        rw [(fieldsRep_length (hf cs hcs)).1]
        exact (List.getElem?_eq_some_iff.mp h2).1
      simp only [runEdit, Asn1.delField, hcl, bind, Except.bind, hcs, h2, h3, if_true, hlt]
      exact .ok rfl
    | @delDefault _ as _ b f _ _ _ h1 h2 h3 =>
      obtain ⟨o, ch, m, proto, bad, fields, rfl, hcl, ht⟩ := rep_seq_inv h
      rw [hcl] at h1
      cases h1
      obtain ⟨n, rfl⟩ : ∃ k, n = k + 1 := ⟨n - 1, by omega⟩
      obtain ⟨cs, hcs⟩ := ensure_ok (n := n) hU hc h
      have hf := ensure_fields hU (sim_ops hU (n + 1)) hc h hcl
      have hgf := (hU.seq _ _ _ _ _ _ hc hcl).2.2.2.2.2.2 f (List.mem_of_getElem? h2)
      have hdf : f.params.default.isSome = true := by
        obtain ⟨_, _, d, _, _, h, _⟩ := h3
        rw [h]; rfl
      have hop : f.params.optional = false := by
        obtain ⟨d, hd⟩ := Option.isSome_iff_exists.mp hdf
        exact (hgf.default d hd).1
      rw [AVal.depth] at hd
      obtain ⟨r1, _, r3⟩ := ready_default h3
      simp only [runEdit, Asn1.delField, hcl, bind, Except.bind, hcs, h2, hop, hdf, Bool.false_eq_true, if_false, if_true]
      exact setField_works hU hW hc hcl h2 (.ok hcs) hf (.noneDefault h3) r1 (by omega)
  | .setElement idx x, q, c, p, v, a, a', hc, h, he, hr, hd => by
    obtain ⟨n, rfl⟩ : ∃ k, n = k + 1 := ⟨n - 1, by omega⟩
    cases he with
    | @setElement _ _ as _ _ b _ _ h1 h2 h3 h4 =>
      obtain ⟨o, ch, m, proto, bad, d, rfl, hcl, ht⟩ := rep_list_inv h
      rw [hcl] at h1
      cases h1
      obtain ⟨_, _, _, d', hd', hUd⟩ := hU.seqOf _ _ _ _ _ hc hcl
      cases hd'
      obtain ⟨cs, hcs⟩ := ensure_ok (n := n) hU hc h
      rw [ready_list hcl] at hr
      rw [AVal.depth] at hd
      have := depths_mem (mem_set (b := b) h4)
      exact setElement_works hU hW hUd hcl (.ok hcs) (ensure_elements hU (sim_ops hU (n + 1)) hc h hcl) h2 h3 (readyList_mem (mem_set h4) hr) (by omega) (by omega)
    | @setEnd _ _ as _ b _ _ h1 h2 h3 =>
      obtain ⟨o, ch, m, proto, bad, d, rfl, hcl, ht⟩ := rep_list_inv h
      rw [hcl] at h1
      cases h1
      obtain ⟨_, _, _, d', hd', hUd⟩ := hU.seqOf _ _ _ _ _ hc hcl
      cases hd'
      obtain ⟨cs, hcs⟩ := ensure_ok (n := n) hU hc h
      rw [ready_list hcl] at hr
      rw [AVal.depth] at hd
      have hm : b ∈ as ++ [b] := by simp
      have := depths_mem hm
      exact setElement_works hU hW hUd hcl (.ok hcs) (ensure_elements hU (sim_ops hU (n + 1)) hc h hcl) h2 h3 (readyList_mem hm hr) (by omega) (by omega)
  | .append x, q, c, p, v, a, a', hc, h, he, hr, hd => by
    obtain ⟨n, rfl⟩ : ∃ k, n = k + 1 := ⟨n - 1, by omega⟩
    cases he with
    | @append _ _ as _ b _ _ h1 h2 h3 =>
      obtain ⟨o, ch, m, proto, bad, d, rfl, hcl, ht⟩ := rep_list_inv h
      rw [hcl] at h1
      cases h1
      obtain ⟨_, _, _, d', hd', hUd⟩ := hU.seqOf _ _ _ _ _ hc hcl
      cases hd'
      obtain ⟨cs, hcs⟩ := ensure_ok (n := n) hU hc h
      rw [ready_list hcl] at hr
      rw [AVal.depth] at hd
      have hm : b ∈ as ++ [b] := by simp
      have := depths_mem hm
      exact appendItem_works hU hW hUd hcl (.ok hcs) h2 h3 (readyList_mem hm hr) (by omega)
  | .delElement idx, q, c, p, v, a, a', hc, h, he, hr, hd => by
    obtain ⟨n, rfl⟩ : ∃ k, n = k + 1 := ⟨n - 1, by omega⟩
    cases he with
    | @delElement _ _ as _ _ _ h1 h2 =>
      obtain ⟨o, ch, m, proto, bad, d, rfl, hcl, ht⟩ := rep_list_inv h
      obtain ⟨cs, hcs⟩ := ensure_ok (n := n) hU hc h
      have hl := listRep_length (ensure_elements hU (sim_ops hU (n + 1)) hc h hcl cs hcs)
      have hlt : idx < cs.length := by omega
      simp only [runEdit, Asn1.delElement, hcl, bind, Except.bind, hcs, hlt, if_true]
      exact .ok rfl
  | .get idx, q, c, p, v, a, a', hc, h, he, hr, hd => by
    cases he with
    | get h1 h2 =>
      obtain ⟨y, hy⟩ := getItem_ok hU hn hc h h1 h2
      exact works_map (.ok hy)
  | .len, q, c, p, v, a, a', hc, h, he, hr, hd => by
    obtain ⟨n, rfl⟩ : ∃ k, n = k + 1 := ⟨n - 1, by omega⟩
    cases he with
    | len h1 =>
      obtain ⟨y, hy⟩ := lenOf_ok hU (n := n) hc h h1
      exact works_map (.ok hy)
  | .at k e, q, c, p, v, a, a', hc, h, he, hr, hd => by
    cases he with
    | @atField _ as _ _ b b' f _ _ fields h3 h4 h5 h6 =>
      have hlt : k < as.length := (List.getElem?_eq_some_iff.mp h5).1
      obtain ⟨⟨x, w⟩, hy⟩ := getItem_ok hU hn hc h (.inl rfl) hlt
      obtain ⟨o, cs, m, rfl, k1, k2, k3, k4⟩ := getItem_rep hU (sim_ops hU _) hc h hy
      rcases k4 with ⟨proto', bad', fields', as', f', b0, g1, g2, g3, g4, g5⟩ | ⟨proto', bad', d, as', b0, g1, _⟩
      · cases g2
        rw [g1] at h3
        cases h3
        rw [g3] at h4
        cases h4
        rw [g4] at h5
        cases h5
        have hgf := (hU.seq _ _ _ _ _ _ hc g1).2.2.2.2.2.2 f (List.mem_of_getElem? g3)
        have hx : Rep E false f.spec f.params x b := by
          rcases g5 with g5 | ⟨_, rfl, _⟩
          · exact g5
          · exfalso
            cases h6 with
            | get h _ => rcases h with h | h <;> cases h
            | len h => rcases h with h | h <;> cases h
        rw [ready_seq g1] at hr
        rw [AVal.depth] at hd
        have := depths_mem (mem_set (b := b') hlt)
        simp only [runEdit, hy]
        exact Works.bind (x := runEdit E (ops E n) e x) (runEdit_works hU hW hn e hgf.mem hx h6 (readyFields_set g3 hlt hr) (by omega)) (fun _ _ => .ok rfl)
      · rw [g1] at h3; cases h3
    | @atElement _ ch as _ _ b b' _ _ h3 h5 h6 =>
      have hlt : k < as.length := (List.getElem?_eq_some_iff.mp h5).1
      obtain ⟨⟨x, w⟩, hy⟩ := getItem_ok hU hn hc h (.inr rfl) hlt
      obtain ⟨o, cs, m, rfl, k1, k2, k3, k4⟩ := getItem_rep hU (sim_ops hU _) hc h hy
      rcases k4 with ⟨proto', bad', fields', as', f', b0, g1, _⟩ | ⟨proto', bad', d, as', b0, g1, g2, g4, g5⟩
      · rw [g1] at h3; cases h3
      · cases g2
        rw [g1] at h3
        cases h3
        rw [g4] at h5
        cases h5
        obtain ⟨_, _, _, d', hd', hUd⟩ := hU.seqOf _ _ _ _ _ hc g1
        cases hd'
        rw [ready_list g1] at hr
        rw [AVal.depth] at hd
        have := depths_mem (mem_set (b := b') hlt)
        simp only [runEdit, hy]
        exact Works.bind (x := runEdit E (ops E n) e x) (runEdit_works hU hW hn e hUd g5 h6 (readyList_mem (mem_set hlt) hr) (by omega)) (fun _ _ => .ok rfl)

theorem runOp_works (hU : Universe E U) {N n : Nat} (hW : Working E U N (ops E n)) (hn : 2 ≤ n) {o : Op} {q : Bool} {c : ClassId} {p : Params}
    {v : Val} {a a' : AVal} (hg : GoodUse E U c p) (h : Rep E q c p v a) (ho : After E (Inst E U) c a o a') (hr : Ready E c a')
    (hw : (∃ force, o = .dump force) → Whole E c a') (hd : a'.depth < N) : Works (runOp E (ops E n) o v) := by
  cases ho with
  | edit h1 => exact runEdit_works hU hW hn _ hg.mem h h1 hr (by omega)
  | dump => exact works_map (hW.dump _ hg h hr (hw ⟨_, rfl⟩) hd)
  | native => exact works_map (hW.native hg h hr hd)
  | contents => exact works_map (hW.contents hg h hr hd).1
  | copy hw => exact copyVal_works hW hg h hr hd

/-- A history that is possible on the value works on the instance, and the instance stands for the value after it. -/
theorem history_works (hU : Universe E U) {V : Bool → ClassId → Params → Val → AVal → Prop}
    (hV : ∀ {q c p v a}, V q c p v a → Inst E U q c p v a) {c : ClassId} {a a' : AVal} {os : List Op} (hh : History E V c a os a') :
    ∃ n0, ∀ n, n0 ≤ n → ∀ {q : Bool} {p : Params} {v : Val}, GoodUse E U c p → Rep E q c p v a → Works (runOps E (ops E n) os v) := by
  induction hh with
  | nil => exact ⟨0, fun n _ _ _ _ _ _ => .ok rfl⟩
  | @cons a b a' o os h1 h2 h3 h4 ih =>
    obtain ⟨n0, ih⟩ := ih
    refine ⟨max n0 (b.depth + 3), fun n hn q p v hg h => ?_⟩
    have hA := after_mono hV h1
    exact Works.bind (x := runOp E (ops E n) o v) (runOp_works hU (working_ops hU (N := b.depth + 1) (by omega)) (by omega) hg h hA h2 h3 (by omega))
      (fun v' hv => ih n (by omega) hg (runOp_rep hU (sim_ops hU n) hg h hA hv))

theorem history_rep (hU : Universe E U) {V : Bool → ClassId → Params → Val → AVal → Prop}
    (hV : ∀ {q c p v a}, V q c p v a → Inst E U q c p v a) {n : Nat} {c : ClassId} {a a' : AVal} {os : List Op} (hh : History E V c a os a') :
    ∀ {q : Bool} {p : Params} {v v' : Val}, GoodUse E U c p → Rep E q c p v a → runOps E (ops E n) os v = .ok v' → Rep E q c p v' a' := by
  induction hh with
  | nil => intro q p v v' _ h hv; cases hv; exact h
  | @cons a b a' o os h1 h2 h3 h4 ih =>
    intro q p v v' hg h hv
    simp only [runOps, bind, Except.bind] at hv
    cases hx : runOp E (ops E n) o v with
    | error e => rw [hx] at hv; cases hv
    | ok w =>
      rw [hx] at hv
      exact ih hg (runOp_rep hU (sim_ops hU n) hg h (after_mono hV h1) hx) hv

theorem history_made {V : Bool → ClassId → Params → Val → AVal → Prop} {n : Nat} {c : ClassId} {a a' : AVal} {os : List Op}
    (hh : History E V c a os a') : ∀ {q : Bool} {p : Params} {v v' : Val}, MadeFrom E U V q c p v a → runOps E (ops E n) os v = .ok v' →
    MadeFrom E U V q c p v' a' := by
  induction hh with
  | nil => intro q p v v' h hv; cases hv; exact h
  | @cons a b a' o os h1 h2 h3 h4 ih =>
    intro q p v v' h hv
    simp only [runOps, bind, Except.bind] at hv
    cases hx : runOp E (ops E n) o v with
    | error e => rw [hx] at hv; cases hv
    | ok w =>
      rw [hx] at hv
      exact ih (.op h h1 hx) hv

theorem history_mono {V W : Bool → ClassId → Params → Val → AVal → Prop} (hVW : ∀ {q c p v a}, V q c p v a → W q c p v a) {c : ClassId} {a a' : AVal}
    {os : List Op} (h : History E V c a os a') : History E W c a os a' := by
  induction h with
  | nil => exact .nil
  | cons h1 h2 h3 _ ih => exact .cons (after_mono hVW h1) h2 h3 ih

theorem copyTo_detached : ∀ {n : Nat} {v w : Val} {cl tg : Nat} {im : Bool} {es : List (Nat × Nat)}, (ops E n).copyTo v cl tg im es = .ok w → Detached w
  | 0, v, w, cl, tg, im, es, h => by cases h
  | n + 1, v, w, cl, tg, im, es, h => by
    have h : copyStep E (ops E n) v cl tg im es = .ok w := h
    have some' : ∀ {p y : Val}, copyVal (ops E n) p = .ok y → ∀ u, some y = some u → Detached u := by
      intro p y hy u hu
      cases hu
      exact copyTo_detached hy
    have none' : ∀ u : Val, none = some u → Detached u := fun u hu => by cases hu
    cases v with
    | void => cases h; exact .void
    | leaf c s =>
      simp only [copyStep, bind, Except.bind] at h
      split at h
      · cases h
      · cases h; exact .leaf
    | node c o ch m =>
      simp only [copyStep, bind, Except.bind] at h
      split at h
      · cases h
      · cases h; exact .node
    | choice c o alt parsed =>
      simp only [copyStep, bind, Except.bind] at h
      split at h
      · cases h
      · cases parsed with
        | none => cases h; exact .choice none'
        | some p =>
          cases hp : copyVal (ops E n) p with
          | error e => simp only [hp] at h; cases h
          | ok y => simp only [hp] at h; cases h; exact .choice (some' hp)
    | any c o parsed s =>
      simp only [copyStep, bind, Except.bind] at h
      cases parsed with
      | none => cases h; exact .any none'
      | some p =>
        cases hp : copyVal (ops E n) p with
        | error e => simp only [hp] at h; cases h
        | ok y => simp only [hp] at h; cases h; exact .any (some' hp)
    | parsable c o parsed s =>
      simp only [copyStep, bind, Except.bind] at h
      cases parsed with
      | none =>
        simp only at h
        split at h
        · split at h
          · cases h
          · cases h; exact .parsable none'
        · cases h; exact .parsable none'
      | some p =>
        cases hp : copyVal (ops E n) p with
        | error e => simp only [hp] at h; cases h
        | ok y =>
          simp only [hp] at h
          split at h
          · split at h
            · cases h
            · cases h; exact .parsable (some' hp)
          · cases h; exact .parsable (some' hp)

theorem copy_detached {n : Nat} {v w : Val} (h : copyVal (ops E n) v = .ok w) : Detached w := copyTo_detached h

theorem madeIn_inst (hU : Universe E U) {k : Nat} {q : Bool} {c : ClassId} {p : Params} {v : Val} {a : AVal} (h : MadeIn E U k q c p v a) :
    Inst E U q c p v a := made_rep hU ⟨k, h⟩

end Asn1
