import Verif.Lemmas.MadeField

/-! # Making a SEQUENCE or SET from a dict -/

namespace Asn1
open Spec Props

/-- The field at this position is not the one another field decides about. -/
def Free (oid : Option OidPair) (i : Nat) : Prop := ∀ p, oid = some p → p.value ≠ i

/-- `v` stands in the field `f`, has the value `n` and is written as `b`; then it is `w`. -/
structure Seat (E : Env) (f : Field) (free : Prop) (v : Val) (b : Bytes) (n : PyVal) (w : Val) : Prop where
  enc : Ev (fun j => fieldEncoding (ops E j) false f (.val v) = .ok (b, .val w))
  calm : w.isMutated = false
  void : v = .void ∨ w = .void → (f.params.default.isSome || f.params.optional) = true
  leaf : free → (∃ proto bad, E.cls f.spec = .leaf proto bad) → Ev (fun j => (ops E j).native v = .ok (n, v)) ∧
    ∃ w', Ev (fun j => (ops E j).native w = .ok (n, w'))
  sub : free → Untagged f.params → f.params.default = none → TellsSub E f.spec v n

/-- What stands in the field at first. -/
def FreshVal (E : Env) (f : Field) (v : Val) : Prop :=
  (f.params.default = none ∧ v = .void) ∨
  (f.params.default.isSome = true ∧ Ev (fun j => makeValue E (ops E j) f.spec f.spec f.params (.scalar .none) = .ok v))

/-- What stands in the field after the dict has been looked at. -/
inductive Step (E : Env) (d : List (String × PyVal)) (oid : Option OidPair) (before : List PyVal) (f : Field) (b : Bytes) (n : PyVal) :
    Val → Val → Val → Prop
  | keep {v w : Val} : valueOf d f.name = none → Seat E f (Free oid before.length) v b n w → Step E d oid before f b n v v w
  | set {v v0 nv w : Val} {x : PyVal} {pick : Pick} {cs : Bytes} : valueOf d f.name = some x → Decides oid before pick →
      Ev (fun j => makeValue E (ops E j) (pick.fieldSpec f.spec) (pick.valueSpec f.spec) f.params x = .ok v0) →
      Ev (fun j => assignedContents E (ops E j) v0 = .ok (some cs, nv)) → Seat E f (Free oid before.length) nv b n w →
      Step E d oid before f b n v nv w

/-- All fields. -/
inductive FieldsMake (E : Env) (d : List (String × PyVal)) (oid : Option OidPair) :
    List Field → List PyVal → List Bytes → List PyVal → List Val → List Val → List Val → Prop
  | nil {before : List PyVal} : FieldsMake E d oid [] before [] [] [] [] []
  | cons {f : Field} {fs : List Field} {before ns : List PyVal} {b : Bytes} {bs : List Bytes} {n : PyVal} {v u w : Val} {vs us ws : List Val} :
      FreshVal E f v → Step E d oid before f b n v u w → FieldsMake E d oid fs (before ++ [n]) bs ns vs us ws →
      FieldsMake E d oid (f :: fs) before (b :: bs) (n :: ns) (v :: vs) (u :: us) (w :: ws)

/-! ### The children at first -/

theorem oidOverride_free {r : Ops} {all : List Field} {oid : Option OidPair} {i : Nat} {cs : List Child} (h : Free oid i) :
    oidOverride r all oid i cs = .ok (.same, cs) := by
  unfold oidOverride
  cases oid with
  | none => rfl
  | some p => simp only [if_neg (h p rfl)]

theorem fresh_children {E : Env} {d : List (String × PyVal)} {oid : Option OidPair} {all : List Field} {fs : List Field} {before ns : List PyVal}
    {bs : List Bytes} {vs us ws : List Val} (h : FieldsMake E d oid fs before bs ns vs us ws) :
    ∀ (oid' : Option OidPair) (pre : List Val), (∀ i f, fs[i]? = some f → f.params.default.isSome = true → Free oid' (pre.length + i)) →
    Ev (fun j => freshChildren E (ops E j) all oid' fs pre.length ((pre ++ fs.map (fun _ => Val.void)).map Child.val) = .ok ((pre ++ vs).map Child.val)) := by
  induction h with
  | nil => intro oid' pre _; exact Ev.of (fun j => rfl)
  | @cons f fs before ns b bs n v u w vs us ws hf hs _ ih =>
    intro oid' pre hfree
    have ih := ih oid' (pre ++ [v]) (fun i g hi hg => by
      have := hfree (i + 1) g hi hg
      rw [List.length_append, List.length_singleton]
      rwa [Nat.add_assoc, Nat.add_comm 1 i])
    rw [List.length_append, List.length_singleton] at ih
    rcases hf with ⟨h1, rfl⟩ | ⟨h1, h2⟩
    · refine ih.mono (fun j hj => ?_)
      unfold freshChildren
      rw [h1]
      simpa using hj
    · refine ih.map2 h2 (fun j hj hj' => ?_)
      unfold freshChildren
      cases hd : f.params.default with
      | none => rw [hd] at h1; cases h1
      | some y =>
        have hfr : Free oid' pre.length := hfree 0 f rfl h1
        simp only [oidOverride_free hfr, bind, Except.bind, Pick.fieldSpec, Pick.valueSpec, hj']
        have e1 : ((pre ++ (f :: fs).map (fun _ => Val.void)).map Child.val).set pre.length (.val v) =
            ((pre ++ [v]) ++ fs.map (fun _ => Val.void)).map Child.val := by simp
        have e2 : pre ++ v :: vs = (pre ++ [v]) ++ vs := by simp
        rw [e1, e2]
        exact hj

/-! ### Setting the fields -/

/-- The field that decides can be asked. -/
def Deciding (E : Env) (oid : Option OidPair) (us : List Val) (before : List PyVal) : Prop :=
  ∀ p, oid = some p → ∀ n m, before[p.oid]? = some n → PartOf p.sub n m → ∃ v, us[p.oid]? = some v ∧ Ev (fun j => decisive (ops E j) p.sub v = .ok (m, v))

theorem list_set_self {α : Type} : ∀ {l : List α} {i : Nat} {a : α}, l[i]? = some a → l.set i a = l
  | [], _, _, h => by simp at h
  | x :: xs, 0, a, h => by
    have h : x = a := Option.some.inj h
    subst h; rfl
  | x :: xs, i + 1, a, h => by
    rw [List.set_cons_succ, list_set_self (by simpa using h)]

theorem oidOverride_decides {E : Env} {all : List Field} {oid : Option OidPair} {us : List Val} {before : List PyVal} {pick : Pick}
    (hd : Deciding E oid us before) (h : Decides oid before pick) (rest : List Val) :
    Ev (fun j => oidOverride (ops E j) all oid before.length ((us ++ rest).map Child.val) = .ok (pick, (us ++ rest).map Child.val)) := by
  cases oid with
  | none =>
    have h : pick = .same := h
    subst h
    exact Ev.of (fun j => rfl)
  | some p =>
    unfold Decides at h
    simp only at h
    by_cases hp : p.value = before.length
    · rw [if_pos hp] at h
      obtain ⟨n, m, h1, h2, h3⟩ := h
      obtain ⟨v, v1, v2⟩ := hd p rfl n m h1 h2
      have hlt : p.oid < us.length := by
        rw [List.getElem?_eq_some_iff] at v1
        exact v1.1
      have hget : ((us ++ rest).map Child.val)[p.oid]? = some (.val v) := by
        rw [List.getElem?_map, List.getElem?_append_left hlt, v1]; rfl
      refine v2.mono (fun j hj => ?_)
      unfold oidOverride
      simp only [if_pos hp, hget, buildChild, hj, h3, bind, Except.bind]
      congr 2
      exact list_set_self hget
    · rw [if_neg hp] at h
      subst h
      refine Ev.of (fun j => ?_)
      unfold oidOverride
      simp only [if_neg hp]

theorem find_valueOf {d : List (String × PyVal)} {name : String} {x : PyVal} (h : valueOf d name = some x) :
    ∃ e, d.find? (fun e => e.1 == name) = some e ∧ e.2 = x := by
  unfold valueOf at h
  cases hf : d.find? (fun e => e.1 == name) with
  | none => rw [hf] at h; cases h
  | some e => rw [hf] at h; exact ⟨e, rfl, Option.some.inj h⟩

theorem find_valueOf_none {d : List (String × PyVal)} {name : String} (h : valueOf d name = none) : d.find? (fun e => e.1 == name) = none := by
  unfold valueOf at h
  cases hf : d.find? (fun e => e.1 == name) with
  | none => rfl
  | some e => rw [hf] at h; cases h

/-- The fields that decide about others can be asked after they have been set. -/
def Asked (E : Env) (oid : Option OidPair) (all : List Field) : Prop :=
  ∀ p, oid = some p → ∀ f, all[p.oid]? = some f → p.value ≠ p.oid ∧
    (p.sub = none → ∃ proto bad, E.cls f.spec = .leaf proto bad) ∧
    ∀ k, p.sub = some k → Untagged f.params ∧ f.params.default = none ∧ ∃ proto bad fs o g, E.cls f.spec = .seq proto bad false fs o ∧ fs[k]? = some g ∧ Telling E g ∧
      ∀ q, o = some q → q.value ≠ k

theorem step_seat {E : Env} {d : List (String × PyVal)} {oid : Option OidPair} {before : List PyVal} {f : Field} {b : Bytes} {n : PyVal} {v u w : Val}
    (h : Step E d oid before f b n v u w) : Seat E f (Free oid before.length) u b n w := by
  cases h <;> assumption

theorem deciding_step {E : Env} {oid : Option OidPair} {all : List Field} {us : List Val} {before : List PyVal} {f : Field} {b : Bytes} {n : PyVal}
    {u w : Val} (ha : Asked E oid all) (hl : us.length = before.length) (hf : all[before.length]? = some f) (hd : Deciding E oid us before)
    (hs : Seat E f (Free oid before.length) u b n w) : Deciding E oid (us ++ [u]) (before ++ [n]) := by
  intro p hp n' m' hn hm
  rcases Nat.lt_trichotomy p.oid before.length with h | h | h
  · rw [List.getElem?_append_left h] at hn
    obtain ⟨v, v1, v2⟩ := hd p hp n' m' hn hm
    exact ⟨v, by rw [List.getElem?_append_left (by omega)]; exact v1, v2⟩
  · rw [h, List.getElem?_append_right (Nat.le_refl _), Nat.sub_self] at hn
    have hn : n = n' := Option.some.inj hn
    subst hn
    refine ⟨u, by rw [h, ← hl, List.getElem?_append_right (Nat.le_refl _), Nat.sub_self]; rfl, ?_⟩
    obtain ⟨a1, a3, a4⟩ := ha p hp f (by rw [h]; exact hf)
    have hfree : Free oid before.length := by
      intro q hq
      rw [hp] at hq
      injection hq with hq
      subst hq
      rw [← h]; exact a1
    cases hsub : p.sub with
    | none =>
      rw [hsub] at hm
      have hm : m' = n := hm
      subst hm
      exact (hs.leaf hfree (a3 hsub)).1
    | some k =>
      obtain ⟨a2, b1, proto, bad, fs, o, g, b2, b3, b4, b5⟩ := a4 k hsub
      rw [hsub] at hm
      obtain ⟨ns, name, rfl, h2⟩ := hm
      exact hs.sub hfree a2 b1 proto bad fs o k g ns name m' b2 b3 b4 b5 rfl h2
  · rw [List.getElem?_append_right (by omega)] at hn
    have : p.oid - before.length ≠ 0 := by omega
    rw [List.getElem?_eq_none (by simp; omega)] at hn
    cases hn

theorem ensure_some {E : Env} {c : ClassId} {o : Obj Unit} {cs : List Child} : Ev (fun j => ensureChildren E (ops E j) c o (some cs) = .ok cs) :=
  Ev.of (fun j => rfl)

theorem set_from_dict {E : Env} {c : ClassId} {proto : Obj Unit} {bad : List Nat} {isSet : Bool} {all : List Field} {oid : Option OidPair}
    (hc : E.cls c = .seq proto bad isSet all oid) (ha : Asked E oid all) {d : List (String × PyVal)} {o : Obj Unit} {fs : List Field}
    {before ns : List PyVal} {bs : List Bytes} {vs us ws : List Val} (h : FieldsMake E d oid fs before bs ns vs us ws) :
    ∀ (pre : List Field) (ups : List Val) (children : Option (List Child)) (m : Bool), all = pre ++ fs → pre.length = before.length →
    ups.length = before.length → Deciding E oid ups before →
    Ev (fun j => ensureChildren E (ops E j) c o children = .ok ((ups ++ vs).map Child.val)) →
    ∃ children' m', Ev (fun j => setFromDict E (ops E j) d false fs before.length (.node c o children m) = .ok (.node c o children' m')) ∧
      ((∃ f ∈ fs, valueOf d f.name ≠ none) ∨ (children = some ((ups ++ vs).map Child.val) ∧ m = true) →
        children' = some ((ups ++ us).map Child.val) ∧ m' = true) := by
  induction h with
  | nil =>
    intro pre ups children m _ _ _ _ _
    refine ⟨children, m, Ev.of (fun j => rfl), ?_⟩
    rintro (⟨f, hf, _⟩ | h)
    · cases hf
    · exact h
  | @cons f fs before ns b bs n v u w vs us ws hf hs _ ih =>
    intro pre ups children m hall hpre hups hdec hen
    have hget : all[before.length]? = some f := by
      rw [hall, ← hpre, List.getElem?_append_right (Nat.le_refl _), Nat.sub_self]; rfl
    have hdec' := deciding_step ha hups hget hdec (step_seat hs)
    have hpre' : (pre ++ [f]).length = (before ++ [n]).length := by simp [hpre]
    have hups' : (ups ++ [u]).length = (before ++ [n]).length := by simp [hups]
    have hlen : (before ++ [n]).length = before.length + 1 := by simp
    cases hs with
    | keep k1 k2 =>
      obtain ⟨children', m', i1, i2⟩ := ih (pre ++ [f]) (ups ++ [v]) children m (by rw [hall]; simp) hpre' hups' hdec' (by simpa using hen)
      refine ⟨children', m', i1.mono (fun j hj => ?_), ?_⟩
      · unfold setFromDict
        simp only [Bool.false_and, Bool.false_eq_true, if_false, find_valueOf_none k1]
        rw [← hlen]
        exact hj
      · intro h
        have := i2 (by
          rcases h with ⟨g, hg, hv⟩ | h
          · rcases List.mem_cons.mp hg with rfl | hg
            · exact absurd k1 hv
            · exact .inl ⟨g, hg, hv⟩
          · exact .inr (by simpa using h))
        simpa using this
    | @set _ _ _ x pick cs k1 k2 k3 k4 k5 =>
      obtain ⟨e, e1, e2⟩ := find_valueOf k1
      obtain ⟨children', m', i1, i2⟩ := ih (pre ++ [f]) (ups ++ [u]) (some ((ups ++ u :: vs).map Child.val)) true (by rw [hall]; simp) hpre' hups' hdec'
        (by simpa using ensure_some)
      have hover := oidOverride_decides (all := all) hdec k2 (v :: vs)
      refine ⟨children', m', ((i1.and hen).and (hover.and (k3.and k4))).mono (fun j hj => ?_), fun _ => by
        have := i2 (.inr (by simp))
        simpa using this⟩
      obtain ⟨⟨j1, j2⟩, j3, j4, j5⟩ := hj
      have hset : setField E (ops E j) (.node c o children m) before.length x = .ok (.node c o (some ((ups ++ u :: vs).map Child.val)) true) := by
        unfold setField
        simp only [hc, j2, hget, j3, j4, j5, bind, Except.bind]
        rw [if_pos (by simp [hups])]
        congr 3
        rw [← hups]
        simp
      unfold setFromDict
      simp only [Bool.false_and, Bool.false_eq_true, if_false, e1, e2, hset, bind, Except.bind]
      rw [← hlen]
      exact j1

/-! ### Writing -/

theorem required_present {E : Env} {d : List (String × PyVal)} {oid : Option OidPair} {fs : List Field} {before ns : List PyVal}
    {bs : List Bytes} {vs us ws : List Val} (h : FieldsMake E d oid fs before bs ns vs us ws) :
    requiredPresent fs (us.map Child.val) = .ok () ∧ requiredPresent fs (ws.map Child.val) = .ok () := by
  induction h with
  | nil => exact ⟨rfl, rfl⟩
  | @cons f fs before ns b bs n v u w vs us ws hf hs _ ih =>
    have hseat := step_seat hs
    have aux : ∀ (x : Val) (xs : List Val), (x = .void → (f.params.default.isSome || f.params.optional) = true) →
        requiredPresent fs (xs.map Child.val) = .ok () → requiredPresent (f :: fs) ((x :: xs).map Child.val) = .ok () := by
      intro x xs hx hxs
      cases x <;> first | exact hxs | (show (if _ then _ else _) = _; rw [if_pos (hx rfl)]; exact hxs)
    exact ⟨aux u us (fun h => hseat.void (.inl h)) ih.1, aux w ws (fun h => hseat.void (.inr h)) ih.2⟩

theorem encode_fields {E : Env} {d : List (String × PyVal)} {oid : Option OidPair} {fs : List Field} {before ns : List PyVal}
    {bs : List Bytes} {vs us ws : List Val} (h : FieldsMake E d oid fs before bs ns vs us ws) :
    Ev (fun j => encodeFields (ops E j) false fs (us.map Child.val) = .ok (bs.flatten, ws.map Child.val)) := by
  induction h with
  | nil => exact Ev.of (fun j => rfl)
  | @cons f fs before ns b bs n v u w vs us ws hf hs _ ih =>
    refine (step_seat hs).enc.map2 ih (fun j h1 h2 => ?_)
    simp only [List.map_cons, encodeFields, h1, h2, bind, Except.bind, List.flatten_cons]

theorem children_calm {E : Env} {d : List (String × PyVal)} {oid : Option OidPair} {fs : List Field} {before ns : List PyVal}
    {bs : List Bytes} {vs us ws : List Val} (h : FieldsMake E d oid fs before bs ns vs us ws) : childrenMutated (ws.map Child.val) = false := by
  induction h with
  | nil => rfl
  | @cons f fs before ns b bs n v u w vs us ws hf hs _ ih =>
    simp only [List.map_cons, childrenMutated, (step_seat hs).calm, ih, Bool.or_false]

/-- The value of a field after everything has been written. -/
theorem field_at {E : Env} {d : List (String × PyVal)} {oid : Option OidPair} {fs : List Field} {before ns : List PyVal}
    {bs : List Bytes} {vs us ws : List Val} (h : FieldsMake E d oid fs before bs ns vs us ws) :
    ∀ {k : Nat} {g : Field} {m : PyVal}, fs[k]? = some g → ns[k]? = some m → Telling E g → Free oid (before.length + k) →
    ∃ w w', ws[k]? = some w ∧ Ev (fun j => (ops E j).native w = .ok (m, w')) := by
  induction h with
  | nil => intro k g m h; simp at h
  | @cons f fs before ns b bs n v u w vs us ws hf hs _ ih =>
    intro k g m hg hm ht hfree
    cases k with
    | zero =>
      have hg : f = g := Option.some.inj hg
      have hm : n = m := Option.some.inj hm
      subst hg; subst hm
      obtain ⟨w', hw'⟩ := ((step_seat hs).leaf hfree ht).2
      exact ⟨w, w', rfl, hw'⟩
    | succ k =>
      refine ih (k := k) (g := g) (m := m) (by simpa using hg) (by simpa using hm) ht ?_
      rw [List.length_append, List.length_singleton, Nat.add_assoc, Nat.add_comm 1 k]
      exact hfree

theorem named_get {fields : List Field} : ∀ {ns : List PyVal} {i k : Nat} {name : String} {m : PyVal}, (named fields i ns)[k]? = some (name, m) → ns[k]? = some m
  | [], i, k, name, m, h => by simp [named] at h
  | n :: ns, i, 0, name, m, h => by
    simp only [named, List.getElem?_cons_zero, Option.some.injEq, Prod.mk.injEq] at h
    simp [h.2]
  | n :: ns, i, k + 1, name, m, h => by
    simp only [named, List.getElem?_cons_succ] at h
    simpa using named_get h

end Asn1
