import Verif.Lemmas.RepTotal
import Verif.Spec.Enc

/-! # Instances that can be read -/

namespace Asn1
open Spec Props

theorem ops_native (E : Env) (j : Nat) (v : Val) : (ops E (j + 1)).native v = nativeStep E (ops E j) v := rfl

theorem ops_item (E : Env) (j : Nat) (v : Val) (k : Nat) : (ops E (j + 1)).item v k = getItem E (ops E j) v k := rfl

theorem Spec.Closed.mono {E : Env} {N M : Nat} {P : Val → PyVal → Prop} (h : Closed E N P) (hM : N ≤ M) : Closed E M P :=
  ⟨h.calm, fun hp j hj => h.native hp j (Nat.le_trans hM hj), fun hp h1 h2 h3 h4 j hj => h.field hp h1 h2 h3 h4 j (Nat.le_trans hM hj),
    fun hp h1 h2 h3 j hj => h.element hp h1 h2 h3 j (Nat.le_trans hM hj)⟩

theorem Spec.Readable.mono {E : Env} {N M : Nat} {v : Val} {n : PyVal} (h : Readable E N v n) (hM : N ≤ M) : Readable E M v n := by
  obtain ⟨P, h1, h2⟩ := h
  exact ⟨P, h1.mono hM, h2⟩

/-- Reading readable instances leaves readable instances. -/
theorem closed_readable (E : Env) (N : Nat) : Closed E N (Readable E N) where
  calm := fun ⟨P, h, hp⟩ => h.calm hp
  native := by
    rintro v n ⟨P, h, hp⟩ j hj
    obtain ⟨w, h1, h2, h3⟩ := h.native hp j hj
    exact ⟨w, h1, ⟨P, h, h2⟩, h3⟩
  field := by
    rintro v ns c proto bad isSet fields oid k name m ⟨P, h, hp⟩ h1 h2 h3 h4 j hj
    obtain ⟨x, w, k1, k2, k3, k4⟩ := h.field hp h1 h2 h3 h4 j hj
    exact ⟨x, w, k1, ⟨P, h, k2⟩, ⟨P, h, k3⟩, k4⟩
  element := by
    rintro v ns c proto bad isSet ch k m ⟨P, h, hp⟩ h1 h2 h3 j hj
    obtain ⟨x, w, k1, k2, k3, k4⟩ := h.element hp h1 h2 h3 j hj
    exact ⟨x, w, k1, ⟨P, h, k2⟩, ⟨P, h, k3⟩, k4⟩

/-- A relation whose instances stay in it, or become readable, consists of readable instances. -/
theorem readable_of {E : Env} {N : Nat} {P : Val → PyVal → Prop}
    (calm : ∀ {v n}, P v n → v.isMutated = false)
    (native : ∀ {v n}, P v n → ∀ j ≥ N, ∃ w, (ops E j).native v = .ok (n, w) ∧ (P w n ∨ Readable E N w n) ∧ formOf w = formOf v)
    (field : ∀ {v ns c proto bad isSet fields oid k name m}, P v (.dict ns) → formOf v = .node c → E.cls c = .seq proto bad isSet fields oid →
      QuietFields E fields → ns[k]? = some (name, m) → ∀ j ≥ N, ∃ x w, (ops E j).item v k = .ok (x, w) ∧ (P x m ∨ Readable E N x m) ∧
        (P w (.dict ns) ∨ Readable E N w (.dict ns)) ∧ formOf w = formOf v)
    (element : ∀ {v ns c proto bad isSet ch k m}, P v (.list ns) → formOf v = .node c → E.cls c = .seqOf proto bad isSet ch →
      ns[k]? = some m → ∀ j ≥ N, ∃ x w, (ops E j).item v k = .ok (x, w) ∧ (P x m ∨ Readable E N x m) ∧
        (P w (.list ns) ∨ Readable E N w (.list ns)) ∧ formOf w = formOf v)
    {v : Val} {n : PyVal} (h : P v n) : Readable E N v n := by
  have hR := closed_readable E N
  refine ⟨fun v n => P v n ∨ Readable E N v n, ?_, .inl h⟩
  constructor
  · rintro v n (h | h)
    · exact calm h
    · exact hR.calm h
  · rintro v n (h | h) j hj
    · exact native h j hj
    · obtain ⟨w, h1, h2, h3⟩ := hR.native h j hj
      exact ⟨w, h1, .inr h2, h3⟩
  · rintro v ns c proto bad isSet fields oid k name m (h | h) h1 h2 h3 h4 j hj
    · exact field h h1 h2 h3 h4 j hj
    · obtain ⟨x, w, k1, k2, k3, k4⟩ := hR.field h h1 h2 h3 h4 j hj
      exact ⟨x, w, k1, .inr k2, .inr k3, k4⟩
  · rintro v ns c proto bad isSet ch k m (h | h) h1 h2 h3 j hj
    · exact element h h1 h2 h3 j hj
    · obtain ⟨x, w, k1, k2, k3, k4⟩ := hR.element h h1 h2 h3 j hj
      exact ⟨x, w, k1, .inr k2, .inr k3, k4⟩

/-- Instances that are not containers. -/
theorem readable_other {E : Env} {N : Nat} {P : Val → PyVal → Prop} (ho : ∀ {v n}, P v n → ∀ c, formOf v ≠ .node c)
    (native : ∀ {v n}, P v n → ∀ j ≥ N, ∃ w, (ops E j).native v = .ok (n, w) ∧ (P w n ∨ Readable E N w n) ∧ formOf w = formOf v)
    {v : Val} {n : PyVal} (h : P v n) : Readable E N v n := by
  refine readable_of (P := P) ?_ native ?_ ?_ h
  · intro v n h
    cases v with
    | node c o cs m => exact absurd rfl (ho h c)
    | _ => simp [Val.isMutated]
  · intro v ns c _ _ _ _ _ _ _ _ h h1
    exact absurd h1 (ho h c)
  · intro v ns c _ _ _ _ _ _ h h1
    exact absurd h1 (ho h c)

theorem readable_void (E : Env) : Readable E 1 .void (.scalar .none) := by
  refine readable_other (P := fun v n => v = .void ∧ n = .scalar .none) ?_ ?_ ⟨rfl, rfl⟩
  · rintro v n ⟨rfl, rfl⟩ c h; cases h
  · rintro v n ⟨rfl, rfl⟩ j hj
    obtain ⟨j, rfl⟩ : ∃ k, j = k + 1 := ⟨j - 1, by omega⟩
    exact ⟨.void, rfl, .inl ⟨rfl, rfl⟩, rfl⟩

theorem readable_leaf (E : Env) {c : ClassId} {st st' : LeafSt} {s : Scalar} (h1 : st.native = .ok (s, st')) (h2 : st'.native = .ok (s, st')) :
    Readable E 1 (.leaf c st) (.scalar s) := by
  refine readable_other (P := fun v n => (v = .leaf c st ∨ v = .leaf c st') ∧ n = .scalar s) ?_ ?_ ⟨.inl rfl, rfl⟩
  · rintro v n ⟨rfl | rfl, rfl⟩ c h <;> cases h
  · rintro v n ⟨hv, rfl⟩ j hj
    obtain ⟨j, rfl⟩ : ∃ k, j = k + 1 := ⟨j - 1, by omega⟩
    have : (ops E (j + 1)).native v = .ok (.scalar s, .leaf c st') := by
      show nativeStep E (ops E j) v = _
      rcases hv with rfl | rfl
      · simp only [nativeStep, bind, Except.bind, h1]
      · simp only [nativeStep, bind, Except.bind, h2]
    refine ⟨_, this, .inl ⟨.inr rfl, rfl⟩, ?_⟩
    rcases hv with rfl | rfl <;> rfl

/-- An instance around another one. -/
theorem readable_wrap {E : Env} {N : Nat} {F : Val → Val} {n : PyVal} (hF : ∀ v, formOf (F v) = .other)
    (hn : ∀ j v w, (ops E j).native v = .ok (n, w) → (ops E (j + 1)).native (F v) = .ok (n, F w)) {v : Val} (h : Readable E N v n) :
    Readable E (N + 1) (F v) n := by
  refine readable_other (P := fun x m => m = n ∧ ∃ w, x = F w ∧ Readable E N w n) ?_ ?_ ⟨rfl, v, rfl, h⟩
  · rintro x m ⟨rfl, w, rfl, hw⟩ c h
    rw [hF] at h; cases h
  · rintro x m ⟨rfl, w, rfl, hw⟩ j hj
    obtain ⟨j, rfl⟩ : ∃ k, j = k + 1 := ⟨j - 1, by omega⟩
    obtain ⟨w', k1, k2, k3⟩ := (closed_readable E N).native hw j (by omega)
    exact ⟨_, hn j w w' k1, .inl ⟨rfl, w', rfl, k2⟩, by rw [hF, hF]⟩

theorem readable_choice {E : Env} {N : Nat} {c : ClassId} {o : Obj Unit} {k : Option Nat} {v : Val} {n : PyVal} (h : Readable E N v n) :
    Readable E (N + 1) (.choice c o k (some v)) n := by
  refine readable_wrap (F := fun v => .choice c o k (some v)) (fun _ => rfl) ?_ h
  intro j v w h
  rw [ops_native]
  simp only [nativeStep, choiceParse, bind, Except.bind, h]

theorem readable_any {E : Env} {N : Nat} {c : ClassId} {o : Obj Unit} {s : Option ClassId} {v : Val} {n : PyVal} (h : Readable E N v n) :
    Readable E (N + 1) (.any c o (some v) s) n := by
  refine readable_wrap (F := fun v => .any c o (some v) s) (fun _ => rfl) ?_ h
  intro j v w h
  rw [ops_native]
  simp only [nativeStep, bind, Except.bind, h]

theorem readable_payload {E : Env} {N : Nat} {c : ClassId} {o : Obj Bytes} {s : Option ClassId} {v : Val} {n : PyVal} {b : Bytes}
    (ho : o.contents = some b) (h : Readable E N v n) : Readable E (N + 1) (.parsable c o (some v) s) n := by
  refine readable_wrap (F := fun v => .parsable c o (some v) s) (fun _ => rfl) ?_ h
  intro j v w h
  rw [ops_native]
  simp only [nativeStep, ho, bind, Except.bind, h]

/-- Something that becomes readable when it is read for the first time. -/
theorem readable_first {E : Env} {N : Nat} {v : Val} {n : PyVal} (ho : formOf v = .other)
    (h : ∀ j ≥ N, ∃ w, (ops E j).native v = .ok (n, w) ∧ Readable E N w n ∧ formOf w = .other) : Readable E N v n := by
  refine readable_other (P := fun x m => x = v ∧ m = n) ?_ ?_ ⟨rfl, rfl⟩
  · rintro x m ⟨rfl, rfl⟩ c h
    rw [ho] at h; cases h
  · rintro x m ⟨rfl, rfl⟩ j hj
    obtain ⟨w, h1, h2, h3⟩ := h j hj
    exact ⟨w, h1, .inr h2, h3.trans ho.symm⟩

/-! ### Containers -/

/-- What is known about the form of a child that must be a container of the class. -/
def FormIs (must : Option ClassId) (v : Val) : Prop := ∀ c, must = some c → formOf v = .void ∨ formOf v = .node c

/-- A child that can be read; with `q` also one that has been made from a default value. -/
def Kid (E : Env) (N : Nat) (q : Prop) (p : Params) (must : Option ClassId) (n : PyVal) : Child → Prop
  | .lazy i spec nested => ∀ j ≥ N, ∃ v, (ops E j).build i spec p nested = .ok v ∧ Readable E N v n ∧ formOf v ≠ .void ∧ FormIs must v
  | .val v => (q ∨ must ≠ none → Readable E N v n) ∧ (∀ j ≥ N, ∃ w, (ops E j).native v = .ok (n, w) ∧ Readable E N w n ∧ formOf w = formOf v) ∧
      (formOf v = .void → p.optional = true ∨ p.default.isSome = true) ∧ FormIs must v

/-- The children of a container. -/
def KidList (E : Env) (N : Nat) (q : Prop) (fields : List Field) (must : Nat → Option ClassId) (cs : List Child) (ns : List PyVal) : Prop :=
  cs.length = ns.length ∧ ∀ k ch n, cs[k]? = some ch → ns[k]? = some n → Kid E N q (paramsAt fields k) (must k) n ch

theorem Kid.mono {E : Env} {N M : Nat} {q : Prop} {p : Params} {must : Option ClassId} {n : PyVal} {ch : Child} (h : Kid E N q p must n ch)
    (hM : N ≤ M) : Kid E M q p must n ch := by
  cases ch with
  | «lazy» i spec nested =>
    intro j hj
    obtain ⟨v, h1, h2, h3⟩ := h j (Nat.le_trans hM hj)
    exact ⟨v, h1, h2.mono hM, h3⟩
  | val v =>
    obtain ⟨h1, h2, h3⟩ := h
    refine ⟨fun hq => (h1 hq).mono hM, fun j hj => ?_, h3⟩
    obtain ⟨w, k1, k2, k3⟩ := h2 j (Nat.le_trans hM hj)
    exact ⟨w, k1, k2.mono hM, k3⟩

theorem Kid.forget {E : Env} {N : Nat} {q q' : Prop} {p : Params} {must : Option ClassId} {n : PyVal} {ch : Child} (h : Kid E N q p must n ch)
    (hq : q' → q) : Kid E N q' p none n ch := by
  cases ch with
  | «lazy» i spec nested =>
    intro j hj
    obtain ⟨v, h1, h2, h3, _⟩ := h j hj
    exact ⟨v, h1, h2, h3, fun c hc => by cases hc⟩
  | val v =>
    obtain ⟨h1, h2, h3, _⟩ := h
    exact ⟨fun h => h1 (h.imp hq (fun h => absurd rfl h)), h2, h3, fun c hc => by cases hc⟩

theorem KidList.mono {E : Env} {N M : Nat} {q : Prop} {fields : List Field} {must : Nat → Option ClassId} {cs : List Child} {ns : List PyVal}
    (h : KidList E N q fields must cs ns) (hM : N ≤ M) : KidList E M q fields must cs ns :=
  ⟨h.1, fun k ch n h1 h2 => (h.2 k ch n h1 h2).mono hM⟩

theorem KidList.forget {E : Env} {N : Nat} {q q' : Prop} {fields : List Field} {must : Nat → Option ClassId} {cs : List Child} {ns : List PyVal}
    (h : KidList E N q fields must cs ns) (hq : q' → q) : KidList E N q' fields (fun _ => none) cs ns :=
  ⟨h.1, fun k ch n h1 h2 => (h.2 k ch n h1 h2).forget hq⟩

/-- A readable instance as a child. -/
theorem kid_val {E : Env} {N : Nat} {q : Prop} {p : Params} {must : Option ClassId} {n : PyVal} {v : Val} (h : Readable E N v n)
    (hv : formOf v = .void → p.optional = true ∨ p.default.isSome = true) (hm : FormIs must v) : Kid E N q p must n (.val v) := by
  refine ⟨fun _ => h, fun j hj => ?_, hv, hm⟩
  exact (closed_readable E N).native h j hj

theorem Kid.build {E : Env} {N : Nat} {q : Prop} {p : Params} {must : Option ClassId} {n : PyVal} {ch : Child} (h : Kid E N q p must n ch) {j : Nat}
    (hj : N ≤ j) (hq : q ∨ must ≠ none) : ∃ v, buildChild (ops E j) p ch = .ok v ∧ Readable E N v n ∧ (formOf v = .void → p.optional = true ∨ p.default.isSome = true) ∧ FormIs must v := by
  cases ch with
  | «lazy» i spec nested =>
    obtain ⟨v, h1, h2, h3, h4⟩ := h j hj
    exact ⟨v, h1, h2, fun h => absurd h h3, h4⟩
  | val v => exact ⟨v, rfl, h.1 hq, h.2.2⟩

theorem Kid.read {E : Env} {N : Nat} {q : Prop} {p : Params} {must : Option ClassId} {n : PyVal} {ch : Child} (h : Kid E N q p must n ch) {j : Nat}
    (hj : N ≤ j) : ∃ v w, buildChild (ops E j) p ch = .ok v ∧ (ops E j).native v = .ok (n, w) ∧ Readable E N w n ∧
      (formOf w = .void → p.optional = true ∨ p.default.isSome = true) ∧ FormIs must w := by
  cases ch with
  | «lazy» i spec nested =>
    obtain ⟨v, h1, h2, h3, h4⟩ := h j hj
    obtain ⟨w, k1, k2, k3⟩ := (closed_readable E N).native h2 j hj
    exact ⟨v, w, h1, k1, k2, fun h => absurd (k3.symm.trans h) h3, fun c hc => by rw [k3]; exact h4 c hc⟩
  | val v =>
    obtain ⟨h1, h2, h3, h4⟩ := h
    obtain ⟨w, k1, k2, k3⟩ := h2 j hj
    exact ⟨v, w, rfl, k1, k2, fun h => h3 (k3.symm.trans h), fun c hc => by rw [k3]; exact h4 c hc⟩

theorem nativeFields_kids {E : Env} {N : Nat} {q : Prop} {j : Nat} (hj : N ≤ j) (all : List Field) : ∀ (cs : List Child) (ns : List PyVal) (idx : Nat),
    cs.length = ns.length → (∀ k ch n, cs[k]? = some ch → ns[k]? = some n → Kid E N q (paramsAt all (idx + k)) none n ch) →
    ∃ cs', nativeFields (ops E j) all idx cs = .ok (named all idx ns, cs') ∧ cs'.length = ns.length ∧
      ∀ k ch n, cs'[k]? = some ch → ns[k]? = some n → Kid E N True (paramsAt all (idx + k)) none n ch
  | [], [], idx, _, _ => ⟨[], rfl, rfl, fun k ch n h => by simp at h⟩
  | [], _ :: _, _, h, _ => by simp at h
  | _ :: _, [], _, h, _ => by simp at h
  | ch :: cs, n :: ns, idx, hl, h => by
    obtain ⟨v, w, k1, k2, k3, k4, k5⟩ := (h 0 ch n rfl rfl).read hj
    obtain ⟨cs', g1, g2, g3⟩ := nativeFields_kids (q := q) hj all cs ns (idx + 1) (by simpa using hl) (fun k ch n h1 h2 => by
      have := h (k + 1) ch n h1 h2
      rwa [show idx + (k + 1) = idx + 1 + k by omega] at this)
    refine ⟨.val w :: cs', ?_, by simp [g2], ?_⟩
    · simp only [nativeFields, bind, Except.bind]
      rw [Nat.add_zero] at k1
      simp only [k1, k2, g1, named]
    · intro k ch' n' h1 h2
      cases k with
      | zero =>
        cases h1; cases h2
        exact kid_val k3 k4 k5
      | succ k =>
        have := g3 k ch' n' h1 h2
        rwa [show idx + 1 + k = idx + (k + 1) by omega] at this

theorem nativeElements_kids {E : Env} {N : Nat} {q : Prop} {j : Nat} (hj : N ≤ j) : ∀ (cs : List Child) (ns : List PyVal),
    KidList E N q [] (fun _ => none) cs ns →
    ∃ cs', nativeElements (ops E j) cs = .ok (ns, cs') ∧ KidList E N True [] (fun _ => none) cs' ns
  | [], [], _ => ⟨[], rfl, rfl, fun k ch n h => by simp at h⟩
  | [], _ :: _, h => by have := h.1; simp at this
  | _ :: _, [], h => by have := h.1; simp at this
  | ch :: cs, n :: ns, h => by
    obtain ⟨v, w, k1, k2, k3, k4, k5⟩ := (h.2 0 ch n rfl rfl).read hj
    obtain ⟨cs', g1, g2, g3⟩ := nativeElements_kids hj cs ns ⟨by simpa using h.1, fun k ch n h1 h2 => h.2 (k + 1) ch n h1 h2⟩
    refine ⟨.val w :: cs', ?_, by simp [g2], ?_⟩
    · simp only [nativeElements, bind, Except.bind]
      have k1 : buildChild (ops E j) {} ch = .ok v := k1
      simp only [k1, k2, g1]
    · intro k ch' n' h1 h2
      cases k with
      | zero => cases h1; cases h2; exact kid_val k3 k4 k5
      | succ k => exact g3 k ch' n' h1 h2

theorem kids_calm {E : Env} {N : Nat} : ∀ {cs : List Child} {ns : List PyVal} {f : Nat → Params}, cs.length = ns.length →
    (∀ k ch n, cs[k]? = some ch → ns[k]? = some n → Kid E N True (f k) none n ch) → childrenMutated cs = false
  | [], [], _, _, _ => by simp [childrenMutated]
  | [], _ :: _, _, h, _ => by simp at h
  | _ :: _, [], _, h, _ => by simp at h
  | ch :: cs, n :: ns, f, hl, h => by
    have ih := kids_calm (f := fun k => f (k + 1)) (cs := cs) (ns := ns) (by simpa using hl) (fun k ch n h1 h2 => h (k + 1) ch n h1 h2)
    cases ch with
    | «lazy» i spec nested => rw [childrenMutated]; exact ih
    | val v =>
      rw [childrenMutated, ih, Bool.or_false]
      exact (closed_readable E N).calm ((h 0 (.val v) n rfl rfl).1 (.inl trivial))

theorem KidList.calm {E : Env} {N : Nat} {fields : List Field} {cs : List Child} {ns : List PyVal} (h : KidList E N True fields (fun _ => none) cs ns)
    (c : ClassId) (o : Obj Unit) : (Val.node c o (some cs) false).isMutated = false := by
  rw [Val.isMutated, kids_calm (f := fun k => paramsAt fields k) h.1 h.2]; rfl

theorem KidList.set {E : Env} {N : Nat} {q : Prop} {fields : List Field} {must : Nat → Option ClassId} {cs : List Child} {ns : List PyVal}
    (h : KidList E N q fields must cs ns) {k : Nat} {ch : Child} (hk : ∀ n, ns[k]? = some n → Kid E N q (paramsAt fields k) (must k) n ch) :
    KidList E N q fields must (cs.set k ch) ns := by
  refine ⟨by simp [h.1], fun k' ch' n h1 h2 => ?_⟩
  rw [List.getElem?_set] at h1
  split at h1
  · next he =>
    subst he
    split at h1
    · cases h1; exact hk n h2
    · cases h1
  · exact h.2 k' ch' n h1 h2

theorem named_getElem? (fields : List Field) : ∀ (ns : List PyVal) (idx k : Nat) (name : String) (m : PyVal),
    (named fields idx ns)[k]? = some (name, m) → ns[k]? = some m
  | [], _, _, _, _, h => by simp [named] at h
  | n :: ns, idx, 0, name, m, h => by
    simp only [named, List.getElem?_cons_zero, Option.some.injEq, Prod.mk.injEq] at h
    simp [h.2]
  | n :: ns, idx, k + 1, name, m, h => by
    simp only [named, List.getElem?_cons_succ] at h
    exact named_getElem? fields ns (idx + 1) k name m h

/-- States of a container with fields. -/
theorem readable_seq {E : Env} {N : Nat} {c : ClassId} {o proto : Obj Unit} {bad : List Nat} {isSet : Bool} {fields : List Field} {oid : Option OidPair}
    {data : Bytes} {ns : List PyVal} (hE : E.cls c = .seq proto bad isSet fields oid) (ho : o.contents = some data)
    (hp : ∀ j ≥ N, ∃ cs, parseChildren E (ops E j) c (some data) = .ok cs ∧ KidList E N (QuietFields E fields) fields (fun _ => none) cs ns) :
    (Readable E (N + 1) (.node c o none false) (.dict (named fields 0 ns))) ∧
    ∀ cs, KidList E N True fields (fun _ => none) cs ns → Readable E (N + 1) (.node c o (some cs) false) (.dict (named fields 0 ns)) := by
  have main : ∀ {v n}, (n = .dict (named fields 0 ns) ∧ (v = .node c o none false ∨ ∃ cs, v = .node c o (some cs) false ∧
      KidList E N True fields (fun _ => none) cs ns)) → Readable E (N + 1) v n := by
    intro v n h
    refine readable_of (P := fun v n => n = .dict (named fields 0 ns) ∧ (v = .node c o none false ∨ ∃ cs, v = .node c o (some cs) false ∧
      KidList E N True fields (fun _ => none) cs ns)) ?_ ?_ ?_ ?_ h
    · rintro v n ⟨rfl, rfl | ⟨cs, rfl, h⟩⟩
      · simp [Val.isMutated]
      · exact h.calm c o
    · rintro v n ⟨rfl, h⟩ j hj
      obtain ⟨j, rfl⟩ : ∃ k, j = k + 1 := ⟨j - 1, by omega⟩
      have hj' : N ≤ j := by omega
      rcases h with rfl | ⟨cs, rfl, h⟩
      · obtain ⟨cs, h1, h2⟩ := hp j hj'
        obtain ⟨cs', g1, g2, g3⟩ := nativeFields_kids hj' fields cs ns 0 h2.1 (fun k ch n a b => by rw [Nat.zero_add]; exact h2.2 k ch n a b)
        refine ⟨.node c o (some cs') false, ?_, .inl ⟨rfl, .inr ⟨cs', rfl, g2, fun k ch n a b => by have := g3 k ch n a b; rwa [Nat.zero_add] at this⟩⟩, rfl⟩
        rw [ops_native]
        simp only [nativeStep, nodeNative, nodeContents, bind, Except.bind, ho, ensureChildren, h1, hE, g1]
      · obtain ⟨cs', g1, g2, g3⟩ := nativeFields_kids hj' fields cs ns 0 h.1 (fun k ch n a b => by rw [Nat.zero_add]; exact h.2 k ch n a b)
        refine ⟨.node c o (some cs') false, ?_, .inl ⟨rfl, .inr ⟨cs', rfl, g2, fun k ch n a b => by have := g3 k ch n a b; rwa [Nat.zero_add] at this⟩⟩, rfl⟩
        rw [ops_native]
        simp only [nativeStep, nodeNative, nodeContents, h.calm c o, Bool.false_eq_true, if_false, bind, Except.bind, ho, ensureChildren, hE, g1]
    · rintro v ns' c' proto' bad' isSet' fields' oid' k name m ⟨hn, h⟩ hf hc hq hk j hj
      obtain ⟨j, rfl⟩ : ∃ k, j = k + 1 := ⟨j - 1, by omega⟩
      have hj' : N ≤ j := by omega
      cases hn
      have hcc : c' = c := by
        rcases h with rfl | ⟨cs, rfl, h⟩ <;> (cases hf; rfl)
      subst hcc
      rw [hE] at hc
      cases hc
      have hm := named_getElem? _ _ _ _ _ _ hk
      have key : ∃ cs, ensureChildren E (ops E j) c' o (match v with | .node _ _ cs _ => cs | _ => none) = .ok cs ∧
          KidList E N True fields (fun _ => none) cs ns := by
        rcases h with rfl | ⟨cs, rfl, h⟩
        · obtain ⟨cs, h1, h2⟩ := hp j hj'
          refine ⟨cs, ?_, h2.forget (fun _ => hq)⟩
          simp only [ensureChildren, ho, h1]
        · exact ⟨cs, rfl, h⟩
      obtain ⟨cs, h1, h2⟩ := key
      have hlt : k < ns.length := by
        rcases Nat.lt_or_ge k ns.length with h | h
        · exact h
        · rw [List.getElem?_eq_none h] at hm; cases hm
      obtain ⟨chk, hch⟩ : ∃ chk, cs[k]? = some chk := ⟨_, List.getElem?_eq_getElem (h := by rw [h2.1]; exact hlt)⟩
      obtain ⟨x, b1, b2, b3, b4⟩ := (h2.2 k _ m hch hm).build hj' (.inl trivial)
      refine ⟨x, .node c' o (some (cs.set k (.val x))) false, ?_, .inr (b2.mono (Nat.le_succ N)), .inl ⟨rfl, .inr ⟨_, rfl, h2.set ?_⟩⟩, ?_⟩
      · rw [ops_item]
        rcases h with rfl | ⟨cs0, rfl, h⟩
        · simp only [getItem, bind, Except.bind, h1, hch, hE, b1]
        · simp only [getItem, bind, Except.bind, h1, hch, hE, b1]
      · intro n' hn'
        rw [hm] at hn'
        cases hn'
        exact kid_val b2 b3 b4
      · rcases h with rfl | ⟨cs0, rfl, h⟩ <;> rfl
    · rintro v ns' c' proto' bad' isSet' ch' k m ⟨hn, h⟩ hf hc hk j hj
      cases hn
  exact ⟨main ⟨rfl, .inl rfl⟩, fun cs h => main ⟨rfl, .inr ⟨cs, rfl, h⟩⟩⟩

/-- States of a list. -/
theorem readable_list {E : Env} {N : Nat} {c : ClassId} {o proto : Obj Unit} {bad : List Nat} {isSet : Bool} {ch : Option ClassId}
    {data : Bytes} {ns : List PyVal} {cs0 : List Child} (hE : E.cls c = .seqOf proto bad isSet ch) (ho : o.contents = some data)
    (hp : parseSeqOf ch (some data) = .ok cs0) (hk0 : KidList E N True [] (fun _ => none) cs0 ns) :
    Readable E (N + 1) (.node c o none false) (.list ns) := by
  have hpc : ∀ r, parseChildren E r c (some data) = .ok cs0 := by
    intro r
    simp only [parseChildren, hE, hp]
  refine readable_of (P := fun v n => n = .list ns ∧ (v = .node c o none false ∨ ∃ cs, v = .node c o (some cs) false ∧
      KidList E N True [] (fun _ => none) cs ns)) ?_ ?_ ?_ ?_ ⟨rfl, .inl rfl⟩
  · rintro v n ⟨rfl, rfl | ⟨cs, rfl, h⟩⟩
    · simp [Val.isMutated]
    · exact h.calm c o
  · rintro v n ⟨rfl, h⟩ j hj
    obtain ⟨j, rfl⟩ : ∃ k, j = k + 1 := ⟨j - 1, by omega⟩
    have hj' : N ≤ j := by omega
    rcases h with rfl | ⟨cs, rfl, h⟩
    · obtain ⟨cs', g1, g2⟩ := nativeElements_kids hj' cs0 ns hk0
      refine ⟨.node c o (some cs') false, ?_, .inl ⟨rfl, .inr ⟨cs', rfl, g2⟩⟩, rfl⟩
      rw [ops_native]
      simp only [nativeStep, nodeNative, nodeContents, bind, Except.bind, ho, ensureChildren, hpc, hE, g1]
    · obtain ⟨cs', g1, g2⟩ := nativeElements_kids hj' cs ns h
      refine ⟨.node c o (some cs') false, ?_, .inl ⟨rfl, .inr ⟨cs', rfl, g2⟩⟩, rfl⟩
      rw [ops_native]
      simp only [nativeStep, nodeNative, nodeContents, h.calm c o, Bool.false_eq_true, if_false, bind, Except.bind, ho, ensureChildren, hE, g1]
  · rintro v ns' c' proto' bad' isSet' fields' oid' k name m ⟨hn, h⟩
    cases hn
  · rintro v ns' c' proto' bad' isSet' ch' k m ⟨hn, h⟩ hf hc hm j hj
    obtain ⟨j, rfl⟩ : ∃ k, j = k + 1 := ⟨j - 1, by omega⟩
    have hj' : N ≤ j := by omega
    cases hn
    have key : ∃ cs, ensureChildren E (ops E j) c o (match v with | .node _ _ cs _ => cs | _ => none) = .ok cs ∧
        KidList E N True [] (fun _ => none) cs ns := by
      rcases h with rfl | ⟨cs, rfl, h⟩
      · refine ⟨cs0, ?_, hk0⟩
        simp only [ensureChildren, ho, hpc]
      · exact ⟨cs, rfl, h⟩
    obtain ⟨cs, h1, h2⟩ := key
    have hlt : k < ns.length := by
      rcases Nat.lt_or_ge k ns.length with h | h
      · exact h
      · rw [List.getElem?_eq_none h] at hm; cases hm
    obtain ⟨chk, hch⟩ : ∃ chk, cs[k]? = some chk := ⟨_, List.getElem?_eq_getElem (h := by rw [h2.1]; exact hlt)⟩
    obtain ⟨x, b1, b2, b3, b4⟩ := (h2.2 k _ m hch hm).build hj' (.inl trivial)
    have b1 : buildChild (ops E j) {} chk = .ok x := b1
    refine ⟨x, .node c o (some (cs.set k (.val x))) false, ?_, .inr (b2.mono (Nat.le_succ N)), .inl ⟨rfl, .inr ⟨_, rfl, h2.set ?_⟩⟩, ?_⟩
    · rw [ops_item]
      rcases h with rfl | ⟨cs0, rfl, h⟩
      · simp only [getItem, bind, Except.bind, h1, hch, hE, b1]
      · simp only [getItem, bind, Except.bind, h1, hch, hE, b1]
    · intro n' hn'
      rw [hm] at hn'
      cases hn'
      exact kid_val b2 b3 b4
    · rcases h with rfl | ⟨cs0, rfl, h⟩ <;> rfl

end Asn1
