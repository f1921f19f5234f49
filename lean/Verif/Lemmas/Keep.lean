import Verif.Spec.Faithful
import Verif.Lemmas.Tag

/-! # Values that keep the encoding they were loaded from -/

namespace Asn1
open Spec

theorem py_bind {α β : Type} {x : Py α} {f : α → Py β} {b : β} :
    (x >>= f) = .ok b ↔ ∃ a, x = .ok a ∧ f a = .ok b := by
  cases x <;> simp [bind, Except.bind]

/-- `VOID`, among children. -/
def Child.isVoid : Child → Bool
  | .val v => v.isVoid
  | .lazy _ _ _ => false

/-- A condition on specs and params. -/
abbrev Cond := Option ClassId → Params → Prop

/-- A Sequence is not built with a DEFAULT, unless it has explicit tags. -/
def SpecOk (E : Env) (spec : Option ClassId) (p : Params) : Prop :=
  ∀ c, spec = some c → IsSeq (E.cls c) → p.default = none ∨ explicitOf E c p ≠ []

/-- Fields of a Sequence or Set class. -/
def fieldsOf (E : Env) (c : ClassId) : List Field :=
  match E.cls c with
  | .seq _ _ _ fields _ => fields
  | _ => []

mutual
/-- No container in the value (as far as `_is_mutated` looks) is mutated or without contents, and children not built yet
meet the condition `Q`. -/
def calm (E : Env) (Q : Cond) : Val → Prop
  | .node _ o none m => m = false ∧ o.contents.isSome = true
  | .node c o (some cs) m => m = false ∧ o.contents.isSome = true ∧ calmList E Q (fieldsOf E c) cs
  | _ => True
/-- The same for children. -/
def calmList (E : Env) (Q : Cond) : List Field → List Child → Prop
  | _, [] => True
  | fs, .lazy _ spec _ :: cs => Q spec (paramsAt fs 0) ∧ calmList E Q fs.tail cs
  | fs, .val v :: cs => calm E Q v ∧ calmList E Q fs.tail cs
end

/-- The same for one child. -/
def calmChild (E : Env) (Q : Cond) (p : Params) : Child → Prop
  | .lazy _ spec _ => Q spec p
  | .val v => calm E Q v

theorem calmList_nil (E : Env) (Q : Cond) (fs : List Field) : calmList E Q fs [] := by simp [calmList]

theorem calmList_cons (E : Env) (Q : Cond) (fs : List Field) (ch : Child) (cs : List Child) :
    calmList E Q fs (ch :: cs) ↔ calmChild E Q (paramsAt fs 0) ch ∧ calmList E Q fs.tail cs := by
  cases ch <;> simp [calmList, calmChild]

theorem paramsAt_tail (fs : List Field) (i : Nat) : paramsAt fs.tail i = paramsAt fs (i + 1) := by
  cases fs <;> simp [paramsAt]

theorem paramsAt_drop (fs : List Field) (i j : Nat) : paramsAt (fs.drop i) j = paramsAt fs (i + j) := by
  simp [paramsAt]

theorem calmList_iff (E : Env) (Q : Cond) (fs : List Field) (cs : List Child) :
    calmList E Q fs cs ↔ ∀ i ch, cs[i]? = some ch → calmChild E Q (paramsAt fs i) ch := by
  induction cs generalizing fs with
  | nil => simp [calmList]
  | cons ch cs ih =>
    rw [calmList_cons, ih]
    constructor
    · rintro ⟨h1, h2⟩ i c hc
      cases i with
      | zero => simp at hc; exact hc ▸ h1
      | succ i => rw [← paramsAt_tail]; exact h2 i c (by simpa using hc)
    · intro h
      exact ⟨h 0 ch (by simp), fun i c hc => by rw [paramsAt_tail]; exact h (i + 1) c (by simpa using hc)⟩

theorem calmList_append (E : Env) (Q : Cond) (fs : List Field) (cs : List Child) (ch : Child) (h : calmList E Q fs cs)
    (hc : calmChild E Q (paramsAt fs cs.length) ch) : calmList E Q fs (cs ++ [ch]) := by
  rw [calmList_iff] at *
  intro i c hi
  rcases Nat.lt_trichotomy i cs.length with hl | hl | hl
  · rw [List.getElem?_append_left hl] at hi; exact h i c hi
  · subst hl; simp at hi; exact hi ▸ hc
  · rw [List.getElem?_append_right (by omega)] at hi
    obtain ⟨k, hk⟩ : ∃ k, i - cs.length = k + 1 := ⟨i - cs.length - 1, by omega⟩
    rw [hk] at hi; simp at hi

theorem calmList_set (E : Env) (Q : Cond) (fs : List Field) (cs : List Child) (i : Nat) (v : Val) (h : calmList E Q fs cs)
    (hv : calm E Q v) : calmList E Q fs (cs.set i (.val v)) := by
  rw [calmList_iff] at *
  intro j c hj
  rw [List.getElem?_set] at hj
  split at hj
  · split at hj
    · cases hj; exact hv
    · cases hj
  · exact h j c hj

mutual
theorem calm_not_mutated (E : Env) (Q : Cond) : ∀ v : Val, calm E Q v → v.isMutated = false
  | .void, _ => rfl
  | .leaf _ _, _ => rfl
  | .node _ _ none _, h => by simpa [Val.isMutated] using h.1
  | .node c o (some cs) m, h => by
    have := calmList_not_mutated E Q (fieldsOf E c) cs h.2.2
    simp [Val.isMutated, h.1, this]
  | .choice _ _ _ _, _ => rfl
  | .any _ _ _ _, _ => rfl
  | .parsable _ _ _ _, _ => rfl
theorem calmList_not_mutated (E : Env) (Q : Cond) : ∀ (fs : List Field) (cs : List Child), calmList E Q fs cs → childrenMutated cs = false
  | _, [], _ => rfl
  | fs, .lazy _ _ _ :: cs, h => by
    simpa [childrenMutated] using calmList_not_mutated E Q fs.tail cs h.2
  | fs, .val v :: cs, h => by
    simp [childrenMutated, calm_not_mutated E Q v h.1, calmList_not_mutated E Q fs.tail cs h.2]
end

/-- `dump()` writes these bytes again. -/
inductive Keeps (E : Env) (Q : Cond) : Val → Bytes → Prop
  | leaf {c : ClassId} {s : LeafSt} {h cs : Bytes} : s.base.header = some h → headerEnds80 (some h) = false →
      s.base.contents = some cs → Keeps E Q (.leaf c s) (h ++ cs ++ s.base.trailer)
  | node {c : ClassId} {o : Obj Unit} {children : Option (List Child)} {m : Bool} {h cs : Bytes} : o.header = some h →
      headerEnds80 (some h) = false → o.contents = some cs → calm E Q (.node c o children m) →
      checkRequired E c children = .ok () → Keeps E Q (.node c o children m) (h ++ cs ++ o.trailer)
  | choice {c : ClassId} {o : Obj Unit} {alt : Option Nat} {v : Val} {h b : Bytes} : o.header = some h →
      headerEnds80 (some h) = false → Keeps E Q v b → Keeps E Q (.choice c o alt (some v)) (h ++ b)
  | any {c : ClassId} {o : Obj Unit} {parsed : Option Val} {pspec : Option ClassId} {h cs : Bytes} : o.header = some h →
      o.contents = some cs → (∀ v, parsed = some v → Keeps E Q v (h ++ cs ++ o.trailer)) →
      (parsed = none → ∀ w rest, Ber 11 w → h ++ cs ++ o.trailer = w.bytes ++ rest →
        rest = [] ∧ Tidy E none { explicit := o.explicit } w) →
      Keeps E Q (.any c o parsed pspec) (h ++ cs ++ o.trailer)
  | parsable {c : ClassId} {o : Obj Bytes} {parsed : Option Val} {pspec : Option ClassId} {h cs : Bytes} : o.header = some h →
      headerEnds80 (some h) = false → o.contents = some cs → o.indefinite = false →
      Keeps E Q (.parsable c o parsed pspec) (h ++ cs ++ o.trailer)

/-- What reading must not disturb. -/
structure Undisturbed (E : Env) (Q : Cond) (v v' : Val) : Prop where
  void : v'.isVoid = v.isVoid
  calm : calm E Q v → Asn1.calm E Q v'
  keeps : ∀ b, Keeps E Q v b → Keeps E Q v' b

theorem Undisturbed.refl (E : Env) (Q : Cond) (v : Val) : Undisturbed E Q v v := ⟨rfl, id, fun _ => id⟩

theorem Undisturbed.trans {E : Env} {Q : Cond} {v v' v'' : Val} (h : Undisturbed E Q v v') (h' : Undisturbed E Q v' v'') :
    Undisturbed E Q v v'' :=
  ⟨h'.void.trans h.void, fun hc => h'.calm (h.calm hc), fun b hb => h'.keeps b (h.keeps b hb)⟩

/-- The operations read without disturbing. -/
structure Reader (E : Env) (Q : Cond) (r : Ops) : Prop where
  native : ∀ {v x v'}, r.native v = .ok (x, v') → Undisturbed E Q v v'
  contents : ∀ {v x v'}, r.contents v = .ok (x, v') → Undisturbed E Q v v'
  dump : ∀ {v f b v'}, r.dump v f = .ok (b, v') → v'.isVoid = v.isVoid ∧ (calm E Q v → calm E Q v')
  keep : ∀ {v b b' v'}, Keeps E Q v b → r.dump v false = .ok (b', v') → b' = b ∧ Keeps E Q v' b
  plain : ∀ spec p, p.default = none → Q spec p
  build : ∀ {i spec p nested v}, Q spec p → r.build i spec p nested = .ok v →
    v.isVoid = false ∧ calm E Q v ∧ (nested = none → Ber 11 i.tlv → Tidy E spec p i.tlv → Keeps E Q v i.tlv.bytes)
  construct : ∀ {c p v}, IsPrim (E.cls c) → r.construct c p (.scalar .none) = .ok v → v.isVoid = false ∧ calm E Q v
  item : ∀ {v k x v'}, r.item v k = .ok (x, v') → Undisturbed E Q v v'

theorem Reader.zero (E : Env) (Q : Cond) (hQ : ∀ spec p, p.default = none → Q spec p) : Reader E Q Ops.zero where
  plain := hQ
  native h := by cases h
  contents h := by cases h
  dump h := by cases h
  keep _ h := by cases h
  build _ h := by cases h
  construct _ h := by cases h
  item h := by cases h

/-- The condition holds of what is met when children are parsed, and only primitive values are made from a DEFAULT. -/
structure Suits (E : Env) (Q : Cond) (r : Ops) : Prop where
  free : ∀ p, Q none p
  field : ∀ c proto bad s fields oid, E.cls c = .seq proto bad s fields oid → ∀ f ∈ fields, Q (some f.spec) f.params
  any : ∀ c proto bad s fields oid, E.cls c = .seq proto bad s fields oid → ∀ f ∈ fields, E.cls f.spec = .any →
    ∀ spec, Q spec f.params
  replaced : ∀ c proto bad s fields p, E.cls c = .seq proto bad s fields (some p) →
    ∀ f x c', fields[p.value]? = some f → p.choose x = .ok (.field c') → Q (some c') f.params
  prim : ∀ c proto bad s fields oid, E.cls c = .seq proto bad s fields oid → ∀ f ∈ fields, f.params.default.isSome = true →
    ∀ v, r.construct f.spec f.params (.scalar .none) = .ok v → IsPrim (E.cls f.spec)

section
variable {E : Env} {Q : Cond} {r : Ops} (hE : Suits E Q r) (hr : Reader E Q r)
include hr

theorem Reader.child {p : Params} {ch : Child} {v : Val} (h : buildChild r p ch = .ok v) (hc : calmChild E Q p ch) :
    calm E Q v ∧ v.isVoid = ch.isVoid := by
  cases ch with
  | lazy i spec nested =>
    obtain ⟨h1, h2, _⟩ := hr.build hc h
    exact ⟨h2, h1⟩
  | val w => cases h; exact ⟨hc, rfl⟩

theorem Reader.nativeFields (all : List Field) : ∀ (cs : List Child) (idx : Nat) (ns : List (String × PyVal)) (cs' : List Child),
    nativeFields r all idx cs = .ok (ns, cs') → calmList E Q (all.drop idx) cs →
    calmList E Q (all.drop idx) cs' ∧ cs'.map Child.isVoid = cs.map Child.isVoid := by
  intro cs
  induction cs with
  | nil =>
    intro idx ns cs' h hc
    cases h
    exact ⟨trivial, rfl⟩
  | cons ch cs ih =>
    intro idx ns cs' h hc
    simp only [Asn1.nativeFields, py_bind] at h
    obtain ⟨v, h1, ⟨x, v'⟩, h2, ⟨ns', cs1⟩, h3, h4⟩ := h
    cases h4
    rw [calmList_cons, paramsAt_drop, List.tail_drop] at hc
    obtain ⟨hv1, hv2⟩ := hr.child h1 hc.1
    have hu := hr.native h2
    obtain ⟨hi1, hi2⟩ := ih (idx + 1) _ _ h3 hc.2
    rw [calmList_cons, List.tail_drop]
    exact ⟨⟨hu.calm hv1, hi1⟩, by simp [Child.isVoid, hu.void, hv2, hi2]⟩

theorem Reader.nativeElements : ∀ (cs : List Child) (ns : List PyVal) (cs' : List Child),
    nativeElements r cs = .ok (ns, cs') → calmList E Q [] cs →
    calmList E Q [] cs' ∧ cs'.map Child.isVoid = cs.map Child.isVoid := by
  intro cs
  induction cs with
  | nil =>
    intro ns cs' h hc
    cases h
    exact ⟨trivial, rfl⟩
  | cons ch cs ih =>
    intro ns cs' h hc
    simp only [Asn1.nativeElements, py_bind] at h
    obtain ⟨v, h1, ⟨x, v'⟩, h2, ⟨ns', cs1⟩, h3, h4⟩ := h
    cases h4
    rw [calmList_cons] at hc
    obtain ⟨hv1, hv2⟩ := hr.child h1 hc.1
    have hu := hr.native h2
    obtain ⟨hi1, hi2⟩ := ih _ _ h3 hc.2
    rw [calmList_cons]
    exact ⟨⟨hu.calm hv1, hi1⟩, by simp [Child.isVoid, hu.void, hv2, hi2]⟩

theorem Reader.encodeElements (force : Bool) : ∀ (cs : List Child) (bs : List Bytes) (cs' : List Child),
    encodeElements r force cs = .ok (bs, cs') → calmList E Q [] cs → calmList E Q [] cs' := by
  intro cs
  induction cs with
  | nil =>
    intro ns cs' h hc
    cases h
    trivial
  | cons ch cs ih =>
    intro ns cs' h hc
    simp only [Asn1.encodeElements, py_bind] at h
    obtain ⟨v, h1, ⟨x, v'⟩, h2, ⟨ns', cs1⟩, h3, h4⟩ := h
    cases h4
    rw [calmList_cons] at hc
    obtain ⟨hv1, hv2⟩ := hr.child h1 hc.1
    rw [calmList_cons]
    exact ⟨(hr.dump h2).2 hv1, ih _ _ h3 hc.2⟩

theorem Reader.fieldEncoding (force : Bool) (f : Field) (ch ch' : Child) (b : Bytes)
    (h : fieldEncoding r force f ch = .ok (b, ch')) (hc : calmChild E Q f.params ch) : calmChild E Q f.params ch' := by
  cases hd : f.params.default with
  | none =>
    cases ch with
    | lazy i spec nested =>
      cases force with
      | true =>
        simp only [Asn1.fieldEncoding, hd, py_bind] at h
        obtain ⟨v, h1, ⟨x, v'⟩, h2, ⟨_, _⟩, h3, h4⟩ := h
        cases h3; cases h4
        exact (hr.dump h2).2 (hr.child (ch := .lazy _ _ _) h1 hc).1
      | false =>
        simp only [Asn1.fieldEncoding, hd, py_bind] at h
        obtain ⟨⟨_, _⟩, h3, h4⟩ := h
        cases h3; cases h4
        exact hc
    | val v =>
      simp only [Asn1.fieldEncoding, hd, py_bind] at h
      obtain ⟨⟨x, v'⟩, h2, ⟨_, _⟩, h3, h4⟩ := h
      cases h3; cases h4
      exact (hr.dump h2).2 hc
  | some d =>
    cases ch with
    | lazy i spec nested =>
      cases force with
      | true =>
        simp only [Asn1.fieldEncoding, hd, py_bind] at h
        obtain ⟨v, h1, ⟨x, v'⟩, h2, ⟨_, _⟩, h3, _, _, ⟨_, _⟩, _, h4⟩ := h
        cases h3; cases h4
        exact (hr.dump h2).2 (hr.child (ch := .lazy _ _ _) h1 hc).1
      | false =>
        simp only [Asn1.fieldEncoding, hd, py_bind] at h
        obtain ⟨⟨_, _⟩, h3, _, _, ⟨_, _⟩, _, h4⟩ := h
        cases h3; cases h4
        exact hc
    | val v =>
      simp only [Asn1.fieldEncoding, hd, py_bind] at h
      obtain ⟨⟨x, v'⟩, h2, ⟨_, _⟩, h3, _, _, ⟨_, _⟩, _, h4⟩ := h
      cases h3; cases h4
      exact (hr.dump h2).2 hc

theorem Reader.encodeFields (force : Bool) : ∀ (fs : List Field) (cs : List Child) (b : Bytes) (cs' : List Child),
    encodeFields r force fs cs = .ok (b, cs') → calmList E Q fs cs → calmList E Q fs cs' := by
  intro fs
  induction fs with
  | nil =>
    intro cs b cs' h hc
    cases h
    exact hc
  | cons f fs ih =>
    intro cs b cs' h hc
    cases cs with
    | nil => cases h
    | cons ch cs =>
      simp only [Asn1.encodeFields, py_bind] at h
      obtain ⟨⟨x, ch'⟩, h1, ⟨y, cs1⟩, h2, h3⟩ := h
      cases h3
      rw [calmList_cons] at hc ⊢
      exact ⟨hr.fieldEncoding force f ch ch' _ h1 hc.1, ih _ _ _ h2 hc.2⟩

theorem Reader.encodeSetFields (force : Bool) : ∀ (fs : List Field) (cs : List Child) (es : List (Option Nat × Bytes)) (cs' : List Child),
    encodeSetFields r force fs cs = .ok (es, cs') → calmList E Q fs cs → calmList E Q fs cs' := by
  intro fs
  induction fs with
  | nil =>
    intro cs b cs' h hc
    cases cs with
    | nil => cases h; exact hc
    | cons => cases h
  | cons f fs ih =>
    intro cs b cs' h hc
    cases cs with
    | nil => cases h; exact hc
    | cons ch cs =>
      cases ch with
      | lazy => cases h
      | val v =>
        rw [calmList_cons] at hc
        have key : ∀ (v' : Val) (b' : Bytes) (skip : Bool), calm E Q v' → (do
            let (es, chs) ← Asn1.encodeSetFields r force fs cs
            Except.ok (if skip = true then es else (v'.tagging.2.1, b') :: es, .val v' :: chs) : Py (List (Option Nat × Bytes) × List Child)) =
              .ok (b, cs') → calmList E Q (f :: fs) cs' := by
          intro v' b' skip hv hk
          simp only [py_bind] at hk
          obtain ⟨⟨y, cs1⟩, h2, h3⟩ := hk
          cases h3
          rw [calmList_cons]
          exact ⟨hv, ih _ _ _ h2 hc.2⟩
        simp only [Asn1.encodeSetFields] at h
        rw [py_bind] at h
        obtain ⟨⟨x, v'⟩, h1, h⟩ := h
        have hv := (hr.dump h1).2 hc.1
        simp only [] at h
        split at h
        · exact key v' x false hv h
        · simp only [py_bind] at h
          obtain ⟨d, _, ⟨db, _⟩, _, skip, _, h⟩ := h
          exact key v' x skip hv (py_bind.mpr h)

theorem Reader.encodeChildren (c : ClassId) (force : Bool) (cs : List Child) (b : Bytes) (cs' : List Child)
    (h : encodeChildren E r c force cs = .ok (b, cs')) (hc : calmList E Q (fieldsOf E c) cs) :
    calmList E Q (fieldsOf E c) cs' := by
  unfold Asn1.encodeChildren at h
  unfold fieldsOf at *
  split at h
  · next hE => rw [hE] at hc ⊢; exact hr.encodeFields force _ _ _ _ h hc
  · next hE =>
    rw [hE] at hc ⊢
    simp only [py_bind] at h
    obtain ⟨⟨es, cs1⟩, h1, bs, h2, h3⟩ := h
    cases h3
    exact hr.encodeSetFields force _ _ _ _ h1 hc
  · next hE =>
    rw [hE] at hc ⊢
    simp only [py_bind] at h
    obtain ⟨⟨es, cs1⟩, h1, h3⟩ := h
    cases h3
    exact hr.encodeElements force _ _ _ h1 hc
  · next hE =>
    rw [hE] at hc ⊢
    simp only [py_bind] at h
    obtain ⟨⟨es, cs1⟩, h1, h3⟩ := h
    cases h3
    exact hr.encodeElements force _ _ _ h1 hc
  · cases h

/-! ### Parsing children -/

/-- A child that is absent belongs to an optional or default field. -/
def Spared (fs : List Field) (cs : List Child) : Prop :=
  ∀ (i : Nat) (f : Field) (ch : Child), fs[i]? = some f → cs[i]? = some ch → ch.isVoid = true → (f.params.default.isSome || f.params.optional) = true

omit hr in
theorem Spared.append {fs : List Field} {cs : List Child} {ch : Child} (h : Spared fs cs)
    (hc : ∀ f, fs[cs.length]? = some f → ch.isVoid = true → (f.params.default.isSome || f.params.optional) = true) :
    Spared fs (cs ++ [ch]) := by
  intro i f c hf hi hv
  rcases Nat.lt_trichotomy i cs.length with hl | hl | hl
  · rw [List.getElem?_append_left hl] at hi; exact h i f c hf hi hv
  · subst hl; simp at hi; subst hi; exact hc f hf hv
  · rw [List.getElem?_append_right (by omega)] at hi
    obtain ⟨k, hk⟩ : ∃ k, i - cs.length = k + 1 := ⟨i - cs.length - 1, by omega⟩
    rw [hk] at hi; simp at hi

omit hr in
theorem Spared.set {fs : List Field} {cs : List Child} {i : Nat} {ch ch' : Child} (h : Spared fs cs)
    (hi : cs[i]? = some ch) (hv : ch'.isVoid = ch.isVoid) : Spared fs (cs.set i ch') := by
  intro j f c hf hj hc
  rw [List.getElem?_set] at hj
  split at hj
  · next he =>
    subst he
    split at hj
    · cases hj; exact h _ f ch hf hi (hv ▸ hc)
    · cases hj
  · exact h j f c hf hj hc

omit hr in
theorem requiredPresent_iff (fs : List Field) (cs : List Child) :
    requiredPresent fs cs = .ok () ↔ fs.length ≤ cs.length ∧ Spared fs cs := by
  induction fs generalizing cs with
  | nil => simp [requiredPresent, Spared]
  | cons f fs ih =>
    cases cs with
    | nil => simp [requiredPresent]
    | cons ch cs =>
      have hS : Spared (f :: fs) (ch :: cs) ↔
          (ch.isVoid = true → (f.params.default.isSome || f.params.optional) = true) ∧ Spared fs cs := by
        constructor
        · intro h
          exact ⟨fun hv => h 0 f ch (by simp) (by simp) hv, fun i f c hf hi hv => h (i + 1) f c (by simpa using hf) (by simpa using hi) hv⟩
        · rintro ⟨h1, h2⟩ i f' c hf hi hv
          cases i with
          | zero => simp at hf hi; subst hf; subst hi; exact h1 hv
          | succ i => exact h2 i f' c (by simpa using hf) (by simpa using hi) hv
      rw [hS]
      have hrest : (match ch with | .val .void => False | _ => True) → (requiredPresent (f :: fs) (ch :: cs) = .ok () ↔
          (f :: fs).length ≤ (ch :: cs).length ∧ (ch.isVoid = true → (f.params.default.isSome || f.params.optional) = true) ∧ Spared fs cs) := by
        intro hn
        have h1 : requiredPresent (f :: fs) (ch :: cs) = requiredPresent fs cs := by
          cases ch with
          | lazy => rfl
          | val v => cases v <;> first | rfl | exact hn.elim
        have h2 : ch.isVoid = false := by
          cases ch with
          | lazy => rfl
          | val v => cases v <;> first | rfl | exact hn.elim
        rw [h1, ih, h2]
        simp
      cases ch with
      | lazy => exact hrest trivial
      | val v =>
        cases v
        case void =>
          simp only [requiredPresent, Child.isVoid, Val.isVoid, forall_true_left]
          by_cases hb : (f.params.default.isSome || f.params.optional) = true
          · rw [if_pos hb, ih]; simp [hb]
          · rw [if_neg hb]; simp [hb]
        all_goals exact hrest trivial

omit hr in
theorem map_isVoid_set {cs : List Child} {i : Nat} {ch ch' : Child} (hi : cs[i]? = some ch) (hv : ch'.isVoid = ch.isVoid) :
    (cs.set i ch').map Child.isVoid = cs.map Child.isVoid := by
  induction cs generalizing i with
  | nil => rfl
  | cons c cs ih =>
    cases i with
    | zero => simp at hi; subst hi; simp [hv]
    | succ i => simp [ih (by simpa using hi)]

/-- Children in the course of parsing: the fields that remain are those behind them. -/
structure Parsing (E : Env) (Q : Cond) (all fs : List Field) (cs : List Child) : Prop where
  rest : fs = all.drop cs.length
  calm : calmList E Q all cs
  spared : Spared all cs

theorem Reader.decisive {sub : Option Nat} {v v' : Val} {n : PyVal} (h : decisive r sub v = .ok (n, v')) : Undisturbed E Q v v' := by
  cases sub with
  | none => exact hr.native h
  | some k =>
    simp only [Asn1.decisive, py_bind] at h
    obtain ⟨⟨x, w⟩, h1, ⟨m, y⟩, _, h⟩ := h
    cases h
    exact hr.item h1

theorem Reader.oidOverride (all : List Field) (oid : Option OidPair) (idx : Nat) (cs cs' : List Child) (ov : Pick)
    (h : oidOverride r all oid idx cs = .ok (ov, cs')) (hc : calmList E Q all cs) :
    calmList E Q all cs' ∧ cs'.map Child.isVoid = cs.map Child.isVoid ∧ (∀ fs, Spared fs cs → Spared fs cs') ∧
    (∀ k, ov = .field k → ∃ p x, oid = some p ∧ p.value = idx ∧ p.choose x = .ok (.field k)) := by
  unfold Asn1.oidOverride at h
  split at h
  · cases h; exact ⟨hc, rfl, fun _ => id, fun k hk => by cases hk⟩
  · next p =>
    split at h
    · next hval =>
      split at h
      · cases h
      · next ch hch =>
        simp only [py_bind] at h
        obtain ⟨v, h1, ⟨n, v'⟩, h2, pick, h4, h3⟩ := h
        have hcc := (calmList_iff E Q all cs).mp hc p.oid ch hch
        obtain ⟨hv1, hv2⟩ := hr.child h1 hcc
        have hu := hr.decisive h2
        have hvoid : (Child.val v').isVoid = ch.isVoid := hu.void.trans hv2
        cases h3
        refine ⟨calmList_set E Q all cs p.oid v' hc (hu.calm hv1), ?_, fun fs hs => hs.set hch hvoid, fun k hk => ?_⟩
        · exact map_isVoid_set hch hvoid
        · subst hk
          exact ⟨p, n, rfl, hval, h4⟩
    · cases h; exact ⟨hc, rfl, fun _ => id, fun k hk => by cases hk⟩

omit hr in
theorem specOk_default_none {spec : Option ClassId} {p : Params} (h : p.default = none) : SpecOk E spec p := fun _ _ _ => .inl h

omit hr in
theorem fieldAbsent_true {f : Field} {i : Info} (h : fieldAbsent E f i = .ok true) :
    (f.params.default.isSome || f.params.optional) = true := by
  unfold fieldAbsent at h
  split at h
  · next hb =>
    simp only [Bool.and_eq_true] at hb
    rw [Bool.or_comm]; exact hb.1
  · cases h

include hE in
theorem Reader.placeElement {c : ClassId} {proto : Obj Unit} {bad : List Nat} {s : Bool} {all : List Field} {oid : Option OidPair}
    (hcls : E.cls c = .seq proto bad s all oid) (i : Info) : ∀ (fs : List Field) (cs : List Child) (fs' : List Field)
    (cs' : List Child), Parsing E Q all fs cs → placeElement E r all oid i fs cs = .ok (fs', cs') → Parsing E Q all fs' cs' := by
  intro fs
  induction fs with
  | nil =>
    intro cs fs' cs' hp h
    cases h
    have hlen : all.length ≤ cs.length := by
      have := hp.rest
      rw [eq_comm, List.drop_eq_nil_iff] at this; exact this
    refine ⟨?_, ?_, ?_⟩
    · rw [eq_comm, List.drop_eq_nil_iff]; simp; omega
    · refine calmList_append E Q all cs _ hp.calm ?_
      exact hE.free _
    · refine hp.spared.append ?_
      intro f _ hv; cases hv
  | cons f fs ih =>
    intro cs fs' cs' hp h
    simp only [Asn1.placeElement, py_bind] at h
    obtain ⟨⟨ov, cs1⟩, h1, ab, h2, h3⟩ := h
    obtain ⟨hc1, hv1, hs1, hpk⟩ := hr.oidOverride all oid _ cs cs1 ov h1 hp.calm
    have hlen : cs1.length = cs.length := by simpa using congrArg List.length hv1
    have hget : all[cs.length]? = some f := by
      have := congrArg List.head? hp.rest
      simpa using this.symm
    have hmem : f ∈ all := List.mem_of_getElem? hget
    have hfs : fs = all.drop (cs.length + 1) := by
      have := congrArg List.tail hp.rest
      simpa using this
    have hpar : paramsAt all cs1.length = f.params := by simp [paramsAt, hlen, hget]
    have put : ∀ ch, calmChild E Q f.params ch → (ch.isVoid = true → (f.params.default.isSome || f.params.optional) = true) →
        Parsing E Q all fs (cs1 ++ [ch]) := by
      intro ch hc hv
      refine ⟨by simp [hlen, hfs], calmList_append E Q all cs1 ch hc1 (by rw [hpar]; exact hc), (hs1 all hp.spared).append ?_⟩
      intro f' hf' hv'
      rw [hlen, hget] at hf'; cases hf'; exact hv hv'
    simp only [] at h3
    split at h3
    · next hab =>
      subst hab
      split at h3
      · next ho =>
        exact ih _ _ _ (put (.val .void) trivial (fun _ => by simp [ho])) h3
      · next ho =>
        simp only [py_bind] at h3
        obtain ⟨d, h4, h5⟩ := h3
        have hd : f.params.default.isSome = true := by
          have := fieldAbsent_true h2
          simpa [ho] using this
        obtain ⟨hd1, hd2⟩ := hr.construct (hE.prim c proto bad s all oid hcls f hmem hd _ h4) h4
        exact ih _ _ _ (put (.val d) hd2 (fun hv => by rw [Child.isVoid, hd1] at hv; cases hv)) h5
    · split at h3
      · next k hany =>
        cases h3
        refine put _ ?_ (fun hv => by cases hv)
        exact hE.any _ _ _ _ _ _ hcls _ hmem hany _
      · cases h3
        exact put _ (hE.field _ _ _ _ _ _ hcls _ hmem) (fun hv => by cases hv)
      · next k =>
        cases h3
        obtain ⟨p, x, rfl, hval, hch⟩ := hpk k rfl
        refine put _ ?_ (fun hv => by cases hv)
        exact hE.replaced c proto bad s all p hcls f x k (by rw [hval]; exact hget) hch
      · cases h3
        exact put _ (hE.field _ _ _ _ _ _ hcls _ hmem) (fun hv => by cases hv)

include hE in
theorem Reader.seqLoop {c : ClassId} {proto : Obj Unit} {bad : List Nat} {s : Bool} {all : List Field} {oid : Option OidPair}
    (hcls : E.cls c = .seq proto bad s all oid) (data : Bytes) : ∀ (n p : Nat) (fs : List Field) (cs : List Child)
    (fs' : List Field) (cs' : List Child), Parsing E Q all fs cs → seqLoop E r all oid data n p fs cs = .ok (fs', cs') →
    Parsing E Q all fs' cs' := by
  intro n
  induction n with
  | zero => intro p fs cs fs' cs' _ h; cases h
  | succ n ih =>
    intro p fs cs fs' cs' hp h
    simp only [Asn1.seqLoop] at h
    split at h
    · simp only [py_bind] at h
      obtain ⟨⟨i, q⟩, _, ⟨fs1, cs1⟩, h1, h2⟩ := h
      exact ih _ _ _ _ _ (hr.placeElement hE hcls i _ _ _ _ hp h1) h2
    · cases h; exact hp

include hE in
theorem Reader.fillAbsent {c : ClassId} {proto : Obj Unit} {bad : List Nat} {s : Bool} {all : List Field} {oid0 : Option OidPair}
    (hcls : E.cls c = .seq proto bad s all oid0) : ∀ (fs : List Field) (cs cs' : List Child),
    Parsing E Q all fs cs → fillAbsent r fs cs = .ok cs' → Parsing E Q all [] cs' := by
  intro fs
  induction fs with
  | nil => intro cs cs' hp h; cases h; exact hp
  | cons f fs ih =>
    intro cs cs' hp h
    have hget : all[cs.length]? = some f := by
      have := congrArg List.head? hp.rest
      simpa using this.symm
    have hmem : f ∈ all := List.mem_of_getElem? hget
    have hfs : fs = all.drop (cs.length + 1) := by
      have := congrArg List.tail hp.rest
      simpa using this
    have hpar : paramsAt all cs.length = f.params := by simp [paramsAt, hget]
    have put : ∀ ch, calmChild E Q f.params ch → (ch.isVoid = true → (f.params.default.isSome || f.params.optional) = true) →
        Parsing E Q all fs (cs ++ [ch]) := by
      intro ch hc hv
      refine ⟨by simp [hfs], calmList_append E Q all cs ch hp.calm (by rw [hpar]; exact hc), hp.spared.append ?_⟩
      intro f' hf' hv'
      rw [hget] at hf'; cases hf'; exact hv hv'
    simp only [Asn1.fillAbsent] at h
    split at h
    · next hd =>
      simp only [py_bind] at h
      obtain ⟨d, h4, h5⟩ := h
      obtain ⟨hd1, hd2⟩ := hr.construct (hE.prim c proto bad s all oid0 hcls f hmem hd _ h4) h4
      exact ih _ _ (put (.val d) hd2 (fun hv => by rw [Child.isVoid, hd1] at hv; cases hv)) h5
    · split at h
      · next ho => exact ih _ _ (put (.val .void) trivial (fun _ => by simp [ho])) h
      · cases h

omit hr in
theorem Parsing.required {all : List Field} {cs : List Child} (h : Parsing E Q all [] cs) : requiredPresent all cs = .ok () := by
  rw [requiredPresent_iff]
  refine ⟨?_, h.spared⟩
  have := h.rest
  rw [eq_comm, List.drop_eq_nil_iff] at this; exact this

/-- The slots of a Set in the course of parsing. -/
def SlotsOk (E : Env) (Q : Cond) (fs : List Field) (slots : List (Option Child)) : Prop :=
  ∀ (i : Nat) (ch : Child), slots[i]? = some (some ch) → calmChild E Q (paramsAt fs i) ch ∧ ch.isVoid = false

omit hr in
include hE in
theorem setLoop_slots {c : ClassId} {proto : Obj Unit} {bad : List Nat} {s : Bool} {all : List Field} {oid0 : Option OidPair}
    (hcls : E.cls c = .seq proto bad s all oid0) (data : Bytes) : ∀ (n p : Nat) (slots slots' : List (Option Child)),
    SlotsOk E Q all slots → setLoop E r all data n p slots = .ok slots' → SlotsOk E Q all slots' := by
  intro n
  induction n with
  | zero => intro p sl sl' _ h; cases h
  | succ n ih =>
    intro p sl sl' hs h
    simp only [setLoop] at h
    split at h
    · simp only [py_bind] at h
      obtain ⟨⟨i, q⟩, _, h⟩ := h
      simp only [] at h
      split at h
      · cases h
      · next f idx hf =>
        refine ih _ _ _ ?_ h
        have hmem := List.mem_of_find?_eq_some hf
        rw [List.mem_reverse, List.mem_zipIdx_iff_getElem?] at hmem
        simp only [] at hmem
        intro j ch hj
        rw [List.getElem?_set] at hj
        split at hj
        · next he =>
          subst he
          split at hj
          · cases hj
            refine ⟨?_, rfl⟩
            have : paramsAt all idx = f.params := by simp [paramsAt, hmem]
            rw [this]
            exact hE.field _ _ _ _ _ _ hcls _ (List.mem_of_getElem? hmem)
          · cases hj
        · exact hs j ch hj
    · cases h; exact hs

include hE in
theorem Reader.setFill {c : ClassId} {proto : Obj Unit} {bad : List Nat} {s : Bool} {all : List Field} {oid0 : Option OidPair}
    (hcls : E.cls c = .seq proto bad s all oid0) : ∀ (fs : List Field) (slots : List (Option Child)) (cs : List Child),
    (∀ f ∈ fs, f ∈ all) → SlotsOk E Q fs slots → setFill r fs slots = .ok cs → calmList E Q fs cs ∧ requiredPresent fs cs = .ok () := by
  intro fs
  induction fs with
  | nil => intro sl cs _ _ h; cases h; exact ⟨trivial, rfl⟩
  | cons f fs ih =>
    intro sl cs hsub hs h
    have htail : SlotsOk E Q fs sl.tail := by
      intro i ch hi
      have := hs (i + 1) ch (by cases sl with
        | nil => simp at hi
        | cons => simpa using hi)
      rwa [← paramsAt_tail] at this
    have hsub' : ∀ g ∈ fs, g ∈ all := fun g hg => hsub g (List.mem_cons_of_mem _ hg)
    have hpar : paramsAt (f :: fs) 0 = f.params := rfl
    have hreq : ∀ (ch : Child) (cs1 : List Child), calmChild E Q f.params ch →
        (ch.isVoid = true → (f.params.default.isSome || f.params.optional) = true) → calmList E Q fs cs1 →
        requiredPresent fs cs1 = .ok () → calmList E Q (f :: fs) (ch :: cs1) ∧ requiredPresent (f :: fs) (ch :: cs1) = .ok () := by
      intro ch cs1 h1 h2 h3 h4
      refine ⟨(calmList_cons ..).mpr ⟨h1, h3⟩, ?_⟩
      rw [requiredPresent_iff] at h4 ⊢
      refine ⟨by simpa using h4.1, ?_⟩
      intro i g c hg hc hv
      cases i with
      | zero => simp at hg hc; subst hg; subst hc; exact h2 hv
      | succ i => exact h4.2 i g c (by simpa using hg) (by simpa using hc) hv
    have hrest : (match sl with | some _ :: _ => False | _ => True) → calmList E Q (f :: fs) cs ∧ requiredPresent (f :: fs) cs = .ok () := by
      intro hn
      have heq : Asn1.setFill r (f :: fs) sl = (do
          if f.params.optional then do
            let cs ← Asn1.setFill r fs sl.tail
            .ok (.val .void :: cs)
          else if f.params.default.isSome then do
            let d ← r.construct f.spec f.params (.scalar .none)
            let cs ← Asn1.setFill r fs sl.tail
            .ok (.val d :: cs)
          else .error .valueError) := by
        cases sl with
        | nil => rfl
        | cons a sl => cases a with
          | none => rfl
          | some => exact hn.elim
      rw [heq] at h
      split at h
      · next ho =>
        simp only [py_bind] at h
        obtain ⟨cs1, h1, h2⟩ := h
        cases h2
        obtain ⟨h3, h4⟩ := ih _ _ hsub' htail h1
        exact hreq (.val .void) cs1 trivial (fun _ => by simp [ho]) h3 h4
      · split at h
        · next hd =>
          simp only [py_bind] at h
          obtain ⟨d, h0, cs1, h1, h2⟩ := h
          cases h2
          obtain ⟨h3, h4⟩ := ih _ _ hsub' htail h1
          obtain ⟨hd1, hd2⟩ := hr.construct (hE.prim c proto bad s all oid0 hcls f (hsub f (by simp)) hd _ h0) h0
          exact hreq (.val d) cs1 hd2 (fun hv => by rw [Child.isVoid, hd1] at hv; cases hv) h3 h4
        · cases h
    cases sl with
    | nil => exact hrest trivial
    | cons a sl =>
      cases a with
      | none => exact hrest trivial
      | some ch =>
        simp only [Asn1.setFill, py_bind] at h
        obtain ⟨cs1, h1, h2⟩ := h
        cases h2
        obtain ⟨h3, h4⟩ := ih _ _ hsub' htail h1
        obtain ⟨h5, h6⟩ := hs 0 ch (by simp)
        exact hreq ch cs1 h5 (fun hv => by rw [h6] at hv; cases hv) h3 h4

theorem Reader.elementLoop_calm (spec : Option ClassId) (data : Bytes) : ∀ (n p : Nat) (cs cs' : List Child),
    calmList E Q [] cs → elementLoop spec data n p cs = .ok cs' → calmList E Q [] cs' := by
  intro n
  induction n with
  | zero => intro p cs cs' _ h; cases h
  | succ n ih =>
    intro p cs cs' hc h
    simp only [elementLoop] at h
    split at h
    · simp only [py_bind] at h
      obtain ⟨⟨i, q⟩, _, h⟩ := h
      exact ih _ _ _ (calmList_append E Q [] cs (.lazy i spec none) hc (hr.plain _ (paramsAt [] cs.length) rfl)) h
    · cases h; exact hc

include hE in
/-- Children parsed from contents are calm, and none that is required is missing. -/
theorem Reader.parseChildren (c : ClassId) (data : Bytes) (cs : List Child) (h : parseChildren E r c (some data) = .ok cs) :
    calmList E Q (fieldsOf E c) cs ∧ checkRequired E c (some cs) = .ok () := by
  unfold Asn1.parseChildren at h
  unfold fieldsOf checkRequired
  split at h
  · next hcls =>
    simp only [parseSeq, py_bind] at h
    obtain ⟨⟨rest, cs1⟩, h1, h2⟩ := h
    have hp := hr.seqLoop hE hcls data _ _ _ _ _ _ ⟨by simp, calmList_nil E Q _, by intro i f ch _ hi; simp at hi⟩ h1
    have hf := hr.fillAbsent hE hcls _ _ _ hp h2
    simp only [hcls]
    exact ⟨hf.calm, hf.required⟩
  · next hcls =>
    simp only [parseSet, py_bind] at h
    obtain ⟨slots, h1, h2⟩ := h
    have hs := setLoop_slots hE hcls data _ _ _ _ (by
      intro i ch hi
      rw [List.getElem?_map] at hi
      cases hx : (‹List Field›)[i]? <;> simp [hx] at hi) h1
    simp only [hcls]
    exact hr.setFill hE hcls _ _ _ (fun _ => id) hs h2
  · next hcls =>
    simp only [parseSeqOf] at h
    simp only [hcls]
    exact ⟨hr.elementLoop_calm _ _ _ _ _ _ (calmList_nil E Q _) h, trivial⟩
  · cases h

include hE in
theorem Reader.ensure (c : ClassId) (o : Obj Unit) (children : Option (List Child)) (m : Bool) (cs : List Child)
    (h : ensureChildren E r c o children = .ok cs) (hc : calm E Q (.node c o children m)) :
    calmList E Q (fieldsOf E c) cs ∧ (checkRequired E c children = .ok () → checkRequired E c (some cs) = .ok ()) := by
  cases children with
  | some cs0 => cases h; exact ⟨hc.2.2, id⟩
  | none =>
    obtain ⟨data, hd⟩ := Option.isSome_iff_exists.mp hc.2
    simp only [ensureChildren, hd] at h
    obtain ⟨h1, h2⟩ := hr.parseChildren hE c data cs h
    exact ⟨h1, fun _ => h2⟩

include hE in
theorem Reader.setContents (c : ClassId) (o o' : Obj Unit) (children : Option (List Child)) (m : Bool) (force : Bool) (cs : List Child)
    (h : setContents E r c o children force = .ok (o', cs)) (hc : calm E Q (.node c o children m)) :
    calm E Q (.node c o' (some cs) false) := by
  simp only [Asn1.setContents, py_bind] at h
  obtain ⟨cs0, h1, ⟨b, cs1⟩, h2, h3⟩ := h
  cases h3
  obtain ⟨h4, _⟩ := hr.ensure hE c o children m cs0 h1 hc
  exact ⟨rfl, rfl, hr.encodeChildren c force _ _ _ h2 h4⟩

omit hr in
theorem nodeContents_calm (c : ClassId) (o : Obj Unit) (children : Option (List Child)) (m : Bool)
    (hc : calm E Q (.node c o children m)) : nodeContents E r c o children m = .ok (o, children, m) := by
  cases children with
  | none => rfl
  | some cs =>
    simp only [nodeContents, calm_not_mutated E Q _ hc, Bool.false_eq_true, if_false]

omit hr in
theorem asn1Dump_contents {ν : Type} {k : Bool} {o o' : Obj ν} {b : Bytes} {f : Bool} (h : asn1Dump k o f = .ok (b, o')) :
    o'.contents = o.contents := by
  unfold asn1Dump at h
  split at h
  · cases h
  · split at h
    · cases h; rfl
    · simp only [py_bind] at h
      obtain ⟨h1, _, h2, _, h3⟩ := h
      cases h3
      split <;> rfl

omit hr in
theorem calm_node_obj {c : ClassId} {o o' : Obj Unit} {children : Option (List Child)} {m : Bool}
    (hc : calm E Q (.node c o children m)) (h : o'.contents = o.contents) : calm E Q (.node c o' children m) := by
  cases children with
  | none => exact ⟨hc.1, by rw [h]; exact hc.2⟩
  | some cs => exact ⟨hc.1, by rw [h]; exact hc.2.1, hc.2.2⟩

omit hr in
theorem nodeDump_node {c : ClassId} {o : Obj Unit} {children : Option (List Child)} {m f : Bool} {b : Bytes} {v : Val}
    (h : nodeDump E r c o children m f = .ok (b, v)) : ∃ o' cs' m', v = .node c o' cs' m' := by
  simp only [nodeDump] at h
  split at h
  · simp only [py_bind] at h
    obtain ⟨a1, _, a2, _, _, _, a3, _, a4, _, h⟩ := h
    cases h; exact ⟨_, _, _, rfl⟩
  · simp only [py_bind] at h
    obtain ⟨_, _, _, _, a3, _, a4, _, h⟩ := h
    cases h; exact ⟨_, _, _, rfl⟩

include hE in
theorem Reader.nodeDump {c : ClassId} {o : Obj Unit} {children : Option (List Child)} {m f : Bool} {b : Bytes} {v : Val}
    (h : nodeDump E r c o children m f = .ok (b, v)) (hc : calm E Q (.node c o children m)) : calm E Q v := by
  simp only [Asn1.nodeDump] at h
  split at h
  · simp only [py_bind] at h
    obtain ⟨⟨o1, cs1⟩, h1, ⟨_, _, _⟩, h2, _, h3, ⟨_, _, _⟩, h4, ⟨_, _⟩, h5, h⟩ := h
    cases h2; cases h
    have hc1 := hr.setContents hE c o o1 children m true cs1 h1 hc
    rw [nodeContents_calm c _ _ _ hc1] at h4
    cases h4
    exact calm_node_obj hc1 (asn1Dump_contents h5)
  · simp only [py_bind] at h
    obtain ⟨⟨_, _, _⟩, h2, _, h3, ⟨_, _, _⟩, h4, ⟨_, _⟩, h5, h⟩ := h
    cases h2; cases h
    rw [nodeContents_calm c _ _ _ hc] at h4
    cases h4
    exact calm_node_obj hc (asn1Dump_contents h5)

end

end Asn1
