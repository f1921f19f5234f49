import Verif.Lemmas.Name

namespace Asn1.Names
open Asn1 Spec

/-- Values that are equal in Python have the same key. -/
def Prepped.key : Prepped → Str ⊕ Option Int
  | .str s => .inl s
  | .int i => .inr (some i)
  | .bool b => .inr (some (if b then 1 else 0))
  | .none => .inr .none

theorem Prepped.eq_iff (a b : Prepped) : a.eq b = true ↔ a.key = b.key := by
  cases a <;> cases b <;> simp [Prepped.eq, Prepped.key]
  case bool.bool a b => cases a <;> cases b <;> simp

variable (T : Tables)

/-- Types and prepared values of an RDN. -/
def Ready (r : List Attr) (ps : List (Str × Prepped)) : Prop :=
  List.Forall₂ (fun a p => p.1 = a.type ∧ prepped T a.value = .ok p.2) r ps

theorem getValues_ok (r : List Attr) (d v : List (Str × Prepped)) :
    getValues T r d = .ok v ↔ ∃ ps, Ready T r ps ∧ v = dict d ps := by
  induction r generalizing d with
  | nil =>
    constructor
    · intro h; exact ⟨[], .nil, (Except.ok.inj h).symm⟩
    · rintro ⟨ps, h, rfl⟩; cases h; rfl
  | cons a as ih =>
    simp only [getValues]
    constructor
    · intro h
      cases hp : prepped T a.value with
      | error e => rw [hp] at h; cases h
      | ok p =>
        rw [hp] at h
        obtain ⟨ps, h1, h2⟩ := (ih _).1 h
        exact ⟨(a.type, p) :: ps, .cons ⟨rfl, hp⟩ h1, h2⟩
    · rintro ⟨ps, h, rfl⟩
      cases h with
      | @cons _ p _ ps h1 h2 =>
        obtain ⟨p1, p2⟩ := p
        obtain ⟨h3, h4⟩ := h1
        cases h3
        rw [h4]
        exact (ih _).2 ⟨ps, h2, rfl⟩

theorem Ready.keys {r : List Attr} {ps : List (Str × Prepped)} (h : Ready T r ps) : ps.map Prod.fst = getTypes r := by
  induction h with
  | nil => rfl
  | cons h1 _ ih => unfold getTypes at ih ⊢; rw [List.map_cons, List.map_cons, h1.1, ih]

/-- The same types. -/
def SameTypes (a b : List Attr) : Prop := ∀ t, t ∈ getTypes a ↔ t ∈ getTypes b

theorem sameTypes_iff (a b : List Attr) :
    ((getTypes a).all (getTypes b).contains = true ∧ (getTypes b).all (getTypes a).contains = true) ↔ SameTypes a b := by
  simp only [List.all_eq_true, List.contains_iff_mem, SameTypes]
  exact ⟨fun h t => ⟨h.1 t, h.2 t⟩, fun h => ⟨fun t => (h t).1, fun t => (h t).2⟩⟩

/-- All values agree. -/
def agree (va vb : List (Str × Prepped)) (t : Str) : Bool := ((look va t).getD .none).eq ((look vb t).getD .none)

theorem rdnEq_eq (a b : List Attr) (hl : a.length = b.length) (ht : SameTypes a b) :
    rdnEq T a b = (do
      let va ← getValues T a []
      let vb ← getValues T b []
      .ok ((getTypes a).all (agree va vb))) := by
  unfold rdnEq
  rw [if_neg (by simpa using hl), if_neg (by rw [not_not]; exact (sameTypes_iff a b).2 ht)]
  rfl

theorem agree_iff (va vb : List (Str × Prepped)) (t : Str) :
    agree va vb t = true ↔ ((look va t).getD .none).key = ((look vb t).getD .none).key := Prepped.eq_iff _ _

theorem rdnEq_ok (a b : List Attr) (r : Bool) : rdnEq T a b = .ok r ↔
    (a.length ≠ b.length ∧ r = false) ∨ (a.length = b.length ∧ ¬ SameTypes a b ∧ r = false) ∨
    (a.length = b.length ∧ SameTypes a b ∧ ∃ va vb, getValues T a [] = .ok va ∧ getValues T b [] = .ok vb ∧
      (r = true ↔ ∀ t ∈ getTypes a, ((look va t).getD .none).key = ((look vb t).getD .none).key)) := by
  by_cases hl : a.length = b.length
  · by_cases ht : SameTypes a b
    · rw [rdnEq_eq T a b hl ht]
      simp only [hl, ht, ne_eq, not_true_eq_false, false_and, true_and, false_or]
      constructor
      · intro h
        cases ha : getValues T a [] with
        | error e => rw [ha] at h; cases h
        | ok va =>
          cases hb : getValues T b [] with
          | error e => rw [ha, hb] at h; cases h
          | ok vb =>
            rw [ha, hb] at h
            refine ⟨va, vb, rfl, rfl, ?_⟩
            rw [← Except.ok.inj h, List.all_eq_true]
            simp only [agree_iff]
      · rintro ⟨va, vb, ha, hb, hr⟩
        rw [ha, hb]
        show Except.ok _ = Except.ok r
        congr 1
        rw [Bool.eq_iff_iff, hr, List.all_eq_true]
        simp only [agree_iff]
    · have : ¬ ((getTypes a).all (getTypes b).contains = true ∧ (getTypes b).all (getTypes a).contains = true) :=
        fun h => ht ((sameTypes_iff a b).1 h)
      unfold rdnEq
      rw [if_neg (by simpa using hl), if_pos this]
      simp only [hl, ht, ne_eq, not_true_eq_false, false_and, true_and, false_or, or_false, not_false_eq_true,
        Except.ok.injEq]
      exact eq_comm
  · unfold rdnEq
    rw [if_pos hl]
    simp only [hl, ne_eq, not_false_eq_true, true_and, false_and, or_false, Except.ok.injEq]
    exact eq_comm

theorem rdnEq_true (a b : List Attr) : rdnEq T a b = .ok true ↔
    a.length = b.length ∧ SameTypes a b ∧ ∃ va vb, getValues T a [] = .ok va ∧ getValues T b [] = .ok vb ∧
      ∀ t ∈ getTypes a, ((look va t).getD .none).key = ((look vb t).getD .none).key := by
  rw [rdnEq_ok]
  simp

theorem rdnEq_symm (a b : List Attr) (r : Bool) (h : rdnEq T a b = .ok r) : rdnEq T b a = .ok r := by
  rw [rdnEq_ok] at h ⊢
  rcases h with ⟨h1, h2⟩ | ⟨h1, h2, h3⟩ | ⟨h1, h2, va, vb, ha, hb, hr⟩
  · exact Or.inl ⟨fun h => h1 h.symm, h2⟩
  · exact Or.inr (Or.inl ⟨h1.symm, fun h => h2 fun t => (h t).symm, h3⟩)
  · exact Or.inr (Or.inr ⟨h1.symm, fun t => (h2 t).symm, vb, va, hb, ha, hr.trans
      ⟨fun h t ht => (h t ((h2 t).2 ht)).symm, fun h t ht => (h t ((h2 t).1 ht)).symm⟩⟩)

theorem rdnEq_trans (a b c : List Attr) (h : rdnEq T a b = .ok true) (h' : rdnEq T b c = .ok true) :
    rdnEq T a c = .ok true := by
  rw [rdnEq_true] at h h' ⊢
  obtain ⟨h1, h2, va, vb, ha, hb, hr⟩ := h
  obtain ⟨h1', h2', vb', vc, hb', hc, hr'⟩ := h'
  cases Except.ok.inj (hb.symm.trans hb')
  exact ⟨h1.trans h1', fun t => (h2 t).trans (h2' t), va, vc, ha, hc,
    fun t ht => (hr t ht).trans (hr' t ((h2 t).1 ht))⟩

theorem eqLoop_symm (a b : List (List Attr)) (r : Bool) (h : eqLoop T a b = .ok r) : eqLoop T b a = .ok r := by
  induction a generalizing b with
  | nil =>
    cases b with
    | nil => exact h
    | cons y ys => exact h
  | cons x xs ih =>
    cases b with
    | nil => exact h
    | cons y ys =>
      simp only [eqLoop] at h ⊢
      cases he : rdnEq T y x with
      | error e => rw [he] at h; cases h
      | ok e =>
        rw [he] at h
        rw [rdnEq_symm T y x e he]
        cases e with
        | false => exact h
        | true => exact ih ys h

theorem nameEq_true (a b : List (List Attr)) :
    nameEq T a b = .ok true ↔ List.Forall₂ (fun x y => rdnEq T x y = .ok true) a b := by
  unfold nameEq
  induction a generalizing b with
  | nil =>
    cases b with
    | nil => exact ⟨fun _ => .nil, fun _ => rfl⟩
    | cons y ys => exact ⟨fun h => (by cases Except.ok.inj h), fun h => (by cases h)⟩
  | cons x xs ih =>
    cases b with
    | nil => exact ⟨fun h => (by cases Except.ok.inj h), fun h => (by cases h)⟩
    | cons y ys =>
      simp only [List.length_cons, eqLoop] at ih ⊢
      rw [List.forall₂_cons, ← ih ys]
      by_cases hl : xs.length = ys.length
      · simp only [hl, ne_eq, not_true_eq_false, if_false]
        cases he : rdnEq T y x with
        | error e =>
          refine ⟨fun h => (by cases h), fun h => ?_⟩
          rw [rdnEq_symm T x y true h.1] at he
          cases he
        | ok e =>
          rw [rdnEq_symm T y x e he]
          cases e with
          | false => exact ⟨fun h => (by cases Except.ok.inj h), fun h => (by cases Except.ok.inj h.1)⟩
          | true => exact ⟨fun h => ⟨rfl, h⟩, fun h => h.2⟩
      · have hl' : ¬ xs.length + 1 = ys.length + 1 := by omega
        simp only [hl, hl', ne_eq, not_false_eq_true, if_true]
        exact ⟨fun h => (by cases Except.ok.inj h), fun h => (by cases Except.ok.inj h.2)⟩

theorem eqLoop_ok (a b : List (List Attr)) (h : ∀ x ∈ a, ∀ y ∈ b, ∃ r, rdnEq T y x = .ok r) :
    ∃ r, eqLoop T a b = .ok r := by
  induction a generalizing b with
  | nil => exact ⟨true, rfl⟩
  | cons x xs ih =>
    cases b with
    | nil => exact ⟨true, rfl⟩
    | cons y ys =>
      simp only [eqLoop]
      obtain ⟨r, hr⟩ := h x (by simp) y (by simp)
      rw [hr]
      cases r with
      | false => exact ⟨false, rfl⟩
      | true => exact ih ys fun x hx y hy => h x (by simp [hx]) y (by simp [hy])

end Asn1.Names
