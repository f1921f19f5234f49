import Verif.Model.Inherit
import Mathlib.Data.List.Basic
import Mathlib.Data.List.Nodup
import Mathlib.Data.List.Perm.Basic

/-!
# C73: the names of a class do not depend on which classes were used before

A history is the list of the classes in the order in which they are used; `after C us` are the tables after it.
-/

namespace Asn1.Inherit
variable {K : Type}

/-- The tables after these uses. -/
def after (C : Classes K) (us : List Nat) : Tables K := us.foldl (use C) {}

/-- Each class is first in its own order, and the order of a base class has no other classes. -/
structure Orders (C : Classes K) (c : Nat) : Prop where
  self : ∃ rest, C.mro c = c :: rest
  bases : ∀ x ∈ C.mro c, ∀ y ∈ C.mro x, y ∈ C.mro c

/-- No class of the order has names, except one. -/
def OneMap (C : Classes K) (c : Nat) : Prop := ∀ x ∈ C.mro c, ∀ y ∈ C.mro c, C.map x ≠ none → C.map y ≠ none → x = y

theorem use_own (C : Classes K) (s : Tables K) (c x : Nat) :
    (use C s c).own x = s.own x ∨ (x = c ∧ reverseOf C s c = none ∧ ∃ m, mapOf C c = some m ∧ (use C s c).own x = some (reversed m)) := by
  unfold use setup
  split
  · exact .inl rfl
  · cases hm : mapOf C c with
    | none => exact .inl rfl
    | some m =>
      cases hr : reverseOf C s c with
      | some t => exact .inl rfl
      | none =>
        by_cases hx : x = c
        · exact .inr ⟨hx, rfl, m, rfl, by simp [hx]⟩
        · exact .inl (by simp [hx])

theorem use_marked (C : Classes K) (s : Tables K) (c x : Nat) : (use C s c).marked x = (s.marked x || x == c) := by
  unfold use setup
  split
  · next h =>
    by_cases hx : x = c
    · subst hx; simp [h]
    · simp [hx]
  · split
    · by_cases hx : x = c <;> simp [hx]
    · split <;> by_cases hx : x = c <;> simp [hx]

/-- What has been assigned stays, if each class is in its own order. -/
theorem use_keeps {C : Classes K} {s : Tables K} {c x : Nat} {t : List (String × K)} (hc : c ∈ C.mro c) (h : s.own x = some t) : (use C s c).own x = some t := by
  rcases use_own C s c x with h1 | ⟨rfl, h2, _⟩
  · rw [h1, h]
  · have := List.findSome?_eq_none_iff.mp h2 x hc
    rw [h] at this
    cases this

/-- After its use a class with names has a table. -/
theorem use_has {C : Classes K} {s : Tables K} {c : Nat} {m : List (K × String)} (hm : mapOf C c = some m) (hc : c ∈ C.mro c) (hu : s.marked c = false) :
    ∃ x ∈ C.mro c, (use C s c).own x ≠ none := by
  unfold use setup
  simp only [hu, hm]
  cases hr : reverseOf C s c with
  | some t =>
    obtain ⟨x, hx, ht⟩ := List.exists_of_findSome?_eq_some hr
    exact ⟨x, hx, by simp [ht]⟩
  | none => exact ⟨c, hc, by simp⟩

theorem lookup_reversed [DecidableEq K] {m : List (K × String)} (hn : (m.map Prod.snd).Nodup) (name : String) (k : K) :
    (reversed m).lookup name = some k ↔ (k, name) ∈ m := by
  have hn' : ((reversed m).map Prod.fst).Nodup := by
    unfold reversed
    rw [List.map_reverse, List.map_map, List.nodup_reverse]
    exact hn
  have mem : (name, k) ∈ reversed m ↔ (k, name) ∈ m := by simp [reversed]
  rw [← mem]
  generalize reversed m = l at hn'
  induction l with
  | nil => simp
  | cons e l ih =>
    obtain ⟨a, b⟩ := e
    simp only [List.map_cons, List.nodup_cons] at hn'
    rw [List.lookup_cons]
    by_cases h : name = a
    · subst h
      simp only [BEq.rfl, List.mem_cons, Prod.mk.injEq, true_and]
      constructor
      · intro h; cases h; exact .inl rfl
      · rintro (h | h)
        · rw [h]
        · exact absurd (List.mem_map.mpr ⟨_, h, rfl⟩) hn'.1
    · rw [beq_false_of_ne h]
      simp only [List.mem_cons, Prod.mk.injEq, h, false_and, false_or]
      exact ih hn'.2

/-- The map a class of the order is set up with is that of the class itself. -/
theorem mapOf_base {C : Classes K} {c x : Nat} {m m' : List (K × String)} (ho : Orders C c) (h1 : OneMap C c) (hm : mapOf C c = some m) (hx : x ∈ C.mro c)
    (hm' : mapOf C x = some m') : m' = m := by
  obtain ⟨d, hd, e⟩ := List.exists_of_findSome?_eq_some hm
  obtain ⟨d', hd', e'⟩ := List.exists_of_findSome?_eq_some hm'
  have := h1 d hd d' (ho.bases x hx d' hd') (by simp [e]) (by simp [e'])
  subst this
  rw [e] at e'
  cases e'
  rfl

/-- If only one class of the order has names, then whatever classes were used before, in whatever order, a name stands for the value that the map gives this
name. -/
theorem C73_names_partial [DecidableEq K] (C : Classes K) (hall : ∀ x, x ∈ C.mro x) {c : Nat} (ho : Orders C c) (h1 : OneMap C c) {m : List (K × String)}
    (hm : mapOf C c = some m) (hn : (m.map Prod.snd).Nodup) (us : List Nat) (hu : c ∈ us) (name : String) (k : K) :
    valueOf C (after C us) c name = some k ↔ (k, name) ∈ m := by
  have key : ∀ s : Tables K, (∀ x ∈ C.mro c, ∀ t, s.own x = some t → t = reversed m) → (s.marked c = true → ∃ x ∈ C.mro c, s.own x ≠ none) →
      (∀ x ∈ C.mro c, ∀ t, (us.foldl (use C) s).own x = some t → t = reversed m) ∧ ((s.marked c = true ∨ c ∈ us) → ∃ x ∈ C.mro c, (us.foldl (use C) s).own x ≠ none) := by
    clear hu
    induction us with
    | nil => exact fun s h2 h3 => ⟨h2, fun h => h3 (by simpa using h)⟩
    | cons u us ih =>
      intro s h2 h3
      have a2 : ∀ x ∈ C.mro c, ∀ t, (use C s u).own x = some t → t = reversed m := by
        intro x hx t ht
        rcases use_own C s u x with h | ⟨rfl, _, m', hm', h⟩
        · exact h2 x hx t (h ▸ ht)
        · rw [h] at ht
          cases ht
          rw [mapOf_base ho h1 hm hx hm']
      have a3 : (use C s u).marked c = true → ∃ x ∈ C.mro c, (use C s u).own x ≠ none := by
        intro hk
        by_cases hs : s.marked c = true
        · obtain ⟨x, hx, ht⟩ := h3 hs
          obtain ⟨t, ht⟩ := Option.ne_none_iff_exists'.mp ht
          exact ⟨x, hx, by rw [use_keeps (hall u) ht]; simp⟩
        · rw [use_marked] at hk
          have : c = u := by simpa [hs] using hk
          subst this
          exact use_has hm (hall c) (by simpa using hs)
      obtain ⟨b2, b3⟩ := ih _ a2 a3
      refine ⟨b2, fun h => b3 ?_⟩
      rcases h with h | h
      · exact .inl (by rw [use_marked, h]; rfl)
      · rcases List.mem_cons.mp h with rfl | h
        · exact .inl (by rw [use_marked]; simp)
        · exact .inr h
  obtain ⟨h2, h3⟩ := key {} (fun _ _ _ h => by cases h) (fun h => by cases h)
  obtain ⟨x, hx, ht⟩ := h3 (.inr hu)
  have hr : reverseOf C (after C us) c = some (reversed m) := by
    cases hr : reverseOf C (after C us) c with
    | none => exact absurd (List.findSome?_eq_none_iff.mp hr x hx) ht
    | some t =>
      obtain ⟨y, hy, e⟩ := List.exists_of_findSome?_eq_some hr
      rw [h2 y hy t e]
  simp only [valueOf, hr, Option.bind_some]
  exact lookup_reversed hn name k

/-- If a class is used before its bases, its names are right for good, also if its bases have other names. -/
theorem C73_first [DecidableEq K] (C : Classes K) (hall : ∀ x, x ∈ C.mro x) {c : Nat} (ho : Orders C c) {m : List (K × String)} (hm : mapOf C c = some m)
    (hn : (m.map Prod.snd).Nodup) (us later : List Nat) (hu : ∀ x ∈ C.mro c, x ∉ us) (name : String) (k : K) :
    valueOf C (after C (us ++ c :: later)) c name = some k ↔ (k, name) ∈ m := by
  obtain ⟨rest, hr⟩ := ho.self
  have before : ∀ (us : List Nat) (s : Tables K), (∀ x ∈ C.mro c, x ∉ us) → (∀ x ∈ C.mro c, s.own x = none) → s.marked c = false →
      (∀ x ∈ C.mro c, (us.foldl (use C) s).own x = none) ∧ (us.foldl (use C) s).marked c = false := by
    intro us
    induction us with
    | nil => exact fun s _ h1 h2 => ⟨h1, h2⟩
    | cons u us ih =>
      intro s h0 h1 h2
      refine ih _ (fun x hx h => h0 x hx (by simp [h])) (fun x hx => ?_) ?_
      · rcases use_own C s u x with h | ⟨rfl, _⟩
        · rw [h, h1 x hx]
        · exact absurd (by simp) (h0 x hx)
      · have : c ≠ u := fun e => h0 c (hall c) (by simp [e])
        rw [use_marked, h2]
        simp [this]
  obtain ⟨h1, h2⟩ := before us {} hu (fun _ _ => rfl) rfl
  have hown : (use C (us.foldl (use C) {}) c).own c = some (reversed m) := by
    have hnone : reverseOf C (us.foldl (use C) {}) c = none := List.findSome?_eq_none_iff.mpr h1
    generalize us.foldl (use C) {} = s at h2 hnone
    unfold use setup
    simp only [h2, hm, hnone]
    simp
  have stays : ∀ (vs : List Nat) (s : Tables K), s.own c = some (reversed m) → (vs.foldl (use C) s).own c = some (reversed m) := by
    intro vs
    induction vs with
    | nil => exact fun s h => h
    | cons v vs ih => exact fun s h => ih _ (use_keeps (hall v) h)
  have hfin := stays later _ hown
  have e : after C (us ++ c :: later) = later.foldl (use C) (use C (us.foldl (use C) {}) c) := by
    simp [after]
  simp only [valueOf, reverseOf, e, hr, List.findSome?_cons, hfin, Option.bind_some]
  exact lookup_reversed hn name k

/-- Setting a name and reading it gives this name. -/
theorem C73_round_trip_partial [DecidableEq K] (C : Classes K) (hall : ∀ x, x ∈ C.mro x) {c : Nat} (ho : Orders C c) (h1 : OneMap C c) {m : List (K × String)}
    (hm : mapOf C c = some m) (hn : (m.map Prod.snd).Nodup) (hk : (m.map Prod.fst).Nodup) (us : List Nat) (hu : c ∈ us) (name : String) (k : K)
    (h : valueOf C (after C us) c name = some k) : nameOf C c k = some name := by
  have hmem := (C73_names_partial C hall ho h1 hm hn us hu name k).mp h
  simp only [nameOf, hm, Option.bind_some]
  clear hm hn h
  induction m with
  | nil => cases hmem
  | cons e m ih =>
    obtain ⟨a, b⟩ := e
    simp only [List.map_cons, List.nodup_cons] at hk
    rw [List.lookup_cons]
    rcases List.mem_cons.mp hmem with h | h
    · cases h
      simp
    · have : k ≠ a := fun e => hk.1 (List.mem_map.mpr ⟨_, h, e⟩)
      rw [beq_false_of_ne this]
      exact ih hk.2 h

/-! ### Where the library does not do what the property says -/

/-- `class A(Integer): _map = {0: 'a'}` and `class B(A): _map = {0: 'b'}` -/
def derived : Classes Nat where
  mro c := if c = 1 then [1, 0] else [c]
  map c := if c = 0 then some [(0, "a")] else if c = 1 then some [(0, "b")] else none

/-- Used alone, `B` has the name `b`. Once `A` has been used, `b` is refused and `a` is accepted, and reads as `b`. -/
theorem C73_order_fails : valueOf derived (after derived [1]) 1 "b" = some 0 ∧ valueOf derived (after derived [1]) 1 "a" = none ∧
    valueOf derived (after derived [0, 1]) 1 "b" = none ∧ valueOf derived (after derived [0, 1]) 1 "a" = some 0 ∧ nameOf derived 1 0 = some "b" := by
  decide +kernel

/-- `class C(A): pass`, where `A` has two names. -/
def plainly : Classes Nat where
  mro c := if c = 1 then [1, 0] else [c]
  map c := if c = 0 then some [(0, "a"), (3, "b")] else none

example : (∀ x, x ∈ plainly.mro x) ∧ Orders plainly 1 ∧ OneMap plainly 1 ∧ mapOf plainly 1 = some [(0, "a"), (3, "b")] := by
  refine ⟨?_, ⟨⟨[0], rfl⟩, ?_⟩, ?_, rfl⟩
  · intro x
    unfold plainly
    by_cases h : x = 1 <;> simp [h]
  · intro x hx y hy
    simp [plainly] at hx hy ⊢
    rcases hx with rfl | rfl <;> simp at hy <;> omega
  · intro x hx y hy h h'
    simp [plainly] at hx hy h h'
    rcases hx with rfl | rfl <;> rcases hy with rfl | rfl <;> simp_all

example : valueOf plainly (after plainly [0, 1, 0]) 1 "b" = some 3 ∧ valueOf plainly (after plainly [1, 0]) 1 "b" = some 3 := by
  decide +kernel

/-- The derived class used first. -/
example : Orders derived 1 ∧ mapOf derived 1 = some [(0, "b")] ∧ ∀ x ∈ derived.mro 1, x ∉ [7, 8] := by
  refine ⟨⟨⟨[0], rfl⟩, ?_⟩, rfl, by decide⟩
  intro x hx y hy
  simp [derived] at hx hy ⊢
  rcases hx with rfl | rfl <;> simp at hy <;> omega

end Asn1.Inherit
