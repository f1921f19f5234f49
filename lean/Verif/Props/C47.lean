import Verif.Lemmas.OrdDict

/-! # C47: the bundled `OrderedDict` is an insertion-ordered map -/

namespace Asn1.OrdDict
open Asn1 Spec

variable {K V : Type} [DecidableEq K]

/-- An operation on the object: the object after it, and what it returned. An operation that raises `KeyError` leaves the
object as it was; any other exception is kept. -/
def odStep (d : OD K V) : MapOp K V → Py (OD K V × MapResult K V)
  | .set k v => .ok (d.set k v, .nothing)
  | .del k =>
    match d.del k with
    | .ok d' => .ok (d', .nothing)
    | .error .keyError => .ok (d, .keyError)
    | .error e => .error e
  | .pop k =>
    match d.pop k with
    | .ok (v, d') => .ok (d', .value v)
    | .error .keyError => .ok (d, .keyError)
    | .error e => .error e
  | .popitem last =>
    match d.popitem last with
    | .ok ((k, v), d') => .ok (d', .item k v)
    | .error .keyError => .ok (d, .keyError)
    | .error e => .error e
  | .clear => .ok (OD.clear, .nothing)

/-- A history of operations, with the results. -/
def odRun (d : OD K V) : List (MapOp K V) → Py (OD K V × List (MapResult K V))
  | [] => .ok (d, [])
  | op :: ops =>
    match odStep d op with
    | .error e => .error e
    | .ok (d, r) =>
      match odRun d ops with
      | .error e => .error e
      | .ok (d, rs) => .ok (d, r :: rs)

theorem without_middle {l1 l2 : List (K × V)} {k : K} {v : V} (hk : ((l1 ++ (k, v) :: l2).map Prod.fst).Nodup) :
    without (l1 ++ (k, v) :: l2) k = l1 ++ l2 := by
  rw [List.map_append, List.map_cons, List.nodup_append] at hk
  have h1 : ∀ e ∈ l1, e.1 ≠ k := fun e he hc => hk.2.2 e.1 (List.mem_map.mpr ⟨e, he, rfl⟩) k (by simp) hc
  have h2 : ∀ e ∈ l2, e.1 ≠ k := fun e he hc => (List.nodup_cons.mp hk.2.1).1 (hc ▸ List.mem_map.mpr ⟨e, he, rfl⟩)
  unfold without
  rw [List.filter_append, List.filter_cons]
  rw [List.filter_eq_self.mpr (by simpa using h1), List.filter_eq_self.mpr (by simpa using h2)]
  simp

theorem Holds.pop {d : OD K V} {l : List (K × V)} {xs : List Nat} (h : Holds d l xs) {k : K} {v : V} (hm : (k, v) ∈ l) :
    ∃ d' xs', d.pop k = .ok (v, d') ∧ d.del k = .ok d' ∧ Holds d' (without l k) xs' := by
  obtain ⟨l1, l2, rfl⟩ := List.append_of_mem hm
  obtain ⟨d', xs', h1, h2⟩ := h.del
  refine ⟨d', xs', ?_, h1, ?_⟩
  · simp only [OD.pop, (h.dict k v).mpr hm, h1]
  · rw [without_middle h.keys]; exact h2

theorem Holds.missing {d : OD K V} {l : List (K × V)} {xs : List Nat} (h : Holds d l xs) {k : K}
    (hm : k ∉ l.map Prod.fst) : get d.dict k = none := by
  cases hg : get d.dict k with
  | none => rfl
  | some v => exact absurd ((h.present k).mp ⟨v, hg⟩) hm

/-- One operation keeps the object in step with the map. -/
theorem Holds.step {d : OD K V} {l : List (K × V)} {xs : List Nat} (h : Holds d l xs) (op : MapOp K V) :
    ∃ d' xs', odStep d op = .ok (d', (mapStep l op).2) ∧ Holds d' (mapStep l op).1 xs' := by
  cases op with
  | set k v =>
    obtain ⟨xs', h'⟩ := h.set k v
    exact ⟨_, xs', rfl, h'⟩
  | del k =>
    by_cases hk : k ∈ l.map Prod.fst
    · obtain ⟨e, he, rfl⟩ := List.mem_map.mp hk
      obtain ⟨d', xs', _, h2, h3⟩ := h.pop (k := e.1) (v := e.2) he
      refine ⟨d', xs', ?_, ?_⟩
      · simp only [odStep, mapStep, if_pos hk, h2]
      · simp only [mapStep, if_pos hk]; exact h3
    · refine ⟨d, xs, ?_, ?_⟩
      · simp only [odStep, mapStep, if_neg hk, OD.del, h.missing hk]
      · simp only [mapStep, if_neg hk]; exact h
  | pop k =>
    cases hf : l.find? (fun e => e.1 = k) with
    | none =>
      have hk : k ∉ l.map Prod.fst := by
        rw [List.find?_eq_none] at hf
        intro hc
        obtain ⟨e, he, hek⟩ := List.mem_map.mp hc
        simpa [hek] using hf e he
      refine ⟨d, xs, ?_, ?_⟩
      · simp only [odStep, mapStep, hf, OD.pop, h.missing hk]
      · simp only [mapStep, hf]; exact h
    | some e =>
      have he := List.mem_of_find?_eq_some hf
      have hek : e.1 = k := by simpa using List.find?_some hf
      subst hek
      obtain ⟨d', xs', h1, _, h3⟩ := h.pop (k := e.1) (v := e.2) he
      refine ⟨d', xs', ?_, ?_⟩
      · simp only [odStep, mapStep, hf, h1]
      · simp only [mapStep, hf]; exact h3
  | popitem last =>
    have hempty := h.empty
    cases last with
    | true =>
      cases hl : l.getLast? with
      | none =>
        have : l = [] := List.getLast?_eq_none_iff.mp hl
        subst this
        refine ⟨d, xs, ?_, ?_⟩
        · simp only [odStep, mapStep, OD.popitem, hempty]; rfl
        · simp only [mapStep, hl]; exact h
      | some e =>
        obtain ⟨r, rfl⟩ := List.getLast?_eq_some_iff.mp hl
        obtain ⟨p, n, q, rfl, hp, ⟨hnk, hnm⟩, hq⟩ := forall₂_split h.nodes
        cases hq
        have hprev : (d.heap 0).prev = n := by rw [links_last h.links]; simp
        have hn0 : n ≠ 0 := fun hc => (List.nodup_cons.mp h.nodup).1 (by simp [hc])
        obtain ⟨d', xs', h1, h2⟩ := h.del
        have hp : d.pop e.1 = .ok (e.2, d') := by simp only [OD.pop, (h.dict e.1 e.2).mpr (by simp), h1]
        rw [List.append_nil] at h2
        refine ⟨d', xs', ?_, ?_⟩
        · have hemp : d.dict.isEmpty = false := by rw [hempty]; simp
          simp only [odStep, mapStep, OD.popitem, hemp, hprev, hl, if_neg hn0, hnk, hp, if_true, Bool.false_eq_true, if_false]
        · simp only [mapStep, hl, List.dropLast_concat]; exact h2
    | false =>
      cases l with
      | nil =>
        refine ⟨d, xs, ?_, ?_⟩
        · simp only [odStep, mapStep, OD.popitem, hempty]; rfl
        · simp only [mapStep]; exact h
      | cons e r =>
        obtain ⟨p, n, q, rfl, hp, ⟨hnk, hnm⟩, hq⟩ := forall₂_split (l1 := []) h.nodes
        cases hp
        have hnext : (d.heap 0).next = n := by rw [links_head h.links]; rfl
        have hn0 : n ≠ 0 := fun hc => (List.nodup_cons.mp h.nodup).1 (by simp [hc])
        obtain ⟨d', xs', h1, h2⟩ := Holds.del (l1 := []) h
        have hp : d.pop e.1 = .ok (e.2, d') := by simp only [OD.pop, (h.dict e.1 e.2).mpr (by simp), h1]
        refine ⟨d', xs', ?_, ?_⟩
        · have hemp : d.dict.isEmpty = false := by rw [hempty]; simp
          simp only [odStep, mapStep, OD.popitem, hemp, hnext, if_neg hn0, hnk, hp, Bool.false_eq_true, if_false]
        · simp only [mapStep]; exact h2
  | clear => exact ⟨OD.clear, [], rfl, holds_clear⟩

theorem Holds.run {d : OD K V} {l : List (K × V)} {xs : List Nat} (h : Holds d l xs) (ops : List (MapOp K V)) :
    ∃ d' xs', odRun d ops = .ok (d', (mapRun l ops).2) ∧ Holds d' (mapRun l ops).1 xs' := by
  induction ops generalizing d l xs with
  | nil => exact ⟨d, xs, rfl, h⟩
  | cons op ops ih =>
    obtain ⟨d1, xs1, h1, h2⟩ := h.step op
    obtain ⟨d2, xs2, h3, h4⟩ := ih h2
    refine ⟨d2, xs2, ?_, h4⟩
    simp only [odRun, h1, h3, mapRun]

end Asn1.OrdDict

namespace Asn1.Props
open Asn1 OrdDict Spec

variable {K V : Type} [DecidableEq K]

/-- **C47.** From a new `OrderedDict`, any history of assignments, deletions, `pop`, `popitem` and `clear` returns what
an insertion-ordered map returns (`KeyError` where that has no entry, and no other exception), and the object then has
the items of that map in its order, iterates over its keys, iterates in reverse over the reverse, and looks every key up as
the map does. -/
theorem C47_history (ops : List (MapOp K V)) :
    ∃ d : OD K V, odRun OD.clear ops = .ok (d, (mapRun [] ops).2) ∧ d.items = .ok (mapRun [] ops).1 ∧
      d.iter = .ok ((mapRun [] ops).1.map fun e => some e.1) ∧
      d.reversed = .ok ((mapRun [] ops).1.reverse.map fun e => some e.1) ∧
      (∀ k v, OrdDict.get d.dict k = some v ↔ (k, v) ∈ (mapRun [] ops).1) := by
  obtain ⟨d, xs, h1, h2⟩ := (holds_clear (K := K) (V := V)).run ops
  exact ⟨d, h1, h2.items, h2.iter, h2.reversed, h2.dict⟩

/-- No key occurs twice. -/
theorem C47_keys (ops : List (MapOp K V)) : ((mapRun ([] : List (K × V)) ops).1.map Prod.fst).Nodup := by
  obtain ⟨d, xs, _, h⟩ := (holds_clear (K := K) (V := V)).run ops
  exact h.keys

/-- A key that is assigned again keeps its place; one that is deleted and assigned again goes to the end. -/
example : (mapRun ([] : List (Nat × Nat)) [.set 1 10, .set 2 20, .set 1 11, .set 3 30, .del 2, .set 2 21]).1 =
    [(1, 11), (3, 30), (2, 21)] := by decide

example : (mapRun ([] : List (Nat × Nat)) [.set 1 10, .set 2 20, .set 3 30, .popitem false, .popitem true]).1 = [(2, 20)] := by
  decide

end Asn1.Props
