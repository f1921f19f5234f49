import Verif.Spec.Name
import Verif.Lemmas.PyStr
import Verif.Lemmas.Keep
import Mathlib.Data.List.Perm.Basic
import Mathlib.Tactic.Common

namespace Asn1.Names
open Asn1 Spec

section Order

theorem strLe_refl (a : Str) : strLe a a = true := by
  induction a with
  | nil => rfl
  | cons x xs ih => simp [strLe, ih]

theorem strLe_total (a b : Str) : (strLe a b || strLe b a) = true := by
  induction a generalizing b with
  | nil => rfl
  | cons x xs ih =>
    cases b with
    | nil => rfl
    | cons y ys =>
      simp only [strLe]
      rcases Nat.lt_trichotomy x.toNat y.toNat with h | h | h
      · simp [h]
      · simpa [h] using ih ys
      · simp [h]

theorem toNat_inj {a b : Char} (h : a.toNat = b.toNat) : a = b := Char.ext (UInt32.toNat_inj.1 h)

theorem strLe_antisymm (a b : Str) (h : strLe a b = true) (h' : strLe b a = true) : a = b := by
  induction a generalizing b with
  | nil => cases b with
    | nil => rfl
    | cons y ys => cases h'
  | cons x xs ih =>
    cases b with
    | nil => cases h
    | cons y ys =>
      simp only [strLe] at h h'
      rcases Nat.lt_trichotomy x.toNat y.toNat with hc | hc | hc
      · have h1 : ¬ y.toNat < x.toNat := by omega
        have h2 : ¬ y.toNat = x.toNat := by omega
        simp [h1, h2] at h'
      · have h1 : ¬ y.toNat < x.toNat := by omega
        simp only [hc, Nat.lt_irrefl, if_false, if_true] at h h'
        rw [toNat_inj hc, ih ys h h']
      · have h1 : ¬ x.toNat < y.toNat := by omega
        have h2 : ¬ x.toNat = y.toNat := by omega
        simp [h1, h2] at h

theorem strLe_trans (a b c : Str) (h : strLe a b = true) (h' : strLe b c = true) : strLe a c = true := by
  induction a generalizing b c with
  | nil => rfl
  | cons x xs ih =>
    cases b with
    | nil => cases h
    | cons y ys =>
      cases c with
      | nil => cases h'
      | cons z zs =>
        simp only [strLe] at h h' ⊢
        split at h
        · split at h'
          · rw [if_pos (by omega)]
          · split at h'
            · rw [if_pos (by omega)]
            · cases h'
        · split at h
          · split at h'
            · rw [if_pos (by omega)]
            · split at h'
              · rw [if_neg (by omega), if_pos (by omega)]; exact ih ys zs h h'
              · cases h'
          · cases h

theorem sort_eq {a b : List Str} (h : a.Perm b) : a.mergeSort strLe = b.mergeSort strLe :=
  List.Perm.eq_of_pairwise (le := fun x y => strLe x y = true) (fun x y _ _ => strLe_antisymm x y)
    (List.pairwise_mergeSort strLe_trans strLe_total a) (List.pairwise_mergeSort strLe_trans strLe_total b)
    ((List.mergeSort_perm a _).trans (h.trans (List.mergeSort_perm b _).symm))

theorem ordinalLe_total (a b : Nat × Str) : (ordinalLe a b || ordinalLe b a) = true := by
  unfold ordinalLe
  rcases Nat.lt_trichotomy a.1 b.1 with h | h | h
  · simp [h]
  · simpa [h] using strLe_total a.2 b.2
  · simp [h]

theorem ordinalLe_trans (a b c : Nat × Str) (h : ordinalLe a b = true) (h' : ordinalLe b c = true) :
    ordinalLe a c = true := by
  unfold ordinalLe at h h' ⊢
  split at h
  · split at h'
    · rw [if_pos (by omega)]
    · split at h'
      · rw [if_pos (by omega)]
      · cases h'
  · split at h
    · split at h'
      · rw [if_pos (by omega)]
      · split at h'
        · rw [if_neg (by omega), if_pos (by omega)]; exact strLe_trans _ _ _ h h'
        · cases h'
    · cases h

theorem ordinalLe_antisymm (a b : Nat × Str) (h : ordinalLe a b = true) (h' : ordinalLe b a = true) : a = b := by
  unfold ordinalLe at h h'
  split at h
  · rw [if_neg (by omega), if_neg (by omega)] at h'; cases h'
  · split at h
    · next h1 h2 =>
      rw [if_neg (by omega), if_pos h2.symm] at h'
      exact Prod.ext h2 (strLe_antisymm _ _ h h')
    · cases h

end Order

section Dict

variable {β : Type}

theorem look_put (d : List (Str × β)) (k : Str) (v : β) (t : Str) :
    look (put d k v) t = if t = k then some v else look d t := by
  unfold look put
  by_cases h : d.any (fun e => e.1 == k) = true
  · rw [if_pos h]
    induction d with
    | nil => simp at h
    | cons e es ih =>
      simp only [List.map_cons, List.find?_cons]
      by_cases he : e.1 = k
      · subst he
        by_cases ht : t = e.1
        · subst ht; simp
        · have h1 : (e.1 == t) = false := by simpa using fun h => ht h.symm
          simp only [beq_self_eq_true, if_true, h1, if_neg ht]
          by_cases hes : es.any (fun x => x.1 == e.1) = true
          · have := ih hes
            rw [if_neg ht] at this
            exact this
          · have : es.map (fun x => if (x.1 == e.1) = true then (e.1, v) else x) = es := by
              conv => rhs; rw [← List.map_id es]
              refine List.map_congr_left fun x hx => ?_
              rw [if_neg]; rfl
              intro hc; exact hes (List.any_eq_true.2 ⟨x, hx, hc⟩)
            rw [this]
      · have h1 : (e.1 == k) = false := by simpa using he
        rw [List.any_cons, h1, Bool.false_or] at h
        simp only [h1, Bool.false_eq_true, if_false]
        by_cases ht : e.1 = t
        · have : ¬ t = k := fun hc => he (ht.trans hc)
          simp [ht, this]
        · have h2 : (e.1 == t) = false := by simpa using ht
          simp only [h2]
          exact ih h
  · rw [if_neg h, List.find?_append]
    have hn : t = k → d.find? (fun e => e.1 == t) = none := by
      rintro rfl
      rw [List.find?_eq_none]
      intro x hx hc
      exact h (List.any_eq_true.2 ⟨x, hx, hc⟩)
    by_cases ht : t = k
    · rw [hn ht]; subst ht; simp
    · have : (k == t) = false := by simpa using fun h => ht h.symm
      simp [this, ht]

theorem put_keys (d : List (Str × β)) (k : Str) (v : β) :
    (put d k v).map Prod.fst = if k ∈ d.map Prod.fst then d.map Prod.fst else d.map Prod.fst ++ [k] := by
  unfold put
  have hk : d.any (fun e => e.1 == k) = true ↔ k ∈ d.map Prod.fst := by
    simp [List.any_eq_true]
  by_cases h : d.any (fun e => e.1 == k) = true
  · rw [if_pos h, if_pos (hk.1 h), List.map_map]
    refine List.map_congr_left fun e _ => ?_
    simp only [Function.comp_apply]
    split
    · next hc => exact (by simpa using hc : e.1 = k).symm
    · rfl
  · rw [if_neg h, if_neg (fun hc => h (hk.2 hc))]
    simp

theorem put_nodup (d : List (Str × β)) (k : Str) (v : β) (h : (d.map Prod.fst).Nodup) : ((put d k v).map Prod.fst).Nodup := by
  rw [put_keys]
  split
  · exact h
  · next hn =>
    rw [List.nodup_append]
    exact ⟨h, List.nodup_singleton _, fun a ha b hb => by
      rw [List.mem_singleton] at hb; rintro rfl; exact hn (hb ▸ ha)⟩

theorem mem_put_keys (d : List (Str × β)) (k t : Str) (v : β) :
    t ∈ (put d k v).map Prod.fst ↔ t = k ∨ t ∈ d.map Prod.fst := by
  rw [put_keys]
  split
  · next h => exact ⟨Or.inr, fun hc => hc.elim (fun e => e ▸ h) id⟩
  · rw [List.mem_append, List.mem_singleton]; exact or_comm

/-- A dict built from a list of pairs. -/
def dict (d : List (Str × β)) (l : List (Str × β)) : List (Str × β) := l.foldl (fun d e => put d e.1 e.2) d

theorem dict_nodup (d l : List (Str × β)) (h : (d.map Prod.fst).Nodup) : ((dict d l).map Prod.fst).Nodup := by
  induction l generalizing d with
  | nil => exact h
  | cons e es ih => exact ih _ (put_nodup d e.1 e.2 h)

theorem mem_dict_keys (d l : List (Str × β)) (t : Str) :
    t ∈ (dict d l).map Prod.fst ↔ t ∈ l.map Prod.fst ∨ t ∈ d.map Prod.fst := by
  induction l generalizing d with
  | nil => simp [dict]
  | cons e es ih =>
    show t ∈ (dict (put d e.1 e.2) es).map Prod.fst ↔ _
    rw [ih, mem_put_keys, List.map_cons, List.mem_cons]
    tauto

theorem look_dict_skip (d l : List (Str × β)) (t : Str) (h : t ∉ l.map Prod.fst) : look (dict d l) t = look d t := by
  induction l generalizing d with
  | nil => rfl
  | cons e es ih =>
    rw [List.map_cons, List.mem_cons, not_or] at h
    show look (dict (put d e.1 e.2) es) t = _
    rw [ih _ h.2, look_put, if_neg h.1]

theorem look_dict_mem (d l : List (Str × β)) (t : Str) (v : β) (hn : (l.map Prod.fst).Nodup) (h : (t, v) ∈ l) :
    look (dict d l) t = some v := by
  induction l generalizing d with
  | nil => cases h
  | cons e es ih =>
    rw [List.map_cons, List.nodup_cons] at hn
    show look (dict (put d e.1 e.2) es) t = _
    rcases List.mem_cons.1 h with rfl | h
    · rw [look_dict_skip _ _ _ hn.1, look_put, if_pos rfl]
    · exact ih _ hn.2 h

theorem look_dict_some (d l : List (Str × β)) (t : Str) (h : t ∈ l.map Prod.fst) : ∃ v, look (dict d l) t = some v := by
  induction l generalizing d with
  | nil => cases h
  | cons e es ih =>
    show ∃ v, look (dict (put d e.1 e.2) es) t = some v
    by_cases ht : t ∈ es.map Prod.fst
    · exact ih _ ht
    · rw [List.map_cons, List.mem_cons] at h
      have : t = e.1 := h.resolve_right ht
      exact ⟨e.2, by rw [look_dict_skip _ _ _ ht, look_put, if_pos this]⟩

end Dict

end Asn1.Names
