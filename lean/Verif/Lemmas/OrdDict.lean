import Verif.Model.OrdDict
import Verif.Spec.OrdDict
import Mathlib.Data.List.Induction
import Mathlib.Data.List.Perm.Subperm

/-! # The linked list behind `OrderedDict` -/

namespace Asn1.OrdDict
open Asn1 Spec

variable {K V : Type} [DecidableEq K]

omit [DecidableEq K] in
@[simp] theorem upd_same {A B : Type} [DecidableEq A] (f : A → B) (a : A) (b : B) : upd f a b a = b := by simp [upd]

omit [DecidableEq K] in
theorem upd_ne {A B : Type} [DecidableEq A] (f : A → B) {a x : A} (b : B) (h : x ≠ a) : upd f a b x = f x := by
  simp [upd, h]

theorem get_put (m : List (K × V)) (k k' : K) (v : V) : get (put m k v) k' = if k' = k then some v else get m k' := by
  unfold get put erase
  by_cases h : k' = k
  · subst h; simp
  · rw [List.find?_cons_of_neg (by simp; exact fun e => h e.symm), if_neg h, List.find?_filter]
    congr 2
    funext e
    by_cases he : e.1 = k' <;> simp [he, h]

theorem get_erase (m : List (K × V)) (k k' : K) : get (erase m k) k' = if k' = k then none else get m k' := by
  unfold get erase
  by_cases h : k' = k
  · subst h
    rw [if_pos rfl, Option.map_eq_none_iff, List.find?_eq_none]
    intro e he
    simpa using (List.mem_filter.mp he).2
  · rw [if_neg h, List.find?_filter]
    congr 2
    funext e
    by_cases he : e.1 = k' <;> simp [he, h]

theorem get_head (e : K × V) (m : List (K × V)) : get (e :: m) e.1 = some e.2 := by simp [get]

/-- From `a` along `xs` to `b`, linked in both directions. -/
def Links (h : Nat → Node K) : Nat → List Nat → Nat → Prop
  | a, [], b => (h a).next = b ∧ (h b).prev = a
  | a, x :: xs, b => (h a).next = x ∧ (h x).prev = a ∧ Links h x xs b

theorem links_append (h : Nat → Node K) (a : Nat) (xs : List Nat) (y : Nat) (ys : List Nat) (b : Nat) :
    Links h a (xs ++ y :: ys) b ↔ Links h a xs y ∧ Links h y ys b := by
  induction xs generalizing a with
  | nil => simp [Links, and_assoc]
  | cons x xs ih => simp [Links, ih, and_assoc]

theorem links_head {h : Nat → Node K} {a : Nat} {xs : List Nat} {b : Nat} (hl : Links h a xs b) :
    (h a).next = xs.headD b := by cases xs <;> exact hl.1

theorem links_last {h : Nat → Node K} {a : Nat} {xs : List Nat} {b : Nat} (hl : Links h a xs b) :
    (h b).prev = xs.getLastD a := by
  induction xs generalizing a with
  | nil => exact hl.2
  | cons x xs ih =>
    rw [ih hl.2.2]
    cases xs <;> rfl

/-- Links depend only on `next` before and `prev` after. -/
theorem links_frame {h h' : Nat → Node K} {a : Nat} {xs : List Nat} {b : Nat} (hl : Links h a xs b)
    (hn : ∀ x ∈ a :: xs, (h' x).next = (h x).next) (hp : ∀ x ∈ xs ++ [b], (h' x).prev = (h x).prev) : Links h' a xs b := by
  induction xs generalizing a with
  | nil => exact ⟨(hn a (by simp)).trans hl.1, (hp b (by simp)).trans hl.2⟩
  | cons x xs ih =>
    exact ⟨(hn a (by simp)).trans hl.1, (hp x (by simp)).trans hl.2.1,
      ih hl.2.2 (fun y hy => hn y (List.mem_cons_of_mem _ hy)) (fun y hy => hp y (List.mem_cons_of_mem _ hy))⟩

theorem getLastD_mem (a : Nat) (xs : List Nat) : xs.getLastD a ∈ a :: xs := by
  induction xs generalizing a with
  | nil => simp
  | cons x xs ih =>
    have hlast : (x :: xs).getLastD a = xs.getLastD x := by cases xs <;> rfl
    rw [hlast]
    exact List.mem_cons_of_mem _ (ih x)

/-- The end of the links moved from `b` to `v`. -/
theorem links_retarget {h h' : Nat → Node K} {a : Nat} {xs : List Nat} {b : Nat} (hl : Links h a xs b) (v : Nat)
    (hnd : (a :: xs).Nodup) (h1 : (h' (xs.getLastD a)).next = v) (h2 : (h' v).prev = xs.getLastD a)
    (hn : ∀ x ∈ a :: xs, x ≠ xs.getLastD a → (h' x).next = (h x).next) (hp : ∀ x ∈ xs, (h' x).prev = (h x).prev) :
    Links h' a xs v := by
  induction xs generalizing a with
  | nil => exact ⟨h1, h2⟩
  | cons x xs ih =>
    have hlast : (x :: xs).getLastD a = xs.getLastD x := by cases xs <;> rfl
    have hne : a ≠ xs.getLastD x := by
      intro he
      have : a ∈ x :: xs := he ▸ getLastD_mem x xs
      exact (List.nodup_cons.mp hnd).1 this
    rw [hlast] at h1 h2 hn
    exact ⟨(hn a (by simp) hne).trans hl.1, (hp x (by simp)).trans hl.2.1,
      ih hl.2.2 (List.nodup_cons.mp hnd).2 h1 h2 (fun y hy => hn y (List.mem_cons_of_mem _ hy))
        (fun y hy => hp y (List.mem_cons_of_mem _ hy))⟩

/-- The object `d` holds the map `l`: `xs` are the references of its nodes in order. -/
structure Holds (d : OD K V) (l : List (K × V)) (xs : List Nat) : Prop where
  links : Links d.heap 0 xs 0
  nodup : (0 :: xs).Nodup
  below : ∀ x ∈ xs, x < d.fresh
  pos : 0 < d.fresh
  nodes : List.Forall₂ (fun x (e : K × V) => (d.heap x).key = some e.1 ∧ d.map e.1 = some x) xs l
  keys : (l.map Prod.fst).Nodup
  dict : ∀ k v, get d.dict k = some v ↔ (k, v) ∈ l

theorem Holds.present {d : OD K V} {l : List (K × V)} {xs : List Nat} (h : Holds d l xs) (k : K) :
    (∃ v, get d.dict k = some v) ↔ k ∈ l.map Prod.fst := by
  constructor
  · rintro ⟨v, hv⟩
    exact List.mem_map.mpr ⟨_, (h.dict k v).mp hv, rfl⟩
  · intro hk
    obtain ⟨e, he, rfl⟩ := List.mem_map.mp hk
    exact ⟨e.2, (h.dict _ _).mpr he⟩

theorem Holds.empty {d : OD K V} {l : List (K × V)} {xs : List Nat} (h : Holds d l xs) : d.dict.isEmpty = l.isEmpty := by
  cases hd : d.dict with
  | nil =>
    cases l with
    | nil => rfl
    | cons e r =>
      have := (h.dict e.1 e.2).mpr (by simp)
      rw [hd] at this
      cases this
  | cons e r =>
    cases l with
    | nil =>
      have := (h.dict e.1 e.2).mp (by rw [hd]; exact get_head e r)
      cases this
    | cons => rfl

theorem Holds.unique {d : OD K V} {l : List (K × V)} {xs : List Nat} (h : Holds d l xs) {k : K} {v v' : V}
    (h1 : (k, v) ∈ l) (h2 : (k, v') ∈ l) : v = v' :=
  Option.some.inj (((h.dict k v).mpr h1).symm.trans ((h.dict k v').mpr h2))

theorem holds_clear : Holds (OD.clear : OD K V) [] [] :=
  ⟨⟨rfl, rfl⟩, by simp, by simp, by simp [OD.clear], .nil, by simp, by simp [OD.clear, get]⟩

theorem mem_assign {d : OD K V} {l : List (K × V)} {xs : List Nat} (h : Holds d l xs) (k : K) (v : V) (e : K × V) :
    e ∈ assign l k v ↔ e = (k, v) ∨ (e.1 ≠ k ∧ e ∈ l) := by
  unfold assign
  split
  · rename_i hk
    constructor
    · intro he
      obtain ⟨e', he', rfl⟩ := List.mem_map.mp he
      by_cases hc : e'.1 = k
      · left; simp [hc]
      · right; simp [hc, he']
    · rintro (rfl | ⟨h1, h2⟩)
      · obtain ⟨e', he', hk'⟩ := List.mem_map.mp hk
        exact List.mem_map.mpr ⟨e', he', by simp [hk']⟩
      · exact List.mem_map.mpr ⟨e, h2, by simp [h1]⟩
  · rename_i hk
    simp only [List.mem_append, List.mem_singleton]
    constructor
    · rintro (he | he)
      · right
        exact ⟨fun hc => hk (List.mem_map.mpr ⟨e, he, hc⟩), he⟩
      · exact .inl he
    · rintro (he | he)
      · exact .inr he
      · exact .inl he.2

omit [DecidableEq K] in
theorem forall₂_mem_imp {A B : Type} {R S : A → B → Prop} {xs : List A} {l : List B} (h : List.Forall₂ R xs l)
    (hi : ∀ x e, x ∈ xs → e ∈ l → R x e → S x e) : List.Forall₂ S xs l := by
  induction h with
  | nil => exact .nil
  | cons h1 _ ih =>
    exact .cons (hi _ _ (by simp) (by simp) h1)
      (ih fun x e hx he => hi x e (List.mem_cons_of_mem _ hx) (List.mem_cons_of_mem _ he))

/-- The heap after a new node `n` for `k` has been put behind `curr`. -/
def addNode (h : Nat → Node K) (k : K) (n curr : Nat) : Nat → Node K :=
  let h := upd h n ⟨some k, curr, 0⟩
  let h := upd h curr { h curr with next := n }
  upd h 0 { h 0 with prev := n }

theorem Holds.set {d : OD K V} {l : List (K × V)} {xs : List Nat} (h : Holds d l xs) (k : K) (v : V) :
    ∃ xs', Holds (d.set k v) (assign l k v) xs' := by
  have hdict : ∀ k' v', get (put d.dict k v) k' = some v' ↔ (k', v') ∈ assign l k v := by
    intro k' v'
    rw [get_put, mem_assign h]
    by_cases hc : k' = k
    · subst hc; simp [eq_comm]
    · simp [hc, h.dict]
  by_cases hk : k ∈ l.map Prod.fst
  · -- the key is there: only the underlying dict changes
    obtain ⟨v0, hv0⟩ := (h.present k).mpr hk
    refine ⟨xs, ?_⟩
    have hd : d.set k v = { d with dict := put d.dict k v } := by simp [OD.set, hv0]
    rw [hd]
    have ha : assign l k v = l.map (fun e => if e.1 = k then (k, v) else e) := if_pos hk
    have hfst : (assign l k v).map Prod.fst = l.map Prod.fst := by
      rw [ha, List.map_map]
      apply List.map_congr_left
      intro e _
      by_cases hc : e.1 = k <;> simp [hc]
    refine ⟨h.links, h.nodup, h.below, h.pos, ?_, hfst ▸ h.keys, hdict⟩
    rw [ha, List.forall₂_map_right_iff]
    refine h.nodes.imp ?_
    intro x e he
    by_cases hc : e.1 = k
    · simpa [hc] using he
    · simpa [hc] using he
  · -- a new node at the end
    have hno : get d.dict k = none := by
      cases hg : get d.dict k with
      | none => rfl
      | some v0 => exact absurd ((h.present k).mp ⟨v0, hg⟩) hk
    have ha : assign l k v = l ++ [(k, v)] := if_neg hk
    have hcurr := links_last h.links
    have hcm : xs.getLastD 0 ∈ 0 :: xs := getLastD_mem 0 xs
    have hlt : ∀ x ∈ 0 :: xs, x < d.fresh := by
      intro x hx
      cases hx with
      | head => exact h.pos
      | tail _ hx => exact h.below x hx
    have hne : ∀ x ∈ 0 :: xs, x ≠ d.fresh := fun x hx => Nat.ne_of_lt (hlt x hx)
    have hf0 : d.fresh ≠ 0 := Nat.ne_of_gt h.pos
    generalize hcu : xs.getLastD 0 = curr at *
    refine ⟨xs ++ [d.fresh], ?_⟩
    have hd : d.set k v =
        ⟨put d.dict k v, upd d.map k (some d.fresh), addNode d.heap k d.fresh curr, d.fresh + 1⟩ := by
      simp only [OD.set, hno, hcurr, addNode]
    rw [hd, ha]
    generalize hh' : addNode d.heap k d.fresh curr = h'
    unfold addNode at hh'
    simp only [] at hh'
    -- the fields of the new heap
    have hnext : ∀ x ∈ 0 :: xs, x ≠ curr → (h' x).next = (d.heap x).next := by
      intro x hx hc
      rw [← hh']
      by_cases h0 : x = 0
      · subst h0; rw [upd_same, upd_ne _ _ hc, upd_ne _ _ (hne 0 (by simp))]
      · rw [upd_ne _ _ h0, upd_ne _ _ hc, upd_ne _ _ (hne x hx)]
    have hcnext : (h' curr).next = d.fresh := by
      rw [← hh']
      by_cases h0 : curr = 0
      · rw [h0, upd_same, upd_same]
      · rw [upd_ne _ _ h0, upd_same]
    have hprev : ∀ x ∈ xs, (h' x).prev = (d.heap x).prev := by
      intro x hx
      have h0 : x ≠ 0 := fun hc => (List.nodup_cons.mp h.nodup).1 (hc ▸ hx)
      rw [← hh', upd_ne _ _ h0]
      by_cases hc : x = curr
      · rw [hc, upd_same, upd_ne _ _ (hc ▸ hne x (by simp [hx]))]
      · rw [upd_ne _ _ hc, upd_ne _ _ (hne x (by simp [hx]))]
    have hkey : ∀ x ∈ xs, (h' x).key = (d.heap x).key := by
      intro x hx
      have h0 : x ≠ 0 := fun hc => (List.nodup_cons.mp h.nodup).1 (hc ▸ hx)
      rw [← hh', upd_ne _ _ h0]
      by_cases hc : x = curr
      · rw [hc, upd_same, upd_ne _ _ (hc ▸ hne x (by simp [hx]))]
      · rw [upd_ne _ _ hc, upd_ne _ _ (hne x (by simp [hx]))]
    have hnew : h' d.fresh = ⟨some k, curr, 0⟩ := by
      rw [← hh', upd_ne _ _ hf0, upd_ne _ _ (fun hc => hne curr hcm hc.symm), upd_same]
    have h0prev : (h' 0).prev = d.fresh := by rw [← hh', upd_same]
    refine ⟨?_, ?_, ?_, Nat.succ_pos _, ?_, ?_, ha ▸ hdict⟩
    · refine (links_append h' 0 xs d.fresh [] 0).mpr ⟨?_, by rw [hnew], h0prev⟩
      refine links_retarget h.links d.fresh h.nodup (by rw [hcu]; exact hcnext) (by rw [hcu, hnew]) ?_ hprev
      rw [hcu]; exact hnext
    · rw [← List.cons_append, List.nodup_append]
      refine ⟨h.nodup, by simp, ?_⟩
      intro x hx y hy
      rw [List.mem_singleton] at hy
      exact hy ▸ hne x hx
    · intro x hx
      rcases List.mem_append.mp hx with hx | hx
      · exact Nat.lt_succ_of_lt (h.below x hx)
      · rw [List.mem_singleton] at hx; exact hx ▸ Nat.lt_succ_self _
    · refine List.rel_append ?_ (.cons ⟨by show (h' d.fresh).key = _; rw [hnew], by simp⟩ .nil)
      refine forall₂_mem_imp h.nodes ?_
      rintro x e hx he ⟨h1, h2⟩
      refine ⟨(hkey x hx).trans h1, ?_⟩
      have : e.1 ≠ k := fun hc => hk (List.mem_map.mpr ⟨e, he, hc⟩)
      exact (upd_ne _ _ this).trans h2
    · rw [List.map_append, List.nodup_append]
      refine ⟨h.keys, by simp, ?_⟩
      intro x hx y hy
      simp at hy
      exact fun hc => hk (hy ▸ hc ▸ hx)

omit [DecidableEq K] in
theorem forall₂_split {A B : Type} {R : A → B → Prop} {xs : List A} {l1 : List B} {e : B} {l2 : List B}
    (h : List.Forall₂ R xs (l1 ++ e :: l2)) :
    ∃ p n q, xs = p ++ n :: q ∧ List.Forall₂ R p l1 ∧ R n e ∧ List.Forall₂ R q l2 := by
  induction l1 generalizing xs with
  | nil =>
    cases h with
    | cons h1 h2 => exact ⟨[], _, _, rfl, .nil, h1, h2⟩
  | cons b l1 ih =>
    cases h with
    | cons h1 h2 =>
      obtain ⟨p, n, q, rfl, hp, hn, hq⟩ := ih h2
      exact ⟨_ :: p, n, q, rfl, .cons h1 hp, hn, hq⟩

/-- The heap after the node between `p` and `n` has been taken out. -/
def skipNode (h : Nat → Node K) (p n : Nat) : Nat → Node K :=
  let h := upd h p { h p with next := n }
  upd h n { h n with prev := p }

theorem skipNode_next (h : Nat → Node K) (p n : Nat) : (skipNode h p n p).next = n := by
  unfold skipNode
  by_cases hc : p = n
  · subst hc; simp
  · rw [upd_ne _ _ hc, upd_same]

theorem skipNode_prev (h : Nat → Node K) (p n : Nat) : (skipNode h p n n).prev = p := by
  unfold skipNode; rw [upd_same]

theorem skipNode_next_ne (h : Nat → Node K) (p n : Nat) {x : Nat} (hx : x ≠ p) :
    (skipNode h p n x).next = (h x).next := by
  unfold skipNode
  by_cases hc : x = n
  · subst hc; rw [upd_same, upd_ne _ _ hx]
  · rw [upd_ne _ _ hc, upd_ne _ _ hx]

theorem skipNode_prev_ne (h : Nat → Node K) (p n : Nat) {x : Nat} (hx : x ≠ n) :
    (skipNode h p n x).prev = (h x).prev := by
  unfold skipNode
  by_cases hc : x = p
  · subst hc; rw [upd_ne _ _ hx, upd_same]
  · rw [upd_ne _ _ hx, upd_ne _ _ hc]

theorem skipNode_key (h : Nat → Node K) (p n : Nat) (x : Nat) : (skipNode h p n x).key = (h x).key := by
  unfold skipNode
  by_cases h1 : x = n
  · subst h1
    rw [upd_same]
    by_cases h2 : x = p
    · subst h2; rw [upd_same]
    · rw [upd_ne _ _ h2]
  · rw [upd_ne _ _ h1]
    by_cases h2 : x = p
    · subst h2; rw [upd_same]
    · rw [upd_ne _ _ h2]

theorem Holds.del {d : OD K V} {l1 l2 : List (K × V)} {k : K} {v : V} {xs : List Nat}
    (h : Holds d (l1 ++ (k, v) :: l2) xs) : ∃ d' xs', d.del k = .ok d' ∧ Holds d' (l1 ++ l2) xs' := by
  obtain ⟨p, n, q, rfl, hp, ⟨hnk, hnm⟩, hq⟩ := forall₂_split h.nodes
  obtain ⟨hlp, hlq⟩ := (links_append _ _ _ _ _ _).mp h.links
  have hprev := links_last hlp
  have hnext := links_head hlq
  have hnd : (0 :: p).Nodup ∧ (n :: q).Nodup ∧ ∀ a ∈ 0 :: p, ∀ b ∈ n :: q, a ≠ b := by
    have := h.nodup
    rw [← List.cons_append, List.nodup_append] at this
    exact this
  have hkeys := h.keys
  rw [List.map_append, List.map_cons, List.nodup_append] at hkeys
  obtain ⟨hk1, hk2, hk3⟩ := hkeys
  have hk1' : k ∉ l1.map Prod.fst := fun hc => hk3 k hc k (by simp) rfl
  have hk2' : k ∉ l2.map Prod.fst := (List.nodup_cons.mp hk2).1
  refine ⟨⟨erase d.dict k, upd d.map k none, skipNode d.heap (p.getLastD 0) (q.headD 0), d.fresh⟩, p ++ q, ?_, ?_⟩
  · have hg : get d.dict k = some v := (h.dict k v).mpr (by simp)
    simp only [OD.del, hg, hnm, skipNode, hprev, hnext]
  · have hpm : p.getLastD 0 ∈ 0 :: p := getLastD_mem 0 p
    have hsub : (p ++ q).Sublist (p ++ n :: q) := List.Sublist.append_left (List.sublist_cons_self n q) p
    refine ⟨?_, ?_, fun x hx => h.below x (hsub.subset hx), h.pos, ?_, ?_, ?_⟩
    · cases q with
      | nil =>
        rw [List.append_nil]
        refine links_retarget hlp 0 hnd.1 (skipNode_next _ _ _) (skipNode_prev _ _ _)
          (fun x _ hx => skipNode_next_ne _ _ _ hx) (fun x hx => skipNode_prev_ne _ _ _ ?_)
        exact fun (hc : x = 0) => (List.nodup_cons.mp hnd.1).1 (hc ▸ hx)
      | cons y ys =>
        have hy : ∀ x ∈ 0 :: p, x ≠ y := fun x hx => hnd.2.2 x hx y (by simp)
        refine (links_append _ _ _ _ _ _).mpr ⟨?_, ?_⟩
        · refine links_retarget hlp y hnd.1 (skipNode_next _ _ _) (skipNode_prev _ _ _)
            (fun x _ hx => skipNode_next_ne _ _ _ hx) (fun x hx => skipNode_prev_ne _ _ _ ?_)
          exact hy x (List.mem_cons_of_mem _ hx)
        · refine links_frame hlq.2.2 (fun x hx => skipNode_next_ne _ _ _ ?_) (fun x hx => skipNode_prev_ne _ _ _ ?_)
          · exact fun hc => hnd.2.2 _ hpm x (List.mem_cons_of_mem _ hx) hc.symm
          · rcases List.mem_append.mp hx with hx | hx
            · have := (List.nodup_cons.mp (List.nodup_cons.mp hnd.2.1).2).1
              exact fun (hc : x = y) => this (hc ▸ hx)
            · rw [List.mem_singleton] at hx
              subst hx
              exact hy 0 (by simp)
    · exact List.Nodup.sublist (hsub.cons_cons 0) h.nodup
    · refine List.rel_append (forall₂_mem_imp hp ?_) (forall₂_mem_imp hq ?_)
      · rintro x e _ he ⟨h1, h2⟩
        exact ⟨(skipNode_key _ _ _ _).trans h1,
          (upd_ne _ _ (fun (hc : e.1 = k) => hk1' (hc ▸ List.mem_map.mpr ⟨e, he, rfl⟩))).trans h2⟩
      · rintro x e _ he ⟨h1, h2⟩
        exact ⟨(skipNode_key _ _ _ _).trans h1,
          (upd_ne _ _ (fun (hc : e.1 = k) => hk2' (hc ▸ List.mem_map.mpr ⟨e, he, rfl⟩))).trans h2⟩
    · rw [List.map_append, List.nodup_append]
      exact ⟨hk1, (List.nodup_cons.mp hk2).2, fun a ha b hb => hk3 a ha b (List.mem_cons_of_mem _ hb)⟩
    · intro k' v'
      rw [get_erase]
      by_cases hc : k' = k
      · subst hc
        have h1 : (k', v') ∉ l1 := fun he => hk1' (List.mem_map.mpr ⟨_, he, rfl⟩)
        have h2 : (k', v') ∉ l2 := fun he => hk2' (List.mem_map.mpr ⟨_, he, rfl⟩)
        simp [h1, h2]
      · rw [if_neg hc, h.dict]
        simp [hc]

omit [DecidableEq K] in
theorem iterLoop_links (d : OD K V) {a : Nat} {xs : List Nat} (hl : Links d.heap a xs 0) (h0 : 0 ∉ xs) (n : Nat)
    (hn : xs.length ≤ n) : d.iterLoop n (d.heap a).next = .ok (xs.map fun x => (d.heap x).key) := by
  induction xs generalizing a n with
  | nil =>
    rw [hl.1]
    cases n <;> simp [OD.iterLoop]
  | cons x xs ih =>
    obtain ⟨m, rfl⟩ : ∃ m, n = m + 1 := ⟨n - 1, by simp at hn; omega⟩
    rw [hl.1]
    have hx : x ≠ 0 := fun hc => h0 (by simp [hc])
    simp only [OD.iterLoop, if_neg hx]
    rw [ih hl.2.2 (fun hc => h0 (List.mem_cons_of_mem _ hc)) m (by simpa using hn)]
    rfl

theorem revLoop_links (d : OD K V) {b : Nat} {xs : List Nat} (hl : Links d.heap 0 xs b) (h0 : 0 ∉ xs) (n : Nat)
    (hn : xs.length ≤ n) : d.revLoop n (d.heap b).prev = .ok (xs.reverse.map fun x => (d.heap x).key) := by
  induction xs using List.reverseRecOn generalizing b n with
  | nil =>
    rw [hl.2]
    cases n <;> simp [OD.revLoop]
  | append_singleton xs x ih =>
    obtain ⟨m, rfl⟩ : ∃ m, n = m + 1 := ⟨n - 1, by simp at hn; omega⟩
    obtain ⟨h1, h2⟩ := (links_append _ _ _ _ _ _).mp hl
    rw [h2.2]
    have hx : x ≠ 0 := fun hc => h0 (by simp [hc])
    simp only [OD.revLoop, if_neg hx]
    rw [ih h1 (fun hc => h0 (by simp [hc])) m (by simpa using hn)]
    simp

theorem Holds.length_le {d : OD K V} {l : List (K × V)} {xs : List Nat} (h : Holds d l xs) : xs.length ≤ d.fresh := by
  have hs : (0 :: xs).Subperm (List.range d.fresh) := by
    refine List.Nodup.subperm h.nodup ?_
    intro x hx
    rw [List.mem_range]
    cases hx with
    | head => exact h.pos
    | tail _ hx => exact h.below x hx
  have := hs.length_le
  simp at this
  omega

theorem Holds.keys_eq {d : OD K V} {l : List (K × V)} {xs : List Nat} (h : Holds d l xs) :
    xs.map (fun x => (d.heap x).key) = l.map (fun e => some e.1) := by
  have := h.nodes
  clear h
  induction this with
  | nil => rfl
  | cons h1 _ ih => simp [ih, h1.1]

theorem Holds.iter {d : OD K V} {l : List (K × V)} {xs : List Nat} (h : Holds d l xs) :
    d.iter = .ok (l.map fun e => some e.1) := by
  rw [← h.keys_eq]
  exact iterLoop_links d h.links (List.nodup_cons.mp h.nodup).1 _ h.length_le

theorem Holds.reversed {d : OD K V} {l : List (K × V)} {xs : List Nat} (h : Holds d l xs) :
    d.reversed = .ok (l.reverse.map fun e => some e.1) := by
  rw [List.map_reverse, ← h.keys_eq, ← List.map_reverse]
  exact revLoop_links d h.links (List.nodup_cons.mp h.nodup).1 _ h.length_le

theorem Holds.items {d : OD K V} {l : List (K × V)} {xs : List Nat} (h : Holds d l xs) : d.items = .ok l := by
  unfold OD.items
  rw [h.iter]
  have hd := fun e (he : e ∈ l) => (h.dict e.1 e.2).mpr he
  clear h
  show List.mapM _ _ = _
  induction l with
  | nil => rfl
  | cons e r ih =>
    have h1 := hd e (by simp)
    rw [List.map_cons, List.mapM_cons, ih (fun e he => hd e (List.mem_cons_of_mem _ he))]
    simp only [h1]
    rfl

end Asn1.OrdDict
