import Verif.Model.Setup
import Mathlib.Data.List.Basic

/-! # Tables made by several threads -/

namespace Asn1.Setup

/-- The program makes a table for the attribute. -/
def Makes (l : List Instr) (a : Nat) : Prop := .newDict a ∈ l ∨ .newList a ∈ l

theorem Makes.tail {n : Instr} {l : List Instr} {a : Nat} (h : Makes (n :: l) a) (h1 : n ≠ .newDict a) (h2 : n ≠ .newList a) : Makes l a := by
  rcases h with h | h
  · exact .inl ((List.mem_cons.mp h).resolve_left (fun h => h1 h.symm))
  · exact .inr ((List.mem_cons.mp h).resolve_left (fun h => h2 h.symm))

/-- The instruction is one on the table of the attribute. -/
def Touches (i : Instr) (a : Nat) : Prop := (∃ k v, i = .store a k v) ∨ (∃ v, i = .append a v) ∨ ∃ k, i = .get a k

/-- The last value stored for the key. -/
def lastOf (a : Nat) (k : Atom) : List Instr → Option Atom
  | [] => none
  | .store b k' v :: r => (lastOf a k r).or (if b = a ∧ k' = k then some v else none)
  | _ :: r => lastOf a k r

/-- Conditions on an instruction of the setup `S` and what follows. -/
def OkAt (S : List Instr) : Instr → List Instr → Prop
  | .unlessMarked, _ => True
  | .unlessSet b, _ => ∀ a, Makes S a → a = b
  | .newDict a, r => (∀ k, lastOf a k r = lastOf a k S) ∧ .newDict a ∉ r ∧ .unlessMarked ∉ r ∧ ∀ b, .unlessSet b ∉ r
  | .newList a, _ => .newDict a ∉ S
  | .store a k v, r => lastOf a k (.store a k v :: r) = lastOf a k S ∧ Makes S a ∧ ¬ Makes r a ∧ .unlessMarked ∉ r ∧ ∀ b, .unlessSet b ∉ r
  | .append a _, r => .newDict a ∉ S ∧ Makes S a ∧ ¬ Makes r a
  | .get a _, r => Makes S a ∧ ∀ b, ¬ Makes r b ∧ ∀ k, lastOf b k r = none
  | .mark, r => ∀ a, ¬ Makes r a

/-- These conditions hold for all of the program. -/
def Sound (S l : List Instr) : Prop := ∀ i r, (i :: r) <:+ l → OkAt S i r

theorem Sound.suffix {S l l' : List Instr} (h : Sound S l) (hs : l' <:+ l) : Sound S l' := fun i r hr => h i r (hr.trans hs)

theorem sound_nil {S : List Instr} : Sound S [] := fun i r h => by
  have := List.suffix_nil.mp h
  cases this

theorem sound_cons {S l : List Instr} {i : Instr} (h : OkAt S i l) (hl : Sound S l) : Sound S (i :: l) := by
  intro n r hr
  rcases List.suffix_cons_iff.mp hr with h' | h'
  · cases h'; exact h
  · exact hl n r h'

theorem Sound.head {S l : List Instr} {i : Instr} (h : Sound S (i :: l)) : OkAt S i l := h i l (List.suffix_refl _)

theorem Sound.rest {S l : List Instr} {i : Instr} (h : Sound S (i :: l)) : Sound S l := h.suffix (List.suffix_cons _ _)

theorem toMark_suffix (l : List Instr) : toMark l <:+ l := List.dropWhile_suffix _

/-- The thread will store `v` at the key `k` in the table `x` of the attribute `a`, and nothing else there later. -/
structure Pending (a x : Nat) (k v : Atom) (t : Thread) : Prop where
  once : .newDict a ∉ t.rest
  stays : .unlessMarked ∉ t.rest ∧ ∀ b, .unlessSet b ∉ t.rest
  last : lastOf a k t.rest = some v
  here : ∀ y k v r, t.ref = some y → t.rest = .store a k v :: r → y = x

/-- What holds at all times; `own` tells for which attribute an object was made. -/
structure Kept (S : List Instr) (own : Nat → Nat) (w : World) : Prop where
  sound : ∀ (i : Nat) (t : Thread), w.threads[i]? = some t → Sound S t.rest
  made : ∀ a, Makes S a → w.attrs a = none → w.marked = false ∧ ∀ (i : Nat) (t : Thread), w.threads[i]? = some t → Makes t.rest a
  attrs : ∀ a x, w.attrs a = some x → x < w.heap.length ∧ own x = a
  refs : ∀ (i : Nat) (t : Thread) x, w.threads[i]? = some t → t.ref = some x → x < w.heap.length ∧ ∃ n r, t.rest = n :: r ∧ Touches n (own x)
  heap : ∀ x tb, w.heap[x]? = some tb → .newDict (own x) ∈ S → ∃ es, tb = .dict es ∧ ∀ k, lastOf (own x) k S = none → es.lookup k = none
  filling : ∀ a x k v, w.attrs a = some x → .newDict a ∈ S → lastOf a k S = some v → (∃ es, w.heap[x]? = some (.dict es) ∧ es.lookup k = some v) ∨
    ∃ (i : Nat) (t : Thread), w.threads[i]? = some t ∧ Pending a x k v t

theorem get_set {α : Type} {l : List α} {i j : Nat} {a b : α} (h : (l.set i a)[j]? = some b) : (i = j ∧ b = a) ∨ (i ≠ j ∧ l[j]? = some b) := by
  rw [List.getElem?_set] at h
  split at h
  · split at h
    · exact .inl ⟨by assumption, (Option.some.inj h).symm⟩
    · cases h
  · exact .inr ⟨by assumption, h⟩

/-- Only the thread changes. -/
theorem Kept.thread {S : List Instr} {own : Nat → Nat} {w : World} (h : Kept S own w) {i : Nat} {t t' : Thread} (hi : w.threads[i]? = some t) {m : Bool}
    (h1 : Sound S t'.rest) (h2 : ∀ a, Makes S a → w.attrs a = none → m = false ∧ Makes t'.rest a)
    (h3 : ∀ x, t'.ref = some x → x < w.heap.length ∧ ∃ n r, t'.rest = n :: r ∧ Touches n (own x))
    (h4 : ∀ a x k v, w.attrs a = some x → .newDict a ∈ S → Pending a x k v t → Pending a x k v t') :
    Kept S own { w with marked := m, threads := w.threads.set i t' } where
  sound j u hu := by
    rcases get_set hu with ⟨_, rfl⟩ | ⟨_, hu⟩
    · exact h1
    · exact h.sound j u hu
  made a ha hn := by
    refine ⟨(h2 a ha hn).1, fun j u hu => ?_⟩
    rcases get_set hu with ⟨_, rfl⟩ | ⟨_, hu⟩
    · exact (h2 a ha hn).2
    · exact (h.made a ha hn).2 j u hu
  attrs := h.attrs
  refs j u x hu hx := by
    rcases get_set hu with ⟨_, rfl⟩ | ⟨_, hu⟩
    · exact h3 x hx
    · exact h.refs j u x hu hx
  heap := h.heap
  filling a x k v ha hs hk := by
    rcases h.filling a x k v ha hs hk with hd | ⟨j, u, hu, hf⟩
    · exact .inl hd
    · refine .inr ?_
      by_cases hij : i = j
      · subst hij
        rw [hi] at hu
        cases hu
        exact ⟨i, t', by simp [List.getElem?_set, (List.getElem?_eq_some_iff.mp hi).1], h4 a x k v ha hs hf⟩
      · exact ⟨j, u, by simp only [List.getElem?_set, if_neg hij, hu], hf⟩

theorem lastOf_other {a : Nat} {k : Atom} {n : Instr} {r : List Instr} (h : ∀ v, n ≠ .store a k v) : lastOf a k (n :: r) = lastOf a k r := by
  cases n with
  | store b k' v =>
    have : ¬ (b = a ∧ k' = k) := by
      rintro ⟨rfl, rfl⟩
      exact h v rfl
    simp [lastOf, this]
  | _ => rfl

/-- An object is changed. -/
theorem Kept.modify {S : List Instr} {own : Nat → Nat} {w : World} (h : Kept S own w) {i : Nat} {t : Thread} (hi : w.threads[i]? = some t) {n : Instr}
    {r : List Instr} (hr : t.rest = n :: r) {x : Nat} (hx : t.ref = some x) {act : Table → Table}
    (hn : (∃ a k v, n = .store a k v ∧ act = Table.put k v) ∨ ∃ a v, n = .append a v) :
    Kept S own { w with heap := w.heap.modify x act, threads := w.threads.set i { t with rest := r, ref := none } } := by
  obtain ⟨hlt, n', r', hr', ht⟩ := h.refs i t x hi hx
  rw [hr] at hr'
  cases hr'
  have hsnd := h.sound i t hi
  rw [hr] at hsnd
  have h1 : ∀ a, n ≠ .newDict a ∧ n ≠ .newList a := by
    intro a
    rcases hn with ⟨_, _, _, rfl, _⟩ | ⟨_, _, rfl⟩ <;> exact ⟨by simp, by simp⟩
  -- the change made to a dict
  have h2 : .newDict (own x) ∈ S → ∃ k v, n = .store (own x) k v ∧ act = Table.put k v := by
    intro hs
    rcases hn with ⟨a, k, v, rfl, rfl⟩ | ⟨a, v, rfl⟩
    · rcases ht with ⟨k', v', h'⟩ | ⟨v', h'⟩ | ⟨k', h'⟩ <;> cases h'
      exact ⟨k, v, rfl, rfl⟩
    · rcases ht with ⟨k', v', h'⟩ | ⟨v', h'⟩ | ⟨k', h'⟩ <;> cases h'
      exact absurd hs hsnd.head.1
  have isdict : .newDict (own x) ∈ S → ∃ es, w.heap[x]? = some (.dict es) := by
    intro hs
    obtain ⟨tb, htb⟩ : ∃ tb, w.heap[x]? = some tb := ⟨_, List.getElem?_eq_getElem (h := hlt)⟩
    obtain ⟨es, rfl, _⟩ := h.heap x tb htb hs
    exact ⟨es, htb⟩
  refine ⟨fun j u hu => ?_, fun a ha hn => ?_, fun a y hy => ?_, fun j u y hu hy => ?_, fun y tb hy hs => ?_, fun a y k v ha hs hk => ?_⟩
  · rcases get_set hu with ⟨_, rfl⟩ | ⟨_, hu⟩
    · exact hsnd.rest
    · exact h.sound j u hu
  · refine ⟨(h.made a ha hn).1, fun j u hu => ?_⟩
    rcases get_set hu with ⟨_, rfl⟩ | ⟨_, hu⟩
    · have := (h.made a ha hn).2 i t hi
      rw [hr] at this
      exact this.tail (h1 a).1 (h1 a).2
    · exact (h.made a ha hn).2 j u hu
  · simp only [List.length_modify]
    exact h.attrs a y hy
  · simp only [List.length_modify]
    rcases get_set hu with ⟨_, rfl⟩ | ⟨_, hu⟩
    · cases hy
    · exact h.refs j u y hu hy
  · simp only [List.getElem?_modify] at hy
    by_cases hxy : x = y
    · subst hxy
      obtain ⟨k, v, rfl, rfl⟩ := h2 hs
      simp only [if_true] at hy
      cases hh : w.heap[x]? with
      | none => rw [hh] at hy; cases hy
      | some tb' =>
        rw [hh] at hy
        obtain ⟨es, rfl, he⟩ := h.heap x tb' hh hs
        cases hy
        refine ⟨(k, v) :: es, rfl, fun k' hk' => ?_⟩
        have hne : k' ≠ k := by
          rintro rfl
          have := hsnd.head.1
          rw [hk'] at this
          simp [lastOf] at this
        have hb : (k' == k) = false := by simpa using hne
        rw [List.lookup_cons, hb]
        exact he k' hk'
    · simp only [if_neg hxy, id_map'] at hy
      exact h.heap y tb hy hs
  · have hown := (h.attrs a y ha).2
    have setI : ∀ u : Thread, (w.threads.set i u)[i]? = some u := fun u => by simp [List.getElem?_set, (List.getElem?_eq_some_iff.mp hi).1]
    rcases h.filling a y k v ha hs hk with ⟨es, hd, hv⟩ | ⟨j, u, hu, hf⟩
    · by_cases hxy : x = y
      · subst hxy
        subst hown
        obtain ⟨k', v', rfl, rfl⟩ := h2 hs
        by_cases hkk : k = k'
        · subst hkk
          by_cases hvv : v' = v
          · subst hvv
            exact .inl ⟨(k, v') :: es, by simp [List.getElem?_modify, hd, Table.put], by simp⟩
          · obtain ⟨o1, o2, o3, o4, o5⟩ := hsnd.head
            refine .inr ⟨i, _, setI _, fun hm => o3 (.inl hm), ⟨o4, o5⟩, ?_, fun y k v r' hy => by cases hy⟩
            rw [hk] at o1
            simp only [lastOf, and_self, if_true] at o1
            cases hl : lastOf (own x) k r with
            | none => rw [hl] at o1; simp at o1; exact absurd o1 hvv
            | some v2 => rw [hl] at o1; simpa using o1
        · have hb : (k == k') = false := by simpa using hkk
          exact .inl ⟨(k', v') :: es, by simp [List.getElem?_modify, hd, Table.put], by rw [List.lookup_cons, hb]; exact hv⟩
      · exact .inl ⟨es, by simp [List.getElem?_modify, hxy, hd], hv⟩
    · by_cases hij : i = j
      · subst hij
        rw [hi] at hu
        cases hu
        obtain ⟨f1, f2, f3, f4⟩ := hf
        rw [hr] at f1 f2 f3
        have goes : lastOf a k r = some v → Pending a y k v { t with rest := r, ref := none } := fun hl =>
          ⟨fun hm => f1 (List.mem_cons_of_mem _ hm), ⟨fun hm => f2.1 (List.mem_cons_of_mem _ hm), fun b hm => f2.2 b (List.mem_cons_of_mem _ hm)⟩, hl,
            fun z k v r' hz => by cases hz⟩
        by_cases hst : ∃ v', n = .store a k v'
        · obtain ⟨v', rfl⟩ := hst
          have hxy : x = y := f4 x k v' r hx hr
          subst hxy
          subst hown
          obtain ⟨k2, v2, hn2, rfl⟩ := h2 hs
          cases hn2
          simp only [lastOf, and_self, if_true] at f3
          cases hl : lastOf (own x) k r with
          | none =>
            rw [hl] at f3
            simp at f3
            subst f3
            obtain ⟨es, hd⟩ := isdict hs
            exact .inl ⟨(k, v') :: es, by simp [List.getElem?_modify, hd, Table.put], by simp⟩
          | some v2 =>
            rw [hl] at f3
            simp at f3
            subst f3
            exact .inr ⟨i, _, setI _, goes hl⟩
        · rw [lastOf_other (fun v' h' => hst ⟨v', h'⟩)] at f3
          exact .inr ⟨i, _, setI _, goes f3⟩
      · exact .inr ⟨j, u, by simp only [List.getElem?_set, if_neg hij, hu], hf⟩

/-- An object is made. -/
theorem Kept.alloc {S : List Instr} {own : Nat → Nat} {w : World} (h : Kept S own w) {i : Nat} {t : Thread} (hi : w.threads[i]? = some t) {n : Instr}
    {r : List Instr} (hr : t.rest = n :: r) {a : Nat} {tb : Table} (hn : (n = .newDict a ∧ tb = .dict []) ∨ (n = .newList a ∧ tb = .list [])) :
    Kept S (fun x => if x = w.heap.length then a else own x)
      { w with attrs := fun b => if b = a then some w.heap.length else w.attrs b, heap := w.heap ++ [tb], threads := w.threads.set i { t with rest := r } } := by
  have hsnd := h.sound i t hi
  rw [hr] at hsnd
  have href : t.ref = none := by
    cases hx : t.ref with
    | none => rfl
    | some x =>
      obtain ⟨_, n', r', hr', ht⟩ := h.refs i t x hi hx
      rw [hr] at hr'
      cases hr'
      rcases hn with ⟨rfl, _⟩ | ⟨rfl, _⟩ <;> rcases ht with ⟨k, v, h⟩ | ⟨v, h⟩ | ⟨k, h⟩ <;> cases h
  refine ⟨fun j u hu => ?_, fun b hb hnone => ?_, fun b y hy => ?_, fun j u y hu hy => ?_, fun y tb' hy hs => ?_, fun b y k v hb hs hk => ?_⟩
  · rcases get_set hu with ⟨_, rfl⟩ | ⟨_, hu⟩
    · exact hsnd.rest
    · exact h.sound j u hu
  · have hba : b ≠ a := by
      rintro rfl
      simp at hnone
    simp only [if_neg hba] at hnone
    refine ⟨(h.made b hb hnone).1, fun j u hu => ?_⟩
    rcases get_set hu with ⟨_, rfl⟩ | ⟨_, hu⟩
    · have := (h.made b hb hnone).2 i t hi
      rw [hr] at this
      rcases hn with ⟨rfl, _⟩ | ⟨rfl, _⟩
      · exact this.tail (fun h => hba (by cases h; rfl)) (fun h => by cases h)
      · exact this.tail (fun h => by cases h) (fun h => hba (by cases h; rfl))
    · exact (h.made b hb hnone).2 j u hu
  · simp only [List.length_append, List.length_cons, List.length_nil]
    simp only at hy
    split at hy
    · cases hy
      subst_vars
      exact ⟨by omega, by simp⟩
    · have := h.attrs b y hy
      exact ⟨by omega, by rw [if_neg (by omega)]; exact this.2⟩
  · simp only [List.length_append, List.length_cons, List.length_nil]
    rcases get_set hu with ⟨_, rfl⟩ | ⟨_, hu⟩
    · simp only [href] at hy
      cases hy
    · have := h.refs j u y hu hy
      exact ⟨by omega, by rw [if_neg (by omega)]; exact this.2⟩
  · by_cases hlt : y < w.heap.length
    · rw [if_neg (by omega)] at hs ⊢
      simp only [List.getElem?_append_left hlt] at hy
      exact h.heap y tb' hy hs
    · have hye : y = w.heap.length := by
        have := (List.getElem?_eq_some_iff.mp hy).1
        simp only [List.length_append, List.length_cons, List.length_nil] at this
        omega
      subst hye
      simp only [if_true] at hs ⊢
      simp only [List.getElem?_append_right (Nat.le_refl _), Nat.sub_self] at hy
      cases hy
      rcases hn with ⟨rfl, rfl⟩ | ⟨rfl, rfl⟩
      · exact ⟨[], rfl, fun k _ => rfl⟩
      · exact absurd hs hsnd.head
  · by_cases hba : b = a
    · subst hba
      simp only [if_true] at hb
      cases hb
      rcases hn with ⟨rfl, rfl⟩ | ⟨rfl, rfl⟩
      · obtain ⟨o1, o2, o3, o4⟩ := hsnd.head
        exact .inr ⟨i, _, by simp [List.getElem?_set, (List.getElem?_eq_some_iff.mp hi).1]; rfl, o2, ⟨o3, o4⟩, (o1 k).trans hk,
          fun y k v r' hy => by simp only [href] at hy; cases hy⟩
      · exact absurd hs hsnd.head
    · simp only [if_neg hba] at hb
      have hy := (h.attrs b y hb).1
      rcases h.filling b y k v hb hs hk with ⟨es, h1, h2⟩ | ⟨j, u, hu, hf⟩
      · exact .inl ⟨es, by simp only [List.getElem?_append_left hy]; exact h1, h2⟩
      refine .inr ?_
      by_cases hij : i = j
      · subst hij
        rw [hi] at hu
        cases hu
        refine ⟨i, _, by simp [List.getElem?_set, (List.getElem?_eq_some_iff.mp hi).1]; rfl, ?_⟩
        obtain ⟨f1, f2, f3, f4⟩ := hf
        rw [hr] at f1 f2 f3
        refine ⟨fun hm => f1 (List.mem_cons_of_mem _ hm), ⟨fun hm => f2.1 (List.mem_cons_of_mem _ hm), fun b hm => f2.2 b (List.mem_cons_of_mem _ hm)⟩,
          ?_, fun z k v r' hz => by simp only [href] at hz; cases hz⟩
        rcases hn with ⟨rfl, _⟩ | ⟨rfl, _⟩ <;> exact f3
      · exact ⟨j, u, by simp only [List.getElem?_set, if_neg hij, hu], hf⟩

/-- A step keeps what holds at all times. -/
theorem Kept.step {S : List Instr} {own : Nat → Nat} {w : World} (h : Kept S own w) (i : Nat) : ∃ own', Kept S own' (step w i) := by
  unfold Setup.step
  cases hi : w.threads[i]? with
  | none => exact ⟨own, h⟩
  | some t =>
    have hsnd := h.sound i t hi
    have hmade : ∀ a, Makes S a → w.attrs a = none → w.marked = false ∧ Makes t.rest a := fun a ha hn => ⟨(h.made a ha hn).1, (h.made a ha hn).2 i t hi⟩
    have hrefs := fun x => h.refs i t x hi
    cases hr : t.rest with
    | nil =>
      simp only [exec, hr]
      exact ⟨own, h.thread hi hsnd hmade hrefs (fun _ _ _ _ _ _ hf => hf)⟩
    | cons n r =>
      rw [hr] at hsnd
      have noref : ¬ (∃ a, Touches n a) → t.ref = none := by
        intro hno
        cases hx : t.ref with
        | none => rfl
        | some x =>
          obtain ⟨_, n', r', hr', ht⟩ := hrefs x hx
          rw [hr] at hr'
          cases hr'
          exact absurd ⟨_, ht⟩ hno
      -- the filling thread goes on
      have go : ∀ {a x : Nat} {k v : Atom} {t' : Thread}, t'.rest = r → t'.ref = none → (∀ a k v, n ≠ .store a k v) → Pending a x k v t → Pending a x k v t' := by
        intro a x k v t' e1 e2 e3 ⟨f1, f2, f3, f4⟩
        rw [hr] at f1 f2 f3
        refine ⟨by rw [e1]; exact fun hm => f1 (List.mem_cons_of_mem _ hm), by rw [e1]; exact ⟨fun hm => f2.1 (List.mem_cons_of_mem _ hm),
          fun b hm => f2.2 b (List.mem_cons_of_mem _ hm)⟩, ?_, fun y k v r' hy => by rw [e2] at hy; cases hy⟩
        rw [e1, ← lastOf_other (e3 a k)]
        exact f3
      have acc : ∀ a act, Touches n a → ¬ Makes (n :: r) a → Makes S a → t.ref = none →
          ∃ own', Kept S own' { (access w t a r act).1 with threads := w.threads.set i (access w t a r act).2 } := by
        intro a act ht hno hS href
        unfold access
        simp only [href]
        cases ha : w.attrs a with
        | none =>
          have := (hmade a hS ha).2
          rw [hr] at this
          exact absurd this hno
        | some x =>
          refine ⟨own, h.thread hi (by rw [hr]; exact hsnd) (by simpa [hr] using hmade) ?_ ?_⟩
          · rintro y hy
            cases hy
            obtain ⟨h1, h2⟩ := h.attrs a x ha
            exact ⟨h1, n, r, hr, by rw [h2]; exact ht⟩
          · rintro b y k v hb hs ⟨f1, f2, f3, f4⟩
            refine ⟨f1, f2, f3, ?_⟩
            rintro z k' v' r' hz hz'
            cases hz
            simp only [hr] at hz'
            cases hz'
            rcases ht with ⟨k', v', h'⟩ | ⟨v', h'⟩ | ⟨k', h'⟩ <;> cases h'
            rw [ha] at hb
            exact Option.some.inj hb
      cases n with
      | unlessMarked =>
        simp only [exec, hr]
        have href := noref (by rintro ⟨a, ⟨k, v, h⟩ | ⟨v, h⟩ | ⟨k, h⟩⟩ <;> cases h)
        refine ⟨own, h.thread hi ?_ ?_ ?_ ?_⟩
        · simp only
          split
          · exact hsnd.rest.suffix ((List.drop_suffix _ _).trans (toMark_suffix r))
          · exact hsnd.rest
        · intro a ha hn
          obtain ⟨h1, h2⟩ := hmade a ha hn
          rw [hr] at h2
          refine ⟨h1, ?_⟩
          simp only [h1, Bool.false_eq_true, if_false]
          exact h2.tail (by simp) (by simp)
        · intro x hx
          simp only [href] at hx
          cases hx
        · rintro a x k v ha hs ⟨_, f2, _, _⟩
          rw [hr] at f2
          exact absurd (List.mem_cons_self) f2.1
      | unlessSet b =>
        simp only [exec, hr]
        have href := noref (by rintro ⟨a, ⟨k, v, h⟩ | ⟨v, h⟩ | ⟨k, h⟩⟩ <;> cases h)
        refine ⟨own, h.thread hi ?_ ?_ ?_ ?_⟩
        · simp only
          split
          · exact hsnd.rest.suffix (toMark_suffix r)
          · exact hsnd.rest
        · intro a ha hn
          obtain ⟨h1, h2⟩ := hmade a ha hn
          rw [hr] at h2
          have hab := hsnd.head a ha
          subst hab
          refine ⟨h1, ?_⟩
          simp only [hn, Option.isSome_none, Bool.false_eq_true, if_false]
          exact h2.tail (by simp) (by simp)
        · intro x hx
          simp only [href] at hx
          cases hx
        · rintro a x k v ha hs ⟨_, f2, _, _⟩
          rw [hr] at f2
          exact absurd (List.mem_cons_self) (f2.2 b)
      | newDict a =>
        simp only [exec, hr]
        exact ⟨_, h.alloc hi hr (.inl ⟨rfl, rfl⟩)⟩
      | newList a =>
        simp only [exec, hr]
        exact ⟨_, h.alloc hi hr (.inr ⟨rfl, rfl⟩)⟩
      | store a k v =>
        simp only [exec, hr]
        obtain ⟨o1, o2, o3, _⟩ := hsnd.head
        cases hx : t.ref with
        | none => exact acc a _ (.inl ⟨k, v, rfl⟩) (fun hm => o3 (hm.tail (by simp) (by simp))) o2 hx
        | some x =>
          simp only [access, hx]
          exact ⟨own, h.modify hi hr hx (.inl ⟨a, k, v, rfl, rfl⟩)⟩
      | append a v =>
        simp only [exec, hr]
        obtain ⟨o1, o2, o3⟩ := hsnd.head
        cases hx : t.ref with
        | none => exact acc a _ (.inr (.inl ⟨v, rfl⟩)) (fun hm => o3 (hm.tail (by simp) (by simp))) o2 hx
        | some x =>
          simp only [access, hx]
          exact ⟨own, h.modify hi hr hx (.inr ⟨a, v, rfl⟩)⟩
      | get a k =>
        obtain ⟨o1, o2⟩ := hsnd.head
        cases hx : t.ref with
        | none =>
          simp only [exec, hr, hx]
          exact acc a _ (.inr (.inr ⟨k, rfl⟩)) (fun hm => (o2 a).1 (hm.tail (by simp) (by simp))) o1 hx
        | some x =>
          simp only [exec, hr, hx]
          have hm : ∀ b, Makes S b → w.attrs b = none → False := fun b hb hn => by
            have := (hmade b hb hn).2
            rw [hr] at this
            exact (o2 b).1 (this.tail (by simp) (by simp))
          cases hf : (w.heap[x]?).bind (Table.find k) with
          | none =>
            simp only []
            refine ⟨own, h.thread hi sound_nil (fun b hb hn => (hm b hb hn).elim) (fun y hy => by cases hy) ?_⟩
            rintro b y k v hb hs ⟨f1, f2, f3, f4⟩
            rw [hr, lastOf_other (fun _ h => by cases h), (o2 b).2] at f3
            cases f3
          | some v =>
            simp only []
            exact ⟨own, h.thread hi hsnd.rest (fun b hb hn => (hm b hb hn).elim) (fun y hy => by cases hy)
              (fun b y _ _ _ _ hf => go rfl rfl (fun _ _ _ h => by cases h) hf)⟩
      | mark =>
        simp only [exec, hr]
        have href := noref (by rintro ⟨a, ⟨k, v, h⟩ | ⟨v, h⟩ | ⟨k, h⟩⟩ <;> cases h)
        refine ⟨own, h.thread hi hsnd.rest (fun b hb hn => ?_) (fun y hy => by simp only [href] at hy; cases hy)
          (fun b y _ _ _ _ hf => go rfl href (fun _ _ _ h => by cases h) hf)⟩
        have := (hmade b hb hn).2
        rw [hr] at this
        exact absurd (this.tail (by simp) (by simp)) (hsnd.head b)

end Asn1.Setup
