import Verif.Lemmas.SetupPrograms

/-! # A class whose first use was completed by one thread alone -/

namespace Asn1.Setup

/-- What a lookup gives. -/
def World.find (w : World) (a : Nat) (k : Atom) : Option Atom := (w.table a).bind (Table.find k)

/-- A thread that uses a class that is ready. -/
inductive Settled (w : World) (setup : List Instr) (l : Nat × Atom) : Thread → Prop
  | fresh : Settled w setup l { rest := thenLook setup [l] }
  | before {g} : Settled w setup l { rest := [.get l.1 l.2], got := g }
  | within {x g} : w.attrs l.1 = some x → Settled w setup l { rest := [.get l.1 l.2], ref := some x, got := g }
  | found {v} : w.find l.1 l.2 = some v → Settled w setup l { rest := [], got := some v }
  | lost {g} : w.find l.1 l.2 = none → Settled w setup l { rest := [], got := g, failed := true }

theorem toMark_middle {l r : List Instr} (h : .mark ∉ l) : toMark (l ++ .mark :: r) = .mark :: r := by
  induction l with
  | nil => rfl
  | cons i l ih =>
    have h1 : i ≠ .mark := fun e => h (by simp [e])
    have h2 : .mark ∉ l := fun e => h (List.mem_cons_of_mem _ e)
    simp only [toMark, List.cons_append, List.dropWhile_cons, ne_eq, h1, not_false_eq_true, decide_true, if_true]
    exact ih h2

/-- The setup begins with the check of `_SETUP_CLASSES` and ends with the entry. -/
def Framed (setup : List Instr) : Prop := ∃ body, setup = .unlessMarked :: (body ++ [.mark]) ∧ .mark ∉ body

theorem settled_exec {w : World} {setup : List Instr} {l : Nat × Atom} {t : Thread} (hm : w.marked = true) (hf : Framed setup) (h : Settled w setup l t) :
    (exec w t).1 = w ∧ Settled w setup l (exec w t).2 := by
  cases h with
  | fresh =>
    obtain ⟨body, rfl, hb⟩ := hf
    simp only [thenLook, List.cons_append, exec, hm, if_true, List.append_assoc, List.map_cons, List.map_nil, List.singleton_append, toMark_middle hb]
    exact ⟨trivial, .before⟩
  | before =>
    simp only [exec, access]
    cases ha : w.attrs l.1 with
    | none => exact ⟨rfl, .lost (by simp [World.find, World.table, ha])⟩
    | some x => exact ⟨rfl, .within ha⟩
  | @within x g ha =>
    simp only [exec]
    have : w.find l.1 l.2 = (w.heap[x]?).bind (Table.find l.2) := by simp [World.find, World.table, ha]
    cases hf : (w.heap[x]?).bind (Table.find l.2) with
    | none => exact ⟨rfl, .lost (this.trans hf)⟩
    | some v => exact ⟨rfl, .found (this.trans hf)⟩
  | found hv => exact ⟨rfl, .found hv⟩
  | lost hv => exact ⟨rfl, .lost hv⟩

theorem Settled.world {w w' : World} {setup : List Instr} {l : Nat × Atom} {t : Thread} (h1 : w'.attrs = w.attrs) (h2 : w'.heap = w.heap)
    (h : Settled w setup l t) : Settled w' setup l t := by
  have hf : w'.find l.1 l.2 = w.find l.1 l.2 := by simp only [World.find, World.table, h1, h2]
  cases h with
  | fresh => exact .fresh
  | before => exact .before
  | within ha => exact .within (by rw [h1]; exact ha)
  | found hv => exact .found (hf.trans hv)
  | lost hv => exact .lost (hf.trans hv)

/-- A class that is ready: nothing changes any more. -/
theorem ready_step {w : World} {setup : List Instr} {looks : List (Nat × Atom)} (hm : w.marked = true) (hf : Framed setup)
    (h : ∀ (j : Nat) (t : Thread), w.threads[j]? = some t → ∃ l, looks[j]? = some l ∧ Settled w setup l t) (i : Nat) :
    (step w i).attrs = w.attrs ∧ (step w i).heap = w.heap ∧ (step w i).marked = true ∧
      ∀ (j : Nat) (t : Thread), (step w i).threads[j]? = some t → ∃ l, looks[j]? = some l ∧ Settled (step w i) setup l t := by
  unfold step
  cases hi : w.threads[i]? with
  | none => exact ⟨rfl, rfl, hm, h⟩
  | some t =>
    obtain ⟨l, hl, ht⟩ := h i t hi
    obtain ⟨h1, h2⟩ := settled_exec hm hf ht
    simp only [h1]
    refine ⟨trivial, trivial, hm, fun j u hu => ?_⟩
    rcases get_set hu with ⟨rfl, rfl⟩ | ⟨_, hu⟩
    · exact ⟨l, hl, Settled.world (w := w) rfl rfl h2⟩
    · obtain ⟨l', hl', hu'⟩ := h j u hu
      exact ⟨l', hl', Settled.world (w := w) rfl rfl hu'⟩

theorem ready_run {setup : List Instr} {looks : List (Nat × Atom)} (hf : Framed setup) (s : List Nat) : ∀ {w : World}, w.marked = true →
    (∀ (j : Nat) (t : Thread), w.threads[j]? = some t → ∃ l, looks[j]? = some l ∧ Settled w setup l t) →
    (run w s).attrs = w.attrs ∧ (run w s).heap = w.heap ∧
      ∀ (j : Nat) (t : Thread), (run w s).threads[j]? = some t → ∃ l, looks[j]? = some l ∧ Settled (run w s) setup l t := by
  induction s with
  | nil => exact fun _ h => ⟨rfl, rfl, h⟩
  | cons i s ih =>
    intro w hm h
    obtain ⟨h1, h2, h3, h4⟩ := ready_step hm hf h i
    obtain ⟨k1, k2, k3⟩ := ih h3 h4
    exact ⟨k1.trans h1, k2.trans h2, k3⟩

/-! ### One thread -/

/-- The thread does `n` steps. -/
def solo : Nat → World × Thread → World × Thread
  | 0, p => p
  | n + 1, p => solo n (exec p.1 p.2)

theorem solo_add (m n : Nat) : ∀ p, solo (m + n) p = solo n (solo m p) := by
  induction m with
  | zero => intro p; simp [solo]
  | succ m ih => intro p; rw [Nat.succ_add]; exact ih _

theorem solo_done (n : Nat) : ∀ {p : World × Thread}, p.2.rest = [] → solo n p = p := by
  induction n with
  | zero => exact fun _ => rfl
  | succ n ih =>
    rintro ⟨w, t⟩ h
    have : exec w t = (w, t) := by
      simp only at h
      simp only [exec, h]
    show solo n (exec w t) = _
    rw [this]
    exact ih h

theorem exec_threads (w : World) (t : Thread) (ts : List Thread) : exec { w with threads := ts } t = ({ (exec w t).1 with threads := ts }, (exec w t).2) := by
  obtain ⟨rest, ref, got, failed⟩ := t
  cases rest with
  | nil => rfl
  | cons n r =>
    cases n <;> simp only [exec, access]
    all_goals (try cases ref <;> simp only [])
    all_goals (try (rename_i a _ _; cases w.attrs a <;> rfl))
    all_goals (try (rename_i a _; cases w.attrs a <;> rfl))
    rename_i x
    cases (w.heap[x]?).bind (Table.find _) <;> rfl

theorem exec_keeps (w : World) (t : Thread) : (exec w t).1.threads = w.threads := by
  have := exec_threads w t w.threads
  have h2 : { w with threads := w.threads } = w := rfl
  rw [h2] at this
  rw [this]

theorem run_solo (n : Nat) (i : Nat) : ∀ {w : World} {t : Thread}, w.threads[i]? = some t →
    run w (List.replicate n i) = { (solo n (w, t)).1 with threads := w.threads.set i (solo n (w, t)).2 } := by
  induction n with
  | zero =>
    intro w t h
    obtain ⟨hlt, rfl⟩ := List.getElem?_eq_some_iff.mp h
    simp [run, solo, List.set_getElem_self]
  | succ n ih =>
    intro w t h
    have hst : step w i = { (exec w t).1 with threads := w.threads.set i (exec w t).2 } := by
      unfold step
      simp only [h]
    have hi : (step w i).threads[i]? = some (exec w t).2 := by
      rw [hst]
      simp [List.getElem?_set, (List.getElem?_eq_some_iff.mp h).1]
    have := ih hi
    have hs : ∀ (n : Nat) (v : World) (u : Thread) (ts : List Thread), solo n ({ v with threads := ts }, u) = ({ (solo n (v, u)).1 with threads := ts }, (solo n (v, u)).2) := by
      intro n
      induction n with
      | zero => exact fun _ _ _ => rfl
      | succ n ih' =>
        intro v u ts
        show solo n (exec { v with threads := ts } u) = _
        rw [exec_threads]
        exact ih' _ _ _
    show run (step w i) (List.replicate n i) = _
    rw [this]
    show _ = { (solo n (exec w t)).1 with threads := w.threads.set i (solo n (exec w t)).2 }
    rw [hst, hs]
    simp

/-- What the entries of the tables do to the objects, the attributes being what they are. -/
def effect (attrs : Nat → Option Nat) : List Instr → List Table → List Table
  | [], hp => hp
  | .store a k v :: r, hp => effect attrs r (hp.modify ((attrs a).getD 0) (Table.put k v))
  | .append a v :: r, hp => effect attrs r (hp.modify ((attrs a).getD 0) (Table.push v))
  | _ :: r, hp => effect attrs r hp

theorem solo_entries (l : List Instr) : ∀ {w : World} {t : Thread} {r : List Instr}, t.rest = l ++ r → t.ref = none →
    (∀ i ∈ l, ((∃ a k v, i = .store a k v ∧ (w.attrs a).isSome) ∨ ∃ a v, i = .append a v ∧ (w.attrs a).isSome)) →
    ∃ n, solo n (w, t) = ({ w with heap := effect w.attrs l w.heap }, { t with rest := r }) := by
  induction l with
  | nil =>
    intro w t r h h2 _
    refine ⟨0, ?_⟩
    obtain ⟨rest, ref, got, failed⟩ := t
    simp only at h h2
    subst h
    rfl
  | cons i l ih =>
    intro w t r h h2 hl
    obtain ⟨rest, ref, got, failed⟩ := t
    simp only at h h2
    subst h h2
    have hstep : ∃ w', solo 2 (w, { rest := i :: l ++ r, ref := none, got := got, failed := failed }) = (w', { rest := l ++ r, ref := none, got := got, failed := failed }) ∧
        w'.attrs = w.attrs ∧ { w' with heap := effect w'.attrs l w'.heap } = { w with heap := effect w.attrs (i :: l) w.heap } := by
      rcases hl i List.mem_cons_self with ⟨a, k, v, rfl, hs⟩ | ⟨a, v, rfl, hs⟩
      · obtain ⟨x, hx⟩ := Option.isSome_iff_exists.mp hs
        exact ⟨{ w with heap := w.heap.modify x (Table.put k v) }, by simp only [solo, List.cons_append, exec, access, hx], rfl, by simp only [effect, hx, Option.getD_some]⟩
      · obtain ⟨x, hx⟩ := Option.isSome_iff_exists.mp hs
        exact ⟨{ w with heap := w.heap.modify x (Table.push v) }, by simp only [solo, List.cons_append, exec, access, hx], rfl, by simp only [effect, hx, Option.getD_some]⟩
    obtain ⟨w', h1, h2, h3⟩ := hstep
    obtain ⟨n, hn⟩ := ih (w := w') (t := { rest := l ++ r, ref := none, got := got, failed := failed }) (r := r) rfl rfl
      (fun j hj => by rw [h2]; exact hl j (List.mem_cons_of_mem _ hj))
    refine ⟨2 + n, ?_⟩
    rw [solo_add, h1, hn, h3]

theorem effect_append (attrs : Nat → Option Nat) (p q : List Instr) : ∀ hp, effect attrs (p ++ q) hp = effect attrs q (effect attrs p hp) := by
  induction p with
  | nil => exact fun _ => rfl
  | cons n p ih =>
    intro hp
    cases n <;> exact ih _

/-- The values appended. -/
def appends (a : Nat) : List Instr → List Atom
  | [] => []
  | .append b v :: r => if b = a then v :: appends a r else appends a r
  | _ :: r => appends a r

theorem effect_list {attrs : Nat → Option Nat} {a x : Nat} (ha : attrs a = some x) (hinj : ∀ b, b ≠ a → ∀ y, attrs b = some y → y ≠ x) (l : List Instr) :
    (∀ i ∈ l, ((∃ b k v, i = .store b k v ∧ (attrs b).isSome ∧ b ≠ a) ∨ ∃ b v, i = .append b v ∧ (attrs b).isSome)) →
    ∀ {hp : List Table} {xs : List Atom}, hp[x]? = some (.list xs) → (effect attrs l hp)[x]? = some (.list (xs ++ appends a l)) := by
  induction l with
  | nil => intro _ hp xs h; simpa [appends, effect] using h
  | cons i l ih =>
    intro hl hp xs h
    have hl' := fun j (hj : j ∈ l) => hl j (List.mem_cons_of_mem _ hj)
    rcases hl i List.mem_cons_self with ⟨b, k, v, rfl, hs, hb⟩ | ⟨b, v, rfl, hs⟩
    · obtain ⟨y, hy⟩ := Option.isSome_iff_exists.mp hs
      simp only [effect, appends, hy, Option.getD_some]
      refine ih hl' ?_
      simpa [List.getElem?_modify, hinj b hb y hy] using h
    · obtain ⟨y, hy⟩ := Option.isSome_iff_exists.mp hs
      simp only [effect, appends, hy, Option.getD_some]
      by_cases hb : b = a
      · subst hb
        rw [ha] at hy
        cases hy
        rw [if_pos rfl]
        have := ih hl' (hp := hp.modify x (Table.push v)) (xs := xs ++ [v]) (by simp [List.getElem?_modify, h, Table.put, Table.push])
        rw [this]
        simp
      · rw [if_neg hb]
        refine ih hl' ?_
        simpa [List.getElem?_modify, hinj b hb y hy] using h

theorem effect_dict {attrs : Nat → Option Nat} {a x : Nat} (ha : attrs a = some x) (hinj : ∀ b, b ≠ a → ∀ y, attrs b = some y → y ≠ x) (l : List Instr) :
    (∀ i ∈ l, ((∃ b k v, i = .store b k v ∧ (attrs b).isSome) ∨ ∃ b v, i = .append b v ∧ (attrs b).isSome ∧ b ≠ a)) →
    ∀ {hp : List Table} {es : List (Atom × Atom)}, hp[x]? = some (.dict es) →
      ∃ es', (effect attrs l hp)[x]? = some (.dict es') ∧ ∀ k, es'.lookup k = (lastOf a k l).or (es.lookup k) := by
  induction l with
  | nil => intro _ hp es h; exact ⟨es, h, fun k => by simp [lastOf]⟩
  | cons i l ih =>
    intro hl hp es h
    have hl' := fun j (hj : j ∈ l) => hl j (List.mem_cons_of_mem _ hj)
    rcases hl i List.mem_cons_self with ⟨b, k, v, rfl, hs⟩ | ⟨b, v, rfl, hs, hb⟩
    · obtain ⟨y, hy⟩ := Option.isSome_iff_exists.mp hs
      simp only [effect, hy, Option.getD_some]
      by_cases hb : b = a
      · subst hb
        rw [ha] at hy
        cases hy
        obtain ⟨es', h1, h2⟩ := ih hl' (hp := hp.modify x (Table.put k v)) (es := (k, v) :: es) (by simp [List.getElem?_modify, h, Table.put, Table.push])
        refine ⟨es', h1, fun k' => ?_⟩
        rw [h2, lastOf]
        by_cases hk : k' = k
        · subst hk
          cases lastOf b k' l <;> simp
        · have hb : (k' == k) = false := by simpa using hk
          have hk' : ¬ k = k' := fun e => hk e.symm
          rw [List.lookup_cons, hb]
          simp [hk']
      · obtain ⟨es', h1, h2⟩ := ih hl' (hp := hp.modify y (Table.put k v)) (es := es) (by simpa [List.getElem?_modify, hinj b hb y hy] using h)
        refine ⟨es', h1, fun k' => ?_⟩
        rw [h2, lastOf_other (fun v' e => by cases e; exact hb rfl)]
    · obtain ⟨y, hy⟩ := Option.isSome_iff_exists.mp hs
      simp only [effect, hy, Option.getD_some]
      exact ih hl' (by simpa [List.getElem?_modify, hinj b hb y hy] using h)

/-- After the first use by thread `i` alone, everything stays as it is and all lookups give what the tables hold. -/
theorem alone {setup : List Instr} {looks : List (Nat × Atom)} (hf : Framed setup) {i : Nat} {l : Nat × Atom} (hl : looks[i]? = some l) {m : Nat} {w : World} {g : Option Atom}
    (hm : w.marked = true)
    (hsolo : solo m (start (looks.map fun l => thenLook setup [l]), { rest := thenLook setup [l] }) = (w, { rest := [.get l.1 l.2], got := g }))
    {n : Nat} (hn : ∀ t, (run (start (looks.map fun l => thenLook setup [l])) (List.replicate n i)).threads[i]? = some t → t.rest = []) (s : List Nat) :
    let v := run (run (start (looks.map fun l => thenLook setup [l])) (List.replicate n i)) s
    v.attrs = w.attrs ∧ v.heap = w.heap ∧ ∀ (j : Nat) (t : Thread), v.threads[j]? = some t → t.rest = [] →
      ∃ l, looks[j]? = some l ∧ t.failed = (v.find l.1 l.2).isNone ∧ (t.failed = false → t.got = v.find l.1 l.2) := by
  intro v
  have hlen : i < looks.length := (List.getElem?_eq_some_iff.mp hl).1
  have hi : (start (looks.map fun l => thenLook setup [l])).threads[i]? = some { rest := thenLook setup [l] } := by
    simp [start, List.getElem?_map, hl]
  have hmn : m ≤ n := by
    by_contra hlt
    have h1 := run_solo n i hi
    have hlen' : i < (start (looks.map fun l => thenLook setup [l])).threads.length := (List.getElem?_eq_some_iff.mp hi).1
    have h2 := hn (solo n (start (looks.map fun l => thenLook setup [l]), { rest := thenLook setup [l] })).2 (by rw [h1]; simp [List.getElem?_set, hlen'])
    have h3 : m = n + (m - n) := by omega
    rw [h3, solo_add, solo_done _ h2] at hsolo
    have := congrArg (fun p => p.2.rest) hsolo
    simp only [h2] at this
    cases this
  have hv : v = run (run (start (looks.map fun l => thenLook setup [l])) (List.replicate m i)) (List.replicate (n - m) i ++ s) := by
    show run (run _ _) _ = _
    rw [← run_append, ← run_append, ← List.append_assoc, List.replicate_append_replicate]
    congr 3
    omega
  rw [run_solo m i hi, hsolo] at hv
  obtain ⟨k1, k2, k3⟩ := ready_run (looks := looks) hf (List.replicate (n - m) i ++ s)
    (w := { w with threads := (start (looks.map fun l => thenLook setup [l])).threads.set i { rest := [.get l.1 l.2], got := g } }) hm (fun j t ht => by
      rcases get_set ht with ⟨rfl, rfl⟩ | ⟨_, ht⟩
      · exact ⟨l, hl, .before⟩
      · simp only [start, List.getElem?_map] at ht
        cases hj : looks[j]? with
        | none => rw [hj] at ht; cases ht
        | some l' =>
          rw [hj] at ht
          cases ht
          exact ⟨l', rfl, .fresh⟩)
  rw [← hv] at k1 k2 k3
  refine ⟨k1, k2, fun j t ht hr => ?_⟩
  obtain ⟨l', hl', hs⟩ := k3 j t ht
  refine ⟨l', hl', ?_⟩
  cases hs with
  | fresh => obtain ⟨body, rfl, _⟩ := hf; cases hr
  | before => cases hr
  | within _ => cases hr
  | found h => exact ⟨by simp [h], fun _ => h.symm⟩
  | lost h => exact ⟨by simp [h], fun e => by cases e⟩

/-! ### The setup of each kind of class, done alone -/

theorem solo_step (w : World) (t : Thread) {n : Nat} {q : World × Thread} (h : solo n (exec w t) = q) : solo (n + 1) (w, t) = q := h

theorem choice_alone (alts : List (Option (Nat × Nat) × String)) (ps : List (List Instr)) (l : Nat × Atom) :
    ∃ m w g, w.marked = true ∧ solo m (start ps, { rest := thenLook (choiceSetup alts) [l] }) = (w, { rest := [.get l.1 l.2], got := g }) ∧
      ∀ a, a = 0 ∨ a = 1 → ∃ es, w.table a = some (.dict es) ∧ ∀ k, es.lookup k = lastOf a k (choiceSetup alts) := by
  let E : List Instr := alts.zipIdx.flatMap fun a => [.store 0 (.ident a.1.1) (.num a.2), .store 1 (.text a.1.2) (.num a.2)]
  let A : Nat → Option Nat := fun b => if b = 1 then some 1 else if b = 0 then some 0 else none
  let w3 : World := { start ps with attrs := A, heap := [.dict [], .dict []] }
  have hE : ∀ i ∈ E, (∃ b k v, i = .store b k v ∧ (A b).isSome) ∨ ∃ b v, i = .append b v ∧ (A b).isSome := by
    intro i hi
    simp only [E, List.mem_flatMap, List.mem_cons, List.not_mem_nil, or_false] at hi
    obtain ⟨a, _, rfl | rfl⟩ := hi
    · exact .inl ⟨_, _, _, rfl, rfl⟩
    · exact .inl ⟨_, _, _, rfl, rfl⟩
  have hE2 : ∀ a, ∀ i ∈ E, (∃ b k v, i = .store b k v ∧ (A b).isSome) ∨ ∃ b v, i = .append b v ∧ (A b).isSome ∧ b ≠ a := by
    intro a i hi
    simp only [E, List.mem_flatMap, List.mem_cons, List.not_mem_nil, or_false] at hi
    obtain ⟨a, _, rfl | rfl⟩ := hi
    · exact .inl ⟨_, _, _, rfl, rfl⟩
    · exact .inl ⟨_, _, _, rfl, rfl⟩
  have inj : ∀ a x, A a = some x → ∀ b, b ≠ a → ∀ y, A b = some y → y ≠ x := by
    intro a x ha b hb y hy e
    simp only [A] at ha hy
    split at ha <;> split at hy <;> simp_all
  have h3 : solo 3 (start ps, { rest := thenLook (choiceSetup alts) [l] }) = (w3, { rest := E ++ ([.mark] ++ [.get l.1 l.2]) }) := by
    simp only [thenLook, choiceSetup, List.append_assoc, List.cons_append, List.nil_append, solo, exec, start]
    rfl
  obtain ⟨n, hn⟩ := solo_entries E (w := w3) (t := { rest := E ++ ([.mark] ++ [.get l.1 l.2]) }) rfl rfl hE
  refine ⟨3 + (n + 1), { w3 with heap := effect A E w3.heap, marked := true }, none, rfl, ?_, ?_⟩
  · rw [solo_add, h3, solo_add, hn]
    rfl
  · have last : ∀ a k, lastOf a k E = lastOf a k (choiceSetup alts) := by
      intro a k
      show _ = lastOf a k (E ++ [.mark])
      rw [lastOf_append]
      rfl
    rintro a (rfl | rfl)
    · obtain ⟨es, h1, h2⟩ := effect_dict (attrs := A) (a := 0) (x := 0) rfl (inj 0 0 rfl) E (hE2 0) (hp := w3.heap) (es := []) rfl
      exact ⟨es, h1, fun k => by rw [h2, last]; simp⟩
    · obtain ⟨es, h1, h2⟩ := effect_dict (attrs := A) (a := 1) (x := 1) rfl (inj 1 1 rfl) E (hE2 1) (hp := w3.heap) (es := []) rfl
      exact ⟨es, h1, fun k => by rw [h2, last]; simp⟩

theorem map_alone (items : List (Atom × String)) (ps : List (List Instr)) (l : Nat × Atom) :
    ∃ m w g, w.marked = true ∧ solo m (start ps, { rest := thenLook (mapSetup items) [l] }) = (w, { rest := [.get l.1 l.2], got := g }) ∧
      ∃ es, w.table 0 = some (.dict es) ∧ ∀ k, es.lookup k = lastOf 0 k (mapSetup items) := by
  let E : List Instr := items.map fun e => .store 0 (.text e.2) e.1
  let A : Nat → Option Nat := fun b => if b = 0 then some 0 else none
  let w3 : World := { start ps with attrs := A, heap := [.dict []] }
  have hE : ∀ i ∈ E, (∃ b k v, i = .store b k v ∧ (A b).isSome) ∨ ∃ b v, i = .append b v ∧ (A b).isSome := by
    intro i hi
    obtain ⟨e, _, rfl⟩ := List.mem_map.mp hi
    exact .inl ⟨_, _, _, rfl, rfl⟩
  have hE2 : ∀ i ∈ E, (∃ b k v, i = .store b k v ∧ (A b).isSome) ∨ ∃ b v, i = .append b v ∧ (A b).isSome ∧ b ≠ 0 := by
    intro i hi
    obtain ⟨e, _, rfl⟩ := List.mem_map.mp hi
    exact .inl ⟨_, _, _, rfl, rfl⟩
  have h3 : solo 3 (start ps, { rest := thenLook (mapSetup items) [l] }) = (w3, { rest := E ++ ([.mark] ++ [.get l.1 l.2]) }) := by
    simp only [thenLook, mapSetup, List.append_assoc, List.cons_append, List.nil_append, solo, exec, start]
    rfl
  obtain ⟨n, hn⟩ := solo_entries E (w := w3) (t := { rest := E ++ ([.mark] ++ [.get l.1 l.2]) }) rfl rfl hE
  refine ⟨3 + (n + 1), { w3 with heap := effect A E w3.heap, marked := true }, none, rfl, ?_, ?_⟩
  · rw [solo_add, h3, solo_add, hn]
    rfl
  · obtain ⟨es, h1, h2⟩ := effect_dict (attrs := A) (a := 0) (x := 0) rfl (fun b hb y hy => by simp only [A, if_neg hb] at hy; cases hy) E hE2 (hp := w3.heap) (es := []) rfl
    refine ⟨es, h1, fun k => ?_⟩
    have : lastOf 0 k (mapSetup items) = lastOf 0 k (E ++ [.mark]) := rfl
    rw [h2, this, lastOf_append]
    simp [lastOf]

/-- The two lookups for `_oid_pair` succeed. -/
theorem solo_pair {w : World} {x : Nat} {es : List (Atom × Atom)} (h0 : w.attrs 0 = some x) (hx : w.heap[x]? = some (.dict es)) (pair : Option (String × String))
    (hp : ∀ p, pair = some p → (es.lookup (.text p.1)).isSome ∧ (es.lookup (.text p.2)).isSome) (r : List Instr) (g : Option Atom) :
    ∃ n g', solo n (w, { rest := pairGets pair ++ r, got := g }) = (w, { rest := r, got := g' }) := by
  cases pair with
  | none => exact ⟨0, g, rfl⟩
  | some p =>
    obtain ⟨h1, h2⟩ := hp p rfl
    obtain ⟨v1, h1⟩ := Option.isSome_iff_exists.mp h1
    obtain ⟨v2, h2⟩ := Option.isSome_iff_exists.mp h2
    refine ⟨4, some v2, ?_⟩
    simp [solo, exec, access, h0, hx, h1, h2, Table.find, pairGets]

/-- The attributes of a SEQUENCE or SET after the tables were made. -/
def rowAttrs : Nat → Option Nat := fun b => if b = 2 then some 2 else if b = 1 then some 1 else if b = 0 then some 0 else none

theorem rowAttrs_eq {a x : Nat} (h : rowAttrs a = some x) : x = a := by
  unfold rowAttrs at h
  split at h
  · simp_all
  · split at h
    · simp_all
    · split at h
      · simp_all
      · cases h

theorem rowAttrs_inj (a x : Nat) (ha : rowAttrs a = some x) (b : Nat) (hb : b ≠ a) (y : Nat) (hy : rowAttrs b = some y) : y ≠ x := by
  rw [rowAttrs_eq ha, rowAttrs_eq hy]
  exact hb

/-- The world after the tables were made. -/
def rowWorld (ps : List (List Instr)) (hp : List Table) : World := { attrs := rowAttrs, heap := hp, marked := false, threads := (start ps).threads }

theorem rows_alone (setup : List Instr) (E : List Instr) (t1 : Table) (fields : List FieldRow) (pair : Option (String × String)) (ps : List (List Instr)) (l : Nat × Atom)
    (h3 : solo 4 (start ps, { rest := thenLook setup [l] }) =
      (rowWorld ps [.dict [], t1, .list []], { rest := E ++ (seqTail fields pair ++ [.get l.1 l.2]) }))
    (hE : ∀ i ∈ E, (∃ b k v, i = .store b k v ∧ (rowAttrs b).isSome ∧ b ≠ 2) ∨ ∃ b v, i = .append b v ∧ (rowAttrs b).isSome ∧ b ≠ 0 ∧ b ≠ 2)
    (hp : ∀ p, pair = some p → (lastOf 0 (.text p.1) E).isSome ∧ (lastOf 0 (.text p.2) E).isSome) :
    ∃ m w g, w.marked = true ∧ solo m (start ps, { rest := thenLook setup [l] }) = (w, { rest := [.get l.1 l.2], got := g }) ∧
      (∃ es, w.table 0 = some (.dict es) ∧ ∀ k, es.lookup k = lastOf 0 k E) ∧ w.table 2 = some (.list (fields.map fun f => .spec f.spec)) ∧
      w.table 1 = (effect rowAttrs E [.dict [], t1, .list []])[1]? := by
  have hE' : ∀ i ∈ E, (∃ b k v, i = .store b k v ∧ (rowAttrs b).isSome) ∨ ∃ b v, i = .append b v ∧ (rowAttrs b).isSome := fun i hi => by
    rcases hE i hi with ⟨b, k, v, h1, h2, _⟩ | ⟨b, v, h1, h2, _⟩
    · exact .inl ⟨b, k, v, h1, h2⟩
    · exact .inr ⟨b, v, h1, h2⟩
  have hE0 : ∀ i ∈ E, (∃ b k v, i = .store b k v ∧ (rowAttrs b).isSome) ∨ ∃ b v, i = .append b v ∧ (rowAttrs b).isSome ∧ b ≠ 0 := fun i hi => by
    rcases hE i hi with ⟨b, k, v, h1, h2, _⟩ | ⟨b, v, h1, h2, h3, _⟩
    · exact .inl ⟨b, k, v, h1, h2⟩
    · exact .inr ⟨b, v, h1, h2, h3⟩
  have hE2 : ∀ i ∈ E, (∃ b k v, i = .store b k v ∧ (rowAttrs b).isSome ∧ b ≠ 2) ∨ ∃ b v, i = .append b v ∧ (rowAttrs b).isSome := fun i hi => by
    rcases hE i hi with h | ⟨b, v, h1, h2, h3, _⟩
    · exact .inl h
    · exact .inr ⟨b, v, h1, h2⟩
  have no2 : ∀ l : List Instr, (∀ i ∈ l, (∃ b k v, i = .store b k v ∧ (rowAttrs b).isSome ∧ b ≠ 2) ∨ ∃ b v, i = .append b v ∧ (rowAttrs b).isSome ∧ b ≠ 0 ∧ b ≠ 2) →
      appends 2 l = [] := by
    intro l
    induction l with
    | nil => exact fun _ => rfl
    | cons i l ih =>
      intro h
      have := ih (fun j hj => h j (List.mem_cons_of_mem _ hj))
      rcases h i List.mem_cons_self with ⟨b, k, v, rfl, _⟩ | ⟨b, v, rfl, _, _, hb⟩
      · exact this
      · simpa [appends, hb] using this
  let G : List Instr := fields.map fun f => .append 2 (.spec f.spec)
  have hG : ∀ i ∈ G, (∃ b k v, i = .store b k v ∧ (rowAttrs b).isSome ∧ b ≠ 2) ∨ ∃ b v, i = .append b v ∧ (rowAttrs b).isSome := by
    intro i hi
    obtain ⟨f, _, rfl⟩ := List.mem_map.mp hi
    exact .inr ⟨_, _, rfl, rfl⟩
  have hG' : ∀ i ∈ G, (∃ b k v, i = .store b k v ∧ (rowAttrs b).isSome) ∨ ∃ b v, i = .append b v ∧ (rowAttrs b).isSome := by
    intro i hi
    obtain ⟨f, _, rfl⟩ := List.mem_map.mp hi
    exact .inr ⟨_, _, rfl, rfl⟩
  have hG0 : ∀ i ∈ G, (∃ b k v, i = .store b k v ∧ (rowAttrs b).isSome) ∨ ∃ b v, i = .append b v ∧ (rowAttrs b).isSome ∧ b ≠ 0 := by
    intro i hi
    obtain ⟨f, _, rfl⟩ := List.mem_map.mp hi
    exact .inr ⟨_, _, rfl, rfl, by decide⟩
  have apG : ∀ fs : List FieldRow, appends 2 (fs.map fun f => .append 2 (.spec f.spec)) = fs.map fun f => .spec f.spec := by
    intro fs
    induction fs with
    | nil => rfl
    | cons f fs ih => simpa [appends] using ih
  have effG : ∀ (fs : List FieldRow) (hp : List Table) (y : Nat), y ≠ 2 → (effect rowAttrs (fs.map fun f => .append 2 (.spec f.spec)) hp)[y]? = hp[y]? := by
    intro fs
    induction fs with
    | nil => exact fun _ _ _ => rfl
    | cons f fs ih =>
      intro hp y hy
      have h2 : (rowAttrs 2).getD 0 = 2 := rfl
      simp only [List.map_cons, effect, h2]
      rw [ih _ y hy, List.getElem?_modify]
      have : ¬ 2 = y := fun e => hy e.symm
      simp [this]
  obtain ⟨n, hn⟩ := solo_entries E (w := rowWorld ps [.dict [], t1, .list []])
    (t := { rest := E ++ (seqTail fields pair ++ [.get l.1 l.2]) }) rfl rfl hE'
  obtain ⟨es, k1, k2⟩ := effect_dict (attrs := rowAttrs) (a := 0) (x := 0) rfl (rowAttrs_inj 0 0 rfl) E hE0 (hp := [.dict [], t1, .list []]) (es := []) rfl
  have k2' : ∀ k, es.lookup k = lastOf 0 k E := fun k => by rw [k2]; simp
  obtain ⟨n2, g, hn2⟩ := solo_pair (w := rowWorld ps (effect rowAttrs E [.dict [], t1, .list []])) (x := 0) (es := es) rfl k1 pair
    (fun p h => by rw [k2', k2']; exact hp p h) (G ++ ([.mark] ++ [.get l.1 l.2])) none
  obtain ⟨n3, hn3⟩ := solo_entries G (w := rowWorld ps (effect rowAttrs E [.dict [], t1, .list []]))
    (t := { rest := G ++ ([.mark] ++ [.get l.1 l.2]), got := g }) rfl rfl hG'
  have hrest : seqTail fields pair ++ [.get l.1 l.2] = pairGets pair ++ (G ++ ([.mark] ++ [.get l.1 l.2])) := by
    simp [seqTail, G]
  refine ⟨4 + (n + (n2 + (n3 + 1))), { rowWorld ps (effect rowAttrs G (effect rowAttrs E [.dict [], t1, .list []])) with marked := true }, g, rfl, ?_, ?_, ?_, ?_⟩
  · have hn' : solo n (rowWorld ps [.dict [], t1, .list []], { rest := E ++ (seqTail fields pair ++ [.get l.1 l.2]) }) =
        (rowWorld ps (effect rowAttrs E [.dict [], t1, .list []]), { rest := seqTail fields pair ++ [.get l.1 l.2] }) := hn
    have hn3' : solo n3 (rowWorld ps (effect rowAttrs E [.dict [], t1, .list []]), { rest := G ++ ([.mark] ++ [.get l.1 l.2]), got := g }) =
        (rowWorld ps (effect rowAttrs G (effect rowAttrs E [.dict [], t1, .list []])), { rest := [.mark] ++ [.get l.1 l.2], got := g }) := hn3
    rw [solo_add, h3, solo_add, hn', hrest, solo_add, hn2, solo_add, hn3']
    rfl
  · obtain ⟨es', j1, j2⟩ := effect_dict (attrs := rowAttrs) (a := 0) (x := 0) rfl (rowAttrs_inj 0 0 rfl) G hG0 k1
    refine ⟨es', j1, fun k => ?_⟩
    have : lastOf 0 k G = none := by
      have := last_appends 0 k (fields.map fun f => .spec f.spec)
      rw [List.map_map, lastOf_append] at this
      exact (Option.or_eq_none_iff.mp this).2
    rw [j2, this, k2']
    rfl
  · have j1 := effect_list (attrs := rowAttrs) (a := 2) (x := 2) rfl (rowAttrs_inj 2 2 rfl) E hE2 (hp := [.dict [], t1, .list []]) (xs := []) rfl
    rw [no2 E hE] at j1
    have j2 := effect_list (attrs := rowAttrs) (a := 2) (x := 2) rfl (rowAttrs_inj 2 2 rfl) G hG j1
    rw [apG] at j2
    exact j2
  · exact effG fields _ 1 (by decide)

end Asn1.Setup
