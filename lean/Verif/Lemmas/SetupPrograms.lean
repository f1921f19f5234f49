import Verif.Lemmas.SetupRace

/-! # The setup of the classes of the package under threads -/

namespace Asn1.Setup

theorem Kept.run {S : List Instr} (schedule : List Nat) : ∀ {own : Nat → Nat} {w : World}, Kept S own w → ∃ own', Kept S own' (run w schedule) := by
  induction schedule with
  | nil => exact fun h => ⟨_, h⟩
  | cons i s ih =>
    intro own w h
    obtain ⟨own', h'⟩ := h.step i
    exact ih h'

theorem kept_start {S : List Instr} {programs : List (List Instr)} (hp : ∀ p ∈ programs, Sound S p ∧ ∀ a, Makes S a → Makes p a) :
    Kept S (fun _ => 0) (start programs) := by
  have ht : ∀ (i : Nat) (t : Thread), (start programs).threads[i]? = some t → ∃ p ∈ programs, t = { rest := p } := by
    intro i t h
    simp only [start, List.getElem?_map] at h
    cases hp : programs[i]? with
    | none => rw [hp] at h; cases h
    | some p =>
      rw [hp] at h
      exact ⟨p, List.mem_of_getElem? hp, (Option.some.inj h).symm⟩
  refine ⟨fun i t h => ?_, fun a ha _ => ⟨rfl, fun i t h => ?_⟩, fun a x h => (by cases h), fun i t x h hx => ?_, fun x tb h => (by simp [start] at h),
    fun a x k v h => (by cases h)⟩
  · obtain ⟨p, hm, rfl⟩ := ht i t h
    exact (hp p hm).1
  · obtain ⟨p, hm, rfl⟩ := ht i t h
    exact (hp p hm).2 a ha
  · obtain ⟨p, hm, rfl⟩ := ht i t h
    cases hx

/-- Threads are never added or removed. -/
theorem step_length (w : World) (i : Nat) : (step w i).threads.length = w.threads.length := by
  unfold step
  cases h : w.threads[i]? with
  | none => rfl
  | some t => simp

theorem run_length (s : List Nat) : ∀ w : World, (run w s).threads.length = w.threads.length := by
  induction s with
  | nil => exact fun w => rfl
  | cons i s ih => exact fun w => (ih (step w i)).trans (step_length w i)

/-- When all threads are done, the tables hold what was to be stored. -/
theorem settled {S : List Instr} {programs : List (List Instr)} (hp : ∀ p ∈ programs, Sound S p ∧ ∀ a, Makes S a → Makes p a) (hne : programs ≠ [])
    (schedule : List Nat) (hdone : ∀ t ∈ (run (start programs) schedule).threads, t.rest = []) {a : Nat} (ha : .newDict a ∈ S) :
    ∃ es, (run (start programs) schedule).table a = some (.dict es) ∧ ∀ k, es.lookup k = lastOf a k S := by
  obtain ⟨own, h⟩ := (kept_start hp).run schedule
  generalize hw : run (start programs) schedule = w at *
  have hlen : 0 < w.threads.length := by
    rw [← hw, run_length]
    simp only [start, List.length_map]
    exact List.length_pos_iff.mpr hne
  cases hx : w.attrs a with
  | none =>
    have := (h.made a (.inl ha) hx).2 0 w.threads[0] (by simp)
    rw [hdone _ (List.getElem_mem _)] at this
    rcases this with h' | h' <;> cases h'
  | some x =>
    obtain ⟨hlt, rfl⟩ := h.attrs a x hx
    obtain ⟨es, hes, hno⟩ := h.heap x _ (List.getElem?_eq_getElem (h := hlt)) ha
    have hd : w.heap[x]? = some (.dict es) := by rw [List.getElem?_eq_getElem (h := hlt), hes]
    refine ⟨es, by simp [World.table, hx, hd], fun k => ?_⟩
    cases hk : lastOf (own x) k S with
    | none => exact hno k hk
    | some v =>
      rcases h.filling (own x) x k v hx ha hk with ⟨es', h1, h2⟩ | ⟨j, u, hu, hf⟩
      · rw [hd] at h1
        cases h1
        exact h2
      · have := hf.last
        rw [hdone u (List.mem_of_getElem? hu)] at this
        cases this

/-! ### Every schedule can be completed -/

/-- How much a thread has still to do. -/
def Thread.todo (t : Thread) : Nat := 2 * t.rest.length - if t.ref.isSome then 1 else 0

/-- The thread is not in the middle of anything but an access. -/
def Thread.Mid (t : Thread) : Prop := t.ref.isSome → ∃ n r a, t.rest = n :: r ∧ Touches n a

theorem exec_todo (w : World) (t : Thread) (h : t.rest ≠ []) (href : t.Mid) :
    (exec w t).2.todo < t.todo ∧ (exec w t).2.Mid := by
  cases hr : t.rest with
  | nil => exact absurd hr h
  | cons n r =>
    have nt : ¬ (∃ a, Touches n a) → t.ref = none := by
      intro hno
      cases hx : t.ref with
      | none => rfl
      | some x =>
        obtain ⟨n', r', a, hr', ht⟩ := href (by rw [hx]; rfl)
        rw [hr] at hr'
        cases hr'
        exact absurd ⟨_, ht⟩ hno
    have hlen : ∀ l : List Instr, l <:+ r → l.length ≤ r.length := fun l hl => hl.length_le
    have acc : ∀ a act, Touches n a → (access w t a r act).2.todo < t.todo ∧ (access w t a r act).2.Mid := by
      intro a act ht
      unfold access
      cases hx : t.ref with
      | none =>
        cases ha : w.attrs a with
        | none => exact ⟨by simp [Thread.todo, hr, hx, ha], fun h => by simp [ha, hx] at h⟩
        | some x =>
          simp only []
          refine ⟨?_, fun _ => ⟨n, r, a, hr, ht⟩⟩
          simp [Thread.todo, hr, hx]
          omega
      | some x =>
        simp only []
        refine ⟨?_, fun h => by simp at h⟩
        simp [Thread.todo, hr, hx]
        omega
    cases n with
    | unlessMarked =>
      have hx := nt (by rintro ⟨a, ⟨k, v, h⟩ | ⟨v, h⟩ | ⟨k, h⟩⟩ <;> cases h)
      simp only [exec, hr, Thread.todo, hx, Thread.Mid]
      refine ⟨?_, fun h => by simp at h⟩
      have h1 := hlen _ (toMark_suffix r)
      have h2 : ((toMark r).drop 1).length ≤ (toMark r).length := by simp
      simp only [Option.isSome_none, Bool.false_eq_true, if_false, List.length_cons]
      split <;> omega
    | unlessSet b =>
      have hx := nt (by rintro ⟨a, ⟨k, v, h⟩ | ⟨v, h⟩ | ⟨k, h⟩⟩ <;> cases h)
      simp only [exec, hr, Thread.todo, hx, Thread.Mid]
      refine ⟨?_, fun h => by simp at h⟩
      have h1 := hlen _ (toMark_suffix r)
      have h2 : ((toMark r).drop 1).length ≤ (toMark r).length := by simp
      simp only [Option.isSome_none, Bool.false_eq_true, if_false, List.length_cons]
      split <;> omega
    | newDict b =>
      have hx := nt (by rintro ⟨a, ⟨k, v, h⟩ | ⟨v, h⟩ | ⟨k, h⟩⟩ <;> cases h)
      simp only [exec, hr, Thread.todo, hx, Thread.Mid]
      exact ⟨by simp, fun h => by simp at h⟩
    | newList b =>
      have hx := nt (by rintro ⟨a, ⟨k, v, h⟩ | ⟨v, h⟩ | ⟨k, h⟩⟩ <;> cases h)
      simp only [exec, hr, Thread.todo, hx, Thread.Mid]
      exact ⟨by simp, fun h => by simp at h⟩
    | mark =>
      have hx := nt (by rintro ⟨a, ⟨k, v, h⟩ | ⟨v, h⟩ | ⟨k, h⟩⟩ <;> cases h)
      simp only [exec, hr, Thread.todo, hx, Thread.Mid]
      exact ⟨by simp, fun h => by simp at h⟩
    | store a k v =>
      simp only [exec, hr]
      exact acc a (Table.put k v) (.inl ⟨k, v, rfl⟩)
    | append a v =>
      simp only [exec, hr]
      exact acc a (Table.push v) (.inr (.inl ⟨v, rfl⟩))
    | get a k =>
      cases hx : t.ref with
      | none =>
        simp only [exec, hr, hx]
        exact acc a id (.inr (.inr ⟨k, rfl⟩))
      | some x =>
        simp only [exec, hr, hx]
        cases hf : (w.heap[x]?).bind (Table.find k) with
        | none => exact ⟨by simp [Thread.todo, hr, hx]; omega, fun h => by cases h⟩
        | some v => exact ⟨by simp [Thread.todo, hr, hx]; omega, fun h => by cases h⟩

/-- No thread is in the middle of anything but an access. -/
def Sane (w : World) : Prop := ∀ t ∈ w.threads, t.Mid

theorem step_todo {w : World} {i : Nat} {t : Thread} (hw : Sane w) (hi : w.threads[i]? = some t) (h : t.rest ≠ []) :
    Sane (step w i) ∧ ((step w i).threads.map Thread.todo).sum < (w.threads.map Thread.todo).sum := by
  obtain ⟨h1, h2⟩ := exec_todo w t h (hw t (List.mem_of_getElem? hi))
  have hst : (step w i).threads = w.threads.set i (exec w t).2 := by
    unfold step
    simp only [hi]
  constructor
  · intro u hu
    rw [hst] at hu
    rcases List.mem_or_eq_of_mem_set hu with hu | rfl
    · exact hw u hu
    · exact h2
  · rw [hst]
    have : ∀ (l : List Thread) (i : Nat) (u : Thread), l[i]? = some t → u.todo < t.todo → ((l.set i u).map Thread.todo).sum < (l.map Thread.todo).sum := by
      intro l
      induction l with
      | nil => intro i u hu; cases hu
      | cons a l ih =>
        intro i u hu hlt
        cases i with
        | zero =>
          cases hu
          simp
          exact hlt
        | succ i =>
          have := ih i u hu hlt
          simp only [List.set_cons_succ, List.map_cons, List.sum_cons]
          omega
    exact this _ _ _ hi h1

theorem completes : ∀ (n : Nat) (w : World), Sane w → (w.threads.map Thread.todo).sum ≤ n → ∃ s, ∀ t ∈ (run w s).threads, t.rest = [] := by
  intro n
  induction n with
  | zero =>
    intro w hw hn
    refine ⟨[], fun t ht => ?_⟩
    by_contra hr
    obtain ⟨i, hi⟩ := List.getElem?_of_mem ht
    have := (step_todo hw hi hr).2
    omega
  | succ n ih =>
    intro w hw hn
    by_cases hd : ∀ t ∈ w.threads, t.rest = []
    · exact ⟨[], hd⟩
    · simp only [not_forall] at hd
      obtain ⟨t, ht, hr⟩ := hd
      obtain ⟨i, hi⟩ := List.getElem?_of_mem ht
      obtain ⟨h1, h2⟩ := step_todo hw hi hr
      obtain ⟨s, hs⟩ := ih (step w i) h1 (by omega)
      exact ⟨i :: s, hs⟩

theorem step_sane {w : World} (hw : Sane w) (i : Nat) : Sane (step w i) := by
  cases hi : w.threads[i]? with
  | none =>
    have : step w i = w := by unfold step; simp only [hi]
    rw [this]
    exact hw
  | some t =>
    by_cases hr : t.rest = []
    · have : step w i = { w with threads := w.threads.set i t } := by
        unfold step
        simp only [hi, exec, hr]
      rw [this]
      intro u hu
      rcases List.mem_or_eq_of_mem_set hu with hu | rfl
      · exact hw u hu
      · exact hw u (List.mem_of_getElem? hi)
    · exact (step_todo hw hi hr).1

theorem run_sane (s : List Nat) : ∀ {w : World}, Sane w → Sane (run w s) := by
  induction s with
  | nil => exact fun h => h
  | cons i s ih => exact fun h => ih (step_sane h i)

theorem start_sane (programs : List (List Instr)) : Sane (start programs) := by
  intro t ht
  simp only [start, List.mem_map] at ht
  obtain ⟨p, _, rfl⟩ := ht
  intro h
  cases h

theorem run_append (w : World) (s s' : List Nat) : run w (s ++ s') = run (run w s) s' := List.foldl_append

/-! ### The programs meet the conditions -/

/-- A setup followed by lookups. -/
def thenLook (setup : List Instr) (looks : List (Nat × Atom)) : List Instr := setup ++ looks.map fun l => .get l.1 l.2

theorem lastOf_append (a : Nat) (k : Atom) (p q : List Instr) : lastOf a k (p ++ q) = (lastOf a k q).or (lastOf a k p) := by
  induction p with
  | nil => simp [lastOf]
  | cons n p ih =>
    cases n with
    | store b k' v => simp [lastOf, ih, Option.or_assoc]
    | _ => exact ih

theorem lastOf_gets (a : Nat) (k : Atom) (looks : List (Nat × Atom)) : lastOf a k (looks.map fun l => .get l.1 l.2) = none := by
  induction looks with
  | nil => rfl
  | cons l ls ih => exact ih

theorem not_makes_gets (a : Nat) (looks : List (Nat × Atom)) : ¬ Makes (looks.map fun l => .get l.1 l.2) a := by
  rintro (h | h) <;> simp at h

theorem makes_append {p q : List Instr} {a : Nat} : Makes (p ++ q) a ↔ Makes p a ∨ Makes q a := by
  simp only [Makes, List.mem_append]
  tauto

theorem suffix_append {α : Type} {i : α} {r l g : List α} (h : (i :: r) <:+ l ++ g) : (i :: r) <:+ g ∨ ∃ r', r = r' ++ g ∧ (i :: r') <:+ l := by
  obtain ⟨p, hp⟩ := h
  rcases List.append_eq_append_iff.mp hp with ⟨q, hq, hr⟩ | ⟨q, hq, hr⟩
  · cases q with
    | nil =>
      exact .inl ⟨[], by simpa using hr⟩
    | cons j q =>
      injection hr with h1 h2
      subst h1
      exact .inr ⟨q, h2, p, hq.symm⟩
  · exact .inl ⟨q, hr.symm⟩

theorem sound_using {S : List Instr} (h : Sound S S) {looks : List (Nat × Atom)} (hl : ∀ l ∈ looks, Makes S l.1) : Sound S (thenLook S looks) := by
  intro i r hr
  rcases suffix_append hr with hr | ⟨r', rfl, hr2⟩
  · have hm := hr.subset List.mem_cons_self
    obtain ⟨l, hl', rfl⟩ := List.mem_map.mp hm
    refine ⟨hl l hl', fun b => ⟨fun hk => ?_, fun k => ?_⟩⟩
    · rcases hk with hk | hk
      · have := hr.subset (List.mem_cons_of_mem _ hk)
        simp at this
      · have := hr.subset (List.mem_cons_of_mem _ hk)
        simp at this
    · obtain ⟨p, hp⟩ := hr
      have := lastOf_gets b k looks
      rw [← hp, lastOf_append] at this
      exact (Option.or_eq_none_iff.mp this).1
  · have ho := h i r' hr2
    have hmk : ∀ a, Makes (r' ++ looks.map fun l => Instr.get l.1 l.2) a → Makes r' a := fun a hm =>
      (makes_append.mp hm).elim id (fun h => absurd h (not_makes_gets a looks))
    have hla : ∀ a k, lastOf a k (r' ++ looks.map fun l => Instr.get l.1 l.2) = lastOf a k r' := fun a k => by rw [lastOf_append, lastOf_gets]; rfl
    have hum : Instr.unlessMarked ∈ (r' ++ looks.map fun l => Instr.get l.1 l.2) → Instr.unlessMarked ∈ r' := fun h => by simpa using h
    have hus : ∀ b, Instr.unlessSet b ∈ (r' ++ looks.map fun l => Instr.get l.1 l.2) → Instr.unlessSet b ∈ r' := fun b h => by simpa using h
    have hnd : ∀ b, Instr.newDict b ∈ (r' ++ looks.map fun l => Instr.get l.1 l.2) → Instr.newDict b ∈ r' := fun b h => by simpa using h
    cases i with
    | unlessMarked => trivial
    | unlessSet b => exact ho
    | newDict a =>
      obtain ⟨o1, o2, o3, o4⟩ := ho
      exact ⟨fun k => (hla a k).trans (o1 k), fun h => o2 (hnd a h), fun h => o3 (hum h), fun b h => o4 b (hus b h)⟩
    | newList a => exact ho
    | store a k v =>
      obtain ⟨o1, o2, o3, o4, o5⟩ := ho
      refine ⟨?_, o2, fun h => o3 (hmk a h), fun h => o4 (hum h), fun b h => o5 b (hus b h)⟩
      simp only [lastOf, hla] at o1 ⊢
      exact o1
    | append a v =>
      obtain ⟨o1, o2, o3⟩ := ho
      exact ⟨o1, o2, fun h => o3 (hmk a h)⟩
    | get a k =>
      obtain ⟨o1, o2⟩ := ho
      exact ⟨o1, fun b => ⟨fun h => (o2 b).1 (hmk b h), fun k => (hla b k).trans ((o2 b).2 k)⟩⟩
    | mark => exact fun a h => ho a (hmk a h)

theorem makes_using {S : List Instr} {looks : List (Nat × Atom)} {a : Nat} (h : Makes S a) : Makes (thenLook S looks) a := makes_append.mpr (.inl h)

/-- The rest of a setup makes no further tables. -/
def Late (r : List Instr) : Prop := (∀ a, ¬ Makes r a) ∧ .unlessMarked ∉ r ∧ ∀ b, .unlessSet b ∉ r

theorem Late.cons {n : Instr} {r : List Instr} (h : Late r) (h1 : n ≠ .unlessMarked) (h2 : ∀ b, n ≠ .unlessSet b) (h3 : ∀ a, n ≠ .newDict a ∧ n ≠ .newList a) :
    Late (n :: r) :=
  ⟨fun a hm => h.1 a (hm.tail (h3 a).1 (h3 a).2), fun hm => h.2.1 ((List.mem_cons.mp hm).resolve_left (fun e => h1 e.symm)),
    fun b hm => h.2.2 b ((List.mem_cons.mp hm).resolve_left (fun e => h2 b e.symm))⟩

/-- The entries of the tables. -/
theorem sound_entries {S : List Instr} (l : List Instr) : ∀ {r : List Instr}, (∃ p, S = p ++ (l ++ r)) →
    (∀ i ∈ l, (∃ a k v, i = .store a k v ∧ Makes S a) ∨ ∃ a v, i = .append a v ∧ Makes S a ∧ .newDict a ∉ S) → Late r → Sound S r → Sound S (l ++ r) ∧ Late (l ++ r) := by
  induction l with
  | nil => exact fun _ _ h1 h2 => ⟨h2, h1⟩
  | cons i l ih =>
    rintro r ⟨p, hp⟩ hl hr hs
    obtain ⟨h1, h2⟩ := ih ⟨p ++ [i], by simp [hp]⟩ (fun j hj => hl j (List.mem_cons_of_mem _ hj)) hr hs
    rcases hl i List.mem_cons_self with ⟨a, k, v, rfl, hm⟩ | ⟨a, v, rfl, hm, hd⟩
    · refine ⟨sound_cons ⟨?_, hm, h2.1 a, h2.2⟩ h1, h2.cons (by simp) (by simp) (by simp)⟩
      rw [hp, lastOf_append]
      simp only [List.cons_append, lastOf, and_self, if_true]
      cases lastOf a k (l ++ r) <;> simp
    · exact ⟨sound_cons ⟨hd, hm, h2.1 a⟩ h1, h2.cons (by simp) (by simp) (by simp)⟩

theorem sound_mark {S : List Instr} : Sound S [.mark] ∧ Late [.mark] :=
  ⟨sound_cons (fun a h => by rcases h with h | h <;> cases h) sound_nil, fun a h => by rcases h with h | h <;> simp at h, by simp, by simp⟩

theorem sound_get {S r : List Instr} {a : Nat} {k : Atom} (hm : Makes S a) (hl : ∀ b k, lastOf b k r = none) (h : Sound S r ∧ Late r) :
    Sound S (.get a k :: r) ∧ Late (.get a k :: r) :=
  ⟨sound_cons ⟨hm, fun b => ⟨h.2.1 b, hl b⟩⟩ h.1, h.2.cons (by simp) (by simp) (by simp)⟩

theorem choice_sound (alts : List (Option (Nat × Nat) × String)) : Sound (choiceSetup alts) (choiceSetup alts) := by
  have h0 : Makes (choiceSetup alts) 0 := .inl (by simp [choiceSetup])
  have h1 : Makes (choiceSetup alts) 1 := .inl (by simp [choiceSetup])
  obtain ⟨hs, hl⟩ := sound_entries (S := choiceSetup alts)
    (alts.zipIdx.flatMap fun a => [.store 0 (.ident a.1.1) (.num a.2), .store 1 (.text a.1.2) (.num a.2)]) (r := [.mark])
    ⟨[.unlessMarked, .newDict 0, .newDict 1], by simp [choiceSetup]⟩ (fun i hi => by
      simp only [List.mem_flatMap, List.mem_cons, List.not_mem_nil, or_false] at hi
      obtain ⟨a, _, rfl | rfl⟩ := hi
      · exact .inl ⟨_, _, _, rfl, h0⟩
      · exact .inl ⟨_, _, _, rfl, h1⟩) (sound_mark (S := [])).2 sound_mark.1
  have e : ∀ a k, lastOf a k (choiceSetup alts) =
      lastOf a k ((alts.zipIdx.flatMap fun a => [Instr.store 0 (.ident a.1.1) (.num a.2), .store 1 (.text a.1.2) (.num a.2)]) ++ [.mark]) := fun a k => rfl
  refine sound_cons trivial (sound_cons ⟨fun k => (e 0 k).symm, ?_, ?_, ?_⟩ (sound_cons ⟨fun k => (e 1 k).symm, ?_, ?_, ?_⟩ hs))
  · rintro h
    rcases List.mem_cons.mp h with h | h
    · simp at h
    · exact hl.1 0 (.inl h)
  · rintro h
    rcases List.mem_cons.mp h with h | h
    · simp at h
    · exact hl.2.1 h
  · rintro b h
    rcases List.mem_cons.mp h with h | h
    · simp at h
    · exact hl.2.2 b h
  · exact fun h => hl.1 1 (.inl h)
  · exact hl.2.1
  · exact hl.2.2

theorem map_sound (items : List (Atom × String)) : Sound (mapSetup items) (mapSetup items) := by
  have h0 : Makes (mapSetup items) 0 := .inl (by simp [mapSetup])
  obtain ⟨hs, hl⟩ := sound_entries (S := mapSetup items) (items.map fun e => .store 0 (.text e.2) e.1) (r := [.mark])
    ⟨[.unlessMarked, .unlessSet 0, .newDict 0], by simp [mapSetup]⟩ (fun i hi => by
      obtain ⟨a, _, rfl⟩ := List.mem_map.mp hi
      exact .inl ⟨_, _, _, rfl, h0⟩) (sound_mark (S := [])).2 sound_mark.1
  refine sound_cons trivial (sound_cons ?_ (sound_cons ⟨fun k => rfl, fun h => hl.1 0 (.inl h), hl.2.1, hl.2.2⟩ hs))
  intro a ha
  rcases ha with h | h <;> simp [mapSetup] at h
  exact h

theorem last_appends (b : Nat) (k : Atom) (xs : List Atom) : lastOf b k (xs.map (Instr.append 2) ++ [.mark]) = none := by
  induction xs with
  | nil => rfl
  | cons x xs ih => exact ih

/-- The lookups for `_oid_pair`. -/
def pairGets : Option (String × String) → List Instr
  | none => []
  | some (x, y) => [.get 0 (.text x), .get 0 (.text y)]

/-- The part after the fields. -/
def seqTail (fields : List FieldRow) (pair : Option (String × String)) : List Instr :=
  pairGets pair ++ (fields.map (fun f => .append 2 (.spec f.spec)) ++ [.mark])

theorem tail_sound {S : List Instr} (h0 : Makes S 0) (h2 : Makes S 2) (hd : .newDict 2 ∉ S) (fields : List FieldRow) (pair : Option (String × String))
    (hS : ∃ p, S = p ++ seqTail fields pair) : Sound S (seqTail fields pair) ∧ Late (seqTail fields pair) := by
  have hl : ∀ b k, lastOf b k (fields.map (fun f => Instr.append 2 (.spec f.spec)) ++ [.mark]) = none := fun b k => by
    have := last_appends b k (fields.map fun f => .spec f.spec)
    rwa [List.map_map] at this
  have ha : Sound S (fields.map (fun f => Instr.append 2 (.spec f.spec)) ++ [.mark]) ∧ Late (fields.map (fun f => Instr.append 2 (.spec f.spec)) ++ [.mark]) := by
    refine sound_entries _ ?_ (fun i hi => ?_) (sound_mark (S := [])).2 sound_mark.1
    · obtain ⟨p, hp⟩ := hS
      exact ⟨_, by rw [hp, seqTail, ← List.append_assoc]⟩
    · obtain ⟨f, _, rfl⟩ := List.mem_map.mp hi
      exact .inr ⟨_, _, rfl, h2, hd⟩
  cases pair with
  | none => exact ha
  | some q =>
    obtain ⟨x, y⟩ := q
    exact sound_get h0 hl (sound_get h0 hl ha)

theorem seqSetup_eq (fields : List FieldRow) (pair : Option (String × String)) : seqSetup fields pair = [.unlessMarked, .newDict 0, .newList 1, .newList 2] ++
    ((fields.zipIdx.flatMap fun f => [.store 0 (.text f.1.name) (.num f.2), .append 1 (.ident f.1.ident)]) ++ seqTail fields pair) := by
  cases pair <;> simp [seqSetup, seqTail, pairGets]

theorem setSetup_eq (fields : List FieldRow) (pair : Option (String × String)) : setSetup fields pair = [.unlessMarked, .newDict 0, .newDict 1, .newList 2] ++
    ((fields.zipIdx.flatMap fun f => [.store 0 (.text f.1.name) (.num f.2), .store 1 (.ident f.1.ident) (.num f.2)]) ++ seqTail fields pair) := by
  cases pair <;> simp [setSetup, seqTail, pairGets]

theorem seq_sound (fields : List FieldRow) (pair : Option (String × String)) : Sound (seqSetup fields pair) (seqSetup fields pair) := by
  have h0 : Makes (seqSetup fields pair) 0 := .inl (by simp [seqSetup])
  have h1 : Makes (seqSetup fields pair) 1 := .inr (by simp [seqSetup])
  have h2 : Makes (seqSetup fields pair) 2 := .inr (by simp [seqSetup])
  have hd : ∀ a, .newDict a ∈ seqSetup fields pair → a = 0 := by
    intro a h
    cases pair <;> simpa [seqSetup] using h
  have ht := tail_sound h0 h2 (fun h => by simpa using hd 2 h) fields pair ⟨_, by rw [seqSetup_eq, ← List.append_assoc]⟩
  obtain ⟨hs, hl⟩ := sound_entries (S := seqSetup fields pair)
    (fields.zipIdx.flatMap fun f => [.store 0 (.text f.1.name) (.num f.2), .append 1 (.ident f.1.ident)]) (r := seqTail fields pair)
    ⟨_, seqSetup_eq fields pair⟩ (fun i hi => by
      simp only [List.mem_flatMap, List.mem_cons, List.not_mem_nil, or_false] at hi
      obtain ⟨a, _, rfl | rfl⟩ := hi
      · exact .inl ⟨_, _, _, rfl, h0⟩
      · exact .inr ⟨_, _, rfl, h1, fun h => by simpa using hd 1 h⟩) ht.2 ht.1
  have e := seqSetup_eq fields pair
  have hne : ∀ i, i ∈ [Instr.newList 1, .newList 2] ++ ((fields.zipIdx.flatMap fun f => [Instr.store 0 (.text f.1.name) (.num f.2), .append 1 (.ident f.1.ident)]) ++
      seqTail fields pair) → i = .newList 1 ∨ i = .newList 2 ∨ i ∈ ((fields.zipIdx.flatMap fun f => [Instr.store 0 (.text f.1.name) (.num f.2), .append 1 (.ident f.1.ident)]) ++
      seqTail fields pair) := fun i h => by
    rcases List.mem_cons.mp h with h | h
    · exact .inl h
    · rcases List.mem_cons.mp h with h | h
      · exact .inr (.inl h)
      · exact .inr (.inr h)
  suffices h : Sound (seqSetup fields pair) ([.unlessMarked, .newDict 0, .newList 1, .newList 2] ++
      ((fields.zipIdx.flatMap fun f => [.store 0 (.text f.1.name) (.num f.2), .append 1 (.ident f.1.ident)]) ++ seqTail fields pair)) by
    rw [← e] at h
    exact h
  refine sound_cons trivial (sound_cons ⟨fun k => by rw [e]; rfl, ?_, ?_, ?_⟩ (sound_cons (fun h => by simpa using hd 1 h) (sound_cons (fun h => by simpa using hd 2 h) hs)))
  · intro h
    rcases hne _ h with h | h | h
    · cases h
    · cases h
    · exact hl.1 0 (.inl h)
  · intro h
    rcases hne _ h with h | h | h
    · cases h
    · cases h
    · exact hl.2.1 h
  · intro b h
    rcases hne _ h with h | h | h
    · cases h
    · cases h
    · exact hl.2.2 b h

theorem set_sound (fields : List FieldRow) (pair : Option (String × String)) : Sound (setSetup fields pair) (setSetup fields pair) := by
  have h0 : Makes (setSetup fields pair) 0 := .inl (by simp [setSetup])
  have h1 : Makes (setSetup fields pair) 1 := .inl (by simp [setSetup])
  have h2 : Makes (setSetup fields pair) 2 := .inr (by simp [setSetup])
  have hd : ∀ a, .newDict a ∈ setSetup fields pair → a = 0 ∨ a = 1 := by
    intro a h
    cases pair <;> simpa [setSetup] using h
  have ht := tail_sound h0 h2 (fun h => by simpa using hd 2 h) fields pair ⟨_, by rw [setSetup_eq, ← List.append_assoc]⟩
  obtain ⟨hs, hl⟩ := sound_entries (S := setSetup fields pair)
    (fields.zipIdx.flatMap fun f => [.store 0 (.text f.1.name) (.num f.2), .store 1 (.ident f.1.ident) (.num f.2)]) (r := seqTail fields pair)
    ⟨_, setSetup_eq fields pair⟩ (fun i hi => by
      simp only [List.mem_flatMap, List.mem_cons, List.not_mem_nil, or_false] at hi
      obtain ⟨a, _, rfl | rfl⟩ := hi
      · exact .inl ⟨_, _, _, rfl, h0⟩
      · exact .inl ⟨_, _, _, rfl, h1⟩) ht.2 ht.1
  have e := setSetup_eq fields pair
  generalize hB : (fields.zipIdx.flatMap fun f => [Instr.store 0 (.text f.1.name) (.num f.2), .store 1 (.ident f.1.ident) (.num f.2)]) ++ seqTail fields pair = B at *
  suffices h : Sound (setSetup fields pair) (.unlessMarked :: .newDict 0 :: .newDict 1 :: .newList 2 :: B) by
    have e' : setSetup fields pair = .unlessMarked :: .newDict 0 :: .newDict 1 :: .newList 2 :: B := e
    rw [← e'] at h
    exact h
  refine sound_cons trivial (sound_cons ⟨fun k => by rw [e]; rfl, ?_, ?_, ?_⟩ (sound_cons ⟨fun k => by rw [e]; rfl, ?_, ?_, ?_⟩ (sound_cons (fun h => by simpa using hd 2 h) hs)))
  · intro h
    simp only [List.mem_cons] at h
    rcases h with h | h | h
    · simp at h
    · simp at h
    · exact hl.1 0 (.inl h)
  · intro h
    simp only [List.mem_cons] at h
    rcases h with h | h | h
    · simp at h
    · simp at h
    · exact hl.2.1 h
  · intro b h
    simp only [List.mem_cons] at h
    rcases h with h | h | h
    · simp at h
    · simp at h
    · exact hl.2.2 b h
  · intro h
    simp only [List.mem_cons] at h
    rcases h with h | h
    · simp at h
    · exact hl.1 1 (.inl h)
  · intro h
    simp only [List.mem_cons] at h
    rcases h with h | h
    · simp at h
    · exact hl.2.1 h
  · intro b h
    simp only [List.mem_cons] at h
    rcases h with h | h
    · simp at h
    · exact hl.2.2 b h

end Asn1.Setup
