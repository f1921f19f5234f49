import Verif.Lemmas.SetupTables

/-!
# C62: a class may be used for the first time in several threads

The first instance of a class makes its lookup tables. Whatever the order in which any number of threads do their steps, the tables should end up as the
declaration of the class says, and no thread should see anything else.

The code does not do that. What holds is in `C62_*_partial`: once all threads are done, the tables that are dicts (`_id_map`, `_name_map`, `_reverse_map`,
`_field_map`, and `_field_ids` of a SET) hold exactly what was declared; no schedule gets stuck; and if the first use is completed before other threads begin,
all tables are right, stay as they are, and all lookups of all threads give what they should. What fails is in `C62_*_fails`: lookups of a thread can fail
while others are still busy, and the lists of a SEQUENCE can be wrong for ever.
-/

namespace Asn1.Props

open Asn1.Setup Asn1.Spec

/-- The world after the threads, each of which uses the class and looks something up, have done their steps in the order given. -/
def afterThreads (setup : List Instr) (looks : List (List (Nat × Atom))) (schedule : List Nat) : World :=
  run (start (looks.map (thenLook setup))) schedule

/-- All threads have come to their end. -/
def AllDone (w : World) : Prop := ∀ t ∈ w.threads, t.rest = []

theorem after_settled {S : List Instr} (hS : Sound S S) {looks : List (List (Nat × Atom))} (hne : looks ≠ []) (hl : ∀ ls ∈ looks, ∀ l ∈ ls, Makes S l.1)
    {schedule : List Nat} (hdone : AllDone (afterThreads S looks schedule)) {a : Nat} (ha : .newDict a ∈ S) (k : Atom) :
    (afterThreads S looks schedule).find a k = lastOf a k S := by
  refine find_dict (settled (S := S) (fun p hp => ?_) (by simpa using hne) schedule hdone ha) k
  obtain ⟨ls, hls, rfl⟩ := List.mem_map.mp hp
  exact ⟨sound_using hS (hl ls hls), fun b hb => makes_using hb⟩

/-- CHOICE: once all threads are done, the tables give the positions of the alternatives by tag and by name. -/
theorem C62_choice_partial (alts : List (Option (Nat × Nat) × String)) (looks : List (List (Nat × Atom))) (hne : looks ≠ [])
    (hl : ∀ ls ∈ looks, ∀ l ∈ ls, l.1 = 0 ∨ l.1 = 1) (schedule : List Nat) (hdone : AllDone (afterThreads (choiceSetup alts) looks schedule)) (k v : Atom) :
    ((afterThreads (choiceSetup alts) looks schedule).find 0 k = some v ↔
      ∃ (n : Nat) (id : Option (Nat × Nat)), k = .ident id ∧ v = .num n ∧ LastAt alts (fun a => a.1 = id) n) ∧
    ((afterThreads (choiceSetup alts) looks schedule).find 1 k = some v ↔
      ∃ (n : Nat) (name : String), k = .text name ∧ v = .num n ∧ LastAt alts (fun a => a.2 = name) n) := by
  have hm : ∀ ls ∈ looks, ∀ l ∈ ls, Makes (choiceSetup alts) l.1 := fun ls h l h' => by
    rcases hl ls h l h' with e | e <;> rw [e] <;> exact .inl (by simp [choiceSetup])
  rw [after_settled (choice_sound alts) hne hm hdone (a := 0) (by simp [choiceSetup]), after_settled (choice_sound alts) hne hm hdone (a := 1) (by simp [choiceSetup])]
  exact ⟨choice_ids alts k v, choice_names alts k v⟩

/-- Mapped INTEGER, ENUMERATED, OBJECT IDENTIFIER and BIT STRING: once all threads are done, names are found with the last value declared for them. -/
theorem C62_map_partial (items : List (Atom × String)) (looks : List (List (Nat × Atom))) (hne : looks ≠ []) (hl : ∀ ls ∈ looks, ∀ l ∈ ls, l.1 = 0)
    (schedule : List Nat) (hdone : AllDone (afterThreads (mapSetup items) looks schedule)) (k v : Atom) :
    (afterThreads (mapSetup items) looks schedule).find 0 k = some v ↔
      ∃ (n : Nat) (name : String), k = .text name ∧ items[n]? = some (v, name) ∧ LastAt items (fun e => e.2 = name) n := by
  rw [after_settled (map_sound items) hne (fun ls h l h' => by rw [hl ls h l h']; exact .inl (by simp [mapSetup])) hdone (by simp [mapSetup])]
  exact map_names items k v

/-- SEQUENCE: once all threads are done, fields are found by their name. -/
theorem C62_sequence_partial (fields : List FieldRow) (pair : Option (String × String)) (looks : List (List (Nat × Atom))) (hne : looks ≠ [])
    (hl : ∀ ls ∈ looks, ∀ l ∈ ls, l.1 = 0) (schedule : List Nat) (hdone : AllDone (afterThreads (seqSetup fields pair) looks schedule)) (k v : Atom) :
    (afterThreads (seqSetup fields pair) looks schedule).find 0 k = some v ↔
      ∃ (n : Nat) (name : String), k = .text name ∧ v = .num n ∧ LastAt fields (fun f => f.name = name) n := by
  rw [after_settled (seq_sound fields pair) hne (fun ls h l h' => by rw [hl ls h l h']; exact .inl (by simp [seqSetup])) hdone (by simp [seqSetup]), seq_last]
  exact seqRows_names fields k v

/-- SET: once all threads are done, fields are found by their name and by their tag. -/
theorem C62_set_partial (fields : List FieldRow) (pair : Option (String × String)) (looks : List (List (Nat × Atom))) (hne : looks ≠ [])
    (hl : ∀ ls ∈ looks, ∀ l ∈ ls, l.1 = 0 ∨ l.1 = 1) (schedule : List Nat) (hdone : AllDone (afterThreads (setSetup fields pair) looks schedule)) (k v : Atom) :
    ((afterThreads (setSetup fields pair) looks schedule).find 0 k = some v ↔
      ∃ (n : Nat) (name : String), k = .text name ∧ v = .num n ∧ LastAt fields (fun f => f.name = name) n) ∧
    ((afterThreads (setSetup fields pair) looks schedule).find 1 k = some v ↔
      ∃ (n : Nat) (id : Option (Nat × Nat)), k = .ident id ∧ v = .num n ∧ LastAt fields (fun f => f.ident = id) n) := by
  have hm : ∀ ls ∈ looks, ∀ l ∈ ls, Makes (setSetup fields pair) l.1 := fun ls h l h' => by
    rcases hl ls h l h' with e | e <;> rw [e] <;> exact .inl (by simp [setSetup])
  rw [after_settled (set_sound fields pair) hne hm hdone (a := 0) (by simp [setSetup]), after_settled (set_sound fields pair) hne hm hdone (a := 1) (by simp [setSetup]),
    set_last, set_last]
  exact ⟨setRows_names fields k v, setRows_ids fields k v⟩

/-- No schedule gets stuck: however far the threads have come, they can all come to their end. -/
theorem C62_ends (setup : List Instr) (looks : List (List (Nat × Atom))) (schedule : List Nat) :
    ∃ more, AllDone (afterThreads setup looks (schedule ++ more)) := by
  obtain ⟨s, hs⟩ := completes _ (afterThreads setup looks schedule) (run_sane schedule (start_sane _)) (Nat.le_refl _)
  refine ⟨s, ?_⟩
  unfold afterThreads
  rw [run_append]
  exact hs

/-! ### The first use is completed before others begin -/

/-- Thread `i` is done before the others take their first step; `later` is what happens then. -/
def afterFirst (setup : List Instr) (looks : List (Nat × Atom)) (i n : Nat) (later : List Nat) : World :=
  run (run (start (looks.map fun l => thenLook setup [l])) (List.replicate n i)) later

/-- Every thread that is done has found what the table holds, or has got an exception if there is no such entry. -/
def AllRight (w : World) (looks : List (Nat × Atom)) : Prop := ∀ (j : Nat) (t : Thread), w.threads[j]? = some t → t.rest = [] →
  ∃ l, looks[j]? = some l ∧ t.failed = (w.find l.1 l.2).isNone ∧ (t.failed = false → t.got = w.find l.1 l.2)

theorem C62_choice_first (alts : List (Option (Nat × Nat) × String)) (looks : List (Nat × Atom)) (i n : Nat) (hi : i < looks.length)
    (hn : ∀ t, (run (start (looks.map fun l => thenLook (choiceSetup alts) [l])) (List.replicate n i)).threads[i]? = some t → t.rest = []) (later : List Nat) :
    AllRight (afterFirst (choiceSetup alts) looks i n later) looks ∧ ∀ k v,
      ((afterFirst (choiceSetup alts) looks i n later).find 0 k = some v ↔
        ∃ (n : Nat) (id : Option (Nat × Nat)), k = .ident id ∧ v = .num n ∧ LastAt alts (fun a => a.1 = id) n) ∧
      ((afterFirst (choiceSetup alts) looks i n later).find 1 k = some v ↔
        ∃ (n : Nat) (name : String), k = .text name ∧ v = .num n ∧ LastAt alts (fun a => a.2 = name) n) := by
  obtain ⟨m, w, g, h1, h2, h3⟩ := choice_alone alts (looks.map fun l => thenLook (choiceSetup alts) [l]) looks[i]
  obtain ⟨k1, k2, k3⟩ := alone (framed_choice alts) (List.getElem?_eq_getElem hi) h1 h2 hn later
  refine ⟨k3, fun k v => ?_⟩
  rw [find_dict (S := choiceSetup alts) (by rw [afterFirst, table_same k1 k2]; exact h3 0 (.inl rfl)),
    find_dict (S := choiceSetup alts) (by rw [afterFirst, table_same k1 k2]; exact h3 1 (.inr rfl))]
  exact ⟨choice_ids alts k v, choice_names alts k v⟩

theorem C62_map_first (items : List (Atom × String)) (looks : List (Nat × Atom)) (i n : Nat) (hi : i < looks.length)
    (hn : ∀ t, (run (start (looks.map fun l => thenLook (mapSetup items) [l])) (List.replicate n i)).threads[i]? = some t → t.rest = []) (later : List Nat) :
    AllRight (afterFirst (mapSetup items) looks i n later) looks ∧ ∀ k v,
      ((afterFirst (mapSetup items) looks i n later).find 0 k = some v ↔
        ∃ (n : Nat) (name : String), k = .text name ∧ items[n]? = some (v, name) ∧ LastAt items (fun e => e.2 = name) n) := by
  obtain ⟨m, w, g, h1, h2, h3⟩ := map_alone items (looks.map fun l => thenLook (mapSetup items) [l]) looks[i]
  obtain ⟨k1, k2, k3⟩ := alone (framed_map items) (List.getElem?_eq_getElem hi) h1 h2 hn later
  refine ⟨k3, fun k v => ?_⟩
  rw [find_dict (S := mapSetup items) (by rw [afterFirst, table_same k1 k2]; exact h3)]
  exact map_names items k v

theorem C62_sequence_first (fields : List FieldRow) (pair : Option (String × String))
    (hp : ∀ p, pair = some p → p.1 ∈ fields.map (·.name) ∧ p.2 ∈ fields.map (·.name)) (looks : List (Nat × Atom)) (i n : Nat) (hi : i < looks.length)
    (hn : ∀ t, (run (start (looks.map fun l => thenLook (seqSetup fields pair) [l])) (List.replicate n i)).threads[i]? = some t → t.rest = []) (later : List Nat) :
    AllRight (afterFirst (seqSetup fields pair) looks i n later) looks ∧
    (∀ k v, (afterFirst (seqSetup fields pair) looks i n later).find 0 k = some v ↔
      ∃ (n : Nat) (name : String), k = .text name ∧ v = .num n ∧ LastAt fields (fun f => f.name = name) n) ∧
    (afterFirst (seqSetup fields pair) looks i n later).table 1 = some (.list (fields.map fun f => .ident f.ident)) ∧
    (afterFirst (seqSetup fields pair) looks i n later).table 2 = some (.list (fields.map fun f => .spec f.spec)) := by
  obtain ⟨m, w, g, h1, h2, h3, h4, h5⟩ := seq_alone fields pair hp (looks.map fun l => thenLook (seqSetup fields pair) [l]) looks[i]
  obtain ⟨k1, k2, k3⟩ := alone (framed_seq fields pair) (List.getElem?_eq_getElem hi) h1 h2 hn later
  refine ⟨k3, fun k v => ?_, (table_same k1 k2 1).trans h4, (table_same k1 k2 2).trans h5⟩
  rw [find_dict (S := seqSetup fields pair) (by rw [afterFirst, table_same k1 k2]; exact h3), seq_last]
  exact seqRows_names fields k v

theorem C62_set_first (fields : List FieldRow) (pair : Option (String × String))
    (hp : ∀ p, pair = some p → p.1 ∈ fields.map (·.name) ∧ p.2 ∈ fields.map (·.name)) (looks : List (Nat × Atom)) (i n : Nat) (hi : i < looks.length)
    (hn : ∀ t, (run (start (looks.map fun l => thenLook (setSetup fields pair) [l])) (List.replicate n i)).threads[i]? = some t → t.rest = []) (later : List Nat) :
    AllRight (afterFirst (setSetup fields pair) looks i n later) looks ∧
    (∀ k v, ((afterFirst (setSetup fields pair) looks i n later).find 0 k = some v ↔
        ∃ (n : Nat) (name : String), k = .text name ∧ v = .num n ∧ LastAt fields (fun f => f.name = name) n) ∧
      ((afterFirst (setSetup fields pair) looks i n later).find 1 k = some v ↔
        ∃ (n : Nat) (id : Option (Nat × Nat)), k = .ident id ∧ v = .num n ∧ LastAt fields (fun f => f.ident = id) n)) ∧
    (afterFirst (setSetup fields pair) looks i n later).table 2 = some (.list (fields.map fun f => .spec f.spec)) := by
  obtain ⟨m, w, g, h1, h2, h3, h5⟩ := set_alone fields pair hp (looks.map fun l => thenLook (setSetup fields pair) [l]) looks[i]
  obtain ⟨k1, k2, k3⟩ := alone (framed_set fields pair) (List.getElem?_eq_getElem hi) h1 h2 hn later
  refine ⟨k3, fun k v => ?_, (table_same k1 k2 2).trans h5⟩
  rw [find_dict (S := setSetup fields pair) (by rw [afterFirst, table_same k1 k2]; exact h3 0 (.inl rfl)),
    find_dict (S := setSetup fields pair) (by rw [afterFirst, table_same k1 k2]; exact h3 1 (.inr rfl)), set_last, set_last]
  exact ⟨setRows_names fields k v, setRows_ids fields k v⟩

/-! ### What fails -/

/-- A SEQUENCE of an OBJECT IDENTIFIER and an optional OCTET STRING. -/
def twoFields : List FieldRow := [⟨"type", some (0, 6), some 1⟩, ⟨"value", some (0, 4), some 2⟩]

/-- A name that another thread is about to put into the map is not found: a thread that comes when `_reverse_map` has been made but not been filled returns
at once from `_setup`. The class is then taken to be ready. -/
theorem C62_map_fails : ∃ schedule, (afterThreads (mapSetup [(.num 0, "v1"), (.num 1, "v2")]) [[(0, .text "v2")], [(0, .text "v2")]] schedule).threads[1]? =
      some { rest := [], failed := true } ∧
    (afterThreads (mapSetup [(.num 0, "v1"), (.num 1, "v2")]) [[(0, .text "v2")], [(0, .text "v2")]] schedule).marked = true :=
  ⟨[0, 0, 0, 0, 0, 1, 1, 1, 1, 1], by decide +kernel, by decide +kernel⟩

/-- An alternative that a thread has already seen in the table is lost again when another thread begins. -/
theorem C62_choice_fails : ∃ schedule, (afterThreads (choiceSetup [(some (0, 2), "number"), (some (0, 12), "text")]) [[(0, .ident (some (0, 12)))], []] schedule).threads[0]? =
    some { rest := [], failed := true } :=
  ⟨[1] ++ List.replicate 12 0 ++ [1] ++ [0, 0], by decide +kernel⟩

/-- Two threads can both append to the lists of a SEQUENCE. When all is done, the class is marked as ready, and the lists are wrong for as long as the process
runs: the type of the second field is taken to be that of the first. -/
theorem C62_sequence_fails : ∃ schedule, AllDone (afterThreads (seqSetup twoFields none) [[], []] schedule) ∧
    (afterThreads (seqSetup twoFields none) [[], []] schedule).marked = true ∧
    (afterThreads (seqSetup twoFields none) [[], []] schedule).table 1 =
      some (.list [.ident (some (0, 6)), .ident (some (0, 6)), .ident (some (0, 4)), .ident (some (0, 4))]) ∧
    (afterThreads (seqSetup twoFields none) [[], []] schedule).table 2 = some (.list [.spec (some 1), .spec (some 1), .spec (some 2), .spec (some 2)]) :=
  ⟨[0, 0, 0, 0, 1, 1, 1, 1] ++ (List.replicate 13 [0, 1]).flatten, by unfold AllDone; decide +kernel, by decide +kernel, by decide +kernel, by decide +kernel⟩

/-- A schedule in which two threads take turns, and both find what they look for. -/
example : (afterThreads (choiceSetup [(some (0, 2), "number"), (some (0, 12), "text")]) [[(0, .ident (some (0, 12)))], [(1, .text "number")]]
    (List.replicate 16 [0, 1]).flatten).threads = [{ rest := [], got := some (.num 1) }, { rest := [], got := some (.num 0) }] := by
  decide +kernel

/-- A SEQUENCE used by one thread first. -/
example : (afterFirst (seqSetup twoFields (some ("type", "value"))) [(0, .text "value"), (0, .text "none")] 0 30 [1, 1, 1, 1]).threads =
    [{ rest := [], got := some (.num 1) }, { rest := [], got := none, failed := true }] := by
  decide +kernel

end Asn1.Props
