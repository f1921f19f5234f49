import Verif.Lemmas.SetupAlone
import Verif.Spec.Setup

/-! # What the tables of a class hold -/

namespace Asn1.Setup

open Asn1.Spec

theorem last_rows {α : Type} {a : Nat} {F : α × Nat → List Instr} {key : α → Atom} {val : α → Nat → Atom}
    (hF : ∀ x n k, lastOf a k (F (x, n)) = if key x = k then some (val x n) else none) (k : Atom) (xs : List α) : ∀ s v,
    lastOf a k ((xs.zipIdx s).flatMap F) = some v ↔ ∃ n x, xs[n]? = some x ∧ v = val x (s + n) ∧ LastAt xs (fun x => key x = k) n := by
  induction xs with
  | nil => intro s v; simp [lastOf]
  | cons x xs ih =>
    intro s v
    rw [List.zipIdx_cons, List.flatMap_cons, lastOf_append, hF]
    constructor
    · intro h
      cases hl : lastOf a k ((xs.zipIdx (s + 1)).flatMap F) with
      | some v' =>
        rw [hl] at h
        simp only [Option.some_or] at h
        cases h
        obtain ⟨n, y, h1, h2, ⟨z, h3, h4⟩, h5⟩ := (ih (s + 1) v).mp hl
        refine ⟨n + 1, y, h1, by rw [h2]; congr 1; omega, ⟨z, h3, h4⟩, fun m w hm hw => ?_⟩
        cases m with
        | zero => omega
        | succ m => exact h5 m w (by omega) hw
      | none =>
        rw [hl] at h
        simp only [Option.none_or] at h
        split at h
        · next hk =>
          cases h
          refine ⟨0, x, rfl, rfl, ⟨x, rfl, hk⟩, fun m w hm hw hwk => ?_⟩
          cases m with
          | zero => omega
          | succ m =>
            -- some later one would have been found
            have hex : ∃ n, LastAt xs (fun x => key x = k) n := by
              have : ∀ (ys : List α) (m : Nat) (w : α), ys[m]? = some w → key w = k → ∃ n, LastAt ys (fun x => key x = k) n := by
                intro ys
                induction ys with
                | nil => intro m w h; cases h
                | cons y ys ih' =>
                  intro m w h hk
                  by_cases hlat : ∃ (m : Nat) (w : α), ys[m]? = some w ∧ key w = k
                  · obtain ⟨m', w', h1, h2⟩ := hlat
                    obtain ⟨n, ⟨z, h3, h4⟩, h5⟩ := ih' m' w' h1 h2
                    refine ⟨n + 1, ⟨z, h3, h4⟩, fun m w hm hw => ?_⟩
                    cases m with
                    | zero => omega
                    | succ m => exact h5 m w (by omega) hw
                  · cases m with
                    | zero =>
                      refine ⟨0, ⟨w, h, hk⟩, fun m w hm hw hwk => ?_⟩
                      cases m with
                      | zero => omega
                      | succ m => exact hlat ⟨m, w, hw, hwk⟩
                    | succ m => exact absurd ⟨m, w, h, hk⟩ hlat
              exact this xs m w hw hwk
            obtain ⟨n, ⟨z, h3, h4⟩, h5⟩ := hex
            have := (ih (s + 1) (val z (s + 1 + n))).mpr ⟨n, z, h3, rfl, ⟨z, h3, h4⟩, h5⟩
            rw [hl] at this
            cases this
        · cases h
    · rintro ⟨n, y, h1, h2, ⟨z, h3, h4⟩, h5⟩
      cases n with
      | zero =>
        cases h1
        cases h3
        have hno : lastOf a k ((xs.zipIdx (s + 1)).flatMap F) = none := by
          cases hl : lastOf a k ((xs.zipIdx (s + 1)).flatMap F) with
          | none => rfl
          | some v' =>
            obtain ⟨n', y', k1, _, ⟨z', k3, k4⟩, _⟩ := (ih (s + 1) v').mp hl
            exact absurd k4 (h5 (n' + 1) z' (by omega) k3)
        rw [hno, if_pos h4, h2]
        rfl
      | succ n =>
        have := (ih (s + 1) v).mpr ⟨n, y, h1, by rw [h2]; congr 1; omega, ⟨z, h3, h4⟩, fun m w hm hw => h5 (m + 1) w (by omega) hw⟩
        rw [this]
        rfl

theorem map_zipIdx {α β : Type} (f : α → β) (xs : List α) : ∀ s, xs.map f = (xs.zipIdx s).flatMap fun e => [f e.1] := by
  induction xs with
  | nil => exact fun _ => rfl
  | cons x xs ih =>
    intro s
    rw [List.zipIdx_cons, List.flatMap_cons, ← ih (s + 1)]
    rfl

theorem last_key {α β : Type} {C : β → Atom} (hC : ∀ x y, C x = C y → x = y) (g : α → β) {xs : List α} {k : Atom} {n : Nat} :
    LastAt xs (fun x => C (g x) = k) n ↔ ∃ b, k = C b ∧ LastAt xs (fun x => g x = b) n := by
  constructor
  · rintro ⟨⟨x, h1, rfl⟩, h2⟩
    exact ⟨g x, rfl, ⟨x, h1, rfl⟩, fun m y hm hy e => h2 m y hm hy (congrArg C e)⟩
  · rintro ⟨b, rfl, ⟨x, h1, h3⟩, h2⟩
    exact ⟨⟨x, h1, congrArg C h3⟩, fun m y hm hy e => h2 m y hm hy (hC _ _ e)⟩

theorem ident_inj (x y : Option (Nat × Nat)) (h : Atom.ident x = .ident y) : x = y := by cases h; rfl

theorem text_inj (x y : String) (h : Atom.text x = .text y) : x = y := by cases h; rfl

/-- Rows that store their position. -/
theorem pos_rows {α : Type} {F : α × Nat → List Instr} {a : Nat} {β : Type} {C : β → Atom} (hC : ∀ x y, C x = C y → x = y) {g : α → β}
    (hF : ∀ x n k, lastOf a k (F (x, n)) = if C (g x) = k then some (.num n) else none) (xs : List α) (k v : Atom) :
    lastOf a k (xs.zipIdx.flatMap F) = some v ↔ ∃ (n : Nat) (b : β), k = C b ∧ v = .num n ∧ LastAt xs (fun x => g x = b) n := by
  rw [last_rows (key := fun x => C (g x)) (val := fun _ n => .num n) hF k xs 0 v]
  simp only [Nat.zero_add]
  constructor
  · rintro ⟨n, x, h1, h2, h3⟩
    obtain ⟨b, hb, h4⟩ := (last_key hC g).mp h3
    exact ⟨n, b, hb, h2, h4⟩
  · rintro ⟨n, b, rfl, rfl, h3⟩
    have h4 := (last_key hC g).mpr ⟨b, rfl, h3⟩
    obtain ⟨⟨x, hx, _⟩, _⟩ := h3
    exact ⟨n, x, hx, rfl, h4⟩

theorem choice_ids (alts : List (Option (Nat × Nat) × String)) (k v : Atom) :
    lastOf 0 k (choiceSetup alts) = some v ↔ ∃ (n : Nat) (id : Option (Nat × Nat)), k = .ident id ∧ v = .num n ∧ LastAt alts (fun a => a.1 = id) n := by
  have h1 : lastOf 0 k (choiceSetup alts) = lastOf 0 k ((alts.zipIdx.flatMap fun a => [Instr.store 0 (.ident a.1.1) (.num a.2), .store 1 (.text a.1.2) (.num a.2)]) ++ [.mark]) := rfl
  rw [h1, lastOf_append]
  simp only [lastOf, Option.none_or]
  refine pos_rows ident_inj (g := fun a => a.1) ?_ alts k v
  intro x n k
  simp [lastOf]

theorem choice_names (alts : List (Option (Nat × Nat) × String)) (k v : Atom) :
    lastOf 1 k (choiceSetup alts) = some v ↔ ∃ (n : Nat) (name : String), k = .text name ∧ v = .num n ∧ LastAt alts (fun a => a.2 = name) n := by
  have h1 : lastOf 1 k (choiceSetup alts) = lastOf 1 k ((alts.zipIdx.flatMap fun a => [Instr.store 0 (.ident a.1.1) (.num a.2), .store 1 (.text a.1.2) (.num a.2)]) ++ [.mark]) := rfl
  rw [h1, lastOf_append]
  simp only [lastOf, Option.none_or]
  refine pos_rows text_inj (g := fun a => a.2) ?_ alts k v
  intro x n k
  simp [lastOf]

theorem map_names (items : List (Atom × String)) (k v : Atom) :
    lastOf 0 k (mapSetup items) = some v ↔ ∃ (n : Nat) (name : String), k = .text name ∧ items[n]? = some (v, name) ∧ LastAt items (fun e => e.2 = name) n := by
  have h0 : lastOf 0 k (mapSetup items) = lastOf 0 k ((items.map fun e => Instr.store 0 (.text e.2) e.1) ++ [.mark]) := rfl
  rw [h0, lastOf_append]
  simp only [lastOf, Option.none_or]
  rw [map_zipIdx _ _ 0, last_rows (key := fun e => .text e.2) (val := fun e _ => e.1) (fun x n k => by simp [lastOf]) k items 0 v]
  constructor
  · rintro ⟨n, x, h1, h2, h3⟩
    obtain ⟨b, rfl, h4⟩ := (last_key text_inj (fun e : Atom × String => e.2)).mp h3
    obtain ⟨⟨y, hy, hb⟩, _⟩ := id h4
    rw [h1] at hy
    cases hy
    refine ⟨n, b, rfl, ?_, h4⟩
    rw [h1, h2]
    rw [← hb]
  · rintro ⟨n, name, rfl, h1, h3⟩
    exact ⟨n, _, h1, rfl, (last_key text_inj (fun e : Atom × String => e.2)).mpr ⟨name, rfl, h3⟩⟩

theorem tail_last (a : Nat) (k : Atom) (fields : List FieldRow) (pair : Option (String × String)) : lastOf a k (seqTail fields pair) = none := by
  have h := last_appends a k (fields.map fun f => .spec f.spec)
  rw [List.map_map] at h
  cases pair with
  | none => exact h
  | some p => exact h

/-- The entries made by the loop over the fields of a SEQUENCE. -/
def seqRows (fields : List FieldRow) : List Instr := fields.zipIdx.flatMap fun f => [.store 0 (.text f.1.name) (.num f.2), .append 1 (.ident f.1.ident)]

/-- The entries made by the loop over the fields of a SET. -/
def setRows (fields : List FieldRow) : List Instr := fields.zipIdx.flatMap fun f => [.store 0 (.text f.1.name) (.num f.2), .store 1 (.ident f.1.ident) (.num f.2)]

theorem seqRows_names (fields : List FieldRow) (k v : Atom) :
    lastOf 0 k (seqRows fields) = some v ↔ ∃ (n : Nat) (name : String), k = .text name ∧ v = .num n ∧ LastAt fields (fun f => f.name = name) n :=
  pos_rows text_inj (g := fun f : FieldRow => f.name) (fun x n k => by simp [lastOf]) fields k v

theorem setRows_names (fields : List FieldRow) (k v : Atom) :
    lastOf 0 k (setRows fields) = some v ↔ ∃ (n : Nat) (name : String), k = .text name ∧ v = .num n ∧ LastAt fields (fun f => f.name = name) n :=
  pos_rows text_inj (g := fun f : FieldRow => f.name) (fun x n k => by simp [lastOf]) fields k v

theorem setRows_ids (fields : List FieldRow) (k v : Atom) :
    lastOf 1 k (setRows fields) = some v ↔ ∃ (n : Nat) (id : Option (Nat × Nat)), k = .ident id ∧ v = .num n ∧ LastAt fields (fun f => f.ident = id) n :=
  pos_rows ident_inj (g := fun f : FieldRow => f.ident) (fun x n k => by simp [lastOf]) fields k v

theorem seq_last (a : Nat) (k : Atom) (fields : List FieldRow) (pair : Option (String × String)) : lastOf a k (seqSetup fields pair) = lastOf a k (seqRows fields) := by
  rw [seqSetup_eq]
  show lastOf a k (seqRows fields ++ seqTail fields pair) = _
  rw [lastOf_append, tail_last]
  rfl

theorem set_last (a : Nat) (k : Atom) (fields : List FieldRow) (pair : Option (String × String)) : lastOf a k (setSetup fields pair) = lastOf a k (setRows fields) := by
  rw [setSetup_eq]
  show lastOf a k (setRows fields ++ seqTail fields pair) = _
  rw [lastOf_append, tail_last]
  rfl

theorem seqRows_appends (fields : List FieldRow) : appends 1 (seqRows fields) = fields.map fun f => .ident f.ident := by
  have : ∀ (fs : List FieldRow) s, appends 1 ((fs.zipIdx s).flatMap fun f => [.store 0 (.text f.1.name) (.num f.2), .append 1 (.ident f.1.ident)]) = fs.map fun f => .ident f.ident := by
    intro fs
    induction fs with
    | nil => exact fun _ => rfl
    | cons f fs ih =>
      intro s
      have := ih (s + 1)
      simpa [List.zipIdx_cons, appends] using this
  exact this fields 0

theorem last_exists {α : Type} {xs : List α} {fits : α → Prop} : ∀ {x}, x ∈ xs → fits x → ∃ n, LastAt xs fits n := by
  induction xs with
  | nil => intro x h; cases h
  | cons y ys ih =>
    intro x h hx
    by_cases hlat : ∃ z ∈ ys, fits z
    · obtain ⟨z, h1, h2⟩ := hlat
      obtain ⟨n, ⟨z, h3, h4⟩, h5⟩ := ih h1 h2
      refine ⟨n + 1, ⟨z, h3, h4⟩, fun m w hm hw => ?_⟩
      cases m with
      | zero => omega
      | succ m => exact h5 m w (by omega) hw
    · rcases List.mem_cons.mp h with rfl | h
      · refine ⟨0, ⟨x, rfl, hx⟩, fun m w hm hw hwk => ?_⟩
        cases m with
        | zero => omega
        | succ m => exact hlat ⟨w, List.mem_of_getElem? hw, hwk⟩
      · exact absurd ⟨x, h, hx⟩ hlat

theorem seq_alone (fields : List FieldRow) (pair : Option (String × String)) (hp : ∀ p, pair = some p → p.1 ∈ fields.map (·.name) ∧ p.2 ∈ fields.map (·.name))
    (ps : List (List Instr)) (l : Nat × Atom) :
    ∃ m w g, w.marked = true ∧ solo m (start ps, { rest := thenLook (seqSetup fields pair) [l] }) = (w, { rest := [.get l.1 l.2], got := g }) ∧
      (∃ es, w.table 0 = some (.dict es) ∧ ∀ k, es.lookup k = lastOf 0 k (seqSetup fields pair)) ∧ w.table 1 = some (.list (fields.map fun f => .ident f.ident)) ∧
      w.table 2 = some (.list (fields.map fun f => .spec f.spec)) := by
  have hrows : ∀ i ∈ seqRows fields, (∃ b k v, i = .store b k v ∧ (rowAttrs b).isSome ∧ b ≠ 2 ∧ b ≠ 1) ∨ ∃ b v, i = .append b v ∧ (rowAttrs b).isSome ∧ b ≠ 0 ∧ b ≠ 2 := by
    intro i hi
    simp only [seqRows, List.mem_flatMap, List.mem_cons, List.not_mem_nil, or_false] at hi
    obtain ⟨a, _, rfl | rfl⟩ := hi
    · exact .inl ⟨_, _, _, rfl, rfl, by decide, by decide⟩
    · exact .inr ⟨_, _, rfl, rfl, by decide, by decide⟩
  obtain ⟨m, w, g, h1, h2, h3, h4, h5⟩ := rows_alone (seqSetup fields pair) (seqRows fields) (.list []) fields pair ps l (by
      rw [thenLook, seqSetup_eq]
      simp only [List.append_assoc, List.cons_append, List.nil_append, solo, exec, start]
      rfl) (fun i hi => (hrows i hi).imp (fun ⟨b, k, v, h1, h2, h3, _⟩ => ⟨b, k, v, h1, h2, h3⟩) id)
    (fun p h => by
      obtain ⟨m1, m2⟩ := hp p h
      obtain ⟨f1, hf1, e1⟩ := List.mem_map.mp m1
      obtain ⟨f2, hf2, e2⟩ := List.mem_map.mp m2
      obtain ⟨n1, q1⟩ := last_exists (fits := fun f : FieldRow => f.name = p.1) hf1 e1
      obtain ⟨n2, q2⟩ := last_exists (fits := fun f : FieldRow => f.name = p.2) hf2 e2
      rw [(seqRows_names fields (.text p.1) (.num n1)).mpr ⟨n1, _, rfl, rfl, q1⟩, (seqRows_names fields (.text p.2) (.num n2)).mpr ⟨n2, _, rfl, rfl, q2⟩]
      exact ⟨rfl, rfl⟩)
  refine ⟨m, w, g, h1, h2, ?_, ?_, h4⟩
  · obtain ⟨es, k1, k2⟩ := h3
    exact ⟨es, k1, fun k => (k2 k).trans (seq_last 0 k fields pair).symm⟩
  · rw [h5, effect_list (attrs := rowAttrs) (a := 1) (x := 1) rfl (rowAttrs_inj 1 1 rfl) (seqRows fields) (fun i hi => (hrows i hi).imp
      (fun ⟨b, k, v, h1, h2, _, h3⟩ => ⟨b, k, v, h1, h2, h3⟩) (fun ⟨b, v, h1, h2, _⟩ => ⟨b, v, h1, h2⟩)) (hp := [.dict [], .list [], .list []]) (xs := []) rfl, seqRows_appends]
    rfl

theorem set_alone (fields : List FieldRow) (pair : Option (String × String)) (hp : ∀ p, pair = some p → p.1 ∈ fields.map (·.name) ∧ p.2 ∈ fields.map (·.name))
    (ps : List (List Instr)) (l : Nat × Atom) :
    ∃ m w g, w.marked = true ∧ solo m (start ps, { rest := thenLook (setSetup fields pair) [l] }) = (w, { rest := [.get l.1 l.2], got := g }) ∧
      (∀ a, a = 0 ∨ a = 1 → ∃ es, w.table a = some (.dict es) ∧ ∀ k, es.lookup k = lastOf a k (setSetup fields pair)) ∧
      w.table 2 = some (.list (fields.map fun f => .spec f.spec)) := by
  have hrows : ∀ i ∈ setRows fields, ∃ b k v, i = .store b k v ∧ (rowAttrs b).isSome ∧ b ≠ 2 := by
    intro i hi
    simp only [setRows, List.mem_flatMap, List.mem_cons, List.not_mem_nil, or_false] at hi
    obtain ⟨a, _, rfl | rfl⟩ := hi
    · exact ⟨_, _, _, rfl, rfl, by decide⟩
    · exact ⟨_, _, _, rfl, rfl, by decide⟩
  obtain ⟨m, w, g, h1, h2, h3, h4, h5⟩ := rows_alone (setSetup fields pair) (setRows fields) (.dict []) fields pair ps l (by
      rw [thenLook, setSetup_eq]
      simp only [List.append_assoc, List.cons_append, List.nil_append, solo, exec, start]
      rfl) (fun i hi => .inl (hrows i hi))
    (fun p h => by
      obtain ⟨m1, m2⟩ := hp p h
      obtain ⟨f1, hf1, e1⟩ := List.mem_map.mp m1
      obtain ⟨f2, hf2, e2⟩ := List.mem_map.mp m2
      obtain ⟨n1, q1⟩ := last_exists (fits := fun f : FieldRow => f.name = p.1) hf1 e1
      obtain ⟨n2, q2⟩ := last_exists (fits := fun f : FieldRow => f.name = p.2) hf2 e2
      rw [(setRows_names fields (.text p.1) (.num n1)).mpr ⟨n1, _, rfl, rfl, q1⟩, (setRows_names fields (.text p.2) (.num n2)).mpr ⟨n2, _, rfl, rfl, q2⟩]
      exact ⟨rfl, rfl⟩)
  refine ⟨m, w, g, h1, h2, ?_, h4⟩
  rintro a (rfl | rfl)
  · obtain ⟨es, k1, k2⟩ := h3
    exact ⟨es, k1, fun k => (k2 k).trans (set_last 0 k fields pair).symm⟩
  · obtain ⟨es, k1, k2⟩ := effect_dict (attrs := rowAttrs) (a := 1) (x := 1) rfl (rowAttrs_inj 1 1 rfl) (setRows fields) (fun i hi => by
      obtain ⟨b, k, v, h1, h2, _⟩ := hrows i hi
      exact .inl ⟨b, k, v, h1, h2⟩) (hp := [.dict [], .dict [], .list []]) (es := []) rfl
    exact ⟨es, h5.trans k1, fun k => by rw [k2, set_last]; simp⟩

theorem framed_choice (alts : List (Option (Nat × Nat) × String)) : Framed (choiceSetup alts) :=
  ⟨[.newDict 0, .newDict 1] ++ alts.zipIdx.flatMap fun a => [.store 0 (.ident a.1.1) (.num a.2), .store 1 (.text a.1.2) (.num a.2)], by simp [choiceSetup], by simp⟩

theorem framed_map (items : List (Atom × String)) : Framed (mapSetup items) :=
  ⟨[.unlessSet 0, .newDict 0] ++ items.map fun e => .store 0 (.text e.2) e.1, by simp [mapSetup], by simp⟩

theorem framed_seq (fields : List FieldRow) (pair : Option (String × String)) : Framed (seqSetup fields pair) := by
  refine ⟨[.newDict 0, .newList 1, .newList 2] ++ (seqRows fields ++ (pairGets pair ++ fields.map fun f => .append 2 (.spec f.spec))), ?_, ?_⟩
  · rw [seqSetup_eq]
    simp [seqTail, seqRows]
  · cases pair <;> simp [seqRows, pairGets]

theorem framed_set (fields : List FieldRow) (pair : Option (String × String)) : Framed (setSetup fields pair) := by
  refine ⟨[.newDict 0, .newDict 1, .newList 2] ++ (setRows fields ++ (pairGets pair ++ fields.map fun f => .append 2 (.spec f.spec))), ?_, ?_⟩
  · rw [setSetup_eq]
    simp [seqTail, setRows]
  · cases pair <;> simp [setRows, pairGets]

/-- The table of an attribute after everything. -/
theorem table_same {v w : World} (h1 : v.attrs = w.attrs) (h2 : v.heap = w.heap) (a : Nat) : v.table a = w.table a := by
  simp only [World.table, h1, h2]

theorem find_dict {w : World} {a : Nat} {S : List Instr} (h : ∃ es, w.table a = some (.dict es) ∧ ∀ k, es.lookup k = lastOf a k S) (k : Atom) :
    w.find a k = lastOf a k S := by
  obtain ⟨es, h1, h2⟩ := h
  simp [World.find, h1, Table.find, h2]

end Asn1.Setup
