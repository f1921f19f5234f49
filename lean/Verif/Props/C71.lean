import Verif.Model.Concat
import Verif.Props.C45

/-!
# C71 — A Concat is a row of values of fixed length

`full vs`: a Concat all of whose children, `vs`, are given.
-/

namespace Asn1.Props
open Asn1 Spec

/-- All children are there. -/
def full (vs : List Val) : Row := some (vs.map some)

/-- The places of a row for these specs are the numbers from 0 on, as many as there are specs; negative numbers are no places. -/
theorem outside_iff (specs : List ClassId) (key : Int) : rowOutside specs key = false ↔ ∃ k : Nat, key = k ∧ k < specs.length := by
  unfold rowOutside
  simp only [Bool.or_eq_false_iff, decide_eq_false_iff_not]
  constructor
  · intro h
    exact ⟨key.toNat, by omega, by omega⟩
  · rintro ⟨k, rfl, h⟩
    omega

theorem inside {specs : List ClassId} {k : Nat} (h : k < specs.length) : rowOutside specs k = false := (outside_iff specs k).mpr ⟨k, rfl, h⟩

/-- `value[k]` is the child at place `k`. -/
theorem C71_get {specs : List ClassId} {vs : List Val} (hl : vs.length = specs.length) {k : Nat} {v : Val} (hk : vs[k]? = some v) :
    rowGet specs (full vs) k = .ok (some v) := by
  have hlt := (List.getElem?_eq_some_iff.mp hk).1
  simp only [rowGet, inside (specs := specs) (k := k) (by omega), full, Int.toNat_natCast, List.getElem?_map, hk, Option.map_some]
  rfl

/-- Every other number, also a negative one, raises `KeyError`, in reading and in assigning. -/
theorem C71_outside {specs : List ClassId} {key : Int} (hk : ∀ k : Nat, key = k → specs.length ≤ k) (row : Row) (v : Option Val) :
    rowGet specs row key = .error .keyError ∧ rowSet specs row key v = .error .keyError := by
  have h : rowOutside specs key = true := by
    cases h : rowOutside specs key with
    | true => rfl
    | false =>
      obtain ⟨k, h1, h2⟩ := (outside_iff _ _).mp h
      exact absurd (hk k h1) (by omega)
  simp only [rowGet, rowSet, h, if_true, and_self]

/-- What is no ASN.1 value cannot be assigned. -/
theorem C71_not_value {specs : List ClassId} {k : Nat} (hk : k < specs.length) (row : Row) : rowSet specs row k none = .error .valueError := by
  simp only [rowSet, inside hk]
  rfl

/-- After `value[k] = v` the child at `k` is `v`, and the others are what they were. -/
theorem C71_set {specs : List ClassId} {vs : List Val} (hl : vs.length = specs.length) {k : Nat} (hk : k < specs.length) (v : Val) :
    rowSet specs (full vs) k (some v) = .ok (full (vs.set k v)) := by
  simp only [rowSet, inside hk, full, Int.toNat_natCast, List.length_map, hl, hk, if_true, List.map_set]
  rfl

theorem rowSet_len {specs : List ClassId} {cs : List (Option Val)} {key : Int} {v : Option Val} {row : Row} (h : rowSet specs (some cs) key v = .ok row) :
    rowLen row = .ok cs.length := by
  unfold rowSet at h
  split at h
  · cases h
  · cases v with
    | none => cases h
    | some v =>
      simp only at h
      split at h
      · cases h; simp [rowLen]
      · cases h

theorem rowFill_len {specs : List ClassId} : ∀ {vs : List (Option Val)} {k : Nat} {cs : List (Option Val)} {row : Row}, rowFill specs vs k (some cs) = .ok row →
    rowLen row = .ok cs.length
  | [], _, _, _, h => by cases h; rfl
  | v :: vs, k, cs, row, h => by
    unfold rowFill at h
    cases hs : rowSet specs (some cs) k v with
    | error e => rw [hs] at h; cases h
    | ok row' =>
      rw [hs] at h
      have h1 := rowSet_len hs
      cases row' with
      | none => cases h1
      | some cs' =>
        have h1 : cs'.length = cs.length := Except.ok.inj h1
        rw [← h1]
        exact rowFill_len h

/-- `len(value)` is the number of places, however many values were given, and assignments do not change it; for a full row it is the number of children. -/
theorem C71_len {specs : List ClassId} : (∀ {vs : List (Option Val)} {row : Row}, rowInit specs (some vs) = .ok row → rowLen row = .ok specs.length) ∧
    (∀ {row row' : Row} {key : Int} {v : Option Val}, rowLen row = .ok n → rowSet specs row key v = .ok row' → rowLen row' = .ok n) ∧
    ∀ vs : List Val, rowLen (full vs) = .ok vs.length := by
  refine ⟨fun h => ?_, fun {row} {row'} {key} {v} hl h => ?_, fun vs => by simp [rowLen, full]⟩
  · have := rowFill_len h
    simpa using this
  · cases row with
    | none => cases hl
    | some cs =>
      rw [rowSet_len h, ← hl]
      rfl

example (v : Val) : ∃ row, rowInit [0, 0] (some [some v]) = .ok row ∧ rowLen row = .ok 2 := ⟨_, rfl, rfl⟩

/-- One assignment after the other. -/
def assignAll (specs : List ClassId) (row : Row) (as : List (Nat × Val)) : Py Row := as.foldlM (fun row a => rowSet specs row a.1 (some a.2)) row

/-- After any assignments to places of the row there is at each place what was assigned to it last, or the child that was there. -/
theorem C71_history {specs : List ClassId} {vs : List Val} (hl : vs.length = specs.length) {as : List (Nat × Val)} (ha : ∀ a ∈ as, a.1 < specs.length) :
    ∃ ws : List Val, assignAll specs (full vs) as = .ok (full ws) ∧ ws.length = specs.length ∧
      ∀ k (v : Val), vs[k]? = some v → ws[k]? = some (((as.reverse.find? (fun a => a.1 == k)).map Prod.snd).getD v) := by
  induction as generalizing vs with
  | nil => exact ⟨vs, rfl, hl, fun k v h => by simpa using h⟩
  | cons a as ih =>
    have h1 := C71_set hl (ha a (by simp)) a.2
    obtain ⟨ws, h2, h3, h4⟩ := ih (vs := vs.set a.1 a.2) (by simpa using hl) (fun b hb => ha b (by simp [hb]))
    refine ⟨ws, ?_, h3, ?_⟩
    · simp only [assignAll, List.foldlM_cons, bind, Except.bind, h1]
      exact h2
    · intro k v hk
      have hlt := (List.getElem?_eq_some_iff.mp hk).1
      simp only [List.reverse_cons, List.find?_append]
      by_cases e : a.1 = k
      · subst e
        rw [h4 a.1 a.2 (by simp [hlt])]
        cases as.reverse.find? (fun b => b.1 == a.1) <;> simp
      · rw [h4 k v (by simpa [List.getElem?_set, e] using hk)]
        cases as.reverse.find? (fun b => b.1 == k) <;> simp [e]

theorem rowDumps_full (r : Ops) (force : Bool) : ∀ (vs : List Val), rowDumps r force (vs.map some) = (concatDump r force vs).map (fun q => (q.1, q.2.map some))
  | [] => rfl
  | v :: vs => by
    simp only [List.map_cons, rowDumps, concatDump, bind, Except.bind]
    cases r.dump v force with
    | error e => rfl
    | ok q =>
      simp only [rowDumps_full r force vs]
      cases concatDump r force vs <;> rfl

/-- `dump()` is the encodings of the children, one after the other. -/
theorem C71_dump (r : Ops) (force : Bool) {vs : List Val} {bs : List Bytes} (h : List.Forall₂ (fun v b => ∃ v', r.dump v force = .ok (b, v')) vs bs) :
    ∃ vs', rowDump r force (full vs) = .ok (bs.flatten, full vs') := by
  have : ∃ vs', concatDump r force vs = .ok (bs.flatten, vs') := by
    induction h with
    | nil => exact ⟨[], rfl⟩
    | cons h _ ih =>
      obtain ⟨v', h1⟩ := h
      obtain ⟨vs', h2⟩ := ih
      exact ⟨v' :: vs', by simp only [concatDump, h1, h2, bind, Except.bind, List.flatten_cons]⟩
  obtain ⟨vs', h1⟩ := this
  refine ⟨vs', ?_⟩
  simp only [rowDump, full, rowDumps_full, h1, bind, Except.bind, Except.map]

theorem rowFill_full {specs : List ClassId} : ∀ (vs done : List Val), done.length + vs.length = specs.length →
    rowFill specs (vs.map some) done.length (some (done.map some ++ vs.map (fun _ => none))) = .ok (full (done ++ vs))
  | [], done, _ => by simp [rowFill, full]
  | v :: vs, done, hl => by
    have hk : done.length < specs.length := by simp only [List.length_cons] at hl; omega
    have hset : rowSet specs (some (done.map some ++ (v :: vs).map (fun _ => none))) done.length (some v) =
        .ok (some ((done ++ [v]).map some ++ vs.map (fun _ => none))) := by
      simp only [rowSet, inside hk, Int.toNat_natCast, List.length_append, List.length_map, List.length_cons]
      rw [if_neg (by simp), if_pos (by omega)]
      simp
    have ih := rowFill_full (specs := specs) vs (done ++ [v]) (by simp only [List.length_cons] at hl; simp; omega)
    simp only [List.map_cons, rowFill, bind, Except.bind] at hset ⊢
    rw [hset]
    simp only [List.length_append, List.length_cons, List.length_nil, Nat.zero_add, List.append_assoc, List.cons_append, List.nil_append] at ih
    exact ih

/-- A Concat given a value for each place consists of these. -/
theorem C71_built {specs : List ClassId} {vs : List Val} (hl : vs.length = specs.length) : rowInit specs (some (vs.map some)) = .ok (full vs) := by
  have h := rowFill_full (specs := specs) vs [] (by simpa using hl)
  have e : specs.map (fun _ => (none : Option Val)) = vs.map (fun _ => none) := by
    rw [List.map_const', List.map_const', hl]
  simp only [rowInit, e]
  simpa using h

/-- One value too many: `KeyError`. -/
theorem C71_too_many {specs : List ClassId} {vs : List Val} (hl : vs.length = specs.length) (v : Option Val) (more : List (Option Val)) :
    rowInit specs (some (vs.map some ++ v :: more)) = .error .keyError := by
  have app : ∀ (xs ys : List (Option Val)) (k : Nat) (row : Row), rowFill specs (xs ++ ys) k row = (rowFill specs xs k row).bind (rowFill specs ys (k + xs.length)) := by
    intro xs
    induction xs with
    | nil => intro ys k row; rfl
    | cons x xs ih =>
      intro ys k row
      simp only [List.cons_append, rowFill, bind, Except.bind]
      cases rowSet specs row k x with
      | error e => rfl
      | ok row' =>
        simp only [ih, List.length_cons]
        rw [show k + 1 + xs.length = k + (xs.length + 1) by omega]
        rfl
  have h := C71_built hl
  simp only [rowInit] at h ⊢
  rw [app, h]
  show rowFill specs (v :: more) _ _ = _
  have : rowSet specs (full vs) ((0 + (vs.map some).length : Nat) : Int) v = .error .keyError :=
    (C71_outside (fun k hk => by simp at hk; omega) _ _).2
  simp only [rowFill, bind, Except.bind, this]

/-- What is dumped is split at the same places when it is loaded: if the encoding of each child is one element, the children that are loaded are what these
elements are read as. -/
theorem C71_reload (r r' : Ops) (force : Bool) {specs : List ClassId} {vs : List Val} {is : List Info} (hl : specs.length = is.length) (hb : ∀ i ∈ is, Ber 11 i.tlv)
    (h : List.Forall₂ (fun v (i : Info) => ∃ v', r.dump v force = .ok (i.tlv.bytes, v')) vs is) (strict : Bool) (ws : List Val)
    (hw : ChildrenOf r' specs is ws) : ∃ b row, rowDump r force (full vs) = .ok (b, row) ∧ rowLoad r' specs b strict = .ok (full ws) := by
  have h' : List.Forall₂ (fun v b => ∃ v', r.dump v force = .ok (b, v')) vs (is.map (fun i => i.tlv.bytes)) := by
    rw [List.forall₂_map_right_iff]
    exact h
  obtain ⟨vs', h1⟩ := C71_dump r force h'
  refine ⟨_, _, h1, ?_⟩
  have he : Elements (is.map (fun i => i.tlv.bytes)).flatten (is.map Info.tlv) := by
    refine ⟨by rw [List.map_map]; rfl, ?_⟩
    intro v hv
    obtain ⟨i, hi, rfl⟩ := List.mem_map.mp hv
    exact hb i hi
  have := (C45_split r' specs _ is he hl strict ws).mpr hw
  simp only [rowLoad, this, bind, Except.bind]
  rfl

/-! ### Where more could be expected of the code -/

/-- A new Concat without value has no length and cannot be dumped or assigned to. -/
theorem C71_empty_fails (r : Ops) (specs : List ClassId) (force : Bool) {k : Nat} (hk : k < specs.length) (v : Val) :
    ∃ row, rowInit specs none = .ok row ∧ rowLen row = .error .typeError ∧ rowDump r force row = .error .typeError ∧ rowGet specs row k = .error .typeError ∧
      rowSet specs row k (some v) = .error .typeError := by
  refine ⟨none, rfl, rfl, rfl, ?_, ?_⟩
  · simp only [rowGet, inside hk]
    rfl
  · simp only [rowSet, inside hk]
    rfl

/-- With fewer values than places, what is missing makes `dump()` raise `AttributeError`. -/
theorem C71_short_fails : ∃ v row, (ops twoInts 2).construct 0 {} (.scalar (.int 5)) = .ok v ∧ rowInit [0, 0] (some [some v]) = .ok row ∧
    rowDump (ops twoInts 2) false row = .error .attributeError :=
  ⟨_, _, rfl, rfl, rfl⟩

/-- An INTEGER and a BOOLEAN. -/
def intBool : Env where
  cls := fun c => match c with
    | 0 => .leaf (.integer none { cls := 0, method := 0, tag := 2 }) []
    | _ => .leaf (.boolean { cls := 0, method := 0, tag := 1 }) []
  universal := fun _ => none

/-- The class of what is assigned is not looked at: an INTEGER can be put where a BOOLEAN belongs, and what is dumped does not load. -/
theorem C71_class_fails : ∃ v row b row', (ops intBool 2).construct 0 {} (.scalar (.int 5)) = .ok v ∧ rowInit [0, 1] (some [some v, some v]) = .ok row ∧
    rowDump (ops intBool 2) false row = .ok (b, row') ∧ rowLoad (ops intBool 2) [0, 1] b = .error .valueError :=
  ⟨_, _, _, _, rfl, rfl, rfl, rfl⟩

/-- Two INTEGERs, the second of which is replaced. -/
example : ∃ row row' row'', rowLoad (ops twoInts 2) [0, 0] [2, 1, 5, 2, 1, 6] true = .ok row ∧
    (∃ v, (ops twoInts 2).construct 0 {} (.scalar (.int 7)) = .ok v ∧ rowSet [0, 0] row 1 (some v) = .ok row') ∧
    rowDump (ops twoInts 2) false row' = .ok ([2, 1, 5, 2, 1, 7], row'') ∧ rowGet [0, 0] row (-1) = .error .keyError :=
  ⟨_, _, _, rfl, ⟨_, rfl, rfl⟩, rfl, rfl⟩

/-- The hypotheses of `C71_reload` for these. -/
example : ∃ vs is ws, List.length [0, 0] = List.length is ∧ (∀ i ∈ is, Ber 11 (Info.tlv i)) ∧
    List.Forall₂ (fun v (i : Info) => ∃ v', (ops twoInts 2).dump v false = .ok (i.tlv.bytes, v')) vs is ∧ ChildrenOf (ops twoInts 2) [0, 0] is ws := by
  refine ⟨[.leaf 0 (.integer none { cls := 0, method := 0, tag := 2, contents := some [5] }), .leaf 0 (.integer none { cls := 0, method := 0, tag := 2, contents := some [6] })],
    [⟨0, 0, 2, [2, 1], [5], []⟩, ⟨0, 0, 2, [2, 1], [6], []⟩], _, rfl, ?_, .cons ⟨_, rfl⟩ (.cons ⟨_, rfl⟩ .nil),
    [(0, ⟨0, 0, 2, [2, 1], [5], []⟩), (0, ⟨0, 0, 2, [2, 1], [6], []⟩)], rfl, rfl, .cons rfl (.cons rfl .nil)⟩
  have h1 := ((parse_strict_ok_iff [2, 1, 5] ⟨0, 0, 2, [2, 1], [5], []⟩).mp (by decide +kernel)).2
  have h2 := ((parse_strict_ok_iff [2, 1, 6] ⟨0, 0, 2, [2, 1], [6], []⟩).mp (by decide +kernel)).2
  simp only [List.mem_cons, List.not_mem_nil, or_false, forall_eq_or_imp, forall_eq]
  exact ⟨h1, h2⟩

end Asn1.Props
