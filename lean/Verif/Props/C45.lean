import Verif.Lemmas.SetOf
import Verif.Props.C15
import Mathlib.Data.List.Forall2

/-!
# C45 — concatenated values split at the right boundaries

`Elements data vs` (Spec/Elements.lean): the bytes are the elements `vs` one after the other. The children of a `Concat` are
a list of values, `concatLoad`/`concatDump` are `Concat.load` and `Concat.dump`.
-/

namespace Asn1.Props
open Asn1 Spec

/-- The `k`-th child is built, with the `k`-th spec, from the `k`-th element. -/
def ChildrenOf (r : Ops) (specs : List ClassId) (is : List Info) (vs : List Val) : Prop :=
  ∃ ps : List (ClassId × Info), specs = ps.map Prod.fst ∧ is = ps.map Prod.snd ∧
    List.Forall₂ (fun p v => r.build p.2 (some p.1) {} none = .ok v) ps vs

theorem concatLoop_elements (r : Ops) (data rest : Bytes) : ∀ (specs more : List ClassId) (is : List Info) (p : Nat), p ≤ data.length →
    data.drop p = (is.map (fun i => i.tlv.bytes)).flatten ++ rest → (∀ i ∈ is, Ber 11 i.tlv) → specs.length = is.length →
    concatLoop r data (specs ++ more) p =
      ((specs.zip is).mapM (fun q => r.build q.2 (some q.1) {} none)).bind (fun vs =>
        (concatLoop r data more (p + ((is.map (fun i => i.tlv.bytes)).flatten).length)).map (fun q => (vs ++ q.1, q.2)))
  | [], more, [], p, _, _, _, _ => by
    simp only [List.nil_append, List.zip_nil_left, List.mapM_nil, List.map_nil, List.flatten_nil, List.length_nil, Nat.add_zero]
    cases concatLoop r data more p <;> rfl
  | [], _, _ :: _, _, _, _, _, h => by cases h
  | _ :: _, _, [], _, _, _, _, h => by cases h
  | c :: specs, more, i :: is, p, hp, hd, hb, hl => by
    simp only [List.map_cons, List.flatten_cons, List.append_assoc] at hd
    have hbi := hb i (by simp)
    obtain ⟨h1, h2⟩ := parseFrom_element hp hbi hd
    have h3 := Ber_two_le hbi
    have h4 : (data.drop p).length = data.length - p := List.length_drop
    rw [hd, List.length_append] at h4
    have ih := concatLoop_elements r data rest specs more is (p + i.tlv.bytes.length) (by omega) h2 (fun i h => hb i (by simp [h]))
      (by simpa using hl)
    rw [List.cons_append, concatLoop, if_pos (by omega), h1]
    simp only [bind, Except.bind, List.zip_cons_cons, List.mapM_cons]
    cases r.build i (some c) {} none with
    | error e => rfl
    | ok v =>
      simp only
      rw [ih]
      cases List.mapM (fun q : ClassId × Info => r.build q.2 (some q.1) {} none) (specs.zip is) with
      | error e => rfl
      | ok vs =>
        simp only [Except.bind, pure, Except.pure, List.map_cons, List.flatten_cons, List.length_append, Nat.add_assoc]
        cases concatLoop r data more (p + (i.tlv.bytes.length + ((is.map (fun i => i.tlv.bytes)).flatten).length)) <;> rfl

theorem concatLoop_end (r : Ops) (data : Bytes) : ∀ (specs : List ClassId) (p : Nat), data.length ≤ p →
    concatLoop r data specs p = (specs.mapM (fun c => r.construct c {} (.scalar .none))).map (fun vs => (vs, p))
  | [], _, _ => rfl
  | c :: specs, p, hp => by
    rw [concatLoop, if_neg (by omega), List.mapM_cons]
    simp only [bind, Except.bind]
    cases r.construct c {} (.scalar .none) with
    | error e => rfl
    | ok v =>
      simp only
      rw [concatLoop_end r data specs p hp]
      cases List.mapM (fun c => r.construct c {} (.scalar .none)) specs <;> rfl

theorem mapM_forall₂ {α β : Type} {f : α → Py β} : ∀ {as : List α} {bs : List β}, as.mapM f = .ok bs ↔ List.Forall₂ (fun a b => f a = .ok b) as bs
  | [], bs => by
    rw [List.mapM_nil]
    constructor
    · intro h; injection h with h; subst h; exact .nil
    · intro h; cases h; rfl
  | a :: as, bs => by
    constructor
    · intro h
      obtain ⟨b, bs, h1, h2, rfl⟩ := mapM_cons_inv h
      exact .cons h1 (mapM_forall₂.mp h2)
    · intro h
      cases h with
      | cons h1 h2 => exact mapM_ok_cons h1 (mapM_forall₂.mpr h2)

theorem childrenOf_zip {r : Ops} {specs : List ClassId} {is : List Info} {vs : List Val} (hl : specs.length = is.length) :
    (specs.zip is).mapM (fun q => r.build q.2 (some q.1) {} none) = .ok vs ↔ ChildrenOf r specs is vs := by
  rw [mapM_forall₂]
  constructor
  · intro h
    exact ⟨specs.zip is, (List.map_fst_zip (by omega)).symm, (List.map_snd_zip (by omega)).symm, h⟩
  · rintro ⟨ps, rfl, rfl, h⟩
    have : (ps.map Prod.fst).zip (ps.map Prod.snd) = ps := by
      clear h hl
      induction ps with
      | nil => rfl
      | cons p ps ih => simp only [List.map_cons, List.zip_cons_cons, ih]
    rw [this]; exact h

theorem elements_infos {data : Bytes} {is : List Info} (h : Elements data (is.map Info.tlv)) :
    data = (is.map (fun i => i.tlv.bytes)).flatten ∧ ∀ i ∈ is, Ber 11 i.tlv := by
  obtain ⟨h1, h2⟩ := h
  refine ⟨?_, by simpa using h2⟩
  rw [h1, List.map_map]; rfl

/-- The concatenation of as many elements as there are specs is loaded into exactly the children built from them. -/
theorem C45_split (r : Ops) (specs : List ClassId) (data : Bytes) (is : List Info) (he : Elements data (is.map Info.tlv))
    (hl : specs.length = is.length) (strict : Bool) (vs : List Val) :
    concatLoad r specs data strict = .ok vs ↔ ChildrenOf r specs is vs := by
  obtain ⟨hd, hb⟩ := elements_infos he
  have h1 := concatLoop_elements r data [] specs [] is 0 (by omega) (by simpa using hd) hb hl
  rw [List.append_nil] at h1
  rw [← childrenOf_zip hl]
  simp only [concatLoad, h1, bind, Except.bind]
  cases List.mapM (fun q : ClassId × Info => r.build q.2 (some q.1) {} none) (specs.zip is) with
  | error e => simp
  | ok us =>
    have : (0 + ((is.map (fun i => i.tlv.bytes)).flatten).length != data.length) = false := by rw [← hd]; simp
    simp only [concatLoop, Except.map, List.append_nil, this, Bool.and_false, Bool.false_eq_true, if_false]

/-- Bytes behind the last element are ignored unless loading is strict, when they are a `ValueError`. -/
theorem C45_surplus (r : Ops) (specs : List ClassId) (data rest : Bytes) (is : List Info) (he : Elements data (is.map Info.tlv))
    (hl : specs.length = is.length) (hr : rest ≠ []) (vs : List Val) :
    (concatLoad r specs (data ++ rest) = .ok vs ↔ ChildrenOf r specs is vs) ∧
    (ChildrenOf r specs is vs → concatLoad r specs (data ++ rest) true = .error .valueError) := by
  obtain ⟨hd, hb⟩ := elements_infos he
  have h1 := concatLoop_elements r (data ++ rest) rest specs [] is 0 (by omega) (by rw [List.drop_zero]; conv_lhs => rw [hd]) hb hl
  rw [List.append_nil] at h1
  rw [← childrenOf_zip hl]
  simp only [concatLoad, h1, bind, Except.bind]
  cases List.mapM (fun q : ClassId × Info => r.build q.2 (some q.1) {} none) (specs.zip is) with
  | error e => simp
  | ok us =>
    have hlen : 0 < rest.length := List.length_pos_iff.mpr hr
    have : (0 + ((is.map (fun i => i.tlv.bytes)).flatten).length != (data ++ rest).length) = true := by
      rw [← hd, List.length_append]; simp; exact hr
    simp only [concatLoop, Except.map, List.append_nil, this, Bool.and_true, if_true, Bool.false_eq_true, if_false, implies_true, and_true]

/-- When there are fewer elements than specs, the remaining children are new instances without a value. -/
theorem C45_missing (r : Ops) (specs more : List ClassId) (data : Bytes) (is : List Info) (he : Elements data (is.map Info.tlv))
    (hl : specs.length = is.length) (strict : Bool) (us : List Val) :
    concatLoad r (specs ++ more) data strict = .ok us ↔
      ∃ vs ws, us = vs ++ ws ∧ ChildrenOf r specs is vs ∧ List.Forall₂ (fun c w => r.construct c {} (.scalar .none) = .ok w) more ws := by
  obtain ⟨hd, hb⟩ := elements_infos he
  have h1 := concatLoop_elements r data [] specs more is 0 (by omega) (by simpa using hd) hb hl
  have h2 := concatLoop_end r data more (0 + ((is.map (fun i => i.tlv.bytes)).flatten).length) (by rw [← hd]; omega)
  rw [h2] at h1
  have hne : (0 + ((is.map (fun i => i.tlv.bytes)).flatten).length != data.length) = false := by rw [← hd]; simp
  simp only [concatLoad, h1, bind, Except.bind]
  simp only [← childrenOf_zip hl, ← mapM_forall₂]
  cases hm : List.mapM (fun q : ClassId × Info => r.build q.2 (some q.1) {} none) (specs.zip is) with
  | error e => simp
  | ok vs =>
    cases hm2 : List.mapM (fun c => r.construct c {} (.scalar .none)) more with
    | error e =>
      simp only [Except.map]
      constructor
      · intro h; cases h
      · rintro ⟨_, _, _, _, h⟩; cases h
    | ok ws =>
      simp only [Except.map, hne, Bool.and_false, Bool.false_eq_true, if_false]
      constructor
      · intro h; injection h with h; exact ⟨vs, ws, h.symm, rfl, rfl⟩
      · rintro ⟨_, _, rfl, h1, h2⟩
        injection h1 with h1
        injection h2 with h2
        rw [h1, h2]

/-- Loading fails only with the error of a child, or with a `ValueError` (bytes that are no element, surplus bytes). -/
theorem C45_error (r : Ops) (specs : List ClassId) (data : Bytes) (strict : Bool) (e : PyErr)
    (h : concatLoad r specs data strict = .error e) :
    e = .valueError ∨ (∃ c i, c ∈ specs ∧ r.build i (some c) {} none = .error e) ∨
      ∃ c, c ∈ specs ∧ r.construct c {} (.scalar .none) = .error e := by
  have loop : ∀ (specs : List ClassId) (p : Nat), concatLoop r data specs p = .error e →
      e = .valueError ∨ (∃ c i, c ∈ specs ∧ r.build i (some c) {} none = .error e) ∨
      ∃ c, c ∈ specs ∧ r.construct c {} (.scalar .none) = .error e := by
    intro specs
    induction specs with
    | nil => intro p h; cases h
    | cons c specs ih =>
      intro p h
      have lift : (e = .valueError ∨ (∃ c i, c ∈ specs ∧ r.build i (some c) {} none = .error e) ∨
          ∃ c, c ∈ specs ∧ r.construct c {} (.scalar .none) = .error e) →
          e = .valueError ∨ (∃ d i, d ∈ c :: specs ∧ r.build i (some d) {} none = .error e) ∨
          ∃ d, d ∈ c :: specs ∧ r.construct d {} (.scalar .none) = .error e := by
        rintro (h | ⟨d, i, h, h'⟩ | ⟨d, h, h'⟩)
        · exact .inl h
        · exact .inr (.inl ⟨d, i, by simp [h], h'⟩)
        · exact .inr (.inr ⟨d, by simp [h], h'⟩)
      rw [concatLoop] at h
      split at h
      · next hp =>
        simp only [bind, Except.bind] at h
        split at h
        · next e' hq => injection h with h; subst h; exact .inl (parseFrom_error data p (by omega) e' hq)
        · next q hq =>
          split at h
          · next e' hb => injection h with h; subst h; exact .inr (.inl ⟨c, q.1, by simp, hb⟩)
          · split at h
            · next e' hc => injection h with h; subst h; exact lift (ih _ hc)
            · cases h
      · simp only [bind, Except.bind] at h
        split at h
        · next e' hb => injection h with h; subst h; exact .inr (.inr ⟨c, by simp, hb⟩)
        · split at h
          · next e' hc => injection h with h; subst h; exact lift (ih _ hc)
          · cases h
  unfold concatLoad at h
  simp only [bind, Except.bind] at h
  split at h
  · next e' hc => injection h with h; subst h; exact loop specs 0 hc
  · split at h
    · injection h with h; exact .inl h.symm
    · cases h

/-- Loading the concatenation and dumping gives the same bytes. Missing from the property: elements that `dump()` encodes
again (those that are not `Tidy`, as for `C15_load_dump_partial`), and specs that have no tag of their own. -/
theorem C45_dump_partial {E : Env} (hE : Regular E) (n m : Nat) (specs : List ClassId) (data : Bytes) (is : List Info)
    (he : Elements data (is.map Info.tlv)) (hl : specs.length = is.length) (strict : Bool) (vs : List Val)
    (ht : ∀ c ∈ specs, HasTag (E.cls c)) (htidy : List.Forall₂ (fun c i => Tidy E (some c) {} i.tlv) specs is)
    (h : concatLoad (ops E n) specs data strict = .ok vs) :
    ∃ vs', concatDump (ops E (m + 1)) false vs = .ok (data, vs') := by
  rw [C45_split (ops E n) specs data is he hl] at h
  obtain ⟨hd, hb⟩ := elements_infos he
  rw [hd]
  clear he hd
  obtain ⟨ps, rfl, rfl, h⟩ := h
  clear hl
  induction h with
  | nil => exact ⟨[], rfl⟩
  | @cons p v ps vs h1 h2 ih =>
    simp only [List.map_cons] at htidy hb ht ⊢
    cases htidy with
    | cons h3 h4 =>
      obtain ⟨vs', h5⟩ := ih (fun c hc => ht c (List.mem_cons_of_mem _ hc)) (fun i hi => hb i (List.mem_cons_of_mem _ hi)) h4
      have hk := ((builder hE (SpecOk E) n).of rfl h1).2.2 (hb p.2 (by simp)) h3
      have hso := solid_build (E := E) (n := n) (i := p.2) (c := p.1) (p := {}) rfl (ht p.1 (by simp)) h1
      obtain ⟨v', h6⟩ := solid_returns hk hso m
      refine ⟨v' :: vs', ?_⟩
      simp only [concatDump, h6, h5, bind, Except.bind, List.flatten_cons]

/-! ### What is missing -/

/-- Two INTEGERs. -/
def twoInts : Env where
  cls := fun _ => .leaf (.integer none { cls := 0, method := 0, tag := 2 }) []
  universal := fun _ => none

/-- A child for which there were no bytes is not absent when dumping: `dump()` of what was loaded raises `TypeError`. -/
theorem C45_missing_dump_fails : ∃ vs, concatLoad (ops twoInts 1) [0, 0] [2, 1, 5] true = .ok vs ∧
    concatDump (ops twoInts 1) false vs = .error .typeError := by
  refine ⟨[.leaf 0 (.integer none { cls := 0, method := 0, tag := 2, header := some [2, 1], contents := some [5] }),
    .leaf 0 (.integer none { cls := 0, method := 0, tag := 2 })], ?_, ?_⟩
  · rfl
  · rfl

/-- The hypotheses of the theorems hold of two INTEGERs one after the other. -/
example : ∃ is : List Info, Elements [2, 1, 5, 2, 2, 1, 0] (is.map Info.tlv) ∧ [0, 0].length = is.length ∧
    (∃ vs, concatLoad (ops twoInts 1) [0, 0] [2, 1, 5, 2, 2, 1, 0] true = .ok vs) ∧
    (∀ c ∈ [0, 0], HasTag (twoInts.cls c)) ∧ List.Forall₂ (fun c i => Tidy twoInts (some c) {} i.tlv) [0, 0] is := by
  refine ⟨[⟨0, 0, 2, [2, 1], [5], []⟩, ⟨0, 0, 2, [2, 2], [1, 0], []⟩], ⟨rfl, ?_⟩, rfl, ⟨_, rfl⟩, fun _ _ => trivial, ?_⟩
  · intro v hv
    simp only [List.map_cons, List.map_nil, List.mem_cons, List.not_mem_nil, or_false] at hv
    rcases hv with rfl | rfl
    · exact Ber.definite (id := [2]) (len := [1]) ⟨by decide, by decide, .inl ⟨by decide, rfl⟩⟩ (.inl ⟨by decide, rfl⟩)
    · exact Ber.definite (id := [2]) (len := [2]) ⟨by decide, by decide, .inl ⟨by decide, rfl⟩⟩ (.inl ⟨by decide, rfl⟩)
  · refine .cons (.base trivial ?_) (.cons (.base trivial ?_) .nil)
    · show PlainLength _
      unfold PlainLength; decide
    · show PlainLength _
      unfold PlainLength; decide

end Asn1.Props
