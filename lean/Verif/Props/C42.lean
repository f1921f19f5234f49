import Verif.Model.Algos
import Mathlib.Tactic.Tauto

/-!
# C42 — parameters that must be NULL

The state of an algorithm identifier is the OID of `algorithm` and the field `parameters`; a history is any
sequence of assignments to the two fields, deletions and reads, in which exceptions are caught. `P` is the type of
parameter values and `null` the value `Null()`.
-/

namespace Asn1.Props
open Asn1 Asn1.Algos AlgId

variable {P : Type}

/-- What reading the parameters gives: nothing, or a value, or an exception. -/
def reading : Slot P → Option (Py P)
  | .void => none
  | .val v => some (.ok v)
  | .unread r => some r

/-- Assigning an algorithm that requires NULL: absent parameters become NULL, others are kept. -/
theorem C42_required (null : P) (o : AlgId P) (oid : Str) (h : oid ∈ nullAlgos) :
    (o.setAlgorithm null (.ok oid)).1.algorithm = some oid ∧
    reading (o.setAlgorithm null (.ok oid)).1.parameters = some ((reading o.parameters).getD (.ok null)) := by
  obtain ⟨a, p⟩ := o
  cases p with
  | void => simp [setAlgorithm, setAlgorithmByIndex, h, readParameters, setParameters, reading]
  | val v => simp [setAlgorithm, setAlgorithmByIndex, h, readParameters, reading]
  | unread r => cases r <;> simp [setAlgorithm, setAlgorithmByIndex, h, readParameters, reading]

/-- It raises only if the parameters are there and cannot be read. -/
theorem C42_required_error (null : P) (o : AlgId P) (oid : Str) (h : oid ∈ nullAlgos) (e : PyErr) :
    (o.setAlgorithm null (.ok oid)).2 = some e ↔ reading o.parameters = some (.error e) := by
  obtain ⟨a, p⟩ := o
  cases p with
  | void => simp [setAlgorithm, setAlgorithmByIndex, h, readParameters, setParameters, reading]
  | val v => simp [setAlgorithm, setAlgorithmByIndex, h, readParameters, reading]
  | unread r => cases r <;> simp [setAlgorithm, setAlgorithmByIndex, h, readParameters, reading]

/-- Assigning any other algorithm leaves the parameters as they are, and raises nothing. -/
theorem C42_other (null : P) (o : AlgId P) (oid : Str) (h : oid ∉ nullAlgos) :
    o.setAlgorithm null (.ok oid) = (⟨some oid, o.parameters⟩, none) := by
  simp [setAlgorithm, setAlgorithmByIndex, h]

/-- A value that is not accepted as algorithm changes nothing. -/
theorem C42_refused (null : P) (o : AlgId P) (e : PyErr) : o.setAlgorithm null (.error e) = (o, some e) := rfl

example : reading ((new : AlgId Nat).setAlgorithm 5 (.ok "2.16.840.1.101.3.4.2.1".toList)).1.parameters = some (.ok 5) :=
  (C42_required 5 (new : AlgId Nat) "2.16.840.1.101.3.4.2.1".toList (by decide)).2

/-- Does the step assign to or delete `parameters`? -/
def Op.touches : Op P → Prop
  | .parameters _ => True
  | .delete => True
  | _ => False

theorem step_value (null : P) (o : AlgId P) (op : Op P) (hop : ¬ Op.touches op) (r : Py P) (h : reading o.parameters = some r) :
    reading (o.step null op).1.parameters = some r := by
  cases op with
  | parameters v => exact absurd trivial hop
  | delete => exact absurd trivial hop
  | read =>
    obtain ⟨a, p⟩ := o
    cases p with
    | void => exact h
    | val v => exact h
    | unread r' => cases r' <;> exact h
  | algorithm v =>
    cases v with
    | error e => exact h
    | ok oid =>
      by_cases hn : oid ∈ nullAlgos
      · have := (C42_required null o oid hn).2
        rw [h] at this
        exact this
      · simp only [step, C42_other null o oid hn]; exact h

/-- Over any history: parameters that are present are never overwritten by assignments to `algorithm`. -/
theorem C42_kept (null : P) (ops : List (Op P)) (hops : ∀ op ∈ ops, ¬ Op.touches op) (o : AlgId P) (r : Py P)
    (h : reading o.parameters = some r) : reading (o.run null ops).parameters = some r := by
  induction ops generalizing o with
  | nil => exact h
  | cons op ops ih =>
    exact ih (fun op' h' => hops op' (.tail _ h')) _ (step_value null o op (hops op (.head _)) r h)

/-- Over any history in which `parameters` is not assigned or deleted: absent parameters are NULL at the end if an
algorithm that requires it was assigned, and absent otherwise. -/
theorem C42_absent (null : P) (ops : List (Op P)) (hops : ∀ op ∈ ops, ¬ Op.touches op) (o : AlgId P)
    (h : reading o.parameters = none) :
    ((∃ oid ∈ nullAlgos, Op.algorithm (.ok oid) ∈ ops) → reading (o.run null ops).parameters = some (.ok null)) ∧
    ((¬ ∃ oid ∈ nullAlgos, Op.algorithm (.ok oid) ∈ ops) → reading (o.run null ops).parameters = none) := by
  induction ops generalizing o with
  | nil => exact ⟨fun ⟨_, _, h⟩ => absurd h (by simp), fun _ => h⟩
  | cons op ops ih =>
    have hops' : ∀ op' ∈ ops, ¬ Op.touches op' := fun op' h' => hops op' (.tail _ h')
    by_cases hreq : ∃ oid ∈ nullAlgos, op = Op.algorithm (.ok oid)
    · obtain ⟨oid, hn, rfl⟩ := hreq
      have h1 := (C42_required null o oid hn).2
      rw [h] at h1
      exact ⟨fun _ => C42_kept null ops hops' _ _ h1, fun hno => absurd ⟨oid, hn, .head _⟩ hno⟩
    · have hstep : reading (o.step null op).1.parameters = none := by
        cases op with
        | parameters v => exact absurd trivial (hops _ (.head _))
        | delete => exact absurd trivial (hops _ (.head _))
        | read =>
          obtain ⟨a, p⟩ := o
          cases p with
          | void => exact h
          | val v => cases h
          | unread r' => cases h
        | algorithm v =>
          cases v with
          | error e => exact h
          | ok oid =>
            have hn : oid ∉ nullAlgos := fun hn => hreq ⟨oid, hn, rfl⟩
            simp only [step, C42_other null o oid hn]; exact h
      obtain ⟨i1, i2⟩ := ih hops' _ hstep
      refine ⟨fun ⟨oid, hn, hm⟩ => i1 ⟨oid, hn, ?_⟩, fun hno => i2 (fun ⟨oid, hn, hm⟩ => hno ⟨oid, hn, .tail _ hm⟩)⟩
      cases hm with
      | head => exact absurd ⟨oid, hn, rfl⟩ hreq
      | tail _ hm => exact hm

/-- Over any history without deletions and assignments of `None`, beginning with a new object: if the algorithm
requires NULL, then parameters are present. -/
theorem C42_present (null : P) (ops : List (Op P))
    (hops : ∀ op ∈ ops, op ≠ .delete ∧ op ≠ .parameters (.ok none)) (o : AlgId P)
    (h : ∀ oid ∈ nullAlgos, o.algorithm = some oid → reading o.parameters ≠ none) :
    ∀ oid ∈ nullAlgos, (o.run null ops).algorithm = some oid → reading (o.run null ops).parameters ≠ none := by
  induction ops generalizing o with
  | nil => exact h
  | cons op ops ih =>
    refine ih (fun op' h' => hops op' (.tail _ h')) _ ?_
    intro oid hn ha
    obtain ⟨h1, h2⟩ := hops op (.head _)
    cases op with
    | delete => exact absurd rfl h1
    | parameters v =>
      cases hoa : o.algorithm with
      | none => simp [step, setParameters, hoa] at ha
      | some a =>
        cases v with
        | error e =>
          simp only [step, setParameters, hoa] at ha ⊢
          exact h oid hn (hoa.trans (hoa ▸ ha))
        | ok v =>
          cases v with
          | none => exact absurd rfl h2
          | some p => simp [step, setParameters, hoa, reading]
    | read =>
      obtain ⟨a, p⟩ := o
      cases p with
      | void => exact h oid hn ha
      | val v => simp [step, readParameters, reading]
      | unread r' => cases r' <;> simp [step, readParameters, reading]
    | algorithm v =>
      cases v with
      | error e => exact h oid hn ha
      | ok oid' =>
        by_cases hn' : oid' ∈ nullAlgos
        · simp only [step]
          rw [(C42_required null o oid' hn').2]
          simp
        · simp only [step, C42_other null o oid' hn'] at ha ⊢
          cases ha
          exact absurd hn hn'

/-- The constructor: without `parameters`, NULL is filled in where it is required and only there; given
parameters (also an explicit `None`) are kept. -/
theorem C42_create (null : P) (oid : Str) :
    (∃ o, AlgId.create null (.ok oid) none = .ok o ∧ o.algorithm = some oid ∧
      reading o.parameters = if oid ∈ nullAlgos then some (.ok null) else none) ∧
    (∀ v, ∃ o, AlgId.create null (.ok oid) (some (.ok v)) = .ok o ∧ o.algorithm = some oid ∧
      reading o.parameters = v.map Except.ok) := by
  by_cases hn : oid ∈ nullAlgos
  · refine ⟨⟨⟨some oid, .val null⟩, ?_, rfl, by rw [if_pos hn]; rfl⟩, fun v => ?_⟩
    · simp [create, setAlgorithm, setAlgorithmByIndex, hn, readParameters, setParameters, new]
    · cases v with
      | none => exact ⟨⟨some oid, .void⟩, by
          simp [create, setAlgorithm, setAlgorithmByIndex, hn, readParameters, setParameters, new], rfl, rfl⟩
      | some p => exact ⟨⟨some oid, .val p⟩, by
          simp [create, setAlgorithm, setAlgorithmByIndex, hn, readParameters, setParameters, new], rfl, rfl⟩
  · refine ⟨⟨⟨some oid, .void⟩, ?_, rfl, by rw [if_neg hn]; rfl⟩, fun v => ?_⟩
    · simp [create, setAlgorithm, setAlgorithmByIndex, hn, new]
    · cases v with
      | none => exact ⟨⟨some oid, .void⟩, by
          simp [create, setAlgorithm, setAlgorithmByIndex, hn, setParameters, new], rfl, rfl⟩
      | some p => exact ⟨⟨some oid, .val p⟩, by
          simp [create, setAlgorithm, setAlgorithmByIndex, hn, setParameters, new], rfl, rfl⟩

/-- If the algorithm or the parameters are refused, so is the whole. -/
theorem C42_create_refused (null : P) (e : PyErr) (p : Option (Given P)) :
    AlgId.create null (.error e) p = .error e ∧ ∀ oid, AlgId.create null (.ok oid) (some (.error e)) = .error e := by
  refine ⟨rfl, fun oid => ?_⟩
  by_cases hn : oid ∈ nullAlgos <;> simp [create, setAlgorithm, setAlgorithmByIndex, hn, readParameters, setParameters, new]

/-- The ten algorithms are the RSA and SHA-2 identifiers of RFC 4055, and SHA-1. -/
theorem C42_algorithms (oid : Str) : oid ∈ nullAlgos ↔
    oid = "1.2.840.113549.1.1.1".toList ∨ (∃ k ∈ ["11".toList, "12".toList, "13".toList, "14".toList],
      oid = "1.2.840.113549.1.1.".toList ++ k) ∨ oid = "1.3.14.3.2.26".toList ∨
    (∃ k ∈ ["1".toList, "2".toList, "3".toList, "4".toList], oid = "2.16.840.1.101.3.4.2.".toList ++ k) := by
  simp [nullAlgos]
  tauto

/-- The algorithm can also be assigned by its index; then nothing is filled in. -/
theorem C42_index_fails : ∃ oid ∈ nullAlgos,
    ((new : AlgId P).setAlgorithmByIndex (.ok oid)) = (⟨some oid, .void⟩, none) :=
  ⟨"1.2.840.113549.1.1.1".toList, by decide, rfl⟩

/-- Parameters cannot be assigned before the algorithm. -/
theorem C42_order (v : Given P) : (new : AlgId P).setParameters v = (new, some .attributeError) := rfl

/-- A history that meets the hypotheses: SHA-256 after another algorithm, then RSA. -/
example : reading ((new : AlgId Nat).run 5 [.algorithm (.ok "1.2.3".toList), .read,
    .algorithm (.ok "2.16.840.1.101.3.4.2.1".toList), .algorithm (.error .valueError)]).parameters = some (.ok 5) :=
  (C42_absent 5 _ (by simp [Op.touches]) new rfl).1 ⟨"2.16.840.1.101.3.4.2.1".toList, by decide, by simp⟩

end Asn1.Props
