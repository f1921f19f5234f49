import Verif.Model.Core
import Verif.Spec.Elements
import Verif.Lemmas.ParseIff
import Verif.Lemmas.Tag

/-!
# The loops over the elements of constructed contents
-/

namespace Asn1
open Spec

/-- A loop that parses element after element and folds over them. -/
def elemLoop {σ : Type} (step : σ → Info → Py σ) (data : Bytes) : Nat → Nat → σ → Py σ
  | 0, _, _ => .error .nonTermination
  | fuel + 1, pointer, s =>
    if pointer < data.length then do
      let (i, pointer) ← parseFrom data data.length pointer
      let s ← step s i
      elemLoop step data fuel pointer s
    else .ok s

theorem elementLoop_eq (spec : Option ClassId) (data : Bytes) : ∀ (fuel p : Nat) (cs : List Child),
    elementLoop spec data fuel p cs = elemLoop (fun cs i => .ok (cs ++ [.lazy i spec none])) data fuel p cs
  | 0, _, _ => rfl
  | fuel + 1, p, cs => by
    simp only [elementLoop, elemLoop, bind, Except.bind]
    split
    · cases parseFrom data data.length p with
      | error e => rfl
      | ok r => exact elementLoop_eq spec data fuel _ _
    · rfl

/-- The step of `setLoop`. -/
def setStep (E : Env) (fields : List Field) (slots : List (Option Child)) (i : Info) : Py (List (Option Child)) :=
  match fields.zipIdx.reverse.find? (fun f => fieldIdent E f.1 == some (i.cls, i.tag)) with
  | none => .error .valueError
  | some (f, idx) => .ok (slots.set idx (some (.lazy i (some f.spec) none)))

theorem setLoop_eq (E : Env) (r : Ops) (fields : List Field) (data : Bytes) : ∀ (fuel p : Nat) (slots : List (Option Child)),
    setLoop E r fields data fuel p slots = elemLoop (setStep E fields) data fuel p slots
  | 0, _, _ => rfl
  | fuel + 1, p, slots => by
    simp only [setLoop, elemLoop, bind, Except.bind]
    split
    · cases parseFrom data data.length p with
      | error e => rfl
      | ok q =>
        simp only [setStep]
        cases fields.zipIdx.reverse.find? (fun f => fieldIdent E f.1 == some (q.1.cls, q.1.tag)) with
        | none => rfl
        | some f => exact setLoop_eq E r fields data fuel _ _
    · rfl

theorem seqLoop_eq (E : Env) (r : Ops) (all : List Field) (oid : Option OidPair) (data : Bytes) :
    ∀ (fuel p : Nat) (fields : List Field) (cs : List Child),
    seqLoop E r all oid data fuel p fields cs =
      elemLoop (fun s i => placeElement E r all oid i s.1 s.2) data fuel p (fields, cs)
  | 0, _, _, _ => rfl
  | fuel + 1, p, fields, cs => by
    simp only [seqLoop, elemLoop, bind, Except.bind]
    split
    · cases parseFrom data data.length p with
      | error e => rfl
      | ok q =>
        show (placeElement E r all oid q.1 fields cs).bind (fun s => seqLoop E r all oid data fuel q.2 s.1 s.2) =
          (placeElement E r all oid q.1 fields cs).bind (fun s =>
            elemLoop (fun s i => placeElement E r all oid i s.1 s.2) data fuel q.2 s)
        cases placeElement E r all oid q.1 fields cs with
        | error e => rfl
        | ok s => exact seqLoop_eq E r all oid data fuel _ _ _
    · rfl

theorem parseFrom_element {data rest : Bytes} {p : Nat} (hp : p ≤ data.length) {i : Info} (hi : Ber 11 i.tlv)
    (hd : data.drop p = i.tlv.bytes ++ rest) :
    parseFrom data data.length p = .ok (i, p + i.tlv.bytes.length) ∧ data.drop (p + i.tlv.bytes.length) = rest := by
  refine ⟨(parseFrom_ok_iff data p hp i _).mpr ⟨rest, hd, hi, rfl⟩, ?_⟩
  rw [← List.drop_drop, hd, List.drop_left]

/-- On contents that are elements, the loop is the fold over them. -/
theorem elemLoop_elements {σ : Type} (step : σ → Info → Py σ) (data : Bytes) : ∀ (is : List Info) (fuel p : Nat) (s : σ),
    p ≤ data.length → data.length - p < fuel → Elements (data.drop p) (is.map Info.tlv) →
    elemLoop step data fuel p s = is.foldlM step s
  | [], fuel, p, s, hp, hf, hE => by
    have h : data.drop p = [] := hE.1
    rw [List.drop_eq_nil_iff] at h
    obtain ⟨fuel, rfl⟩ : ∃ k, fuel = k + 1 := ⟨fuel - 1, by omega⟩
    simp only [elemLoop, if_neg (Nat.not_lt.mpr h), List.foldlM_nil]
    rfl
  | i :: is, fuel, p, s, hp, hf, ⟨hd, hb⟩ => by
    simp only [List.map_cons, List.flatten_cons, List.mem_cons, forall_eq_or_imp] at hd hb
    obtain ⟨h1, h2⟩ := parseFrom_element hp hb.1 hd
    have h3 := Ber_two_le hb.1
    have h4 : (data.drop p).length = data.length - p := List.length_drop
    rw [hd, List.length_append] at h4
    obtain ⟨fuel, rfl⟩ : ∃ k, fuel = k + 1 := ⟨fuel - 1, by omega⟩
    rw [elemLoop, if_pos (by omega), h1, List.foldlM_cons]
    simp only [bind, Except.bind]
    cases step s i with
    | error e => rfl
    | ok s' =>
      exact elemLoop_elements step data is fuel _ s' (by omega) (by omega) ⟨h2, hb.2⟩

/-- Whenever the loop ends well, the contents are elements. -/
theorem elemLoop_inv {σ : Type} (step : σ → Info → Py σ) (data : Bytes) : ∀ (fuel p : Nat) (s t : σ), p ≤ data.length →
    elemLoop step data fuel p s = .ok t → ∃ is : List Info, Elements (data.drop p) (is.map Info.tlv) ∧ is.foldlM step s = .ok t
  | 0, _, _, _, _, h => by cases h
  | fuel + 1, p, s, t, hp, h => by
    rw [elemLoop] at h
    split at h
    · cases hq : parseFrom data data.length p with
      | error e => rw [hq] at h; cases h
      | ok q =>
        obtain ⟨i, e⟩ := q
        rw [hq] at h
        simp only [bind, Except.bind] at h
        obtain ⟨rest, h1, h2, h3⟩ := (parseFrom_ok_iff data p hp i e).mp hq
        have h2 : Ber 11 i.tlv := h2
        cases hs : step s i with
        | error e => rw [hs] at h; cases h
        | ok s' =>
          rw [hs] at h
          have h4 : (data.drop p).length = data.length - p := List.length_drop
          rw [h1, List.length_append] at h4
          obtain ⟨is, ⟨h5, h6⟩, h7⟩ := elemLoop_inv step data fuel e s' t (by omega) h
          refine ⟨i :: is, ⟨?_, ?_⟩, ?_⟩
          · rw [List.map_cons, List.map_cons, List.flatten_cons, ← h5, h3, (parseFrom_element hp h2 h1).2, h1]
          · simpa using ⟨h2, by simpa using h6⟩
          · rw [List.foldlM_cons, hs]; exact h7
    · injection h with h
      exact ⟨[], ⟨by rw [List.drop_eq_nil_of_le (by omega)]; rfl, by simp⟩, by rw [h]; rfl⟩

/-- An error that does not come from the step is a `ValueError`. -/
theorem elemLoop_error {σ : Type} (step : σ → Info → Py σ) (data : Bytes) (hs : ∀ s i e, step s i = .error e → e = .valueError) :
    ∀ (fuel p : Nat) (s : σ) (e : PyErr), p ≤ data.length → data.length - p < fuel →
    elemLoop step data fuel p s = .error e → e = .valueError
  | 0, _, _, _, _, hf, _ => by omega
  | fuel + 1, p, s, e, hp, hf, h => by
    rw [elemLoop] at h
    split at h
    · cases hq : parseFrom data data.length p with
      | error e' =>
        rw [hq] at h
        injection h with h
        rw [← h]; exact parseFrom_error data p hp e' hq
      | ok q =>
        obtain ⟨i, e'⟩ := q
        rw [hq] at h
        simp only [bind, Except.bind] at h
        obtain ⟨rest, h1, h2, h3⟩ := (parseFrom_ok_iff data p hp i e').mp hq
        cases hst : step s i with
        | error e'' => rw [hst] at h; injection h with h; rw [← h]; exact hs s i e'' hst
        | ok s' =>
          rw [hst] at h
          have h4 : (data.drop p).length = data.length - p := List.length_drop
          rw [h1, List.length_append] at h4
          have := Ber_two_le h2
          exact elemLoop_error step data hs fuel e' s' e (by omega) (by omega) h
    · cases h

/-- A list of TLVs as parser results. -/
theorem info_of_tlv (vs : List TLV) : ∃ is : List Info, is.map Info.tlv = vs := by
  refine ⟨vs.map (fun v => ⟨v.cls, v.method, v.tag, v.header, v.contents, v.trailer⟩), ?_⟩
  rw [List.map_map]
  exact (List.map_congr_left (fun v _ => rfl)).trans (List.map_id _)

theorem foldlM_lazy (spec : Option ClassId) : ∀ (is : List Info) (cs : List Child),
    is.foldlM (fun cs i => (.ok (cs ++ [.lazy i spec none]) : Py (List Child))) cs = .ok (cs ++ is.map (fun i => .lazy i spec none))
  | [], cs => by simp; rfl
  | i :: is, cs => by
    rw [List.foldlM_cons]
    simp only [bind, Except.bind]
    rw [foldlM_lazy spec is]
    simp

/-- The children of a SequenceOf or SetOf are the elements of its contents. -/
theorem parseSeqOf_ok_iff (spec : Option ClassId) (data : Bytes) (cs : List Child) :
    parseSeqOf spec (some data) = .ok cs ↔
      ∃ is : List Info, Elements data (is.map Info.tlv) ∧ cs = is.map (fun i => .lazy i spec none) := by
  unfold parseSeqOf
  simp only [elementLoop_eq]
  constructor
  · intro h
    obtain ⟨is, h1, h2⟩ := elemLoop_inv _ data _ 0 _ _ (by omega) h
    rw [foldlM_lazy] at h2
    injection h2 with h2
    exact ⟨is, h1, by simpa using h2.symm⟩
  · rintro ⟨is, h1, rfl⟩
    rw [elemLoop_elements _ data is _ 0 _ (by omega) (by omega) h1, foldlM_lazy]
    simp

/-- Elements are determined by the bytes. -/
theorem Elements.unique {data : Bytes} {vs ws : List TLV} (h : Elements data vs) (h' : Elements data ws) : vs = ws := by
  obtain ⟨hd, hb⟩ := h
  obtain ⟨hd', hb'⟩ := h'
  subst hd
  induction vs generalizing ws with
  | nil =>
    cases ws with
    | nil => rfl
    | cons w ws =>
      have := Ber_two_le (hb' w (by simp))
      have h2 := congrArg List.length hd'
      simp at h2; omega
  | cons v vs ih =>
    cases ws with
    | nil =>
      have := Ber_two_le (hb v (by simp))
      have h2 := congrArg List.length hd'
      rw [List.map_cons, List.flatten_cons, List.length_append] at h2
      simp only [List.map_nil, List.flatten_nil, List.length_nil] at h2
      omega
    | cons w ws =>
      simp only [List.map_cons, List.flatten_cons] at hd'
      obtain ⟨h1, h2⟩ := Ber_unique (hb v (by simp)) (hb' w (by simp)) hd'
      rw [h1, ih (fun v hv => hb v (by simp [hv])) (fun v hv => hb' v (by simp [hv])) h2]

end Asn1
