import Verif.Spec.Choice
import Verif.Lemmas.KeepBuild

/-!
# Selecting the alternative of a Choice
-/

namespace Asn1
open Spec

theorem fieldIdent_iff {E : Env} {f : Field} (hf : PlainTag E f) (id : Nat × Nat) :
    fieldIdent E f = some id ↔ OuterTag E f.spec f.params id := by
  obtain ⟨hn, hf⟩ := hf
  unfold fieldIdent
  by_cases hex : f.params.explicit = []
  · obtain ⟨ht, hc⟩ := hf.resolve_left (fun h => h hex)
    have he : explicitOf E f.spec f.params = [] := by simp [explicitOf, hn, hc, hex]
    rw [hex]
    simp only [List.getLast?_nil]
    constructor
    · intro h
      cases hi : f.params.implicit with
      | some e =>
        rw [hi] at h
        injection h with h
        rw [← h]
        exact .implicit he ht hi
      | none =>
        rw [hi] at h
        have : id = ((E.cls f.spec).tagging.1, (E.cls f.spec).tagging.2.1) := by
          revert ht h
          simp only
          cases E.cls f.spec <;> intro ht h <;> simp only [HasTag, Shape.ident, Shape.tagging] at ht h ⊢ <;>
            first | exact (Option.some.inj h).symm | exact False.elim ht
        rw [this]
        exact .own he ht hi
    · intro h
      cases h with
      | explicit h => rw [he] at h; cases h
      | implicit _ _ hi => rw [hi]
      | own _ _ hi =>
        rw [hi]
        clear hi
        revert ht
        cases E.cls f.spec <;> intro ht <;> simp only [HasTag, Shape.ident, Shape.tagging] at ht ⊢
      | alternative _ hch =>
        rw [hch] at ht
        exact False.elim ht
  · obtain ⟨l, a, hl⟩ : ∃ l a, f.params.explicit = l ++ [a] := by
      rcases List.eq_nil_or_concat f.params.explicit with h | ⟨l, a, h⟩
      · exact absurd h hex
      · exact ⟨l, a, by simpa using h⟩
    have he : explicitOf E f.spec f.params = ((E.cls f.spec).tagging.2.2.2 ++ l) ++ [a] := by
      simp [explicitOf, hn, hl]
    rw [hl]
    simp only [List.getLast?_append_cons, List.getLast?_singleton]
    constructor
    · intro h
      injection h with h
      exact .explicit (by rw [he, List.getLast?_concat, h])
    · intro h
      cases h with
      | explicit h => rw [he, List.getLast?_concat] at h; exact h
      | implicit h => rw [he] at h; simp at h
      | own h => rw [he] at h; simp at h
      | alternative h => rw [he] at h; simp at h

/-- The lookup in `_id_map`. -/
theorem find_alt {E : Env} {alts : List Field} (hp : ∀ f ∈ alts, PlainTag E f) (hd : DistinctTags E alts) {k : Nat} {f : Field}
    {id : Nat × Nat} (hk : alts[k]? = some f) (ho : OuterTag E f.spec f.params id) :
    alts.zipIdx.reverse.find? (fun a => fieldIdent E a.1 == some id) = some (f, k) := by
  have hmem : (f, k) ∈ alts.zipIdx.reverse := by
    rw [List.mem_reverse, List.mem_zipIdx_iff_getElem?]; exact hk
  have hfm : f ∈ alts := List.mem_of_getElem? hk
  cases hfi : alts.zipIdx.reverse.find? (fun a => fieldIdent E a.1 == some id) with
  | none =>
    have := List.find?_eq_none.mp hfi (f, k) hmem
    simp only [beq_iff_eq] at this
    exact absurd ((fieldIdent_iff (hp f hfm) id).mpr ho) this
  | some q =>
    obtain ⟨g, j⟩ := q
    have h1 := List.mem_of_find?_eq_some hfi
    have h2 := List.find?_some hfi
    simp only [beq_iff_eq] at h2
    rw [List.mem_reverse, List.mem_zipIdx_iff_getElem?] at h1
    have h1 : alts[j]? = some g := h1
    have hg := (fieldIdent_iff (hp g (List.mem_of_getElem? h1)) id).mp h2
    have : j = k := hd j k g f id h1 hk hg ho
    subst this
    rw [hk] at h1
    injection h1 with h1
    rw [h1]

theorem find_no_alt {E : Env} {alts : List Field} (hp : ∀ f ∈ alts, PlainTag E f) {id : Nat × Nat}
    (h : ∀ f ∈ alts, ¬ OuterTag E f.spec f.params id) :
    alts.zipIdx.reverse.find? (fun a => fieldIdent E a.1 == some id) = none := by
  rw [List.find?_eq_none]
  rintro ⟨g, j⟩ hm
  rw [List.mem_reverse, List.mem_zipIdx_iff_getElem?] at hm
  have hm : g ∈ alts := List.mem_of_getElem? hm
  simp only [beq_iff_eq]
  intro h2
  exact h g hm ((fieldIdent_iff (hp g hm) id).mp h2)

theorem plain_ident_some {E : Env} {f : Field} (hf : PlainTag E f) : ∃ id, fieldIdent E f = some id := by
  obtain ⟨hn, hf⟩ := hf
  unfold fieldIdent
  by_cases hex : f.params.explicit = []
  · obtain ⟨ht, hc⟩ := hf.resolve_left (fun h => h hex)
    rw [hex]
    simp only [List.getLast?_nil]
    cases f.params.implicit with
    | some e => exact ⟨e, rfl⟩
    | none =>
      simp only
      revert ht
      cases E.cls f.spec <;> intro ht <;> simp [HasTag, Shape.ident] at ht ⊢
  · obtain ⟨l, a, hl⟩ : ∃ l a, f.params.explicit = l ++ [a] := by
      rcases List.eq_nil_or_concat f.params.explicit with h | ⟨l, a, h⟩
      · exact absurd h hex
      · exact ⟨l, a, by simpa using h⟩
    rw [hl]
    simp

theorem mismatch_plain {E : Env} {alts : List Field} (hp : ∀ f ∈ alts, PlainTag E f) : choiceMismatch E alts = .valueError := by
  unfold choiceMismatch
  rw [if_neg]
  rw [List.any_eq_true]
  rintro ⟨f, hf, h⟩
  obtain ⟨id, hid⟩ := plain_ident_some (hp f hf)
  rw [hid] at h
  cases h

theorem buildChoice_eq (E : Env) (r : Ops) (c : ClassId) (es : List (Nat × Nat)) (i : Info) :
    ∃ F : Val → Val, (∀ o k w, ∃ o', F (.choice c o k w) = .choice c o' k w) ∧
      buildChoice E r c es i = (explicitLoop es.reverse i [] []).bind (fun q => (buildChoiceBase E r c q.1).map F) := by
  cases es with
  | nil =>
    refine ⟨id, fun o k w => ⟨o, rfl⟩, ?_⟩
    simp only [buildChoice, List.reverse_nil, explicitLoop, Except.bind]
    cases buildChoiceBase E r c i <;> rfl
  | cons e es =>
    refine ⟨Val.rewrap (fun _ => i.header) (fun _ => i.trailer) (e :: es), fun o k w => ⟨_, rfl⟩, ?_⟩
    simp only [buildChoice, bind]
    cases explicitLoop (e :: es).reverse i [] [] with
    | error e => rfl
    | ok q =>
      simp only [Except.bind]
      cases buildChoiceBase E r c q.1 <;> rfl

end Asn1

namespace Asn1
open Spec

theorem chain_ber {es : List (Nat × Nat)} {v w : TLV} (h : Chain es v w) (hb : Ber 11 v) : Ber 11 w := by
  induction h with
  | nil => exact hb
  | cons _ _ h3 _ ih => exact ih h3

end Asn1
