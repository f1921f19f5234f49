import Verif.Lemmas.RepRead

/-! # A schema for examples -/

namespace Asn1
open Spec Props

/-- INTEGER -/
def intLeaf : LeafSt := .integer none { cls := 0, method := 0, tag := 2 }

/-- `Inner ::= SEQUENCE { a INTEGER, b [1] IMPLICIT INTEGER OPTIONAL, c [2] EXPLICIT INTEGER DEFAULT 5 }` -/
def innerFields : List Field :=
  [⟨"a", 0, {}⟩, ⟨"b", 0, { implicit := some (2, 1), optional := true }⟩, ⟨"c", 0, { explicit := [(2, 2)], default := some (.scalar (.int 5)) }⟩]

/-- `Pick ::= CHOICE { n INTEGER, s [5] EXPLICIT OCTET STRING }` -/
def pickAlts : List Field := [⟨"n", 0, {}⟩, ⟨"s", 1, { explicit := [(2, 5)] }⟩]

/-- `Outer ::= SEQUENCE { id OCTET STRING OPTIONAL, list SEQUENCE OF INTEGER, inner [0] EXPLICIT Inner OPTIONAL, pick Pick }` -/
def outerFields : List Field :=
  [⟨"id", 1, { optional := true }⟩, ⟨"list", 2, {}⟩, ⟨"inner", 4, { explicit := [(2, 0)], optional := true }⟩, ⟨"pick", 3, {}⟩]

/-- Class 1 is OCTET STRING, 2 SEQUENCE OF INTEGER, 3 `Pick`, 4 `Inner`, 5 `Outer`, 6 SEQUENCE OF `Inner`, the others INTEGER. -/
def schemaEnv : Env where
  cls
    | 1 => .leaf (.octets { cls := 0, method := 0, tag := 4 }) []
    | 2 => .seqOf { cls := 0, method := 1, tag := 16 } [] false (some 0)
    | 3 => .choice [] none pickAlts
    | 4 => .seq { cls := 0, method := 1, tag := 16 } [] false innerFields none
    | 5 => .seq { cls := 0, method := 1, tag := 16 } [] false outerFields none
    | 6 => .seqOf { cls := 0, method := 1, tag := 16 } [] false (some 4)
    | _ => .leaf intLeaf []
  universal
    | 2 => some 0
    | 4 => some 1
    | _ => none

theorem schema_int (n : Nat) : schemaEnv.cls (n + 7) = .leaf intLeaf [] := rfl

theorem holds_five : Holds intLeaf (.int 5) (.int 5) := by
  refine ⟨_, _, [5], by rfl, by rfl, by rfl, ⟨fun o h => (by cases h), _, by rfl, by rfl⟩, by rfl, by rfl⟩

theorem schema_use {c : ClassId} {p : Params} (h1 : GoodTags p) (h2 : ∀ e t alts, schemaEnv.cls c = .choice e t alts → p.explicit = [] ∧ p.implicit = none)
    (h3 : p.default = none) : GoodUse schemaEnv (fun _ => True) c p :=
  ⟨trivial, h1, h2, fun d h => by rw [h3] at h; cases h⟩

theorem plain_tags : GoodTags {} := ⟨rfl, fun e h => (by cases h), fun e h => (by cases h), .inl rfl⟩

/-- Tags of a field that is not an untagged CHOICE. -/
theorem schema_outer {f : Field} (hk : PlainTag schemaEnv f) {id : Nat × Nat} (h : OuterTag schemaEnv f.spec f.params id) : fieldIdent schemaEnv f = some id :=
  (fieldIdent_iff hk id).mpr h

theorem pick_plain {f : Field} (hf : f ∈ pickAlts) : PlainTag schemaEnv f := by
  simp only [pickAlts, List.mem_cons, List.not_mem_nil, or_false] at hf
  rcases hf with rfl | rfl
  · exact ⟨rfl, .inr ⟨trivial, rfl⟩⟩
  · exact ⟨rfl, .inl (by simp)⟩

theorem pick_tags {p : Params} (hp : p.explicit = []) {id : Nat × Nat} (h : OuterTag schemaEnv 3 p id) : id = (0, 2) ∨ id = (2, 5) := by
  have hx : explicitOf schemaEnv 3 p = [] := by
    unfold explicitOf
    rw [hp]
    cases p.noExplicit <;> rfl
  cases h with
  | explicit h => rw [hx] at h; cases h
  | implicit _ h => exact h.elim
  | own _ h => exact h.elim
  | alternative _ hc hm ho =>
    cases hc
    have hi := schema_outer (pick_plain hm) ho
    simp only [pickAlts, List.mem_cons, List.not_mem_nil, or_false] at hm
    rcases hm with rfl | rfl
    · exact .inl (Option.some.inj hi).symm
    · exact .inr (Option.some.inj hi).symm

theorem schema_universe : Universe schemaEnv (fun _ => True) where
  leaf c proto bad _ h := by
    match c, h with
    | 0, h => cases h; exact ⟨rfl, .integer (by decide) (fun l h => by cases h)⟩
    | 1, h => cases h; exact ⟨rfl, .octets (by decide)⟩
    | 2, h | 3, h | 4, h | 5, h | 6, h => cases h
    | n + 7, h => cases h; exact ⟨rfl, .integer (by decide) (fun l h => by cases h)⟩
  seq c proto bad isSet fields oid _ h := by
    match c, h with
    | 4, h =>
      cases h
      refine ⟨rfl, rfl, rfl, ⟨0, 16, by decide, rfl⟩, by simp [innerFields], ?_, ?_⟩
      · have ha : PlainTag schemaEnv ⟨"a", 0, {}⟩ := ⟨rfl, .inr ⟨trivial, rfl⟩⟩
        have hb : PlainTag schemaEnv ⟨"b", 0, { implicit := some (2, 1), optional := true }⟩ := ⟨rfl, .inr ⟨trivial, rfl⟩⟩
        have hc : PlainTag schemaEnv ⟨"c", 0, { explicit := [(2, 2)], default := some (.scalar (.int 5)) }⟩ := ⟨rfl, .inl (by simp)⟩
        refine ⟨fun h => (by cases h), fun _ id h => ?_, fun _ id h hn => hn.elim, trivial⟩
        have h1 := schema_outer hb h
        rintro (h2 | ⟨_, h2⟩)
        · have h2 := schema_outer hc h2
          rw [← h1] at h2
          exact absurd h2 (by decide)
        · exact h2.elim
      · intro f hf
        simp only [innerFields, List.mem_cons, List.not_mem_nil, or_false] at hf
        rcases hf with rfl | rfl | rfl
        · exact schema_use plain_tags (fun _ _ _ h => by cases h) rfl
        · exact schema_use ⟨rfl, fun e h => (by cases h), fun e h => (by cases h; decide), .inl rfl⟩ (fun _ _ _ h => by cases h) rfl
        · refine ⟨trivial, ⟨rfl, ?_, fun e h => (by cases h), .inr rfl⟩, fun _ _ _ h => (by cases h), ?_⟩
          · intro e he
            simp only [List.mem_singleton] at he
            subst he
            decide
          · intro d h
            cases h
            exact ⟨rfl, _, _, _, _, rfl, rfl, by simp, holds_five⟩
    | 5, h =>
      cases h
      refine ⟨rfl, rfl, rfl, ⟨0, 16, by decide, rfl⟩, by simp [outerFields], ?_, ?_⟩
      · have h0 : PlainTag schemaEnv ⟨"id", 1, { optional := true }⟩ := ⟨rfl, .inr ⟨trivial, rfl⟩⟩
        have h1 : PlainTag schemaEnv ⟨"list", 2, {}⟩ := ⟨rfl, .inr ⟨trivial, rfl⟩⟩
        have h2 : PlainTag schemaEnv ⟨"inner", 4, { explicit := [(2, 0)], optional := true }⟩ := ⟨rfl, .inl (by simp)⟩
        refine ⟨fun _ id h => ?_, fun h => (by cases h), fun _ id h => ?_, fun h => (by cases h), trivial⟩
        · have g1 := schema_outer h0 h
          rintro (g2 | ⟨g2, _⟩)
          · have g2 := schema_outer h1 g2
            rw [← g1] at g2
            exact absurd g2 (by decide)
          · cases g2
        · have g1 := schema_outer h2 h
          have g1 : some ((2, 0) : Nat × Nat) = some id := g1
          rintro (g2 | ⟨g2, _⟩)
          · rcases pick_tags rfl g2 with rfl | rfl <;> simp at g1
          · cases g2
      · intro f hf
        simp only [outerFields, List.mem_cons, List.not_mem_nil, or_false] at hf
        rcases hf with rfl | rfl | rfl | rfl
        · exact schema_use ⟨rfl, fun e h => (by cases h), fun e h => (by cases h), .inl rfl⟩ (fun _ _ _ h => by cases h) rfl
        · exact schema_use plain_tags (fun _ _ _ h => by cases h) rfl
        · refine schema_use ⟨rfl, ?_, fun e h => (by cases h), .inr rfl⟩ (fun _ _ _ h => by cases h) rfl
          intro e he
          simp only [List.mem_singleton] at he
          subst he
          decide
        · exact schema_use plain_tags (fun _ _ _ _ => ⟨rfl, rfl⟩) rfl
    | 0, h | 1, h | 2, h | 3, h | 6, h | n + 7, h => cases h
  seqOf c proto bad isSet ch _ h := by
    match c, h with
    | 2, h => cases h; exact ⟨rfl, rfl, ⟨0, 16, by decide, rfl⟩, 0, rfl, trivial⟩
    | 6, h => cases h; exact ⟨rfl, rfl, ⟨0, 16, by decide, rfl⟩, 4, rfl, trivial⟩
    | 0, h | 1, h | 3, h | 4, h | 5, h | n + 7, h => cases h
  choice c e tagged alts _ h := by
    match c, h with
    | 3, h =>
      cases h
      refine ⟨rfl, rfl, ?_, ?_⟩
      · intro j k f g id hj hk h1 h2
        have h1 := schema_outer (pick_plain (List.mem_of_getElem? hj)) h1
        have h2 := schema_outer (pick_plain (List.mem_of_getElem? hk)) h2
        unfold pickAlts at hj hk
        rcases j with _ | _ | j <;> rcases k with _ | _ | k <;>
          first
          | rfl
          | (simp at hj; done)
          | (simp at hk; done)
          | (exfalso
             simp only [List.getElem?_cons_zero, List.getElem?_cons_succ, Option.some.injEq, Nat.zero_add] at hj hk
             subst hj; subst hk
             have := h1.trans h2.symm
             exact absurd this (by decide))
      · intro f hf
        refine ⟨?_, ?_, pick_plain hf⟩
        · simp only [pickAlts, List.mem_cons, List.not_mem_nil, or_false] at hf
          rcases hf with rfl | rfl
          · exact schema_use plain_tags (fun _ _ _ h => by cases h) rfl
          · refine schema_use ⟨rfl, ?_, fun e h => (by cases h), .inr rfl⟩ (fun _ _ _ h => by cases h) rfl
            intro e he
            simp only [List.mem_singleton] at he
            subst he
            decide
        · simp only [pickAlts, List.mem_cons, List.not_mem_nil, or_false] at hf
          rcases hf with rfl | rfl <;> rfl
    | 0, h | 1, h | 2, h | 4, h | 5, h | 6, h | n + 7, h => cases h
  any c _ h := by
    match c, h with
    | 0, h | 1, h | 2, h | 3, h | 4, h | 5, h | 6, h | n + 7, h => cases h
  parsable c o b _ h := by
    match c, h with
    | 0, h | 1, h | 2, h | 3, h | 4, h | 5, h | 6, h | n + 7, h => cases h

/-- Elements with short identifier and length octets. -/
theorem ber_short {n cl m tg : Nat} {cs : Bytes} (h1 : cl < 4) (h2 : m < 2) (h3 : tg < 31) (h4 : cs.length < 128) :
    Ber (n + 1) ⟨cl, m, tg, [UInt8.ofNat (64 * cl + 32 * m + tg), UInt8.ofNat cs.length], cs, []⟩ :=
  .definite (id := [UInt8.ofNat (64 * cl + 32 * m + tg)]) (len := [UInt8.ofNat cs.length]) ⟨h1, h2, .inl ⟨h3, rfl⟩⟩ (.inl ⟨h4, rfl⟩)

end Asn1
