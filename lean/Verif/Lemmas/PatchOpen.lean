import Verif.Lemmas.PatchParse

/-! # Looking into a loaded structure: all fields -/

namespace Asn1
open Spec Props

/-- The default value of a field can be made and written. -/
theorem default_written {E : Env} {U : ClassId → Prop} (hT : Types E U) (hM : Makable E U) {f : Field} {y : PyVal} {e : Piece} {td : TLV} {m : PyVal}
    (hu : Usable E U f.spec f.params) (hd : f.params.default = some y) (hopt : f.params.optional = false) (hy : y ≠ .scalar .none)
    (hg : Gives E U f.spec y e m) (hde : DerElement E f.spec f.params e td) :
    ∃ M v w, ∀ j ≥ M, (ops E j).construct f.spec f.params (.scalar .none) = .ok v ∧ (ops E j).dump v false = .ok (td.bytes, w) := by
  obtain ⟨v, _, _, w0, _, _, _, h1, h2, _⟩ := made_default hT hu hd hopt hy (gives_makes hT hM hg hu.mem) hde
  obtain ⟨M, hM⟩ := h1.and h2
  exact ⟨M, v, w0, hM⟩

theorem fields_openings {E : Env} {U : ClassId → Prop} (hT : Types E U) (hM : Makable E U) {oid : Option OidPair} {fs : List Field} {before : List PyVal}
    {b : List UInt8} {ds : List Doc} (h : FieldsOpen E U oid fs before b ds) : Openings E U oid fs before b ds := by
  induction h with
  | nil => exact openings_nil
  | @present f fs before pick t b n ds h1 h2 h3 h4 _ ih =>
    refine openings_present hT h1 h2 (fun hd => ⟨h3, h4 hd⟩) (fun _ => ⟨0, fun i hi read => ?_⟩) ih
    refine ⟨rfl, fun j _ => ⟨.lazy i (some (pickedSpec E f pick)) (pickedNested E f pick), ?_⟩, (fun h => by cases h), fun c nested t' hd _ => ?_⟩
    · unfold fieldEncoding
      simp only [h3, bind, Except.bind]
      rw [← hi]; rfl
    · cases hd; exact ⟨i, hi, rfl⟩
  | @other f fs before t td b e y n m ds h1 h2 h3 h4 h5 h6 h7 h8 h9 _ ih =>
    have hd : Decides oid before .same := by
      cases oid with
      | none => rfl
      | some p =>
        have : p.value ≠ before.length := fun h => h2 ⟨p, rfl, h⟩
        simp [Decides, this]
    refine openings_present (pick := .same) hT hd h3 (fun h => absurd h h1) (fun hu => ?_) ih
    obtain ⟨M, v, w, hv⟩ := default_written hT hM hu h4 h5 h6 h7 h8
    refine ⟨M, fun i hi read => ⟨rfl, fun j hj => ⟨.lazy i (some f.spec) none, ?_⟩, (fun h => by cases h), fun c nested t' hd _ => ?_⟩⟩
    · obtain ⟨v1, v2⟩ := hv j hj
      unfold fieldEncoding
      simp only [h4, v1, v2, bind, Except.bind]
      rw [if_neg (by rw [show i.header ++ i.contents ++ i.trailer = t.bytes by rw [← hi]; rfl]; exact h9)]
      rw [← hi]; rfl
    · cases hd; exact ⟨i, hi, rfl⟩
  | @absent f fs before b ds h1 h2 h3 _ ih =>
    refine openings_skip hT (by simp [Field.skippable, h2]) h1 (.inl ⟨h2, h3, rfl⟩) (fun _ => ⟨1, .void, fun h => (by rw [h3] at h; cases h), fun _ => rfl, fun read => ?_⟩) ih
    refine ⟨rfl, fun j hj => ⟨.val .void, ?_⟩, fun _ => by simp [h2], fun c nested t hd _ => by cases hd⟩
    obtain ⟨j, rfl⟩ : ∃ k, j = k + 1 := ⟨j - 1, by omega⟩
    have : (ops E (j + 1)).dump .void false = .ok ([], .void) := rfl
    unfold fieldEncoding
    simp only [this, h3, bind, Except.bind]
  | @default f fs before b td e y n m ds h1 h2 h3 h4 h5 h6 h7 _ ih =>
    have hs : f.params.default.isSome = true := by rw [h2]; rfl
    refine openings_skip hT (by simp [Field.skippable, hs]) h1 (.inr ⟨hs, h7⟩) (fun hu => ?_) ih
    obtain ⟨M, v, w, hv⟩ := default_written hT hM hu h2 h3 h4 h5 h6
    refine ⟨M, v, fun _ j hj => (hv j hj).1, fun h => (by rw [h2] at h; cases h), fun read => ⟨rfl, fun j hj => ⟨.val w, ?_⟩, fun _ => by simp [hs], fun c nested t hd _ => by cases hd⟩⟩
    obtain ⟨v1, v2⟩ := hv j hj
    unfold fieldEncoding
    simp only [h2, v1, v2, bind, Except.bind, if_true]

/-- The fields of a SEQUENCE when it is looked into. -/
theorem parse_opened {E : Env} {U : ClassId → Prop} (hT : Types E U) (hM : Makable E U) {c : ClassId} {proto : Obj Unit} {bad : List Nat}
    {fields : List Field} {oid : Option OidPair} {b : List UInt8} {ds : List Doc} (hu : U c) (hc : E.cls c = .seq proto bad false fields oid)
    (h : FieldsOpen E U oid fields [] b ds) :
    ds.length = fields.length ∧ ∃ N0, ∀ N ≥ N0, ∀ j ≥ N, ∃ cs, parseSeq E (ops E j) fields oid (some b) = .ok cs ∧ Rows E N (Decider oid) fields cs ds := by
  obtain ⟨hl, h⟩ := fields_openings hT hM h
  refine ⟨hl, ?_⟩
  obtain ⟨_, hus, hseq, _⟩ := hT.seq _ _ _ _ _ _ hu hc
  obtain ⟨hap, hoid⟩ := hseq rfl
  obtain ⟨N0, ts, h1, _, h3⟩ := h fields [] rfl rfl hus hap hoid (fun p hp => by
    subst hp
    obtain ⟨_, f, g1, g2, g3⟩ := hM.pair _ _ _ _ _ _ hu hc
    refine ⟨f, g1, g2, fun k hk => ?_⟩
    obtain ⟨_, _, k1, _, proto', bad', fs, o, g, k2, k3, _⟩ := g3 k hk
    exact ⟨k1, proto', bad', fs, o, g, k2, k3⟩)
  refine ⟨N0, fun N hN j hj => ?_⟩
  obtain ⟨is, his⟩ := infos_exist ts
  obtain ⟨cs, g1, g2⟩ := h3 is his N hN j hj [] [] ⟨rfl, fun k ch n h => (by simp at h)⟩ rfl ⟨rfl, fun k f ch d _ h => (by simp at h)⟩
    (fun p _ h => by simp at h)
  refine ⟨cs, ?_, by simpa using g2⟩
  subst his
  rw [← elemLoop_elements _ b is (b.length + 1) 0 _ (by omega) (by omega) h1, ← seqLoop_eq] at g1
  exact g1

end Asn1
