import Verif.Lemmas.EncBase

/-! # Loading the fields of a SEQUENCE -/

namespace Asn1
open Spec Props

theorem infos_exist : ∀ ts : List TLV, ∃ is : List Info, is.map Info.tlv = ts
  | [] => ⟨[], rfl⟩
  | t :: ts => by
    obtain ⟨is, h⟩ := infos_exist ts
    obtain ⟨i, hi⟩ := info_tlv t
    exact ⟨i :: is, by simp [h, hi]⟩

/-- The element can be loaded, and read. -/
def Parses (E : Env) (spec nested : Option ClassId) (p : Params) (t : TLV) (n : PyVal) : Prop :=
  ∃ N, ∀ i : Info, i.tlv = t → ∀ j ≥ N, ∃ v, (ops E j).build i spec p nested = .ok v ∧ Readable E N v n ∧ formOf v ≠ .void ∧
    ∀ c proto bad isSet fields oid, spec = some c → E.cls c = .seq proto bad isSet fields oid → formOf v = .node c

theorem KidList.snoc {E : Env} {N : Nat} {q : Prop} {fields : List Field} {must : Nat → Option ClassId} {cs : List Child} {ns : List PyVal}
    (h : KidList E N q fields must cs ns) {ch : Child} {n : PyVal} (hk : Kid E N q (paramsAt fields ns.length) (must ns.length) n ch) :
    KidList E N q fields must (cs ++ [ch]) (ns ++ [n]) := by
  refine ⟨by simp [h.1], fun k ch' n' h1 h2 => ?_⟩
  rcases Nat.lt_trichotomy k ns.length with hlt | heq | hgt
  · rw [List.getElem?_append_left (by rw [h.1]; exact hlt)] at h1
    rw [List.getElem?_append_left hlt] at h2
    exact h.2 k ch' n' h1 h2
  · subst heq
    rw [List.getElem?_append_right (by rw [h.1]), h.1, Nat.sub_self] at h1
    rw [List.getElem?_append_right (Nat.le_refl _), Nat.sub_self] at h2
    cases h1; cases h2
    exact hk
  · rw [List.getElem?_eq_none (by simp; omega)] at h2
    cases h2

theorem kid_void {E : Env} {N : Nat} {q : Prop} {p : Params} {must : Option ClassId} (hN : 1 ≤ N) (hp : p.optional = true) :
    Kid E N q p must (.scalar .none) (.val .void) :=
  kid_val ((readable_void E).mono hN) (fun _ => .inl hp) (fun _ _ => .inl rfl)

theorem construct_leaf_form {E : Env} {j : Nat} {c : ClassId} {p : Params} {x : PyVal} {v : Val} {proto : LeafSt} {bad : List Nat}
    (hE : E.cls c = .leaf proto bad) (h : (ops E j).construct c p x = .ok v) : formOf v = .other := by
  cases j with
  | zero => cases h
  | succ j =>
    have h : constructStep E (ops E j) c p x = .ok v := h
    simp only [constructStep, hE] at h
    split at h
    · cases h; rfl
    · simp only [py_bind] at h
      obtain ⟨s, _, h⟩ := h
      cases h; rfl
    · cases h

/-- A child made from the default value. -/
theorem kid_default {E : Env} {fields : List Field} {f : Field} (hm : f ∈ fields) (hd : f.params.default.isSome = true) {n : PyVal}
    (h : DefaultValue E f.spec f.params n) : ∃ N v, (∀ j ≥ N, (ops E j).construct f.spec f.params (.scalar .none) = .ok v) ∧
      ∀ M ≥ N, Kid E M (QuietFields E fields) f.params none n (.val v) := by
  obtain ⟨N, v, w, h1, h2, h3, h4, h5⟩ := h
  refine ⟨N, v, h1, fun M hM => Kid.mono ?_ hM⟩
  refine ⟨fun hq => ?_, fun j hj => ⟨w, h2 j hj, h3, h5⟩, fun h => absurd h h4, fun c hc => by cases hc⟩
  rcases hq with hq | hq
  · obtain ⟨proto, bad, hl⟩ := hq f hm hd
    have hf := construct_leaf_form hl (h1 N (Nat.le_refl N))
    exact readable_first hf (fun j hj => ⟨w, h2 j hj, h3, h5.trans hf⟩)
  · exact absurd rfl hq

/-- Loading the remaining fields. -/
def Places (E : Env) (U : ClassId → Prop) (oid : Option OidPair) (fs : List Field) (before : List PyVal) (b : List UInt8) (ns : List PyVal) : Prop :=
  ns.length = fs.length ∧ ∀ all pre, all = pre ++ fs → pre.length = before.length → (∀ f ∈ all, Usable E U f.spec f.params) → Apart E fs →
    (∀ p, oid = some p → OidOk E U all p) → ∃ N0 ts, Elements b ts ∧ (∀ t ts', ts = t :: ts' → NextBegins E fs (t.cls, t.tag)) ∧
      ∀ is : List Info, is.map Info.tlv = ts → ∀ N ≥ N0, ∀ j ≥ N, ∀ cs0, KidList E N (QuietFields E all) all (mustAt all oid) cs0 before →
        ∃ cs, (is.foldlM (fun s i => placeElement E (ops E j) all oid i s.1 s.2) (fs, cs0)).bind (fun s => fillAbsent (ops E j) s.1 s.2) = .ok cs ∧
          KidList E N (QuietFields E all) all (mustAt all oid) cs (before ++ ns)

theorem places_nil {E : Env} {U : ClassId → Prop} {oid : Option OidPair} {before : List PyVal} : Places E U oid [] before [] [] := by
  refine ⟨rfl, ?_⟩
  intro all pre _ _ _ _ _
  refine ⟨0, [], ⟨rfl, by simp⟩, fun t ts h => (by cases h), fun is his N hN j hj cs0 hk => ⟨cs0, ?_, by rw [List.append_nil]; exact hk⟩⟩
  have : is = [] := List.map_eq_nil_iff.mp his
  subst this
  rfl

/-- A field that is left out. -/
theorem places_skip {E : Env} {U : ClassId → Prop} (hU : Types E U) {oid : Option OidPair} {f : Field} {fs : List Field} {before : List PyVal} {b : List UInt8}
    {n : PyVal} {ns : List PyVal} (hs : Field.skippable f = true)
    (hn : (f.params.optional = true ∧ f.params.default = none ∧ n = .scalar .none) ∨ (f.params.default.isSome = true ∧ DefaultValue E f.spec f.params n))
    (ih : Places E U oid fs (before ++ [n]) b ns) : Places E U oid (f :: fs) before b (n :: ns) := by
  refine ⟨by simp [ih.1], ?_⟩
  replace ih := ih.2
  intro all pre ha hl hus hap hoid
  have hidx : all[before.length]? = some f := by rw [ha, ← hl]; simp
  have hpar : paramsAt all before.length = f.params := by simp [paramsAt, hidx]
  have hf : f ∈ all := by rw [ha]; simp
  have hg := hus f hf
  obtain ⟨N0, ts, h1, h2, h3⟩ := ih all (pre ++ [f]) (by rw [ha]; simp) (by simp [hl]) hus hap.2.2 hoid
  have hmust : f.params.default.isSome = true → mustAt all oid before.length = none := by
    intro hd
    cases oid with
    | none => rfl
    | some p =>
      simp only [mustAt]
      split
      · next h =>
        obtain ⟨h, rfl'⟩ := h
        obtain ⟨k, hk⟩ := Option.isSome_iff_exists.mp h
        have := ((hoid p rfl).sub k f hk (by rw [rfl']; exact hidx)).1
        rw [this] at hd; cases hd
      · rfl
  -- the child
  obtain ⟨M, ch, hch, hkid⟩ : ∃ M ch, (∀ j ≥ M, skipChild (ops E j) f = .ok ch) ∧
      ∀ N ≥ M, Kid E N (QuietFields E all) f.params (mustAt all oid before.length) n ch := by
    rcases hn with ⟨ho, hno, rfl⟩ | ⟨hd, hdv⟩
    · refine ⟨1, .val .void, fun j _ => ?_, fun N hN => kid_void hN ho⟩
      have : ¬ f.params.default.isSome = true := fun h => by rw [hno] at h; cases h
      rw [skipChild, if_neg this]
    · obtain ⟨M, v, k1, k2⟩ := kid_default hf hd hdv
      refine ⟨M, .val v, fun j hj => ?_, fun N hN => by rw [hmust hd]; exact k2 N hN⟩
      rw [skipChild, if_pos hd, k1 j hj]
      rfl
  refine ⟨max N0 M, ts, h1, fun t ts' ht => .inr ⟨hs, h2 t ts' ht⟩, fun is his N hN j hj cs0 hk => ?_⟩
  have hN0 : N0 ≤ N := Nat.le_trans (Nat.le_max_left _ _) hN
  have hNM : M ≤ N := Nat.le_trans (Nat.le_max_right _ _) hN
  have hch := hch j (Nat.le_trans hNM hj)
  have hkid := hkid N hNM
  rw [← hpar] at hkid
  rw [show before ++ n :: ns = before ++ [n] ++ ns by simp]
  unfold skipChild at hch
  cases is with
  | nil =>
    obtain ⟨cs, g1, g2⟩ := h3 [] his N hN0 j hj (cs0 ++ [ch]) (hk.snoc hkid)
    refine ⟨cs, ?_, g2⟩
    rw [← g1]
    simp only [List.foldlM_nil, pure, Except.pure, Except.bind]
    rw [fillAbsent]
    by_cases hdf : f.params.default.isSome = true
    · rw [if_pos hdf] at hch ⊢
      cases hc : (ops E j).construct f.spec f.params (.scalar .none) with
      | error e => rw [hc] at hch; cases hch
      | ok d => rw [hc] at hch; cases hch; rfl
    · rw [if_neg hdf] at hch ⊢
      have : f.params.optional = true := by
        have hs := hs
        simp only [Field.skippable, Bool.or_eq_true] at hs
        exact hs.resolve_right hdf
      rw [if_pos this]
      cases hch
      rfl
  | cons i is =>
    obtain ⟨pick, hpick⟩ := decides_some hoid hidx hs
    obtain ⟨cs1, o1, o2⟩ := override_ok hj hoid hk (by rw [ha, ← hl]; simp) hpick
    obtain ⟨cs, g1, g2⟩ := h3 (i :: is) his N hN0 j hj (cs1 ++ [ch]) (o2.snoc hkid)
    refine ⟨cs, ?_, g2⟩
    rw [← g1, List.foldlM_cons, List.foldlM_cons]
    congr 2
    have hnb : NextBegins E fs (i.cls, i.tag) := h2 i.tlv (is.map Info.tlv) his.symm
    have hab := (fieldAbsent_begins hU hg i).2 (fun hb => hap.1 hs _ hb hnb) hs
    show placeElement E (ops E j) all oid i (f :: fs) cs0 = placeElement E (ops E j) all oid i fs (cs1 ++ [ch])
    rw [placeElement]
    simp only [o1, hab, bind, Except.bind, if_true]
    by_cases hdf : f.params.default.isSome = true
    · rw [if_pos hdf] at hch
      have hdo : f.params.optional = false := by
        cases ho : f.params.optional with
        | false => rfl
        | true => rw [hap.2.1 ho hdf] at hnb; exact hnb.elim
      rw [hdo]
      simp only [Bool.false_eq_true, if_false]
      cases hc : (ops E j).construct f.spec f.params (.scalar .none) with
      | error e => rw [hc] at hch; cases hch
      | ok d => rw [hc] at hch; cases hch; rfl
    · rw [if_neg hdf] at hch
      have : f.params.optional = true := by
        have hs := hs
        simp only [Field.skippable, Bool.or_eq_true] at hs
        exact hs.resolve_right hdf
      rw [if_pos this]
      cases hch
      rfl

/-- A field that is there. -/
theorem places_present {E : Env} {U : ClassId → Prop} (hU : Types E U) {oid : Option OidPair} {f : Field} {fs : List Field} {before : List PyVal} {b : List UInt8}
    {pick : Pick} {t : TLV} {n : PyVal} {ns : List PyVal} (hd : Decides oid before pick)
    (he : Enc E U (some (pickedSpec E f pick)) (pickedNested E f pick) f.params t n)
    (ihe : ∀ c, some (pickedSpec E f pick) = some c → Usable E U c f.params → (∀ d, pickedNested E f pick = some d → Usable E U d {}) →
      Parses E (some (pickedSpec E f pick)) (pickedNested E f pick) f.params t n)
    (ih : Places E U oid fs (before ++ [n]) b ns) : Places E U oid (f :: fs) before (t.bytes ++ b) (n :: ns) := by
  refine ⟨by simp [ih.1], ?_⟩
  replace ih := ih.2
  intro all pre ha hl hus hap hoid
  have hidx : all[before.length]? = some f := by rw [ha, ← hl]; simp
  have hpar : paramsAt all before.length = f.params := by simp [paramsAt, hidx]
  have hf : f ∈ all := by rw [ha]; simp
  have hg := hus f hf
  have hpk := decides_ok hoid hidx hd
  -- the class after the decision
  have key : Usable E U (pickedSpec E f pick) f.params ∧ (∀ d, pickedNested E f pick = some d → Usable E U d {}) ∧
      (Begins E (pickedSpec E f pick) f.params (t.cls, t.tag) → Begins E f.spec f.params (t.cls, t.tag)) := by
    cases pick with
    | same => exact ⟨hg, fun d h => (by cases h), fun h => h⟩
    | field c => exact ⟨hpk.1, fun d h => (by cases h), fun h => hpk.2.2 _ h⟩
    | value c =>
      simp only [PickOk] at hpk
      simp only [pickedSpec, pickedNested]
      cases hc : E.cls f.spec with
      | any =>
        rw [hc] at hpk
        exact ⟨hpk, fun d h => (by cases h), fun _ => .inl hc⟩
      | parsable o k =>
        rw [hc] at hpk
        exact ⟨hg, fun d h => (by cases h; exact hpk), fun h => h⟩
      | _ => rw [hc] at hpk; exact hpk.elim
  obtain ⟨hu, hnu, hbg⟩ := key
  have hb := hbg (enc_begins hU hu he).1
  obtain ⟨M, hM⟩ := ihe _ rfl hu hnu
  obtain ⟨N0, ts, h1, h2, h3⟩ := ih all (pre ++ [f]) (by rw [ha]; simp) (by simp [hl]) hus hap.2.2 hoid
  refine ⟨max N0 M, t :: ts, elements_cons (enc_ber he) h1, fun t' ts' ht => (by cases ht; exact .inl hb), fun is his N hN j hj cs0 hk => ?_⟩
  have hN0 : N0 ≤ N := Nat.le_trans (Nat.le_max_left _ _) hN
  have hNM : M ≤ N := Nat.le_trans (Nat.le_max_right _ _) hN
  rw [show before ++ n :: ns = before ++ [n] ++ ns by simp]
  cases is with
  | nil => cases his
  | cons i is =>
    rw [List.map_cons] at his
    injection his with hi his
    obtain ⟨cs1, o1, o2⟩ := override_ok hj hoid hk (by rw [ha, ← hl]; simp) hd
    have hkid : Kid E N (QuietFields E all) (paramsAt all before.length) (mustAt all oid before.length) n
        (.lazy i (some (pickedSpec E f pick)) (pickedNested E f pick)) := by
      rw [hpar]
      intro j' hj'
      obtain ⟨v, k1, k2, k3, k4⟩ := hM i hi j' (Nat.le_trans hNM hj')
      refine ⟨v, k1, k2.mono hNM, k3, fun c hc => .inr ?_⟩
      cases oid with
      | none => cases hc
      | some p =>
        simp only [mustAt] at hc
        split at hc
        · next h =>
          obtain ⟨hs, hpo⟩ := h
          rw [hidx] at hc
          cases hc
          have hne : p.value ≠ before.length := by
            have := (hoid p rfl).before
            omega
          simp only [Decides, if_neg hne] at hd
          subst hd
          obtain ⟨k, hk⟩ := Option.isSome_iff_exists.mp hs
          obtain ⟨_, proto, bad, isSet, fs', oid', hcls, _⟩ := (hoid p rfl).sub k f hk (by rw [hpo]; exact hidx)
          exact k4 f.spec proto bad isSet fs' oid' rfl hcls
        · cases hc
    obtain ⟨cs, g1, g2⟩ := h3 is his N hN0 j hj (cs1 ++ [_]) (o2.snoc hkid)
    refine ⟨cs, ?_, g2⟩
    rw [← g1, List.foldlM_cons]
    have hb' : Begins E f.spec f.params (i.cls, i.tag) := by
      rw [← hi] at hb; exact hb
    have hab := (fieldAbsent_begins hU hg i).1 hb'
    have : placeElement E (ops E j) all oid i (f :: fs) cs0 =
        .ok (fs, cs1 ++ [.lazy i (some (pickedSpec E f pick)) (pickedNested E f pick)]) := by
      rw [placeElement]
      simp only [o1, hab, bind, Except.bind, Bool.false_eq_true, if_false]
      cases pick with
      | same => rfl
      | field c => rfl
      | value c =>
        simp only [pickedSpec, pickedNested]
        cases E.cls f.spec <;> rfl
    show (((placeElement E (ops E j) all oid i (f :: fs) cs0).bind _).bind _) = _
    rw [this]
    rfl

theorem parseSeq_places {E : Env} {U : ClassId → Prop} {oid : Option OidPair} {fields : List Field} {b : List UInt8} {ns : List PyVal}
    (h : Places E U oid fields [] b ns) (hus : ∀ f ∈ fields, Usable E U f.spec f.params) (hap : Apart E fields)
    (hoid : ∀ p, oid = some p → OidOk E U fields p) :
    ∃ N, ∀ j ≥ N, ∃ cs, parseSeq E (ops E j) fields oid (some b) = .ok cs ∧ KidList E N (QuietFields E fields) fields (fun _ => none) cs ns := by
  obtain ⟨N, ts, h1, _, h3⟩ := h.2 fields [] rfl rfl hus hap hoid
  refine ⟨N, fun j hj => ?_⟩
  obtain ⟨is, his⟩ := infos_exist ts
  obtain ⟨cs, g1, g2⟩ := h3 is his N (Nat.le_refl N) j hj [] ⟨rfl, fun k ch n h => (by simp at h)⟩
  refine ⟨cs, ?_, g2.forget (fun h => h)⟩
  subst his
  rw [← elemLoop_elements _ b is (b.length + 1) 0 _ (by omega) (by omega) h1, ← seqLoop_eq] at g1
  exact g1

end Asn1
