import Verif.Lemmas.ForceEnc

/-! # Loading the fields of a SEQUENCE that is to be encoded again by force -/

namespace Asn1
open Spec Props

/-- The element can be loaded, read, and encoded again by force as `b`. -/
def FParses (E : Env) (spec nested : Option ClassId) (p : Params) (t : TLV) (n : PyVal) (b : Bytes) : Prop :=
  ∃ N, ∀ i : Info, i.tlv = t → ∀ j ≥ N, ∃ v, (ops E j).build i spec p nested = .ok v ∧ Forceable E N v n b ∧ formOf v ≠ .void ∧
    ∀ c proto bad isSet fields oid, spec = some c → E.cls c = .seq proto bad isSet fields oid → formOf v = .node c

theorem fkid_val {E : Env} {N : Nat} {p : Params} {must : Option ClassId} {n : PyVal} {b : Bytes} {v : Val} (h : Forceable E N v n b)
    (hv : formOf v = .void → p.optional = true ∨ p.default.isSome = true) (hf : FormIs must v) : FKid E N p must n b (.val v) := ⟨h, hv, hf⟩

theorem foverride_ok {E : Env} {U : ClassId → Prop} {N j : Nat} (hj : N ≤ j) {all : List Field} {oid : Option OidPair}
    (ho : ∀ p, oid = some p → OidOk E U all p) {bps : List (PyVal × Bytes)} {cs : List Child} (hk : FKids E N (paramsAt all) (mustAt all oid) cs bps)
    (hall : bps.length ≤ all.length) {pick : Pick} (hd : Decides oid (bps.map Prod.fst) pick) :
    ∃ cs', oidOverride (ops E j) all oid cs.length cs = .ok (pick, cs') ∧ FKids E N (paramsAt all) (mustAt all oid) cs' bps := by
  cases oid with
  | none =>
    cases hd
    exact ⟨cs, rfl, hk⟩
  | some p =>
    simp only [Decides, List.length_map] at hd
    simp only [oidOverride]
    rw [hk.1]
    by_cases hv : p.value = bps.length
    · rw [if_pos hv] at hd ⊢
      obtain ⟨n, m, h1, h2, h3⟩ := hd
      rw [List.getElem?_map] at h1
      obtain ⟨⟨n', b⟩, hq, hqn⟩ := Option.map_eq_some_iff.mp h1
      have hqn : n' = n := hqn
      subst hqn
      have h1 := hq
      have hlt : p.oid < bps.length := hv ▸ (ho p rfl).before
      obtain ⟨ch, hch⟩ : ∃ ch, cs[p.oid]? = some ch := ⟨_, List.getElem?_eq_getElem (h := by rw [hk.1]; exact hlt)⟩
      obtain ⟨f, hf⟩ : ∃ f, all[p.oid]? = some f := ⟨_, List.getElem?_eq_getElem (h := Nat.lt_of_lt_of_le hlt hall)⟩
      have hkid := hk.2 _ _ _ _ hch h1
      rw [hch]
      cases hs : p.sub with
      | none =>
        rw [hs] at h2
        have h2 : m = n' := h2
        subst h2
        obtain ⟨v, w, b1, b2, b3⟩ := hkid.read hj
        refine ⟨cs.set p.oid (.val w), ?_, hk.set (fun n' b' hn' => ?_)⟩
        · simp only [b1, bind, Except.bind, decisive, b2, h3]
        · rw [h1] at hn'
          cases hn'
          exact b3
      | some k =>
        rw [hs] at h2
        obtain ⟨ns, name, hns', hns⟩ := h2
        have hns' : n' = .dict ns := hns'
        subst hns'
        have hmust : mustAt all (some p) p.oid = some f.spec := by
          simp [mustAt, hs, hf]
        obtain ⟨_, proto, bad, isSet, fs, oid', hcls, hquiet⟩ := (ho p rfl).sub k f hs hf
        obtain ⟨v, b1, b2⟩ := hkid.build hj
        have hform : formOf v = .node f.spec := by
          rcases b2.2.2 f.spec hmust with h | h
          · exfalso
            obtain ⟨w, k1, _⟩ := (renewing_forceable E N).native b2.1 j hj
            cases v with
            | void =>
              cases j with
              | zero => cases k1
              | succ j => cases k1
            | _ => cases h
          · exact h
        obtain ⟨x, w, b', c1, c2, c3, c4⟩ := (renewing_forceable E N).field b2.1 hform hcls hns j hj
        obtain ⟨x', d1, _⟩ := (renewing_forceable E N).native c2 j hj
        refine ⟨cs.set p.oid (.val w), ?_, hk.set (fun n' b' hn' => ?_)⟩
        · simp only [b1, bind, Except.bind, decisive, c1, d1, h3]
        · rw [h1] at hn'
          cases hn'
          exact b2.step c3 c4
    · rw [if_neg hv] at hd ⊢
      subst hd
      exact ⟨cs, rfl, hk⟩

/-- Loading the remaining fields, and writing them. -/
def FPlaces (E : Env) (U : ClassId → Prop) (oid : Option OidPair) (fs : List Field) (before : List PyVal) (b : List UInt8) (ns : List PyVal) (body : Bytes) : Prop :=
  ∃ ps : List (PyVal × Bytes), ps.map Prod.fst = ns ∧ ps.length = fs.length ∧
    ∀ all pre bps, all = pre ++ fs → pre.length = bps.length → bps.map Prod.fst = before → (∀ f ∈ all, Usable E U f.spec f.params) → Apart E fs →
    (∀ p, oid = some p → OidOk E U all p) → ∃ N0 ts, Elements b ts ∧ (∀ t ts', ts = t :: ts' → NextBegins E fs (t.cls, t.tag)) ∧ Writes E N0 fs ps body ∧
      ∀ is : List Info, is.map Info.tlv = ts → ∀ N ≥ N0, ∀ j ≥ N, ∀ cs0, FKids E N (paramsAt all) (mustAt all oid) cs0 bps →
        ∃ cs, (is.foldlM (fun s i => placeElement E (ops E j) all oid i s.1 s.2) (fs, cs0)).bind (fun s => fillAbsent (ops E j) s.1 s.2) = .ok cs ∧
          FKids E N (paramsAt all) (mustAt all oid) cs (bps ++ ps)

theorem fplaces_nil {E : Env} {U : ClassId → Prop} {oid : Option OidPair} {before : List PyVal} : FPlaces E U oid [] before [] [] [] := by
  refine ⟨[], rfl, rfl, ?_⟩
  intro all pre bps _ _ _ _ _ _
  refine ⟨0, [], ⟨rfl, by simp⟩, fun t ts h => (by cases h), .nil, fun is his N hN j hj cs0 hk => ⟨cs0, ?_, by rw [List.append_nil]; exact hk⟩⟩
  have : is = [] := List.map_eq_nil_iff.mp his
  subst this
  rfl

/-- A field that is left out. -/
theorem fplaces_skip {E : Env} {U : ClassId → Prop} (hU : Types E U) {oid : Option OidPair} {f : Field} {fs : List Field} {before : List PyVal} {b : List UInt8}
    {n : PyVal} {ns : List PyVal} {body : Bytes} (hs : Field.skippable f = true)
    (hn : (f.params.optional = true ∧ f.params.default = none ∧ n = .scalar .none) ∨ (∃ s t, n = .scalar s ∧ LeafDefault E f s t))
    (ih : FPlaces E U oid fs (before ++ [n]) b ns body) : FPlaces E U oid (f :: fs) before b (n :: ns) body := by
  obtain ⟨ps, hps, hlen, ih⟩ := ih
  -- the bytes of the field
  obtain ⟨fb, hfb⟩ : ∃ fb, (f.params.optional = true ∧ f.params.default = none ∧ n = .scalar .none ∧ fb = []) ∨
      (∃ s t, n = .scalar s ∧ LeafDefault E f s t ∧ fb = t.bytes) := by
    rcases hn with ⟨h1, h2, h3⟩ | ⟨s, t, h1, h2⟩
    · exact ⟨[], .inl ⟨h1, h2, h3, rfl⟩⟩
    · exact ⟨t.bytes, .inr ⟨s, t, h1, h2, rfl⟩⟩
  refine ⟨(n, fb) :: ps, by simp [hps], by simp [hlen], ?_⟩
  intro all pre bps ha hl hbps hus hap hoid
  have hidx : all[bps.length]? = some f := by rw [ha, ← hl]; simp
  have hidx' : all[before.length]? = some f := by rw [← hbps, List.length_map]; exact hidx
  have hpar : paramsAt all bps.length = f.params := by simp [paramsAt, hidx]
  have hf : f ∈ all := by rw [ha]; simp
  have hg := hus f hf
  obtain ⟨N0, ts, h1, h2, hw, h3⟩ := ih all (pre ++ [f]) (bps ++ [(n, fb)]) (by rw [ha]; simp) (by simp [hl]) (by simp [hbps]) hus hap.2.2 hoid
  have hmust : f.params.default.isSome = true → mustAt all oid bps.length = none := by
    intro hd
    cases oid with
    | none => rfl
    | some p =>
      simp only [mustAt]
      split
      · next h =>
        obtain ⟨h, rfl'⟩ := h
        obtain ⟨k, hk⟩ := Option.isSome_iff_exists.mp h
        have := ((hoid p rfl).sub k f hk (by rw [rfl']; exact hidx)).1
        rw [this] at hd; cases hd
      · rfl
  -- the child
  obtain ⟨M, ch, hch, hkid, hwr⟩ : ∃ M ch, (∀ j ≥ M, skipChild (ops E j) f = .ok ch) ∧
      (∀ N ≥ M, FKid E N f.params (mustAt all oid bps.length) n fb ch) ∧ FieldWrites E M f fb [] := by
    rcases hfb with ⟨ho, hno, rfl, rfl⟩ | ⟨s, t, rfl, hdv, rfl⟩
    · refine ⟨1, .val .void, fun j _ => ?_, fun N hN => fkid_val ((forceable_void E).mono hN) (fun _ => .inl ho) (fun _ _ => .inl rfl), .inl ⟨hno, rfl⟩⟩
      have : ¬ f.params.default.isSome = true := fun h => by rw [hno] at h; cases h
      rw [skipChild, if_neg this]
    · obtain ⟨hd, _⟩ := leafDefault_value hdv
      obtain ⟨st, k1, k2, k3⟩ := leafDefault_made hdv (fun proto bad hc => hU.leaf _ _ _ hg.mem hc) hg.tags
      refine ⟨1, .val (.leaf f.spec st), fun j hj => ?_, fun N hN => fkid_val (k2.mono hN) (fun h => (by cases h)) (fun c hc => ?_), .inr ⟨hd, t.bytes, by simp, ?_⟩⟩
      · rw [skipChild, if_pos hd, k1 j hj]
        rfl
      · rw [hmust hd] at hc; cases hc
      · intro j hj
        obtain ⟨w, hw⟩ := k3 j hj
        exact ⟨_, w, k1 j hj, hw⟩
  refine ⟨max N0 M, ts, h1, fun t ts' ht => .inr ⟨hs, h2 t ts' ht⟩, ?_, fun is his N hN j hj cs0 hk => ?_⟩
  · have hwr' : FieldWrites E (max N0 M) f fb [] := by
      rcases hwr with h | ⟨h1, db, h2, h3⟩
      · exact .inl h
      · exact .inr ⟨h1, db, h2, fun j hj => h3 j (by omega)⟩
    exact .cons hwr' (hw.mono (Nat.le_max_left _ _))
  have hN0 : N0 ≤ N := Nat.le_trans (Nat.le_max_left _ _) hN
  have hNM : M ≤ N := Nat.le_trans (Nat.le_max_right _ _) hN
  have hch := hch j (Nat.le_trans hNM hj)
  have hkid := hkid N hNM
  rw [← hpar] at hkid
  rw [show bps ++ (n, fb) :: ps = bps ++ [(n, fb)] ++ ps by simp]
  unfold skipChild at hch
  cases is with
  | nil =>
    obtain ⟨cs, g1, g2⟩ := h3 [] his N hN0 j hj (cs0 ++ [ch]) (hk.snoc hkid)
    refine ⟨cs, ?_, g2⟩
    rw [← g1]
    simp only [List.foldlM_nil, pure, Except.pure, Except.bind]
    rw [fillAbsent]
    by_cases hdf : f.params.default.isSome = true
    · rw [if_pos hdf] at hch ⊢
      cases hc : (ops E j).construct f.spec f.params (.scalar .none) with
      | error e => rw [hc] at hch; cases hch
      | ok d => rw [hc] at hch; cases hch; rfl
    · rw [if_neg hdf] at hch ⊢
      have : f.params.optional = true := by
        have hs := hs
        simp only [Field.skippable, Bool.or_eq_true] at hs
        exact hs.resolve_right hdf
      rw [if_pos this]
      cases hch
      rfl
  | cons i is =>
    obtain ⟨pick, hpick⟩ := decides_some hoid hidx' hs
    rw [← hbps] at hpick
    obtain ⟨cs1, o1, o2⟩ := foverride_ok hj hoid hk (by rw [ha, ← hl]; simp) hpick
    obtain ⟨cs, g1, g2⟩ := h3 (i :: is) his N hN0 j hj (cs1 ++ [ch]) (o2.snoc hkid)
    refine ⟨cs, ?_, g2⟩
    rw [← g1, List.foldlM_cons, List.foldlM_cons]
    congr 2
    have hnb : NextBegins E fs (i.cls, i.tag) := h2 i.tlv (is.map Info.tlv) his.symm
    have hab := (fieldAbsent_begins hU hg i).2 (fun hb => hap.1 hs _ hb hnb) hs
    show placeElement E (ops E j) all oid i (f :: fs) cs0 = placeElement E (ops E j) all oid i fs (cs1 ++ [ch])
    rw [placeElement]
    simp only [o1, hab, bind, Except.bind, if_true]
    by_cases hdf : f.params.default.isSome = true
    · rw [if_pos hdf] at hch
      have hdo : f.params.optional = false := by
        cases ho : f.params.optional with
        | false => rfl
        | true => rw [hap.2.1 ho hdf] at hnb; exact hnb.elim
      rw [hdo]
      simp only [Bool.false_eq_true, if_false]
      cases hc : (ops E j).construct f.spec f.params (.scalar .none) with
      | error e => rw [hc] at hch; cases hch
      | ok d => rw [hc] at hch; cases hch; rfl
    · rw [if_neg hdf] at hch
      have : f.params.optional = true := by
        have hs := hs
        simp only [Field.skippable, Bool.or_eq_true] at hs
        exact hs.resolve_right hdf
      rw [if_pos this]
      cases hch
      rfl

/-- A field that is there. `x` is what is written for it. -/
theorem fplaces_present {E : Env} {U : ClassId → Prop} (hU : Types E U) {oid : Option OidPair} {f : Field} {fs : List Field} {before : List PyVal} {b : List UInt8}
    {pick : Pick} {t : TLV} {n : PyVal} {ns : List PyVal} {fb x body : Bytes} (hd : Decides oid before pick)
    (he : Enc E U (some (pickedSpec E f pick)) (pickedNested E f pick) f.params t n)
    (ihe : Usable E U (pickedSpec E f pick) f.params → (∀ d, pickedNested E f pick = some d → Usable E U d {}) →
      FParses E (some (pickedSpec E f pick)) (pickedNested E f pick) f.params t n fb)
    (hx : Usable E U f.spec f.params → ∃ M, FieldWrites E M f fb x)
    (ih : FPlaces E U oid fs (before ++ [n]) b ns body) : FPlaces E U oid (f :: fs) before (t.bytes ++ b) (n :: ns) (x ++ body) := by
  obtain ⟨ps, hps, hlen, ih⟩ := ih
  refine ⟨(n, fb) :: ps, by simp [hps], by simp [hlen], ?_⟩
  intro all pre bps ha hl hbps hus hap hoid
  have hidx : all[bps.length]? = some f := by rw [ha, ← hl]; simp
  have hidx' : all[before.length]? = some f := by rw [← hbps, List.length_map]; exact hidx
  have hpar : paramsAt all bps.length = f.params := by simp [paramsAt, hidx]
  have hf : f ∈ all := by rw [ha]; simp
  have hg := hus f hf
  have hpk := decides_ok hoid hidx' hd
  -- the class after the decision
  have key : Usable E U (pickedSpec E f pick) f.params ∧ (∀ d, pickedNested E f pick = some d → Usable E U d {}) ∧
      (Begins E (pickedSpec E f pick) f.params (t.cls, t.tag) → Begins E f.spec f.params (t.cls, t.tag)) := by
    cases pick with
    | same => exact ⟨hg, fun d h => (by cases h), fun h => h⟩
    | field c => exact ⟨hpk.1, fun d h => (by cases h), fun h => hpk.2.2 _ h⟩
    | value c =>
      simp only [PickOk] at hpk
      simp only [pickedSpec, pickedNested]
      cases hc : E.cls f.spec with
      | any =>
        rw [hc] at hpk
        exact ⟨hpk, fun d h => (by cases h), fun _ => .inl hc⟩
      | parsable o k =>
        rw [hc] at hpk
        exact ⟨hg, fun d h => (by cases h; exact hpk), fun h => h⟩
      | _ => rw [hc] at hpk; exact hpk.elim
  obtain ⟨hu, hnu, hbg⟩ := key
  have hb := hbg (enc_begins hU hu he).1
  obtain ⟨M, hM⟩ := ihe hu hnu
  obtain ⟨M', hM'⟩ := hx hg
  obtain ⟨N0, ts, h1, h2, hw, h3⟩ := ih all (pre ++ [f]) (bps ++ [(n, fb)]) (by rw [ha]; simp) (by simp [hl]) (by simp [hbps]) hus hap.2.2 hoid
  refine ⟨max N0 (max M M'), t :: ts, elements_cons (enc_ber he) h1, fun t' ts' ht => (by cases ht; exact .inl hb), ?_, fun is his N hN j hj cs0 hk => ?_⟩
  · have hwr : FieldWrites E (max N0 (max M M')) f fb x := by
      rcases hM' with h | ⟨h1, db, h2, h3⟩
      · exact .inl h
      · exact .inr ⟨h1, db, h2, fun j hj => h3 j (by omega)⟩
    exact .cons hwr (hw.mono (Nat.le_max_left _ _))
  have hN0 : N0 ≤ N := by omega
  have hNM : M ≤ N := by omega
  rw [show bps ++ (n, fb) :: ps = bps ++ [(n, fb)] ++ ps by simp]
  cases is with
  | nil => cases his
  | cons i is =>
    rw [List.map_cons] at his
    injection his with hi his
    rw [← hbps] at hd
    obtain ⟨cs1, o1, o2⟩ := foverride_ok hj hoid hk (by rw [ha, ← hl]; simp) hd
    have hkid : FKid E N (paramsAt all bps.length) (mustAt all oid bps.length) n fb
        (.lazy i (some (pickedSpec E f pick)) (pickedNested E f pick)) := by
      rw [hpar]
      intro j' hj'
      obtain ⟨v, k1, k2, k3, k4⟩ := hM i hi j' (Nat.le_trans hNM hj')
      refine ⟨v, k1, k2.mono hNM, k3, fun c hc => .inr ?_⟩
      cases oid with
      | none => cases hc
      | some p =>
        simp only [mustAt] at hc
        split at hc
        · next h =>
          obtain ⟨hs, hpo⟩ := h
          rw [hidx] at hc
          cases hc
          have hne : p.value ≠ bps.length := by
            have := (hoid p rfl).before
            omega
          simp only [Decides, List.length_map, if_neg hne] at hd
          subst hd
          obtain ⟨k, hk⟩ := Option.isSome_iff_exists.mp hs
          obtain ⟨_, proto, bad, isSet, fs', oid', hcls, _⟩ := (hoid p rfl).sub k f hk (by rw [hpo]; exact hidx)
          exact k4 f.spec proto bad isSet fs' oid' rfl hcls
        · cases hc
    obtain ⟨cs, g1, g2⟩ := h3 is his N hN0 j hj (cs1 ++ [_]) (o2.snoc hkid)
    refine ⟨cs, ?_, g2⟩
    rw [← g1, List.foldlM_cons]
    have hb' : Begins E f.spec f.params (i.cls, i.tag) := by
      rw [← hi] at hb; exact hb
    have hab := (fieldAbsent_begins hU hg i).1 hb'
    have : placeElement E (ops E j) all oid i (f :: fs) cs0 =
        .ok (fs, cs1 ++ [.lazy i (some (pickedSpec E f pick)) (pickedNested E f pick)]) := by
      rw [placeElement]
      simp only [o1, hab, bind, Except.bind, Bool.false_eq_true, if_false]
      cases pick with
      | same => rfl
      | field c => rfl
      | value c =>
        simp only [pickedSpec, pickedNested]
        cases E.cls f.spec <;> rfl
    show (((placeElement E (ops E j) all oid i (f :: fs) cs0).bind _).bind _) = _
    rw [this]
    rfl

theorem parseSeq_fplaces {E : Env} {U : ClassId → Prop} {oid : Option OidPair} {fields : List Field} {b : List UInt8} {ns : List PyVal} {body : Bytes}
    (h : FPlaces E U oid fields [] b ns body) (hus : ∀ f ∈ fields, Usable E U f.spec f.params) (hap : Apart E fields)
    (hoid : ∀ p, oid = some p → OidOk E U fields p) :
    ∃ N ps, ps.map Prod.fst = ns ∧ ps.length = fields.length ∧ Writes E N fields ps body ∧
      ∀ j ≥ N, ∃ cs, parseSeq E (ops E j) fields oid (some b) = .ok cs ∧ FKids E N (paramsAt fields) (fun _ => none) cs ps := by
  obtain ⟨ps, hps, hlen, h⟩ := h
  obtain ⟨N, ts, h1, _, hw, h3⟩ := h fields [] [] rfl rfl rfl hus hap hoid
  refine ⟨N, ps, hps, hlen, hw, fun j hj => ?_⟩
  obtain ⟨is, his⟩ := infos_exist ts
  obtain ⟨cs, g1, g2⟩ := h3 is his N (Nat.le_refl N) j hj [] fkids_nil
  refine ⟨cs, ?_, g2.forget⟩
  subst his
  rw [← elemLoop_elements _ b is (b.length + 1) 0 _ (by omega) (by omega) h1, ← seqLoop_eq] at g1
  exact g1

end Asn1
