import Verif.Lemmas.PatchBase

/-! # Looking into a loaded structure -/

namespace Asn1
open Spec Props

/-- What stands in a field that is written as `b`. `read` means that it may have been built already. -/
structure Settled (E : Env) (N : Nat) (read : Prop) (f : Field) (ch : Child) (d : Doc) (b : Bytes) : Prop where
  plain : d.plain = some b
  enc : ∀ j ≥ N, ∃ ch', fieldEncoding (ops E j) false f ch = .ok (b, ch')
  void : ch.isVoid = true → (f.params.default.isSome || f.params.optional) = true
  pending : ∀ c nested t, d = .loaded c nested t → ¬ read → ∃ i : Info, i.tlv = t ∧ ch = .lazy i (some c) nested

theorem Settled.mono {E : Env} {N M : Nat} {read read' : Prop} {f : Field} {ch : Child} {d : Doc} {b : Bytes} (h : Settled E N read f ch d b) (hM : N ≤ M)
    (hr : read → read') : Settled E M read' f ch d b :=
  ⟨h.plain, fun j hj => h.enc j (Nat.le_trans hM hj), h.void, fun c nested t hd hn => h.pending c nested t hd (fun h => hn (hr h))⟩

/-- The children of a SEQUENCE nothing was changed at. -/
def Rows (E : Env) (N : Nat) (read : Nat → Prop) (fields : List Field) (cs : List Child) (ds : List Doc) : Prop :=
  cs.length = ds.length ∧ ∀ k f ch d, fields[k]? = some f → cs[k]? = some ch → ds[k]? = some d → ∃ b, Settled E N (read k) f ch d b

theorem Rows.snoc {E : Env} {N : Nat} {read : Nat → Prop} {fields : List Field} {cs : List Child} {ds : List Doc} (h : Rows E N read fields cs ds)
    {f : Field} {ch : Child} {d : Doc} {b : Bytes} (hf : fields[ds.length]? = some f) (hk : Settled E N (read ds.length) f ch d b) :
    Rows E N read fields (cs ++ [ch]) (ds ++ [d]) := by
  refine ⟨by simp [h.1], fun k f' ch' d' h0 h1 h2 => ?_⟩
  rcases Nat.lt_trichotomy k ds.length with hlt | heq | hgt
  · rw [List.getElem?_append_left (by rw [h.1]; exact hlt)] at h1
    rw [List.getElem?_append_left hlt] at h2
    exact h.2 k f' ch' d' h0 h1 h2
  · subst heq
    rw [List.getElem?_append_right (by rw [h.1]), h.1, Nat.sub_self] at h1
    rw [List.getElem?_append_right (Nat.le_refl _), Nat.sub_self] at h2
    rw [hf] at h0
    cases h0; cases h1; cases h2
    exact ⟨b, hk⟩
  · rw [List.getElem?_eq_none (by simp; omega)] at h2
    cases h2

theorem Rows.set {E : Env} {N : Nat} {read : Nat → Prop} {fields : List Field} {cs : List Child} {ds : List Doc} (h : Rows E N read fields cs ds)
    {k : Nat} {ch : Child} (hk : ∀ f d, fields[k]? = some f → ds[k]? = some d → ∃ b, Settled E N (read k) f ch d b) :
    Rows E N read fields (cs.set k ch) ds := by
  refine ⟨by simp [h.1], fun k' f ch' d h0 h1 h2 => ?_⟩
  rw [List.getElem?_set] at h1
  split at h1
  · next heq =>
    subst heq
    split at h1
    · cases h1; exact hk f d h0 h2
    · cases h1
  · exact h.2 k' f ch' d h0 h1 h2

theorem Rows.mono {E : Env} {N M : Nat} {read read' : Nat → Prop} {fields : List Field} {cs : List Child} {ds : List Doc} (h : Rows E N read fields cs ds)
    (hM : N ≤ M) (hr : ∀ k, read k → read' k) : Rows E M read' fields cs ds :=
  ⟨h.1, fun k f ch d h0 h1 h2 => (h.2 k f ch d h0 h1 h2).imp (fun _ h => h.mono hM (hr k))⟩

/-- The field that decides has been asked. -/
def ReadAt (oid : Option OidPair) (n k : Nat) : Prop := ∃ p, oid = some p ∧ p.oid = k ∧ p.value < n

/-- The field that decides will be written as it was after it has been asked. -/
def Asking (E : Env) (N : Nat) (all : List Field) (oid : Option OidPair) (ds : List Doc) : Prop :=
  ∀ p, oid = some p → p.oid < ds.length → ∃ f t, all[p.oid]? = some f ∧ ds[p.oid]? = some (.loaded f.spec none t) ∧ f.params.default = none ∧
    ∀ i : Info, i.tlv = t → ∀ j ≥ N, ∀ v m w, (ops E j).build i (some f.spec) f.params none = .ok v → decisive (ops E j) p.sub v = .ok (m, w) →
      (p.sub.isSome = true → w.isMutated = false) → w ≠ .void ∧ ∀ j', (ops E (j' + 1)).dump w false = .ok (t.bytes, w)

theorem Asking.mono {E : Env} {N M : Nat} {all : List Field} {oid : Option OidPair} {ds : List Doc} (h : Asking E N all oid ds) (hM : N ≤ M) :
    Asking E M all oid ds := by
  intro p hp hl
  obtain ⟨f, t, h1, h2, h3, h4⟩ := h p hp hl
  exact ⟨f, t, h1, h2, h3, fun i hi j hj => h4 i hi j (Nat.le_trans hM hj)⟩

/-- What the decision about a class does to the children. -/
theorem rows_override {E : Env} {U : ClassId → Prop} {N j : Nat} (hN : 1 ≤ N) (hj : N ≤ j) {q : Prop} {all : List Field} {oid : Option OidPair}
    (ho : ∀ p, oid = some p → OidOk E U all p) {before : List PyVal} {cs cs' : List Child} {ds : List Doc} {pick : Pick}
    (hl : ds.length = before.length)
    (hr : Rows E N (ReadAt oid before.length) all cs ds) (ha : Asking E N all oid ds)
    (h : oidOverride (ops E j) all oid cs.length cs = .ok (pick, cs')) (hk : KidList E N q all (mustAt all oid) cs' before) :
    Rows E N (ReadAt oid (before.length + 1)) all cs' ds := by
  have up : ∀ k, ReadAt oid before.length k → ReadAt oid (before.length + 1) k := fun k ⟨p, h1, h2, h3⟩ => ⟨p, h1, h2, by omega⟩
  cases oid with
  | none =>
    injection h with h
    injection h with _ h
    subst h
    exact hr.mono (Nat.le_refl _) up
  | some p =>
    simp only [oidOverride] at h
    by_cases hv : p.value = cs.length
    · rw [if_pos hv] at h
      rw [hr.1, hl] at hv
      have hlt : p.oid < ds.length := by rw [hl, ← hv]; exact (ho p rfl).before
      obtain ⟨f, t, a1, a2, a3, a4⟩ := ha p rfl hlt
      obtain ⟨ch, hch⟩ : ∃ ch, cs[p.oid]? = some ch := ⟨_, List.getElem?_eq_getElem (h := by rw [hr.1]; exact hlt)⟩
      obtain ⟨b, hs⟩ := hr.2 _ _ _ _ a1 hch a2
      obtain ⟨i, hi, rfl⟩ := hs.pending _ _ _ rfl (fun ⟨p', e1, e2, e3⟩ => by cases e1; omega)
      have hpar : paramsAt all p.oid = f.params := by simp [paramsAt, a1]
      rw [hch] at h
      simp only [buildChild, hpar, bind, Except.bind] at h
      cases hb : (ops E j).build i (some f.spec) f.params none with
      | error e => rw [hb] at h; cases h
      | ok v =>
        rw [hb] at h
        cases hd : decisive (ops E j) p.sub v with
        | error e => simp only [hd] at h; cases h
        | ok r =>
          obtain ⟨m, w⟩ := r
          simp only [hd] at h
          cases hcz : p.choose m with
          | error e => rw [hcz] at h; cases h
          | ok pk =>
            rw [hcz] at h
            injection h with h
            injection h with _ h
            subst h
            have hcalm : p.sub.isSome = true → w.isMutated = false := by
              intro hsub
              obtain ⟨n, hn⟩ : ∃ n, before[p.oid]? = some n := ⟨_, List.getElem?_eq_getElem (h := by rw [← hl]; exact hlt)⟩
              have := hk.2 p.oid (.val w) n (by rw [List.getElem?_set, if_pos rfl, if_pos (by rw [hr.1]; exact hlt)]) hn
              have hm : mustAt all (some p) p.oid = some f.spec := by simp [mustAt, hsub, a1]
              exact (closed_readable E N).calm (this.1 (.inr (by rw [hm]; simp)))
            obtain ⟨w1, w2⟩ := a4 i hi j hj v m w hb hd hcalm
            refine (hr.mono (Nat.le_refl _) up).set (fun f' d' e1 e2 => ?_)
            rw [a1] at e1
            rw [a2] at e2
            cases e1; cases e2
            refine ⟨t.bytes, rfl, fun j' hj' => ⟨.val w, ?_⟩, fun h => ?_, fun c nested t' _ hn => absurd ⟨p, rfl, rfl, by omega⟩ hn⟩
            · obtain ⟨j', rfl⟩ : ∃ k, j' = k + 1 := ⟨j' - 1, by omega⟩
              unfold fieldEncoding
              simp only [w2 j', a3, bind, Except.bind]
            · exfalso
              cases w <;> first | exact w1 rfl | cases h
    · rw [if_neg hv] at h
      injection h with h
      injection h with _ h
      subst h
      exact hr.mono (Nat.le_refl _) up

/-- Loading the remaining fields. -/
def Openings (E : Env) (U : ClassId → Prop) (oid : Option OidPair) (fs : List Field) (before : List PyVal) (b : List UInt8) (ds : List Doc) : Prop :=
  ds.length = fs.length ∧ ∀ all pre, all = pre ++ fs → pre.length = before.length → (∀ f ∈ all, Usable E U f.spec f.params) → Apart E fs →
    (∀ p, oid = some p → OidOk E U all p) →
    (∀ p, oid = some p → ∃ f, all[p.oid]? = some f ∧ (p.sub = none → Telling E f) ∧ ∀ k, p.sub = some k → f.params.default = none ∧
      ∃ proto bad fs oid g, E.cls f.spec = .seq proto bad false fs oid ∧ fs[k]? = some g) →
    ∃ N0 ts, Elements b ts ∧ (∀ t ts', ts = t :: ts' → NextBegins E fs (t.cls, t.tag)) ∧
      ∀ is : List Info, is.map Info.tlv = ts → ∀ N ≥ N0, ∀ j ≥ N, ∀ cs0 ds0, KidList E N (QuietFields E all) all (mustAt all oid) cs0 before →
        ds0.length = before.length → Rows E N (ReadAt oid before.length) all cs0 ds0 → Asking E N all oid ds0 →
        ∃ cs, (is.foldlM (fun s i => placeElement E (ops E j) all oid i s.1 s.2) (fs, cs0)).bind (fun s => fillAbsent (ops E j) s.1 s.2) = .ok cs ∧
          Rows E N (Decider oid) all cs (ds0 ++ ds)

theorem openings_nil {E : Env} {U : ClassId → Prop} {oid : Option OidPair} {before : List PyVal} : Openings E U oid [] before [] [] := by
  refine ⟨rfl, ?_⟩
  intro all pre _ _ _ _ _ _
  refine ⟨0, [], ⟨rfl, by simp⟩, fun t ts h => (by cases h), fun is his N hN j hj cs0 ds0 hk hl hr ha => ⟨cs0, ?_, ?_⟩⟩
  · have : is = [] := List.map_eq_nil_iff.mp his
    subst this
    rfl
  · rw [List.append_nil]
    exact hr.mono (Nat.le_refl _) (fun k ⟨p, h1, h2, _⟩ => ⟨p, h1, h2⟩)

theorem asking_snoc {E : Env} {N : Nat} {all : List Field} {oid : Option OidPair} {ds : List Doc} (h : Asking E N all oid ds) {d : Doc}
    (hd : ¬ Decider oid ds.length) : Asking E N all oid (ds ++ [d]) := by
  intro p hp hl
  have hlt : p.oid < ds.length := by
    have : p.oid ≠ ds.length := fun h => hd ⟨p, hp, h⟩
    simp at hl
    omega
  obtain ⟨f, t, h1, h2, h3, h4⟩ := h p hp hlt
  exact ⟨f, t, h1, by rw [List.getElem?_append_left hlt]; exact h2, h3, h4⟩

/-- A field that is left out. -/
theorem openings_skip {E : Env} {U : ClassId → Prop} (hU : Types E U) {oid : Option OidPair} {f : Field} {fs : List Field} {before : List PyVal} {b : List UInt8}
    {n : PyVal} {ds : List Doc} (hs : Field.skippable f = true) (hdc : ¬ Decider oid before.length)
    (hn : (f.params.optional = true ∧ f.params.default = none ∧ n = .scalar .none) ∨ (f.params.default.isSome = true ∧ DefaultValue E f.spec f.params n))
    (hset : Usable E U f.spec f.params → ∃ N v, (f.params.default.isSome = true → ∀ j ≥ N, (ops E j).construct f.spec f.params (.scalar .none) = .ok v) ∧
      (f.params.default = none → v = .void) ∧ ∀ read, Settled E N read f (.val v) .out [])
    (ih : Openings E U oid fs (before ++ [n]) b ds) : Openings E U oid (f :: fs) before b (.out :: ds) := by
  refine ⟨by simp [ih.1], ?_⟩
  replace ih := ih.2
  intro all pre ha hl hus hap hoid hpair
  have hidx : all[before.length]? = some f := by rw [ha, ← hl]; simp
  have hpar : paramsAt all before.length = f.params := by simp [paramsAt, hidx]
  have hf : f ∈ all := by rw [ha]; simp
  have hg := hus f hf
  obtain ⟨N0, ts, h1, h2, h3⟩ := ih all (pre ++ [f]) (by rw [ha]; simp) (by simp [hl]) hus hap.2.2 hoid hpair
  have hmust : f.params.default.isSome = true → mustAt all oid before.length = none := by
    intro hd
    cases oid with
    | none => rfl
    | some p =>
      simp only [mustAt]
      split
      · next h =>
        obtain ⟨h, rfl'⟩ := h
        obtain ⟨k, hk⟩ := Option.isSome_iff_exists.mp h
        have := ((hoid p rfl).sub k f hk (by rw [rfl']; exact hidx)).1
        rw [this] at hd; cases hd
      · rfl
  obtain ⟨M', v', s1, s2, s3⟩ := hset hg
  -- the child
  obtain ⟨M, ch, hch, hkid, hset⟩ : ∃ M ch, (∀ j ≥ M, skipChild (ops E j) f = .ok ch) ∧
      (∀ N ≥ M, Kid E N (QuietFields E all) f.params (mustAt all oid before.length) n ch) ∧ ∀ N ≥ M, ∀ read, Settled E N read f ch .out [] := by
    rcases hn with ⟨ho, hno, rfl⟩ | ⟨hd, hdv⟩
    · have := s2 hno
      subst this
      refine ⟨max 1 M', .val .void, fun j _ => ?_, fun N hN => kid_void (by omega) ho, fun N hN read => (s3 read).mono (by omega) id⟩
      have : ¬ f.params.default.isSome = true := fun h => by rw [hno] at h; cases h
      rw [skipChild, if_neg this]
    · obtain ⟨M, v, k1, k2⟩ := kid_default hf hd hdv
      have : v = v' := Ev.unique (f := fun j => (ops E j).construct f.spec f.params (.scalar .none)) ⟨M, k1⟩ ⟨M', s1 hd⟩
      subst this
      refine ⟨max M M', .val v, fun j hj => ?_, fun N hN => by rw [hmust hd]; exact k2 N (by omega), fun N hN read => (s3 read).mono (by omega) id⟩
      rw [skipChild, if_pos hd, k1 j (by omega)]
      rfl
  refine ⟨max (max N0 M) 1, ts, h1, fun t ts' ht => .inr ⟨hs, h2 t ts' ht⟩, fun is his N hN j hj cs0 ds0 hk hlen hr hask => ?_⟩
  have hN0 : N0 ≤ N := by omega
  have hNM : M ≤ N := by omega
  have hch := hch j (Nat.le_trans hNM hj)
  have hkid := hkid N hNM
  have hset := hset N hNM
  rw [← hpar] at hkid
  rw [show ds0 ++ Doc.out :: ds = ds0 ++ [Doc.out] ++ ds by simp]
  have hask' : Asking E N all oid (ds0 ++ [.out]) := asking_snoc hask (by rw [hlen]; exact hdc)
  have hlen' : (ds0 ++ [Doc.out]).length = (before ++ [n]).length := by simp [hlen]
  have hidx' : all[ds0.length]? = some f := by rw [hlen]; exact hidx
  have up : ∀ k, ReadAt oid before.length k → ReadAt oid (before ++ [n]).length k := fun k ⟨p, h1, h2, h3⟩ => ⟨p, h1, h2, by simp; omega⟩
  unfold skipChild at hch
  cases is with
  | nil =>
    obtain ⟨cs, g1, g2⟩ := h3 [] his N hN0 j hj (cs0 ++ [ch]) (ds0 ++ [.out]) (hk.snoc hkid) hlen' ((hr.mono (Nat.le_refl _) up).snoc hidx' (hset _)) hask'
    refine ⟨cs, ?_, g2⟩
    rw [← g1]
    simp only [List.foldlM_nil, pure, Except.pure, Except.bind]
    rw [fillAbsent]
    by_cases hdf : f.params.default.isSome = true
    · rw [if_pos hdf] at hch ⊢
      cases hc : (ops E j).construct f.spec f.params (.scalar .none) with
      | error e => rw [hc] at hch; cases hch
      | ok d => rw [hc] at hch; cases hch; rfl
    · rw [if_neg hdf] at hch ⊢
      have : f.params.optional = true := by
        have hs := hs
        simp only [Field.skippable, Bool.or_eq_true] at hs
        exact hs.resolve_right hdf
      rw [if_pos this]
      cases hch
      rfl
  | cons i is =>
    obtain ⟨pick, hpick⟩ := decides_some hoid hidx hs
    obtain ⟨cs1, o1, o2⟩ := override_ok hj hoid hk (by rw [ha, ← hl]; simp) hpick
    have hr1 := rows_override (by omega) hj hoid hlen hr hask o1 o2
    obtain ⟨cs, g1, g2⟩ := h3 (i :: is) his N hN0 j hj (cs1 ++ [ch]) (ds0 ++ [.out]) (o2.snoc hkid) hlen'
      (by rw [show (before ++ [n]).length = before.length + 1 by simp]; exact hr1.snoc hidx' (hset _)) hask'
    refine ⟨cs, ?_, g2⟩
    rw [← g1, List.foldlM_cons, List.foldlM_cons]
    congr 2
    have hnb : NextBegins E fs (i.cls, i.tag) := h2 i.tlv (is.map Info.tlv) his.symm
    have hab := (fieldAbsent_begins hU hg i).2 (fun hb => hap.1 hs _ hb hnb) hs
    show placeElement E (ops E j) all oid i (f :: fs) cs0 = placeElement E (ops E j) all oid i fs (cs1 ++ [ch])
    rw [placeElement]
    simp only [o1, hab, bind, Except.bind, if_true]
    by_cases hdf : f.params.default.isSome = true
    · rw [if_pos hdf] at hch
      have hdo : f.params.optional = false := by
        cases ho : f.params.optional with
        | false => rfl
        | true => rw [hap.2.1 ho hdf] at hnb; exact hnb.elim
      rw [hdo]
      simp only [Bool.false_eq_true, if_false]
      cases hc : (ops E j).construct f.spec f.params (.scalar .none) with
      | error e => rw [hc] at hch; cases hch
      | ok d => rw [hc] at hch; cases hch; rfl
    · rw [if_neg hdf] at hch
      have : f.params.optional = true := by
        have hs := hs
        simp only [Field.skippable, Bool.or_eq_true] at hs
        exact hs.resolve_right hdf
      rw [if_pos this]
      cases hch
      rfl

/-- A field that is there. -/
theorem openings_present {E : Env} {U : ClassId → Prop} (hU : Types E U) {oid : Option OidPair} {f : Field} {fs : List Field} {before : List PyVal} {b : List UInt8}
    {pick : Pick} {t : TLV} {n : PyVal} {ds : List Doc} (hd : Decides oid before pick)
    (he : Enc E U (some (pickedSpec E f pick)) (pickedNested E f pick) f.params t n)
    (hdef : Decider oid before.length → f.params.default = none ∧ Definite E f.spec f.params t)
    (hset : Usable E U f.spec f.params → ∃ M, ∀ i : Info, i.tlv = t → ∀ read, Settled E M read f (.lazy i (some (pickedSpec E f pick)) (pickedNested E f pick))
      (.loaded (pickedSpec E f pick) (pickedNested E f pick) t) t.bytes)
    (ih : Openings E U oid fs (before ++ [n]) b ds) :
    Openings E U oid (f :: fs) before (t.bytes ++ b) (.loaded (pickedSpec E f pick) (pickedNested E f pick) t :: ds) := by
  refine ⟨by simp [ih.1], ?_⟩
  replace ih := ih.2
  intro all pre ha hl hus hap hoid hpair
  have hidx : all[before.length]? = some f := by rw [ha, ← hl]; simp
  have hpar : paramsAt all before.length = f.params := by simp [paramsAt, hidx]
  have hf : f ∈ all := by rw [ha]; simp
  have hg := hus f hf
  have hpk := decides_ok hoid hidx hd
  -- the class after the decision
  have key : Usable E U (pickedSpec E f pick) f.params ∧ (∀ d, pickedNested E f pick = some d → Usable E U d {}) ∧
      (Begins E (pickedSpec E f pick) f.params (t.cls, t.tag) → Begins E f.spec f.params (t.cls, t.tag)) := by
    cases pick with
    | same => exact ⟨hg, fun d h => (by cases h), fun h => h⟩
    | field c => exact ⟨hpk.1, fun d h => (by cases h), fun h => hpk.2.2 _ h⟩
    | value c =>
      simp only [PickOk] at hpk
      simp only [pickedSpec, pickedNested]
      cases hc : E.cls f.spec with
      | any =>
        rw [hc] at hpk
        exact ⟨hpk, fun d h => (by cases h), fun _ => .inl hc⟩
      | parsable o k =>
        rw [hc] at hpk
        exact ⟨hg, fun d h => (by cases h; exact hpk), fun h => h⟩
      | _ => rw [hc] at hpk; exact hpk.elim
  obtain ⟨hu, hnu, hbg⟩ := key
  have hb := hbg (enc_begins hU hu he).1
  obtain ⟨M, hM⟩ := enc_loads hU he hu hnu
  obtain ⟨M', hM'⟩ := hset hg
  obtain ⟨N0, ts, h1, h2, h3⟩ := ih all (pre ++ [f]) (by rw [ha]; simp) (by simp [hl]) hus hap.2.2 hoid hpair
  -- the field decides
  obtain ⟨K, hK⟩ : ∃ K, ∀ p, oid = some p → p.oid = before.length → pick = .same ∧ f.params.default = none ∧
      ∀ i : Info, i.tlv = t → ∀ j ≥ K, ∀ v m w, (ops E j).build i (some f.spec) f.params none = .ok v → decisive (ops E j) p.sub v = .ok (m, w) →
      (p.sub.isSome = true → w.isMutated = false) → w ≠ .void ∧ ∀ j', (ops E (j' + 1)).dump w false = .ok (t.bytes, w) := by
    by_cases hdc : Decider oid before.length
    · obtain ⟨p, rfl, hp⟩ := hdc
      obtain ⟨d1, d2⟩ := hdef ⟨p, rfl, hp⟩
      have hsame : pick = .same := by
        have := (hoid p rfl).before
        have hne : p.value ≠ before.length := by omega
        simpa only [Decides, if_neg hne] using hd
      subst hsame
      obtain ⟨f', p1, p2, p3⟩ := hpair p rfl
      rw [hp, hidx] at p1
      cases p1
      cases hsub : p.sub with
      | none =>
        obtain ⟨proto, bad, hc⟩ := p2 hsub
        refine ⟨1, fun p' e1 e2 => ⟨rfl, d1, fun i hi j hj v m w b1 b2 _ => ?_⟩⟩
        cases e1
        rw [hsub] at b2
        obtain ⟨j, rfl⟩ : ∃ k, j = k + 1 := ⟨j - 1, by omega⟩
        exact (kept_leaf hU hc hg d1 he d2 hi b1 b2).2
      | some k =>
        obtain ⟨_, proto, bad, fs', oid', g, hc, hgk⟩ := p3 k hsub
        obtain ⟨K, hK⟩ := kept_node hU hc hg d1 he d2 hgk
        refine ⟨K, fun p' e1 e2 => ⟨rfl, d1, fun i hi j hj v m w b1 b2 b3 => ?_⟩⟩
        cases e1
        rw [hsub] at b2 b3
        simp only [decisive, bind, Except.bind] at b2
        cases hit : (ops E j).item v k with
        | error e => rw [hit] at b2; cases b2
        | ok r =>
          obtain ⟨x, w'⟩ := r
          rw [hit] at b2
          simp only at b2
          cases hx : (ops E j).native x with
          | error e => rw [hx] at b2; cases b2
          | ok r =>
            rw [hx] at b2
            injection b2 with b2
            injection b2 with _ b2
            subst b2
            exact hK i hi j hj v x w' b1 hit (b3 rfl)
    · exact ⟨0, fun p e1 e2 => absurd ⟨p, e1, e2⟩ hdc⟩
  refine ⟨max (max N0 M) (max (max M' K) 1), t :: ts, elements_cons (enc_ber he) h1, fun t' ts' ht => (by cases ht; exact .inl hb),
    fun is his N hN j hj cs0 ds0 hk hlen hr hask => ?_⟩
  have hN0 : N0 ≤ N := by omega
  have hNM : M ≤ N := by omega
  rw [show ds0 ++ Doc.loaded (pickedSpec E f pick) (pickedNested E f pick) t :: ds = ds0 ++ [.loaded (pickedSpec E f pick) (pickedNested E f pick) t] ++ ds by simp]
  cases is with
  | nil => cases his
  | cons i is =>
    rw [List.map_cons] at his
    injection his with hi his
    obtain ⟨cs1, o1, o2⟩ := override_ok hj hoid hk (by rw [ha, ← hl]; simp) hd
    have hr1 := rows_override (by omega) hj hoid hlen hr hask o1 o2
    have hkid : Kid E N (QuietFields E all) (paramsAt all before.length) (mustAt all oid before.length) n
        (.lazy i (some (pickedSpec E f pick)) (pickedNested E f pick)) := by
      rw [hpar]
      intro j' hj'
      obtain ⟨v, k1, k2, k3, k4⟩ := hM i hi j' (Nat.le_trans hNM hj')
      refine ⟨v, k1, k2.mono hNM, k3, fun c hc => .inr ?_⟩
      cases oid with
      | none => cases hc
      | some p =>
        simp only [mustAt] at hc
        split at hc
        · next h =>
          obtain ⟨hs, hpo⟩ := h
          rw [hidx] at hc
          cases hc
          have hne : p.value ≠ before.length := by
            have := (hoid p rfl).before
            omega
          simp only [Decides, if_neg hne] at hd
          subst hd
          obtain ⟨k, hk⟩ := Option.isSome_iff_exists.mp hs
          obtain ⟨_, proto, bad, isSet, fs', oid', hcls, _⟩ := (hoid p rfl).sub k f hk (by rw [hpo]; exact hidx)
          exact k4 f.spec proto bad isSet fs' oid' rfl hcls
        · cases hc
    have hask' : Asking E N all oid (ds0 ++ [.loaded (pickedSpec E f pick) (pickedNested E f pick) t]) := by
      by_cases hdc : Decider oid ds0.length
      · obtain ⟨p, rfl, hp⟩ := hdc
        obtain ⟨rfl, k1, k2⟩ := hK p rfl (by rw [hp, hlen])
        intro p' e1 _
        cases e1
        exact ⟨f, t, by rw [hp, hlen]; exact hidx, by rw [hp]; simp [pickedSpec, pickedNested], k1, fun i hi j hj => k2 i hi j (by omega)⟩
      · exact asking_snoc hask hdc
    obtain ⟨cs, g1, g2⟩ := h3 is his N hN0 j hj (cs1 ++ [_]) (ds0 ++ [.loaded (pickedSpec E f pick) (pickedNested E f pick) t]) (o2.snoc hkid)
      (by simp [hlen]) (by
        rw [show (before ++ [n]).length = before.length + 1 by simp]
        exact hr1.snoc (by rw [hlen]; exact hidx) ((hM' i hi _).mono (by omega) id)) hask'
    refine ⟨cs, ?_, g2⟩
    rw [← g1, List.foldlM_cons]
    have hb' : Begins E f.spec f.params (i.cls, i.tag) := by
      rw [← hi] at hb; exact hb
    have hab := (fieldAbsent_begins hU hg i).1 hb'
    have : placeElement E (ops E j) all oid i (f :: fs) cs0 =
        .ok (fs, cs1 ++ [.lazy i (some (pickedSpec E f pick)) (pickedNested E f pick)]) := by
      rw [placeElement]
      simp only [o1, hab, bind, Except.bind, Bool.false_eq_true, if_false]
      cases pick with
      | same => rfl
      | field c => rfl
      | value c =>
        simp only [pickedSpec, pickedNested]
        cases E.cls f.spec <;> rfl
    show (((placeElement E (ops E j) all oid i (f :: fs) cs0).bind _).bind _) = _
    rw [this]
    rfl

end Asn1
