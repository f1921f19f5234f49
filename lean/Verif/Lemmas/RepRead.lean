import Verif.Lemmas.RepReject

/-! # Item access on what has been loaded -/

namespace Asn1
open Spec Props

theorem freshRep_get {E : Env} : ∀ {fs : List Field} {cs : List Child} {as : List AVal} {k : Nat} {f : Field} {a : AVal}, FreshRep E fs cs as →
    fs[k]? = some f → as[k]? = some a → ∃ ch, cs[k]? = some ch ∧
      ((∃ i, ch = .lazy i (some f.spec) none ∧ Dec E f.spec f.params i.tlv a) ∨
       (∃ st proto s, ch = .val (.leaf f.spec st) ∧ LeafRep false f.params proto st s ∧ a = .prim s) ∨ (ch = .val .void ∧ a = .absent))
  | _, _, _, _, _, _, .nil, h, _ => by simp at h
  | _, _, _, 0, f, a, .lazy h1 h2, hf, ha => by
    cases hf; cases ha
    exact ⟨_, rfl, .inl ⟨_, rfl, h1⟩⟩
  | _, _, _, 0, f, a, .dflt h1 h2, hf, ha => by
    cases hf; cases ha
    exact ⟨_, rfl, .inr (.inl ⟨_, _, _, rfl, h1, rfl⟩)⟩
  | _, _, _, 0, f, a, .void h2, hf, ha => by
    cases hf; cases ha
    exact ⟨_, rfl, .inr (.inr ⟨rfl, rfl⟩)⟩
  | _, _, _, k + 1, f, a, .lazy h1 h2, hf, ha => by
    obtain ⟨ch, g1, g2⟩ := freshRep_get (k := k) h2 hf ha
    exact ⟨ch, g1, g2⟩
  | _, _, _, k + 1, f, a, .dflt h1 h2, hf, ha => by
    obtain ⟨ch, g1, g2⟩ := freshRep_get (k := k) h2 hf ha
    exact ⟨ch, g1, g2⟩
  | _, _, _, k + 1, f, a, .void h2, hf, ha => by
    obtain ⟨ch, g1, g2⟩ := freshRep_get (k := k) h2 hf ha
    exact ⟨ch, g1, g2⟩

theorem freshRep_length {E : Env} {fs : List Field} {cs : List Child} {as : List AVal} (h : FreshRep E fs cs as) :
    cs.length = fs.length ∧ as.length = fs.length := by
  induction h with
  | nil => exact ⟨rfl, rfl⟩
  | _ => simp_all

/-- Reading a field of a loaded SEQUENCE. -/
theorem loaded_field {E : Env} {U : ClassId → Prop} (hU : Universe E U) {c : ClassId} {p : Params} {w : Val} {as : List AVal} {n k : Nat}
    {proto : Obj Unit} {bad : List Nat} {isSet : Bool} {fields : List Field} {oid : Option OidPair} {f : Field} {a : AVal}
    (hg : GoodUse E U c p) (hw : JustLoaded E c p w (.seq as)) (hc : E.cls c = .seq proto bad isSet fields oid)
    (hf : fields[k]? = some f) (ha : as[k]? = some a) (hn : a.depth + 3 ≤ n) :
    ∃ x w' x', getItem E (ops E n) w k = .ok (x, w') ∧ (a = .absent → x = .void) ∧ (ops E n).native x = .ok (a.native E f.spec, x') := by
  cases hw with
  | @seq _ _ o proto bad fields as data h1 h2 h3 =>
    rw [h1] at hc
    cases hc
    obtain ⟨_, _, _, _, _, hdist, hfs⟩ := hU.seq _ _ _ _ _ _ hg.mem h1
    have hgf := hfs f (List.mem_of_getElem? hf)
    obtain ⟨m, rfl⟩ : ∃ m, n = m + 1 := ⟨n - 1, by omega⟩
    obtain ⟨cs, k1, k2⟩ := parseSeq_ok (n := m) hU hfs hdist h3
    obtain ⟨ch, g1, g2⟩ := freshRep_get k2 hf ha
    have hpar : paramsAt fields k = f.params := by simp [paramsAt, hf]
    have get : ∀ x, buildChild (ops E (m + 1)) f.params ch = .ok x →
        getItem E (ops E (m + 1)) (.node c o none false) k = .ok (x, .node c o (some (cs.set k (.val x))) false) := by
      intro x hx
      simp only [getItem, ensureChildren, parseChildren, h1, h2, k1, bind, Except.bind, g1, hpar, hx]
    rcases g2 with ⟨i, rfl, hd⟩ | ⟨st, pr, s, rfl, hl, rfl⟩ | ⟨rfl, rfl⟩
    · obtain ⟨x, l1, l2⟩ := build_total (n := m + 1) hU hgf hd (by omega)
      obtain ⟨⟨y, x'⟩, l3⟩ := native_total hU _ (Nat.le_refl _) hgf l2 hn
      have l4 := ((sim_ops hU (m + 1)).native hgf ((sim_ops hU (m + 1)).build (q := false) hgf hd (fun h => by cases h) l1) l3).1
      refine ⟨x, _, x', get x l1, ?_, by rw [← l4]; exact l3⟩
      rintro rfl
      exact absurd rfl (dec_ne_absent hd)
    · obtain ⟨st', l1, _⟩ := hl.native
      refine ⟨_, _, .leaf f.spec st', get _ rfl, (fun h => by cases h), ?_⟩
      show nativeStep E (ops E m) (.leaf f.spec st) = _
      simp only [nativeStep, bind, Except.bind, l1, AVal.native]
    · exact ⟨_, _, .void, get _ rfl, fun _ => rfl, rfl⟩

theorem listRep_lazy {E : Env} {ch : ClassId} : ∀ {is : List Info} {as : List AVal} {k : Nat} {a : AVal},
    ListRep E ch (is.map (fun i => .lazy i (some ch) none)) as → as[k]? = some a → ∃ i, is[k]? = some i ∧ Dec E ch {} i.tlv a
  | [], as, k, a, h, ha => by
    cases h
    simp at ha
  | i :: is, as, k, a, h, ha => by
    have : ∃ b bs, as = b :: bs ∧ Dec E ch {} i.tlv b ∧ ListRep E ch (is.map (fun i => .lazy i (some ch) none)) bs := by
      cases h with
      | lazy h1 h2 => exact ⟨_, _, rfl, h1, h2⟩
    obtain ⟨b, bs, rfl, h1, h2⟩ := this
    cases k with
    | zero => cases ha; exact ⟨i, rfl, h1⟩
    | succ k =>
      obtain ⟨j, g1, g2⟩ := listRep_lazy (k := k) h2 ha
      exact ⟨j, g1, g2⟩

/-- Reading an element of a loaded SEQUENCE OF, and its length. -/
theorem loaded_element {E : Env} {U : ClassId → Prop} (hU : Universe E U) {c ch : ClassId} {p : Params} {w : Val} {as : List AVal} {n : Nat}
    {proto : Obj Unit} {bad : List Nat} {isSet : Bool}
    (hg : GoodUse E U c p) (hw : JustLoaded E c p w (.list as)) (hc : E.cls c = .seqOf proto bad isSet (some ch)) (hn : AVal.depths as + 3 ≤ n) :
    (∃ w', lenOf E (ops E n) w = .ok (as.length, w')) ∧
    (∀ k a, as[k]? = some a → ∃ x w' x', getItem E (ops E n) w k = .ok (x, w') ∧ (ops E n).native x = .ok (a.native E ch, x')) ∧
    (∀ k, as.length ≤ k → getItem E (ops E n) w k = .error .indexError) := by
  cases hw with
  | @list _ _ o proto bad ch' as data h1 h2 h3 =>
    rw [h1] at hc
    cases hc
    obtain ⟨_, _, _, d, hd, hUd⟩ := hU.seqOf _ _ _ _ _ hg.mem h1
    cases hd
    obtain ⟨is, k1, k2⟩ := parseSeqOf_ok h3
    have hlen := listRep_length k2
    rw [List.length_map] at hlen
    refine ⟨⟨.node c o (some (is.map (fun i => .lazy i (some ch) none))) false, ?_⟩, ?_, ?_⟩
    · simp only [lenOf, ensureChildren, parseChildren, h1, h2, k1, bind, Except.bind, List.length_map, hlen]
    · intro k a ha
      obtain ⟨i, g1, g2⟩ := listRep_lazy k2 ha
      have hgd : GoodUse E U ch {} := goodUse_plain hUd
      have hda := depths_mem (List.mem_of_getElem? ha)
      obtain ⟨x, l1, l2⟩ := build_total (n := n) hU hgd g2 (by omega)
      obtain ⟨⟨y, x'⟩, l3⟩ := native_total (n := n) hU _ (Nat.le_refl _) hgd l2 (by omega)
      have l4 := ((sim_ops hU n).native hgd ((sim_ops hU n).build (q := false) hgd g2 (fun h => by cases h) l1) l3).1
      have l1 : buildChild (ops E n) {} (.lazy i (some ch) none) = .ok x := l1
      have g1 : (is.map (fun i => Child.lazy i (some ch) none))[k]? = some (.lazy i (some ch) none) := by
        rw [List.getElem?_map, g1]; rfl
      refine ⟨x, .node c o (some ((is.map (fun i => Child.lazy i (some ch) none)).set k (.val x))) false, x', ?_, by rw [← l4]; exact l3⟩
      simp only [getItem, ensureChildren, parseChildren, h1, h2, k1, bind, Except.bind, g1, l1]
    · intro k hk
      have g1 : (is.map (fun i => Child.lazy i (some ch) none))[k]? = none := by
        rw [List.getElem?_eq_none_iff, List.length_map]
        omega
      simp only [getItem, ensureChildren, parseChildren, h1, h2, k1, bind, Except.bind, g1]

end Asn1
