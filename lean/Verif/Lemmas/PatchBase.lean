import Verif.Spec.Patch
import Verif.Lemmas.MadeAll
import Verif.Lemmas.ForceMain
import Verif.Lemmas.RepHist

/-! # Parts of a loaded structure that are written as they are -/

namespace Asn1
open Spec Props

/-! ### Loaded SEQUENCEs -/

/-- A SEQUENCE without a default value is not looked at when it is loaded. -/
theorem build_seq_framed {E : Env} {U : ClassId → Prop} (hT : Types E U) {c : ClassId} {p : Params} {t u : TLV} {proto : Obj Unit} {bad : List Nat}
    {isSet : Bool} {fields : List Field} {oid : Option OidPair} (hg : Usable E U c p) (hd : p.default = none)
    (hc : E.cls c = .seq proto bad isSet fields oid) (hF : Framed (proto.cls, proto.tag) p t u) (hm : u.method = 1) {i : Info} (hi : i.tlv = t) :
    ∃ pre post o, t.bytes = pre ++ u.header ++ u.contents ++ (u.trailer ++ post) ∧ (∀ j, (ops E (j + 1)).build i (some c) p none = .ok (.node c o none false)) ∧
      NodeObj (effTag (proto.cls, proto.tag) p).1 (effTag (proto.cls, proto.tag) p).2 p.explicit o ∧
      o.header = some (pre ++ u.header) ∧ o.contents = some u.contents ∧ o.trailer = u.trailer ++ post := by
  obtain ⟨hbare, _⟩ := hT.seq _ _ _ _ _ _ hg.mem hc
  have hb : BlankObj proto u.method := by rw [hm]; exact hbare.blank
  obtain ⟨pre, post, b1, b2⟩ := buildObj_split (k := false) (bad := bad) hb (goodParams hg.tags) hF hi
  have hno := nodeObj_framed (h := pre ++ u.header) (c := u.contents) (tr := u.trailer ++ post) hbare hg.tags
  refine ⟨pre, post, _, b1, fun j => ?_, hno, rfl, rfl, rfl⟩
  rw [ops_build]
  refine buildStep_plain ?_
  have hdc : ∀ es, defaultCheck E (ops E j) c p es = .ok () := by
    intro es
    unfold defaultCheck
    rw [if_neg (fun h => by rw [hd] at h; exact absurd h.2.2 (by simp))]
  have hoe := hno.explicit
  generalize framedObj (initTagging proto p.tags) (pre ++ u.header) u.contents (u.trailer ++ post) false = o at b2 hoe
  simp only [buildPlain, hc, bind, Except.bind, hbare.explicit, buildTags_nil, b2, hdc, hd, hoe]
  cases p.explicit <;> rfl

/-- A SEQUENCE that has been loaded and looked into is written as it was. -/
theorem dump_kept_node {E : Env} {c : ClassId} {o : Obj Unit} {cs : List Child} {h b : Bytes} (hh : o.header = some h) (h80 : headerEnds80 (some h) = false)
    (hc : o.contents = some b) (hm : (Val.node c o (some cs) false).isMutated = false) (hr : checkRequired E c (some cs) = .ok ()) (j : Nat) :
    (ops E (j + 1)).dump (.node c o (some cs) false) false = .ok (h ++ b ++ o.trailer, .node c o (some cs) false) := by
  have h80' : headerEnds80 o.header = false := by rw [hh]; exact h80
  rw [ops_dump]
  simp only [dumpStep, nodeDump, h80', Bool.or_false, Bool.false_and, Bool.false_eq_true, if_false, hr, nodeContents, hm, bind, Except.bind]
  simp only [asn1Dump, hc, hh, h80, Bool.or_false]

theorem ends80_ok {u : TLV} (hb : Ber 11 u) (h : u.header.getLast? ≠ some 0x80) (pre : Bytes) : headerEnds80 (some (pre ++ u.header)) = false :=
  ends80_append (ber_header_ne hb) h

/-! ### The fields of an encoding -/

theorem fields_places {E : Env} {U : ClassId → Prop} (hU : Types E U) {oid : Option OidPair} {fs : List Field} {before : List PyVal} {b : List UInt8}
    {ns : List PyVal} (h : FieldsEnc E U oid fs before b ns) : Places E U oid fs before b ns := by
  refine FieldsEnc.rec (motive_1 := fun _ _ _ _ _ _ => True) (motive_2 := fun oid fs before b ns _ => Places E U oid fs before b ns)
    (motive_3 := fun _ _ _ _ => True) (motive_4 := fun _ _ _ _ => True)
    ?_ ?_ ?_ ?_ ?_ ?_ ?_ ?_ ?_ ?_ ?_ ?_ ?_ ?_ ?_ ?_ ?_ ?_ ?_ ?_ ?_ h
  case refine_12 => intros; exact places_nil
  case refine_13 =>
    intro oid f fs before pick t b n ns h1 h2 h3 _ ih
    exact places_present hU h1 h2 (fun c hc hu hn => by cases hc; exact enc_loads hU h2 hu hn) ih
  case refine_14 =>
    intro oid f fs before b ns h1 h2 _ ih
    exact places_skip hU (by simp [Field.skippable, h1]) (.inl ⟨h1, h2, rfl⟩) ih
  case refine_15 =>
    intro oid f fs before b n ns h1 h2 _ ih
    exact places_skip hU (by simp [Field.skippable, h1]) (.inr ⟨h1, h2⟩) ih
  all_goals intros; trivial

/-! ### The field that decides -/

/-- A primitive field that has been read is written as it was. -/
theorem kept_leaf {E : Env} {U : ClassId → Prop} (hT : Types E U) {c : ClassId} {p : Params} {t : TLV} {n : PyVal} {proto : LeafSt} {bad : List Nat}
    (hc : E.cls c = .leaf proto bad) (hg : Usable E U c p) (hd : p.default = none) (he : Enc E U (some c) none p t n) (hdef : Definite E c p t) {i : Info}
    (hi : i.tlv = t) {j : Nat} {v w : Val} {m : PyVal} (hb : (ops E (j + 1)).build i (some c) p none = .ok v) (hn : (ops E (j + 1)).native v = .ok (m, w)) :
    w.isMutated = false ∧ w ≠ .void ∧ ∀ j', (ops E (j' + 1)).dump w false = .ok (t.bytes, w) := by
  cases he with
  | @leaf _ _ _ u s proto' bad' h1 h2 h3 =>
    rw [hc] at h1
    injection h1 with h1 h1'
    subst h1; subst h1'
    obtain ⟨d, u', d1, d2, d3⟩ := hdef
    have hu : u' = u := inside_unique d2.inside h2.inside
    subst hu
    have hbare := hT.leaf _ _ _ hg.mem hc
    have hber := framed_ber h2
    have hm : u'.method = 0 := by
      rcases h3 with ⟨m1, _⟩ | ⟨_, m2, _⟩
      · exact m1
      · rw [plain_trailer hber d3] at m2; cases m2
    have hbl : BlankObj proto.base u'.method := by rw [hm]; exact hbare.blank
    obtain ⟨pre, post, b1, b2⟩ := buildObj_split (k := (proto.init p.tags).constructable) (bad := bad) hbl (goodParams hg.tags) h2 hi
    have hdc : ∀ es, defaultCheck E (ops E j) c p es = .ok () := by
      intro es
      unfold defaultCheck
      rw [if_neg (fun h => by rw [hd] at h; exact absurd h.2.2 (by simp))]
    generalize hB : framedObj (initTagging proto.base p.tags) (pre ++ u'.header) u'.contents (u'.trailer ++ post) false = B at b2
    have hv : v = .leaf c (proto.map (Obj.over B)) := by
      have hl : LeafSt.build bad (proto.init p.tags) i = .ok (proto.map (Obj.over B)) := by
        rw [LeafSt.build_eq, LeafSt.base_init, b2]
        simp only [Except.map, LeafSt.init, LeafSt.map_map]
        rfl
      have : (ops E (j + 1)).build i (some c) p none = .ok (.leaf c (proto.map (Obj.over B))) := by
        rw [ops_build]
        refine buildStep_plain ?_
        simp only [buildPlain, hc, bind, Except.bind, hbare.explicit, buildTags_nil, hdc, hl]
      rw [this] at hb
      injection hb with hb
      exact hb.symm
    subst hv
    have hbase : (proto.map (Obj.over B)).base = B := by
      rw [LeafSt.base_over, Obj.erase_unit B (by rw [← hB]; rfl)]
    rw [ops_native] at hn
    simp only [nativeStep, bind, Except.bind] at hn
    cases hnat : (proto.map (Obj.over B)).native with
    | error e => rw [hnat] at hn; cases hn
    | ok r =>
      rw [hnat] at hn
      obtain ⟨x, st⟩ := r
      injection hn with hn
      injection hn with _ hn
      subst hn
      have hst := LeafSt.native_base (d := u'.contents) (by rw [hbase, ← hB]; rfl) hnat
      rw [hbase] at hst
      refine ⟨by simp [Val.isMutated], (fun h => (by cases h)), fun j' => ?_⟩
      rw [ops_dump]
      have := LeafSt.dump_kept (s := st) (h := pre ++ u'.header) (c := u'.contents) (by rw [hst, ← hB]; rfl) (ends80_ok hber d3 pre) (by rw [hst, ← hB]; rfl)
      simp only [dumpStep, this, bind, Except.bind]
      rw [hst, b1, ← hB]
      rfl
  | _ => simp_all

/-- A SEQUENCE of which a field has been read is written as it was. -/
theorem kept_node {E : Env} {U : ClassId → Prop} (hT : Types E U) {c : ClassId} {p : Params} {t : TLV} {n : PyVal} {proto : Obj Unit} {bad : List Nat}
    {fs : List Field} {oid : Option OidPair} (hc : E.cls c = .seq proto bad false fs oid) (hg : Usable E U c p) (hd : p.default = none)
    (he : Enc E U (some c) none p t n) (hdef : Definite E c p t) {k : Nat} {g : Field} (hk : fs[k]? = some g) :
    ∃ M, ∀ i : Info, i.tlv = t → ∀ j ≥ M, ∀ v x w, (ops E j).build i (some c) p none = .ok v → (ops E j).item v k = .ok (x, w) → w.isMutated = false →
      w ≠ .void ∧ ∀ j', (ops E (j' + 1)).dump w false = .ok (t.bytes, w) := by
  cases he with
  | @seq _ _ _ u ns proto' bad' fs' oid' h1 h2 h3 h4 h5 =>
    rw [hc] at h1
    injection h1 with h1 h1' _ h1'' h1'''
    subst h1; subst h1'; subst h1''; subst h1'''
    obtain ⟨d, u', d1, d2, d3⟩ := hdef
    have hu : u' = u := inside_unique d2.inside h3.inside
    subst hu
    obtain ⟨hbare, hus, hseq, _⟩ := hT.seq _ _ _ _ _ _ hg.mem hc
    obtain ⟨hap, hoid⟩ := hseq rfl
    obtain ⟨N, hN⟩ := parseSeq_places (fields_places hT h5) hus hap hoid
    refine ⟨N + 2, fun i hi j hj v x w hb hx hm => ?_⟩
    obtain ⟨j, rfl⟩ : ∃ k, j = k + 1 := ⟨j - 1, by omega⟩
    obtain ⟨pre, post, o, o1, o2, _, o4, o5, o6⟩ := build_seq_framed hT hg hd hc h3 h4 hi
    rw [o2 j] at hb
    injection hb with hb
    subst hb
    obtain ⟨cs, c1, c2⟩ := hN j (by omega)
    have hlen : cs.length = fs.length := by rw [c2.1]; exact (fields_places hT h5).1
    obtain ⟨ch, hch⟩ : ∃ ch, cs[k]? = some ch := ⟨_, List.getElem?_eq_getElem (h := by rw [hlen]; exact (List.getElem?_eq_some_iff.mp hk).1)⟩
    rw [ops_item] at hx
    simp only [Asn1.getItem, ensureChildren, parseChildren, hc, o5, c1, hch, bind, Except.bind] at hx
    cases hbc : buildChild (ops E j) (paramsAt fs k) ch with
    | error e => rw [hbc] at hx; cases hx
    | ok y =>
      rw [hbc] at hx
      injection hx with hx
      injection hx with hx1 hx2
      subst hx1; subst hx2
      refine ⟨(fun h => (by cases h)), fun j' => ?_⟩
      have hreq : checkRequired E c (some (cs.set k (.val y))) = .ok () := by
        simp only [checkRequired, hc]
        rw [requiredPresent_iff]
        refine ⟨by simp [hlen], fun i' f ch' hf hi' hv => ?_⟩
        have key : ∀ ch'', cs[i']? = some ch'' → (∀ y', buildChild (ops E j) f.params ch'' = .ok y' → y' = .void → (f.params.default.isSome || f.params.optional) = true) := by
          intro ch'' hc' y' hb' hv'
          have hpar : paramsAt fs i' = f.params := by simp [paramsAt, hf]
          obtain ⟨n', hn'⟩ : ∃ n', ns[i']? = some n' := ⟨_, List.getElem?_eq_getElem (h := by rw [← c2.1]; exact (List.getElem?_eq_some_iff.mp hc').1)⟩
          have hkid := c2.2 _ _ _ hc' hn'
          rw [hpar] at hkid
          cases ch'' with
          | «lazy» i'' spec nested =>
            obtain ⟨v', k1, _, k3, _⟩ := hkid j (by omega)
            simp only [buildChild, k1] at hb'
            injection hb' with hb'
            subst hb'
            subst hv'
            exact absurd rfl k3
          | val v' =>
            simp only [buildChild] at hb'
            injection hb' with hb'
            subst hb'
            subst hv'
            rcases hkid.2.2.1 rfl with h | h <;> simp [h]
        rw [List.getElem?_set] at hi'
        split at hi'
        · next heq =>
          subst heq
          split at hi'
          · injection hi' with hi'
            subst hi'
            rw [hk] at hf
            injection hf with hf
            subst hf
            refine key ch hch y (by rw [← hbc]; simp [paramsAt, hk]) ?_
            cases y <;> first | rfl | cases hv
          · cases hi'
        · cases ch' with
          | «lazy» => cases hv
          | val v' => exact key _ hi' v' rfl (by cases v' <;> first | rfl | cases hv)
      rw [dump_kept_node o4 (ends80_ok (framed_ber h3) d3 pre) o5 hm hreq j', o6, o1]
  | openSeq h1 => rw [hc] at h1; injection h1 with _ _ _ h1 _; subst h1; simp at hk
  | _ => simp_all

end Asn1
