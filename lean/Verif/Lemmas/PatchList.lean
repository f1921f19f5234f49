import Verif.Lemmas.PatchOpen

/-! # Elements of a loaded list -/

namespace Asn1
open Spec Props

/-- A list is not looked at when it is loaded. -/
theorem build_list_framed {E : Env} {U : ClassId → Prop} (hT : Types E U) {c : ClassId} {p : Params} {t u : TLV} {proto : Obj Unit} {bad : List Nat}
    {isSet : Bool} {ch : Option ClassId} (hg : Usable E U c p) (hd : p.default = none)
    (hc : E.cls c = .seqOf proto bad isSet ch) (hF : Framed (proto.cls, proto.tag) p t u) (hm : u.method = 1) {i : Info} (hi : i.tlv = t) :
    ∃ pre post o, t.bytes = pre ++ u.header ++ u.contents ++ (u.trailer ++ post) ∧ (∀ j, (ops E (j + 1)).build i (some c) p none = .ok (.node c o none false)) ∧
      NodeObj (effTag (proto.cls, proto.tag) p).1 (effTag (proto.cls, proto.tag) p).2 p.explicit o ∧
      o.header = some (pre ++ u.header) ∧ o.contents = some u.contents ∧ o.trailer = u.trailer ++ post := by
  obtain ⟨hbare, _⟩ := hT.seqOf _ _ _ _ _ hg.mem hc
  have hb : BlankObj proto u.method := by rw [hm]; exact hbare.blank
  obtain ⟨pre, post, b1, b2⟩ := buildObj_split (k := false) (bad := bad) hb (goodParams hg.tags) hF hi
  have hno := nodeObj_framed (h := pre ++ u.header) (c := u.contents) (tr := u.trailer ++ post) hbare hg.tags
  refine ⟨pre, post, _, b1, fun j => ?_, hno, rfl, rfl, rfl⟩
  rw [ops_build]
  refine buildStep_plain ?_
  have hdc : ∀ es, defaultCheck E (ops E j) c p es = .ok () := by
    intro es
    unfold defaultCheck
    rw [if_neg (fun h => by rw [hd] at h; exact absurd h.2.2 (by simp))]
  simp only [buildPlain, hc, bind, Except.bind, hbare.explicit, buildTags_nil, b2, hdc]

/-- A container that has been loaded and not looked into is written as it was. -/
theorem dump_unread_node {E : Env} {c : ClassId} {o : Obj Unit} {h b : Bytes} (hh : o.header = some h) (h80 : headerEnds80 (some h) = false)
    (hc : o.contents = some b) (j : Nat) :
    (ops E (j + 1)).dump (.node c o none false) false = .ok (h ++ b ++ o.trailer, .node c o none false) := by
  have h80' : headerEnds80 o.header = false := by rw [hh]; exact h80
  have hr : checkRequired E c none = .ok () := checkRequired_none E c
  rw [ops_dump]
  simp only [dumpStep, nodeDump, h80', Bool.or_false, Bool.false_and, Bool.false_eq_true, if_false, hr, nodeContents, bind, Except.bind]
  simp only [asn1Dump, hc, hh, h80, Bool.or_false]

/-- An element that has been loaded is written as it was. -/
theorem kept_element {E : Env} {U : ClassId → Prop} (hT : Types E U) {c : ClassId} {p : Params} {t : TLV} {n : PyVal}
    (hg : Usable E U c p) (hd : p.default = none) (he : Enc E U (some c) none p t n) (hdef : Definite E c p t) {i : Info} (hi : i.tlv = t) (j : Nat) :
    ∃ v, (ops E (j + 1)).build i (some c) p none = .ok v ∧ ∃ w, (ops E (j + 1)).dump v false = .ok (t.bytes, w) := by
  obtain ⟨d, u', d1, d2, d3⟩ := hdef
  have hdc : ∀ es, defaultCheck E (ops E j) c p es = .ok () := by
    intro es
    unfold defaultCheck
    rw [if_neg (fun h => by rw [hd] at h; exact absurd h.2.2 (by simp))]
  have hber := framed_ber d2
  have node_seq : ∀ {proto bad isSet fields oid u}, E.cls c = .seq proto bad isSet fields oid → Framed (proto.cls, proto.tag) p t u → u.method = 1 →
      ∃ v, (ops E (j + 1)).build i (some c) p none = .ok v ∧ ∃ w, (ops E (j + 1)).dump v false = .ok (t.bytes, w) := by
    intro proto bad isSet fields oid u h1 h2 h3
    obtain rfl : u' = u := inside_unique d2.inside h2.inside
    obtain ⟨pre, post, o, o1, o2, _, o4, o5, o6⟩ := build_seq_framed hT hg hd h1 h2 h3 hi
    exact ⟨_, o2 j, _, by rw [dump_unread_node o4 (ends80_ok hber d3 pre) o5, o6, o1]⟩
  cases he with
  | @leaf _ _ _ u s proto bad h1 h2 h3 =>
    obtain rfl : u' = u := inside_unique d2.inside h2.inside
    have hbare := hT.leaf _ _ _ hg.mem h1
    have hm : u'.method = 0 := by
      rcases h3 with ⟨m1, _⟩ | ⟨_, m2, _⟩
      · exact m1
      · rw [plain_trailer hber d3] at m2; cases m2
    have hbl : BlankObj proto.base u'.method := by rw [hm]; exact hbare.blank
    obtain ⟨pre, post, b1, b2⟩ := buildObj_split (k := (proto.init p.tags).constructable) (bad := bad) hbl (goodParams hg.tags) h2 hi
    generalize hB : framedObj (initTagging proto.base p.tags) (pre ++ u'.header) u'.contents (u'.trailer ++ post) false = B at b2
    have hl : LeafSt.build bad (proto.init p.tags) i = .ok (proto.map (Obj.over B)) := by
      rw [LeafSt.build_eq, LeafSt.base_init, b2]
      simp only [Except.map, LeafSt.init, LeafSt.map_map]
      rfl
    have hbase : (proto.map (Obj.over B)).base = B := by
      rw [LeafSt.base_over, Obj.erase_unit B (by rw [← hB]; rfl)]
    refine ⟨.leaf c (proto.map (Obj.over B)), ?_, .leaf c (proto.map (Obj.over B)), ?_⟩
    · rw [ops_build]
      refine buildStep_plain ?_
      simp only [buildPlain, h1, bind, Except.bind, hbare.explicit, buildTags_nil, hdc, hl]
    · rw [ops_dump]
      have := LeafSt.dump_kept (s := proto.map (Obj.over B)) (h := pre ++ u'.header) (c := u'.contents) (by rw [hbase, ← hB]; rfl) (ends80_ok hber d3 pre)
        (by rw [hbase, ← hB]; rfl)
      simp only [dumpStep, this, bind, Except.bind]
      rw [hbase, b1, ← hB]
      rfl
  | seq h1 _ h2 h3 => exact node_seq h1 h2 h3
  | openSeq h1 h2 h3 => exact node_seq h1 h2 h3
  | set h1 h2 h3 => exact node_seq h1 h2 h3
  | list h1 h2 h3 =>
    cases inside_unique d2.inside h2.inside
    obtain ⟨pre, post, o, o1, o2, _, o4, o5, o6⟩ := build_list_framed hT hg hd h1 h2 h3 hi
    exact ⟨_, o2 j, _, by rw [dump_unread_node o4 (ends80_ok hber d3 pre) o5, o6, o1]⟩
  | choice h1 => rw [h1] at d1; cases d1
  | any h1 => rw [h1] at d1; cases d1
  | @string _ _ _ u b o isBit h1 h2 h3 h4 =>
    obtain rfl : u' = u := inside_unique d2.inside h2.inside
    have hbare := hT.parsable _ _ _ hg.mem h1
    have hbl : BlankObj o u'.method := by rw [h3]; exact hbare.blank
    obtain ⟨pre, post, b1, b2⟩ := buildObj_split (k := true) (bad := []) hbl (goodParams hg.tags) h2 hi
    generalize hB : framedObj (initTagging o p.tags) (pre ++ u'.header) u'.contents (u'.trailer ++ post) _ = B at b2
    refine ⟨.parsable c B none none, ?_, .parsable c B none none, ?_⟩
    · rw [ops_build]
      refine buildStep_plain ?_
      simp only [buildPlain, h1, bind, Except.bind, hbare.explicit, buildTags_nil, hdc, b2]
    · have hind : B.indefinite = false := by
        rw [← hB]
        simp [framedObj, h3]
      have hh : B.header = some (pre ++ u'.header) := by rw [← hB]; rfl
      have hcc : B.contents = some u'.contents := by rw [← hB]; rfl
      have htr : B.trailer = u'.trailer ++ post := by rw [← hB]; rfl
      rw [ops_dump]
      have h80 := ends80_ok hber d3 pre
      simp only [dumpStep, parsableDump, hind, Bool.or_false, Bool.false_eq_true, if_false, bind, Except.bind, asn1Dump, hcc, hh, h80]
      rw [htr, b1]

theorem elements_open {E : Env} {U : ClassId → Prop} {ch : ClassId} {b : List UInt8} {ds : List Doc} (h : ElementsOpen E U ch b ds) :
    ∃ ts : List TLV, Elements b ts ∧ ds = ts.map (Doc.loaded ch none) ∧ ∀ t ∈ ts, (∃ n, Enc E U (some ch) none {} t n) ∧ Definite E ch {} t := by
  induction h with
  | nil => exact ⟨[], ⟨rfl, fun v hv => by cases hv⟩, rfl, fun t ht => by cases ht⟩
  | @cons t b n ds h1 h2 _ ih =>
    obtain ⟨ts, k1, rfl, k3⟩ := ih
    refine ⟨t :: ts, ⟨?_, ?_⟩, rfl, ?_⟩
    · rw [k1.1]; rfl
    · rintro v hv
      rcases List.mem_cons.mp hv with rfl | hv
      · exact enc_ber h1
      · exact k1.2 v hv
    · intro v hv
      rcases List.mem_cons.mp hv with rfl | hv
      · exact ⟨⟨n, h1⟩, h2⟩
      · exact k3 v hv

/-- A child of a list is written as described. -/
structure SettledItem (E : Env) (N : Nat) (ch : Child) (d : Doc) (b : Bytes) : Prop where
  plain : d.plain = some b
  enc : ∀ j ≥ N, ∃ v w, buildChild (ops E j) {} ch = .ok v ∧ (ops E j).dump v false = .ok (b, w)
  pending : ∀ c nested t, d = .loaded c nested t → ∃ i : Info, i.tlv = t ∧ ch = .lazy i (some c) nested

theorem SettledItem.mono {E : Env} {N M : Nat} {ch : Child} {d : Doc} {b : Bytes} (h : SettledItem E N ch d b) (hM : N ≤ M) : SettledItem E M ch d b :=
  ⟨h.plain, fun j hj => h.enc j (by omega), h.pending⟩

/-- The children of a loaded list. -/
theorem list_opened {E : Env} {U : ClassId → Prop} (hT : Types E U) {ch : ClassId} (hu : Usable E U ch {}) {b : List UInt8} {ds : List Doc}
    (h : ElementsOpen E U ch b ds) :
    ∃ cs, parseSeqOf (some ch) (some b) = .ok cs ∧ cs.length = ds.length ∧
      ∀ (k : Nat) kid d, cs[k]? = some kid → ds[k]? = some d → ∃ b, SettledItem E 1 kid d b := by
  obtain ⟨ts, k1, rfl, k3⟩ := elements_open h
  have hinfo : ∃ is : List Info, is.map Info.tlv = ts := by
    refine ⟨ts.map (fun t => ⟨t.cls, t.method, t.tag, t.header, t.contents, t.trailer⟩), ?_⟩
    rw [List.map_map]
    exact (List.map_congr_left (fun v _ => rfl)).trans (List.map_id _)
  obtain ⟨is, rfl⟩ := hinfo
  refine ⟨_, (parseSeqOf_ok_iff _ _ _).mpr ⟨is, k1, rfl⟩, by simp, fun k kid d h1 h2 => ?_⟩
  simp only [List.map_map, List.getElem?_map, Option.map_eq_some_iff, Function.comp_def] at h1 h2
  obtain ⟨i, i1, rfl⟩ := h1
  obtain ⟨i', i2, rfl⟩ := h2
  rw [i1] at i2
  cases i2
  obtain ⟨⟨n, hn⟩, hdef⟩ := k3 i.tlv (List.mem_map.mpr ⟨i, List.mem_of_getElem? i1, rfl⟩)
  refine ⟨i.tlv.bytes, rfl, fun j hj => ?_, fun c nested t h => ?_⟩
  · obtain ⟨j, rfl⟩ : ∃ k, j = k + 1 := ⟨j - 1, by omega⟩
    obtain ⟨v, h1, w, h2⟩ := kept_element hT hu rfl hn hdef rfl j
    exact ⟨v, w, h1, h2⟩
  · cases h
    exact ⟨i, rfl, rfl⟩

/-- What is put into a list. -/
theorem element_given {E : Env} {U : ClassId → Prop} (hT : Types E U) (hM : Makable E U) {ch : ClassId} (hu : U ch) {x n : PyVal} {t : TLV}
    (h : ListGiven E U ch [x] [(t, n)]) :
    ∃ M u, ∀ j ≥ M, makeElement E (ops E j) ch x = .ok u ∧ SettledItem E M (.val u) (.given t) t.bytes := by
  have key : ∃ u w, Ev (fun j => makeElement E (ops E j) ch x = .ok u) ∧ Ev (fun j => (ops E j).dump u false = .ok (t.bytes, w)) := by
    cases h with
    | plain h1 h2 h3 =>
      obtain ⟨u, w, k1, k2, _⟩ := element_plain h1 (gives_makes hT hM h2 hu) h3
      exact ⟨u, w, k1, k2⟩
    | inst h1 h2 h3 =>
      obtain ⟨w, k1, k2, _⟩ := element_inst hT hu h1 (gives_makes hT hM h2 hu) h3
      exact ⟨_, w, k1, k2⟩
    | alternative h1 h2 h3 h4 h5 =>
      obtain ⟨u, w, k1, k2, _⟩ := element_alternative hT hu h1 h3 (gives_makes hT hM h4 h2) h5
      exact ⟨u, w, k1, k2⟩
  obtain ⟨u, w, k1, k2⟩ := key
  obtain ⟨M, hM'⟩ := k1.and k2
  exact ⟨M, u, fun j hj => ⟨(hM' j hj).1, rfl, fun j hj => ⟨u, w, rfl, (hM' j hj).2⟩, fun c nested t h => by cases h⟩⟩

end Asn1
