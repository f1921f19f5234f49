import Verif.Lemmas.PkgTables
import Verif.Props.C07
import Verif.Props.C12
import Verif.Lemmas.TypesCheck

/-!
# C52 — the name tables of the package

For every class of the package that lists names for its values (`Pkg.env`, every class number below `Pkg.count`): a name is set and encoded as the
value that it is listed for, the encoding of that value is read as the name, and no two values or names of a class get mixed up. `Stands proto name c`
(Spec/Tables) says that the class with the attributes `proto` lists `name` for the value with the contents octets `c`.
-/

namespace Asn1.Props
open Asn1 Spec Pkg

/-- The checked facts about an OID class of the package. -/
theorem oid_class (K : Codecs) {i : ClassId} (hi : i < count) {k : OidClass} {o : OidObj} {bad : List Nat} (h : (env K).cls i = .leaf (.oid k o) bad) :
    o.dotted = none ∧ (∀ m, k.map = some m → OidTable k m) ∧ k.bare = (i == Id.algos.AnyAlgorithmId) := by
  have h1 := leaf_of_all (P := fun _ s => leafTableB s) (leafTables_checked K) hi h
  have h2 := leaf_of_all (P := fun i s => match s with
    | .leaf (.oid k _) _ => k.bare == (i == Id.algos.AnyAlgorithmId)
    | _ => true) (bare_checked K) hi h
  simp only [leafTableB, Bool.and_eq_true, Option.isNone_iff_eq_none] at h1
  exact ⟨h1.1, fun m hm => oidTableB_sound h1.2 hm, by simpa using h2⟩

theorem int_class (K : Codecs) {i : ClassId} (hi : i < count) {m : IntMap} {o : Obj IntNative} {bad : List Nat}
    (h : (env K).cls i = .leaf (.integer (some m) o) bad ∨ (env K).cls i = .leaf (.enumerated (some m) o) bad) :
    (m.map Prod.fst).Nodup ∧ (m.map Prod.snd).Nodup := by
  have : intTableB m = true := by
    rcases h with h | h
    · exact leaf_of_all (P := fun _ s => leafTableB s) (leafTables_checked K) hi h
    · exact leaf_of_all (P := fun _ s => leafTableB s) (leafTables_checked K) hi h
  rw [intTableB, Bool.and_eq_true, decide_eq_true_eq] at this
  refine ⟨this.1, ?_⟩
  have h2 := textsB_sound this.2
  rw [show m.map (fun e => e.2.toList) = (m.map Prod.snd).map String.toList by rw [List.map_map]; rfl] at h2
  exact List.Nodup.of_map _ h2

theorem intContents_of_set (m : Option IntMap) (p : Obj IntNative) (n : Int) :
    ∃ c, Integer.setInt m p n = .ok { p with native := some (Integer.show m n), contents := some c, header := none, trailer := [] } ∧ IntContents n c := by
  obtain ⟨c, h1, h2, h3⟩ := Integer.setInt_spec m p n
  obtain ⟨o', c', k1, k2, _, k3, k4, k5⟩ := C07_set_native p n
  obtain ⟨c2, g1, g2, g3⟩ := Integer.setInt_spec none p n
  have k1' : Integer.setInt none p n = .ok o' := k1
  rw [g1] at k1'
  injection k1' with k1'
  subst k1'
  injection k2 with k2
  subst k2
  rw [h2] at g2
  injection g2 with g2
  subst g2
  exact ⟨c, h1, k3, k4, k5⟩

/-- The contents octets that a name stands for are read as the name, in every class. -/
theorem C52_read (K : Codecs) (i : ClassId) (hi : i < count) (proto : LeafSt) (bad : List Nat) (h : (env K).cls i = .leaf proto bad) (name : Str) (c : Bytes)
    (hn : Stands proto name c) : Reads proto false c (.str name) := by
  cases hn with
  | oid hm he hv hc =>
    rename_i k o m arcs
    obtain ⟨h1, h2, _⟩ := oid_class K hi h
    have ht := h2 m hm
    have := oid_reads_name (o := o) h1 ht hv hc
    rwa [show oidName k (dottedText arcs) = name by simp [oidName, hm, (get_iff ht.keys _ _).mpr he]] at this
  | integer he hc =>
    rename_i m o n s
    obtain ⟨h1, h2⟩ := int_class K hi (.inl h)
    have hs : Integer.show (some m) (valS c) = .name s := by simp [Integer.show, hc.2.1, IntMap.get_of_mem h1 he]
    refine ⟨fun o h => (by cases h), .integer (some m) { o with method := 0, contents := some c, indefinite := false, native := some (.name s) }, ?_, rfl⟩
    have := integer_native (m := some m) (o := { o with method := 0, contents := some c, indefinite := false, native := none }) rfl rfl
    rwa [hs] at this
  | enumerated he hc =>
    rename_i m o n s
    obtain ⟨h1, h2⟩ := int_class K hi (.inr h)
    have hg := IntMap.get_of_mem h1 he
    refine ⟨fun o h => (by cases h), .enumerated (some m) { o with method := 0, contents := some c, indefinite := false, native := some (.name s) }, ?_, rfl⟩
    show (Enumerated.native (some m) { o with method := 0, contents := some c, indefinite := false, native := none }).bind _ = _
    unfold Enumerated.native
    simp only [intFromBytes_signed, hc.2.1, hg]
    rfl

/-- Every name that a class lists can be set, is encoded as a value that it is listed for, and is the value then. Missing: `AnyAlgorithmId`. -/
theorem C52_encode_partial (K : Codecs) (i : ClassId) (hi : i < count) (hx : i ≠ Id.algos.AnyAlgorithmId) (proto : LeafSt) (bad : List Nat)
    (h : (env K).cls i = .leaf proto bad) (name : Str) (hn : name ∈ namesOf proto) :
    ∃ st c, proto.set (.str name) = .ok st ∧ st.base.contents = some c ∧ Stands proto name c ∧ st.native = .ok (.str name, st) := by
  cases proto with
  | oid k o =>
    obtain ⟨h1, h2, h3⟩ := oid_class K hi h
    have hb : k.bare = false := by rw [h3]; simpa using hx
    cases hm : k.map with
    | none => simp [namesOf, hm] at hn
    | some m =>
      have ht := h2 m hm
      simp only [namesOf, hm, Option.getD_some, List.mem_map] at hn
      obtain ⟨e, he, rfl⟩ := hn
      obtain ⟨d, d1, d2⟩ := ht.resolve hb e he
      obtain ⟨arcs, a1, a2⟩ := ht.valid _ d2
      obtain ⟨c, c1, c2⟩ := oidLoop_enc arcs a1
      simp only at a2
      subst a2
      have hw : m.get e.2 = none := get_none (fun hc => by
        obtain ⟨x, x1, x2⟩ := List.mem_map.mp hc
        obtain ⟨arcs', _, y2⟩ := ht.valid x x1
        exact ht.words e he arcs' (y2.trans x2))
      refine ⟨.oid k { o with native := some e.2, contents := some c, header := none, trailer := [] }, c, ?_, rfl, .oid hm d2 a1 c2, ?_⟩
      · simp only [LeafSt.set, oid_set_eq _ d1, c1]
      · rw [oid_native_cached rfl rfl]
        simp [oidName, hm, hw]
  | integer m o =>
    cases m with
    | none => simp [namesOf] at hn
    | some m =>
      simp only [namesOf, Option.getD_some, List.mem_map] at hn
      obtain ⟨⟨n, s⟩, he, rfl⟩ := hn
      obtain ⟨h1, h2⟩ := int_class K hi (.inl h)
      obtain ⟨c, c1, c2⟩ := intContents_of_set (some m) o n
      have hs : Integer.show (some m) n = .name s := by simp [Integer.show, IntMap.get_of_mem h1 he]
      rw [hs] at c1
      refine ⟨.integer (some m) { o with native := some (.name s), contents := some c, header := none, trailer := [] }, c, ?_, rfl, .integer he c2, rfl⟩
      have : Integer.set (some m) o (.name s) = .ok { o with native := some (.name s), contents := some c, header := none, trailer := [] } := by
        rw [← c1]
        simp only [Integer.set, IntMap.rev_of_mem h2 he]
      simp only [LeafSt.set, String.ofList_toList, this, bind, Except.bind, pure, Except.pure]
  | enumerated m o =>
    cases m with
    | none => simp [namesOf] at hn
    | some m =>
      simp only [namesOf, Option.getD_some, List.mem_map] at hn
      obtain ⟨⟨n, s⟩, he, rfl⟩ := hn
      obtain ⟨h1, h2⟩ := int_class K hi (.inr h)
      obtain ⟨c, c1, c2⟩ := intContents_of_set (some m) o n
      have hs : Integer.show (some m) n = .name s := by simp [Integer.show, IntMap.get_of_mem h1 he]
      rw [hs] at c1
      refine ⟨.enumerated (some m) { o with native := some (.name s), contents := some c, header := none, trailer := [] }, c, ?_, rfl, .enumerated he c2, rfl⟩
      obtain ⟨o1, c', _, k2, k3, _⟩ := C07_named m o h1 h2 n s he
      have : Enumerated.set (some m) o (.name s) = .ok { o with native := some (.name s), contents := some c, header := none, trailer := [] } := by
        rw [← c1, k3]
        exact k2.symm
      simp only [LeafSt.set, String.ofList_toList, this, bind, Except.bind, pure, Except.pure]
  | _ => simp [namesOf] at hn

/-- No value has two names. -/
theorem C52_one_name (K : Codecs) (i : ClassId) (hi : i < count) (proto : LeafSt) (bad : List Nat) (h : (env K).cls i = .leaf proto bad) (a b : Str)
    (c : Bytes) (ha : Stands proto a c) (hb : Stands proto b c) : a = b := by
  obtain ⟨_, s1, h1, _⟩ := C52_read K i hi proto bad h a c ha
  obtain ⟨_, s2, h2, _⟩ := C52_read K i hi proto bad h b c hb
  rw [h1] at h2
  injection h2 with h2
  injection h2 with h2 _
  injection h2

theorem intContents_unique {n : Int} {c d : Bytes} (hc : IntContents n c) (hd : IntContents n d) : c = d := by
  have h1 := hc.2.2 d hd.1 hd.2.1
  have h2 := hd.2.2 c hc.1 hc.2.1
  exact (h1.2 (by omega)).symm

/-- No name stands for two values. Missing: `SignedDigestAlgorithmId`, `AnyAlgorithmId`. -/
theorem C52_one_value_partial (K : Codecs) (i : ClassId) (hi : i < count) (hx : i ≠ Id.algos.AnyAlgorithmId) (hs : i ≠ Id.algos.SignedDigestAlgorithmId)
    (proto : LeafSt) (bad : List Nat) (h : (env K).cls i = .leaf proto bad) (name : Str) (c d : Bytes) (hc : Stands proto name c) (hd : Stands proto name d) :
    c = d := by
  cases hc with
  | oid hm he hv hc =>
    rename_i k o m arcs
    cases hd with
    | oid hm' he' hv' hd =>
      rename_i m' arcs'
      rw [hm] at hm'
      injection hm' with hm'
      subst hm'
      have h1 := leaf_of_all (P := fun i s => i == Id.algos.SignedDigestAlgorithmId || i == Id.algos.AnyAlgorithmId || oneNameB s) (oneName_checked K) hi h
      have h2 : oneNameB (.leaf (.oid k o) bad) = true := by
        simpa [hx, hs] using h1
      rw [oneNameB, hm] at h2
      have h3 := textsB_sound h2
      have h4 : (dottedText arcs, name) = (dottedText arcs', name) := List.inj_on_of_nodup_map h3 he he' rfl
      injection h4 with h4 _
      obtain ⟨x, x1, x2⟩ := oidLoop_enc arcs hv
      obtain ⟨y, y1, y2⟩ := oidLoop_enc arcs' hv'
      rw [h4, y1] at x1
      injection x1 with x1
      rw [OidContents_unique hc x2, OidContents_unique hd y2, x1]
  | integer he hc =>
    rename_i m o n s
    generalize hg : s.toList = t at hd
    cases hd with
    | integer he' hd =>
      rename_i n' s'
      obtain ⟨h1, h2⟩ := int_class K hi (.inl h)
      have : s = s' := String.ext hg
      subst this
      have h4 : (n, s) = (n', s) := List.inj_on_of_nodup_map h2 he he' rfl
      injection h4 with h4 _
      subst h4
      exact intContents_unique hc hd
  | enumerated he hc =>
    rename_i m o n s
    generalize hg : s.toList = t at hd
    cases hd with
    | enumerated he' hd =>
      rename_i n' s'
      obtain ⟨h1, h2⟩ := int_class K hi (.inr h)
      have : s = s' := String.ext hg
      subst this
      have h4 : (n, s) = (n', s) := List.inj_on_of_nodup_map h2 he he' rfl
      injection h4 with h4 _
      subst h4
      exact intContents_unique hc hd

/-- A value that has been read and is set again keeps its encoding. Missing: `SignedDigestAlgorithmId`, `AnyAlgorithmId`. -/
theorem C52_again_partial (K : Codecs) (i : ClassId) (hi : i < count) (hx : i ≠ Id.algos.AnyAlgorithmId) (hs : i ≠ Id.algos.SignedDigestAlgorithmId)
    (proto : LeafSt) (bad : List Nat) (h : (env K).cls i = .leaf proto bad) (name : Str) (c : Bytes) (hc : Stands proto name c) :
    ∃ st, proto.set (.str name) = .ok st ∧ st.base.contents = some c := by
  have hn : name ∈ namesOf proto := by
    cases hc with
    | oid hm he _ _ => simp only [namesOf, hm, Option.getD_some, List.mem_map]; exact ⟨_, he, rfl⟩
    | integer he _ => exact List.mem_map.mpr ⟨_, he, rfl⟩
    | enumerated he _ => exact List.mem_map.mpr ⟨_, he, rfl⟩
  obtain ⟨st, d, h1, h2, h3, _⟩ := C52_encode_partial K i hi hx proto bad h name hn
  exact ⟨st, h1, by rw [C52_one_value_partial K i hi hx hs proto bad h name c d hc h3]; exact h2⟩

/-- The dotted form of any OID can be set in any OID class, and is encoded as that OID. Missing: `AnyAlgorithmId`. -/
theorem C52_dotted_partial (K : Codecs) (i : ClassId) (hi : i < count) (hx : i ≠ Id.algos.AnyAlgorithmId) (k : OidClass) (o : OidObj) (bad : List Nat)
    (h : (env K).cls i = .leaf (.oid k o) bad) (arcs : List Nat) (hv : OidValid arcs) :
    ∃ st c, (LeafSt.oid k o).set (.str (dottedText arcs)) = .ok st ∧ st.base.contents = some c ∧ OidContents arcs c := by
  obtain ⟨h1, h2, h3⟩ := oid_class K hi h
  have hb : k.bare = false := by rw [h3]; simpa using hx
  have hr : k.resolve (dottedText arcs) = .ok (dottedText arcs) := by
    cases hm : k.map with
    | none => simp [OidClass.resolve, OidClass.setup, hm]
    | some m => exact (h2 m hm).dotted hb arcs
  obtain ⟨c, c1, c2⟩ := oidLoop_enc arcs hv
  exact ⟨.oid k { o with native := some (dottedText arcs), contents := some c, header := none, trailer := [] }, c,
    by simp only [LeafSt.set, oid_set_eq _ hr, c1], rfl, c2⟩

/-- An OID that a class with a table does not list is read in dotted form. -/
theorem C52_unlisted (K : Codecs) (i : ClassId) (hi : i < count) (k : OidClass) (o : OidObj) (bad : List Nat) (h : (env K).cls i = .leaf (.oid k o) bad)
    (m : StrMap) (hm : k.map = some m) (arcs : List Nat) (hv : OidValid arcs) (hn : dottedText arcs ∉ m.map Prod.fst) (c : Bytes) (hc : OidContents arcs c) :
    Reads (.oid k o) false c (.str (dottedText arcs)) := by
  obtain ⟨h1, h2, h3⟩ := oid_class K hi h
  have ht := h2 m hm
  have := oid_reads_name (o := o) h1 ht hv hc
  rwa [show oidName k (dottedText arcs) = dottedText arcs by simp [oidName, hm, get_none hn]] at this

/-- Classes with named bits: every set of names is encoded as the bits with these names, and that is read as the same set; different names stand for
different bits. -/
theorem C52_bits (K : Codecs) (i : ClassId) (hi : i < count) (m : BitMap) (o : BitObj (List BitKey)) (bad : List Nat)
    (h : (env K).cls i = .leaf (.named m o) bad) :
    (∀ v, Named m v → ∃ st c w, (LeafSt.named m o).set (.keys v) = .ok st ∧ st.base.contents = some c ∧ NameContents m v c ∧
      Reads (.named m o) false c (.keys w) ∧ ∀ k, k ∈ w ↔ k ∈ v) ∧
    (∀ a b s, (a, s) ∈ m → (b, s) ∈ m → a = b) ∧ (∀ a s t, (a, s) ∈ m → (a, t) ∈ m → s = t) := by
  have hb := leaf_of_all (P := fun _ s => leafTableB s) (leafTables_checked K) hi h
  simp only [leafTableB, Bool.and_eq_true, decide_eq_true_eq] at hb
  obtain ⟨hk, hn⟩ := hb
  have h2 := textsB_sound hn
  rw [show m.map (fun e => e.2.toList) = (m.map Prod.snd).map String.toList by rw [List.map_map]; rfl] at h2
  have h3 : (m.map Prod.snd).Nodup := List.Nodup.of_map _ h2
  refine ⟨fun v hv => ?_, fun a b s ha hb => ?_, fun a s t hs ht => ?_⟩
  · obtain ⟨o', c, g1, _, gc, bits, g2, g3, g4⟩ := C12_set_native m hk o v
    obtain ⟨w, g5⟩ := NamedBits.native_of m { o with toObj := { o.toObj with method := 0, contents := some c, indefinite := false, native := none } } c rfl rfl
      bits (BitContents.leaf g2)
    refine ⟨.named m o', c, bitNames m 0 bits [], ?_, gc, ⟨bits, g2, g3, g4⟩, ⟨fun o h => (by cases h), .named m { o with
      toObj := { o.toObj with method := 0, contents := some c, indefinite := false, native := some (bitNames m 0 bits []) }, unused := w }, ?_, rfl⟩, names_of_bits hk hv g4⟩
    · simp only [LeafSt.set, g1]
      rfl
    · show (NamedBits.native m { o with toObj := { o.toObj with method := 0, contents := some c, indefinite := false, native := none } }).bind _ = _
      rw [g5]
      rfl
  · have : (a, s) = (b, s) := List.inj_on_of_nodup_map h3 ha hb rfl
    injection this
  · have : (a, s) = (a, t) := List.inj_on_of_nodup_map hk hs ht rfl
    injection this

/-- A name that a class lists is the value of some contents octets, also in `AnyAlgorithmId`. -/
theorem stands_listed (K : Codecs) {i : ClassId} (hi : i < count) {proto : LeafSt} {bad : List Nat} (h : (env K).cls i = .leaf proto bad) {name : Str}
    (hn : name ∈ namesOf proto) : ∃ c, Stands proto name c := by
  by_cases hx : i = Id.algos.AnyAlgorithmId
  · cases proto with
    | oid k o =>
      obtain ⟨_, h2, _⟩ := oid_class K hi h
      cases hm : k.map with
      | none => simp [namesOf, hm] at hn
      | some m =>
        simp only [namesOf, hm, Option.getD_some, List.mem_map] at hn
        obtain ⟨e, he, rfl⟩ := hn
        obtain ⟨arcs, a1, a2⟩ := (h2 m hm).valid e he
        obtain ⟨c, _, c2⟩ := oidLoop_enc arcs a1
        exact ⟨c, .oid hm (by rw [a2]; exact he) a1 c2⟩
    | _ => subst hx; cases h
  · obtain ⟨_, c, _, _, h3, _⟩ := C52_encode_partial K i hi hx proto bad h name hn
    exact ⟨c, h3⟩

theorem keyB_sound (K : Codecs) {i : ClassId} (hi : i < count) {proto : LeafSt} {bad : List Nat} (h : (env K).cls i = .leaf proto bad) {s : Str}
    (hk : keyB s proto = true) : ∃ c, Reads proto false c (.str s) := by
  by_cases hn : s ∈ namesOf proto
  · obtain ⟨c, hc⟩ := stands_listed K hi h hn
    exact ⟨c, C52_read K i hi proto bad h s c hc⟩
  · cases proto with
    | oid k o =>
      simp only [keyB, Bool.or_eq_true, Bool.and_eq_true, List.contains_iff_mem, Bool.not_eq_true'] at hk
      rcases hk with hk | ⟨hk, hg⟩
      · exact absurd hk hn
      · obtain ⟨h1, h2, _⟩ := oid_class K hi h
        obtain ⟨arcs, a1, rfl⟩ := dottedB_sound hk
        obtain ⟨c, _, c2⟩ := oidLoop_enc arcs a1
        have hg' : dottedText arcs ∉ (k.map.getD []).map Prod.fst := by
          intro hc
          rw [List.contains_iff_mem.mpr hc] at hg
          cases hg
        cases hm : k.map with
        | none =>
          have := oid_reads_of (k := k) (o := o) h1 a1 c2 (by simp [oidName, hm])
          rw [show oidName k (dottedText arcs) = dottedText arcs by simp [oidName, hm]] at this
          exact ⟨c, this⟩
        | some m => exact ⟨c, C52_unlisted K i hi k o bad h m hm arcs a1 (by rw [hm] at hg'; exact hg') c c2⟩
    | integer m o => exact absurd (List.contains_iff_mem.mp hk) hn
    | enumerated m o => exact absurd (List.contains_iff_mem.mp hk) hn
    | _ => cases hk

/-- A field whose type depends on another field: every name in the table of types is the value of some contents octets of that field. Missing:
`microsoft_csp_name` in `pkcs12.Attribute`. -/
theorem C52_specs_partial (K : Codecs) (i : ClassId) (hi : i < count) (o : Obj Unit) (bad : List Nat) (isSet : Bool) (fields : List Field) (p : OidPair)
    (h : (env K).cls i = .seq o bad isSet fields (some p)) :
    ∃ proto, DecidedBy (env K) fields p proto ∧ ∀ e ∈ p.specs, e.1 ≠ "microsoft_csp_name".toList → ∃ c, Reads proto false c (.str e.1) := by
  have h1 := leaf_of_all (P := fun _ s => specTableB (env K) count s) (specTables_checked K) hi h
  rw [specTableB] at h1
  split at h1
  · next c hc =>
    rw [Bool.and_eq_true, decide_eq_true_eq] at h1
    obtain ⟨h1, h2⟩ := h1
    split at h2
    · next proto bad' hl =>
      refine ⟨proto, deciding_sound hc hl, fun e he hne => ?_⟩
      have := List.all_eq_true.mp h2 e he
      rw [Bool.or_eq_true, beq_iff_eq] at this
      exact keyB_sound K h1 hl (this.resolve_left hne)
    · cases h2
  · cases h1

/-- The attributes of a primitive class. -/
def leafProto : Shape → LeafSt
  | .leaf p _ => p
  | _ => .null { cls := 0, method := 0, tag := 5 }

/-- The attributes of an OID class. -/
def oidProto : Shape → OidClass
  | .leaf (.oid k _) _ => k
  | _ => ⟨none, none, false⟩

/-- `AnyAlgorithmId` lists `sha256`, but setting it (or any other text) raises `TypeError`: its `_setup` fills the table of names and never makes the
reverse table. -/
theorem C52_not_AnyAlgorithmId (K : Codecs) : ∃ proto, (env K).cls Id.algos.AnyAlgorithmId = .leaf proto [] ∧ "sha256".toList ∈ namesOf proto ∧
    ∀ s, proto.set (.str s) = .error .typeError := by
  refine ⟨leafProto algos.AnyAlgorithmId, rfl, by decide +kernel, fun s => rfl⟩

/-- So a value that was read cannot be encoded again with `dump(force=True)`: `AnyAlgorithmId.load(…)` of `sha256`. -/
theorem C52_not_AnyAlgorithmId_force :
    (Oid.dump (oidProto algos.AnyAlgorithmId) { Oid.new with header := some [6, 9], contents := some [0x60, 0x86, 0x48, 0x01, 0x65, 0x03, 0x04, 0x02, 0x01] } true).map Prod.fst =
      .error .typeError := by decide +kernel

theorem oidContents_of_loop {arcs : List Nat} {c : Bytes} (hv : OidValid arcs) (h : oidLoop 0 0 (pySplit '.' (dottedText arcs)) [] = (c, none)) :
    OidContents arcs c := by
  obtain ⟨d, d1, d2⟩ := oidLoop_enc arcs hv
  rw [h] at d1
  injection d1 with d1
  rwa [d1]

theorem stands_oid {s : Shape} {k : OidClass} {o : OidObj} (hs : leafProto s = .oid k o) {arcs : List Nat} {name : Str} {c : Bytes}
    (he : (k.map.getD []).contains (dottedText arcs, name) = true) (hv : OidValid arcs) (h : oidLoop 0 0 (pySplit '.' (dottedText arcs)) [] = (c, none)) :
    Stands (leafProto s) name c := by
  rw [hs]
  cases hm : k.map with
  | none => rw [hm] at he; cases he
  | some m => exact .oid hm (by rw [hm] at he; exact List.contains_iff_mem.mp he) hv (oidContents_of_loop hv h)

/-- `SignedDigestAlgorithmId` lists `sha1_rsa` for 1.3.14.3.2.29 and for 1.2.840.113549.1.1.5; the former is read as `sha1_rsa`, and
`dump(force=True)` turns it into the latter. -/
theorem C52_not_SignedDigestAlgorithmId : ∃ c d, Stands (leafProto algos.SignedDigestAlgorithmId) "sha1_rsa".toList c ∧
    Stands (leafProto algos.SignedDigestAlgorithmId) "sha1_rsa".toList d ∧ c ≠ d ∧
    (Oid.dump (oidProto algos.SignedDigestAlgorithmId) { Oid.new with header := some [6, 5], contents := some c }).map Prod.fst = .ok ([6, 5] ++ c) ∧
    (Oid.dump (oidProto algos.SignedDigestAlgorithmId) { Oid.new with header := some [6, 5], contents := some c } true).map Prod.fst = .ok ([6, 9] ++ d) := by
  refine ⟨[0x2b, 0x0e, 0x03, 0x02, 0x1d], [0x2a, 0x86, 0x48, 0x86, 0xf7, 0x0d, 0x01, 0x01, 0x05], ?_, ?_, by decide, by decide +kernel, by decide +kernel⟩
  · exact stands_oid (k := oidProto algos.SignedDigestAlgorithmId) rfl (arcs := [1, 3, 14, 3, 2, 29]) (by decide +kernel) (by decide) (by decide +kernel)
  · exact stands_oid (k := oidProto algos.SignedDigestAlgorithmId) rfl (arcs := [1, 2, 840, 113549, 1, 1, 5]) (by decide +kernel) (by decide) (by decide +kernel)

/-- `KeyEncryptionAlgorithmId` accepts `rsa` as another name: the value is `rsa`, but after encoding and loading it is `rsaes_pkcs1v15`. -/
theorem C52_not_KeyEncryptionAlgorithmId : ∃ st c, (leafProto cms.KeyEncryptionAlgorithmId).set (.str "rsa".toList) = .ok st ∧
    st.base.contents = some c ∧ st.native = .ok (.str "rsa".toList, st) ∧
    Reads (leafProto cms.KeyEncryptionAlgorithmId) false c (.str "rsaes_pkcs1v15".toList) := by
  refine ⟨.oid (oidProto cms.KeyEncryptionAlgorithmId) { Oid.new with
    contents := some [0x2a, 0x86, 0x48, 0x86, 0xf7, 0x0d, 0x01, 0x01, 0x01], native := some "rsa".toList }, _, by kernel_rfl, rfl, by kernel_rfl, ?_⟩
  exact readsB_sound (by kernel_rfl)

/-- The table of `pkcs12.Attribute` has a type for `microsoft_csp_name`, which no value of the field `type` is: the OID 1.3.6.1.4.1.311.17.1 is called
`microsoft_local_machine_keyset`. -/
theorem C52_not_Attribute (K : Codecs) : ∃ o bad isSet fields p proto, (env K).cls Id.pkcs12.Attribute = .seq o bad isSet fields (some p) ∧
    DecidedBy (env K) fields p proto ∧ "microsoft_csp_name".toList ∈ p.specs.map Prod.fst ∧
    ∀ ind c, ¬ Reads proto ind c (.str "microsoft_csp_name".toList) := by
  refine ⟨_, _, _, _, _, _, rfl, .field (proto := leafProto pkcs12.AttributeType) (bad := []) rfl rfl rfl, by decide +kernel, fun ind c hr => ?_⟩
  obtain ⟨h1, _⟩ := oid_reads (k := oidProto pkcs12.AttributeType) (cl := 0) (tg := 6) hr
  injection h1 with h1
  obtain ⟨arcs, _, ha⟩ := dottedLoop_arcs c 0 [] (.inl rfl)
  rw [List.map_nil] at ha
  rw [ha, ← dottedStr, ← dottedText_eq] at h1
  simp only [oidName] at h1
  split at h1
  · next m hm =>
    cases hg : m.get (dottedText arcs) with
    | none =>
      rw [hg, Option.getD_none] at h1
      exact wordB_sound (by decide +kernel) arcs h1.symm
    | some nm =>
      rw [hg, Option.getD_some] at h1
      subst h1
      have h2 := List.mem_map_of_mem (f := Prod.snd) (mem_of_get hg)
      have h3 : "microsoft_csp_name".toList ∉ ((oidProto pkcs12.AttributeType).map.getD []).map Prod.snd := by decide +kernel
      rw [hm] at h3
      exact h3 h2
  · exact wordB_sound (by decide +kernel) arcs h1.symm

/-- Non-vacuity: `sha256` in `DigestAlgorithmId`. -/
example (K : Codecs) : (env K).cls Id.algos.DigestAlgorithmId = .leaf (leafProto algos.DigestAlgorithmId) [] ∧
    Stands (leafProto algos.DigestAlgorithmId) "sha256".toList [0x60, 0x86, 0x48, 0x01, 0x65, 0x03, 0x04, 0x02, 0x01] :=
  ⟨rfl, stands_oid (k := oidProto algos.DigestAlgorithmId) rfl (arcs := [2, 16, 840, 1, 101, 3, 4, 2, 1]) (by decide +kernel) (by decide) (by decide +kernel)⟩

/-- Non-vacuity: `v3` in `x509.Version`. -/
example (K : Codecs) : (env K).cls Id.x509.Version = .leaf (leafProto x509.Version) [] ∧ "v3".toList ∈ namesOf (leafProto x509.Version) :=
  ⟨rfl, by decide +kernel⟩

/-- Non-vacuity: `KeyUsage` has named bits. -/
example (K : Codecs) : ∃ m o, (env K).cls Id.x509.KeyUsage = .leaf (.named m o) [] ∧ Named m [.name "digital_signature", .name "crl_sign"] :=
  ⟨_, _, rfl, fun k hk => by
    simp only [List.mem_cons, List.not_mem_nil, or_false] at hk
    rcases hk with rfl | rfl
    · exact ⟨0, _, rfl, by decide +kernel⟩
    · exact ⟨6, _, rfl, by decide +kernel⟩⟩

/-- Non-vacuity: the types of certificate extensions depend on `extn_id`. -/
example (K : Codecs) : ∃ o bad isSet fields p, (env K).cls Id.x509.Extension = .seq o bad isSet fields (some p) ∧ "key_usage".toList ∈ p.specs.map Prod.fst :=
  ⟨_, _, _, _, _, rfl, by decide +kernel⟩

end Asn1.Props
