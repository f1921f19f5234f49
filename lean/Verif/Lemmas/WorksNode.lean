import Verif.Lemmas.Works

/-! # Dumping, reading and copying containers succeeds -/

namespace Asn1
open Spec Props

/-- The operations work on values nested less than `N` deep. -/
structure Working (E : Env) (U : ClassId → Prop) (N : Nat) (r : Ops) : Prop where
  dump : ∀ {q c p v a} (force : Bool), GoodUse E U c p → Rep E q c p v a → Ready E c a → Whole E c a → a.depth < N → Works (r.dump v force)
  contents : ∀ {q c p v a}, GoodUse E U c p → Rep E q c p v a → Ready E c a → a.depth < N →
    Works (r.contents v) ∧ ∀ b v', r.contents v = .ok (b, v') → b ≠ none
  native : ∀ {q c p v a}, GoodUse E U c p → Rep E q c p v a → Ready E c a → a.depth < N → Works (r.native v)
  copyTo : ∀ {q c p v a} (cl tg : Nat) (im : Bool) (es : List (Nat × Nat)), GoodUse E U c p → Rep E q c p v a → Ready E c a → a.depth < N →
    Works (r.copyTo v cl tg im es)
  construct : ∀ {q c p x a}, GoodUse E U c p → Conv E (Inst E U) q c p x a → (∀ w, x ≠ .asn1 w) → Ready E c a → a.depth < N → Works (r.construct c p x)

theorem working_zero (E : Env) (U : ClassId → Prop) (r : Ops) : Working E U 0 r := by
  constructor <;> intros <;> omega

variable {E : Env} {U : ClassId → Prop}

/-! ### Ready values -/

theorem ready_seq {c : ClassId} {as : List AVal} {proto : Obj Unit} {bad : List Nat} {isSet : Bool} {fields : List Field} {oid : Option OidPair}
    (hc : E.cls c = .seq proto bad isSet fields oid) : Ready E c (.seq as) ↔ ReadyFields E fields as := by
  simp only [Ready]
  constructor
  · exact fun h => h _ _ _ _ _ hc
  · intro h _ _ _ _ _ h'
    rw [hc] at h'
    cases h'
    exact h

theorem ready_list {c ch : ClassId} {as : List AVal} {proto : Obj Unit} {bad : List Nat} {isSet : Bool}
    (hc : E.cls c = .seqOf proto bad isSet (some ch)) : Ready E c (.list as) ↔ ReadyList E ch as := by
  simp only [Ready]
  constructor
  · exact fun h => h _ _ _ _ hc
  · intro h _ _ _ _ h'
    rw [hc] at h'
    cases h'
    exact h

theorem ready_alt {c : ClassId} {k : Nat} {a : AVal} {e : List (Nat × Nat)} {t : Option (Nat × Nat)} {alts : List Field} {f : Field}
    (hc : E.cls c = .choice e t alts) (hf : alts[k]? = some f) : Ready E c (.alt k a) ↔ Ready E f.spec a := by
  rw [Ready]
  constructor
  · exact fun h => h _ _ _ _ hc hf
  · intro h _ _ _ _ h' hf'
    rw [hc] at h'
    cases h'
    rw [hf] at hf'
    cases hf'
    exact h

theorem whole_alt {c : ClassId} {k : Nat} {a : AVal} {e : List (Nat × Nat)} {t : Option (Nat × Nat)} {alts : List Field} {f : Field}
    (hc : E.cls c = .choice e t alts) (hf : alts[k]? = some f) : Whole E c (.alt k a) ↔ Whole E f.spec a := by
  rw [Whole]
  constructor
  · exact fun h => h _ _ _ _ hc hf
  · intro h _ _ _ _ h' hf'
    rw [hc] at h'
    cases h'
    rw [hf] at hf'
    cases hf'
    exact h

theorem ready_prim {c : ClassId} {s : Scalar} {proto : LeafSt} {bad : List Nat} (hc : E.cls c = .leaf proto bad) :
    Ready E c (.prim s) ↔ ∃ st, proto.set s = .ok st := by
  simp only [Ready]
  constructor
  · exact fun h => h _ _ hc
  · intro h _ _ h'
    rw [hc] at h'
    cases h'
    exact h

/-! ### Children -/

/-- A child of a SEQUENCE once it has been built. -/
theorem buildField_ok (hU : Universe E U) {n : Nat} (hn : 2 ≤ n) {f : Field} {fs : List Field} {x : Child} {cs : List Child} {a : AVal} {as : List AVal}
    (hg : GoodUse E U f.spec f.params) (h : FieldsRep E (f :: fs) (x :: cs) (a :: as)) :
    ∃ v, buildChild (ops E n) f.params x = .ok v ∧ FieldRep E f v a := by
  cases h with
  | lazy h1 h2 =>
    obtain ⟨v, k1, _⟩ := build_total (n := n) hU hg h1 hn
    exact ⟨v, k1, .inl ((sim_ops hU n).build hg h1 (fun h => by cases h) k1)⟩
  | val h1 h2 => exact ⟨_, rfl, .inl h1⟩
  | void h1 h2 => exact ⟨_, rfl, .inr ⟨rfl, rfl, h1⟩⟩

theorem buildElement_ok (hU : Universe E U) {n : Nat} (hn : 2 ≤ n) {ch : ClassId} {x : Child} {cs : List Child} {a : AVal} {as : List AVal}
    (hg : U ch) (h : ListRep E ch (x :: cs) (a :: as)) : ∃ v, buildChild (ops E n) {} x = .ok v ∧ Rep E false ch {} v a := by
  cases h with
  | lazy h1 h2 =>
    obtain ⟨v, k1, _⟩ := build_total (n := n) hU (goodUse_plain hg) h1 hn
    exact ⟨v, k1, (sim_ops hU n).build (goodUse_plain hg) h1 (fun h => by cases h) k1⟩
  | val h1 h2 => exact ⟨_, rfl, h1⟩

theorem void_dump {n : Nat} (force : Bool) : (ops E (n + 1)).dump .void force = .ok ([], .void) := rfl

theorem dumpField_works {N n : Nat} (hW : Working E U N (ops E n)) (hn : 2 ≤ n) {f : Field} {v : Val} {a : AVal} {force : Bool}
    (hg : GoodUse E U f.spec f.params) (h : FieldRep E f v a) (hr : Ready E f.spec a) (hw : Whole E f.spec a) (hd : a.depth < N) :
    Works ((ops E n).dump v force) := by
  rcases h with h | ⟨rfl, _⟩
  · exact hW.dump force hg h hr hw hd
  · obtain ⟨n, rfl⟩ : ∃ k, n = k + 1 := ⟨n - 1, by omega⟩
    exact .ok (void_dump force)

theorem fieldEncoding_works (hU : Universe E U) {N n : Nat} (hW : Working E U N (ops E n)) (hn : 2 ≤ n) {force : Bool} {f : Field} {fs : List Field}
    {x : Child} {cs : List Child} {a : AVal} {as : List AVal} (hg : GoodUse E U f.spec f.params) (h : FieldsRep E (f :: fs) (x :: cs) (a :: as))
    (hr : Ready E f.spec a) (hw : Whole E f.spec a) (hd : a.depth < N) : Works (fieldEncoding (ops E n) force f x) := by
  obtain ⟨v, k1, k2⟩ := buildField_ok hU hn hg h
  have hv : ∀ force, Works ((ops E n).dump v force) := fun force => dumpField_works hW hn hg k2 hr hw hd
  have tail : ∀ (b : Bytes) (x' : Child), Works (match f.params.default with
      | none => (.ok (b, x') : Py (Bytes × Child))
      | some _ => do
        let d ← (ops E n).construct f.spec f.params (.scalar .none)
        let (db, _) ← (ops E n).dump d false
        .ok (if db = b then [] else b, x')) := by
    intro b x'
    cases hdf : f.params.default with
    | none => exact .ok rfl
    | some d =>
      obtain ⟨n, rfl⟩ : ∃ k, n = k + 1 := ⟨n - 1, by omega⟩
      obtain ⟨ho, proto', bad', z, s', g1, rfl, g3, g4⟩ := hg.default d hdf
      obtain ⟨proto, bad, st, s, e1, e2, e3, e4⟩ := default_ok (r := ops E n) hU hg ⟨proto', bad', z, s', g1, hdf, g3, rfl, g4⟩
      cases e1
      rw [g1] at e2
      cases e2
      obtain ⟨rfl, hpl⟩ := hU.leaf _ _ _ hg.mem g1
      have e3 : (ops E (n + 1)).construct f.spec f.params (.scalar .none) = .ok (.leaf f.spec st) := e3
      simp only [e3]
      refine Works.bind (x := (ops E (n + 1)).dump (.leaf f.spec st) false) ?_ (fun y _ => .ok rfl)
      obtain ⟨_, st', _, _, _, _, _, g5, _⟩ := g4
      exact (leaf_dump_works (plainLeaf_good hpl) (goodParams hg.tags).valid e4 ⟨_, g5⟩).bind (fun y _ => .ok rfl)
  unfold fieldEncoding
  cases x with
  | lazy i spec nested =>
    cases force with
    | true =>
      have k1 : (ops E n).build i spec f.params nested = .ok v := k1
      simp only [k1]
      exact (hv true).bind (fun y _ => tail _ _)
    | false => exact tail _ _
  | val w =>
    cases k1
    cases force with
    | true => exact (hv true).bind (fun y _ => tail _ _)
    | false => exact (hv false).bind (fun y _ => tail _ _)

theorem encodeFields_works (hU : Universe E U) {N n : Nat} (hW : Working E U N (ops E n)) (hn : 2 ≤ n) {force : Bool} : ∀ {fs : List Field}
    {cs : List Child} {as : List AVal}, (∀ f ∈ fs, GoodUse E U f.spec f.params) → FieldsRep E fs cs as → ReadyFields E fs as → AVal.depths as < N →
    Works (encodeFields (ops E n) force fs cs)
  | [], _, _, _, h, _, _ => by cases h; exact .ok rfl
  | f :: fs, _, _, hg, h, hr, hd => by
    obtain ⟨x, cs, a, as, rfl, rfl, h'⟩ := fieldsRep_uncons h
    rw [AVal.depths] at hd
    rw [ReadyFields] at hr
    simp only [encodeFields]
    refine (fieldEncoding_works hU hW hn (hg f (by simp)) h hr.1 hr.2.1 (by omega)).bind (fun y _ => ?_)
    exact (encodeFields_works hU hW hn (fun g hm => hg g (by simp [hm])) h' hr.2.2 (by omega)).bind (fun z _ => .ok rfl)

theorem listRep_uncons {ch : ClassId} {x : Child} {cs : List Child} {as : List AVal} (h : ListRep E ch (x :: cs) as) :
    ∃ a as', as = a :: as' ∧ ListRep E ch cs as' := by
  cases h with
  | lazy h1 h2 => exact ⟨_, _, rfl, h2⟩
  | val h1 h2 => exact ⟨_, _, rfl, h2⟩

theorem encodeElements_works (hU : Universe E U) {N n : Nat} (hW : Working E U N (ops E n)) (hn : 2 ≤ n) {force : Bool} {ch : ClassId} (hc : U ch) :
    ∀ {cs : List Child} {as : List AVal}, ListRep E ch cs as → ReadyList E ch as → AVal.depths as < N →
    Works (encodeElements (ops E n) force cs)
  | [], _, _, _, _ => .ok rfl
  | x :: cs, as, h, hr, hd => by
    obtain ⟨a, as, rfl, h'⟩ := listRep_uncons h
    rw [AVal.depths] at hd
    rw [ReadyList] at hr
    obtain ⟨v, k1, k2⟩ := buildElement_ok hU hn hc h
    simp only [encodeElements, k1]
    refine Works.bind (x := (ops E n).dump v force) (hW.dump force (goodUse_plain hc) k2 hr.1 hr.2.1 (by omega)) (fun y _ => ?_)
    exact (encodeElements_works hU hW hn hc h' hr.2.2 (by omega)).bind (fun z _ => .ok rfl)

theorem encode_works (hU : Universe E U) {N n : Nat} (hW : Working E U N (ops E n)) (hn : 2 ≤ n) {c : ClassId} {force : Bool} {a : AVal}
    {cs : List Child} (hc : U c) (h : Kids E c a cs) (hr : Ready E c a) (hd : a.depth < N + 1) : Works (encodeChildren E (ops E n) c force cs) := by
  cases h with
  | seq g1 g2 =>
    unfold encodeChildren
    rw [g1]
    rw [ready_seq g1] at hr
    rw [AVal.depth] at hd
    exact encodeFields_works hU hW hn (hU.seq _ _ _ _ _ _ hc g1).2.2.2.2.2.2 g2 hr (by omega)
  | list g1 g2 =>
    unfold encodeChildren
    rw [g1]
    rw [ready_list g1] at hr
    rw [AVal.depth] at hd
    obtain ⟨_, _, _, d, hd', hUd⟩ := hU.seqOf _ _ _ _ _ hc g1
    cases hd'
    exact (encodeElements_works hU hW hn hUd g2 hr (by omega)).bind (fun y _ => .ok rfl)

theorem ensure_ok (hU : Universe E U) {n : Nat} {q : Bool} {c c' : ClassId} {p : Params} {a : AVal}
    {o : Obj Unit} {ch : Option (List Child)} {m : Bool} (hc : U c) (h : Rep E q c p (.node c' o ch m) a) :
    ∃ cs, ensureChildren E (ops E (n + 1)) c o ch = .ok cs := by
  obtain ⟨rfl, proto, _, _, h⟩ := rep_node.mp h
  rcases h with ⟨rfl, rfl, data, h1, h2, h3⟩ | ⟨cs', rfl, h1, h2⟩
  · unfold ensureChildren parseChildren
    rw [h1]
    cases h2 with
    | seq g1 g2 =>
      obtain ⟨_, _, _, _, _, hd, hfs⟩ := hU.seq _ _ _ _ _ _ hc g1
      obtain ⟨cs, k, _⟩ := parseSeq_ok (n := n) hU hfs hd g2
      exact ⟨cs, by simp only [g1, k]⟩
    | list g1 g2 =>
      obtain ⟨is, k, _⟩ := parseSeqOf_ok g2
      simp only [g1, k]
      exact ⟨_, rfl⟩
  · exact ⟨_, rfl⟩

theorem setContents_works (hU : Universe E U) {N n : Nat} (hW : Working E U N (ops E n)) (hn : 2 ≤ n) {c : ClassId} {force : Bool} {a : AVal}
    {o : Obj Unit} {ch : Option (List Child)} (hc : U c) (he : ∃ cs, ensureChildren E (ops E n) c o ch = .ok cs)
    (hk : ∀ cs, ensureChildren E (ops E n) c o ch = .ok cs → Kids E c a cs) (hr : Ready E c a) (hd : a.depth < N + 1) :
    Works (setContents E (ops E n) c o ch force) := by
  obtain ⟨cs, he⟩ := he
  unfold setContents
  simp only [he]
  exact Works.bind (x := encodeChildren E (ops E n) c force cs) (encode_works hU hW hn hc (hk cs he) hr hd) (fun y _ => .ok rfl)

theorem nodeContents_works (hU : Universe E U) {N n : Nat} (hW : Working E U N (ops E n)) (hn : 2 ≤ n) {q : Bool} {c c' : ClassId} {p : Params} {a : AVal}
    {o : Obj Unit} {ch : Option (List Child)} {m : Bool} (hc : U c) (h : Rep E q c p (.node c' o ch m) a) (hr : Ready E c a) (hd : a.depth < N + 1) :
    Works (nodeContents E (ops E n) c o ch m) := by
  unfold nodeContents
  cases ch with
  | none => exact .ok rfl
  | some cs =>
    simp only
    split
    · exact (setContents_works hU hW hn hc ⟨cs, rfl⟩ (fun cs' h' => (ensure_kids hU (sim_ops hU n) hc h h').1) hr hd).bind (fun y _ => .ok rfl)
    · exact .ok rfl

theorem requiredPresent_ok : ∀ {fs : List Field} {cs : List Child} {as : List AVal}, FieldsRep E fs cs as → Complete fs as →
    requiredPresent fs cs = .ok ()
  | [], _, _, _, _ => rfl
  | f :: fs, _, _, h, hc => by
    cases h with
    | @lazy _ _ i cs a as h1 h2 =>
      cases hc with
      | cons _ hc =>
        have := requiredPresent_ok h2 hc
        exact this
    | @val _ _ v cs a as h1 h2 =>
      cases hc with
      | cons _ hc =>
        have := requiredPresent_ok h2 hc
        cases h1 <;> exact this
    | @void _ _ cs as h1 h2 =>
      cases hc with
      | cons ho hc =>
        simp only [requiredPresent, ho rfl, Bool.or_true, if_true]
        exact requiredPresent_ok h2 hc

theorem checkRequired_ok {c : ClassId} {a : AVal} {cs : List Child} (h : Kids E c a cs) (hw : Whole E c a) : checkRequired E c (some cs) = .ok () := by
  cases h with
  | seq g1 g2 =>
    unfold checkRequired
    rw [g1]
    exact requiredPresent_ok g2 ((whole_complete g1).mp hw)
  | list g1 g2 =>
    unfold checkRequired
    rw [g1]

theorem nodeTag_valid (hU : Universe E U) {c : ClassId} {p : Params} {proto o : Obj Unit} (hg : GoodUse E U c p) (hp : NodeProto E c proto)
    (ht : NodeTag proto p o) : o.cls < 4 ∧ o.method < 2 ∧ ∀ e ∈ o.explicit, e.1 < 4 := by
  have hbl := nodeProto_blank hU hg.mem hp
  refine ⟨?_, by rw [ht.method]; omega, by rw [ht.explicit]; exact hg.tags.explicit⟩
  have : o.cls = (effTag (proto.cls, proto.tag) p).1 := by rw [← ht.tag]
  rw [this]
  exact effTag_valid (goodParams hg.tags).valid hbl.cls

theorem nodeDump_works (hU : Universe E U) {N n : Nat} (hW : Working E U N (ops E n)) (hn : 2 ≤ n) {q : Bool} {c c' : ClassId} {p : Params} {a : AVal}
    {o : Obj Unit} {ch : Option (List Child)} {m force : Bool} (hg : GoodUse E U c p) (h : Rep E q c p (.node c' o ch m) a) (hr : Ready E c a)
    (hw : Whole E c a) (hd : a.depth < N + 1) : Works (nodeDump E (ops E n) c o ch m force) := by
  have hc := hg.mem
  have hS := sim_ops (E := E) hU n
  have tail : ∀ {o : Obj Unit} {ch : Option (List Child)} {m : Bool}, Rep E q c p (.node c o ch m) a →
      Works (do
        checkRequired E c ch
        let (o, children, mutated) ← nodeContents E (ops E n) c o ch m
        let (b, o) ← asn1Dump false o
        (.ok (b, .node c o children mutated) : Py (Bytes × Val))) := by
    intro o ch m h
    have h1 : checkRequired E c ch = .ok () := by
      cases ch with
      | none =>
        unfold checkRequired
        cases E.cls c <;> rfl
      | some cs => exact checkRequired_ok (ensure_kids (r := ops E n) hU hS hc h rfl).1 hw
    rw [h1]
    refine Works.bind (x := nodeContents E (ops E n) c o ch m) (nodeContents_works hU hW hn hc h hr hd) ?_
    rintro ⟨o1, ch1, m1⟩ h2
    obtain ⟨k1, ⟨data, k2, _⟩, ⟨proto, k3, k4⟩, k5, k6, _⟩ := nodeContents_rep hU hS hc h h2
    obtain ⟨j1, j2, j3⟩ := nodeTag_valid hU hg k3 k4
    exact (asn1Dump_works k2 j1 j2 j3).bind (fun y _ => .ok rfl)
  obtain ⟨rfl, proto, hp, ht, _⟩ := rep_node.mp h
  unfold nodeDump
  simp only [nodeProto_plain hU hc hp, Bool.not_false, Bool.and_true]
  split
  · obtain ⟨n, rfl⟩ : ∃ k, n = k + 1 := ⟨n - 1, by omega⟩
    rcases setContents_works (force := true) hU hW hn hc (ensure_ok hU hc h) (fun cs2 h2 => (ensure_kids hU hS hc h h2).1) hr hd with ⟨⟨o1, cs1⟩, h1⟩ | h1
    · obtain ⟨k1, k2, k3, k4⟩ := setContents_rep hU hS hc (fun cs2 h2 => (ensure_kids hU hS hc h h2).1) h1
      simp only [h1]
      exact tail (rep_node.mpr ⟨rfl, proto, hp, k4 _ _ ht, .inr ⟨cs1, rfl, k1, fun _ => k2 _ _⟩⟩)
    · rw [h1]
      exact .inr rfl
  · exact tail h

/-! ### `native` -/

theorem nativeField_works {N n : Nat} (hW : Working E U N (ops E n)) (hn : 2 ≤ n) {f : Field} {v : Val} {a : AVal}
    (hg : GoodUse E U f.spec f.params) (h : FieldRep E f v a) (hr : Ready E f.spec a) (hd : a.depth < N) :
    Works ((ops E n).native v) := by
  rcases h with h | ⟨rfl, _⟩
  · exact hW.native hg h hr hd
  · obtain ⟨n, rfl⟩ : ∃ k, n = k + 1 := ⟨n - 1, by omega⟩
    exact .ok (y := (.scalar .none, .void)) rfl

theorem nativeFields_works (hU : Universe E U) {N n : Nat} (hW : Working E U N (ops E n)) (hn : 2 ≤ n) (all : List Field) : ∀ (fs pre : List Field)
    (cs : List Child) (as : List AVal), all = pre ++ fs → (∀ f ∈ fs, GoodUse E U f.spec f.params) → FieldsRep E fs cs as → ReadyFields E fs as →
    AVal.depths as < N → Works (nativeFields (ops E n) all pre.length cs)
  | [], _, _, _, _, _, h, _, _ => by cases h; exact .ok rfl
  | f :: fs, pre, _, _, ha, hg, h, hr, hd => by
    obtain ⟨x, cs, a, as, rfl, rfl, h'⟩ := fieldsRep_uncons h
    rw [AVal.depths] at hd
    rw [ReadyFields] at hr
    have hidx : all[pre.length]? = some f := by rw [ha]; simp
    have hpar : paramsAt all pre.length = f.params := by simp [paramsAt, hidx]
    have hgf := hg f (by simp)
    obtain ⟨v, k1, k2⟩ := buildField_ok hU hn hgf h
    simp only [nativeFields, hpar, k1]
    refine Works.bind (x := (ops E n).native v) (nativeField_works hW hn hgf k2 hr.1 (by omega)) (fun y _ => ?_)
    have := nativeFields_works hU hW hn all fs (pre ++ [f]) cs as (by rw [ha]; simp) (fun g hm => hg g (by simp [hm])) h' hr.2.2 (by omega)
    rw [List.length_append] at this
    exact this.bind (fun z _ => .ok rfl)

theorem nativeElements_works (hU : Universe E U) {N n : Nat} (hW : Working E U N (ops E n)) (hn : 2 ≤ n) {ch : ClassId} (hc : U ch) :
    ∀ {cs : List Child} {as : List AVal}, ListRep E ch cs as → ReadyList E ch as → AVal.depths as < N → Works (nativeElements (ops E n) cs)
  | [], _, _, _, _ => .ok rfl
  | x :: cs, as, h, hr, hd => by
    obtain ⟨a, as, rfl, h'⟩ := listRep_uncons h
    rw [AVal.depths] at hd
    rw [ReadyList] at hr
    obtain ⟨v, k1, k2⟩ := buildElement_ok hU hn hc h
    simp only [nativeElements, k1]
    refine Works.bind (x := (ops E n).native v) (hW.native (goodUse_plain hc) k2 hr.1 (by omega)) (fun y _ => ?_)
    exact (nativeElements_works hU hW hn hc h' hr.2.2 (by omega)).bind (fun z _ => .ok rfl)

theorem nodeNative_works (hU : Universe E U) {N n : Nat} (hW : Working E U N (ops E n)) (hn : 2 ≤ n) {q : Bool} {c c' : ClassId} {p : Params} {a : AVal}
    {o : Obj Unit} {ch : Option (List Child)} {m : Bool} (hg : GoodUse E U c p) (h : Rep E q c p (.node c' o ch m) a) (hr : Ready E c a)
    (hd : a.depth < N + 1) : Works (nodeNative E (ops E n) c o ch m) := by
  have hc := hg.mem
  have hS := sim_ops (E := E) hU n
  unfold nodeNative
  refine (nodeContents_works hU hW hn hc h hr hd).bind ?_
  rintro ⟨o1, ch1, m1⟩ h2
  obtain ⟨k1, ⟨data, k2, _⟩, _⟩ := nodeContents_rep hU hS hc h h2
  obtain ⟨n, rfl⟩ : ∃ k, n = k + 1 := ⟨n - 1, by omega⟩
  obtain ⟨cs, k3⟩ := ensure_ok (n := n) hU hc k1
  have k4 := (ensure_kids hU hS hc k1 k3).1
  simp only [k2, k3]
  cases k4 with
  | seq g1 g2 =>
    rw [ready_seq g1] at hr
    rw [AVal.depth] at hd
    rw [g1]
    exact (nativeFields_works hU hW hn _ _ [] cs _ rfl (hU.seq _ _ _ _ _ _ hc g1).2.2.2.2.2.2 g2 hr (by omega)).bind (fun y _ => .ok rfl)
  | list g1 g2 =>
    rw [ready_list g1] at hr
    rw [AVal.depth] at hd
    rw [g1]
    obtain ⟨_, _, _, d, hd', hUd⟩ := hU.seqOf _ _ _ _ _ hc g1
    cases hd'
    exact (nativeElements_works hU hW hn hUd g2 hr (by omega)).bind (fun y _ => .ok rfl)

end Asn1
