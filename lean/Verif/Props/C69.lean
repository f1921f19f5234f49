import Verif.Model.Contains
import Verif.Props.C58
import Verif.Lemmas.LeafMap
import Verif.Lemmas.Elements
import Verif.Spec.Der

/-!
# C69 — `item in value` for SEQUENCE OF and SET OF

`iterItems E r v = .ok (xs, v')`: `list(value)` is `xs`.
-/

namespace Asn1.Props
open Asn1 Spec

section
variable {E : Env} {r : Ops} {bases : ClassId → List ClassId} {low : List ClassId} {isA : ClassId → ClassId → Bool} {same : Nat → Bool}

theorem contains_loop {item : Val} {d : ClassId} {y : Option (List UInt8)} (hi : Primitive item d y) : ∀ (m k : Nat) {v v' : Val} {xs : List Val},
    iterFrom E r m k v = .ok (xs, v') → (∀ x ∈ xs, ∃ c b, Primitive x c b ∧ c ∉ low) →
    ∃ b w, containsFrom E r bases low same item m k v = .ok (b, w) ∧
      (b = true ↔ ∃ x ∈ xs, ∃ c, Primitive x c y ∧ typeTag E c = typeTag E d)
  | 0, k, v, v', xs, hx, _ => by
    cases hx
    exact ⟨false, v, rfl, by simp⟩
  | m + 1, k, v, v', xs, hx, hp => by
    simp only [iterFrom] at hx
    obtain ⟨⟨x, w⟩, h1, hx⟩ := py_bind.mp hx
    obtain ⟨⟨xs', w'⟩, h2, hx⟩ := py_bind.mp hx
    cases hx
    obtain ⟨c, b, h3, h4⟩ := hp x (by simp)
    obtain ⟨e, z, k1, k2⟩ := contains_loop hi m (k + 1) h2 (fun x hx => hp x (by simp [hx]))
    have h5 := C58_iff E r bases low h3 hi h4
    have h6 : childEq E r bases low same k x item = .ok (decide (typeTag E c = typeTag E d ∧ b = y)) := by
      unfold childEq
      rw [h3.view]
      exact h5
    by_cases h7 : typeTag E c = typeTag E d ∧ b = y
    · refine ⟨true, w, ?_, ?_⟩
      · simp only [containsFrom, bind, Except.bind, h1, h6, h7, and_self, decide_true, if_true]
      · simp only [true_iff]
        exact ⟨x, by simp, c, h7.2 ▸ h3, h7.1⟩
    · refine ⟨e, z, ?_, ?_⟩
      · simp only [containsFrom, bind, Except.bind, h1, h6, h7, decide_false]
        exact k1
      · rw [k2]
        constructor
        · rintro ⟨x', hx', rest⟩
          exact ⟨x', by simp [hx'], rest⟩
        · rintro ⟨x', hx', c', g1, g2⟩
          rcases List.mem_cons.mp hx' with rfl | hx'
          · exfalso
            have := h3.view.symm.trans g1.view
            injection this with this
            injection this with t1 t2
            exact h7 ⟨t1 ▸ g2, t2⟩
          · exact ⟨x', hx', c', g1, g2⟩

/-- For elements of primitive classes, `item in value` is true exactly if one of the elements is of the same type as `item` and has the same contents octets;
an instance of the class of the elements, or of a class derived from it, can be asked for. -/
theorem C69_iff {c ch d : ClassId} {proto : Obj Unit} {bad : List Nat} {isSet : Bool} (hc : E.cls c = .seqOf proto bad isSet (some ch)) {o : Obj Unit}
    {cs : Option (List Child)} {m : Bool} {xs : List Val} {v' : Val} (hx : iterItems E r (.node c o cs m) = .ok (xs, v'))
    (hp : ∀ x ∈ xs, ∃ c b, Primitive x c b ∧ c ∉ low) {item : Val} {y : Option (List UInt8)} (hi : Primitive item d y) (hd : isA d ch = true) :
    ∃ b w, contains E r bases low isA same (.node c o cs m) (some item) = .ok (b, w) ∧
      (b = true ↔ ∃ x ∈ xs, ∃ c, Primitive x c y ∧ typeTag E c = typeTag E d) := by
  unfold iterItems at hx
  obtain ⟨⟨n, w⟩, h1, hx⟩ := py_bind.mp hx
  obtain ⟨b, z, h2, h3⟩ := contains_loop (bases := bases) (same := same) hi n 0 hx hp
  refine ⟨b, z, ?_, h3⟩
  cases hi <;> simp only [contains, Val.classOf, hc, hd, h1, bind, Except.bind, Bool.not_true] <;> exact h2

/-- An instance of another class is refused. -/
theorem C69_other_class {c ch d : ClassId} {proto : Obj Unit} {bad : List Nat} {isSet : Bool} (hc : E.cls c = .seqOf proto bad isSet (some ch)) {o : Obj Unit}
    {cs : Option (List Child)} {m : Bool} {item : Val} (hi : item.classOf = some d) (hd : isA d ch = false) :
    contains E r bases low isA same (.node c o cs m) (some item) = .error .typeError := by
  cases item <;> cases hi <;> simp only [contains, Val.classOf, hc, hd] <;> rfl

/-- `None` and absent values are not contained. -/
theorem C69_absent (v : Val) : contains E r bases low isA same v none = .ok (false, v) ∧ contains E r bases low isA same v (some .void) = .ok (false, v) :=
  ⟨rfl, rfl⟩

end

/-! ### Loaded values -/

/-- What a field with no tags of its own is built from: the contents are those of the element. -/
theorem buildObj_plain_contents {ν : Type} {k : Bool} {bad : List Nat} {p o : Obj ν} {i : Info} (hp : p.explicit = [])
    (h : buildObj k bad p i = .ok o) : o.contents = some i.contents := by
  unfold buildObj at h
  rw [hp] at h
  simp only [buildBase, bind, Except.bind] at h
  repeat' split at h
  all_goals first | cases h; rfl | cases h

theorem init_plain {ν : Type} {o : Obj ν} (h : o.explicit = []) : (initTagging o (({} : Params).buildTags o.explicit)).explicit = [] := by
  rw [h]
  unfold initTagging
  simp [Params.buildTags, Params.tags, h]

theorem element_contents {E : Env} {n : Nat} {ch : ClassId} {proto : LeafSt} {bad : List Nat} (hc : E.cls ch = .leaf proto bad) (he : proto.base.explicit = [])
    {i : Info} {x : Val} (h : (ops E (n + 1)).build i (some ch) {} none = .ok x) : Primitive x ch (some i.contents) := by
  have h : buildStep E (ops E n) i (some ch) {} none = .ok x := h
  unfold buildStep buildPlain at h
  simp only [hc] at h
  obtain ⟨v, h1, h2⟩ := py_bind.mp h
  cases h2
  obtain ⟨_, _, h1⟩ := py_bind.mp h1
  obtain ⟨s, h3, h1⟩ := py_bind.mp h1
  cases h1
  rw [LeafSt.build_eq] at h3
  cases h4 : buildObj (proto.init (({} : Params).buildTags proto.base.explicit)).constructable bad (proto.init (({} : Params).buildTags proto.base.explicit)).base i with
  | error e => rw [h4] at h3; cases h3
  | ok b =>
    rw [h4] at h3
    cases h3
    have h5 : b.contents = some i.contents := by
      refine buildObj_plain_contents ?_ h4
      rw [LeafSt.base_init]
      exact init_plain he
    have h6 : ((proto.init (({} : Params).buildTags proto.base.explicit)).map (Obj.over b)).base.contents = some i.contents := by
      rw [LeafSt.base_over]
      exact h5
    rw [← h6]
    exact .leaf ch _

theorem forall₂_left {α β : Type} {R : α → β → Prop} {xs : List α} {ys : List β} (h : List.Forall₂ R xs ys) : ∀ x ∈ xs, ∃ y ∈ ys, R x y := by
  induction h with
  | nil => simp
  | cons h _ ih =>
    intro x hx
    rcases List.mem_cons.mp hx with rfl | hx
    · exact ⟨_, by simp, h⟩
    · obtain ⟨y, h1, h2⟩ := ih x hx
      exact ⟨y, by simp [h1], h2⟩

theorem iter_lazy {E : Env} {r : Ops} {c ch : ClassId} {proto : Obj Unit} {bad : List Nat} {isSet : Bool} (hc : E.cls c = .seqOf proto bad isSet (some ch))
    {o : Obj Unit} {mu : Bool} {is : List Info} : ∀ (m k : Nat) {cs : List Child} {xs : List Val} {v' : Val}, k + m = is.length → cs.length = is.length →
    (∀ j, k ≤ j → cs[j]? = (is[j]?).map (fun i => .lazy i (some ch) none)) → iterFrom E r m k (.node c o (some cs) mu) = .ok (xs, v') →
    List.Forall₂ (fun x i => r.build i (some ch) {} none = .ok x) xs (is.drop k)
  | 0, k, cs, xs, v', hk, hl, hj, h => by
    cases h
    rw [List.drop_eq_nil_of_le (by omega)]
    exact .nil
  | m + 1, k, cs, xs, v', hk, hl, hj, h => by
    simp only [iterFrom] at h
    obtain ⟨⟨x, w⟩, h1, h⟩ := py_bind.mp h
    obtain ⟨⟨xs', w'⟩, h2, h⟩ := py_bind.mp h
    cases h
    have hlt : k < is.length := by omega
    have h3 := hj k (Nat.le_refl k)
    rw [List.getElem?_eq_getElem hlt] at h3
    simp only [getItem, ensureChildren, bind, Except.bind, h3, hc, Option.map_some, buildChild] at h1
    cases h4 : r.build is[k] (some ch) {} none with
    | error e => rw [h4] at h1; cases h1
    | ok y =>
      rw [h4] at h1
      cases h1
      rw [List.drop_eq_getElem_cons hlt]
      refine .cons h4 (iter_lazy hc m (k + 1) (by omega) (by simpa using hl) ?_ h2)
      intro j hk'
      rw [List.getElem?_set_ne (by omega)]
      exact hj j (by omega)

/-- For a list that was loaded, `item in value` is true exactly if one of the elements in the encoding has the contents octets of `item`. -/
theorem C69_loaded {E : Env} {n : Nat} {bases : ClassId → List ClassId} {low : List ClassId} {isA : ClassId → ClassId → Bool} {same : Nat → Bool} {c ch : ClassId}
    {proto : Obj Unit} {bad bad' : List Nat} {isSet : Bool} {leaf : LeafSt} (hc : E.cls c = .seqOf proto bad isSet (some ch)) (hp : proto.explicit = [])
    (hch : E.cls ch = .leaf leaf bad') (hl : leaf.base.explicit = []) (hlow : ch ∉ low) {t : TLV} (ht : Ber 11 t) {ts : List TLV}
    (hts : Elements t.contents ts) {strict : Bool} {v : Val} (hv : loadVal E (ops E (n + 1)) c {} t.bytes strict = .ok v) {xs : List Val} {v' : Val}
    (hx : iterItems E (ops E (n + 1)) v = .ok (xs, v')) {item : Val} {y : List UInt8} (hi : Primitive item ch (some y)) (hd : isA ch ch = true) :
    ∃ b w, contains E (ops E (n + 1)) bases low isA same v (some item) = .ok (b, w) ∧ (b = true ↔ ∃ e ∈ ts, e.contents = y) := by
  unfold loadVal at hv
  obtain ⟨i, h1, h2⟩ := py_bind.mp hv
  have h3 : i.tlv = t := by
    cases strict with
    | true =>
      obtain ⟨g1, g2⟩ := (parse_strict_ok_iff _ _).mp h1
      exact (Ber_unique (r := []) (r' := []) g2 ht (by simp [g1])).1
    | false =>
      obtain ⟨rest, g1, g2⟩ := (parse_ok_iff _ _).mp h1
      exact (Ber_unique (r := rest) (r' := []) g2 ht (by simp [g1])).1
  simp only [hc] at h2
  have h2 : buildStep E (ops E n) i (some c) {} none = .ok v := h2
  unfold buildStep buildPlain at h2
  simp only [hc] at h2
  obtain ⟨v0, h4, h2⟩ := py_bind.mp h2
  cases h2
  obtain ⟨_, _, h4⟩ := py_bind.mp h4
  obtain ⟨o, h5, h4⟩ := py_bind.mp h4
  cases h4
  have h6 := buildObj_plain_contents (init_plain hp) h5
  have h6 : o.contents = some t.contents := by rw [h6, ← h3]; rfl
  obtain ⟨is, hcs, his⟩ : ∃ is : List Info, parseChildren E (ops E (n + 1)) c o.contents = .ok (is.map (fun i => .lazy i (some ch) none)) ∧ is.map Info.tlv = ts := by
    unfold iterItems lenOf ensureChildren at hx
    obtain ⟨⟨m, w⟩, h7, hx⟩ := py_bind.mp hx
    obtain ⟨cs, h8, h9⟩ := py_bind.mp h7
    have h10 := h8
    simp only [parseChildren, hc, h6] at h10
    obtain ⟨is, g1, rfl⟩ := (parseSeqOf_ok_iff _ _ _).mp h10
    exact ⟨is, h8, Elements.unique g1 hts⟩
  have hall : List.Forall₂ (fun x i => (ops E (n + 1)).build i (some ch) {} none = .ok x) xs is := by
    have hx' := hx
    unfold iterItems lenOf ensureChildren at hx'
    simp only [hcs, bind, Except.bind] at hx'
    have := iter_lazy hc (is := is) (is.map (fun i => Child.lazy i (some ch) none)).length 0 (by simp) (by simp) (fun j _ => by simp) hx'
    simpa using this
  have hprim : ∀ x ∈ xs, ∃ e ∈ ts, Primitive x ch (some e.contents) := by
    intro x hx
    obtain ⟨i, g1, g2⟩ := forall₂_left hall x hx
    exact ⟨i.tlv, his ▸ List.mem_map_of_mem g1, element_contents hch hl g2⟩
  have hprim' : ∀ e ∈ ts, ∃ x ∈ xs, Primitive x ch (some e.contents) := by
    intro e he
    rw [← his] at he
    obtain ⟨i, g1, rfl⟩ := List.mem_map.mp he
    obtain ⟨x, g2, g3⟩ := forall₂_left hall.flip i g1
    exact ⟨x, g2, element_contents hch hl g3⟩
  obtain ⟨b, w, k1, k2⟩ := C69_iff (bases := bases) (same := same) (low := low) hc hx
    (fun x hx => (hprim x hx).elim fun e h => ⟨ch, _, h.2, hlow⟩) hi hd
  refine ⟨b, w, k1, ?_⟩
  rw [k2]
  constructor
  · rintro ⟨x, hx, d, g1, g2⟩
    obtain ⟨e, he, g3⟩ := hprim x hx
    have := g1.view.symm.trans g3.view
    injection this with this
    injection this with _ this
    injection this with this
    exact ⟨e, he, this.symm⟩
  · rintro ⟨e, he, rfl⟩
    obtain ⟨x, hx, g⟩ := hprim' e he
    exact ⟨x, hx, ch, g, rfl⟩

/-- The contents octets `c` are the DER form of the value `s` of the class. -/
def DerFormOf (leaf : LeafSt) (s : Scalar) (c : List UInt8) : Prop := Reads leaf false c s ∧ DerContents leaf s c

/-- If what was loaded is in DER, as is `item`, then `item in value` is true exactly if one of the elements stands for the value of `item`. -/
theorem C69_values {E : Env} {n : Nat} {bases : ClassId → List ClassId} {low : List ClassId} {isA : ClassId → ClassId → Bool} {same : Nat → Bool} {c ch : ClassId}
    {proto : Obj Unit} {bad bad' : List Nat} {isSet : Bool} {leaf : LeafSt} (hc : E.cls c = .seqOf proto bad isSet (some ch)) (hp : proto.explicit = [])
    (hch : E.cls ch = .leaf leaf bad') (hl : leaf.base.explicit = []) (hpl : PlainLeaf leaf) (hlow : ch ∉ low) {t : TLV} (ht : Ber 11 t) {ts : List TLV}
    (hts : Elements t.contents ts) {ss : List Scalar} (hss : List.Forall₂ (fun e s => DerFormOf leaf s e.contents) ts ss) {strict : Bool} {v : Val}
    (hv : loadVal E (ops E (n + 1)) c {} t.bytes strict = .ok v) {xs : List Val} {v' : Val} (hx : iterItems E (ops E (n + 1)) v = .ok (xs, v'))
    {item : Val} {y : List UInt8} {s : Scalar} (hi : Primitive item ch (some y)) (hy : DerFormOf leaf s y) (hd : isA ch ch = true) :
    ∃ b w, contains E (ops E (n + 1)) bases low isA same v (some item) = .ok (b, w) ∧ (b = true ↔ s ∈ ss) := by
  obtain ⟨b, w, h1, h2⟩ := C69_loaded (bases := bases) (same := same) hc hp hch hl hlow ht hts hv hx hi hd
  refine ⟨b, w, h1, ?_⟩
  rw [h2]
  constructor
  · rintro ⟨e, he, rfl⟩
    obtain ⟨s', hs', ⟨_, _, g1, _⟩, _⟩ := forall₂_left hss e he
    obtain ⟨⟨_, _, g2, _⟩, _⟩ := hy
    rw [g1] at g2
    injection g2 with g2
    injection g2 with g2 _
    exact g2 ▸ hs'
  · intro hs
    obtain ⟨e, he, _, g⟩ := forall₂_left hss.flip s hs
    exact ⟨e, he, derContents_unique hpl g hy.2⟩

/-! ### Elements that are not primitive -/

/-- Elements of constructed classes without a comparison of their own are found only if `item` is one of the very objects in the list. -/
theorem contains_identity {E : Env} {r : Ops} {bases : ClassId → List ClassId} {low : List ClassId} {same : Nat → Bool} {item : Val} : ∀ (m k : Nat) {v v' : Val}
    {xs : List Val}, iterFrom E r m k v = .ok (xs, v') → (∀ x ∈ xs, ∀ c b, ¬ Primitive x c b) →
    ∃ b w, containsFrom E r bases low same item m k v = .ok (b, w) ∧ (b = true ↔ ∃ j, j < m ∧ same (k + j) = true)
  | 0, k, v, v', xs, hx, _ => ⟨false, v, rfl, by simp⟩
  | m + 1, k, v, v', xs, hx, hp => by
    simp only [iterFrom] at hx
    obtain ⟨⟨x, w⟩, h1, hx⟩ := py_bind.mp hx
    obtain ⟨⟨xs', w'⟩, h2, hx⟩ := py_bind.mp hx
    cases hx
    obtain ⟨e, z, k1, k2⟩ := contains_identity (bases := bases) (low := low) (same := same) (item := item) m (k + 1) h2 (fun x hx => hp x (by simp [hx]))
    have h6 : childEq E r bases low same k x item = .ok (same k) := by
      have hp' : ∀ c b, ¬ Primitive x c b := hp x (by simp)
      have : x.primitive = none := by
        clear hp h1 h2
        cases x <;> first | rfl | exact absurd (Primitive.leaf _ _) (hp' _ _) | exact absurd (Primitive.string _ _ _ _) (hp' _ _)
      unfold childEq
      rw [this]
    cases h7 : same k with
    | true =>
      refine ⟨true, w, ?_, ?_⟩
      · simp only [containsFrom, bind, Except.bind, h1, h6, h7, if_true]
      · simp only [true_iff]
        exact ⟨0, by omega, h7⟩
    | false =>
      refine ⟨e, z, ?_, ?_⟩
      · simp only [containsFrom, bind, Except.bind, h1, h6, h7]
        exact k1
      · rw [k2]
        constructor
        · rintro ⟨j, h8, h9⟩
          exact ⟨j + 1, by omega, by rw [← h9]; congr 1; omega⟩
        · rintro ⟨j, h8, h9⟩
          cases j with
          | zero => rw [Nat.add_zero] at h9; rw [h7] at h9; cases h9
          | succ j => exact ⟨j, by omega, by rw [← h9]; congr 1; omega⟩

/-- So a new instance is never contained, whatever its value. -/
theorem C69_constructed_fails {E : Env} {r : Ops} {bases : ClassId → List ClassId} {low : List ClassId} {isA : ClassId → ClassId → Bool} {c ch d : ClassId}
    {proto : Obj Unit} {bad : List Nat} {isSet : Bool} (hc : E.cls c = .seqOf proto bad isSet (some ch)) {o : Obj Unit}
    {cs : Option (List Child)} {m : Bool} {xs : List Val} {v' : Val} (hx : iterItems E r (.node c o cs m) = .ok (xs, v'))
    (hp : ∀ x ∈ xs, ∀ c b, ¬ Primitive x c b) {item : Val} (hi : item.classOf = some d) (hd : isA d ch = true) :
    ∃ w, contains E r bases low isA (fun _ => false) (.node c o cs m) (some item) = .ok (false, w) := by
  unfold iterItems at hx
  obtain ⟨⟨n, w⟩, h1, hx⟩ := py_bind.mp hx
  obtain ⟨b, z, h2, h3⟩ := contains_identity (bases := bases) (low := low) (same := fun _ => false) (item := item) n 0 hx hp
  have : b = false := by
    cases b with
    | false => rfl
    | true => obtain ⟨_, _, h⟩ := h3.mp rfl; cases h
  subst this
  refine ⟨z, ?_⟩
  cases item <;> cases hi <;> simp only [contains, Val.classOf, hc, hd, h1, bind, Except.bind, Bool.not_true] <;> exact h2

/-! ### Examples -/

/-- BOOLEAN, INTEGER, a SEQUENCE of an INTEGER, and SEQUENCE OF these. -/
def memberEnv : Env where
  cls := fun c => match c with
    | 0 => .leaf (.boolean { cls := 0, method := 0, tag := 1 }) []
    | 1 => .leaf (.integer none { cls := 0, method := 0, tag := 2 }) []
    | 2 => .seq { cls := 0, method := 1, tag := 16 } [] false [{ name := "n", spec := 1 }] none
    | 3 => .seqOf { cls := 0, method := 1, tag := 16 } [] false (some 0)
    | 4 => .seqOf { cls := 0, method := 1, tag := 16 } [] false (some 1)
    | 5 => .seqOf { cls := 0, method := 1, tag := 16 } [] false (some 2)
    | _ => .any
  universal := fun _ => none

/-- Loads a list and an item and asks whether the item, a new object, is in the list. -/
def asked (c d : ClassId) (x y : Bytes) : Py Bool := do
  let v ← loadVal memberEnv (ops memberEnv 6) c {} x
  let w ← loadVal memberEnv (ops memberEnv 6) d {} y
  let (b, _) ← contains memberEnv (ops memberEnv 6) (fun _ => [91, 92]) [90, 91, 92] (fun a b => a == b) (fun _ => false) v (some w)
  .ok b

/-- 1 and 300 are in the list 5, 300, 1; 6 is not, and a BOOLEAN cannot be asked for. -/
example : asked 4 1 [0x30, 10, 2, 1, 5, 2, 2, 1, 44, 2, 1, 1] [2, 1, 1] = .ok true ∧ asked 4 1 [0x30, 10, 2, 1, 5, 2, 2, 1, 44, 2, 1, 1] [2, 2, 1, 44] = .ok true ∧
    asked 4 1 [0x30, 10, 2, 1, 5, 2, 2, 1, 44, 2, 1, 1] [2, 1, 6] = .ok false ∧
    asked 4 0 [0x30, 10, 2, 1, 5, 2, 2, 1, 44, 2, 1, 1] [1, 1, 0] = .error .typeError := by decide +kernel

/-- The same value in another form allowed by BER is not found. -/
theorem C69_ber_fails : asked 3 0 [0x30, 3, 1, 1, 1] [1, 1, 0xff] = .ok false ∧ asked 3 0 [0x30, 3, 1, 1, 0xff] [1, 1, 0xff] = .ok true := by decide +kernel

/-- A SEQUENCE with the very encoding of the only element is not found. -/
theorem C69_constructed_witness : asked 5 2 [0x30, 5, 0x30, 3, 2, 1, 5] [0x30, 3, 2, 1, 5] = .ok false := by decide +kernel

theorem small_form {n : Nat} (h : n = 1 ∨ n = 5) : DerFormOf (.integer none { cls := 0, method := 0, tag := 2 }) (.int n) [UInt8.ofNat n] := by
  have hl : ∀ d : List UInt8, d ≠ [] → 1 ≤ d.length := fun d hd => List.length_pos_iff.mpr hd
  rcases h with rfl | rfl <;>
    exact ⟨⟨fun o h => (by cases h), _, by rfl, by rfl⟩, .integer (.inl ⟨rfl, by simp⟩) ⟨by simp, by decide, fun d hd _ => hl d hd⟩⟩

/-- The hypotheses of `C69_values` are met by the list 5, 1 and the item 1. -/
example : ∃ v item b w, loadVal memberEnv (ops memberEnv 6) 4 {} [0x30, 6, 2, 1, 5, 2, 1, 1] true = .ok v ∧ loadVal memberEnv (ops memberEnv 6) 1 {} [2, 1, 1] = .ok item ∧
    contains memberEnv (ops memberEnv 6) (fun _ => [91, 92]) [90, 91, 92] (fun a b => a == b) (fun _ => false) v (some item) = .ok (b, w) ∧
    (b = true ↔ Scalar.int 1 ∈ [Scalar.int 5, Scalar.int 1]) := by
  have h1 : Ber 11 ⟨0, 1, 16, [0x30, 6], [2, 1, 5, 2, 1, 1], []⟩ :=
    ((parse_strict_ok_iff [0x30, 6, 2, 1, 5, 2, 1, 1] ⟨0, 1, 16, [0x30, 6], [2, 1, 5, 2, 1, 1], []⟩).mp (by decide +kernel)).2
  have h2 : Ber 11 ⟨0, 0, 2, [2, 1], [5], []⟩ := ((parse_strict_ok_iff [2, 1, 5] ⟨0, 0, 2, [2, 1], [5], []⟩).mp (by decide +kernel)).2
  have h3 : Ber 11 ⟨0, 0, 2, [2, 1], [1], []⟩ := ((parse_strict_ok_iff [2, 1, 1] ⟨0, 0, 2, [2, 1], [1], []⟩).mp (by decide +kernel)).2
  obtain ⟨b, w, k1, k2⟩ := C69_values (E := memberEnv) (n := 5) (bases := fun _ => [91, 92]) (low := [90, 91, 92]) (isA := fun a b => a == b) (same := fun _ => false)
    (c := 4) (ch := 1) rfl rfl rfl rfl (.integer (by decide) (by simp)) (by decide) h1 (ts := [⟨0, 0, 2, [2, 1], [5], []⟩, ⟨0, 0, 2, [2, 1], [1], []⟩])
    ⟨rfl, by simp [h2, h3]⟩ (ss := [.int 5, .int 1]) (.cons (small_form (n := 5) (.inr rfl)) (.cons (small_form (n := 1) (.inl rfl)) .nil)) (strict := true)
    (by rfl) (by rfl) (item := .leaf 1 (.integer none { cls := 0, method := 0, tag := 2, header := some [2, 1], contents := some [1] })) (.leaf _ _)
    (small_form (n := 1) (.inl rfl)) rfl
  exact ⟨_, _, b, w, rfl, rfl, k1, k2⟩

end Asn1.Props
