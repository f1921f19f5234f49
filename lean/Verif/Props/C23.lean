import Verif.Lemmas.Parsable
import Verif.Props.C16

/-!
# C23: Parsed payload inside OCTET/BIT STRING stays consistent

A string class is a `ParsableOctetString` or a `ParsableOctetBitString` (`isBit`). The operations on payloads (`r`) are
arbitrary: the theorems hold for every way payloads are built, read and encoded.
-/

namespace Asn1
open Spec

/-- The class attributes of a parsable string class. -/
structure StringClass (E : Env) (c : ClassId) (proto : Obj Bytes) (isBit : Bool) : Prop where
  shape : E.cls c = .parsable proto isBit
  cls : proto.cls < 4
  method : proto.method = 0
  explicit : ∀ e ∈ proto.explicit, e.1 < 4
  indefinite : proto.indefinite = false

/-- Params without default for which building and constructing use the same tags. -/
structure StringParams (proto : Obj Bytes) (p : Params) : Prop where
  valid : p.Valid
  keep : p.noExplicit = false
  default : p.default = none
  one : proto.explicit = [] ∨ p.implicit = none

/-- `x` was parsed from the octets `b` with `spec`, and perhaps read since. -/
inductive Payload (r : Ops) (b : Bytes) (spec : Option ClassId) : Val → Prop
  | parse {x : Val} : parseBuild r b spec {} = .ok x → Payload r b spec x
  | native {x x' : Val} {n : PyVal} : Payload r b spec x → r.native x = .ok (n, x') → Payload r b spec x'
  | dump {x x' : Val} {w : Bytes} : Payload r b spec x → r.dump x false = .ok (w, x') → Payload r b spec x'

/-- `v` is a state of a string of class `c` reached by the API, and `b` are the octets given last: those it was constructed or
loaded with, or assigned since. New octets are only assigned while nothing has been parsed. -/
inductive Held (E : Env) (r : Ops) (c : ClassId) (p : Params) (isBit : Bool) : Bytes → Val → Prop
  | new {b : Bytes} {v : Val} : constructStep E r c p (.scalar (.bytes b)) = .ok v → Held E r c p isBit b v
  | load {b : Bytes} {i : Info} {o : Obj Bytes} : Ber 11 i.tlv → Tidy E (some c) p i.tlv →
      buildStep E r i (some c) p none = .ok (.parsable c o none none) → o.contents = some (stringContents isBit b) →
      Held E r c p isBit b (.parsable c o none none)
  | set {b b' : Bytes} {o : Obj Bytes} {s : Option ClassId} : Held E r c p isBit b (.parsable c o none s) →
      Held E r c p isBit b' (.parsable c (parsableSet isBit o b') none s)
  | parse {b : Bytes} {v v' x : Val} {spec : Option ClassId} : Held E r c p isBit b v → parseAs E r v spec = .ok (x, v') →
      Held E r c p isBit b v'
  | parsed {b : Bytes} {v v' x : Val} : Held E r c p isBit b v → parsedOf E r v = .ok (x, v') → Held E r c p isBit b v'
  | native {b : Bytes} {v v' : Val} {n : PyVal} : Held E r c p isBit b v → nativeStep E r v = .ok (n, v') →
      Held E r c p isBit b v'
  | dump {b w : Bytes} {v v' : Val} : Held E r c p isBit b v → dumpStep E r v false = .ok (w, v') → Held E r c p isBit b v'
  | force {b w : Bytes} {o : Obj Bytes} {s : Option ClassId} {v' : Val} : Held E r c p isBit b (.parsable c o none s) →
      dumpStep E r (.parsable c o none s) true = .ok (w, v') → Held E r c p isBit b v'

section
variable {E : Env} {r : Ops} {c : ClassId} {proto : Obj Bytes} {isBit : Bool} {p : Params}

/-- The invariant behind `Held`. -/
def HeldInv (r : Ops) (c : ClassId) (proto : Obj Bytes) (p : Params) (isBit : Bool) (b : Bytes) (v : Val) : Prop :=
  ∃ o x s, v = .parsable c o x s ∧
    HoldsOctets (proto.explicit ++ p.explicit) (effTag (proto.cls, proto.tag) p).1 (effTag (proto.cls, proto.tag) p).2 isBit o b ∧
    ∀ y, x = some y → Payload r b s y

theorem string_tags (hc : StringClass E c proto isBit) (hp : StringParams proto p) :
    (initTagging proto p.tags).explicit = proto.explicit ++ p.explicit ∧
    (initTagging proto p.tags).cls = (effTag (proto.cls, proto.tag) p).1 ∧
    (initTagging proto p.tags).tag = (effTag (proto.cls, proto.tag) p).2 ∧
    (initTagging proto p.tags).method = 0 ∧ (initTagging proto p.tags).indefinite = false ∧
    (effTag (proto.cls, proto.tag) p).1 < 4 ∧ (∀ e ∈ proto.explicit ++ p.explicit, e.1 < 4) := by
  obtain ⟨h1, h2, h3, h4, h5, h6, _⟩ := initTagging_fields proto p hp.keep
  refine ⟨h2, by rw [← h1], by rw [← h1], h3.trans hc.method, h6.trans hc.indefinite, ?_, ?_⟩
  · unfold effTag
    split
    · cases hi : p.implicit with
      | none => exact hc.cls
      | some e => exact hp.valid.2 e hi
    · exact hc.cls
  · intro e he
    rcases List.mem_append.mp he with h | h
    · exact hc.explicit e h
    · exact hp.valid.1 e h

theorem proto_eq (hc : StringClass E c proto isBit) : parsableProto E c = (proto, isBit) := by
  unfold parsableProto; rw [hc.shape]

theorem heldInv_parse (hc : StringClass E c proto isBit) {b : Bytes} {v v' x : Val} {spec : Option ClassId}
    (h : HeldInv r c proto p isBit b v) (hr : parseAs E r v spec = .ok (x, v')) :
    Payload r b spec x ∧ HeldInv r c proto p isBit b v' := by
  obtain ⟨o, y, s, rfl, ho, hy⟩ := h
  obtain ⟨o', h1, h2⟩ := ho.bytes proto
  have hnew : ∀ {y' : Option Val}, (do
      let (b, o) ← parsableBytes isBit proto o
      let v ← parseBuild r b spec {}
      .ok (v, .parsable c o (some v) spec) : Py (Val × Val)) = .ok (x, v') → y' = y →
      Payload r b spec x ∧ HeldInv r c proto p isBit b v' := by
    intro y' hr _
    rw [h1] at hr
    simp only [bind, Except.bind] at hr
    cases h3 : parseBuild r b spec {} with
    | error e => rw [h3] at hr; cases hr
    | ok z =>
      rw [h3] at hr
      simp only [Except.ok.injEq, Prod.mk.injEq] at hr
      obtain ⟨rfl, rfl⟩ := hr
      exact ⟨.parse h3, o', some z, spec, rfl, h2, fun w hw => by cases hw; exact .parse h3⟩
  simp only [parseAs, parsableParse, proto_eq hc] at hr
  cases y with
  | none => exact hnew (y' := none) hr rfl
  | some y =>
    by_cases hs : s = spec
    · subst hs
      simp only [decide_true, Except.ok.injEq, Prod.mk.injEq] at hr
      obtain ⟨rfl, rfl⟩ := hr
      exact ⟨hy y rfl, o, some y, s, rfl, ho, hy⟩
    · simp only [hs, decide_false] at hr
      exact hnew (y' := some y) hr rfl

theorem heldInv_parsed (hc : StringClass E c proto isBit) {b : Bytes} {v v' x : Val}
    (h : HeldInv r c proto p isBit b v) (hr : parsedOf E r v = .ok (x, v')) :
    (∃ spec, Payload r b spec x) ∧ HeldInv r c proto p isBit b v' := by
  have h0 := h
  obtain ⟨o, y, s, rfl, ho, hy⟩ := h
  cases y with
  | none =>
    have := heldInv_parse hc h0 (spec := none) hr
    exact ⟨⟨_, this.1⟩, this.2⟩
  | some y =>
    simp only [parsedOf, Except.ok.injEq, Prod.mk.injEq] at hr
    obtain ⟨rfl, rfl⟩ := hr
    exact ⟨⟨s, hy y rfl⟩, h0⟩

theorem heldInv_native (hc : StringClass E c proto isBit) {b : Bytes} {v v' : Val} {n : PyVal}
    (h : HeldInv r c proto p isBit b v) (hr : nativeStep E r v = .ok (n, v')) :
    (n = .scalar (.bytes b) ∨ ∃ spec x x', Payload r b spec x ∧ r.native x = .ok (n, x')) ∧ HeldInv r c proto p isBit b v' := by
  obtain ⟨o, y, s, rfl, ho, hy⟩ := h
  obtain ⟨o', h1, h2⟩ := ho.bytes proto
  cases y with
  | none =>
    simp only [nativeStep, ho.contents, proto_eq hc, h1, bind, Except.bind, Except.ok.injEq, Prod.mk.injEq] at hr
    obtain ⟨rfl, rfl⟩ := hr
    exact ⟨Or.inl rfl, o', none, s, rfl, h2, fun w hw => (by cases hw)⟩
  | some y =>
    simp only [nativeStep, ho.contents, bind, Except.bind] at hr
    cases h3 : r.native y with
    | error e => rw [h3] at hr; cases hr
    | ok z =>
      obtain ⟨n', y'⟩ := z
      rw [h3] at hr
      simp only [Except.ok.injEq, Prod.mk.injEq] at hr
      obtain ⟨rfl, rfl⟩ := hr
      exact ⟨Or.inr ⟨s, y, y', hy y rfl, h3⟩, o, some y', s, rfl, ho, fun w hw => by cases hw; exact .native (hy y rfl) h3⟩

theorem heldInv_dump (hc : StringClass E c proto isBit) (hp : StringParams proto p) {b w : Bytes} {v v' : Val}
    (h : HeldInv r c proto p isBit b v) (hr : dumpStep E r v false = .ok (w, v')) :
    (Fits w → StringElement (proto.explicit ++ p.explicit) (effTag (proto.cls, proto.tag) p).1 (effTag (proto.cls, proto.tag) p).2
      isBit b w) ∧ HeldInv r c proto p isBit b v' := by
  obtain ⟨o, y, s, rfl, ho, hy⟩ := h
  obtain ⟨_, _, _, _, _, hcls, hes⟩ := string_tags hc hp
  simp only [dumpStep, parsableDump, ho.indefinite, Bool.or_self, Bool.false_eq_true, if_false, bind, Except.bind] at hr
  cases h3 : asn1Dump true o false with
  | error e => rw [h3] at hr; cases hr
  | ok z =>
    obtain ⟨w', o'⟩ := z
    rw [h3] at hr
    simp only [Except.ok.injEq, Prod.mk.injEq] at hr
    obtain ⟨rfl, rfl⟩ := hr
    obtain ⟨h4, h5⟩ := ho.dump hcls hes h3
    exact ⟨h5, o', y, s, rfl, h4, hy⟩

theorem heldInv_force (hc : StringClass E c proto isBit) (hp : StringParams proto p) {b w : Bytes} {o : Obj Bytes}
    {s : Option ClassId} {v' : Val} (h : HeldInv r c proto p isBit b (.parsable c o none s))
    (hr : dumpStep E r (.parsable c o none s) true = .ok (w, v')) :
    (Fits w → StringElement (proto.explicit ++ p.explicit) (effTag (proto.cls, proto.tag) p).1 (effTag (proto.cls, proto.tag) p).2
      isBit b w) ∧ HeldInv r c proto p isBit b v' := by
  obtain ⟨o, y, s, hv, ho, hy⟩ := h
  cases hv
  obtain ⟨o', h1, h2⟩ := ho.bytes proto
  obtain ⟨_, _, _, _, _, hcls, hes⟩ := string_tags hc hp
  simp only [dumpStep, parsableDump, Bool.true_or, if_true, ho.contents, proto_eq hc, h1, bind, Except.bind] at hr
  have hset : HoldsOctets (proto.explicit ++ p.explicit) (effTag (proto.cls, proto.tag) p).1 (effTag (proto.cls, proto.tag) p).2
      isBit (parsableSet isBit { o' with contents := none } b) b :=
    HoldsOctets.set (o := { o' with contents := none }) h2.explicit h2.cls h2.tag (Or.inl h2.method) b
  cases h3 : asn1Dump true (parsableSet isBit { o' with contents := none } b) false with
  | error e => rw [h3] at hr; cases hr
  | ok z =>
    obtain ⟨w', o''⟩ := z
    rw [h3] at hr
    simp only [Except.ok.injEq, Prod.mk.injEq] at hr
    obtain ⟨rfl, rfl⟩ := hr
    obtain ⟨h4, h5⟩ := hset.dump hcls hes h3
    exact ⟨h5, o'', none, s, rfl, h4, fun w hw => (by cases hw)⟩

theorem heldInv (hc : StringClass E c proto isBit) (hp : StringParams proto p) {b : Bytes} {v : Val}
    (h : Held E r c p isBit b v) : HeldInv r c proto p isBit b v := by
  obtain ⟨t1, t2, t3, t4, t5, hcls, hes⟩ := string_tags hc hp
  induction h with
  | @new b v h =>
    unfold constructStep at h
    simp only [hc.shape, givenValue, hp.default, Except.ok.injEq] at h
    subst h
    exact ⟨_, none, none, rfl, HoldsOctets.set t1 t2 t3 (Or.inl t4) b, fun y hy => (by cases hy)⟩
  | @load b i o hb ht h hcon =>
    have hbt : p.buildTags proto.explicit = p.tags := by
      unfold Params.buildTags
      rcases hp.one with h | h
      · simp [h]
      · split
        · simp [Params.tags, h]
        · rfl
    have hdc : defaultCheck E r c p proto.explicit = .ok () := by
      unfold defaultCheck
      simp [hp.default]
    unfold buildStep buildPlain at h
    simp only [hc.shape, hbt, hdc, bind, Except.bind] at h
    cases h1 : buildObj true [] (initTagging proto p.tags) i with
    | error e => rw [h1] at h; cases h
    | ok o' =>
      rw [h1] at h
      simp only [Except.ok.injEq, Val.parsable.injEq, true_and, and_true] at h
      subst h
      have htight : Tight (initTagging proto p.tags).explicit.reverse i.tlv := by
        rw [t1]
        cases ht with
        | base _ h =>
          simp only [explicitOf, hc.shape, Shape.tagging, hp.keep, Bool.false_eq_true, if_false] at h
          exact h
        | any h => rw [hc.shape] at h; cases h
        | choice h => rw [hc.shape] at h; cases h
        | choiceExplicit h => rw [hc.shape] at h; cases h
      have := HoldsOctets.load h1 hb htight t4 t5 hcon
      rw [t1, t2, t3] at this
      exact ⟨o', none, none, rfl, this, fun y hy => (by cases hy)⟩
  | @set b b' o s h ih =>
    obtain ⟨o', x, s', hv, ho, _⟩ := ih
    cases hv
    exact ⟨_, none, s, rfl, HoldsOctets.set ho.explicit ho.cls ho.tag (Or.inl ho.method) b', fun y hy => (by cases hy)⟩
  | parse h hr ih => exact (heldInv_parse hc ih hr).2
  | parsed h hr ih => exact (heldInv_parsed hc ih hr).2
  | native h hr ih => exact (heldInv_native hc ih hr).2
  | dump h hr ih => exact (heldInv_dump hc hp ih hr).2
  | force h hr ih => exact (heldInv_force hc hp ih hr).2

/-- In every state reached by constructing or loading, assigning octets (before anything is parsed), parsing, reading and encoding:
the octets are the last given ones, everything that can be read is parsed from them, and the encoding is a string with the
expected tags that holds exactly them. Missing from the property: octets assigned after something was parsed
(`C23_stale_fails`), strings loaded from an element that is not `Tidy` (indefinite length, see `C23_indefinite_partial`). -/
theorem C23_history_partial (hc : StringClass E c proto isBit) (hp : StringParams proto p) {b : Bytes} {v : Val}
    (h : Held E r c p isBit b v) :
    (∃ o x s o', v = .parsable c o x s ∧ parsableBytes isBit proto o = .ok (b, o')) ∧
    (∀ spec x v', parseAs E r v spec = .ok (x, v') → Payload r b spec x) ∧
    (∀ x v', parsedOf E r v = .ok (x, v') → ∃ spec, Payload r b spec x) ∧
    (∀ n v', nativeStep E r v = .ok (n, v') →
      n = .scalar (.bytes b) ∨ ∃ spec x x', Payload r b spec x ∧ r.native x = .ok (n, x')) ∧
    (∀ w v', dumpStep E r v false = .ok (w, v') → Fits w →
      StringElement (proto.explicit ++ p.explicit) (effTag (proto.cls, proto.tag) p).1 (effTag (proto.cls, proto.tag) p).2 isBit b w) := by
  have hi := heldInv hc hp h
  refine ⟨?_, fun spec x v' hr => (heldInv_parse hc hi hr).1, fun x v' hr => (heldInv_parsed hc hi hr).1,
    fun n v' hr => (heldInv_native hc hi hr).1, fun w v' hr => (heldInv_dump hc hp hi hr).1⟩
  obtain ⟨o, x, s, rfl, ho, _⟩ := hi
  obtain ⟨o', h1, _⟩ := ho.bytes proto
  exact ⟨o, x, s, o', rfl, h1⟩

/-- Right after octets are assigned: `.parsed` parses the new octets, `.native` is the new octets, and the encoding, forced or not,
holds the new octets. The string may have been of indefinite length before. -/
theorem C23_set_partial (hc : StringClass E c proto isBit) (hp : StringParams proto p) {o : Obj Bytes} {s : Option ClassId}
    (ht : o.explicit = proto.explicit ++ p.explicit ∧ (o.cls, o.tag) = effTag (proto.cls, proto.tag) p ∧
      (o.method = 0 ∨ o.indefinite = true)) (b : Bytes) :
    (parsedOf E r (.parsable c (parsableSet isBit o b) none s)).map Prod.fst = parseBuild r b none {} ∧
    (∀ spec, (parseAs E r (.parsable c (parsableSet isBit o b) none s) spec).map Prod.fst = parseBuild r b spec {}) ∧
    (∃ v', nativeStep E r (.parsable c (parsableSet isBit o b) none s) = .ok (.scalar (.bytes b), v')) ∧
    (∀ force w v', dumpStep E r (.parsable c (parsableSet isBit o b) none s) force = .ok (w, v') → Fits w →
      StringElement (proto.explicit ++ p.explicit) (effTag (proto.cls, proto.tag) p).1 (effTag (proto.cls, proto.tag) p).2 isBit b w) := by
  have hi : HeldInv r c proto p isBit b (.parsable c (parsableSet isBit o b) none s) :=
    ⟨_, none, s, rfl, HoldsOctets.set ht.1 (by rw [← ht.2.1]) (by rw [← ht.2.1]) ht.2.2 b, fun y hy => (by cases hy)⟩
  have hbytes : parsableBytes isBit proto (parsableSet isBit o b) = .ok (b, parsableSet isBit o b) := rfl
  have hparse : ∀ spec, (parseAs E r (.parsable c (parsableSet isBit o b) none s) spec).map Prod.fst = parseBuild r b spec {} := by
    intro spec
    simp only [parseAs, parsableParse, proto_eq hc, hbytes, bind, Except.bind]
    cases parseBuild r b spec {} <;> rfl
  refine ⟨hparse none, hparse, ?_, ?_⟩
  · refine ⟨.parsable c (parsableSet isBit o b) none s, ?_⟩
    simp only [nativeStep, parsableSet, strPut, proto_eq hc]
    rfl
  · intro force w v' hd
    cases force with
    | false => exact (heldInv_dump hc hp hi hd).1
    | true => exact (heldInv_force hc hp hi hd).1

/-- A payload put into a string: `cls(parsed=x)`, or the assignment of a payload to a field with such a string type. The string
embeds exactly `x.dump()`, and reads back as the payload. -/
theorem C23_payload (n : Nat) (hc : StringClass E c proto isBit) (hp : StringParams proto p) {x v : Val}
    (h : embedPayload (ops E (n + 1)) c p x = .ok v) :
    ∃ b x', (ops E (n + 1)).dump x false = .ok (b, x') ∧
      (∀ r, ∃ v', parsedOf E r v = .ok (x', v')) ∧
      (∀ r, (nativeStep E r v).map Prod.fst = (r.native x').map Prod.fst) ∧
      (∀ r w v', dumpStep E r v false = .ok (w, v') → Fits w →
        StringElement (proto.explicit ++ p.explicit) (effTag (proto.cls, proto.tag) p).1 (effTag (proto.cls, proto.tag) p).2 isBit b w) ∧
      (∀ r w v', dumpStep E r v true = .ok (w, v') → Fits w → ∃ b' x'', r.dump x' true = .ok (b', x'') ∧
        StringElement (proto.explicit ++ p.explicit) (effTag (proto.cls, proto.tag) p).1 (effTag (proto.cls, proto.tag) p).2 isBit b' w) := by
  obtain ⟨t1, t2, t3, t4, t5, hcls, hes⟩ := string_tags hc hp
  unfold embedPayload at h
  simp only [bind, Except.bind] at h
  cases h1 : (ops E (n + 1)).dump x false with
  | error e => rw [h1] at h; cases h
  | ok z =>
    obtain ⟨b, x'⟩ := z
    rw [h1] at h
    have hcon : (ops E (n + 1)).construct c p (.scalar (.bytes b)) =
        .ok (.parsable c (parsableSet isBit (initTagging proto p.tags) b) none none) := by
      show constructStep E (ops E n) c p (.scalar (.bytes b)) = _
      unfold constructStep
      simp only [hc.shape, givenValue]
    simp only [hcon, Except.ok.injEq] at h
    subst h
    have ho := HoldsOctets.set (k := isBit) t1 t2 t3 (Or.inl t4) b
    refine ⟨b, x', rfl, fun r => ⟨_, rfl⟩, ?_, ?_, ?_⟩
    · intro r
      simp only [nativeStep, ho.contents, bind, Except.bind]
      cases r.native x' <;> rfl
    · intro r w v' hd
      simp only [dumpStep, parsableDump, ho.indefinite, Bool.or_self, Bool.false_eq_true, if_false, bind, Except.bind] at hd
      cases h3 : asn1Dump true (parsableSet isBit (initTagging proto p.tags) b) false with
      | error e => rw [h3] at hd; cases hd
      | ok z =>
        obtain ⟨w', o'⟩ := z
        rw [h3] at hd
        simp only [Except.ok.injEq, Prod.mk.injEq] at hd
        obtain ⟨rfl, rfl⟩ := hd
        exact (ho.dump hcls hes h3).2
    · intro r w v' hd hf
      simp only [dumpStep, parsableDump, Bool.true_or, if_true, proto_eq hc, bind, Except.bind] at hd
      cases h4 : r.dump x' true with
      | error e => rw [h4] at hd; cases hd
      | ok z =>
        obtain ⟨b', x''⟩ := z
        rw [h4] at hd
        refine ⟨b', x'', rfl, ?_⟩
        have ho' : HoldsOctets (proto.explicit ++ p.explicit) (effTag (proto.cls, proto.tag) p).1 (effTag (proto.cls, proto.tag) p).2
            isBit (parsableSet isBit { parsableSet isBit (initTagging proto p.tags) b with contents := none } b') b' :=
          HoldsOctets.set (o := { parsableSet isBit (initTagging proto p.tags) b with contents := none }) ho.explicit ho.cls ho.tag
            (Or.inl ho.method) b'
        simp only at hd
        generalize parsableSet isBit { parsableSet isBit (initTagging proto p.tags) b with contents := none } b' = o2 at hd ho'
        cases h3 : asn1Dump true o2 false with
        | error e => rw [h3] at hd; cases hd
        | ok z =>
          obtain ⟨w', o'⟩ := z
          rw [h3] at hd
          simp only [Except.ok.injEq, Prod.mk.injEq] at hd
          obtain ⟨rfl, rfl⟩ := hd
          exact (ho'.dump hcls hes h3).2 hf

/-- Assigning a native value to a field that is such a string with a payload of class `d` embeds the payload constructed from the
value. -/
theorem C23_field (n : Nat) (hc : StringClass E c proto isBit) {d : ClassId} (hd : d ≠ c) (hch : ∀ e t a, E.cls d ≠ .choice e t a)
    {value : PyVal} (hv : ∀ x, value ≠ .asn1 x) :
    makeRaw E (ops E n) c d p value = ((ops E n).construct d {} value).bind (embedPayload (ops E n) c p) := by
  unfold makeRaw
  have hne : decide (c = d) = false := by simp [Ne.symm hd]
  cases hs : E.cls d with
  | choice e t a => exact absurd hs (hch e t a)
  | leaf a b => cases value <;> first | exact absurd rfl (hv _) | (simp only [hne, hc.shape]; rfl)
  | seq a b f g h => cases value <;> first | exact absurd rfl (hv _) | (simp only [hne, hc.shape]; rfl)
  | seqOf a b f g => cases value <;> first | exact absurd rfl (hv _) | (simp only [hne, hc.shape]; rfl)
  | any => cases value <;> first | exact absurd rfl (hv _) | (simp only [hne, hc.shape]; rfl)
  | parsable a b => cases value <;> first | exact absurd rfl (hv _) | (simp only [hne, hc.shape]; rfl)

/-- A string loaded with chunks of indefinite length: what is parsed is parsed from the merged octets, and encoding it while nothing is
parsed gives a definite string that holds them. -/
theorem C23_indefinite_partial (hc : StringClass E c proto isBit) (hp : StringParams proto p) {o o' : Obj Bytes}
    {s : Option ClassId} {b : Bytes} (ht : o.explicit = proto.explicit ++ p.explicit ∧ (o.cls, o.tag) = effTag (proto.cls, proto.tag) p)
    (hi : o.indefinite = true) (hcon : o.contents ≠ none) (hb : parsableBytes isBit proto o = .ok (b, o')) :
    (∀ spec, (parseAs E r (.parsable c o none s) spec).map Prod.fst = parseBuild r b spec {}) ∧
    (∃ v', nativeStep E r (.parsable c o none s) = .ok (.scalar (.bytes b), v')) ∧
    (∀ force w v', dumpStep E r (.parsable c o none s) force = .ok (w, v') → Fits w →
      StringElement (proto.explicit ++ p.explicit) (effTag (proto.cls, proto.tag) p).1 (effTag (proto.cls, proto.tag) p).2 isBit b w) := by
  obtain ⟨_, _, _, _, _, hcls, hes⟩ := string_tags hc hp
  obtain ⟨cs, hcs⟩ := Option.ne_none_iff_exists'.mp hcon
  refine ⟨?_, ?_, ?_⟩
  · intro spec
    simp only [parseAs, parsableParse, proto_eq hc, hb, bind, Except.bind]
    cases parseBuild r b spec {} <;> rfl
  · refine ⟨.parsable c o' none s, ?_⟩
    simp only [nativeStep, hcs, proto_eq hc, hb]
    rfl
  · intro force w v' hd hf
    have hfr : o'.explicit = o.explicit ∧ o'.cls = o.cls ∧ o'.tag = o.tag ∧ o'.indefinite = o.indefinite := by
      unfold parsableBytes at hb
      rw [hcs] at hb
      simp only at hb
      split at hb
      · cases hb; exact ⟨rfl, rfl, rfl, rfl⟩
      · simp only [bind, Except.bind] at hb
        split at hb
        · cases hb
        · cases hb; exact ⟨rfl, rfl, rfl, rfl⟩
    have hset : HoldsOctets (proto.explicit ++ p.explicit) (effTag (proto.cls, proto.tag) p).1 (effTag (proto.cls, proto.tag) p).2
        isBit (parsableSet isBit { o' with contents := none } b) b :=
      HoldsOctets.set (o := { o' with contents := none }) (hfr.1.trans ht.1) (hfr.2.1.trans (by rw [← ht.2]))
        (hfr.2.2.1.trans (by rw [← ht.2])) (Or.inr (hfr.2.2.2.trans hi)) b
    simp only [dumpStep, parsableDump, hi, Bool.or_true, if_true, hcs, proto_eq hc, hb, bind, Except.bind] at hd
    generalize parsableSet isBit { o' with contents := none } b = o2 at hd hset
    cases h3 : asn1Dump true o2 false with
    | error e => rw [h3] at hd; cases hd
    | ok z =>
      obtain ⟨w', o'⟩ := z
      rw [h3] at hd
      simp only [Except.ok.injEq, Prod.mk.injEq] at hd
      obtain ⟨rfl, rfl⟩ := hd
      exact (hset.dump hcls hes h3).2 hf

/-- A BIT STRING that does not hold whole octets, and has not been given others, cannot be read or parsed: `ValueError`. -/
theorem C23_unused_bits (hc : StringClass E c proto true) {o : Obj Bytes} {u : UInt8} {rest : Bytes} {s : Option ClassId}
    (hcon : o.contents = some (u :: rest)) (hu : u ≠ 0) (hn : o.native = none) (hi : o.indefinite = false) :
    (∀ spec, parseAs E r (.parsable c o none s) spec = .error .valueError) ∧ parsedOf E r (.parsable c o none s) = .error .valueError ∧
    nativeStep E r (.parsable c o none s) = .error .valueError := by
  have hb : parsableBytes true proto o = .error .valueError := by
    simp only [parsableBytes, hcon, hn, mergeObj, hi, mergeChunks, parsableChunk, if_true, ne_eq, hu, not_false_eq_true, bind, Except.bind]
  have h1 : ∀ spec, parseAs E r (.parsable c o none s) spec = .error .valueError := by
    intro spec
    simp only [parseAs, parsableParse, proto_eq hc, hb, bind, Except.bind]
  refine ⟨h1, ?_, ?_⟩
  · simp only [parsedOf, h1]
  · simp only [nativeStep, hcon, proto_eq hc, hb]
    rfl

/-! ### Where the code does not have the property -/

/-- Octets assigned after something was parsed: the string holds the new octets, but `.parsed` and `.native` are those of the old
payload, and `dump(force=True)` writes the old payload. -/
theorem C23_stale_fails (hc : StringClass E c proto isBit) (o : Obj Bytes) (x : Val) (s : Option ClassId) (b : Bytes) :
    parsableBytes isBit proto (parsableSet isBit o b) = .ok (b, parsableSet isBit o b) ∧
    (parsedOf E r (.parsable c (parsableSet isBit o b) (some x) s)).map Prod.fst = .ok x ∧
    (nativeStep E r (.parsable c (parsableSet isBit o b) (some x) s)).map Prod.fst = (r.native x).map Prod.fst ∧
    (∀ w v', dumpStep E r (.parsable c (parsableSet isBit o b) (some x) s) true = .ok (w, v') →
      ∃ b' x', r.dump x true = .ok (b', x') ∧ ∃ h, w = h ++ stringContents isBit b') := by
  refine ⟨rfl, rfl, ?_, ?_⟩
  · simp only [nativeStep, parsableSet, strPut, bind, Except.bind]
    cases r.native x <;> rfl
  · intro w v' hd
    simp only [dumpStep, parsableDump, Bool.true_or, if_true, proto_eq hc, bind, Except.bind] at hd
    cases h4 : r.dump x true with
    | error e => rw [h4] at hd; cases hd
    | ok z =>
      obtain ⟨b', x''⟩ := z
      rw [h4] at hd
      refine ⟨b', x'', rfl, ?_⟩
      simp only at hd
      generalize ho : parsableSet isBit { parsableSet isBit o b with contents := none } b' = o2 at hd
      have hcon : o2.contents = some (stringContents isBit b') ∧ o2.header = none ∧ o2.indefinite = false := by
        subst ho; cases isBit <;> exact ⟨rfl, rfl, rfl⟩
      rw [asn1Dump_fresh hcon.1 hcon.2.1 hcon.2.2] at hd
      cases h5 : dumpHeader o2.cls o2.method o2.tag (stringContents isBit b') with
      | error e => simp only [h5, Except.bind] at hd; cases hd
      | ok h0 =>
        simp only [h5, Except.bind] at hd
        cases h6 : wrapExplicit o2.explicit h0 (stringContents isBit b') with
        | error e => simp only [h6] at hd; cases hd
        | ok h =>
          simp only [h6, Except.ok.injEq, Prod.mk.injEq] at hd
          exact ⟨h, hd.1.symm⟩

/-- A payload changed in place after it was parsed does not change what is written (unless forced). -/
theorem C23_in_place_fails (o : Obj Bytes) (hi : o.indefinite = false) (x x' : Val) (s : Option ClassId) :
    (dumpStep E r (.parsable c o (some x) s) false).map Prod.fst = (dumpStep E r (.parsable c o (some x') s) false).map Prod.fst := by
  simp only [dumpStep, parsableDump, hi, Bool.or_self, Bool.false_eq_true, if_false, bind, Except.bind]
  cases asn1Dump true o false <;> rfl

end

/-! ### Instances -/

/-- Class 0 is INTEGER, 1 ParsableOctetString, 2 ParsableOctetBitString; universal tag 2 is class 0. -/
def payloadEnv : Env where
  cls
    | 1 => .parsable { cls := 0, method := 0, tag := 4 } false
    | 2 => .parsable { cls := 0, method := 0, tag := 3 } true
    | _ => .leaf (.integer none { cls := 0, method := 0, tag := 2 }) []
  universal t := if t = 2 then some 0 else none

/-- Load, read the payload, assign new octets; then `.native`, `dump()` and `dump(force=True)`. -/
def staleRun : Py (PyVal × Bytes × Bytes) := do
  let r := ops payloadEnv 5
  let v ← loadVal payloadEnv r 1 {} [4, 3, 2, 1, 5]
  let (_, v) ← parsedOf payloadEnv r v
  match v with
  | .parsable c o x s => do
    let v := Val.parsable c (parsableSet false o [2, 1, 7]) x s
    let (n, v) ← r.native v
    let (w, v) ← r.dump v false
    let (w', _) ← r.dump v true
    .ok (n, w, w')
  | _ => .error .typeError

theorem C23_stale_witness : staleRun = .ok (.scalar (.int 5), [4, 3, 2, 1, 7], [4, 3, 2, 1, 5]) := by rfl

example : StringClass payloadEnv 1 { cls := 0, method := 0, tag := 4 } false :=
  ⟨rfl, by decide, rfl, by simp, rfl⟩

example : StringClass payloadEnv 2 { cls := 0, method := 0, tag := 3 } true :=
  ⟨rfl, by decide, rfl, by simp, rfl⟩

example : StringParams { cls := 0, method := 0, tag := 4 } { explicit := [(2, 0)] } :=
  ⟨⟨by simp, by simp⟩, rfl, rfl, Or.inl rfl⟩

/-- A BIT STRING made from bytes, assigned again and then parsed. -/
def bitRun : Py (PyVal × Bytes) := do
  let r := ops payloadEnv 5
  match ← constructStep payloadEnv r 2 { explicit := [(2, 0)] } (.scalar (.bytes [1])) with
  | .parsable c o x s => do
    let v := Val.parsable c (parsableSet true o [2, 1, 7]) x s
    let (_, v) ← parsedOf payloadEnv r v
    let (n, v) ← r.native v
    let (w, _) ← r.dump v false
    .ok (n, w)
  | _ => .error .typeError

example : bitRun = .ok (.scalar (.int 7), [0xa0, 6, 3, 4, 0, 2, 1, 7]) := by rfl

example : ∃ v, Held payloadEnv (ops payloadEnv 5) 2 {} true [2, 1, 7] v :=
  ⟨_, .set (b := [1]) (.new (by rfl))⟩

/-- A BIT STRING of 23 bits. -/
example : loadVal payloadEnv (ops payloadEnv 5) 2 {} [3, 4, 1, 2, 1, 6] true =
    .ok (.parsable 2 { cls := 0, method := 0, tag := 3, header := some [3, 4], contents := some [1, 2, 1, 6], trailer := [] } none none) := by rfl

/-- A payload embedded in a BIT STRING. -/
example : ((ops payloadEnv 5).construct 0 {} (.scalar (.int 300))).bind (fun x => do
    let v ← embedPayload (ops payloadEnv 5) 2 {} x
    let (w, _) ← (ops payloadEnv 5).dump v false
    .ok w) = .ok [3, 5, 0, 2, 2, 1, 44] := by rfl

end Asn1
