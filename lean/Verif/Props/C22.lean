import Verif.Lemmas.Choice
import Verif.Props.C15
import Verif.Props.C16

/-!
# C22 — CHOICE selects exactly by tag

`OuterTag E c p id`, `DistinctTags` and `PlainTag` are in Spec/Choice.lean; `Chain` (explicit wrappers) is in Spec/Tagging.lean.
-/

namespace Asn1.Props
open Asn1 Spec

section
variable (E : Env) (r : Ops) (c : ClassId) (ex : List (Nat × Nat)) (alts : List Field)

/-- `w` is the Choice `c` with the alternative number `k`, whose value is `x`. -/
def Chosen (k : Nat) (x w : Val) : Prop := ∃ o, w = .choice c o (some k) (some x)

theorem build_choice (hE : E.cls c = .choice ex none alts) (p : Params) (hd : p.default = none) (hi : p.implicit = none) (i : Info) :
    buildStep E r i (some c) p none = buildChoice E r c (explicitOf E c p) i := by
  have he : choiceExplicit ex p = explicitOf E c p := by
    simp only [choiceExplicit, explicitOf, hE, Shape.tagging]
  simp only [buildStep, buildPlain, hE, he, hd, hi, Option.isSome_none, Bool.false_eq_true, and_false, if_false, bind, Except.bind]
  cases buildChoice E r c (explicitOf E c p) i <;> rfl

theorem buildChoiceBase_match (hE : E.cls c = .choice ex none alts) (hp : ∀ f ∈ alts, PlainTag E f) (hd : DistinctTags E alts)
    {j : Info} (hb : Ber 11 j.tlv) (ht : j.trailer = []) {k : Nat} {f : Field} (hk : alts[k]? = some f)
    (ho : OuterTag E f.spec f.params (j.cls, j.tag)) :
    ∃ o, buildChoiceBase E r c j = (r.build j (some f.spec) f.params none).map (fun w => .choice c o (some k) (some w)) := by
  have hparse : parse (j.header ++ j.contents) = .ok j :=
    (parse_ok_iff _ _).mpr ⟨[], by simp [TLV.bytes, Info.tlv, ht], hb⟩
  refine ⟨{ cls := 0, method := 0, tag := 0, header := some [], contents := some (j.header ++ j.contents), trailer := j.trailer }, ?_⟩
  simp only [buildChoiceBase, hE, choiceValidate, List.getLast?_nil, bind, Except.bind, find_alt hp hd hk ho, hk, parseBuild, hparse]
  cases r.build j (some f.spec) f.params none <;> rfl

/-- Loading selects the alternative whose outer tag is the one found behind the explicit tags of the Choice, and builds its
value from that element. -/
theorem C22_select (hE : E.cls c = .choice ex none alts) (hp : ∀ f ∈ alts, PlainTag E f) (hd : DistinctTags E alts)
    (p : Params) (hpd : p.default = none) (hpi : p.implicit = none) (i j : Info) (hb : Ber 11 i.tlv)
    (hch : Chain (explicitOf E c p).reverse i.tlv j.tlv) (ht : j.trailer = []) (k : Nat) (f : Field) (hk : alts[k]? = some f)
    (ho : OuterTag E f.spec f.params (j.cls, j.tag)) :
    ∃ o, buildStep E r i (some c) p none = (r.build j (some f.spec) f.params none).map (fun x => .choice c o (some k) (some x)) := by
  obtain ⟨F, hF, heq⟩ := buildChoice_eq E r c (explicitOf E c p) i
  obtain ⟨q, hq, rfl⟩ := (explicitLoop_chain _ i [] [] j).mpr hch
  obtain ⟨o, h⟩ := buildChoiceBase_match E r c ex alts hE hp hd (chain_ber hch hb) ht hk ho
  rw [build_choice E r c ex alts hE p hpd hpi, heq, hq]
  simp only [Except.bind, h]
  cases r.build q.1 (some f.spec) f.params none with
  | error e => exact ⟨o, rfl⟩
  | ok w =>
    obtain ⟨o', ho'⟩ := hF o (some k) (some w)
    exact ⟨o', by simp only [Except.map, ho']⟩

/-- When the explicit tags of the Choice are not there, or no alternative has the tag found behind them, loading is a
`ValueError`. -/
theorem C22_none (hE : E.cls c = .choice ex none alts) (hp : ∀ f ∈ alts, PlainTag E f)
    (p : Params) (hpd : p.default = none) (hpi : p.implicit = none) (i : Info)
    (h : ∀ (j : Info), Chain (explicitOf E c p).reverse i.tlv j.tlv → ∀ f ∈ alts, ¬ OuterTag E f.spec f.params (j.cls, j.tag)) :
    buildStep E r i (some c) p none = .error .valueError := by
  obtain ⟨F, _, heq⟩ := buildChoice_eq E r c (explicitOf E c p) i
  rw [build_choice E r c ex alts hE p hpd hpi, heq]
  cases hq : explicitLoop (explicitOf E c p).reverse i [] [] with
  | error e =>
    rw [explicitLoop_error _ _ _ _ _ hq]; rfl
  | ok q =>
    have hch := (explicitLoop_chain _ i [] [] q.1).mp ⟨q, hq, rfl⟩
    simp only [Except.bind, buildChoiceBase, hE, choiceValidate, List.getLast?_nil, bind, find_no_alt hp (h q.1 hch), mismatch_plain hp]
    rfl

/-- An alternative in indefinite length form is refused, whatever its type: `_build` does not hand its end-of-contents
octets on. -/
theorem C22_indefinite_fails (hE : E.cls c = .choice ex none alts) (hp : ∀ f ∈ alts, PlainTag E f) (hd : DistinctTags E alts)
    (p : Params) (hpd : p.default = none) (hpi : p.implicit = none) (i j : Info) (hb : Ber 11 i.tlv)
    (hch : Chain (explicitOf E c p).reverse i.tlv j.tlv) (ht : j.trailer ≠ []) :
    buildStep E r i (some c) p none = .error .valueError := by
  by_cases hex : ∃ f ∈ alts, OuterTag E f.spec f.params (j.cls, j.tag)
  · obtain ⟨f, hf, ho⟩ := hex
    obtain ⟨k, hk⟩ := List.mem_iff_getElem?.mp hf
    obtain ⟨F, _, heq⟩ := buildChoice_eq E r c (explicitOf E c p) i
    rw [build_choice E r c ex alts hE p hpd hpi, heq]
    obtain ⟨q, hq, rfl⟩ := (explicitLoop_chain _ i [] [] j).mpr hch
    have hbj := chain_ber hch hb
    have hparse : parse (q.1.header ++ q.1.contents) = .error .valueError := by
      cases hpa : parse (q.1.header ++ q.1.contents) with
      | error e => rw [parse_error _ _ e hpa]
      | ok j' =>
        exfalso
        obtain ⟨rest, h1, h2⟩ := (parse_ok_iff _ _).mp hpa
        have h3 : q.1.tlv.bytes = j'.tlv.bytes ++ (rest ++ q.1.trailer) := by
          show q.1.header ++ q.1.contents ++ q.1.trailer = _
          rw [h1, List.append_assoc]
        have h4 := (Ber_unique (r := []) hbj h2 (by rw [List.append_nil]; exact h3)).2
        have := congrArg List.length h4
        rw [List.length_append] at this
        have h5 := List.length_pos_iff.mpr ht
        simp only [List.length_nil] at this
        omega
    rw [hq]
    simp only [Except.bind, buildChoiceBase, hE, choiceValidate, List.getLast?_nil, bind, find_alt hp hd hk ho, hk, parseBuild, hparse]
    rfl
  · refine C22_none E r c ex alts hE hp p hpd hpi i ?_
    intro j' hch' f hf ho
    obtain ⟨q, hq, rfl⟩ := (explicitLoop_chain _ i [] [] j).mpr hch
    obtain ⟨q', hq', rfl⟩ := (explicitLoop_chain _ i [] [] j').mpr hch'
    rw [hq] at hq'
    injection hq' with hq'
    subst hq'
    exact hex ⟨f, hf, ho⟩

/-- Names of alternatives are distinct. -/
def DistinctNames (alts : List Field) : Prop :=
  ∀ (j k : Nat) (f g : Field), alts[j]? = some f → alts[k]? = some g → f.name = g.name → j = k

theorem fieldIndex_name {alts : List Field} (hn : DistinctNames alts) {k : Nat} {f : Field} (hk : alts[k]? = some f) :
    fieldIndex alts f.name = some k := by
  unfold fieldIndex
  have hmem : (f, k) ∈ alts.zipIdx.reverse := by
    rw [List.mem_reverse, List.mem_zipIdx_iff_getElem?]; exact hk
  cases hfi : alts.zipIdx.reverse.find? (fun a => a.1.name == f.name) with
  | none => have := List.find?_eq_none.mp hfi (f, k) hmem; simp at this
  | some q =>
    have h1 := List.mem_of_find?_eq_some hfi
    have h2 := List.find?_some hfi
    simp only [beq_iff_eq] at h2
    rw [List.mem_reverse, List.mem_zipIdx_iff_getElem?] at h1
    simp only [Option.map_some, Option.some.injEq]
    exact hn q.2 k q.1 f h1 hk h2

/-- Constructing by name makes the alternative with that name from the given value; an unknown name is a `ValueError`. -/
theorem C22_name (hE : E.cls c = .choice ex none alts) (hn : DistinctNames alts) (p : Params) (hpd : p.default = none) (hpi : p.implicit = none)
    (name : String) (x : PyVal) (hx : ∀ v, x ≠ .asn1 v) :
    (∀ k f, alts[k]? = some f → f.name = name → ∃ o : Obj Unit, o.explicit = explicitOf E c p ∧ o.header = none ∧
      constructStep E r c p (.pair name x) = (r.construct f.spec f.params x).map (fun y => .choice c o (some k) (some y))) ∧
    ((∀ f ∈ alts, f.name ≠ name) → constructStep E r c p (.pair name x) = .error .valueError) := by
  have he : choiceExplicit ex p = explicitOf E c p := by
    simp only [choiceExplicit, explicitOf, hE, Shape.tagging]
  constructor
  · intro k f hk hname
    refine ⟨{ cls := 0, method := 0, tag := 0, explicit := explicitOf E c p }, rfl, rfl, ?_⟩
    · simp only [constructStep, hE, hpd, hpi, ← hname, fieldIndex_name hn hk, hk, he]
      cases x with
      | asn1 v => exact absurd rfl (hx v)
      | scalar s => simp only [bind, Except.bind]; cases r.construct f.spec f.params (.scalar s) <;> rfl
      | list s => simp only [bind, Except.bind]; cases r.construct f.spec f.params (.list s) <;> rfl
      | dict s => simp only [bind, Except.bind]; cases r.construct f.spec f.params (.dict s) <;> rfl
      | pair a s => simp only [bind, Except.bind]; cases r.construct f.spec f.params (.pair a s) <;> rfl
  · intro h
    have : fieldIndex alts name = none := by
      unfold fieldIndex
      rw [Option.map_eq_none_iff, List.find?_eq_none]
      rintro ⟨g, j⟩ hm
      rw [List.mem_reverse, List.mem_zipIdx_iff_getElem?] at hm
      simpa using h g (List.mem_of_getElem? hm)
    simp only [constructStep, hE, hpd, hpi, this]

theorem choiceHeader_wrap : ∀ (es : List (Nat × Nat)) (h b : Bytes), choiceHeader es h b = wrapExplicit es h b
  | [], _, _ => rfl
  | (c, t) :: es, h, b => by
    simp only [choiceHeader, wrapExplicit, bind, Except.bind]
    cases dumpHeader c 1 t (h ++ b) with
    | error e => rfl
    | ok h' => exact choiceHeader_wrap es _ _

/-- Wrappers around an element are descended through to the element. -/
theorem wrapped_descend {es : List (Nat × Nat)} {b w : Bytes} (h : Wrapped es b w) {u : TLV} (hu : b = u.bytes) (hb : Ber 11 u) :
    ∃ v : TLV, w = v.bytes ∧ Ber 11 v ∧ Chain es.reverse v u := by
  induction h with
  | nil => exact ⟨u, hu, hb, .nil⟩
  | @snoc es b w id len c t hw hid hlen ih =>
    obtain ⟨v, rfl, h2, h3⟩ := ih hu
    refine ⟨⟨c, 1, t, id ++ len, v.bytes, []⟩, by simp [TLV.bytes], .definite hid hlen, ?_⟩
    rw [List.reverse_append]
    exact Chain.cons (v := ⟨c, 1, t, id ++ len, v.bytes, []⟩) (junk := []) rfl (by simp) h2 h3

theorem parse_whole {v : TLV} (hb : Ber 11 v) (strict : Bool) :
    parse v.bytes strict = .ok ⟨v.cls, v.method, v.tag, v.header, v.contents, v.trailer⟩ := by
  cases strict with
  | false => exact (parse_ok_iff _ _).mpr ⟨[], by simp [Info.tlv], hb⟩
  | true => exact (parse_strict_ok_iff _ _).mpr ⟨rfl, hb⟩

/-- Dumping a Choice made by name and loading the result selects the same alternative, built from the encoding of the
value that was given. Missing from the property: that the encoding of the alternative's value is one element with the
alternative's tag in definite length form (hypotheses `hb0` to `ho`) and that this element loads to the same value; both hold of
primitive types (`C16_dump`, `C16_round_trip_partial`). -/
theorem C22_round_trip_partial (n : Nat) (hE : E.cls c = .choice ex none alts) (hp : ∀ f ∈ alts, PlainTag E f) (hdt : DistinctTags E alts)
    (hn : DistinctNames alts) (p : Params) (hpd : p.default = none) (hpi : p.implicit = none) (hv : ∀ e ∈ explicitOf E c p, e.1 < 4)
    (k : Nat) (f : Field) (hk : alts[k]? = some f) (x : PyVal) (hx : ∀ v, x ≠ .asn1 v) (v v' y y' : Val) (b b0 : Bytes)
    (h1 : (ops E (n + 1)).construct c p (.pair f.name x) = .ok v) (h2 : (ops E (n + 1)).dump v false = .ok (b, v')) (hf : Fits b)
    (hy : (ops E n).construct f.spec f.params x = .ok y) (hyd : (ops E n).dump y false = .ok (b0, y'))
    (j : Info) (hb0 : b0 = j.tlv.bytes) (hber : Ber 11 j.tlv) (ht : j.trailer = []) (ho : OuterTag E f.spec f.params (j.cls, j.tag))
    (strict : Bool) :
    Chosen c k y v ∧ ∃ o, loadVal E (ops E (n + 1)) c p b strict =
      ((ops E n).build j (some f.spec) f.params none).map (fun w => .choice c o (some k) (some w)) := by
  obtain ⟨o, ho1, ho2, h3⟩ := (C22_name E (ops E n) c ex alts hE hn p hpd hpi f.name x hx).1 k f hk rfl
  have h1 : constructStep E (ops E n) c p (.pair f.name x) = .ok v := h1
  rw [h3, hy] at h1
  injection h1 with h1
  refine ⟨⟨o, h1.symm⟩, ?_⟩
  have h2 : dumpStep E (ops E n) v false = .ok (b, v') := h2
  rw [← h1] at h2
  simp only [dumpStep, choiceDump, choiceParse, ho2, headerEnds80, Bool.or_self, bind, Except.bind, hyd, choiceHeader_wrap, ho1] at h2
  cases hw : wrapExplicit (explicitOf E c p) [] b0 with
  | error e => rw [hw] at h2; cases h2
  | ok h =>
    rw [hw] at h2
    injection h2 with h2
    have hb : h ++ b0 = b := congrArg Prod.fst h2
    have hwr := wrapExplicit_wrapped _ hv [] b0 h hw (by rw [hb]; exact hf)
    rw [hb] at hwr
    obtain ⟨u, hu1, hu2, hu3⟩ := wrapped_descend hwr hb0 hber
    obtain ⟨o', ho'⟩ := C22_select E (ops E n) c ex alts hE hp hdt p hpd hpi ⟨u.cls, u.method, u.tag, u.header, u.contents, u.trailer⟩ j
      hu2 hu3 ht k f hk ho
    refine ⟨o', ?_⟩
    rw [← ho', hu1]
    simp only [loadVal, parse_whole hu2, bind, Except.bind, hE]
    rfl

/-- `dump()` of a loaded Choice is the input. Missing from the property: elements that are not `Tidy` (Spec/Faithful.lean), see
C15. -/
theorem C22_dump_partial (hS : Regular E) (n : Nat) (hE : E.cls c = .choice ex none alts) (p : Params) (hpd : p.default = none)
    (data : Bytes) (v : Val) (hl : loadVal E (ops E n) c p data true = .ok v)
    (ht : ∀ w, data = w.bytes → Ber 11 w → Tidy E (some c) p w) :
    (∀ m b v', (ops E m).dump v false = .ok (b, v') → b = data) ∧
    (unparsedAny v = false → ∃ m₀, ∀ m, m₀ ≤ m → ∃ v', (ops E m).dump v false = .ok (data, v')) := by
  have hspec : loadSpec E c = some c := by simp only [loadSpec, hE]
  have hl0 := hl
  simp only [loadVal, py_bind] at hl
  obtain ⟨i, hi, _⟩ := hl
  obtain ⟨hi1, hi2⟩ := (parse_strict_ok_iff _ _).mp hi
  obtain ⟨w, rest, h1, h2, h3, h4, h5⟩ := C15_undisturbed_partial hS hpd hl0 (fun w rest hw hb => by
    rw [hspec]
    have := ber_whole hi2 hb (by rw [← hi1, hw])
    exact ht w (by rw [hw, this.2, List.append_nil]) hb)
  rw [h3 rfl, List.append_nil] at h1
  rw [h1]
  exact ⟨h4, h5⟩

end

/-! ### Where the code does not have the property -/

/-- Class 0 is INTEGER, 1 OCTET STRING, 2 BOOLEAN with a class-level explicit tag [3], 3 the Choice of INTEGER and [0] OCTET STRING,
4 a Choice of BOOLEAN (class 2) and, untagged, of Choice 3; 5 is SEQUENCE OF INTEGER, 6 the Choice of 5 and INTEGER. -/
def choiceEnv : Env where
  cls
    | 1 => .leaf (.octets { cls := 0, method := 0, tag := 4 }) []
    | 2 => .leaf (.boolean { cls := 0, method := 0, tag := 1, explicit := [(2, 3)] }) []
    | 3 => .choice [] none [⟨"n", 0, {}⟩, ⟨"s", 1, { explicit := [(2, 0)] }⟩]
    | 4 => .choice [] none [⟨"b", 2, {}⟩, ⟨"c", 3, {}⟩]
    | 5 => .seqOf { cls := 0, method := 1, tag := 16 } [] false (some 0)
    | 6 => .choice [] none [⟨"l", 5, {}⟩, ⟨"n", 0, {}⟩]
    | _ => .leaf (.integer none { cls := 0, method := 0, tag := 2 }) []
  universal _ := none

/-- The number of the alternative selected by `cls.load(data)`. -/
def selected (c : ClassId) (p : Params) (data : Bytes) : Py (Option Nat) := do
  match ← loadVal choiceEnv (ops choiceEnv 9) c p data with
  | .choice _ _ k _ => .ok k
  | _ => .ok none

/-- The encoding made by `cls(name, value).dump()`. -/
def choiceBytes (c : ClassId) (p : Params) (name : String) (x : PyVal) : Py Bytes := do
  let v ← (ops choiceEnv 9).construct c p (.pair name x)
  let (b, _) ← (ops choiceEnv 9).dump v false
  .ok b

/-- An alternative that is itself an untagged Choice can be constructed and dumped, but the encoding is refused when loaded, and not
with a `ValueError` but a `KeyError` (from formatting the message). -/
theorem C22_nested_fails :
    choiceBytes 4 {} "c" (.pair "n" (.scalar (.int 5))) = .ok [2, 1, 5] ∧ OuterTag choiceEnv 3 {} (0, 2) ∧
    selected 4 {} [2, 1, 5] = .error .keyError := by
  refine ⟨by decide +kernel, ?_, by decide +kernel⟩
  exact .alternative (alts := [⟨"n", 0, {}⟩, ⟨"s", 1, { explicit := [(2, 0)] }⟩]) (f := ⟨"n", 0, {}⟩) rfl rfl (by simp)
    (.own (E := choiceEnv) (c := 0) (p := {}) rfl trivial rfl)

/-- An alternative of a class with class-level explicit tags is looked for under the tag behind them. -/
theorem C22_class_explicit_fails :
    choiceBytes 4 {} "b" (.scalar (.bool true)) = .ok [0xa3, 3, 1, 1, 0xff] ∧ OuterTag choiceEnv 2 {} (2, 3) ∧
    selected 4 {} [0xa3, 3, 1, 1, 0xff] = .error .keyError :=
  ⟨by decide +kernel, .explicit rfl, by decide +kernel⟩

/-- A SEQUENCE OF in indefinite length form, which is accepted on its own, is refused as alternative. -/
theorem C22_indefinite_witness :
    selected 6 {} [0x30, 3, 2, 1, 5] = .ok (some 0) ∧ selected 6 {} [0x30, 0x80, 2, 1, 5, 0, 0] = .error .valueError ∧
    ((loadVal choiceEnv (ops choiceEnv 9) 5 {} [0x30, 0x80, 2, 1, 5, 0, 0]).map fun _ => ()) = .ok () := by decide +kernel

/-- Class 3 is the Choice of INTEGER and [0] OCTET STRING with the class-level explicit tag [7], 5 is SEQUENCE OF 3. -/
def explicitEnv : Env where
  cls
    | 1 => .leaf (.octets { cls := 0, method := 0, tag := 4 }) []
    | 3 => .choice [(2, 7)] none [⟨"n", 0, {}⟩, ⟨"s", 1, { explicit := [(2, 0)] }⟩]
    | 5 => .seqOf { cls := 0, method := 1, tag := 16 } [] false (some 3)
    | _ => .leaf (.integer none { cls := 0, method := 0, tag := 2 }) []
  universal _ := none

/-- The encoding of a new list after `append(cls(x))`. -/
def appended (c : ClassId) (p : Params) (x : PyVal) : Py Bytes := do
  let v ← (ops explicitEnv 9).construct c p x
  let l ← (ops explicitEnv 9).construct 5 {} (.list [])
  let l ← appendItem explicitEnv (ops explicitEnv 9) l (.asn1 v)
  let (b, _) ← (ops explicitEnv 9).dump l false
  .ok b

/-- Wherever an instance of an alternative can be given in place of a Choice without tags, it is refused for every Choice with
class-level explicit tags, unless the instance itself happens to have the outermost of those tags. -/
theorem C22_instance_fails (hE : E.cls c = .choice ex tagged alts) (o : Obj Unit) (l : ClassId) (proto : Obj Unit) (bad : List Nat) (set : Bool)
    (hl : E.cls l = .seqOf proto bad set (some c)) (cs : List Child) (m : Bool) (v v' : Val) (b : Option Bytes) (k t : Nat) (im : Bool)
    (es : List (Nat × Nat)) (hv : v.classOf ≠ some c) (hc : r.contents v = .ok (b, v')) (ht : v'.tagging = (some k, some t, im, es))
    (e : Nat × Nat) (he : ex.getLast? = some e) (hne : e ≠ (k, t)) :
    appendItem E r (.node l o (some cs) m) (.asn1 v) = .error .valueError := by
  simp only [appendItem, hl, ensureChildren, makeElement, hE, if_neg hv, wrapChoice, hc, ht, choiceValidate, he, bind, Except.bind, ne_eq, hne, not_false_eq_true,
    if_true]

/-- So `list.append(Integer(5))` is refused although `list.append(Choice('n', 5))` is not, and an OCTET STRING that has the tag by accident
is taken for an INTEGER because of its octets: it is written as an element that the same class refuses when its items are read. -/
theorem C22_instance_witness :
    appended 3 {} (.pair "n" (.scalar (.int 5))) = .ok [0x30, 5, 0xa7, 3, 2, 1, 5] ∧ appended 0 {} (.scalar (.int 5)) = .error .valueError ∧
    appended 1 { implicit := some (2, 7) } (.scalar (.bytes [2, 1, 5])) = .ok [0x30, 7, 0xa7, 5, 0x87, 3, 2, 1, 5] ∧
    ((loadVal explicitEnv (ops explicitEnv 9) 5 {} [0x30, 7, 0xa7, 5, 0x87, 3, 2, 1, 5]).bind fun v =>
      (ops explicitEnv 9).native v).map (fun _ => ()) = .error .valueError := by decide +kernel

/-! ### Non-vacuity -/

example : selected 3 {} [2, 1, 5] = .ok (some 0) ∧ selected 3 {} [0xa0, 3, 4, 1, 9] = .ok (some 1) ∧
    selected 3 { explicit := [(2, 7)] } [0xa7, 5, 0xa0, 3, 4, 1, 9] = .ok (some 1) ∧ selected 3 {} [1, 1, 0] = .error .valueError ∧
    choiceBytes 3 { explicit := [(2, 7)] } "s" (.scalar (.bytes [9])) = .ok [0xa7, 5, 0xa0, 3, 4, 1, 9] := by decide +kernel

theorem choiceEnv_tags {f : Field} (hf : f ∈ [(⟨"n", 0, {}⟩ : Field), ⟨"s", 1, { explicit := [(2, 0)] }⟩]) : PlainTag choiceEnv f := by
  simp only [List.mem_cons, List.not_mem_nil, or_false] at hf
  rcases hf with rfl | rfl
  · exact ⟨rfl, .inr ⟨trivial, rfl⟩⟩
  · exact ⟨rfl, .inl (by simp)⟩

/-- The hypotheses of the theorems hold of Choice 3. -/
example : ∃ alts, choiceEnv.cls 3 = .choice [] none alts ∧ (∀ f ∈ alts, PlainTag choiceEnv f) ∧ DistinctTags choiceEnv alts ∧
    DistinctNames alts ∧ Chain (explicitOf choiceEnv 3 { explicit := [(2, 7)] }).reverse
      ⟨2, 1, 7, [0xa7, 3], [2, 1, 5], []⟩ ⟨0, 0, 2, [2, 1], [5], []⟩ ∧ OuterTag choiceEnv 0 {} (0, 2) := by
  refine ⟨_, rfl, fun f hf => choiceEnv_tags hf, ?_, ?_, ?_, ?_⟩
  · intro j k f g id hj hk h1 h2
    have h1 := (fieldIdent_iff (choiceEnv_tags (List.mem_of_getElem? hj)) id).mpr h1
    have h2 := (fieldIdent_iff (choiceEnv_tags (List.mem_of_getElem? hk)) id).mpr h2
    rcases j with _ | _ | j <;> rcases k with _ | _ | k <;>
      first
      | rfl
      | (simp at hj; done)
      | (simp at hk; done)
      | (exfalso
         simp only [List.getElem?_cons_zero, List.getElem?_cons_succ, Option.some.injEq, Nat.zero_add] at hj hk
         subst hj; subst hk
         have := h1.trans h2.symm
         exact absurd this (by decide))
  · intro j k f g hj hk h
    rcases j with _ | _ | j <;> rcases k with _ | _ | k <;>
      first
      | rfl
      | (simp at hj; done)
      | (simp at hk; done)
      | (exfalso
         simp only [List.getElem?_cons_zero, List.getElem?_cons_succ, Option.some.injEq, Nat.zero_add] at hj hk
         subst hj; subst hk
         exact absurd h (by decide))
  · exact Chain.cons (v := ⟨2, 1, 7, [0xa7, 3], [2, 1, 5], []⟩) (v' := ⟨0, 0, 2, [2, 1], [5], []⟩) (junk := []) rfl rfl
      (Ber.definite (id := [2]) (len := [1]) ⟨by decide, by decide, .inl ⟨by decide, rfl⟩⟩ (.inl ⟨by decide, rfl⟩)) .nil
  · exact .own (E := choiceEnv) (c := 0) (p := {}) rfl trivial rfl

end Asn1.Props
