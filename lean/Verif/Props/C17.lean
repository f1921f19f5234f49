import Verif.Lemmas.Schema
import Verif.Lemmas.RepErr
import Verif.Lemmas.WorksHist

/-!
# C17 — SEQUENCE with OPTIONAL and DEFAULT fields round trips

`Universe E U`: the classes are schemas of primitive types, SEQUENCE, SEQUENCE OF and CHOICE in which fields that may be left out can
be told from what follows by tag (Spec/Universe.lean, Spec/Schema.lean). `Made E U q c p v a`: the instance `v` was made, from a dict,
by loading, by assignments or any mixture of these, so that a user expects it to be the value `a` (Spec/History.lean, Spec/Given.lean).
-/

namespace Asn1.Props
open Asn1 Spec

section
variable {E : Env} {U : ClassId → Prop} {c : ClassId} {p : Params} {proto : Obj Unit} {bad : List Nat} {isSet : Bool} {fields : List Field}
  {oid : Option OidPair}

/-- What `dump()` of a SEQUENCE writes loads again, strictly or not, and reads as the same assignment: `native` is the dict of the
values; a present field has its value; an absent field reads as `None`. A dump is only written when all required fields are there.
(That `dump()` succeeds is `C17_dump_works`.) Missing: fields of type ANY or whose type another field
selects, and default values that are not of a primitive type. -/
theorem C17_round_trip_partial (hU : Universe E U) (hE : E.cls c = .seq proto bad isSet fields oid) {q : Bool} {v v' : Val} {as : List AVal}
    (hv : Made E U q c p v (.seq as)) {n : Nat} {force : Bool} {b : Bytes} (hd : (ops E n).dump v force = .ok (b, v'))
    (strict : Bool) (m : Nat) (hm : (AVal.seq as).depth + 3 ≤ m) :
    Complete fields as ∧
    ∃ w w', loadVal E (ops E m) c p b strict = .ok w ∧ (ops E m).native w = .ok (.dict (AVal.natives E fields as), w') ∧
      ∀ k f a, fields[k]? = some f → as[k]? = some a →
        ∃ x w' x', getItem E (ops E m) w k = .ok (x, w') ∧ (a = .absent → x = .void) ∧ (ops E m).native x = .ok (a.native E f.spec, x') := by
  obtain ⟨hg, hr⟩ := made_rep hU hv
  obtain ⟨_, t, rfl, ht, _⟩ := (sim_ops hU n).dump hg hr hd
  refine ⟨(whole_complete hE).mp ((sim_ops hU n).dumpWhole hg hr hd), ?_⟩
  obtain ⟨w, w', h1, h2, h3⟩ := load_total (strict := strict) hU hg ht hm
  refine ⟨w, w', h1, ?_, fun k f a hf ha => ?_⟩
  · rw [h3, AVal.native, hE]
  · refine loaded_field hU hg h2 hE hf ha ?_
    have := depths_mem (List.mem_of_getElem? ha)
    rw [AVal.depth] at hm
    omega

/-- The same for a SEQUENCE built from a dict. `FieldsConv` says that a field with an entry has the value given, that a field without
entry, or with `None`, is absent if it is optional, and has its default if it has one. -/
theorem C17_from_dict_partial (hU : Universe E U) (hE : E.cls c = .seq proto bad false fields none) (hg : GoodUse E U c p) {k : Nat}
    {d : List (String × PyVal)} {as : List AVal} (hd : FieldsConv E (MadeIn E U k) fields d as) (hne : ∃ f ∈ fields, valueOf d f.name ≠ none)
    (hkn : ∀ e ∈ d, ∃ f ∈ fields, f.name = e.1) {n : Nat} {v v' : Val} (hv : (ops E n).construct c p (.dict d) = .ok v) {n' : Nat} {force : Bool} {b : Bytes}
    (hb : (ops E n').dump v force = .ok (b, v')) (strict : Bool) (m : Nat) (hm : (AVal.seq as).depth + 3 ≤ m) :
    ∃ w w', loadVal E (ops E m) c p b strict = .ok w ∧ (ops E m).native w = .ok (.dict (AVal.natives E fields as), w') ∧
      ∀ k f a, fields[k]? = some f → as[k]? = some a →
        ∃ x w' x', getItem E (ops E m) w k = .ok (x, w') ∧ (a = .absent → x = .void) ∧ (ops E m).native x = .ok (a.native E f.spec, x') :=
  (C17_round_trip_partial hU hE (q := false) ⟨k + 1, .constructed hg (.seq hE hd hne hkn) hv⟩ hb strict m hm).2

/-- A SEQUENCE with all its required fields can be dumped. `Ready`: the values in it have encodings of their own. `Works`: the
only error possible is that there are 256 ^ 127 bytes or more to write. -/
theorem C17_dump_works (hU : Universe E U) (hE : E.cls c = .seq proto bad isSet fields oid) {q : Bool} {v : Val} {as : List AVal}
    (hv : Made E U q c p v (.seq as)) (hc : Complete fields as) (hr : Ready E c (.seq as)) {n : Nat} (hn : (AVal.seq as).depth + 3 ≤ n) (force : Bool) :
    Works ((ops E n).dump v force) := by
  obtain ⟨hg, h⟩ := made_rep hU hv
  exact (working_ops hU (N := (AVal.seq as).depth + 1) (by omega)).dump force hg h hr ((whole_complete hE).mpr hc) (by omega)

/-- A dict with all required fields: the SEQUENCE is built, dumped and loaded again, and the same assignment is read. -/
theorem C17_from_dict_works (hU : Universe E U) (hE : E.cls c = .seq proto bad false fields none) (hg : GoodUse E U c p) {k : Nat}
    {d : List (String × PyVal)} {as : List AVal} (hd : FieldsConv E (MadeIn E U k) fields d as) (hne : ∃ f ∈ fields, valueOf d f.name ≠ none)
    (hkn : ∀ e ∈ d, ∃ f ∈ fields, f.name = e.1) (hc : Complete fields as) (hr : Ready E c (.seq as)) {n : Nat} (hn : (AVal.seq as).depth + 3 ≤ n)
    (force strict : Bool) :
    Works (do let v ← (ops E n).construct c p (.dict d); (ops E n).dump v force) ∧
    ∀ b v', (do let v ← (ops E n).construct c p (.dict d); (ops E n).dump v force) = .ok (b, v') →
      ∃ w w', loadVal E (ops E n) c p b strict = .ok w ∧ (ops E n).native w = .ok (.dict (AVal.natives E fields as), w') := by
  have hC : Conv E (MadeIn E U k) false c p (.dict d) (.seq as) := .seq hE hd hne hkn
  constructor
  · exact Works.bind (x := (ops E n).construct c p (.dict d))
      ((working_ops hU (N := (AVal.seq as).depth + 1) (by omega)).construct hg (conv_mono (fun h => madeIn_inst hU h) hC) (fun _ h => by cases h) hr (by omega))
      (fun v hv => C17_dump_works hU hE (q := false) ⟨k + 1, .constructed hg hC hv⟩ hc hr hn force)
  · intro b v' hb
    cases hx : (ops E n).construct c p (.dict d) with
    | error e => rw [hx] at hb; cases hb
    | ok v =>
      rw [hx] at hb
      obtain ⟨w, w', h1, h2, _⟩ := C17_from_dict_partial hU hE hg hd hne hkn hx hb strict n hn
      exact ⟨w, w', h1, h2⟩

/-- A SEQUENCE in which a required field is missing cannot be dumped. -/
theorem C17_missing (hU : Universe E U) (hE : E.cls c = .seq proto bad isSet fields oid) {q : Bool} {v : Val} {as : List AVal}
    (hv : Made E U q c p v (.seq as)) (hc : ¬ Complete fields as) (n : Nat) (force : Bool) (y : Bytes × Val) : (ops E n).dump v force ≠ .ok y := by
  obtain ⟨hg, hr⟩ := made_rep hU hv
  exact fun h => hc ((whole_complete hE).mp ((sim_ops hU n).dumpWhole hg hr h))

/-- If it was built from a dict, the error is ValueError. -/
theorem C17_missing_in_dict (hU : Universe E U) (hE : E.cls c = .seq proto bad false fields none) (hg : GoodUse E U c p) {k : Nat}
    {d : List (String × PyVal)} {as : List AVal} (hd : FieldsConv E (MadeIn E U k) fields d as) (hne : ∃ f ∈ fields, valueOf d f.name ≠ none)
    (hc : ¬ Complete fields as) {n : Nat} {v : Val} (hv : (ops E n).construct c p (.dict d) = .ok v) (n' : Nat) :
    (ops E (n' + 1)).dump v false = .error .valueError := by
  obtain ⟨o, cs, rfl, h1, h2⟩ := construct_dict hU hg hE (fieldsConv_mono (fun h => made_rep hU ⟨k, h⟩) hd) hne hv
  exact nodeDump_incomplete hE h1 h2 hc

/-- An element whose contents are not the elements of the fields, because an element with another tag comes where a required field is
expected, or because elements are missing, is not read: some field raises ValueError, and there is no native value. Missing: elements
after those of the last field are accepted (see below). -/
theorem C17_unexpected_partial (hU : Universe E U) (hE : E.cls c = .seq proto bad isSet fields oid) (hg : GoodUse E U c p) {t u : TLV} {ts : List TLV}
    (ht : Framed (proto.cls, proto.tag) p t u) (hm : u.method = 1) (hts : Elements u.contents ts)
    (hp : ∀ used extra, ts = used ++ extra → ¬ Placed E fields used) (strict : Bool) (n : Nat) :
    ∃ w, loadVal E (ops E (n + 2)) c p t.bytes strict = .ok w ∧
      (∃ (k : Nat) (f : Field), fields[k]? = some f ∧ getItem E (ops E (n + 2)) w k = .error .valueError) ∧
      ∀ y, (ops E (n + 2)).native w ≠ .ok y := by
  obtain ⟨o, h1, h2⟩ := load_framed (n := n + 1) (strict := strict) hU hg hE ht hm
  exact ⟨_, h1, (unexpected_field (n := n + 1) hU hg hE h2 hts hp).1, (unexpected_field (n := n) hU hg hE h2 hts hp).2⟩

end

/-! ### Where the library does not do what the property says -/

/-- `Inner.load(b'\x30\x06\x02\x01\x07\x02\x01\x08')`: the second INTEGER belongs to no field and is not reported. -/
theorem C17_extra_accepted : ∃ w w', loadVal schemaEnv (ops schemaEnv 8) 4 {} [0x30, 6, 2, 1, 7, 2, 1, 8] true = .ok w ∧
    (ops schemaEnv 8).native w = .ok (.dict [("a", .scalar (.int 7)), ("b", .scalar .none), ("c", .scalar (.int 5)), ("3", .scalar (.int 8))], w') :=
  ⟨_, _, rfl, rfl⟩

/-- An `Inner` without its required field `a`. -/
def lacking : PyVal := .dict [("b", .scalar (.int 3))]

/-- `Inner({'b': 3}).dump()` raises ValueError, but inside an explicit tag the same value is written. -/
theorem C17_missing_written : (∃ v, (ops schemaEnv 8).construct 4 {} lacking = .ok v ∧ (ops schemaEnv 8).dump v false = .error .valueError) ∧
    ∃ v v', (ops schemaEnv 8).construct 5 {} (.dict [("list", .list []), ("inner", lacking), ("pick", .pair "n" (.scalar (.int 1)))]) = .ok v ∧
      (ops schemaEnv 8).dump v false = .ok ([0x30, 12, 0x30, 0, 0xa0, 5, 0x30, 3, 0x81, 1, 3, 2, 1, 1], v') :=
  ⟨⟨_, rfl, rfl⟩, _, _, rfl, rfl⟩

/-! ### A case that meets the hypotheses -/

/-- `{'pick': ('n', 1), 'list': [1, 2], 'inner': {'a': 3}}` -/
def sample : List (String × PyVal) :=
  [("pick", .pair "n" (.scalar (.int 1))), ("list", .list [.scalar (.int 1), .scalar (.int 2)]), ("inner", .dict [("a", .scalar (.int 3))])]

/-- What it stands for: `id` is absent, and so is `inner.b`; `inner.c` is 5. -/
def sampleValues : List AVal :=
  [.absent, .list [.prim (.int 1), .prim (.int 2)], .seq [.prim (.int 3), .absent, .prim (.int 5)], .alt 0 (.prim (.int 1))]

theorem sample_given (V : Bool → ClassId → Params → Val → AVal → Prop) : FieldsConv schemaEnv V outerFields sample sampleValues := by
  have int : ∀ {n : Nat}, n < 10 → ∀ {q : Bool} {p : Params}, Conv schemaEnv V q 0 p (.scalar (.int n)) (.prim (.int n)) := by
    intro n hn q p
    refine .prim (proto := intLeaf) rfl (by simp) ?_
    have : n = 0 ∨ n = 1 ∨ n = 2 ∨ n = 3 ∨ n = 4 ∨ n = 5 ∨ n = 6 ∨ n = 7 ∨ n = 8 ∨ n = 9 := by omega
    rcases this with rfl | rfl | rfl | rfl | rfl | rfl | rfl | rfl | rfl | rfl <;>
    exact ⟨_, _, _, by rfl, by rfl, by rfl, ⟨fun o h => (by cases h), _, by rfl, by rfl⟩, by rfl, by rfl⟩
  have noChoice : ∀ {x}, AsElement schemaEnv 0 x := fun _ _ _ h => by cases h
  refine .cons (.missing rfl) (.cons (.given (by simp [valueOf, sample]) (.list rfl (.cons (int (n := 1) (by omega)) noChoice (.cons (int (n := 2) (by omega)) noChoice .nil))) trivial) ?_)
  have inner : FieldsConv schemaEnv V innerFields [("a", .scalar (.int 3))] [.prim (.int 3), .absent, .prim (.int 5)] :=
    .cons (.given (fun h => by cases h) (int (n := 3) (by omega)) trivial) (.cons (.missing rfl)
      (.cons (.missingDefault ⟨intLeaf, [], .int 5, .int 5, rfl, rfl, by simp, rfl, holds_five⟩) .nil))
  refine .cons (.given (fun h => by cases h) (.seq rfl inner ⟨_, List.mem_cons_self, by decide⟩ (by decide)) ?_) (.cons (.given (fun h => by cases h) (.alt rfl rfl rfl (int (n := 1) (by omega))) ?_) .nil)
  · refine (whole_complete (E := schemaEnv) (c := 4) rfl).mpr ?_
    exact .cons (fun h => by cases h) (.cons (fun _ => rfl) (.cons (fun h => by cases h) .nil))
  · simp only [Whole]
    exact fun _ _ _ _ _ _ => trivial

theorem schema_goodUse (c : ClassId) : GoodUse schemaEnv (fun _ => True) c {} := goodUse_plain trivial

/-- Its values can be written. -/
theorem sample_ready : Ready schemaEnv 5 (.seq sampleValues) := by
  have int : ∀ n : Nat, n < 6 → Ready schemaEnv 0 (.prim (.int n)) := by
    intro n hn
    have h : ∃ st, intLeaf.set (.int n) = .ok st := by
      have : n = 0 ∨ n = 1 ∨ n = 2 ∨ n = 3 ∨ n = 4 ∨ n = 5 := by omega
      rcases this with rfl | rfl | rfl | rfl | rfl | rfl <;> exact ⟨_, by rfl⟩
    exact (ready_prim (E := schemaEnv) (c := 0) (proto := intLeaf) rfl).mpr h
  have whole : ∀ {c s}, Whole schemaEnv c (.prim s) := by intros; simp only [Whole]
  refine (ready_seq (E := schemaEnv) (c := 5) rfl).mpr ?_
  refine ⟨trivial, trivial, ?_, trivial, ?_, ?_, ?_, ?_, trivial⟩
  · exact (ready_list (E := schemaEnv) (c := 2) rfl).mpr ⟨int 1 (by omega), whole, int 2 (by omega), whole, trivial⟩
  · exact (ready_seq (E := schemaEnv) (c := 4) rfl).mpr ⟨int 3 (by omega), whole, trivial, trivial, int 5 (by omega), whole, trivial⟩
  · refine (whole_complete (E := schemaEnv) (c := 4) rfl).mpr ?_
    exact .cons (fun h => by cases h) (.cons (fun _ => rfl) (.cons (fun h => by cases h) .nil))
  · simp only [Ready]
    intro e t alts f h1 h2
    cases h1
    cases h2
    exact int 1 (by omega)
  · simp only [Whole]
    exact fun _ _ _ _ _ _ => trivial

theorem sample_complete : Complete outerFields sampleValues :=
  .cons (fun _ => rfl) (.cons (fun h => by cases h) (.cons (fun h => by cases h) (.cons (fun h => by cases h) .nil)))

/-- So the sample works by `C17_from_dict_works`. -/
example : Works (do let v ← (ops schemaEnv 8).construct 5 {} (.dict sample); (ops schemaEnv 8).dump v false) :=
  (C17_from_dict_works schema_universe (E := schemaEnv) (c := 5) rfl (schema_goodUse 5) (sample_given (MadeIn schemaEnv (fun _ => True) 0))
    ⟨_, List.mem_cons_of_mem _ List.mem_cons_self, by decide⟩ (by decide) sample_complete sample_ready (by decide) false true).1

set_option maxRecDepth 20000 in
/-- The sample is built, dumped, loaded and read back. -/
example : ∃ v v' b w w', (ops schemaEnv 8).construct 5 {} (.dict sample) = .ok v ∧ (ops schemaEnv 8).dump v false = .ok (b, v') ∧
    b = [0x30, 0x12, 0x30, 6, 2, 1, 1, 2, 1, 2, 0xa0, 5, 0x30, 3, 2, 1, 3, 2, 1, 1] ∧
    loadVal schemaEnv (ops schemaEnv 8) 5 {} b true = .ok w ∧
    (ops schemaEnv 8).native w = .ok (.dict [("id", .scalar .none), ("list", .list [.scalar (.int 1), .scalar (.int 2)]),
      ("inner", .dict [("a", .scalar (.int 3)), ("b", .scalar .none), ("c", .scalar (.int 5))]), ("pick", .scalar (.int 1))], w') := by
  obtain ⟨v, v', hv, hb⟩ : ∃ v v', (ops schemaEnv 8).construct 5 {} (.dict sample) = .ok v ∧ (ops schemaEnv 8).dump v false =
      .ok ([0x30, 0x12, 0x30, 6, 2, 1, 1, 2, 1, 2, 0xa0, 5, 0x30, 3, 2, 1, 3, 2, 1, 1], v') := ⟨_, _, rfl, rfl⟩
  obtain ⟨w, w', h1, h2, _⟩ := C17_from_dict_partial schema_universe (E := schemaEnv) (c := 5) rfl (schema_goodUse 5) (sample_given (MadeIn schemaEnv (fun _ => True) 0))
    ⟨_, List.mem_cons_of_mem _ List.mem_cons_self, by decide⟩ (by decide) hv hb true 8 (by decide)
  exact ⟨v, v', _, w, w', hv, hb, rfl, h1, h2⟩

/-- `Outer({'list': []}).dump()` -/
example : ∃ v, (ops schemaEnv 8).construct 5 {} (.dict [("list", .list [])]) = .ok v ∧ (ops schemaEnv 8).dump v false = .error .valueError := by
  refine ⟨_, rfl, ?_⟩
  refine C17_missing_in_dict schema_universe (E := schemaEnv) (c := 5) rfl (schema_goodUse 5) (k := 0) (d := [("list", .list [])])
    (as := [.absent, .list [], .absent, .absent])
    (.cons (.missing rfl) (.cons (.given (fun h => by cases h) (.list rfl .nil) trivial) (.cons (.missing rfl) (.cons (.missing rfl) .nil))))
    ⟨_, List.mem_cons_of_mem _ List.mem_cons_self, by decide⟩ ?_ (n := 8) rfl 7
  intro h
  cases h with | cons _ h => cases h with | cons _ h => cases h with | cons _ h => cases h with | cons h _ => exact absurd (h rfl) (by decide)

/-- `Inner.load(b'\x30\x03\x04\x01\x07')`: an OCTET STRING where the INTEGER is expected. -/
example : ∃ w, loadVal schemaEnv (ops schemaEnv 2) 4 {} [0x30, 3, 4, 1, 7] true = .ok w ∧ getItem schemaEnv (ops schemaEnv 2) w 0 = .error .valueError :=
  ⟨_, rfl, rfl⟩

/-- That element meets the hypotheses. -/
example : ∃ t u ts, t.bytes = [0x30, 3, 4, 1, 7] ∧ Framed (0, 16) {} t u ∧ u.method = 1 ∧ Elements u.contents ts ∧
    ∀ used extra, ts = used ++ extra → ¬ Placed schemaEnv innerFields used := by
  refine ⟨⟨0, 1, 16, [0x30, 3], [4, 1, 7], []⟩, ⟨0, 1, 16, [0x30, 3], [4, 1, 7], []⟩, [⟨0, 0, 4, [4, 1], [7], []⟩], rfl,
    ⟨ber_short (cs := [4, 1, 7]) (by omega) (by omega) (by omega) (by decide), .nil, rfl⟩, rfl, ⟨rfl, fun v hv => ?_⟩, fun used extra h hp => ?_⟩
  · simp only [List.mem_cons, List.not_mem_nil, or_false] at hv
    subst hv
    exact ber_short (cs := [7]) (by omega) (by omega) (by omega) (by decide)
  · cases hp with
    | take ho _ =>
      rw [List.cons_append, List.cons.injEq] at h
      rw [← h.1] at ho
      exact absurd (schema_outer (f := ⟨"a", 0, {}⟩) ⟨rfl, .inr ⟨trivial, rfl⟩⟩ ho) (by decide)
    | skip ho _ => exact absurd ho (by decide)

end Asn1.Props
