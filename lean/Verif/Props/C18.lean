import Verif.Lemmas.Parts
import Verif.Props.C24

/-!
# C18 — DEFAULT values are omitted, and fields are written in declared order

`Parts r fields children ws`: the fields contribute the octets `ws`, in declared order; a field contributes nothing if it is encoded as its
DEFAULT is, and otherwise its encoding (Spec/Parts.lean). `Encoded es cls method tag contents b`: `b` is the element with these tags and
contents (Spec/Tagging.lean).
-/

namespace Asn1.Props
open Asn1 Spec

section
variable {E : Env} {n : Nat} {c : ClassId} {proto : Obj Unit} {bad : List Nat} {fields : List Field} {oid : Option OidPair}

/-- A SEQUENCE instance that has been changed is encoded from its fields: for all field lists and all instances. (An instance loaded
with a header that ends in 0x80 is encoded by force, see `C18_forced_partial`.) `cs2` are elements after the last field, which are not
written. -/
theorem C18_written (hE : E.cls c = .seq proto bad false fields oid) {o : Obj Unit} (ho : ClassObj (bare o) 1) (h80 : headerEnds80 o.header = false)
    {cs : List Child} {m : Bool} (hm : (Val.node c o (some cs) m).isMutated = true) {b : Bytes} {v' : Val}
    (hd : (ops E (n + 1)).dump (.node c o (some cs) m) false = .ok (b, v')) (hf : Fits b) :
    ∃ cs1 cs2 ws, cs = cs1 ++ cs2 ∧ Parts (ops E n) fields cs1 ws ∧ Encoded o.explicit o.cls 1 o.tag ws.flatten b :=
  dump_parts hE ho h80 hm hd hf

/-- The same for a SEQUENCE built from a dict. -/
theorem C18_from_dict (hE : E.cls c = .seq proto bad false fields oid) (hp : ClassObj proto 1) {p : Params} (hv : p.Valid) (hx : p.noExplicit = false)
    {d : List (String × PyVal)} (hd : ∃ f ∈ fields, ∃ e ∈ d, e.1 = f.name) {n' : Nat} {v v' : Val} (hc : (ops E n').construct c p (.dict d) = .ok v)
    {b : Bytes} (hb : (ops E (n + 1)).dump v false = .ok (b, v')) (hf : Fits b) :
    ∃ o cs1 cs2 m ws, v = .node c o (some (cs1 ++ cs2)) m ∧ Parts (ops E n) fields cs1 ws ∧ Encoded o.explicit o.cls 1 o.tag ws.flatten b := by
  obtain ⟨cs, m, rfl, hm⟩ := construct_changed hE hd hc
  have ho := initTagging_valid hp hv hx
  have hh : (initTagging proto p.tags).header = none := ho.fresh.header
  have hbare : ClassObj (bare (initTagging proto p.tags)) 1 := by
    exact ⟨⟨rfl, rfl, ho.fresh.indefinite⟩, ho.cls, ho.method, ho.explicit, ho.native⟩
  obtain ⟨cs1, cs2, ws, rfl, k1, k2⟩ := C18_written hE hbare (by rw [hh]; rfl) hm hb hf
  exact ⟨_, cs1, cs2, m, ws, rfl, k1, k2⟩

/-- A changed SET is encoded from the same parts, without those encoded as their DEFAULT, in the order of their tags. -/
theorem C18_set (hE : E.cls c = .seq proto bad true fields oid) {o : Obj Unit} (ho : ClassObj (bare o) 1) (h80 : headerEnds80 o.header = false)
    {cs : List Child} {m : Bool} (hm : (Val.node c o (some cs) m).isMutated = true) {b : Bytes} {v' : Val}
    (hd : (ops E (n + 1)).dump (.node c o (some cs) m) false = .ok (b, v')) (hf : Fits b) :
    ∃ es es', SetParts (ops E n) fields cs es ∧ es'.Perm es ∧ ByTag es' ∧ Encoded o.explicit o.cls 1 o.tag (es'.map Prod.snd).flatten b :=
  dump_set_parts hE ho h80 hm hd hf

/-- An instance is changed by an assignment or a deletion. -/
theorem C18_changed {r : Ops} {v w : Val} {k : Nat} : (∀ x, setField E r v k x = .ok w → w.isMutated = true) ∧ (delField E r v k = .ok w → w.isMutated = true) := by
  constructor
  · intro x h
    obtain ⟨_, _, _, _, _, _, _, _, _, _, _, _, rfl⟩ := setField_changed h
    exact node_mutated
  · intro h
    obtain ⟨_, _, _, rfl⟩ := delField_changed h
    exact node_mutated

/-- An absent field contributes nothing. -/
theorem C18_absent {b : Bytes} : ChildBytes (ops E (n + 1)) (.val .void) b ↔ b = [] := by
  constructor
  · intro h
    cases h with
    | value h => cases h; rfl
  · rintro rfl
    exact .value rfl

/-- Encoding by force, by values: a field that has its default value, and an absent field, contributes nothing, and any other field
its DER encoding, in declared order. Missing here: NULL and the types that are not in `Universe`. -/
theorem C18_forced_partial {U : ClassId → Prop} (hU : Universe E U) (hN : NoNull E U) (hE : E.cls c = .seq proto bad false fields oid) {q : Bool} {p : Params}
    {o : Obj Unit} {ch : Option (List Child)} {m : Bool} {as : List AVal} (hv : Made E U q c p (.node c o ch m) (.seq as)) {force : Bool}
    (hfo : force = true ∨ headerEnds80 o.header = true) {b : Bytes} {v' : Val} (hd : (ops E n).dump (.node c o ch m) force = .ok (b, v')) :
    ∃ t u : TLV, t.bytes = b ∧ DerFramed (proto.cls, proto.tag) p t u ∧ FieldsDer E fields u.contents as := by
  have hd' : (ops E n).dump (.node c o ch m) true = .ok (b, v') := by
    cases n with
    | zero => cases hd
    | succ n =>
      have h1 : nodeDump E (ops E n) c o ch m force = .ok (b, v') := hd
      show nodeDump E (ops E n) c o ch m true = .ok (b, v')
      unfold nodeDump at h1 ⊢
      rw [show (true || headerEnds80 o.header) = (force || headerEnds80 o.header) from by rcases hfo with h | h <;> rw [h] <;> simp]
      exact h1
  obtain ⟨⟨t, rfl, ht⟩, _⟩ := C24_forced_partial hU hN hv hd'
  cases ht with
  | seq h1 h2 h3 h4 =>
    rw [hE] at h1
    cases h1
    exact ⟨t, _, rfl, h2, h4⟩

/-- The order of assignments to different fields does not matter: the same assignments in any other order give the same instance.
Missing: a field whose type is selected by another field must be assigned after that. -/
theorem C18_assignment_order_partial {isSet : Bool} (hE : E.cls c = .seq proto bad isSet fields oid) {r : Ops} {es es' : List (Nat × PyVal)} (hp : es.Perm es')
    (hn : (es.map Prod.fst).Nodup) (ho : ∀ p, oid = some p → p.value ∉ es.map Prod.fst) {o : Obj Unit} {ch : Option (List Child)} {m : Bool} {w : Val}
    (h : assignAll E r es (.node c o ch m) = .ok w) : assignAll E r es' (.node c o ch m) = .ok w :=
  assignAll_perm hE hp hn ho rfl h

/-- The order of the entries of a dict does not matter. -/
theorem C18_dict_order {isSet : Bool} (hE : E.cls c = .seq proto bad isSet fields oid) {p : Params} {d d' : List (String × PyVal)} (hp : d.Perm d')
    (hn : (d.map Prod.fst).Nodup) : (ops E n).construct c p (.dict d) = (ops E n).construct c p (.dict d') :=
  construct_perm hp hn hE

end

/-! ### Cases that meet the hypotheses -/

/-- `Inner({'a': 1, 'c': 5})`, where 5 is the DEFAULT of `c`, and `b` is absent. -/
def innerDict : List (String × PyVal) := [("a", .scalar (.int 1)), ("c", .scalar (.int 5))]

theorem inner_obj : ClassObj { cls := 0, method := 1, tag := 16 } 1 := ⟨⟨rfl, rfl, rfl⟩, by decide, rfl, fun e h => (by cases h), rfl⟩

/-- It is built and dumped, so `C18_from_dict` applies. -/
example : ∃ v v' o cs1 cs2 m ws, (ops schemaEnv 8).construct 4 {} (.dict innerDict) = .ok v ∧
    (ops schemaEnv 8).dump v false = .ok ([0x30, 3, 2, 1, 1], v') ∧ v = .node 4 o (some (cs1 ++ cs2)) m ∧ Parts (ops schemaEnv 7) innerFields cs1 ws := by
  obtain ⟨v, v', hv, hb⟩ : ∃ v v', (ops schemaEnv 8).construct 4 {} (.dict innerDict) = .ok v ∧
    (ops schemaEnv 8).dump v false = .ok ([0x30, 3, 2, 1, 1], v') := ⟨_, _, rfl, rfl⟩
  obtain ⟨o, cs1, cs2, m, ws, h1, h2, _⟩ := C18_from_dict (n := 7) (c := 4) rfl inner_obj
    (p := {}) ⟨fun e h => (by cases h), fun e h => (by cases h)⟩ rfl ⟨_, List.mem_cons_self, _, List.mem_cons_self, rfl⟩ hv hb (by unfold Fits; simp)
  exact ⟨v, v', o, cs1, cs2, m, ws, hv, hb, h1, h2⟩

/-- Any other value of `c` is written. -/
example : ((ops schemaEnv 8).construct 4 {} (.dict [("a", .scalar (.int 1)), ("c", .scalar (.int 6))]) >>= fun v => (ops schemaEnv 8).dump v false).map Prod.fst =
    .ok [0x30, 8, 2, 1, 1, 0xa2, 3, 2, 1, 6] := by
  decide +kernel

/-- The fields of the SET below. -/
def defaultSetFields : List Field := [⟨"o", 3, {}⟩, ⟨"i", 0, { default := some (.scalar (.int 7)) }⟩, ⟨"b", 1, {}⟩]

/-- Class 1 is BOOLEAN, 2 a SET of an OCTET STRING, an INTEGER with DEFAULT 7, and a BOOLEAN; any other is INTEGER. -/
def defaultSetEnv : Env where
  cls
    | 1 => .leaf (.boolean { cls := 0, method := 0, tag := 1 }) []
    | 2 => .seq { cls := 0, method := 1, tag := 17 } [] true defaultSetFields none
    | 3 => .leaf (.octets { cls := 0, method := 0, tag := 4 }) []
    | _ => .leaf (.integer none { cls := 0, method := 0, tag := 2 }) []
  universal _ := none

/-- `Set({'o': b'\x09', 'i': i, 'b': True})` can be dumped, which gives `b`. -/
def DefaultSet (i : Int) (b : Bytes) : Prop :=
  ∃ o cs v', (ops defaultSetEnv 8).construct 2 {} (.dict [("o", .scalar (.bytes [9])), ("i", .scalar (.int i)), ("b", .scalar (.bool true))]) =
    .ok (.node 2 o (some cs) true) ∧ ClassObj (bare o) 1 ∧ headerEnds80 o.header = false ∧ (Val.node 2 o (some cs) true).isMutated = true ∧
    (ops defaultSetEnv 8).dump (.node 2 o (some cs) true) false = .ok (b, v')

/-- The DEFAULT 7 is omitted, any other value is written, the order is that of the tags, and `C18_set` applies. -/
example : DefaultSet 7 [0x31, 6, 1, 1, 0xff, 4, 1, 9] ∧ DefaultSet 8 [0x31, 9, 1, 1, 0xff, 2, 1, 8, 4, 1, 9] := by
  constructor
  · obtain ⟨cs, cs', h1, h2, h3⟩ : ∃ cs cs', (ops defaultSetEnv 8).construct 2 {} (.dict [("o", .scalar (.bytes [9])), ("i", .scalar (.int 7)), ("b", .scalar (.bool true))])
        = .ok (.node 2 { cls := 0, method := 1, tag := 17 } (some cs) true) ∧ checkRequired defaultSetEnv 2 (some cs) = .ok () ∧
        encodeSetFields (ops defaultSetEnv 7) false defaultSetFields cs = .ok ([(some 4, [4, 1, 9]), (some 1, [1, 1, 0xff])], cs') := ⟨_, _, rfl, rfl, rfl⟩
    obtain ⟨v', hv⟩ := dump_set_ok (E := defaultSetEnv) (c := 2) (o := { cls := 0, method := 1, tag := 17 }) rfl rfl node_mutated h2 h3 (bs := [[1, 1, 0xff], [4, 1, 9]]) (by simp [sortByTag, List.mergeSort]) rfl
    exact ⟨_, cs, v', h1, ⟨⟨rfl, rfl, rfl⟩, by decide, rfl, fun e h => (by cases h), rfl⟩, rfl, node_mutated, hv⟩
  · obtain ⟨cs, cs', h1, h2, h3⟩ : ∃ cs cs', (ops defaultSetEnv 8).construct 2 {} (.dict [("o", .scalar (.bytes [9])), ("i", .scalar (.int 8)), ("b", .scalar (.bool true))])
        = .ok (.node 2 { cls := 0, method := 1, tag := 17 } (some cs) true) ∧ checkRequired defaultSetEnv 2 (some cs) = .ok () ∧
        encodeSetFields (ops defaultSetEnv 7) false defaultSetFields cs = .ok ([(some 4, [4, 1, 9]), (some 2, [2, 1, 8]), (some 1, [1, 1, 0xff])], cs') :=
      ⟨_, _, rfl, rfl, rfl⟩
    obtain ⟨v', hv⟩ := dump_set_ok (E := defaultSetEnv) (c := 2) (o := { cls := 0, method := 1, tag := 17 }) rfl rfl node_mutated h2 h3 (bs := [[1, 1, 0xff], [2, 1, 8], [4, 1, 9]])
      (by simp [sortByTag, List.mergeSort]) rfl
    exact ⟨_, cs, v', h1, ⟨⟨rfl, rfl, rfl⟩, by decide, rfl, fun e h => (by cases h), rfl⟩, rfl, node_mutated, hv⟩

/-- Assigning `c`, `b`, `a` or `a`, `b`, `c` gives the same encoding. -/
example : ((assignAll schemaEnv (ops schemaEnv 8) [(2, .scalar (.int 6)), (1, .scalar (.int 4)), (0, .scalar (.int 1))]
      (.node 4 { cls := 0, method := 1, tag := 16 } none false)) >>= fun v => (ops schemaEnv 8).dump v false).map Prod.fst =
    .ok [0x30, 11, 2, 1, 1, 0x81, 1, 4, 0xa2, 3, 2, 1, 6] ∧
    ((assignAll schemaEnv (ops schemaEnv 8) [(0, .scalar (.int 1)), (1, .scalar (.int 4)), (2, .scalar (.int 6))]
      (.node 4 { cls := 0, method := 1, tag := 16 } none false)) >>= fun v => (ops schemaEnv 8).dump v false).map Prod.fst =
    .ok [0x30, 11, 2, 1, 1, 0x81, 1, 4, 0xa2, 3, 2, 1, 6] := by
  decide +kernel

/-- They are assignments to different fields of a type without a selected field. -/
example : ([(2, .scalar (.int 6)), (1, .scalar (.int 4)), (0, .scalar (.int 1))] : List (Nat × PyVal)).Perm
      [(0, .scalar (.int 1)), (1, .scalar (.int 4)), (2, .scalar (.int 6))] ∧
    (([(2, .scalar (.int 6)), (1, .scalar (.int 4)), (0, .scalar (.int 1))] : List (Nat × PyVal)).map Prod.fst).Nodup :=
  ⟨List.reverse_perm ([(0, .scalar (.int 1)), (1, .scalar (.int 4)), (2, .scalar (.int 6))] : List (Nat × PyVal)), by decide⟩

/-- `v = Inner.load(...); v['a'] = 8; v.dump()` where `c` was loaded as 5 in two octets: the encoding is not that of the DEFAULT, so it is
written again, although `dump(force=True)` omits it. -/
example : (do
      let v ← loadVal schemaEnv (ops schemaEnv 8) 4 {} [0x30, 9, 2, 1, 7, 0xa2, 4, 2, 2, 0, 5] true
      let v ← setField schemaEnv (ops schemaEnv 8) v 0 (.scalar (.int 8))
      let (b, v) ← (ops schemaEnv 8).dump v false
      let (b', _) ← (ops schemaEnv 8).dump v true
      .ok (b, b')) = .ok ([0x30, 9, 2, 1, 8, 0xa2, 4, 2, 2, 0, 5], [0x30, 3, 2, 1, 8]) := by
  decide +kernel

/-- An instance that `C18_forced_partial` is about. -/
example : ∃ o ch m, Made schemaEnv (fun _ => True) false 5 {} (.node 5 o ch m) (outerValue [1] 6) := by
  obtain ⟨v, _, hv⟩ := outer_made
  obtain ⟨_, h⟩ := made_rep schema_universe hv
  cases h with
  | seqRaw => exact ⟨_, _, _, hv⟩
  | seq => exact ⟨_, _, _, hv⟩

end Asn1.Props
