import Verif.Lemmas.Lists
import Verif.Lemmas.Schema
import Verif.Lemmas.RepRead

/-!
# C19 — SEQUENCE OF behaves as a Python list

`Made E U q c p v (.list as)`: the instance `v` was loaded, constructed or changed so that its elements are `as` (Spec/History.lean).
`ListHistory E V c ch as os as' ws`: a Python list with the elements `as` on which the operations `os` are carried out gives the
answers `ws` and has the elements `as'` afterwards (Spec/Lists.lean). `Works`: the only error possible is that there are 256 ^ 127
bytes or more to write.
-/

namespace Asn1.Props
open Asn1 Spec

section
variable {E : Env} {U : ClassId → Prop} {c ch : ClassId} {p : Params} {proto : Obj Unit} {bad : List Nat}

/-- What can be done with a list can be done with a SEQUENCE OF, with the same answers; afterwards `dump()` writes the encoding of
the elements of the list, which loads, strictly or not, and gives the list back: the same length, the same elements, and `IndexError`
behind them. Missing: assigning to the position behind the last appends instead of raising `IndexError` (`C19_set_end`). -/
theorem C19_history_partial (hU : Universe E U) (hE : E.cls c = .seqOf proto bad false (some ch)) {q : Bool} {v : Val} {as as' : List AVal}
    (hv : Made E U q c p v (.list as)) {k : Nat} {os : List ListOp} {ws : List Want} (hh : ListHistory E (MadeIn E U k) c ch as os as' ws)
    (hr : Ready E c (.list as')) :
    ∃ n0, ∀ n, n0 ≤ n →
      Works (runLists E (ops E n) os v) ∧
      ∀ gs v', runLists E (ops E n) os v = .ok (gs, v') →
        List.Forall₂ (Answers E ch) gs ws ∧
        ∀ force, Works ((ops E n).dump v' force) ∧
        ∀ b v'', (ops E n).dump v' force = .ok (b, v'') →
          (∃ t : TLV, t.bytes = b ∧ Dec E c p t (.list as')) ∧
          ∀ strict, ∃ w w' w'', loadVal E (ops E n) c p b strict = .ok w ∧
            (ops E n).native w = .ok (.list (AVal.elements E ch as'), w') ∧ lenOf E (ops E n) w = .ok (as'.length, w'') ∧
            (∀ i a, as'[i]? = some a → ∃ x w' x', getItem E (ops E n) w i = .ok (x, w') ∧ (ops E n).native x = .ok (a.native E ch, x')) ∧
            ∀ i, as'.length ≤ i → getItem E (ops E n) w i = .error .indexError := by
  obtain ⟨j, hv⟩ := hv
  have hm : MadeFrom E U (MadeIn E U (max j k)) q c p v (.list as) := by
    have : MadeIn E U (max j k + 1) q c p v (.list as) := madeIn_mono (by omega) hv
    exact this
  have hV : ∀ {q c p v a}, MadeIn E U (max j k) q c p v a → Inst E U q c p v a := fun h => madeIn_inst hU h
  have hh' := listHistory_mono (W := MadeIn E U (max j k)) (fun h => madeIn_mono (by omega) h) hh
  obtain ⟨n0, hw⟩ := runLists_works (q := q) (p := p) hU hV hE hh'
  refine ⟨max n0 ((AVal.list as').depth + 3), fun n hn => ⟨hw n (by omega) hm, fun gs v' hx => ?_⟩⟩
  obtain ⟨k1, k2⟩ := runLists_made hU hV hE hh' hm hx
  obtain ⟨hg, hrep⟩ := madeFrom_rep hU hV k2
  refine ⟨k1, fun force => ⟨?_, fun b v'' hb => ?_⟩⟩
  · exact (working_ops hU (N := (AVal.list as').depth + 1) (by omega)).dump force hg hrep hr whole_list (by omega)
  · obtain ⟨_, t, rfl, ht, _⟩ := (sim_ops hU n).dump hg hrep hb
    refine ⟨⟨t, rfl, ht⟩, fun strict => ?_⟩
    obtain ⟨w, w', h1, h2, h3⟩ := load_total (n := n) (strict := strict) hU hg ht (by omega)
    rw [AVal.native, hE] at h3
    have hdep : AVal.depths as' + 3 ≤ n := by
      have : (AVal.list as').depth + 3 ≤ n := by omega
      rw [AVal.depth] at this
      omega
    obtain ⟨⟨w'', g1⟩, g2, g3⟩ := loaded_element hU hg h2 hE hdep
    exact ⟨w, w', w'', h1, h3, g1, g2, g3⟩

/-- `cls()` is an empty list; from the first `append` on the theorem above is about it. -/
theorem C19_fresh (hU : Universe E U) (hE : E.cls c = .seqOf proto bad false (some ch)) (hg : GoodUse E U c p) (hp : p.default = none) (n : Nat) :
    ∃ v v', (ops E (n + 1)).construct c p (.scalar .none) = .ok v ∧ lenOf E (ops E (n + 1)) v = .ok (0, v') ∧
      iterItems E (ops E (n + 1)) v = .ok ([], v') ∧ (∀ i, getAt E (ops E (n + 1)) v i = .error .indexError) ∧
      ∀ q k x b, Conv E (MadeIn E U k) false ch {} x b → AsElement E ch x → Ready E ch b → b.depth + 3 ≤ n →
        Works (appendItem E (ops E (n + 1)) v x) ∧ ∀ v', appendItem E (ops E (n + 1)) v x = .ok v' → Made E U q c p v' (.list [b]) := by
  have hcon : (ops E (n + 1)).construct c p (.scalar .none) = .ok (.node c (initTagging proto p.tags) none false) := by
    show constructStep E (ops E n) c p (.scalar .none) = _
    simp only [constructStep, hE, hp, givenValue]
  obtain ⟨_, _, hpn, d, hd, hUd⟩ := hU.seqOf _ _ _ _ _ hg.mem hE
  cases hd
  have hcn : (initTagging proto p.tags).contents = none := by
    obtain ⟨_, _, _, _, _, _, f7⟩ := initTagging_fields proto p hg.tags.keep
    obtain ⟨_, _, _, rfl⟩ := hpn
    exact f7
  have hcs : ensureChildren E (ops E (n + 1)) c (initTagging proto p.tags) none = .ok [] := by
    simp only [ensureChildren, parseChildren, hE, hcn, parseSeqOf]
  have hlen : lenOf E (ops E (n + 1)) (.node c (initTagging proto p.tags) none false) =
      .ok (0, .node c (initTagging proto p.tags) (some []) false) := by
    simp only [lenOf, bind, Except.bind, hcs]; rfl
  refine ⟨_, _, hcon, hlen, ?_, fun i => ?_, fun q k x b h1 h2 h3 h4 => ⟨?_, fun v' hv' => ?_⟩⟩
  · simp only [iterItems, bind, Except.bind, hlen]; rfl
  · simp only [getAt, bind, Except.bind, hlen, listPos_none (n := 0) (i := i) (fun k h => absurd h.1 (by omega))]
  · exact appendItem_works hU (working_ops hU (N := b.depth + 1) (by omega)) hUd hE (.ok hcs) (conv_mono (fun h => madeIn_inst hU h) h1) h2 h3 (by omega)
  · exact ⟨k + 1, .started (n' := n + 1) hg hp (.list hE) hcon rfl (.append hE h1 h2) hv'⟩

/-- Outside the list, reading and deleting raise `IndexError`. -/
theorem C19_out_of_range (hU : Universe E U) {q : Bool} {v : Val} {as : List AVal} (hv : Made E U q c p v (.list as)) {i : Int}
    (hi : ∀ k, ¬ IndexAt as.length i k) {n : Nat} (hn : 2 ≤ n) :
    getAt E (ops E n) v i = .error .indexError ∧ delAt E (ops E n) v i = .error .indexError := by
  obtain ⟨hg, hr⟩ := made_rep hU hv
  obtain ⟨v1, h4, _⟩ := len_split hU hn hg.mem hr
  constructor
  · simp only [getAt, bind, Except.bind, h4, listPos_none hi]
  · simp only [delAt, bind, Except.bind, h4, listPos_none hi]

/-- So does assigning, except to the position behind the last. -/
theorem C19_set_out_of_range (hU : Universe E U) (hE : E.cls c = .seqOf proto bad false (some ch)) {q : Bool} {v : Val} {as : List AVal}
    (hv : Made E U q c p v (.list as)) {i : Int} (hi : ∀ k, ¬ IndexAt as.length i k) (hl : i ≠ as.length) {k : Nat} {x : PyVal} {b : AVal}
    (hx : Conv E (MadeIn E U k) false ch {} x b) (hel : AsElement E ch x) (hr : Ready E ch b) {n : Nat} (hn : b.depth + 3 ≤ n) :
    setAt E (ops E n) v i x = .error .indexError ∨ setAt E (ops E n) v i x = .error .overflowError := by
  obtain ⟨hg, hrep⟩ := made_rep hU hv
  obtain ⟨_, _, _, d, hd, hUd⟩ := hU.seqOf _ _ _ _ _ hg.mem hE
  cases hd
  obtain ⟨v1, h4, h5⟩ := len_split hU (n := n) (by omega) hg.mem hrep
  obtain ⟨o, cs, m, _, _, d, rfl, hcl, _⟩ := rep_list_inv h5
  have hlen := h4
  simp only [setAt, bind, Except.bind, h4, hl, if_false, listPos_none hi]
  obtain ⟨n, rfl⟩ : ∃ k, n = k + 1 := ⟨n - 1, by omega⟩
  obtain ⟨cs', hcs⟩ := ensure_ok (n := n) hU hg.mem h5
  have hl' := listRep_length (ensure_elements hU (sim_ops hU (n + 1)) hg.mem h5 hE cs' hcs)
  have hmk := makeElement_works hU (working_ops hU (N := b.depth + 1) (n := n + 1) (by omega)) hUd (conv_mono (fun h => madeIn_inst hU h) hx) hel hr (by omega)
  simp only [setElement, hE, bind, Except.bind, hcs]
  rcases hmk with ⟨y, hy⟩ | hy
  · left
    simp only [hy, show ¬ (as.length + 1 = cs'.length) by omega, show ¬ (as.length + 1 < cs'.length) by omega, if_false]
  · right
    simp only [hy]

end

/-! ### Where the library does not do what the property says -/

/-- `l = SequenceOfInteger([1]); l[1] = 2` appends; on the list `[1]` there is no position 1 and `IndexError` is raised. -/
theorem C19_set_end : (∀ k, ¬ IndexAt 1 1 k) ∧ ∃ v v' v'', (ops schemaEnv 8).construct 2 {} (.list [.scalar (.int 1)]) = .ok v ∧
    setAt schemaEnv (ops schemaEnv 8) v 1 (.scalar (.int 2)) = .ok v' ∧ (ops schemaEnv 8).dump v' false = .ok ([0x30, 6, 2, 1, 1, 2, 1, 2], v'') :=
  ⟨fun k h => by obtain ⟨h1, h2⟩ := h; omega, _, _, _, rfl, rfl, rfl⟩

/-! ### A case that meets the hypotheses -/

theorem int_given (V : Bool → ClassId → Params → Val → AVal → Prop) {n : Nat} (hn : n < 10) {q : Bool} {p : Params} :
    Conv schemaEnv V q 0 p (.scalar (.int n)) (.prim (.int n)) := by
  refine .prim (proto := intLeaf) rfl (by simp) ?_
  have : n = 0 ∨ n = 1 ∨ n = 2 ∨ n = 3 ∨ n = 4 ∨ n = 5 ∨ n = 6 ∨ n = 7 ∨ n = 8 ∨ n = 9 := by omega
  rcases this with rfl | rfl | rfl | rfl | rfl | rfl | rfl | rfl | rfl | rfl <;>
  exact ⟨_, _, _, by rfl, by rfl, by rfl, ⟨fun o h => (by cases h), _, by rfl, by rfl⟩, by rfl, by rfl⟩

theorem int_ready {n : Nat} (hn : n < 10) : Ready schemaEnv 0 (.prim (.int n)) := by
  refine (ready_prim (E := schemaEnv) (c := 0) (proto := intLeaf) rfl).mpr ?_
  have : n = 0 ∨ n = 1 ∨ n = 2 ∨ n = 3 ∨ n = 4 ∨ n = 5 ∨ n = 6 ∨ n = 7 ∨ n = 8 ∨ n = 9 := by omega
  rcases this with rfl | rfl | rfl | rfl | rfl | rfl | rfl | rfl | rfl | rfl <;> exact ⟨_, by rfl⟩

theorem ints_ready : ∀ {ns : List Nat}, (∀ n ∈ ns, n < 10) → Ready schemaEnv 2 (.list (ns.map (fun n => .prim (.int n)))) := by
  intro ns h
  refine (ready_list (E := schemaEnv) (c := 2) (ch := 0) rfl).mpr ?_
  induction ns with
  | nil => trivial
  | cons n ns ih =>
    exact ⟨int_ready (h n (by simp)), by simp only [Whole], ih (fun m hm => h m (by simp [hm]))⟩

/-- `l = [7]; l.append(3); l[-1] = 4; l.append(5); del l[0]; len(l); l[-2]; list(l)` -/
def listOps : List ListOp :=
  [.append (.scalar (.int 3)), .set (-1) (.scalar (.int 4)), .append (.scalar (.int 5)), .del 0, .other (.dump false), .len, .get (-2), .iter]

theorem listOps_history (V : Bool → ClassId → Params → Val → AVal → Prop) :
    ListHistory schemaEnv V 2 0 [.prim (.int 7)] listOps [.prim (.int 4), .prim (.int 5)]
      [.nothing, .nothing, .nothing, .nothing, .nothing, .num 2, .item (.prim (.int 4)), .items [.prim (.int 4), .prim (.int 5)]] := by
  have noChoice : ∀ {x}, AsElement schemaEnv 0 x := fun _ _ _ h => by cases h
  have r45 : Ready schemaEnv 2 (.list [.prim (.int 4), .prim (.int 5)]) := ints_ready (ns := [4, 5]) (by decide)
  refine .cons (.append (int_given V (n := 3) (by omega)) noChoice) (ints_ready (ns := [7, 3]) (by decide)) ?_
  refine .cons (.set (k := 1) (int_given V (n := 4) (by omega)) noChoice ⟨by decide, .inr (by decide)⟩) (ints_ready (ns := [7, 4]) (by decide)) ?_
  refine .cons (.append (int_given V (n := 5) (by omega)) noChoice) (ints_ready (ns := [7, 4, 5]) (by decide)) ?_
  refine .cons (.del (k := 0) ⟨by decide, .inl rfl⟩) r45 ?_
  refine .cons (.other .dump) r45 (.cons .len r45 (.cons (.get (k := 0) ⟨by decide, .inr (by decide)⟩ rfl) r45 (.cons .iter r45 .nil)))

/-- The list loaded from `30 03 02 01 07`. -/
theorem seven_made : ∃ v, loadVal schemaEnv (ops schemaEnv 8) 2 {} [0x30, 3, 2, 1, 7] true = .ok v ∧
    Made schemaEnv (fun _ => True) false 2 {} v (.list [.prim (.int 7)]) := by
  obtain ⟨v, v', hv, hb⟩ : ∃ v v', (ops schemaEnv 8).construct 2 {} (.list [.scalar (.int 7)]) = .ok v ∧
    (ops schemaEnv 8).dump v false = .ok ([0x30, 3, 2, 1, 7], v') := ⟨_, _, rfl, rfl⟩
  have hm : Made schemaEnv (fun _ => True) false 2 {} v (.list [.prim (.int 7)]) :=
    ⟨1, .constructed (goodUse_plain trivial) (.list (ch := 0) rfl (.cons (int_given _ (n := 7) (by omega)) (fun _ _ _ h => by cases h) .nil)) hv⟩
  obtain ⟨hg, hr⟩ := made_rep schema_universe hm
  obtain ⟨_, t, ht, hd, _⟩ := (sim_ops schema_universe 8).dump hg hr hb
  obtain ⟨w, _, h1, _⟩ := load_total (n := 8) (strict := true) schema_universe hg hd (by decide)
  rw [ht] at h1
  exact ⟨w, h1, 1, .loaded (rest := []) (n := 8) (strict := true) hg hd (fun h => by cases h) (by rw [List.append_nil, ht]; exact h1)⟩

/-- So the history works on it by `C19_history_partial`. -/
example : ∃ v n0, loadVal schemaEnv (ops schemaEnv 8) 2 {} [0x30, 3, 2, 1, 7] true = .ok v ∧
    ∀ n, n0 ≤ n → Works (runLists schemaEnv (ops schemaEnv n) listOps v) := by
  obtain ⟨v, h1, h2⟩ := seven_made
  obtain ⟨n0, h⟩ := C19_history_partial schema_universe rfl h2 (listOps_history (MadeIn schemaEnv (fun _ => True) 0)) (ints_ready (ns := [4, 5]) (by decide))
  exact ⟨v, n0, h1, fun n hn => (h n hn).1⟩

/-- What is written afterwards. -/
example : ∃ v gs v' v'', loadVal schemaEnv (ops schemaEnv 8) 2 {} [0x30, 3, 2, 1, 7] true = .ok v ∧
    runLists schemaEnv (ops schemaEnv 8) listOps v = .ok (gs, v') ∧ (ops schemaEnv 8).dump v' false = .ok ([0x30, 6, 2, 1, 4, 2, 1, 5], v'') :=
  ⟨_, _, _, _, rfl, rfl, rfl⟩

/-- `SequenceOfInteger()` -/
example : ∃ v v', (ops schemaEnv 8).construct 2 {} (.scalar .none) = .ok v ∧ lenOf schemaEnv (ops schemaEnv 8) v = .ok (0, v') := by
  obtain ⟨v, v', h1, h2, _⟩ := C19_fresh schema_universe (E := schemaEnv) (c := 2) rfl (goodUse_plain trivial) rfl 7
  exact ⟨v, v', h1, h2⟩

/-- Position 1 and position -2 of `[7]`. -/
example : (∀ k, ¬ IndexAt 1 1 k) ∧ ∀ k, ¬ IndexAt 1 (-2) k := by
  constructor <;> (rintro k ⟨h1, h2⟩; omega)

end Asn1.Props
