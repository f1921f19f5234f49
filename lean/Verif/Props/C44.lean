import Verif.Lemmas.WorksHist
import Verif.Props.C19
import Verif.Spec.Copies

/-!
# C44 — changes in containers are written; copies are independent

`History E V c a os a'`: the operations `os` turn the value `a` into `a'` (Spec/Ready.lean, Spec/History.lean): assignments,
deletions and appends here or in containers reached by indexing, and dumps, reads and copies in between. `Made E U q c p v a`: the
instance `v` was loaded, constructed or changed so that it is `a`. `Works`: the only error possible is that there are 256 ^ 127 bytes or
more to write.
-/

namespace Asn1.Props
open Asn1 Spec

section
variable {E : Env} {U : ClassId → Prop} {c : ClassId} {p : Params}

/-- After any history `dump()` of the outermost container writes the values as they are then, and so they are loaded again. Missing:
dumps and `native` of nested values in between (`C44_nested_dump`, `C44_nested_native`), and changes of values inside a CHOICE
(`C44_in_choice`): the library does not write what is changed then. -/
theorem C44_history_partial (hU : Universe E U) {q : Bool} {v : Val} {a a' : AVal} (hv : Made E U q c p v a) {k : Nat} {os : List Op}
    (hh : History E (MadeIn E U k) c a os a') (hr : Ready E c a') (hw : Whole E c a') :
    ∃ n0, ∀ n, n0 ≤ n →
      Works (runOps E (ops E n) os v) ∧
      ∀ v', runOps E (ops E n) os v = .ok v' → ∀ force,
        Works ((ops E n).dump v' force) ∧
        ∀ b v'', (ops E n).dump v' force = .ok (b, v'') →
          (∃ t : TLV, t.bytes = b ∧ Dec E c p t a') ∧
          ∀ strict, ∃ w w', loadVal E (ops E n) c p b strict = .ok w ∧ (ops E n).native w = .ok (a'.native E c, w') := by
  obtain ⟨hg, h⟩ := made_rep hU hv
  have hV : ∀ {q c p v a}, MadeIn E U k q c p v a → Inst E U q c p v a := fun h => madeIn_inst hU h
  obtain ⟨n0, hn0⟩ := history_works hU hV hh
  refine ⟨max n0 (a'.depth + 3), fun n hn => ⟨hn0 n (by omega) hg h, fun v' hv' force => ?_⟩⟩
  have hrep := history_rep hU hV hh hg h hv'
  refine ⟨(working_ops hU (N := a'.depth + 1) (by omega)).dump force hg hrep hr hw (by omega), fun b v'' hb => ?_⟩
  obtain ⟨_, t, rfl, ht, _⟩ := (sim_ops hU n).dump hg hrep hb
  refine ⟨⟨t, rfl, ht⟩, fun strict => ?_⟩
  obtain ⟨w, w', h1, _, h3⟩ := load_total (n := n) (strict := strict) hU hg ht (by omega)
  exact ⟨w, w', h1, h3⟩

/-- What a history leads to is again an instance that the theorem is about. -/
theorem C44_made {q : Bool} {v v' : Val} {a a' : AVal} (hv : Made E U q c p v a) {k n : Nat} {os : List Op}
    (hh : History E (MadeIn E U k) c a os a') (hv' : runOps E (ops E n) os v = .ok v') : Made E U q c p v' a' := by
  obtain ⟨j, hv⟩ := hv
  have hm : MadeFrom E U (MadeIn E U (max j k)) q c p v a := by
    have : MadeIn E U (max j k + 1) q c p v a := madeIn_mono (by omega) hv
    exact this
  exact ⟨max j k + 1, history_made (history_mono (fun h => madeIn_mono (by omega) h) hh) hm hv'⟩

/-- `copy()` gives an instance with the same value that holds no child object of the original. -/
theorem C44_copy (hU : Universe E U) {q : Bool} {v : Val} {a : AVal} (hv : Made E U q c p v a) (hr : Ready E c a) (hw : Whole E c a) {n : Nat}
    (hn : a.depth + 3 ≤ n) :
    Works (copyVal (ops E n) v) ∧ ∀ w, copyVal (ops E n) v = .ok w → Detached w ∧ Made E U q c p w a := by
  obtain ⟨hg, h⟩ := made_rep hU hv
  refine ⟨copyVal_works (working_ops hU (N := a.depth + 1) (by omega)) hg h hr (by omega), fun w hx => ⟨copy_detached hx, ?_⟩⟩
  obtain ⟨j, hv⟩ := hv
  cases j with
  | zero => exact hv.elim
  | succ j => exact ⟨j + 1, .op hv (.copy hw) (n := n) hx⟩

end

/-! ### Where the library does not do what the property says -/

/-- `Outer.load(...)` with the list `[1]`. -/
def outerBytes : Bytes := [0x30, 8, 0x30, 3, 2, 1, 1, 2, 1, 6]

/-- `o = Outer.load(...); o['list'].append(2); o['list'].dump(); o.dump()` gives the bytes loaded. -/
theorem C44_nested_dump : ∃ v x v1 x1 b x2 v2, loadVal schemaEnv (ops schemaEnv 8) 5 {} outerBytes true = .ok v ∧
    getItem schemaEnv (ops schemaEnv 8) v 1 = .ok (x, v1) ∧ appendItem schemaEnv (ops schemaEnv 8) x (.scalar (.int 2)) = .ok x1 ∧
    (ops schemaEnv 8).dump x1 false = .ok (b, x2) ∧ b = [0x30, 6, 2, 1, 1, 2, 1, 2] ∧
    (ops schemaEnv 8).dump (putChild 1 x2 v1) false = .ok (outerBytes, v2) :=
  ⟨_, _, _, _, _, _, _, rfl, rfl, rfl, rfl, rfl, rfl⟩

/-- `o = Outer.load(...); o['list'].append(2); o['list'].native; o.dump()` gives the bytes loaded. -/
theorem C44_nested_native : ∃ v x v1 x1 x2 v2, loadVal schemaEnv (ops schemaEnv 8) 5 {} outerBytes true = .ok v ∧
    getItem schemaEnv (ops schemaEnv 8) v 1 = .ok (x, v1) ∧ appendItem schemaEnv (ops schemaEnv 8) x (.scalar (.int 2)) = .ok x1 ∧
    (ops schemaEnv 8).native x1 = .ok (.list [.scalar (.int 1), .scalar (.int 2)], x2) ∧
    (ops schemaEnv 8).dump (putChild 1 x2 v1) false = .ok (outerBytes, v2) :=
  ⟨_, _, _, _, _, _, rfl, rfl, rfl, rfl, rfl⟩

/-- `Names ::= CHOICE { list SEQUENCE OF INTEGER }`, `Holder ::= SEQUENCE { names Names }` -/
def holderEnv : Env where
  cls
    | 1 => .seqOf { cls := 0, method := 1, tag := 16 } [] false (some 0)
    | 2 => .choice [] none [⟨"list", 1, {}⟩]
    | 3 => .seq { cls := 0, method := 1, tag := 16 } [] false [⟨"names", 2, {}⟩] none
    | _ => .leaf intLeaf []
  universal _ := none

/-- The chosen alternative of an instance that has been parsed, replaced by its later state. -/
def putChosen (x : Val) : Val → Val
  | .choice c o alt _ => .choice c o alt (some x)
  | v => v

/-- `h = Holder.load(...); h['names'].chosen.append(2); h.dump()` gives the bytes loaded, although `h['names'].dump()` has the new
element. -/
theorem C44_in_choice : ∃ v w v1 x x1 b w' v2, loadVal holderEnv (ops holderEnv 8) 3 {} [0x30, 5, 0x30, 3, 2, 1, 1] true = .ok v ∧
    getItem holderEnv (ops holderEnv 8) v 0 = .ok (w, v1) ∧
    (∃ c o alt parsed, w = .choice c o alt parsed ∧ choiceParse holderEnv (ops holderEnv 8) c o alt parsed = .ok x) ∧
    appendItem holderEnv (ops holderEnv 8) x (.scalar (.int 2)) = .ok x1 ∧
    (ops holderEnv 8).dump (putChosen x1 w) false = .ok (b, w') ∧ b = [0x30, 6, 2, 1, 1, 2, 1, 2] ∧
    (ops holderEnv 8).dump (putChild 0 (putChosen x1 w) v1) false = .ok ([0x30, 5, 0x30, 3, 2, 1, 1], v2) :=
  ⟨_, _, _, _, _, _, _, _, rfl, rfl, ⟨_, _, _, _, rfl, rfl⟩, rfl, rfl, rfl, rfl⟩

/-- `n = Names.load(..., explicit=0); n.chosen.append(2); n.dump()`: the explicit tag keeps the length it was loaded with, and what is dumped does not load. -/
theorem C44_tagged_choice_fails : ∃ w x x1 b w', loadVal holderEnv (ops holderEnv 8) 2 { explicit := [(2, 0)] } [0xa0, 5, 0x30, 3, 2, 1, 1] true = .ok w ∧
    (∃ c o alt parsed, w = .choice c o alt parsed ∧ choiceParse holderEnv (ops holderEnv 8) c o alt parsed = .ok x) ∧
    appendItem holderEnv (ops holderEnv 8) x (.scalar (.int 2)) = .ok x1 ∧
    (ops holderEnv 8).dump (putChosen x1 w) false = .ok (b, w') ∧ b = [0xa0, 5, 0x30, 6, 2, 1, 1, 2, 1, 2] ∧
    loadVal holderEnv (ops holderEnv 8) 2 { explicit := [(2, 0)] } b = .error .valueError :=
  ⟨_, _, _, _, _, rfl, ⟨_, _, _, _, rfl, rfl⟩, rfl, rfl, rfl, rfl⟩

/-! ### A case that meets the hypotheses -/

/-- `o['list'].append(2); o.dump(); del o['list'][0]; o['pick'] = ('n', 7)` on the instance loaded above. -/
def nestedOps : List Op :=
  [.edit (.at 1 (.append (.scalar (.int 2)))), .dump false, .edit (.at 1 (.delElement 0)), .edit (.setField 3 (.pair "n" (.scalar (.int 7))))]

/-- The value of `Outer` with this list and this number. -/
def outerValue (ns : List Nat) (n : Nat) : AVal := .seq [.absent, .list (ns.map (fun n => .prim (.int n))), .absent, .alt 0 (.prim (.int n))]

theorem outer_whole (ns : List Nat) (n : Nat) : Whole schemaEnv 5 (outerValue ns n) :=
  (whole_complete (E := schemaEnv) (c := 5) rfl).mpr
    (.cons (fun _ => rfl) (.cons (fun h => by cases h) (.cons (fun _ => rfl) (.cons (fun h => by cases h) .nil))))

theorem pick_whole {n : Nat} : Whole schemaEnv 3 (.alt 0 (.prim (.int n))) := by
  simp only [Whole]
  exact fun _ _ _ _ _ _ => trivial

theorem outer_ready {ns : List Nat} {n : Nat} (h : ∀ m ∈ ns, m < 10) (hn : n < 10) : Ready schemaEnv 5 (outerValue ns n) := by
  refine (ready_seq (E := schemaEnv) (c := 5) rfl).mpr ⟨trivial, trivial, ints_ready h, trivial, trivial, trivial, ?_, pick_whole, trivial⟩
  simp only [Ready]
  intro e t alts f h1 h2
  cases h1
  cases h2
  exact int_ready hn

theorem nestedOps_history (V : Bool → ClassId → Params → Val → AVal → Prop) :
    History schemaEnv V 5 (outerValue [1] 6) nestedOps (outerValue [2] 7) := by
  have noChoice : ∀ {x}, AsElement schemaEnv 0 x := fun _ _ _ h => by cases h
  have no : ∀ {e : Edit}, (∃ force, Op.edit e = .dump force) → Whole schemaEnv 5 (outerValue [1, 2] 6) := fun h => by obtain ⟨_, h⟩ := h; cases h
  refine .cons (b := outerValue [1, 2] 6) (.edit (.atField rfl rfl rfl (.append (ch := 0) rfl (int_given V (n := 2) (by omega)) noChoice)))
    (outer_ready (by decide) (by omega)) no ?_
  refine .cons .dump (outer_ready (by decide) (by omega)) (fun _ => outer_whole _ _) ?_
  refine .cons (b := outerValue [2] 6) (.edit (.atField rfl rfl rfl (.delElement (ch := 0) rfl (by decide)))) (outer_ready (by decide) (by omega))
    (fun _ => outer_whole _ _) ?_
  refine .cons (b := outerValue [2] 7) (.edit (.setField rfl rfl (.given (fun h => by cases h) (.alt rfl rfl rfl (int_given V (n := 7) (by omega))) pick_whole)))
    (outer_ready (by decide) (by omega)) (fun _ => outer_whole _ _) .nil

/-- The instance loaded. -/
theorem outer_made : ∃ v, loadVal schemaEnv (ops schemaEnv 8) 5 {} outerBytes true = .ok v ∧
    Made schemaEnv (fun _ => True) false 5 {} v (outerValue [1] 6) := by
  obtain ⟨v, v', hv, hb⟩ : ∃ v v', (ops schemaEnv 8).construct 5 {} (.dict [("list", .list [.scalar (.int 1)]), ("pick", .pair "n" (.scalar (.int 6)))]) = .ok v ∧
    (ops schemaEnv 8).dump v false = .ok (outerBytes, v') := ⟨_, _, rfl, rfl⟩
  have hm : Made schemaEnv (fun _ => True) false 5 {} v (outerValue [1] 6) := by
    refine ⟨1, .constructed (goodUse_plain trivial) (.seq (proto := { cls := 0, method := 1, tag := 16 }) (bad := []) (fields := outerFields) rfl ?_
      ⟨_, List.mem_cons_of_mem _ List.mem_cons_self, by decide⟩ (by decide)) hv⟩
    exact .cons (.missing rfl) (.cons (.given (fun h => by cases h) (.list (ch := 0) rfl (.cons (int_given _ (n := 1) (by omega)) (fun _ _ _ h => by cases h) .nil))
      trivial) (.cons (.missing rfl) (.cons (.given (fun h => by cases h) (.alt rfl rfl rfl (int_given _ (n := 6) (by omega))) pick_whole) .nil)))
  obtain ⟨hg, hr⟩ := made_rep schema_universe hm
  obtain ⟨_, t, ht, hd, _⟩ := (sim_ops schema_universe 8).dump hg hr hb
  obtain ⟨w, _, h1, _⟩ := load_total (n := 8) (strict := true) schema_universe hg hd (by decide)
  rw [ht] at h1
  exact ⟨w, h1, 1, .loaded (rest := []) (n := 8) (strict := true) hg hd (fun h => by cases h) (by rw [List.append_nil, ht]; exact h1)⟩

/-- So the history works on it by `C44_history_partial`. -/
example : ∃ v n0, loadVal schemaEnv (ops schemaEnv 8) 5 {} outerBytes true = .ok v ∧
    ∀ n, n0 ≤ n → Works (runOps schemaEnv (ops schemaEnv n) nestedOps v) := by
  obtain ⟨v, h1, h2⟩ := outer_made
  obtain ⟨n0, h⟩ := C44_history_partial schema_universe h2 (nestedOps_history (MadeIn schemaEnv (fun _ => True) 0)) (outer_ready (by decide) (by omega)) (outer_whole _ _)
  exact ⟨v, n0, h1, fun n hn => (h n hn).1⟩

/-- What is written afterwards. -/
example : (do
    let v ← loadVal schemaEnv (ops schemaEnv 8) 5 {} outerBytes true
    let v ← runOps schemaEnv (ops schemaEnv 8) nestedOps v
    (ops schemaEnv 8).dump v false).map Prod.fst = .ok [0x30, 8, 0x30, 3, 2, 1, 2, 2, 1, 7] := by
  decide +kernel

/-- Its copy. -/
example : ∃ v, loadVal schemaEnv (ops schemaEnv 8) 5 {} outerBytes true = .ok v ∧ Works (copyVal (ops schemaEnv 8) v) := by
  obtain ⟨v, h1, h2⟩ := outer_made
  exact ⟨v, h1, (C44_copy schema_universe h2 (outer_ready (by decide) (by omega)) (outer_whole _ _) (by decide)).1⟩

end Asn1.Props
