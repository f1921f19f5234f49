import Verif.Lemmas.Choice
import Verif.Lemmas.SetOf
import Verif.Props.C45

/-!
# C21 — the fields of a SET may arrive in any order

`Elements` (Spec/Elements.lean): contents made of elements. `OuterTag`, `DistinctTags`, `PlainTag` (Spec/Choice.lean): the tags by which
fields are told apart. A child that has not been looked at yet is `Child.lazy` with the element it is built from.
-/

namespace Asn1.Props
open Asn1 Spec

/-- The child of the field `f` when the SET has the elements `is`: built from the element with the tag of the field; without such an
element nothing for an optional field and the DEFAULT otherwise. -/
inductive Assigned (E : Env) (r : Ops) (is : List Info) (f : Field) : Child → Prop
  | present {i : Info} : i ∈ is → OuterTag E f.spec f.params (i.cls, i.tag) → Assigned E r is f (.lazy i (some f.spec) none)
  | absent : (∀ i ∈ is, ¬ OuterTag E f.spec f.params (i.cls, i.tag)) → f.params.optional = true → Assigned E r is f (.val .void)
  | default {d : Val} : (∀ i ∈ is, ¬ OuterTag E f.spec f.params (i.cls, i.tag)) → f.params.optional = false → f.params.default.isSome = true →
      r.construct f.spec f.params (.scalar .none) = .ok d → Assigned E r is f (.val d)

/-- No two elements have the same tag. -/
def NoDuplicates (is : List Info) : Prop := (is.map (fun i => (i.cls, i.tag))).Nodup

/-- Every element has the tag of a field. -/
def Known (E : Env) (fields : List Field) (is : List Info) : Prop := ∀ i ∈ is, ∃ f ∈ fields, OuterTag E f.spec f.params (i.cls, i.tag)

/-- The slot of a field after the elements `is`: the last element with the tag of the field. -/
def slotOf (E : Env) (is : List Info) (f : Field) : Option Child :=
  (is.reverse.find? (fun i => fieldIdent E f == some (i.cls, i.tag))).map (fun i => .lazy i (some f.spec) none)

section
variable (E : Env) (r : Ops) (fields : List Field)

theorem setStep_known (hp : ∀ f ∈ fields, PlainTag E f) (hd : DistinctTags E fields) (is : List Info) (i : Info)
    (hk : ∃ f ∈ fields, OuterTag E f.spec f.params (i.cls, i.tag)) :
    setStep E fields (fields.map (slotOf E is)) i = .ok (fields.map (slotOf E (is ++ [i]))) := by
  obtain ⟨f, hf, ho⟩ := hk
  obtain ⟨k, hk⟩ := List.mem_iff_getElem?.mp hf
  simp only [setStep, find_alt hp hd hk ho]
  congr 1
  apply List.ext_getElem?
  intro m
  rw [List.getElem?_set]
  simp only [List.getElem?_map, List.length_map]
  by_cases hmk : k = m
  · subst hmk
    have hlt : k < fields.length := by
      rcases Nat.lt_or_ge k fields.length with h | h
      · exact h
      · rw [List.getElem?_eq_none h] at hk; cases hk
    rw [if_pos rfl, if_pos hlt, hk]
    simp only [Option.map_some, slotOf, List.reverse_append, List.reverse_cons, List.reverse_nil, List.nil_append, List.singleton_append, List.find?_cons,
      (fieldIdent_iff (hp f hf) _).mpr ho, beq_self_eq_true]
  · rw [if_neg hmk]
    cases hm : fields[m]? with
    | none => rfl
    | some g =>
      simp only [Option.map_some, slotOf, List.reverse_append, List.reverse_cons, List.reverse_nil, List.nil_append, List.singleton_append, List.find?_cons]
      have : (fieldIdent E g == some (i.cls, i.tag)) = false := by
        rw [beq_eq_false_iff_ne]
        intro hg
        exact hmk (hd k m f g _ hk hm ho ((fieldIdent_iff (hp g (List.mem_of_getElem? hm)) _).mp hg))
      rw [this]

theorem setFold_known (hp : ∀ f ∈ fields, PlainTag E f) (hd : DistinctTags E fields) : ∀ (is js : List Info), Known E fields js →
    js.foldlM (setStep E fields) (fields.map (slotOf E is)) = .ok (fields.map (slotOf E (is ++ js)))
  | is, [], _ => by simp; rfl
  | is, j :: js, hk => by
    rw [List.foldlM_cons, setStep_known E fields hp hd is j (hk j (by simp))]
    simp only [bind, Except.bind]
    rw [setFold_known hp hd (is ++ [j]) js (fun i hi => hk i (by simp [hi]))]
    simp

theorem setFold_unknown (hp : ∀ f ∈ fields, PlainTag E f) : ∀ (js : List Info) (s : List (Option Child)), ¬ Known E fields js →
    js.foldlM (setStep E fields) s = .error .valueError
  | [], s, hk => absurd (fun i hi => by cases hi) hk
  | j :: js, s, hk => by
    rw [List.foldlM_cons]
    by_cases hj : ∃ f ∈ fields, OuterTag E f.spec f.params (j.cls, j.tag)
    · have hjs : ¬ Known E fields js := by
        intro h
        apply hk
        intro i hi
        rcases List.mem_cons.mp hi with rfl | hi
        · exact hj
        · exact h i hi
      cases hs : setStep E fields s j with
      | error e =>
        simp only [setStep] at hs
        split at hs
        · rw [← hs]; rfl
        · cases hs
      | ok s' => exact setFold_unknown hp js s' hjs
    · have : setStep E fields s j = .error .valueError := by
        simp only [setStep, find_no_alt hp (fun f hf ho => hj ⟨f, hf, ho⟩)]
      rw [this]; rfl

/-- What `setFill` does for one field. -/
def fillOne (f : Field) (slot : Option Child) : Py Child :=
  match slot with
  | some c => .ok c
  | none =>
    if f.params.optional then .ok (.val .void)
    else if f.params.default.isSome then (r.construct f.spec f.params (.scalar .none)).map .val
    else .error .valueError

theorem setFill_eq (g : Field → Option Child) : ∀ fs : List Field, setFill r fs (fs.map g) = fs.mapM (fun f => fillOne r f (g f))
  | [] => rfl
  | f :: fs => by
    rw [List.map_cons, List.mapM_cons, ← setFill_eq g fs]
    cases hg : g f with
    | some c =>
      simp only [setFill, fillOne, bind, Except.bind]
      cases setFill r fs (fs.map g) <;> rfl
    | none =>
      simp only [setFill, fillOne, bind, Except.bind, List.tail_cons]
      split
      · cases setFill r fs (fs.map g) <;> rfl
      · split
        · cases r.construct f.spec f.params (.scalar .none) with
          | error e => rfl
          | ok d => simp only [Except.map]; cases setFill r fs (fs.map g) <;> rfl
        · rfl

theorem parseSet_elements (hp : ∀ f ∈ fields, PlainTag E f) (hd : DistinctTags E fields) {data : Bytes} {is : List Info}
    (he : Elements data (is.map Info.tlv)) (hk : Known E fields is) :
    parseSet E r fields (some data) = fields.mapM (fun f => fillOne r f (slotOf E is f)) := by
  have h0 : (fields.map (fun _ => none) : List (Option Child)) = fields.map (slotOf E []) := rfl
  have := setFold_known E fields hp hd [] is hk
  rw [List.nil_append] at this
  simp only [parseSet, setLoop_eq, h0]
  rw [elemLoop_elements _ data is _ 0 _ (by omega) (by omega) he, this]
  simp only [bind, Except.bind]
  exact setFill_eq r _ fields

theorem nodup_eq {is : List Info} (hn : NoDuplicates is) {i j : Info} (hi : i ∈ is) (hj : j ∈ is) (h : (i.cls, i.tag) = (j.cls, j.tag)) : i = j := by
  unfold NoDuplicates at hn
  induction is with
  | nil => cases hi
  | cons a is ih =>
    rw [List.map_cons, List.nodup_cons] at hn
    rcases List.mem_cons.mp hi with rfl | hi' <;> rcases List.mem_cons.mp hj with rfl | hj'
    · rfl
    · exact absurd (List.mem_map.mpr ⟨j, hj', h.symm⟩) hn.1
    · exact absurd (List.mem_map.mpr ⟨i, hi', h⟩) hn.1
    · exact ih hn.2 hi' hj'

theorem outerTag_unique {f : Field} (hf : PlainTag E f) {a b : Nat × Nat} (ha : OuterTag E f.spec f.params a) (hb : OuterTag E f.spec f.params b) : a = b := by
  have := ((fieldIdent_iff hf a).mpr ha).symm.trans ((fieldIdent_iff hf b).mpr hb)
  exact Option.some.inj this

theorem fillOne_iff {is : List Info} (hn : NoDuplicates is) {f : Field} (hf : PlainTag E f) (ch : Child) :
    fillOne r f (slotOf E is f) = .ok ch ↔ Assigned E r is f ch := by
  unfold slotOf
  cases hfi : is.reverse.find? (fun i => fieldIdent E f == some (i.cls, i.tag)) with
  | some i =>
    have h1 := List.mem_reverse.mp (List.mem_of_find?_eq_some hfi)
    have h2 := List.find?_some hfi
    simp only [beq_iff_eq] at h2
    have h2 := (fieldIdent_iff hf _).mp h2
    simp only [Option.map_some, fillOne]
    constructor
    · intro h; injection h with h; rw [← h]; exact .present h1 h2
    · intro h
      cases h with
      | @present j hj ho => rw [nodup_eq hn h1 hj (outerTag_unique E hf h2 ho)]
      | absent h => exact absurd h2 (h i h1)
      | default h => exact absurd h2 (h i h1)
  | none =>
    have hno : ∀ i ∈ is, ¬ OuterTag E f.spec f.params (i.cls, i.tag) := by
      intro i hi ho
      have := List.find?_eq_none.mp hfi i (List.mem_reverse.mpr hi)
      rw [(fieldIdent_iff hf _).mpr ho] at this
      simp at this
    simp only [Option.map_none, fillOne]
    constructor
    · intro h
      split at h
      · next ho => injection h with h; rw [← h]; exact .absent hno ho
      · next ho =>
        split at h
        · next hdf =>
          cases hc : r.construct f.spec f.params (.scalar .none) with
          | error e => rw [hc] at h; cases h
          | ok d => rw [hc] at h; injection h with h; rw [← h]; exact .default hno (by simpa using ho) hdf hc
        · cases h
    · intro h
      cases h with
      | present hj ho => exact absurd ho (hno _ hj)
      | absent _ ho => rw [if_pos ho]
      | default _ ho hdf hc => rw [if_neg (by rw [ho]; simp), if_pos hdf, hc]; rfl

theorem mapM_assigned {is : List Info} (hn : NoDuplicates is) : ∀ {fs : List Field}, (∀ f ∈ fs, PlainTag E f) → ∀ cs,
    fs.mapM (fun f => fillOne r f (slotOf E is f)) = .ok cs ↔ List.Forall₂ (Assigned E r is) fs cs
  | [], _, cs => by rw [mapM_forall₂]; constructor <;> (intro h; cases h; exact .nil)
  | f :: fs, hp, cs => by
    rw [mapM_forall₂]
    have ih := mapM_assigned hn (fs := fs) (fun g hg => hp g (by simp [hg]))
    constructor
    · intro h
      cases h with
      | cons h1 h2 => exact .cons ((fillOne_iff E r hn (hp f (by simp)) _).mp h1) ((ih _).mp (mapM_forall₂.mpr h2))
    · intro h
      cases h with
      | cons h1 h2 => exact .cons ((fillOne_iff E r hn (hp f (by simp)) _).mpr h1) (mapM_forall₂.mp ((ih _).mpr h2))

/-- The children of a SET are those assigned by the tags of its elements, whatever their order. -/
theorem C21_assign (hp : ∀ f ∈ fields, PlainTag E f) (hd : DistinctTags E fields) (data : Bytes) (is : List Info)
    (he : Elements data (is.map Info.tlv)) (hk : Known E fields is) (hn : NoDuplicates is) (cs : List Child) :
    parseSet E r fields (some data) = .ok cs ↔ List.Forall₂ (Assigned E r is) fields cs := by
  rw [parseSet_elements E r fields hp hd he hk, mapM_assigned E r hn hp]

/-- Any permutation of the elements gives the same children, or fails alike. -/
theorem parseSet_perm (hp : ∀ f ∈ fields, PlainTag E f) (hd : DistinctTags E fields) (data data' : Bytes) (is is' : List Info)
    (he : Elements data (is.map Info.tlv)) (he' : Elements data' (is'.map Info.tlv)) (hperm : is.Perm is') (hn : NoDuplicates is) :
    parseSet E r fields (some data) = parseSet E r fields (some data') := by
  by_cases hk : Known E fields is
  · have hk' : Known E fields is' := fun i hi => hk i (hperm.mem_iff.mpr hi)
    rw [parseSet_elements E r fields hp hd he hk, parseSet_elements E r fields hp hd he' hk']
    have : ∀ f, slotOf E is f = slotOf E is' f := by
      intro f
      unfold slotOf
      congr 1
      cases h1 : is.reverse.find? (fun i => fieldIdent E f == some (i.cls, i.tag)) with
      | none =>
        symm
        rw [List.find?_eq_none] at h1 ⊢
        exact fun i hi => h1 i (List.mem_reverse.mpr (hperm.mem_iff.mpr (List.mem_reverse.mp hi)))
      | some i =>
        have hi := List.mem_reverse.mp (List.mem_of_find?_eq_some h1)
        have hfi := List.find?_some h1
        cases h2 : is'.reverse.find? (fun i => fieldIdent E f == some (i.cls, i.tag)) with
        | none =>
          rw [List.find?_eq_none] at h2
          exact absurd hfi (h2 i (List.mem_reverse.mpr (hperm.mem_iff.mp hi)))
        | some j =>
          have hj := hperm.mem_iff.mpr (List.mem_reverse.mp (List.mem_of_find?_eq_some h2))
          have hfj := List.find?_some h2
          simp only [beq_iff_eq] at hfi hfj
          rw [nodup_eq hn hi hj (Option.some.inj (hfi.symm.trans hfj))]
    simp only [this]
  · have hk' : ¬ Known E fields is' := fun h => hk (fun i hi => h i (hperm.mem_iff.mp hi))
    simp only [parseSet, setLoop_eq]
    rw [elemLoop_elements _ data is _ 0 _ (by omega) (by omega) he, elemLoop_elements _ data' is' _ 0 _ (by omega) (by omega) he',
      setFold_unknown E fields hp is _ hk, setFold_unknown E fields hp is' _ hk']

/-- Every access to a loaded SET gives the same whatever the order of the elements: items, length and native value. -/
theorem C21_order (c : ClassId) (proto : Obj Unit) (bad : List Nat) (oid : Option OidPair) (hE : E.cls c = .seq proto bad true fields oid)
    (hp : ∀ f ∈ fields, PlainTag E f) (hd : DistinctTags E fields) (o o' : Obj Unit) (data data' : Bytes) (ho : o.contents = some data)
    (ho' : o'.contents = some data') (is is' : List Info) (he : Elements data (is.map Info.tlv)) (he' : Elements data' (is'.map Info.tlv))
    (hperm : is.Perm is') (hn : NoDuplicates is) :
    (∀ k, (getItem E r (.node c o none false) k).map Prod.fst = (getItem E r (.node c o' none false) k).map Prod.fst) ∧
    (lenOf E r (.node c o none false)).map Prod.fst = (lenOf E r (.node c o' none false)).map Prod.fst ∧
    (nativeStep E r (.node c o none false)).map Prod.fst = (nativeStep E r (.node c o' none false)).map Prod.fst := by
  have hens : ensureChildren E r c o none = ensureChildren E r c o' none := by
    simp only [ensureChildren, parseChildren, hE, ho, ho']
    exact parseSet_perm E r fields hp hd data data' is is' he he' hperm hn
  refine ⟨?_, ?_, ?_⟩
  · intro k
    simp only [getItem, hens, hE, bind, Except.bind]
    cases ensureChildren E r c o' none with
    | error e => rfl
    | ok cs =>
      simp only
      cases cs[k]? with
      | none => rfl
      | some ch =>
        simp only
        cases buildChild r (paramsAt fields k) ch <;> rfl
  · simp only [lenOf, hens, bind, Except.bind]
    cases ensureChildren E r c o' none <;> rfl
  · simp only [nativeStep, nodeNative, nodeContents, hens, hE, bind, Except.bind, ho, ho']
    cases ensureChildren E r c o' none with
    | error e => rfl
    | ok cs =>
      simp only
      cases nativeFields r fields 0 cs <;> rfl

/-- An element that belongs to no field is a `ValueError`. -/
theorem C21_unknown (hp : ∀ f ∈ fields, PlainTag E f) (data : Bytes) (is : List Info) (he : Elements data (is.map Info.tlv))
    (i : Info) (hi : i ∈ is) (hu : ∀ f ∈ fields, ¬ OuterTag E f.spec f.params (i.cls, i.tag)) :
    parseSet E r fields (some data) = .error .valueError := by
  have hk : ¬ Known E fields is := by
    intro h
    obtain ⟨f, hf, ho⟩ := h i hi
    exact hu f hf ho
  simp only [parseSet, setLoop_eq]
  rw [elemLoop_elements _ data is _ 0 _ (by omega) (by omega) he, setFold_unknown E fields hp is _ hk]
  rfl

/-- A required field without element is a `ValueError` (if the DEFAULTs of other fields can be made). -/
theorem C21_missing (hp : ∀ f ∈ fields, PlainTag E f) (hd : DistinctTags E fields) (data : Bytes) (is : List Info) (he : Elements data (is.map Info.tlv))
    (f : Field) (hf : f ∈ fields) (hreq : f.params.optional = false ∧ f.params.default = none)
    (hm : ∀ i ∈ is, ¬ OuterTag E f.spec f.params (i.cls, i.tag))
    (hdef : ∀ g ∈ fields, g.params.default.isSome = true → ∃ d, r.construct g.spec g.params (.scalar .none) = .ok d) :
    parseSet E r fields (some data) = .error .valueError := by
  by_cases hk : Known E fields is
  · rw [parseSet_elements E r fields hp hd he hk]
    have hnone : slotOf E is f = none := by
      unfold slotOf
      rw [Option.map_eq_none_iff, List.find?_eq_none]
      intro i hi h
      simp only [beq_iff_eq] at h
      exact hm i (List.mem_reverse.mp hi) ((fieldIdent_iff (hp f hf) _).mp h)
    have hbad : fillOne r f (slotOf E is f) = .error .valueError := by
      rw [hnone]
      simp [fillOne, hreq.1, hreq.2]
    have herr : ∀ g ∈ fields, ∀ e, fillOne r g (slotOf E is g) = .error e → e = .valueError := by
      intro g hg e h
      unfold fillOne at h
      split at h
      · cases h
      · split at h
        · cases h
        · split at h
          · next hs => obtain ⟨d, hc⟩ := hdef g hg hs; rw [hc] at h; cases h
          · injection h with h; exact h.symm
    clear he hk hdef hd hp hm
    induction fields with
    | nil => cases hf
    | cons g gs ih =>
      rw [List.mapM_cons]
      cases hg : fillOne r g (slotOf E is g) with
      | error e => rw [herr g (by simp) e hg]; rfl
      | ok ch =>
        rcases List.mem_cons.mp hf with rfl | hf'
        · rw [hbad] at hg; cases hg
        · simp only [bind, Except.bind]
          rw [ih hf' (fun g hg => herr g (by simp [hg]))]
  · simp only [parseSet, setLoop_eq]
    rw [elemLoop_elements _ data is _ 0 _ (by omega) (by omega) he, setFold_unknown E fields hp is _ hk]
    rfl

/-- Two elements with the tag of the same field are accepted: the last one counts, the other is dropped. Stated for every SET: the
contents with a further element `i` before the others load as if it was not there, when one of the others has its tag. -/
theorem C21_duplicate_fails (hp : ∀ f ∈ fields, PlainTag E f) (hd : DistinctTags E fields) (data : Bytes) (is : List Info) (i j : Info)
    (he : Elements data (is.map Info.tlv)) (hk : Known E fields is) (hj : j ∈ is) (hi : Ber 11 i.tlv) (ht : (i.cls, i.tag) = (j.cls, j.tag)) :
    parseSet E r fields (some (i.tlv.bytes ++ data)) = parseSet E r fields (some data) := by
  have he' : Elements (i.tlv.bytes ++ data) ((i :: is).map Info.tlv) := by
    refine ⟨by rw [he.1]; simp, ?_⟩
    intro v hv
    rw [List.map_cons] at hv
    rcases List.mem_cons.mp hv with rfl | hv
    · exact hi
    · exact he.2 v hv
  have hk' : Known E fields (i :: is) := by
    intro x hx
    rcases List.mem_cons.mp hx with rfl | hx
    · rw [ht]; exact hk j hj
    · exact hk x hx
  rw [parseSet_elements E r fields hp hd he hk, parseSet_elements E r fields hp hd he' hk']
  have : ∀ f, slotOf E (i :: is) f = slotOf E is f := by
    intro f
    unfold slotOf
    congr 1
    rw [List.reverse_cons, List.find?_append]
    cases hf : is.reverse.find? (fun i => fieldIdent E f == some (i.cls, i.tag)) with
    | some x => rfl
    | none =>
      have := List.find?_eq_none.mp hf j (List.mem_reverse.mpr hj)
      simp only [Option.none_or, List.find?_cons, List.find?_nil]
      rw [ht]
      simp only [Bool.not_eq_true] at this
      rw [this]
  simp only [this]

end

/-! ### Witnesses -/

/-- Class 0 is INTEGER, 1 BOOLEAN, 2 a SET of an INTEGER, an optional BOOLEAN and a [0] INTEGER with DEFAULT 7. -/
def setEnv : Env where
  cls
    | 1 => .leaf (.boolean { cls := 0, method := 0, tag := 1 }) []
    | 2 => .seq { cls := 0, method := 1, tag := 17 } [] true
        [⟨"n", 0, {}⟩, ⟨"b", 1, { optional := true }⟩, ⟨"d", 0, { implicit := some (2, 0), default := some (.scalar (.int 7)) }⟩] none
    | _ => .leaf (.integer none { cls := 0, method := 0, tag := 2 }) []
  universal _ := none

/-- The integer in field `k` of the loaded SET. -/
def setItem (k : Nat) (data : Bytes) : Py Scalar := do
  let v ← loadVal setEnv (ops setEnv 5) 2 {} data
  let (x, _) ← getItem setEnv (ops setEnv 5) v k
  match ← (ops setEnv 5).native x with
  | (.scalar s, _) => .ok s
  | _ => .error .typeError

/-- Two INTEGERs for one field: the second counts. -/
theorem C21_duplicate_witness : setItem 0 [0x31, 6, 2, 1, 5, 2, 1, 6] = .ok (.int 6) := by decide +kernel

/-- A loaded SET in which one field is changed cannot be dumped: the other fields, not looked at, have no `dump`. -/
theorem C21_changed_dump_fails :
    (do let v ← loadVal setEnv (ops setEnv 5) 2 {} [0x31, 6, 1, 1, 0, 2, 1, 5]
        let v ← setField setEnv (ops setEnv 5) v 0 (.scalar (.int 9))
        let (b, _) ← (ops setEnv 5).dump v false
        .ok b) = (.error .attributeError : Py Bytes) := by decide +kernel

example : setItem 0 [0x31, 6, 2, 1, 5, 1, 1, 0] = .ok (.int 5) ∧ setItem 0 [0x31, 6, 1, 1, 0, 2, 1, 5] = .ok (.int 5) ∧
    setItem 2 [0x31, 6, 1, 1, 0, 2, 1, 5] = .ok (.int 7) ∧ setItem 2 [0x31, 6, 0x80, 1, 3, 2, 1, 5] = .ok (.int 3) ∧
    setItem 0 [0x31, 3, 1, 1, 0] = .error .valueError ∧ setItem 0 [0x31, 6, 4, 1, 0, 2, 1, 5] = .error .valueError := by decide +kernel

theorem setEnv_tags {f : Field} (hf : f ∈ [(⟨"n", 0, {}⟩ : Field), ⟨"b", 1, { optional := true }⟩,
    ⟨"d", 0, { implicit := some (2, 0), default := some (.scalar (.int 7)) }⟩]) : PlainTag setEnv f := by
  simp only [List.mem_cons, List.not_mem_nil, or_false] at hf
  rcases hf with rfl | rfl | rfl <;> exact ⟨rfl, .inr ⟨trivial, rfl⟩⟩

/-- The hypotheses hold of the fields of class 2 and the elements of the examples. -/
example : ∃ fields, setEnv.cls 2 = .seq { cls := 0, method := 1, tag := 17 } [] true fields none ∧ (∀ f ∈ fields, PlainTag setEnv f) ∧
    DistinctTags setEnv fields ∧ ∃ is : List Info, Elements [1, 1, 0, 2, 1, 5] (is.map Info.tlv) ∧ Known setEnv fields is ∧ NoDuplicates is := by
  refine ⟨_, rfl, fun f hf => setEnv_tags hf, ?_, [⟨0, 0, 1, [1, 1], [0], []⟩, ⟨0, 0, 2, [2, 1], [5], []⟩], ⟨rfl, ?_⟩, ?_, ?_⟩
  · intro j k f g id hj hk h1 h2
    have h1 := (fieldIdent_iff (setEnv_tags (List.mem_of_getElem? hj)) id).mpr h1
    have h2 := (fieldIdent_iff (setEnv_tags (List.mem_of_getElem? hk)) id).mpr h2
    rcases j with _ | _ | _ | j <;> rcases k with _ | _ | _ | k <;>
      first
      | rfl
      | (simp at hj; done)
      | (simp at hk; done)
      | (exfalso
         simp only [List.getElem?_cons_zero, List.getElem?_cons_succ, Option.some.injEq, Nat.zero_add] at hj hk
         subst hj; subst hk
         have := h1.trans h2.symm
         exact absurd this (by decide))
  · intro v hv
    simp only [List.map_cons, List.map_nil, List.mem_cons, List.not_mem_nil, or_false] at hv
    rcases hv with rfl | rfl
    · exact Ber.definite (id := [1]) (len := [1]) ⟨by decide, by decide, .inl ⟨by decide, rfl⟩⟩ (.inl ⟨by decide, rfl⟩)
    · exact Ber.definite (id := [2]) (len := [1]) ⟨by decide, by decide, .inl ⟨by decide, rfl⟩⟩ (.inl ⟨by decide, rfl⟩)
  · intro i hi
    simp only [List.mem_cons, List.not_mem_nil, or_false] at hi
    rcases hi with rfl | rfl
    · exact ⟨⟨"b", 1, { optional := true }⟩, by simp, .own (E := setEnv) (c := 1) (p := { optional := true }) rfl trivial rfl⟩
    · exact ⟨⟨"n", 0, {}⟩, by simp, .own (E := setEnv) (c := 0) (p := {}) rfl trivial rfl⟩
  · unfold NoDuplicates; decide

end Asn1.Props
