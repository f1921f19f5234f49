import Verif.Model.Core

/-! # Operations that give up earlier -/

namespace Asn1

/-- What the first gives, the second gives. -/
structure PyLe {α : Type} (x y : Py α) : Prop where
  of : ∀ a, x = .ok a → y = .ok a

theorem PyLe.refl {α : Type} (x : Py α) : PyLe x x := ⟨fun _ h => h⟩
theorem PyLe.error {α : Type} (e : PyErr) (y : Py α) : PyLe (.error e) y := ⟨fun _ h => by cases h⟩

theorem PyLe.bind {α β : Type} {x y : Py α} {f g : α → Py β} (h : PyLe x y) (h' : ∀ a, PyLe (f a) (g a)) : PyLe (x >>= f) (y >>= g) := by
  refine ⟨fun b hb => ?_⟩
  cases hx : x with
  | error e => rw [hx] at hb; cases hb
  | ok a =>
    rw [hx] at hb
    rw [h.of a hx]
    exact (h' a).of b hb

theorem PyLe.ite {α : Type} {p : Prop} [Decidable p] {x y x' y' : Py α} (h : PyLe x x') (h' : PyLe y y') :
    PyLe (if p then x else y) (if p then x' else y') := by
  split
  · exact h
  · exact h'

/-- What the first operations give, the second give. -/
structure OpsLe (r s : Ops) : Prop where
  dump : ∀ v f, PyLe (r.dump v f) (s.dump v f)
  native : ∀ v, PyLe (r.native v) (s.native v)
  contents : ∀ v, PyLe (r.contents v) (s.contents v)
  build : ∀ i c p n, PyLe (r.build i c p n) (s.build i c p n)
  construct : ∀ c p x, PyLe (r.construct c p x) (s.construct c p x)
  copyTo : ∀ v c t i e, PyLe (r.copyTo v c t i e) (s.copyTo v c t i e)
  item : ∀ v k, PyLe (r.item v k) (s.item v k)

section
variable {E : Env} {r s : Ops} (hr : OpsLe r s)
include hr

syntax "le_go" ("[" term,* "]")? : tactic
macro_rules
  | `(tactic| le_go) => `(tactic| le_go [])
  | `(tactic| le_go [$ts,*]) => do
    let alts ← ts.getElems.mapM fun t => `(tactic| with_reducible apply $t)
    let own ← alts.foldrM (fun a b => `(tactic| first | $a:tactic | $b:tactic)) (← `(tactic| fail))
    `(tactic| repeat' (first
      | with_reducible exact PyLe.refl _
      | with_reducible exact PyLe.error _ _
      | with_reducible exact OpsLe.dump (by assumption) _ _
      | with_reducible exact OpsLe.native (by assumption) _
      | with_reducible exact OpsLe.contents (by assumption) _
      | with_reducible exact OpsLe.build (by assumption) _ _ _ _
      | with_reducible exact OpsLe.construct (by assumption) _ _ _
      | with_reducible exact OpsLe.copyTo (by assumption) _ _ _ _ _
      | with_reducible exact OpsLe.item (by assumption) _ _
      | $own:tactic
      | with_reducible apply PyLe.bind
      | with_reducible apply PyLe.ite
      | intro _
      | split))

theorem parseBuild_le (data : Bytes) (spec : Option ClassId) (p : Params) : PyLe (parseBuild r data spec p) (parseBuild s data spec p) := by
  unfold parseBuild
  le_go

theorem buildChild_le (p : Params) (ch : Child) : PyLe (buildChild r p ch) (buildChild s p ch) := by
  unfold buildChild
  le_go

theorem decisive_le (sub : Option Nat) (v : Val) : PyLe (decisive r sub v) (decisive s sub v) := by
  unfold decisive
  le_go

theorem oidOverride_le (fields : List Field) (oid : Option OidPair) (idx : Nat) (cs : List Child) :
    PyLe (oidOverride r fields oid idx cs) (oidOverride s fields oid idx cs) := by
  unfold oidOverride
  le_go [buildChild_le hr, decisive_le hr]

theorem placeElement_le (all : List Field) (oid : Option OidPair) (i : Info) (fs : List Field) (cs : List Child) :
    PyLe (placeElement E r all oid i fs cs) (placeElement E s all oid i fs cs) := by
  induction fs generalizing cs with
  | nil => exact PyLe.refl _
  | cons f fs ih =>
    unfold placeElement
    le_go [oidOverride_le hr, ih]

theorem seqLoop_le (all : List Field) (oid : Option OidPair) (data : Bytes) (n p : Nat) (fs : List Field) (cs : List Child) :
    PyLe (seqLoop E r all oid data n p fs cs) (seqLoop E s all oid data n p fs cs) := by
  induction n generalizing p fs cs with
  | zero => exact PyLe.refl _
  | succ n ih =>
    unfold seqLoop
    le_go [placeElement_le hr, ih]

theorem fillAbsent_le (fs : List Field) (cs : List Child) : PyLe (fillAbsent r fs cs) (fillAbsent s fs cs) := by
  induction fs generalizing cs with
  | nil => exact PyLe.refl _
  | cons f fs ih =>
    unfold fillAbsent
    le_go [ih]

theorem retag_le (v : Val) (e : List (Nat × Nat)) (i : Option (Nat × Nat)) : PyLe (retag E r v e i) (retag E s v e i) := by
  unfold retag
  le_go

theorem copyVal_le (v : Val) : PyLe (copyVal r v) (copyVal s v) := by
  unfold copyVal
  le_go

theorem fixTags_le (v : Val) (e : List (Nat × Nat)) (i : Option (Nat × Nat)) (b : Bool) : PyLe (fixTags E r v e i b) (fixTags E s v e i b) := by
  unfold fixTags
  le_go [retag_le hr]

theorem fixTagging_le (v : Val) (p : Params) : PyLe (fixTagging E r v p) (fixTagging E s v p) := fixTags_le hr _ _ _ _

theorem anyParse_le (c : ClassId) (o : Obj Unit) (parsed : Option Val) (pspec spec : Option ClassId) :
    PyLe (anyParse r c o parsed pspec spec) (anyParse s c o parsed pspec spec) := by
  unfold anyParse
  le_go [parseBuild_le hr]

theorem parsableParse_le (c : ClassId) (o : Obj Bytes) (parsed : Option Val) (pspec spec : Option ClassId) :
    PyLe (parsableParse E r c o parsed pspec spec) (parsableParse E s c o parsed pspec spec) := by
  unfold parsableParse
  le_go [parseBuild_le hr]

theorem parseAs_le (v : Val) (spec : Option ClassId) : PyLe (parseAs E r v spec) (parseAs E s v spec) := by
  unfold parseAs
  le_go [anyParse_le hr, parsableParse_le hr]

theorem parsedOf_le (v : Val) : PyLe (parsedOf E r v) (parsedOf E s v) := by
  unfold parsedOf
  le_go [parseAs_le hr]

theorem wrapChoice_le (c : ClassId) (v : Val) : PyLe (wrapChoice E r c v) (wrapChoice E s c v) := by
  unfold wrapChoice
  le_go

theorem embedPayload_le (c : ClassId) (p : Params) (v : Val) : PyLe (embedPayload r c p v) (embedPayload s c p v) := by
  unfold embedPayload
  le_go

theorem makeRaw_le (f c : ClassId) (p : Params) (x : PyVal) : PyLe (makeRaw E r f c p x) (makeRaw E s f c p x) := by
  unfold makeRaw
  le_go [wrapChoice_le hr, parseAs_le hr, embedPayload_le hr]

theorem makeValue_le (f c : ClassId) (p : Params) (x : PyVal) : PyLe (makeValue E r f c p x) (makeValue E s f c p x) := by
  unfold makeValue
  le_go [makeRaw_le hr, fixTagging_le hr]

theorem freshChildren_le (all : List Field) (oid : Option OidPair) (fs : List Field) (k : Nat) (cs : List Child) :
    PyLe (freshChildren E r all oid fs k cs) (freshChildren E s all oid fs k cs) := by
  induction fs generalizing k cs with
  | nil => exact PyLe.refl _
  | cons f fs ih =>
    unfold freshChildren
    le_go [oidOverride_le hr, makeValue_le hr, ih]

theorem parseSeq_le (fs : List Field) (oid : Option OidPair) (b : Option Bytes) : PyLe (parseSeq E r fs oid b) (parseSeq E s fs oid b) := by
  unfold parseSeq
  le_go [freshChildren_le hr, seqLoop_le hr, fillAbsent_le hr]

omit hr in
theorem setLoop_le (fs : List Field) (data : Bytes) (n p : Nat) (sl : List (Option Child)) :
    PyLe (setLoop E r fs data n p sl) (setLoop E s fs data n p sl) := by
  induction n generalizing p sl with
  | zero => exact PyLe.refl _
  | succ n ih =>
    unfold setLoop
    le_go [ih]

theorem setFill_le (fs : List Field) (sl : List (Option Child)) : PyLe (setFill r fs sl) (setFill s fs sl) := by
  induction fs generalizing sl with
  | nil => exact PyLe.refl _
  | cons f fs ih =>
    rcases sl with _ | ⟨_ | c, sl⟩ <;> simp only [setFill] <;> le_go [ih]

theorem parseSet_le (fs : List Field) (b : Option Bytes) : PyLe (parseSet E r fs b) (parseSet E s fs b) := by
  unfold parseSet
  le_go [freshChildren_le hr, setLoop_le, setFill_le hr]

theorem parseChildren_le (c : ClassId) (b : Option Bytes) : PyLe (parseChildren E r c b) (parseChildren E s c b) := by
  unfold parseChildren
  le_go [parseSeq_le hr, parseSet_le hr]

theorem ensureChildren_le (c : ClassId) (o : Obj Unit) (cs : Option (List Child)) : PyLe (ensureChildren E r c o cs) (ensureChildren E s c o cs) := by
  unfold ensureChildren
  le_go [parseChildren_le hr]

theorem fieldEncoding_le (force : Bool) (f : Field) (ch : Child) : PyLe (fieldEncoding r force f ch) (fieldEncoding s force f ch) := by
  unfold fieldEncoding
  le_go

theorem encodeFields_le (force : Bool) (fs : List Field) (cs : List Child) : PyLe (encodeFields r force fs cs) (encodeFields s force fs cs) := by
  induction fs generalizing cs with
  | nil => exact PyLe.refl _
  | cons f fs ih =>
    cases cs with
    | nil => exact PyLe.refl _
    | cons ch cs =>
      unfold encodeFields
      le_go [fieldEncoding_le hr, ih]

theorem encodeSetFields_le (force : Bool) (fs : List Field) (cs : List Child) :
    PyLe (encodeSetFields r force fs cs) (encodeSetFields s force fs cs) := by
  induction cs generalizing fs with
  | nil => unfold encodeSetFields; exact PyLe.refl _
  | cons ch cs ih =>
    cases fs with
    | nil => unfold encodeSetFields; exact PyLe.refl _
    | cons f fs =>
      cases ch with
      | lazy => exact PyLe.refl _
      | val v =>
        unfold encodeSetFields
        le_go [ih]

theorem encodeElements_le (force : Bool) (cs : List Child) : PyLe (encodeElements r force cs) (encodeElements s force cs) := by
  induction cs with
  | nil => exact PyLe.refl _
  | cons ch cs ih =>
    unfold encodeElements
    le_go [buildChild_le hr, ih]

theorem encodeChildren_le (c : ClassId) (force : Bool) (cs : List Child) : PyLe (encodeChildren E r c force cs) (encodeChildren E s c force cs) := by
  unfold encodeChildren
  le_go [encodeFields_le hr, encodeSetFields_le hr, encodeElements_le hr]

theorem setContents_le (c : ClassId) (o : Obj Unit) (cs : Option (List Child)) (force : Bool) :
    PyLe (setContents E r c o cs force) (setContents E s c o cs force) := by
  unfold setContents
  le_go [ensureChildren_le hr, encodeChildren_le hr]

theorem nodeContents_le (c : ClassId) (o : Obj Unit) (cs : Option (List Child)) (m : Bool) :
    PyLe (nodeContents E r c o cs m) (nodeContents E s c o cs m) := by
  unfold nodeContents
  le_go [setContents_le hr]

theorem nodeDump_le (c : ClassId) (o : Obj Unit) (cs : Option (List Child)) (m force : Bool) :
    PyLe (nodeDump E r c o cs m force) (nodeDump E s c o cs m force) := by
  unfold nodeDump
  le_go [setContents_le hr, nodeContents_le hr]

theorem choiceParse_le (c : ClassId) (o : Obj Unit) (alt : Option Nat) (parsed : Option Val) :
    PyLe (choiceParse E r c o alt parsed) (choiceParse E s c o alt parsed) := by
  unfold choiceParse
  le_go [parseBuild_le hr]

theorem choiceDump_le (c : ClassId) (o : Obj Unit) (alt : Option Nat) (parsed : Option Val) (force : Bool) :
    PyLe (choiceDump E r c o alt parsed force) (choiceDump E s c o alt parsed force) := by
  unfold choiceDump
  le_go [choiceParse_le hr]

theorem parsableDump_le (c : ClassId) (o : Obj Bytes) (parsed : Option Val) (pspec : Option ClassId) (force : Bool) :
    PyLe (parsableDump E r c o parsed pspec force) (parsableDump E s c o parsed pspec force) := by
  unfold parsableDump
  le_go

theorem dumpStep_le (v : Val) (force : Bool) : PyLe (dumpStep E r v force) (dumpStep E s v force) := by
  unfold dumpStep
  le_go [nodeDump_le hr, choiceDump_le hr, anyParse_le hr, parsableDump_le hr]

theorem nativeFields_le (all : List Field) (k : Nat) (cs : List Child) : PyLe (nativeFields r all k cs) (nativeFields s all k cs) := by
  induction cs generalizing k with
  | nil => exact PyLe.refl _
  | cons ch cs ih =>
    unfold nativeFields
    le_go [buildChild_le hr, ih]

theorem nativeElements_le (cs : List Child) : PyLe (nativeElements r cs) (nativeElements s cs) := by
  induction cs with
  | nil => exact PyLe.refl _
  | cons ch cs ih =>
    unfold nativeElements
    le_go [buildChild_le hr, ih]

theorem nodeNative_le (c : ClassId) (o : Obj Unit) (cs : Option (List Child)) (m : Bool) :
    PyLe (nodeNative E r c o cs m) (nodeNative E s c o cs m) := by
  unfold nodeNative
  le_go [nodeContents_le hr, ensureChildren_le hr, nativeFields_le hr, nativeElements_le hr]

theorem nativeStep_le (v : Val) : PyLe (nativeStep E r v) (nativeStep E s v) := by
  unfold nativeStep
  le_go [nodeNative_le hr, choiceParse_le hr, anyParse_le hr]

theorem contentsStep_le (v : Val) : PyLe (contentsStep E r v) (contentsStep E s v) := by
  unfold contentsStep
  le_go [nodeContents_le hr]

theorem getItem_le (v : Val) (k : Nat) : PyLe (getItem E r v k) (getItem E s v k) := by
  unfold getItem
  le_go [ensureChildren_le hr, buildChild_le hr]

theorem assignedContents_le (v : Val) : PyLe (assignedContents E r v) (assignedContents E s v) := by
  unfold assignedContents
  le_go [parsedOf_le hr]

theorem setField_le (v : Val) (k : Nat) (x : PyVal) : PyLe (setField E r v k x) (setField E s v k x) := by
  unfold setField
  le_go [ensureChildren_le hr, oidOverride_le hr, makeValue_le hr, assignedContents_le hr]

theorem fixElement_le (c : ClassId) (v : Val) : PyLe (fixElement E r c v) (fixElement E s c v) := by
  unfold fixElement
  le_go [fixTags_le hr]

theorem makeElement_le (c : ClassId) (x : PyVal) : PyLe (makeElement E r c x) (makeElement E s c x) := by
  unfold makeElement
  le_go [fixElement_le hr, wrapChoice_le hr]

theorem setElement_le (v : Val) (k : Nat) (x : PyVal) : PyLe (setElement E r v k x) (setElement E s v k x) := by
  unfold setElement
  le_go [ensureChildren_le hr, makeElement_le hr]

theorem lenOf_le (v : Val) : PyLe (lenOf E r v) (lenOf E s v) := by
  unfold lenOf
  le_go [ensureChildren_le hr]

theorem setFromDict_le (d : List (String × PyVal)) (b : Bool) (fs : List Field) (k : Nat) (v : Val) :
    PyLe (setFromDict E r d b fs k v) (setFromDict E s d b fs k v) := by
  induction fs generalizing k v with
  | nil => exact PyLe.refl _
  | cons f fs ih =>
    unfold setFromDict
    le_go [setField_le hr, ih]

theorem seqInit_le (fs : List Field) (v : Val) (x : PyVal) (b : Bool) : PyLe (seqInit E r fs v x b) (seqInit E s fs v x b) := by
  unfold seqInit
  le_go [setFromDict_le hr]

theorem setFromList_le (xs : List PyVal) (k : Nat) (v : Val) : PyLe (setFromList E r xs k v) (setFromList E s xs k v) := by
  induction xs generalizing k v with
  | nil => exact PyLe.refl _
  | cons x xs ih =>
    unfold setFromList
    le_go [setElement_le hr, ih]

theorem constructStep_le (c : ClassId) (p : Params) (x : PyVal) : PyLe (constructStep E r c p x) (constructStep E s c p x) := by
  unfold constructStep
  dsimp only
  le_go [seqInit_le hr, setFromList_le hr, contentsStep_le hr, setContents_le hr, fixTagging_le hr]

theorem buildChoiceBase_le (c : ClassId) (i : Info) : PyLe (buildChoiceBase E r c i) (buildChoiceBase E s c i) := by
  unfold buildChoiceBase
  le_go [parseBuild_le hr]

theorem buildChoice_le (c : ClassId) (e : List (Nat × Nat)) (i : Info) : PyLe (buildChoice E r c e i) (buildChoice E s c e i) := by
  unfold buildChoice
  le_go [buildChoiceBase_le hr]

theorem defaultFill_le (fs : List Field) (v : Val) (d : PyVal) : PyLe (defaultFill E r fs v d) (defaultFill E s fs v d) := by
  unfold defaultFill
  le_go [ensureChildren_le hr, seqInit_le hr]

theorem defaultCheck_le (c : ClassId) (p : Params) (e : List (Nat × Nat)) : PyLe (defaultCheck E r c p e) (defaultCheck E s c p e) := by
  unfold defaultCheck
  le_go [constructStep_le hr]

theorem buildPlain_le (i : Info) (spec : Option ClassId) (p : Params) : PyLe (buildPlain E r i spec p) (buildPlain E s i spec p) := by
  unfold buildPlain
  le_go [defaultCheck_le hr, defaultFill_le hr, buildChoice_le hr]

theorem buildStep_le (i : Info) (spec : Option ClassId) (p : Params) (n : Option ClassId) :
    PyLe (buildStep E r i spec p n) (buildStep E s i spec p n) := by
  unfold buildStep
  le_go [buildPlain_le hr, parseAs_le hr]

theorem copyStep_le (v : Val) (c t : Nat) (i : Bool) (e : List (Nat × Nat)) : PyLe (copyStep E r v c t i e) (copyStep E s v c t i e) := by
  unfold copyStep
  le_go [nodeContents_le hr, contentsStep_le hr, copyVal_le hr]

theorem OpsLe.step : OpsLe (r.step E) (s.step E) where
  dump := dumpStep_le hr
  native := nativeStep_le hr
  contents := contentsStep_le hr
  build := buildStep_le hr
  construct := constructStep_le hr
  copyTo := copyStep_le hr
  item := getItem_le hr

end

theorem OpsLe.refl (r : Ops) : OpsLe r r :=
  ⟨fun _ _ => .refl _, fun _ => .refl _, fun _ => .refl _, fun _ _ _ _ => .refl _, fun _ _ _ => .refl _, fun _ _ _ _ _ => .refl _, fun _ _ => .refl _⟩

theorem OpsLe.zero (s : Ops) : OpsLe Ops.zero s :=
  ⟨fun _ _ => .error _ _, fun _ => .error _ _, fun _ => .error _ _, fun _ _ _ _ => .error _ _, fun _ _ _ => .error _ _, fun _ _ _ _ _ => .error _ _,
    fun _ _ => .error _ _⟩

/-- What the operations give with some levels of recursion, they give with any more. -/
theorem ops_mono (E : Env) : ∀ {n m : Nat}, n ≤ m → OpsLe (ops E n) (ops E m)
  | 0, _, _ => .zero _
  | n + 1, 0, h => by omega
  | n + 1, m + 1, h => (ops_mono E (Nat.le_of_succ_le_succ h)).step

end Asn1
