import Verif.Model.TagArgs
import Mathlib.Data.List.Forall2

/-!
# C75 — All ways to write tags mean the same

`TagArgs.init` (Model/TagArgs.lean) is what a constructor makes of its arguments `explicit`, `implicit`, `tag_type`, `class_` and `tag`; `TagArgs.convert` is what
is done to the params of a field, and `TagArgs.idTuple` the class and tag by which a field is recognized. `initTagging` (Model/Obj.lean) is the tagging of the
rest of the model, whose arguments are the class numbers and tags themselves.
-/

namespace Asn1.Props
open Asn1 TagArgs

/-- `ClassIs c k`: `c` is a way to write the class with the number `k`. -/
inductive ClassIs : ClassArg → Nat → Prop
  | num {k : Nat} : k < 4 → ClassIs (.num k) k
  | universal : ClassIs (.text "universal") 0
  | application : ClassIs (.text "application") 1
  | context : ClassIs (.text "context") 2
  | privat : ClassIs (.text "private") 3

/-- `OrContext c k`: the same, context-specific when no class is given. -/
inductive OrContext : Option ClassArg → Nat → Prop
  | missing : OrContext none 2
  | given {c : ClassArg} {k : Nat} : ClassIs c k → OrContext (some c) k

/-- `ArgsSay a p`: what the arguments `a` mean according to the documentation of the constructor. -/
inductive ArgsSay : Args → TagParams → Prop
  | nothing : ArgsSay {} {}
  /-- `explicit=n`, perhaps with `class_=c` -/
  | explicitNumber {c : Option ClassArg} {k n : Nat} : OrContext c k → ArgsSay { explicit := some (.number n), class_ := c } { explicit := [(k, n)] }
  /-- `explicit=(c, n)` -/
  | explicitPair {c : ClassArg} {k n : Nat} : ClassIs c k → ArgsSay { explicit := some (.pair c (some n)) } { explicit := [(k, n)] }
  /-- `explicit=((c, n), …)` -/
  | explicitMany {l : List (ClassArg × Option Nat)} {es : List (Nat × Nat)} : l ≠ [] → List.Forall₂ (fun x e => ClassIs x.1 e.1 ∧ x.2 = some e.2) l es →
      ArgsSay { explicit := some (.many l) } { explicit := es }
  /-- `implicit=n`, perhaps with `class_=c` -/
  | implicitNumber {c : Option ClassArg} {k n : Nat} : OrContext c k → ArgsSay { implicit := some (.number n), class_ := c } { implicit := some (k, n) }
  /-- `implicit=(c, n)` -/
  | implicitPair {c : ClassArg} {k n : Nat} : ClassIs c k → ArgsSay { implicit := some (.pair c (some n)) } { implicit := some (k, n) }
  /-- `tag_type='explicit', tag=n`, perhaps with `class_=c` -/
  | oldExplicit {c : Option ClassArg} {k n : Nat} : OrContext c k → ArgsSay { tagType := some "explicit", tag := some n, class_ := c } { explicit := [(k, n)] }
  /-- `tag_type='implicit', tag=n`, perhaps with `class_=c` -/
  | oldImplicit {c : Option ClassArg} {k n : Nat} : OrContext c k → ArgsSay { tagType := some "implicit", tag := some n, class_ := c } { implicit := some (k, n) }

/-- The attributes of an instance. -/
def taggingOf {ν : Type} (o : Obj ν) : Tagging := ⟨some o.cls, some o.tag, o.implicit, o.explicit.map fun e => (e.1, some e.2)⟩

theorem ClassIs.classNum {c : ClassArg} {k : Nat} (h : ClassIs c k) : classNum c = some k := by
  cases h with
  | num h => match k, h with
    | 0, _ => rfl
    | 1, _ => rfl
    | 2, _ => rfl
    | 3, _ => rfl
  | _ => rfl

theorem classNum_is {c : ClassArg} {k : Nat} (h : classNum c = some k) : ClassIs c k := by
  cases c with
  | num n =>
    simp only [TagArgs.classNum] at h
    split at h
    · cases h; subst n; exact .num (k := 0) (by decide)
    split at h
    · cases h; subst n; exact .num (k := 1) (by decide)
    split at h
    · cases h; subst n; exact .num (k := 2) (by decide)
    split at h
    · cases h; subst n; exact .num (k := 3) (by decide)
    · cases h
  | text s =>
    simp only [TagArgs.classNum] at h
    split at h
    · cases h; subst s; exact .universal
    split at h
    · cases h; subst s; exact .application
    split at h
    · cases h; subst s; exact .context
    split at h
    · cases h; subst s; exact .privat
    · cases h

theorem no_classNum {c : ClassArg} (h : ∀ k, ¬ ClassIs c k) : classNum c = none := by
  cases hc : classNum c with
  | none => rfl
  | some k => exact absurd (classNum_is hc) (h k)

theorem OrContext.classNum {c : Option ClassArg} {k : Nat} (h : OrContext c k) : classNum (orContext c) = some k := by
  cases h with
  | missing => rfl
  | given h => exact h.classNum

theorem addExplicit_all {l : List (ClassArg × Option Nat)} {es : List (Nat × Nat)} (h : List.Forall₂ (fun x e => ClassIs x.1 e.1 ∧ x.2 = some e.2) l es)
    (t : Tagging) : addExplicit l t = .ok { t with explicit := t.explicit ++ es.map fun e => (e.1, some e.2) } := by
  induction h generalizing t with
  | nil => simp [addExplicit]
  | @cons x e xs es hx _ ih =>
    obtain ⟨c, n⟩ := x
    obtain ⟨h1, rfl⟩ := hx
    simp only [addExplicit, h1.classNum]
    rw [ih]
    simp

/-- All ways to write tags have the meaning the documentation gives them, for instances of all classes. -/
theorem C75_means {ν : Type} (o : Obj ν) {a : Args} {p : TagParams} (h : ArgsSay a p) (ne : Bool) :
    init (taggingOf o) a ne = .ok (taggingOf (initTagging o { p with noExplicit := ne })) := by
  cases h with
  | nothing => cases ne <;> simp [init, step1, step2, step3, taggingOf, initTagging, bind, Except.bind]
  | explicitNumber h => cases ne <;> simp [init, step1, step2, step3, taggingOf, initTagging, bind, Except.bind, pairs, addExplicit, h.classNum]
  | explicitPair h => cases ne <;> simp [init, step1, step2, step3, taggingOf, initTagging, bind, Except.bind, pairs, addExplicit, h.classNum]
  | @explicitMany l es hl h =>
    have hes : es ≠ [] := by
      rintro rfl
      cases h
      exact hl rfl
    cases ne <;> simp [init, step1, step2, step3, taggingOf, initTagging, bind, Except.bind, pairs, addExplicit_all h, hes]
  | implicitNumber h => cases ne <;> simp [init, step1, step2, step3, taggingOf, initTagging, bind, Except.bind, h.classNum]
  | implicitPair h => cases ne <;> simp [init, step1, step2, step3, taggingOf, initTagging, bind, Except.bind, h.classNum]
  | oldExplicit h => cases ne <;> simp [init, step1, step2, step3, taggingOf, initTagging, bind, Except.bind, pairs, addExplicit, h.classNum]
  | oldImplicit h => cases ne <;> simp [init, step1, step2, step3, taggingOf, initTagging, bind, Except.bind, h.classNum]

/-- Non-vacuity: four ways to write [APPLICATION 5] EXPLICIT. -/
example : ArgsSay { explicit := some (.number 5), class_ := some (.text "application") } { explicit := [(1, 5)] } ∧
    ArgsSay { explicit := some (.pair (.num 1) (some 5)) } { explicit := [(1, 5)] } ∧
    ArgsSay { explicit := some (.many [(.text "application", some 5)]) } { explicit := [(1, 5)] } ∧
    ArgsSay { tagType := some "explicit", tag := some 5, class_ := some (.num 1) } { explicit := [(1, 5)] } :=
  ⟨.explicitNumber (.given .application), .explicitPair (.num (k := 1) (by decide)), .explicitMany (by simp) (.cons ⟨.application, rfl⟩ .nil),
    .oldExplicit (.given (.num (k := 1) (by decide)))⟩

/-- What is no class is refused with `ValueError`, whether it is given as `class_`, with an implicit tag, with `tag_type`, or, as a number, with an explicit
tag. Missing from the property: names with an explicit tag, see `C75_name_fails`. -/
theorem C75_class_partial (t : Tagging) {c : ClassArg} (hc : ∀ k, ¬ ClassIs c k) (n : Nat) (ne : Bool) :
    init t { class_ := some c } ne = .error .valueError ∧
    init t { implicit := some (.pair c (some n)) } ne = .error .valueError ∧
    init t { implicit := some (.number n), class_ := some c } ne = .error .valueError ∧
    init t { tagType := some "implicit", tag := some n, class_ := some c } ne = .error .valueError ∧
    (∀ i, c = .num i → init t { explicit := some (.pair c (some n)) } ne = .error .valueError) := by
  have h := no_classNum hc
  refine ⟨?_, ?_, ?_, ?_, ?_⟩
  · simp [init, step1, step2, step3, bind, Except.bind, h]
  · simp [init, step1, step2, step3, bind, Except.bind, h]
  · simp [init, step1, step2, step3, bind, Except.bind, orContext, h]
  · simp [init, step1, step2, step3, bind, Except.bind, orContext, h]
  · rintro i rfl
    simp [init, step1, step2, step3, bind, Except.bind, pairs, addExplicit, h]

/-- Non-vacuity. -/
example : (∀ k, ¬ ClassIs (.text "contextual") k) ∧ (∀ k, ¬ ClassIs (.num 4) k) :=
  ⟨fun k h => (by have := h.classNum; simp [TagArgs.classNum] at this), fun k h => (by have := h.classNum; simp [TagArgs.classNum] at this)⟩

/-- **The property fails for unknown names of classes in explicit tags**: these raise `KeyError`, before the `ValueError` of the documentation is reached. -/
theorem C75_name_fails (t : Tagging) {s : String} (hc : ∀ k, ¬ ClassIs (.text s) k) (n : Nat) (ne : Bool) :
    init t { explicit := some (.pair (.text s) (some n)) } ne = .error .keyError := by
  simp [init, step1, step2, step3, bind, Except.bind, pairs, addExplicit, no_classNum hc]

/-- An unknown `tag_type` is refused. -/
theorem C75_tag_type (t : Tagging) (a : Args) {k : String} (hk : a.tagType = some k) (h1 : k ≠ "explicit") (h2 : k ≠ "implicit") (ne : Bool) :
    init t a ne = .error .valueError := by
  have e1 : (step1 a).tagType = some k := by
    unfold step1
    split
    · exact hk
    · next e _ => cases e <;> simp [hk, h1]
  have e2 : (step2 (step1 a)).tagType = some k := by
    unfold step2
    split
    · exact e1
    · next e _ => cases e <;> simp [e1, h2]
  simp [init, step3, e2, h1, h2, bind, Except.bind]

/-- An implicit tag beside an explicit one has no effect. -/
theorem C75_explicit_wins (t : Tagging) {c : ClassArg} {n : Nat} (g : Given) (ne : Bool) :
    init t { explicit := some (.pair c (some n)), implicit := some g } ne = init t { explicit := some (.pair c (some n)) } ne := by
  cases g <;> simp [init, step1, step2, step3, bind, Except.bind]

/-! ### The params of fields -/

/-- The old params of a field mean what the old arguments of a constructor mean, converting them once more changes nothing, and none of the old keys is left. The
class is under the key `class`. -/
theorem C75_dict (t : Tagging) {k : String} (hk : k = "explicit" ∨ k = "implicit") (n : Nat) {c : Option ClassArg} {m : Nat} (hc : OrContext c m) (ne : Bool) :
    ∃ d a, convert { tagType := some k, tag := some n, oldClass := c } = .ok d ∧ (convert d = .ok d ∧ d.tagType = none ∧ d.tag = none ∧ d.oldClass = none) ∧ d.args = .ok a ∧
      init t a ne = init t { tagType := some k, tag := some n, class_ := c } ne := by
  rcases hk with rfl | rfl
  · refine ⟨_, _, rfl, ⟨rfl, rfl, rfl, rfl⟩, rfl, ?_⟩
    have h1 : classNum (c.getD (.num 2)) = some m := by
      cases hc with
      | missing => rfl
      | given h => exact h.classNum
    simp [init, step1, step2, step3, bind, Except.bind, pairs, addExplicit, h1, hc.classNum]
  · refine ⟨_, _, rfl, ⟨rfl, rfl, rfl, rfl⟩, rfl, ?_⟩
    have h1 : classNum (c.getD (.num 2)) = some m := by
      cases hc with
      | missing => rfl
      | given h => exact h.classNum
    simp [init, step1, step2, step3, bind, Except.bind, h1, hc.classNum]

/-- The outermost tag that a value with these tags has. -/
def outerTag {ν : Type} (o : Obj ν) : Nat × Nat := o.explicit.getLast?.getD (o.cls, o.tag)

/-- `FieldSays d p`: what the params of a field mean. -/
inductive FieldSays : Dict → TagParams → Prop
  | nothing : FieldSays {} {}
  | explicitNumber {n : Nat} : FieldSays { explicit := some (.number n) } { explicit := [(2, n)] }
  | explicitPair {c : ClassArg} {k n : Nat} : ClassIs c k → FieldSays { explicit := some (.pair c (some n)) } { explicit := [(k, n)] }
  | implicitNumber {n : Nat} : FieldSays { implicit := some (.number n) } { implicit := some (2, n) }
  | implicitPair {c : ClassArg} {k n : Nat} : ClassIs c k → FieldSays { implicit := some (.pair c (some n)) } { implicit := some (k, n) }
  | oldExplicit {c : Option ClassArg} {k n : Nat} : OrContext c k → FieldSays { tagType := some "explicit", tag := some n, oldClass := c } { explicit := [(k, n)] }
  | oldImplicit {c : Option ClassArg} {k n : Nat} : OrContext c k → FieldSays { tagType := some "implicit", tag := some n, oldClass := c } { implicit := some (k, n) }

theorem id_class {c : ClassArg} {k : Nat} (h : ClassIs c k) : numbered (some c) = .ok (some (.num k)) := by
  cases h <;> rfl

/-- A field is recognized by the tag that its values have: the tag by which the element of a field is told is the outermost tag of what the constructor makes
with the params of the field, in each way they may be written. Missing from the property: params with `class_` and params with several explicit tags, see
`C75_class_key_fails` and `C75_two_tags_fails`, and classes with explicit tags of their own. -/
theorem C75_recognized_partial {ν : Type} (o : Obj ν) (ho : o.explicit = []) {d : Dict} {p : TagParams} (h : FieldSays d p) :
    ∃ d' a, convert d = .ok d' ∧ d'.args = .ok a ∧ init (taggingOf o) a = .ok (taggingOf (initTagging o p)) ∧
      idTuple (some o.cls) (some o.tag) d = .ok (some (.num (outerTag (initTagging o p)).1), some (outerTag (initTagging o p)).2) := by
  cases h with
  | nothing =>
    refine ⟨_, _, rfl, rfl, by simpa using C75_means o .nothing false, ?_⟩
    simp [idTuple, convert, initTagging, outerTag, ho, bind, Except.bind, numbered]
  | explicitNumber =>
    refine ⟨_, _, rfl, rfl, by simpa using C75_means o (.explicitNumber .missing) false, ?_⟩
    simp [idTuple, convert, initTagging, outerTag, ho, bind, Except.bind, paramPair, Except.map, numbered]
  | explicitPair h =>
    refine ⟨_, _, rfl, rfl, by simpa using C75_means o (.explicitPair h) false, ?_⟩
    have := id_class h
    simp only [idTuple, convert, initTagging, outerTag, ho, bind, Except.bind, paramPair, Except.map, this]
    simp
  | implicitNumber =>
    refine ⟨_, _, rfl, rfl, by simpa using C75_means o (.implicitNumber .missing) false, ?_⟩
    simp [idTuple, convert, initTagging, outerTag, ho, bind, Except.bind, paramPair, Except.map, numbered]
  | implicitPair h =>
    refine ⟨_, _, rfl, rfl, by simpa using C75_means o (.implicitPair h) false, ?_⟩
    have := id_class h
    simp only [idTuple, convert, initTagging, outerTag, ho, bind, Except.bind, paramPair, Except.map, this]
    simp [ho]
  | @oldExplicit c k n h =>
    obtain ⟨d', a, h1, -, h2, h3⟩ := C75_dict (taggingOf o) (.inl rfl) n h false
    refine ⟨d', a, h1, h2, h3.trans (by simpa using C75_means o (.oldExplicit h) false), ?_⟩
    have hk : ClassIs (c.getD (.num 2)) k := by
      cases h with
      | missing => exact .num (k := 2) (by decide)
      | given h => exact h
    have := id_class hk
    simp only [idTuple, convert, initTagging, outerTag, ho, bind, Except.bind, paramPair, Except.map, if_true, this]
    simp
  | @oldImplicit c k n h =>
    obtain ⟨d', a, h1, -, h2, h3⟩ := C75_dict (taggingOf o) (.inr rfl) n h false
    refine ⟨d', a, h1, h2, h3.trans (by simpa using C75_means o (.oldImplicit h) false), ?_⟩
    have hk : ClassIs (c.getD (.num 2)) k := by
      cases h with
      | missing => exact .num (k := 2) (by decide)
      | given h => exact h
    have := id_class hk
    simp [idTuple, convert, initTagging, outerTag, ho, bind, Except.bind, paramPair, Except.map, this]

/-- Non-vacuity: [PRIVATE 7] IMPLICIT in the old way. -/
example : FieldSays { tagType := some "implicit", tag := some 7, oldClass := some (.text "private") } { implicit := some (3, 7) } :=
  .oldImplicit (.given .privat)

/-- **The property fails for fields whose params name the class with `class_`**, as the constructor has it: the value gets the tag [APPLICATION 3], but the field
is recognized by a class that is a text, which no element has. -/
theorem C75_class_key_fails {ν : Type} (o : Obj ν) (ho : o.explicit = []) :
    ∃ a, Dict.args { explicit := some (.number 3), class_ := some (.text "application") } = .ok a ∧
      init (taggingOf o) a = .ok (taggingOf (initTagging o { explicit := [(1, 3)] })) ∧
      outerTag (initTagging o { explicit := [(1, 3)] }) = (1, 3) ∧
      idTuple (some o.cls) (some o.tag) { explicit := some (.number 3), class_ := some (.text "application") } = .ok (some (.text "application"), some 3) :=
  ⟨_, rfl, by simpa using C75_means o (.explicitNumber (.given .application)) false, by simp [outerTag, initTagging, ho], rfl⟩

/-- **It fails for the old params with `class_`**: the constructor called with them gives an [APPLICATION 3], a field with them is [3]. -/
theorem C75_old_class_key_fails {ν : Type} (o : Obj ν) :
    init (taggingOf o) { tagType := some "implicit", tag := some 3, class_ := some (.text "application") } =
      .ok (taggingOf (initTagging o { implicit := some (1, 3) })) ∧
    ∃ d a, convert { tagType := some "implicit", tag := some 3, class_ := some (.text "application") } = .ok d ∧ d.args = .ok a ∧
      init (taggingOf o) a = .ok (taggingOf (initTagging o { implicit := some (2, 3) })) :=
  ⟨by simpa using C75_means o (.oldImplicit (.given .application)) false, _, _, rfl, rfl, by
    simp [init, step1, step2, step3, bind, Except.bind, taggingOf, initTagging, TagArgs.classNum]⟩

/-- **It fails for fields with several explicit tags**: the constructor takes them, but a class with such a field cannot be set up. -/
theorem C75_two_tags_fails {ν : Type} (o : Obj ν) :
    init (taggingOf o) { explicit := some (.many [(.num 2, some 0), (.num 2, some 1)]) } = .ok (taggingOf (initTagging o { explicit := [(2, 0), (2, 1)] })) ∧
    idTuple (some o.cls) (some o.tag) { explicit := some (.many [(.num 2, some 0), (.num 2, some 1)]) } = .error .keyError :=
  ⟨by simpa using C75_means o (.explicitMany (by simp)
    (.cons ⟨.num (k := 2) (by decide), rfl⟩ (.cons ⟨.num (k := 2) (by decide), rfl⟩ .nil))) false, rfl⟩

end Asn1.Props
