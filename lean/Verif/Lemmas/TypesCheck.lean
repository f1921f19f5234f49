import Verif.Lemmas.EncLoad

/-!
# Deciding that definitions are sound

`typesB` is a test of finitely many classes that implies `Types`. Default values of a constructed type are given as a list, for which
`DefaultValue` has to be shown by running the constructor.
-/

namespace Asn1
open Spec Props

/-! ### Tags -/

def hasTagB : Shape → Bool
  | .choice _ _ _ => false
  | .any => false
  | _ => true

theorem hasTagB_iff (s : Shape) : hasTagB s = true ↔ HasTag s := by
  cases s <;> simp [hasTagB, HasTag]

instance (s : Shape) : Decidable (HasTag s) := decidable_of_iff _ (hasTagB_iff s)

/-- All outermost tags; `none` when that is not known. -/
def outerTags (E : Env) : Nat → ClassId → Params → Option (List (Nat × Nat))
  | 0, _, _ => none
  | n + 1, c, p => match (explicitOf E c p).getLast? with
    | some e => some [e]
    | none => match E.cls c with
      | .any => some []
      | .choice _ _ alts => (alts.mapM (fun f => outerTags E n f.spec f.params)).map List.flatten
      | s => some [p.implicit.getD (s.tagging.1, s.tagging.2.1)]

theorem mapM_option_mem {α β : Type} {g : α → Option β} : ∀ {l : List α} {ys : List β}, l.mapM g = some ys → ∀ x ∈ l, ∃ y ∈ ys, g x = some y
  | [], _, _, x, hx => by cases hx
  | a :: l, ys, h, x, hx => by
    rw [List.mapM_cons] at h
    cases hg : g a with
    | none => rw [hg] at h; cases h
    | some y =>
      rw [hg] at h
      cases hm : l.mapM g with
      | none => rw [hm] at h; cases h
      | some zs =>
        rw [hm] at h
        cases h
        rcases List.mem_cons.mp hx with rfl | hx
        · exact ⟨y, by simp, hg⟩
        · obtain ⟨z, hz, e⟩ := mapM_option_mem hm x hx
          exact ⟨z, by simp [hz], e⟩

theorem outerTags_sound {E : Env} : ∀ (n : Nat) {c : ClassId} {p : Params} {l : List (Nat × Nat)}, outerTags E n c p = some l →
    ∀ id, OuterTag E c p id → id ∈ l
  | 0, _, _, _, h => by cases h
  | n + 1, c, p, l, h => by
    intro id hb
    rw [outerTags] at h
    cases hb with
    | explicit he =>
      rw [he] at h
      cases h; simp
    | implicit he ht hi =>
      rw [he] at h
      cases hc : E.cls c <;> rw [hc] at h ht <;> first | exact False.elim ht | (simp only [List.getLast?_nil, hi] at h; cases h; simp)
    | own he ht hi =>
      rw [he] at h
      cases hc : E.cls c <;> rw [hc] at h ht <;> first | exact False.elim ht | (simp only [List.getLast?_nil, hi] at h; cases h; simp)
    | alternative he hc hf ho =>
      rw [he, hc] at h
      simp only [List.getLast?_nil, Option.map_eq_some_iff] at h
      obtain ⟨ls, h1, rfl⟩ := h
      obtain ⟨y, hy, e⟩ := mapM_option_mem h1 _ hf
      exact List.mem_flatten.mpr ⟨y, hy, outerTags_sound n e id ho⟩

/-- All tags with which an encoding can begin; `none` when that is not known, or they are all. -/
def beginTags (E : Env) (n : Nat) (c : ClassId) (p : Params) : Option (List (Nat × Nat)) :=
  match E.cls c with
  | .any => none
  | _ => outerTags E n c p

theorem beginTags_sound {E : Env} (n : Nat) {c : ClassId} {p : Params} {l : List (Nat × Nat)} (h : beginTags E n c p = some l) :
    ∀ id, Begins E c p id → id ∈ l := by
  intro id hb
  unfold beginTags at h
  rcases hb with hb | hb
  · rw [hb] at h; cases h
  · split at h
    · cases h
    · exact outerTags_sound n h id hb

/-- The tag of a class that is not a CHOICE or ANY, in a place where it has the params. -/
def ownTag (E : Env) (c : ClassId) (p : Params) : Option (Nat × Nat) :=
  match (explicitOf E c p).getLast? with
  | some e => some e
  | none => if hasTagB (E.cls c) then some (p.implicit.getD ((E.cls c).tagging.1, (E.cls c).tagging.2.1)) else none

theorem ownTag_sound {E : Env} {c : ClassId} {p : Params} {e : Nat × Nat} (h : ownTag E c p = some e) : OuterTag E c p e := by
  unfold ownTag at h
  split at h
  · next e' he => cases h; exact .explicit he
  · next he =>
    have he : explicitOf E c p = [] := by simpa using he
    split at h
    · next ht =>
      have ht := (hasTagB_iff _).mp ht
      cases hi : p.implicit with
      | some e' => rw [hi] at h; cases h; exact .implicit he ht hi
      | none => rw [hi] at h; cases h; exact .own he ht hi
    · cases h

/-- The depth of nested CHOICEs looked at. -/
def choiceDepth : Nat := 8

def fieldTags (E : Env) (f : Field) : Option (List (Nat × Nat)) := beginTags E choiceDepth f.spec f.params

def disjointB (l l' : List (Nat × Nat)) : Bool := l.all (fun x => !l'.contains x)

theorem disjointB_sound {l l' : List (Nat × Nat)} (h : disjointB l l' = true) : ∀ x, x ∈ l → x ∉ l' := by
  intro x hx
  have := List.all_eq_true.mp h x hx
  simpa using this

/-- No tag begins two different alternatives. -/
def distinctB (E : Env) : List Field → Bool
  | [] => true
  | f :: fs => (match outerTags E choiceDepth f.spec f.params with
    | none => false
    | some l => fs.all (fun g => match outerTags E choiceDepth g.spec g.params with
      | none => false
      | some l' => disjointB l l')) && distinctB E fs

theorem distinctB_sound {E : Env} : ∀ {fs : List Field}, distinctB E fs = true → DistinctTags E fs
  | [], _, j, k, f, g, id, hf, _, _, _ => by simp at hf
  | f :: fs, h, j, k, f', g', id, hf, hg, of', og => by
    rw [distinctB, Bool.and_eq_true] at h
    have ih := distinctB_sound h.2
    have key : ∀ g ∈ fs, OuterTag E f.spec f.params id → OuterTag E g.spec g.params id → False := by
      intro g hg o1 o2
      have h1 := h.1
      cases hl : outerTags E choiceDepth f.spec f.params with
      | none => rw [hl] at h1; cases h1
      | some l =>
        rw [hl] at h1
        have h2 := List.all_eq_true.mp h1 g hg
        cases hl' : outerTags E choiceDepth g.spec g.params with
        | none => rw [hl'] at h2; cases h2
        | some l' =>
          rw [hl'] at h2
          exact disjointB_sound h2 id (outerTags_sound _ hl id o1) (outerTags_sound _ hl' id o2)
    cases j with
    | zero =>
      cases k with
      | zero => rfl
      | succ k =>
        cases hf
        exact (key g' (List.mem_of_getElem? hg) of' og).elim
    | succ j =>
      cases k with
      | zero =>
        cases hg
        exact (key f' (List.mem_of_getElem? hf) og of').elim
      | succ k =>
        have := ih j k f' g' id hf hg of' og
        omega

/-- Tags with which the next element can begin. -/
def nextTags (E : Env) : List Field → Option (List (Nat × Nat))
  | [] => some []
  | f :: fs => if Field.skippable f then match fieldTags E f, nextTags E fs with
      | some l, some l' => some (l ++ l')
      | _, _ => none
    else fieldTags E f

theorem nextTags_sound {E : Env} : ∀ {fs : List Field} {l : List (Nat × Nat)}, nextTags E fs = some l → ∀ id, NextBegins E fs id → id ∈ l
  | [], _, _, _, h => h.elim
  | f :: fs, l, h, id, hn => by
    rw [nextTags] at h
    split at h
    · split at h
      · next l1 l2 e1 e2 =>
        cases h
        rcases hn with hn | ⟨_, hn⟩
        · exact List.mem_append_left _ (beginTags_sound _ e1 id hn)
        · exact List.mem_append_right _ (nextTags_sound e2 id hn)
      · cases h
    · next hs =>
      rcases hn with hn | ⟨hs', _⟩
      · exact beginTags_sound _ h id hn
      · exact absurd hs' hs

/-- Optional fields can be told apart from what follows. -/
def apartB (E : Env) : List Field → Bool
  | [] => true
  | f :: fs => (!(Field.skippable f) || fs.isEmpty || match fieldTags E f, nextTags E fs with
    | some l, some l' => disjointB l l'
    | _, _ => false) && (!f.params.optional || f.params.default.isNone || fs.isEmpty) && apartB E fs

theorem apartB_sound {E : Env} : ∀ {fs : List Field}, apartB E fs = true → Apart E fs
  | [], _ => trivial
  | f :: fs, h => by
    rw [apartB, Bool.and_eq_true, Bool.and_eq_true] at h
    refine ⟨fun hs id hb hn => ?_, fun ho hd => ?_, apartB_sound h.2⟩
    rotate_left
    · have h1 := h.1.2
      rw [ho] at h1
      cases hdd : f.params.default with
      | none => rw [hdd] at hd; cases hd
      | some d => rw [hdd] at h1; simpa using h1
    have h1 := h.1.1
    rw [hs] at h1
    cases fs with
    | nil => exact hn
    | cons g gs =>
      simp only [Bool.not_true, Bool.false_or, List.isEmpty_cons] at h1
      split at h1
      · next l l' e1 e2 => exact disjointB_sound h1 id (beginTags_sound _ e1 id hb) (nextTags_sound e2 id hn)
      · cases h1

/-- See `PlainTag`. -/
def plainB (E : Env) (f : Field) : Bool :=
  !f.params.noExplicit && (!f.params.explicit.isEmpty || (hasTagB (E.cls f.spec) && (E.cls f.spec).tagging.2.2.2.isEmpty))

theorem plainB_sound {E : Env} {f : Field} (h : plainB E f = true) : PlainTag E f := by
  simp only [plainB, Bool.and_eq_true, Bool.not_eq_true', Bool.or_eq_true, hasTagB_iff, List.isEmpty_iff] at h
  refine ⟨h.1, h.2.imp (fun h => ?_) id⟩
  intro he
  rw [he] at h
  cases h

/-! ### Values -/

/-- A primitive instance whose value has been computed. -/
def settled : LeafSt → Option Scalar
  | .null _ => some .none
  | .boolean o => match Boolean.native o with
    | .ok (some b, o') => if o' = o then some (.bool b) else none
    | _ => none
  | .integer m o => match Integer.native m o with
    | .ok (some b, o') => if o' = o then some (LeafSt.ofIntNative b) else none
    | _ => none
  | .enumerated m o => match Enumerated.native m o with
    | .ok (some b, o') => if o' = o then some (LeafSt.ofIntNative b) else none
    | _ => none
  | .oid c o => match Oid.native c o with
    | .ok (some b, o') => if o' = o then some (.str b) else none
    | _ => none
  | .octets o => match OctetString.native o with
    | .ok (some b, o') => if o' = o then some (.bytes b) else none
    | _ => none
  | .chars k u o => match AbstractString.native k (LeafSt.charsNew u) o with
    | .ok (some b, o') => if o' = o then some (.str b) else none
    | _ => none
  | .bits o => match BitString.native o with
    | .ok (b, o') => if o' = o then some (.bits b) else none
    | _ => none
  | .named m o => match NamedBits.native m o with
    | .ok (b, o') => if o' = o then some (.keys b) else none
    | _ => none
  | .octetBits o => match OctetBitString.native o with
    | .ok (some b, o') => if o' = o then some (.bytes b) else none
    | _ => none
  | .intBits o => match IntegerBitString.native o with
    | .ok (some b, o') => if o' = o then some (.int b) else none
    | _ => none
  | .intOctets o => match IntegerOctetString.native o with
    | .ok (some b, o') => if o' = o then some (.int b) else none
    | _ => none

theorem settled_sound {st : LeafSt} {s : Scalar} (h : settled st = some s) : st.native = .ok (s, st) := by
  cases st with
  | null o => cases h; rfl
  | boolean o =>
    rw [settled] at h
    split at h
    · next b o' hn =>
      split at h
      · next he =>
        cases h; subst he
        simp only [LeafSt.native, hn, bind, Except.bind, pure, Except.pure, LeafSt.optScalar]
      · cases h
    · cases h
  | integer m o =>
    rw [settled] at h
    split at h
    · next b o' hn =>
      split at h
      · next he =>
        cases h; subst he
        simp only [LeafSt.native, hn, bind, Except.bind, pure, Except.pure, LeafSt.optScalar]
      · cases h
    · cases h
  | enumerated m o =>
    rw [settled] at h
    split at h
    · next b o' hn =>
      split at h
      · next he =>
        cases h; subst he
        simp only [LeafSt.native, hn, bind, Except.bind, pure, Except.pure, LeafSt.optScalar]
      · cases h
    · cases h
  | oid c o =>
    rw [settled] at h
    split at h
    · next b o' hn =>
      split at h
      · next he =>
        cases h; subst he
        simp only [LeafSt.native, hn, bind, Except.bind, pure, Except.pure, LeafSt.optScalar]
      · cases h
    · cases h
  | octets o =>
    rw [settled] at h
    split at h
    · next b o' hn =>
      split at h
      · next he =>
        cases h; subst he
        simp only [LeafSt.native, hn, bind, Except.bind, pure, Except.pure, LeafSt.optScalar]
      · cases h
    · cases h
  | chars k u o =>
    rw [settled] at h
    split at h
    · next b o' hn =>
      split at h
      · next he =>
        cases h; subst he
        simp only [LeafSt.native, hn, bind, Except.bind, pure, Except.pure, LeafSt.optScalar]
      · cases h
    · cases h
  | bits o =>
    rw [settled] at h
    split at h
    · next b o' hn =>
      split at h
      · next he =>
        cases h; subst he
        simp only [LeafSt.native, hn, bind, Except.bind, pure, Except.pure]
      · cases h
    · cases h
  | named m o =>
    rw [settled] at h
    split at h
    · next b o' hn =>
      split at h
      · next he =>
        cases h; subst he
        simp only [LeafSt.native, hn, bind, Except.bind, pure, Except.pure]
      · cases h
    · cases h
  | octetBits o =>
    rw [settled] at h
    split at h
    · next b o' hn =>
      split at h
      · next he =>
        cases h; subst he
        simp only [LeafSt.native, hn, bind, Except.bind, pure, Except.pure, LeafSt.optScalar]
      · cases h
    · cases h
  | intBits o =>
    rw [settled] at h
    split at h
    · next b o' hn =>
      split at h
      · next he =>
        cases h; subst he
        simp only [LeafSt.native, hn, bind, Except.bind, pure, Except.pure, LeafSt.optScalar]
      · cases h
    · cases h
  | intOctets o =>
    rw [settled] at h
    split at h
    · next b o' hn =>
      split at h
      · next he =>
        cases h; subst he
        simp only [LeafSt.native, hn, bind, Except.bind, pure, Except.pure, LeafSt.optScalar]
      · cases h
    · cases h

/-- How contents octets are read, see `Reads`. -/
def readsB (proto : LeafSt) (indefinite : Bool) (data : List UInt8) : Option Scalar :=
  match proto, data with
  | .null _, _ :: _ => none
  | proto, data => match (proto.map (fun o => { o with
      method := if indefinite then 1 else 0, contents := some data, indefinite := indefinite, native := none })).native with
    | .ok (s, st) => if settled st = some s then some s else none
    | _ => none

theorem readsB_sound {proto : LeafSt} {indefinite : Bool} {data : List UInt8} {s : Scalar} (h : readsB proto indefinite data = some s) :
    Reads proto indefinite data s := by
  unfold readsB at h
  split at h
  · cases h
  · next hnn =>
    refine ⟨fun o ho => ?_, ?_⟩
    · cases data with
      | nil => rfl
      | cons x xs => exact (hnn o x xs ho rfl).elim
    · split at h
      · next s' st hn =>
        split at h
        · next hs => cases h; exact ⟨st, hn, settled_sound hs⟩
        · cases h
      · cases h

/-- The default value of a primitive class. -/
def leafDefault (proto : LeafSt) (tp : TagParams) : PyVal → Option Scalar
  | .scalar s => if s = .none then none else match (proto.init tp).set s with
    | .ok st => match st.native with
      | .ok (s, st') => if settled st' = some s then some s else none
      | _ => none
    | _ => none
  | _ => none

theorem leafDefault_sound {E : Env} {c : ClassId} {p : Params} {proto : LeafSt} {bad : List Nat} {d : PyVal} {s : Scalar} (hE : E.cls c = .leaf proto bad)
    (hd : p.default = some d) (h : leafDefault proto p.tags d = some s) : DefaultValue E c p (.scalar s) := by
  cases d with
  | scalar x =>
    rw [leafDefault] at h
    split at h
    · cases h
    next hs =>
    split at h
    · next st hset =>
      split at h
      · next s' st' hn =>
        split at h
        · next hst =>
          cases h
          have hst := settled_sound hst
          have hcon : ∀ r, constructStep E r c p (.scalar .none) = .ok (.leaf c st) := by
            intro r
            simp only [constructStep, hE, hd, givenValue]
            cases x with
            | none => exact absurd rfl hs
            | _ => simp only [hset, bind, Except.bind]
          refine ⟨1, .leaf c st, .leaf c st', fun j hj => ?_, fun j hj => ?_, readable_leaf E hst hst, (fun h => by cases h), rfl⟩
          · obtain ⟨j, rfl⟩ : ∃ k, j = k + 1 := ⟨j - 1, by omega⟩
            exact hcon _
          · obtain ⟨j, rfl⟩ : ∃ k, j = k + 1 := ⟨j - 1, by omega⟩
            rw [ops_native]
            simp only [nativeStep, bind, Except.bind, hn]
        · cases h
      · cases h
    · cases h
  | _ => cases h

/-- Equality of Python values, as far as they occur in definitions. -/
def samePy : Nat → PyVal → PyVal → Bool
  | 0, _, _ => false
  | _ + 1, .scalar s, .scalar s' => s == s'
  | n + 1, .dict l, .dict l' => go n l l'
  | _, _, _ => false
where
  /-- Entry by entry. -/
  go (n : Nat) : List (String × PyVal) → List (String × PyVal) → Bool
    | [], [] => true
    | (k, v) :: l, (k', v') :: l' => k == k' && samePy n v v' && go n l l'
    | _, _ => false

mutual
theorem samePy_sound : ∀ (n : Nat) {a b : PyVal}, samePy n a b = true → a = b
  | 0, _, _, h => by simp [samePy] at h
  | n + 1, a, b, h => by
    unfold samePy at h
    split at h
    · cases ‹_ + 1 = 0›
    · rw [beq_iff_eq.mp h]
    · rw [samePy_go_sound _ h]
    · cases h
theorem samePy_go_sound : ∀ (n : Nat) {l l' : List (String × PyVal)}, samePy.go n l l' = true → l = l'
  | _, [], [], _ => rfl
  | _, [], _ :: _, h => by simp [samePy.go] at h
  | _, _ :: _, [], h => by simp [samePy.go] at h
  | n, (k, v) :: l, (k', v') :: l', h => by
    rw [samePy.go, Bool.and_eq_true, Bool.and_eq_true] at h
    rw [beq_iff_eq.mp h.1.1, samePy_sound n h.1.2, samePy_go_sound n h.2]
end

def sameParams (p q : Params) : Bool :=
  p.explicit == q.explicit && p.implicit == q.implicit && p.noExplicit == q.noExplicit && p.optional == q.optional &&
    match p.default, q.default with
    | some a, some b => samePy 9 a b
    | _, _ => false

theorem sameParams_sound {p q : Params} (h : sameParams p q = true) : p = q := by
  simp only [sameParams, Bool.and_eq_true, beq_iff_eq] at h
  obtain ⟨⟨⟨⟨h1, h2⟩, h3⟩, h4⟩, h5⟩ := h
  cases p with | mk a b c d e => cases q with | mk a' b' c' d' e' =>
  simp only at h1 h2 h3 h4 h5
  subst h1 h2 h3 h4
  split at h5
  · rw [samePy_sound _ h5]
  · cases h5

/-! ### Definitions -/

def goodTagsB (p : Params) : Bool :=
  !p.noExplicit && p.explicit.all (fun e => e.1 < 4) && (match p.implicit with
    | some e => decide (e.1 < 4)
    | none => true) && (p.explicit.isEmpty || p.implicit.isNone)

theorem goodTagsB_sound {p : Params} (h : goodTagsB p = true) : GoodTags p := by
  simp only [goodTagsB, Bool.and_eq_true, Bool.not_eq_true', List.all_eq_true, decide_eq_true_eq, Bool.or_eq_true, List.isEmpty_iff, Option.isNone_iff_eq_none] at h
  obtain ⟨⟨⟨h1, h2⟩, h3⟩, h4⟩ := h
  refine ⟨h1, h2, fun e he => ?_, h4⟩
  rw [he] at h3
  simpa using h3

def quietB (E : Env) (fields : List Field) : Bool :=
  fields.all (fun f => f.params.default.isNone || match E.cls f.spec with
    | .leaf _ _ => true
    | _ => false)

theorem quietB_sound {E : Env} {fields : List Field} (h : quietB E fields = true) : QuietFields E fields := by
  intro f hf hd
  have := List.all_eq_true.mp h f hf
  rw [Bool.or_eq_true] at this
  rcases this with h | h
  · rw [Option.isNone_iff_eq_none.mp h] at hd; cases hd
  · cases hc : E.cls f.spec <;> rw [hc] at h <;> first | exact ⟨_, _, rfl⟩ | cases h

def harmlessB (E : Env) (fields : List Field) : PyVal → Bool
  | .dict kvs => quietB E fields && !fields.isEmpty && kvs.all (fun kv => fields.any (fun f => f.name == kv.1)) &&
      kvs.all (fun kv => fields.all (fun f => f.name != kv.1 || (!f.params.optional && f.params.default.isNone)))
  | _ => false

theorem harmlessB_sound {E : Env} {fields : List Field} {d : PyVal} (h : harmlessB E fields d = true) : Harmless E fields d := by
  cases d with
  | dict kvs =>
    simp only [harmlessB, Bool.and_eq_true, List.all_eq_true, List.any_eq_true, beq_iff_eq, Bool.or_eq_true, bne_iff_ne, Bool.not_eq_true',
      Option.isNone_iff_eq_none] at h
    obtain ⟨⟨⟨h1, h2⟩, h3⟩, h4⟩ := h
    refine ⟨quietB_sound h1, fun h => (by rw [h] at h2; cases h2), kvs, rfl, h3, fun kv hkv f hf hn => ?_⟩
    rcases h4 kv hkv f hf with h | h
    · exact absurd hn h
    · exact h
  | _ => cases h

/-- See `Usable`. -/
def usableB (E : Env) (size : Nat) (D : List (ClassId × Params)) (c : ClassId) (p : Params) : Bool :=
  decide (c < size) && goodTagsB p && (hasTagB (E.cls c) || (p.implicit.isNone && p.default.isNone)) &&
    match p.default with
    | none => true
    | some d => match E.cls c with
      | .leaf proto _ => (leafDefault proto p.tags d).isSome
      | .seq _ _ _ fields _ => D.any (fun e => e.1 == c && sameParams e.2 p) && (!p.explicit.isEmpty || harmlessB E fields d)
      | _ => false

variable {E : Env} {size : Nat} {D : List (ClassId × Params)} (hD : ∀ e ∈ D, ∃ n, DefaultValue E e.1 e.2 n)

include hD in
theorem usableB_sound {c : ClassId} {p : Params} (h : usableB E size D c p = true) : Usable E (· < size) c p := by
  simp only [usableB, Bool.and_eq_true, decide_eq_true_eq, Bool.or_eq_true, hasTagB_iff, Option.isNone_iff_eq_none] at h
  obtain ⟨⟨⟨h1, h2⟩, h3⟩, h4⟩ := h
  refine ⟨h1, goodTagsB_sound h2, fun hn => h3.resolve_left hn, fun hd => ?_, fun d proto bad isSet fields oid hd hc he => ?_⟩
  · obtain ⟨d, hd⟩ := Option.isSome_iff_exists.mp hd
    rw [hd] at h4
    have h5 := h4
    simp only at h5
    split at h5
    · next hc =>
      obtain ⟨s, hs⟩ := Option.isSome_iff_exists.mp h5
      exact ⟨_, leafDefault_sound hc hd hs⟩
    · rw [Bool.and_eq_true, List.any_eq_true] at h5
      obtain ⟨e, he, h6⟩ := h5.1
      rw [Bool.and_eq_true, beq_iff_eq] at h6
      obtain ⟨h6, h7⟩ := h6
      have := hD e he
      rwa [h6, sameParams_sound h7] at this
    · cases h5
  · rw [hd, hc] at h4
    simp only [Bool.and_eq_true, Bool.or_eq_true, Bool.not_eq_true', he, List.isEmpty_nil, Bool.true_eq_false, false_or] at h4
    exact harmlessB_sound h4.2

def bareB {ν : Type} (o : Obj ν) (m : Nat) : Bool :=
  decide (o.cls < 4) && o.method == m && !o.implicit && o.explicit.isEmpty && o.header.isNone && o.trailer.isEmpty && !o.indefinite

theorem bareB_sound {ν : Type} {o : Obj ν} {m : Nat} (h : bareB o m = true) : Bare o m := by
  simp only [bareB, Bool.and_eq_true, decide_eq_true_eq, beq_iff_eq, Bool.not_eq_true', List.isEmpty_iff, Option.isNone_iff_eq_none] at h
  obtain ⟨⟨⟨⟨⟨⟨h1, h2⟩, h3⟩, h4⟩, h5⟩, h6⟩, h7⟩ := h
  exact ⟨h1, h2, h3, h4, h5, h6, h7⟩

/-- See `PickOk`. -/
def pickB (E : Env) (size : Nat) (D : List (ClassId × Params)) (f : Field) : Pick → Bool
  | .same => true
  | .value c => match E.cls f.spec with
    | .any => usableB E size D c f.params
    | .parsable _ _ => usableB E size D c {}
    | _ => false
  | .field c => usableB E size D c f.params && !(Field.skippable f) && match E.cls f.spec with
    | .any => true
    | _ => match beginTags E choiceDepth c f.params with
      | some l => l.all (fun x => ownTag E f.spec f.params == some x)
      | none => false

include hD in
theorem pickB_sound {f : Field} {q : Pick} (h : pickB E size D f q = true) : PickOk E (· < size) f q := by
  cases q with
  | same => trivial
  | value c =>
    rw [pickB] at h
    unfold PickOk
    cases hc : E.cls f.spec <;> rw [hc] at h <;> first | exact usableB_sound hD h | cases h
  | field c =>
    rw [pickB, Bool.and_eq_true, Bool.and_eq_true, Bool.not_eq_true'] at h
    obtain ⟨⟨h1, h2⟩, h3⟩ := h
    refine ⟨usableB_sound hD h1, h2, fun id hb => ?_⟩
    split at h3
    · next hc => exact .inl hc
    · split at h3
      · next l hl =>
        have := List.all_eq_true.mp h3 id (beginTags_sound _ hl id hb)
        exact .inr (ownTag_sound (by simpa using this))
      · cases h3

/-- See `OidOk`. -/
def oidB (E : Env) (size : Nat) (D : List (ClassId × Params)) (fields : List Field) (p : OidPair) : Bool :=
  decide (p.oid < p.value) && (p.sub.isNone || match fields[p.oid]? with
    | none => true
    | some f => f.params.default.isNone && match E.cls f.spec with
      | .seq _ _ _ fs _ => quietB E fs
      | _ => false) &&
  match fields[p.value]? with
  | none => true
  | some f => p.specs.all (fun e => pickB E size D f e.2) && (match p.other with
    | .ok q => pickB E size D f q
    | .error _ => true) && (!(Field.skippable f) || (p.sub.isNone && match p.other with
      | .ok _ => true
      | .error _ => false))

include hD in
theorem oidB_sound {fields : List Field} {p : OidPair} (h : oidB E size D fields p = true) : OidOk E (· < size) fields p := by
  rw [oidB, Bool.and_eq_true, Bool.and_eq_true, decide_eq_true_eq] at h
  obtain ⟨⟨h1, h2⟩, h3⟩ := h
  refine ⟨h1, fun k f hs hf => ?_, fun f hf => ?_⟩
  · rw [hs, hf] at h2
    simp only [Option.isNone_some, Bool.false_or, Bool.and_eq_true, Option.isNone_iff_eq_none] at h2
    refine ⟨h2.1, ?_⟩
    have h4 := h2.2
    split at h4
    · next hc => exact ⟨_, _, _, _, _, hc, quietB_sound h4⟩
    · cases h4
  · rw [hf] at h3
    simp only [Bool.and_eq_true, Bool.or_eq_true, Bool.not_eq_true', Option.isNone_iff_eq_none, List.all_eq_true] at h3
    obtain ⟨⟨h4, h5⟩, h6⟩ := h3
    refine ⟨fun e he => pickB_sound hD (h4 e he), fun q hq => ?_, fun hs => ?_⟩
    · rw [hq] at h5
      exact pickB_sound hD h5
    · rcases h6 with h6 | h6
      · rw [hs] at h6; cases h6
      · refine ⟨h6.1, ?_⟩
        cases ho : p.other with
        | ok q => exact ⟨q, rfl⟩
        | error e => rw [ho] at h6; cases h6.2

/-- The definition of one class. -/
def classB (E : Env) (size : Nat) (D : List (ClassId × Params)) (c : ClassId) : Bool :=
  match E.cls c with
  | .leaf proto _ => bareB proto.base 0
  | .seq proto _ isSet fields oid => bareB proto 1 && fields.all (fun f => usableB E size D f.spec f.params) &&
      (if isSet then distinctB E fields && fields.all (fun f => plainB E f && (f.params.default.isNone || !f.params.optional)) else apartB E fields && match oid with
        | none => true
        | some p => oidB E size D fields p)
  | .seqOf proto _ _ ch => bareB proto 1 && match ch with
      | none => true
      | some d => usableB E size D d {}
  | .choice e tagged alts => e.isEmpty && tagged.isNone && distinctB E alts && 
      alts.all (fun f => plainB E f && (decide (size ≤ f.spec) || usableB E size D f.spec f.params))
  | .any => true
  | .parsable o _ => bareB o 0

/-- The definitions of the classes with the numbers below `size`. -/
def typesB (E : Env) (size : Nat) (D : List (ClassId × Params)) : Bool := (List.range size).all (classB E size D)

include hD in
theorem typesB_sound (hu : ∀ tag c, E.universal tag = some c → c < size) (h : typesB E size D = true) : Types E (· < size) := by
  have key : ∀ c, c < size → classB E size D c = true := fun c hc => List.all_eq_true.mp h c (List.mem_range.mpr hc)
  refine ⟨fun c proto bad hc hE => ?_, fun c proto bad isSet fields oid hc hE => ?_, fun c proto bad isSet ch hc hE => ?_,
    fun c e tagged alts hc hE => ?_, fun c o b hc hE => ?_, hu⟩
  all_goals have hk := key c hc; rw [classB, hE] at hk
  · exact bareB_sound hk
  · simp only [Bool.and_eq_true, List.isEmpty_iff, List.all_eq_true] at hk
    obtain ⟨⟨h2, h3⟩, h4⟩ := hk
    refine ⟨bareB_sound h2, fun f hf => usableB_sound hD (h3 f hf), fun hs => ?_, fun hs => ?_⟩
    · subst hs
      simp only [Bool.false_eq_true, if_false, Bool.and_eq_true] at h4
      refine ⟨apartB_sound h4.1, fun p hp => ?_⟩
      subst hp
      exact oidB_sound hD h4.2
    · subst hs
      simp only [if_true, Bool.and_eq_true, List.all_eq_true] at h4
      refine ⟨distinctB_sound h4.1, fun f hf => ⟨plainB_sound (h4.2 f hf).1, fun hd => ?_⟩⟩
      have := (h4.2 f hf).2
      cases hdd : f.params.default with
      | none => rw [hdd] at hd; cases hd
      | some d => rw [hdd] at this; simpa using this
  · simp only [Bool.and_eq_true] at hk
    refine ⟨bareB_sound hk.1, fun d hd => ?_⟩
    subst hd
    exact usableB_sound hD hk.2
  · simp only [Bool.and_eq_true, List.isEmpty_iff, Option.isNone_iff_eq_none, List.all_eq_true, Bool.or_eq_true, decide_eq_true_eq] at hk
    obtain ⟨⟨⟨h1, h2⟩, h3⟩, h4⟩ := hk
    exact ⟨h1, h2, distinctB_sound h3, fun f hf => ⟨plainB_sound (h4 f hf).1, fun hu => usableB_sound hD ((h4 f hf).2.resolve_left (Nat.not_le.mpr hu))⟩⟩
  · exact bareB_sound hk

end Asn1
