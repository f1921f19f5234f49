import Verif.Lemmas.LeafGood
import Verif.Lemmas.Choice
import Verif.Lemmas.Elements
import Verif.Spec.Given

/-! # Instances that represent a value, and what the operations must do with them -/

namespace Asn1
open Spec

/-- The tagging of a SEQUENCE or SEQUENCE OF instance. -/
structure NodeTag (proto : Obj Unit) (p : Params) (o : Obj Unit) : Prop where
  tag : (o.cls, o.tag) = effTag (proto.cls, proto.tag) p
  method : o.method = 1
  implicit : o.implicit = (p.explicit.isEmpty && p.implicit.isSome)
  explicit : o.explicit = p.explicit

/-- A header that is kept belongs to the contents. -/
def Headed (E : Env) (q : Bool) (c : ClassId) (p : Params) (a : AVal) (o : Obj Unit) (data : Bytes) : Prop :=
  ∀ h, o.header = some h → ∃ t : TLV, t.bytes = h ++ data ++ o.trailer ∧ Dec E c p t a ∧ (q = true → t.trailer = [])

mutual
/-- The instance `v` of class `c`, tagged with `p`, stands for `a`; with `q` its encoding has no end-of-contents octets of its
own. If nothing is marked as changed, the contents are those of `a`. -/
inductive Rep (E : Env) : Bool → ClassId → Params → Val → AVal → Prop
  | leaf {q : Bool} {c : ClassId} {p : Params} {st proto : LeafSt} {bad : List Nat} {s : Scalar} :
      E.cls c = .leaf proto bad → LeafRep q p proto st s → Rep E q c p (.leaf c st) (.prim s)
  | seqRaw {q : Bool} {c : ClassId} {p : Params} {o proto : Obj Unit} {bad : List Nat} {fields : List Field} {as : List AVal} {data : Bytes} :
      E.cls c = .seq proto bad false fields none → NodeTag proto p o → o.contents = some data → FieldsDec E fields data as →
      Headed E q c p (.seq as) o data → Rep E q c p (.node c o none false) (.seq as)
  | seq {q : Bool} {c : ClassId} {p : Params} {o proto : Obj Unit} {bad : List Nat} {fields : List Field} {as : List AVal} {cs : List Child}
      {m : Bool} :
      E.cls c = .seq proto bad false fields none → NodeTag proto p o → FieldsRep E fields cs as →
      ((Val.node c o (some cs) m).isMutated = false → ∃ data, o.contents = some data ∧
        (Complete fields as → FieldsDec E fields data as ∧ Headed E q c p (.seq as) o data)) →
      Rep E q c p (.node c o (some cs) m) (.seq as)
  | listRaw {q : Bool} {c : ClassId} {p : Params} {o proto : Obj Unit} {bad : List Nat} {ch : ClassId} {as : List AVal} {data : Bytes} :
      E.cls c = .seqOf proto bad false (some ch) → NodeTag proto p o → o.contents = some data → ListDec E ch data as →
      Headed E q c p (.list as) o data → Rep E q c p (.node c o none false) (.list as)
  | list {q : Bool} {c : ClassId} {p : Params} {o proto : Obj Unit} {bad : List Nat} {ch : ClassId} {as : List AVal} {cs : List Child}
      {m : Bool} :
      E.cls c = .seqOf proto bad false (some ch) → NodeTag proto p o → ListRep E ch cs as →
      ((Val.node c o (some cs) m).isMutated = false → ∃ data, o.contents = some data ∧ ListDec E ch data as ∧ Headed E q c p (.list as) o data) →
      Rep E q c p (.node c o (some cs) m) (.list as)
  | choice {q : Bool} {c : ClassId} {p : Params} {o : Obj Unit} {alts : List Field} {k : Nat} {f : Field} {v : Val} {a : AVal} :
      E.cls c = .choice [] none alts → p.explicit = [] → alts[k]? = some f → o.explicit = [] → (o.header = none ∨ o.header = some []) →
      Rep E true f.spec f.params v a → Rep E q c p (.choice c o (some k) (some v)) (.alt k a)
/-- The children of a SEQUENCE. -/
inductive FieldsRep (E : Env) : List Field → List Child → List AVal → Prop
  | nil : FieldsRep E [] [] []
  | lazy {f : Field} {fs : List Field} {i : Info} {cs : List Child} {a : AVal} {as : List AVal} :
      Dec E f.spec f.params i.tlv a → FieldsRep E fs cs as → FieldsRep E (f :: fs) (.lazy i (some f.spec) none :: cs) (a :: as)
  | val {f : Field} {fs : List Field} {v : Val} {cs : List Child} {a : AVal} {as : List AVal} :
      Rep E false f.spec f.params v a → FieldsRep E fs cs as → FieldsRep E (f :: fs) (.val v :: cs) (a :: as)
  | void {f : Field} {fs : List Field} {cs : List Child} {as : List AVal} :
      f.params.default = none → FieldsRep E fs cs as → FieldsRep E (f :: fs) (.val .void :: cs) (.absent :: as)
/-- The children of a SEQUENCE OF. -/
inductive ListRep (E : Env) : ClassId → List Child → List AVal → Prop
  | nil {ch : ClassId} : ListRep E ch [] []
  | lazy {ch : ClassId} {i : Info} {cs : List Child} {a : AVal} {as : List AVal} :
      Dec E ch {} i.tlv a → ListRep E ch cs as → ListRep E ch (.lazy i (some ch) none :: cs) (a :: as)
  | val {ch : ClassId} {v : Val} {cs : List Child} {a : AVal} {as : List AVal} :
      Rep E false ch {} v a → ListRep E ch cs as → ListRep E ch (.val v :: cs) (a :: as)
end

/-- The tagging arguments of a copy are those of the params. -/
def TagArgs (E : Env) (c : ClassId) (p : Params) (cl tg : Nat) (im : Bool) (es : List (Nat × Nat)) : Prop :=
  es = p.explicit ∧
  match E.cls c with
  | .choice _ _ _ => p.explicit = []
  | sh => (cl, tg) = effTag (sh.tagging.1, sh.tagging.2.1) p ∧ im = (p.explicit.isEmpty && p.implicit.isSome)

/-- An instance that can be assigned, made with some tagging. -/
def Inst (E : Env) (U : ClassId → Prop) (q : Bool) (c : ClassId) (p : Params) (v : Val) (a : AVal) : Prop := GoodUse E U c p ∧ Rep E q c p v a

/-- The operations treat instances as what they stand for. -/
structure Sim (E : Env) (U : ClassId → Prop) (r : Ops) : Prop where
  build : ∀ {q c p a i v}, GoodUse E U c p → Dec E c p i.tlv a → (q = true → i.trailer = []) → r.build i (some c) p none = .ok v → Rep E q c p v a
  native : ∀ {q c p v v' a x}, GoodUse E U c p → Rep E q c p v a → r.native v = .ok (x, v') → x = a.native E c ∧ Rep E q c p v' a
  dump : ∀ {q c p v v' a b force}, GoodUse E U c p → Rep E q c p v a → r.dump v force = .ok (b, v') →
    Rep E q c p v' a ∧ ∃ t : TLV, t.bytes = b ∧ Dec E c p t a ∧ (q = true → t.trailer = [])
  dumpWhole : ∀ {q c p v v' a b force}, GoodUse E U c p → Rep E q c p v a → r.dump v force = .ok (b, v') → Whole E c a
  contents : ∀ {q c p v v' a b}, GoodUse E U c p → Rep E q c p v a → r.contents v = .ok (b, v') → Rep E q c p v' a
  default : ∀ {q f v}, GoodUse E U f.spec f.params → f.params.default.isSome = true → r.construct f.spec f.params (.scalar .none) = .ok v →
    ∃ a, DefaultIs E f a ∧ Rep E q f.spec f.params v a
  construct : ∀ {q c p x v a}, GoodUse E U c p → Conv E (Inst E U) q c p x a → r.construct c p x = .ok v → Rep E q c p v a
  copyTo : ∀ {q q' c p p' v v' a cl tg im es}, GoodUse E U c p → GoodUse E U c p' → Rep E q c p v a → Whole E c a →
    TagArgs E c p' cl tg im es → r.copyTo v cl tg im es = .ok v' → Rep E q' c p' v' a
  voidNative : ∀ {x v}, r.native .void = .ok (x, v) → x = .scalar .none ∧ v = .void
  voidDump : ∀ {b v force}, r.dump .void force = .ok (b, v) → b = [] ∧ v = .void
  voidContents : ∀ {b v}, r.contents .void = .ok (b, v) → v = .void

theorem goodParams {p : Params} (h : GoodTags p) : GoodParams p := ⟨h.keep, ⟨h.explicit, h.implicit⟩, h.one⟩

theorem plainNode_blank {o : Obj Unit} (h : PlainNode o) : BlankObj o 1 := by
  obtain ⟨cl, tg, h1, rfl⟩ := h
  exact ⟨h1, rfl, rfl, rfl, rfl, rfl, rfl⟩

/-! ### Determinacy of primitive encodings -/

theorem inside_cons {e : Nat × Nat} {es : List (Nat × Nat)} {t u : TLV} (h : Inside (e :: es) t u) :
    e = (t.cls, t.tag) ∧ t.method = 1 ∧ ∃ v, t.contents = v.bytes ∧ Ber 11 v ∧ Inside es v u := by
  generalize hl : e :: es = l at h
  cases h with
  | nil => cases hl
  | cons h1 h2 h3 h4 =>
    cases hl
    exact ⟨rfl, h1, _, h2, h3, h4⟩

theorem inside_unique {es : List (Nat × Nat)} {t u w : TLV} (h : Inside es t u) (h' : Inside es t w) : u = w := by
  induction es generalizing t with
  | nil => cases h; cases h'; rfl
  | cons e es ih =>
    obtain ⟨_, _, v, h2, h3, h4⟩ := inside_cons h
    obtain ⟨_, _, v', g2, g3, g4⟩ := inside_cons h'
    have : v = v' := (Ber_unique (r := []) (r' := []) h3 g3 (by rw [List.append_nil, List.append_nil, ← h2, ← g2])).1
    subst this
    exact ih h4 g4

theorem readsElement_unique {proto : LeafSt} {u : TLV} {s s' : Scalar} (h : ReadsElement proto u s) (h' : ReadsElement proto u s') : s = s' := by
  have reads : ∀ {ind d}, Reads proto ind d s → Reads proto ind d s' → s = s' := by
    intro ind d h h'
    obtain ⟨_, st, h1, _⟩ := h
    obtain ⟨_, st', h2, _⟩ := h'
    rw [h1] at h2
    cases h2; rfl
  rcases h with ⟨m, h⟩ | ⟨m, _, _, h⟩ <;> rcases h' with ⟨m', h'⟩ | ⟨m', _, _, h'⟩
  · exact reads h h'
  · rw [m] at m'; cases m'
  · rw [m] at m'; cases m'
  · exact reads h h'

theorem dec_leaf_unique {E : Env} {c : ClassId} {p : Params} {t : TLV} {a a' : AVal} {proto : LeafSt} {bad : List Nat}
    (hc : E.cls c = .leaf proto bad) (h : Dec E c p t a) (h' : Dec E c p t a') : a = a' := by
  cases h with
  | leaf h1 h2 h3 =>
    cases h' with
    | leaf g1 g2 g3 =>
      rw [h1] at g1
      cases g1
      have := inside_unique h2.inside g2.inside
      subst this
      rw [readsElement_unique h3 g3]
    | seq g1 => rw [hc] at g1; cases g1
    | seqOf g1 => rw [hc] at g1; cases g1
    | choice g1 => rw [hc] at g1; cases g1
  | seq g1 => rw [hc] at g1; cases g1
  | seqOf g1 => rw [hc] at g1; cases g1
  | choice g1 => rw [hc] at g1; cases g1

theorem default_unique {E : Env} {f : Field} {a a' : AVal} (h : DefaultIs E f a) (h' : DefaultIs E f a') : a = a' := by
  obtain ⟨proto, bad, d, s, h1, h2, h3, rfl, st, st', c, g1, g2, g3, g4, g5, g6⟩ := h
  obtain ⟨proto', bad', d', s', h1', h2', h3', rfl, st1, st1', c', g1', g2', g3', g4', g5', g6'⟩ := h'
  rw [h1] at h1'; cases h1'
  rw [h2] at h2'; cases h2'
  rw [g1] at g1'; cases g1'
  rw [g3] at g3'; cases g3'
  rfl

/-! ### Outermost tags -/

theorem goodUse_hasTag {E : Env} {U : ClassId → Prop} (hU : Universe E U) {c : ClassId} (hc : U c) (ht : HasTag (E.cls c)) :
    (E.cls c).tagging.2.2.2 = [] := by
  cases h : E.cls c with
  | leaf proto bad =>
    have := (plainLeaf_good (hU.leaf c proto bad hc h).2).blank.explicit
    exact this
  | seq proto bad isSet fields oid => exact (plainNode_blank (hU.seq c _ _ _ _ _ hc h).2.2.2.1).explicit
  | seqOf proto bad isSet ch => exact (plainNode_blank (hU.seqOf c _ _ _ _ hc h).2.2.1).explicit
  | choice e t alts => rw [h] at ht; exact ht.elim
  | any => exact absurd h (hU.any c hc)
  | parsable o b => exact absurd h (hU.parsable c o b hc)

theorem goodUse_plainTag {E : Env} {U : ClassId → Prop} (hU : Universe E U) {f : Field} (hg : GoodUse E U f.spec f.params)
    (ht : HasTag (E.cls f.spec)) : PlainTag E f :=
  ⟨hg.tags.keep, .inr ⟨ht, goodUse_hasTag hU hg.mem ht⟩⟩

theorem framed_outer {E : Env} {U : ClassId → Prop} (hU : Universe E U) {c : ClassId} {p : Params} {t u : TLV} (hg : GoodUse E U c p)
    (ht : HasTag (E.cls c)) (hF : Framed ((E.cls c).tagging.1, (E.cls c).tagging.2.1) p t u) : OuterTag E c p (t.cls, t.tag) := by
  have hx : explicitOf E c p = p.explicit := by
    unfold explicitOf
    rw [hg.tags.keep, goodUse_hasTag hU hg.mem ht]
    rfl
  obtain ⟨h1, h2, h3⟩ := hF
  by_cases he : p.explicit = []
  · rw [if_pos he] at h3
    rw [he, List.reverse_nil] at h2
    cases h2
    cases hi : p.implicit with
    | none =>
      rw [hi] at h3
      rw [h3]
      exact .own (hx.trans he) ht hi
    | some e =>
      rw [hi] at h3
      rw [h3]
      exact .implicit (hx.trans he) ht hi
  · apply OuterTag.explicit
    rw [hx]
    have : ∃ e es, p.explicit.reverse = e :: es := by
      cases hr : p.explicit.reverse with
      | nil => exact absurd (List.reverse_eq_nil_iff.mp hr) he
      | cons e es => exact ⟨e, es, rfl⟩
    obtain ⟨e, es, hr⟩ := this
    rw [hr] at h2
    rw [List.getLast?_eq_head?_reverse, hr]
    rw [(inside_cons h2).1]; rfl

theorem dec_outer {E : Env} {U : ClassId → Prop} (hU : Universe E U) {c : ClassId} {p : Params} {t : TLV} {a : AVal} (hg : GoodUse E U c p)
    (h : Dec E c p t a) : OuterTag E c p (t.cls, t.tag) := by
  have base : ∀ {c p a}, GoodUse E U c p → HasTag (E.cls c) → Dec E c p t a → OuterTag E c p (t.cls, t.tag) := by
    intro c p a hg ht h
    cases h with
    | leaf h1 h2 h3 => exact framed_outer hU hg ht (by rw [h1]; exact h2)
    | seq h1 h2 _ h3 => exact framed_outer hU hg ht (by rw [h1]; exact h2)
    | seqOf h1 h2 _ h3 => exact framed_outer hU hg ht (by rw [h1]; exact h2)
    | choice h1 => rw [h1] at ht; exact ht.elim
  cases h with
  | leaf h1 h2 h3 => exact base hg (by rw [h1]; trivial) (.leaf h1 h2 h3)
  | seq h1 h2 h3 h4 => exact base hg (by rw [h1]; trivial) (.seq h1 h2 h3 h4)
  | seqOf h1 h2 h3 h4 => exact base hg (by rw [h1]; trivial) (.seqOf h1 h2 h3 h4)
  | choice h1 h2 h3 h4 h5 =>
    rename_i k a alts f
    obtain ⟨_, _, _, hal⟩ := hU.choice c _ _ _ hg.mem h1
    have hm : f ∈ alts := List.mem_of_getElem? h3
    obtain ⟨g1, g2, g3⟩ := hal f hm
    refine .alternative ?_ h1 hm (base g1 ?_ h4)
    · unfold explicitOf
      rw [h1, hg.tags.keep, h2]; rfl
    · rcases g3.2 with g | g
      · cases hs : E.cls f.spec with
        | choice e t alts => exact absurd (g1.choice _ _ _ hs).1 g
        | any => exact absurd hs (hU.any _ g1.mem)
        | _ => trivial
      · exact g.1

/-- Whether an optional field is taken as absent. -/
theorem fieldAbsent_spec {E : Env} {U : ClassId → Prop} (hU : Universe E U) {f : Field} (hg : GoodUse E U f.spec f.params) (i : Info) :
    (OuterTag E f.spec f.params (i.cls, i.tag) → fieldAbsent E f i = .ok false) ∧
    (¬ OuterTag E f.spec f.params (i.cls, i.tag) → Field.skippable f = true → fieldAbsent E f i = .ok true) := by
  by_cases ht : HasTag (E.cls f.spec)
  · have hi := fieldIdent_iff (goodUse_plainTag hU hg ht) (i.cls, i.tag)
    constructor
    · intro h
      unfold fieldAbsent
      rw [hi.mpr h]
      simp
    · intro h hs
      unfold fieldAbsent
      rw [if_pos]
      · cases hc : E.cls f.spec with
        | choice _ _ _ => rw [hc] at ht; exact ht.elim
        | any => rw [hc] at ht; exact ht.elim
        | _ => rfl
      · rw [show (f.params.optional || f.params.default.isSome) = true from hs, Bool.true_and, bne_iff_ne]
        exact fun h' => h (hi.mp h')
  · cases hc : E.cls f.spec with
    | choice e tagged alts =>
      obtain ⟨rfl, rfl, hd, hal⟩ := hU.choice _ _ _ _ hg.mem hc
      obtain ⟨he, him⟩ := hg.choice _ _ _ hc
      have hdef : f.params.default = none := by
        cases hdf : f.params.default with
        | none => rfl
        | some d =>
          obtain ⟨_, proto, bad, _, _, hl, _⟩ := hg.default d hdf
          rw [hc] at hl; cases hl
      have hid : fieldIdent E f = none := by
        unfold fieldIdent
        rw [he, him, hc]; rfl
      have hex : explicitOf E f.spec f.params = [] := by
        unfold explicitOf
        rw [hc, hg.tags.keep, he]; rfl
      have hv1 : ∀ x a, alts.zipIdx.reverse.find? (fun a => fieldIdent E a.1 == some (i.cls, i.tag)) = some a →
          choiceValidate E (choiceExplicit [] f.params) none alts i.cls i.tag x = .ok a.2 := by
        intro x a h
        simp only [choiceValidate, choiceExplicit, hg.tags.keep, he, List.append_nil, Bool.false_eq_true, if_false, List.getLast?_nil, bind,
          Except.bind, h]
      have hv2 : ∀ x, alts.zipIdx.reverse.find? (fun a => fieldIdent E a.1 == some (i.cls, i.tag)) = none →
          choiceValidate E (choiceExplicit [] f.params) none alts i.cls i.tag x = .error (choiceMismatch E alts) := by
        intro x h
        simp only [choiceValidate, choiceExplicit, hg.tags.keep, he, List.append_nil, Bool.false_eq_true, if_false, List.getLast?_nil, bind,
          Except.bind, h]
      have hp : ∀ g ∈ alts, PlainTag E g := fun g hm => (hal g hm).2.2
      constructor
      · generalize hid2 : (i.cls, i.tag) = id2 at hv1
        intro h
        have : ∃ (k : Nat) (g : Field), alts[k]? = some g ∧ OuterTag E g.spec g.params id2 := by
          cases h with
          | explicit h1 => rw [hex] at h1; cases h1
          | implicit _ h2 => exact absurd h2 ht
          | own _ h2 => exact absurd h2 ht
          | alternative _ h1 h2 h3 =>
            rw [hc] at h1
            cases h1
            obtain ⟨k, hk⟩ := List.getElem?_of_mem h2
            exact ⟨k, _, hk, h3⟩
        obtain ⟨k, g, hk, ho⟩ := this
        unfold fieldAbsent
        simp only [hc, hdef, him, Option.isSome_none, Bool.false_eq_true, if_false, hv1 _ _ (find_alt hp hd hk ho)]
        split <;> rfl
      · intro h hs
        have hno : ∀ g ∈ alts, ¬ OuterTag E g.spec g.params (i.cls, i.tag) := fun g hm ho => h (.alternative hex hc hm ho)
        unfold fieldAbsent
        rw [if_pos]
        · simp only [hc, hdef, him, Option.isSome_none, Bool.false_eq_true, if_false, hv2 _ (find_no_alt hp hno), mismatch_plain hp]
        · rw [show (f.params.optional || f.params.default.isSome) = true from hs, hid]
          rfl
    | any => exact absurd hc (hU.any _ hg.mem)
    | _ => rw [hc] at ht; exact absurd trivial ht

end Asn1
