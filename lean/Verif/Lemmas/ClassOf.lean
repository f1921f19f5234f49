import Verif.Props.C15
import Verif.Props.C16

namespace Asn1.Props
open Asn1 Spec

/-! # Reading does not change the class of a value, and loading gives one of the class asked for -/

theorem class_native {E : Env} {r : Ops} {v v' : Val} {x : PyVal} (h : nativeStep E r v = .ok (x, v')) : v'.classOf = v.classOf := by
  cases v with
  | void => cases h; rfl
  | leaf c s =>
    simp only [nativeStep, py_bind] at h
    obtain ⟨_, _, h⟩ := h
    cases h; rfl
  | node c o children m =>
    simp only [nativeStep, nodeNative, py_bind] at h
    obtain ⟨⟨o', ch', m'⟩, _, h⟩ := h
    simp only at h
    split at h
    · cases h; rfl
    · simp only [py_bind] at h
      obtain ⟨cs, _, h⟩ := h
      split at h
      · simp only [py_bind] at h
        obtain ⟨_, _, h⟩ := h
        cases h; rfl
      · simp only [py_bind] at h
        obtain ⟨_, _, h⟩ := h
        cases h; rfl
  | parsable c o parsed pspec =>
    simp only [nativeStep] at h
    split at h
    · cases h; rfl
    · simp only [py_bind] at h
      obtain ⟨_, _, h⟩ := h
      cases h; rfl
    · simp only [py_bind] at h
      obtain ⟨_, _, h⟩ := h
      cases h; rfl
  | choice c o alt parsed =>
    simp only [nativeStep, py_bind] at h
    obtain ⟨_, _, _, _, h⟩ := h
    cases h; rfl
  | any c o parsed pspec =>
    cases parsed with
    | some w =>
      simp only [nativeStep, py_bind] at h
      obtain ⟨_, h0, _, _, h⟩ := h
      cases h0
      cases h; rfl
    | none =>
      simp only [nativeStep, py_bind, anyParse] at h
      obtain ⟨⟨w, a⟩, h0, ⟨n, w'⟩, _, h⟩ := h
      split at h0
      · simp only [py_bind] at h0
        obtain ⟨_, _, h0⟩ := h0
        cases h0
        cases h; rfl
      · cases h0

theorem class_contents {E : Env} {r : Ops} {v v' : Val} {x : Option Bytes} (h : contentsStep E r v = .ok (x, v')) : v'.classOf = v.classOf := by
  cases v with
  | node c o children m =>
    simp only [contentsStep, py_bind] at h
    obtain ⟨_, _, h⟩ := h
    cases h; rfl
  | choice c o alt parsed =>
    cases parsed with
    | none => cases h; rfl
    | some p =>
      simp only [contentsStep, py_bind] at h
      obtain ⟨_, _, h⟩ := h
      cases h; rfl
  | _ => cases h; rfl

theorem class_dump {E : Env} {r : Ops} {v v' : Val} {f : Bool} {b : Bytes} (h : dumpStep E r v f = .ok (b, v')) : v'.classOf = v.classOf := by
  cases v with
  | void => cases h; rfl
  | leaf c s =>
    simp only [dumpStep, py_bind] at h
    obtain ⟨_, _, h⟩ := h
    cases h; rfl
  | node c o children m =>
    obtain ⟨_, _, _, rfl⟩ := nodeDump_node h
    rfl
  | parsable c o parsed pspec =>
    simp only [dumpStep, parsableDump] at h
    split at h
    · cases parsed with
      | some w =>
        simp only [py_bind] at h
        obtain ⟨_, _, _, _, h⟩ := h
        cases h; rfl
      | none =>
        cases hc : o.contents with
        | none => rw [hc] at h; cases h
        | some d =>
          simp only [hc, py_bind] at h
          obtain ⟨_, _, _, _, h⟩ := h
          cases h; rfl
    · simp only [py_bind] at h
      obtain ⟨_, _, h⟩ := h
      cases h; rfl
  | choice c o alt parsed =>
    simp only [dumpStep, choiceDump, py_bind] at h
    obtain ⟨_, _, _, _, h⟩ := h
    split at h
    · cases h; rfl
    · simp only [py_bind] at h
      obtain ⟨_, _, h⟩ := h
      cases h; rfl
  | any c o parsed pspec =>
    cases parsed with
    | some w =>
      simp only [dumpStep, py_bind] at h
      obtain ⟨_, _, h⟩ := h
      cases h; rfl
    | none =>
      simp only [dumpStep, py_bind, anyParse] at h
      obtain ⟨⟨w, a⟩, h0, ⟨n, w'⟩, _, h⟩ := h
      split at h0
      · simp only [py_bind] at h0
        obtain ⟨_, _, h0⟩ := h0
        cases h0
        cases h; rfl
      · cases h0

theorem class_access {E : Env} {top : Bool} {v v' : Val} (h : Access E top v v') : v'.classOf = v.classOf := by
  induction h with
  | refl => rfl
  | trans _ _ ih1 ih2 => rw [ih2, ih1]
  | @native _ n _ _ _ h =>
    cases n with
    | zero => cases h
    | succ n => exact class_native h
  | @contents _ n _ _ _ h =>
    cases n with
    | zero => cases h
    | succ n => exact class_contents h
  | @dump _ n _ _ _ h =>
    cases n with
    | zero => cases h
    | succ n => exact class_dump h
  | @item _ n v _ _ _ h =>
    cases v with
    | node c o children m =>
      simp only [getItem, py_bind] at h
      obtain ⟨cs, _, h⟩ := h
      split at h
      · cases h
      · cases h
      · simp only [py_bind] at h
        obtain ⟨_, _, h⟩ := h
        cases h; rfl
    | _ => cases h
  | @len _ n v v' k h =>
    cases v with
    | node c o children m =>
      simp only [lenOf, py_bind] at h
      obtain ⟨_, _, h⟩ := h
      cases h; rfl
    | _ => cases h
  | strParse h =>
    simp only [parsableParse] at h
    split at h
    · cases h; rfl
    · simp only [py_bind] at h
      obtain ⟨_, _, _, _, h⟩ := h
      cases h; rfl
  | @anyParsed _ n c o s x a h =>
    simp only [anyParse] at h
    split at h
    · simp only [py_bind] at h
      obtain ⟨_, _, h⟩ := h
      cases h; rfl
    · cases h
  | @anyParse _ n c o p s spec x a h _ =>
    simp only [Asn1.anyParse] at h
    split at h
    · cases h; rfl
    · split at h
      · simp only [py_bind] at h
        obtain ⟨_, _, h⟩ := h
        cases h; rfl
      · cases h
  | _ => rfl

theorem class_choiceBase {E : Env} {r : Ops} {c : ClassId} {i : Info} {v : Val} (h : buildChoiceBase E r c i = .ok v) : v.classOf = some c := by
  unfold buildChoiceBase at h
  split at h
  · simp only [py_bind] at h
    obtain ⟨k, _, h⟩ := h
    split at h
    · cases h
    · simp only [py_bind] at h
      obtain ⟨_, _, h⟩ := h
      cases h; rfl
  · cases h

theorem class_choice {E : Env} {r : Ops} {c : ClassId} {es : List (Nat × Nat)} {i : Info} {v : Val} (h : buildChoice E r c es i = .ok v) :
    v.classOf = some c := by
  unfold buildChoice at h
  split at h
  · exact class_choiceBase h
  · simp only [py_bind] at h
    obtain ⟨_, _, w, hw, h⟩ := h
    cases h
    rw [← class_choiceBase hw]
    cases w <;> rfl

theorem class_build {E : Env} {n : Nat} {i : Info} {c : ClassId} {p : Params} {v : Val} (hp : p.default = none)
    (hc : E.cls c ≠ .any) (h : (ops E n).build i (some c) p none = .ok v) : v.classOf = some c := by
  cases n with
  | zero => cases h
  | succ n =>
    change buildStep E (ops E n) i (some c) p none = .ok v at h
    simp only [buildStep, py_bind] at h
    obtain ⟨w, h, h'⟩ := h
    cases h'
    simp only [buildPlain] at h
    split at h
    · simp only [py_bind] at h
      obtain ⟨_, _, s, _, h⟩ := h
      cases h; rfl
    · simp only [py_bind, hp] at h
      obtain ⟨_, _, o, _, h⟩ := h
      cases ho : o.explicit <;> rw [ho] at h <;> (cases h; rfl)
    · simp only [py_bind] at h
      obtain ⟨_, _, o, _, h⟩ := h
      cases h; rfl
    · split at h
      · cases h
      · split at h
        · cases h
        · exact class_choice h
    · next hcls => exact absurd hcls hc
    · simp only [py_bind] at h
      obtain ⟨_, _, o, _, h⟩ := h
      cases h; rfl

theorem class_load {E : Env} {n : Nat} {c : ClassId} {p : Params} {v : Val} {data : Bytes} {strict : Bool} (hp : p.default = none)
    (hc : E.cls c ≠ .any) (h : loadVal E (ops E n) c p data strict = .ok v) : v.classOf = some c := by
  unfold loadVal at h
  obtain ⟨i, _, h⟩ := py_bind.mp h
  have h : (ops E n).build i (some c) p none = .ok v := by
    revert h hc
    cases E.cls c <;> first | exact fun hc h => absurd rfl hc | exact fun _ h => h
  exact class_build hp hc h

/-! # The outermost tag of what is loaded -/

theorem loadObj_outer {ν : Type} {k : Bool} {bad : List Nat} {q o : Obj ν} {t : TLV} {rest : Bytes} (hb : Ber 11 t)
    (h : loadObj k bad q (t.bytes ++ rest) = .ok o) :
    t.cls = ((q.explicit.getLast?).getD (q.cls, q.tag)).1 ∧
      (t.tag = ((q.explicit.getLast?).getD (q.cls, q.tag)).2 ∨ q.explicit = [] ∧ t.tag ∈ bad) := by
  obtain ⟨_, ct, hct⟩ := loadObj_contents h
  obtain ⟨v, w, rest', h1, h2, h3, h4, h5, _⟩ := loadObj_iff.mp ⟨o, h, hct⟩
  have hv : t = v := (Ber_unique hb h2 h1).1
  subst hv
  rw [← List.head?_reverse]
  generalize hes : q.explicit.reverse = es at h3
  cases h3 with
  | nil =>
    refine ⟨h4, ?_⟩
    rcases h5 with h | h
    · exact .inl h
    · exact .inr ⟨by simpa using hes, h⟩
  | cons => exact ⟨rfl, .inl rfl⟩

theorem loadObj_refused {ν : Type} {k : Bool} {bad : List Nat} {q : Obj ν} (he : q.explicit = []) {t : TLV} (hb : Ber 11 t)
    (ht : t.cls ≠ q.cls ∨ t.tag ≠ q.tag ∧ t.tag ∉ bad) (rest : Bytes) : loadObj k bad q (t.bytes ++ rest) = .error .valueError := by
  cases h : loadObj k bad q (t.bytes ++ rest) with
  | error e => rw [loadObj_error h]
  | ok o =>
    obtain ⟨h1, h2⟩ := loadObj_outer hb h
    rw [he] at h1 h2
    rcases ht with ht | ⟨ht, ht'⟩
    · exact absurd h1 ht
    · rcases h2 with h2 | ⟨_, h2⟩
      · exact absurd h2 ht
      · exact absurd h2 ht'

/-- The other tag numbers a class accepts. -/
def Shape.otherTags : Shape → List Nat
  | .leaf _ bad => bad
  | .seq _ bad _ _ _ => bad
  | .seqOf _ bad _ _ => bad
  | _ => []

/-- The outermost tag of a value of a class with the tag `d`, which is made with these params. -/
def outermost (d : Nat × Nat) (p : Params) : Nat × Nat := p.explicit.getLast?.getD (p.implicit.getD d)

theorem init_outer {ν : Type} (o : Obj ν) (ho : o.explicit = []) (p : Params) (hn : p.noExplicit = false) :
    ((initTagging o p.tags).explicit.getLast?).getD ((initTagging o p.tags).cls, (initTagging o p.tags).tag) = outermost (o.cls, o.tag) p := by
  obtain ⟨h1, h2, _⟩ := initTagging_fields o p hn
  rw [h1, h2, ho, List.nil_append]
  unfold outermost effTag
  by_cases h : p.explicit = []
  · rw [h, if_pos rfl]
  · rw [if_neg h, List.getLast?_eq_some_getLast h]; rfl

theorem load_parsable (E : Env) (n : Nat) (c : ClassId) {proto : Obj Bytes} {isBit : Bool} (hE : E.cls c = .parsable proto isBit) (p : Params) (hd : p.default = none)
    (he : proto.explicit = []) (data : Bytes) (strict : Bool) :
    loadVal E (ops E (n + 1)) c p data strict =
      (loadObj true [] (initTagging proto p.tags) data strict).map (fun o => .parsable c o none none) := by
  have hb : p.buildTags proto.explicit = p.tags := by
    unfold Params.buildTags
    rw [if_neg (fun h => h.2 he)]
  unfold loadVal loadObj
  cases hp : parse data strict with
  | error e => rfl
  | ok i =>
    simp only [bind, Except.bind, hE]
    show buildStep E (ops E n) i (some c) p none = _
    simp only [buildStep, buildPlain, hE, defaultCheck, hd, Option.isSome_none, Bool.false_eq_true, and_false, if_false, bind, Except.bind, hb]
    cases hbo : buildObj true [] (initTagging proto p.tags) i with
    | error e => rfl
    | ok o => rfl

/-- What loading a class with a tag of its own does is decided by the element. -/
theorem load_obj (E : Env) (n : Nat) (c : ClassId) (hc : HasTag (E.cls c)) (he : (E.cls c).tagging.2.2.2 = []) (p : Params) (hd : p.default = none)
    (hn : p.noExplicit = false) :
    ∃ (ν : Type) (k : Bool) (q : Obj ν) (f : Obj ν → Val),
      (q.explicit.getLast?).getD (q.cls, q.tag) = outermost ((E.cls c).tagging.1, (E.cls c).tagging.2.1) p ∧
      (p.explicit = [] → q.explicit = []) ∧
      ∀ data, loadVal E (ops E (n + 1)) c p data = (loadObj k (Shape.otherTags (E.cls c)) q data).map f := by
  have hz : ∀ {ν : Type} (o : Obj ν), o.explicit = [] → p.explicit = [] → (initTagging o p.tags).explicit = [] := by
    intro ν o h1 h2
    rw [(initTagging_fields o p hn).2.1, h1, h2]; rfl
  cases hE : E.cls c with
  | leaf proto bad =>
    rw [hE] at he
    exact ⟨_, _, _, _, init_outer proto.base he p hn, hz _ he, fun data => load_leaf E n c proto bad hE p hd hn (.inr he) data false⟩
  | seq proto bad isSet fields oid =>
    rw [hE] at he
    exact ⟨_, _, _, _, init_outer proto he p hn, hz _ he, fun data => load_node E n c proto bad (.inl ⟨_, _, _, hE⟩) p hd (.inr he) data false⟩
  | seqOf proto bad isSet child =>
    rw [hE] at he
    exact ⟨_, _, _, _, init_outer proto he p hn, hz _ he, fun data => load_node E n c proto bad (.inr ⟨_, _, hE⟩) p hd (.inr he) data false⟩
  | choice => rw [hE] at hc; exact hc.elim
  | any => rw [hE] at hc; exact hc.elim
  | parsable proto isBit =>
    rw [hE] at he
    exact ⟨_, _, _, _, init_outer proto he p hn, hz _ he, fun data => load_parsable E n c hE p hd he data false⟩

end Asn1.Props
