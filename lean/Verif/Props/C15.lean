import Verif.Lemmas.KeepBuild

/-!
# C15: loading then dumping reproduces the input bytes

`Access` is the relation "after some read-only accesses": `native`, `dump()`, `contents`, item access, `len()`, `chosen`,
`parse`, `parsed`, and accesses to values reached that way (which share state with the value they were reached from).
-/

namespace Asn1.Props
open Asn1 Asn1.Spec

/-- `cls.load` of `Any` loads without a spec (core.py:1066-1068). -/
def loadSpec (E : Env) (c : ClassId) : Option ClassId :=
  match E.cls c with
  | .any => none
  | _ => some c

/-- `v'` is the state of the value `v` after some read-only accesses. `top` says that the accesses are to the value itself
or to the chosen alternative of a Choice or the parsed value of an `Any` that it consists of, as opposed to a child of
a container or the payload of a string. The operations are those of the family `S`. -/
inductive AccessBy (E : Env) (S : Nat → Ops) : Bool → Val → Val → Prop
  | refl {top : Bool} {v : Val} : AccessBy E S top v v
  | trans {top : Bool} {v v' v'' : Val} : AccessBy E S top v v' → AccessBy E S top v' v'' → AccessBy E S top v v''
  /-- `value.native` -/
  | native {top : Bool} {n : Nat} {v v' : Val} {x : PyVal} : (S n).native v = .ok (x, v') → AccessBy E S top v v'
  /-- `value.dump()` -/
  | dump {top : Bool} {n : Nat} {v v' : Val} {b : Bytes} : (S n).dump v false = .ok (b, v') → AccessBy E S top v v'
  /-- `value.contents` -/
  | contents {top : Bool} {n : Nat} {v v' : Val} {x : Option Bytes} : (S n).contents v = .ok (x, v') → AccessBy E S top v v'
  /-- `value[idx]` -/
  | item {top : Bool} {n : Nat} {v v' x : Val} {idx : Nat} : getItem E (S n) v idx = .ok (x, v') → AccessBy E S top v v'
  /-- `len(value)` -/
  | len {top : Bool} {n : Nat} {v v' : Val} {k : Nat} : lenOf E (S n) v = .ok (k, v') → AccessBy E S top v v'
  /-- An access to a child. -/
  | child {top : Bool} {c : ClassId} {o : Obj Unit} {cs : List Child} {m : Bool} {idx : Nat} {x x' : Val} :
      cs[idx]? = some (.val x) → AccessBy E S false x x' →
      AccessBy E S top (.node c o (some cs) m) (.node c o (some (cs.set idx (.val x'))) m)
  /-- `choice.chosen` -/
  | chosen {top : Bool} {n : Nat} {c : ClassId} {o : Obj Unit} {alt : Option Nat} {parsed : Option Val} {x : Val} :
      choiceParse E (S n) c o alt parsed = .ok x → AccessBy E S top (.choice c o alt parsed) (.choice c o alt (some x))
  /-- An access to the chosen alternative. -/
  | alternative {top : Bool} {c : ClassId} {o : Obj Unit} {alt : Option Nat} {x x' : Val} : AccessBy E S top x x' →
      AccessBy E S top (.choice c o alt (some x)) (.choice c o alt (some x'))
  /-- `any.parsed` of a value not parsed yet -/
  | anyParsed {top : Bool} {n : Nat} {c : ClassId} {o : Obj Unit} {s : Option ClassId} {x a : Val} :
      anyParse (S n) c o none s none = .ok (x, a) → AccessBy E S top (.any c o none s) a
  /-- `any.parse(spec)` with a spec that keeps the bytes -/
  | anyParse {top : Bool} {n : Nat} {c : ClassId} {o : Obj Unit} {p : Option Val} {s spec : Option ClassId} {x a : Val} :
      anyParse (S n) c o p s spec = .ok (x, a) →
      (top = true → ∀ h cs, o.header = some h → o.contents = some cs → ∀ w rest, Ber 11 w →
        h ++ cs ++ o.trailer = w.bytes ++ rest → rest = [] ∧ Tidy E spec { explicit := o.explicit } w) →
      AccessBy E S top (.any c o p s) a
  /-- An access to the parsed value of an `Any`. -/
  | inAny {top : Bool} {c : ClassId} {o : Obj Unit} {s : Option ClassId} {x x' : Val} : AccessBy E S top x x' →
      AccessBy E S top (.any c o (some x) s) (.any c o (some x') s)
  /-- `string.parse(spec)` and `string.parsed` -/
  | strParse {top : Bool} {n : Nat} {c : ClassId} {o : Obj Bytes} {p : Option Val} {s spec : Option ClassId} {x a : Val} :
      parsableParse E (S n) c o p s spec = .ok (x, a) → AccessBy E S top (.parsable c o p s) a
  /-- `bytes(string)` -/
  | strBytes {top : Bool} {c : ClassId} {o o' : Obj Bytes} {p : Option Val} {s : Option ClassId} {b : Bytes} :
      parsableBytes (parsableProto E c).2 (parsableProto E c).1 o = .ok (b, o') →
      AccessBy E S top (.parsable c o p s) (.parsable c o' p s)
  /-- An access to the payload of a string. -/
  | payload {top : Bool} {c : ClassId} {o : Obj Bytes} {s : Option ClassId} {x x' : Val} : AccessBy E S false x x' →
      AccessBy E S top (.parsable c o (some x) s) (.parsable c o (some x') s)

/-- Read-only accesses with the operations of the library. -/
abbrev Access (E : Env) : Bool → Val → Val → Prop := AccessBy E (ops E)

/-- The bytes of an `Any` that has not been parsed are all that `dump()` can go by. -/
def unparsedAny : Val → Bool
  | .any _ _ none _ => true
  | .any _ _ (some v) _ => unparsedAny v
  | .choice _ _ _ (some v) => unparsedAny v
  | _ => false

theorem access_undisturbed {E : Env} {Q : Cond} {S : Nat → Ops} (hr : ∀ n, Reader E Q (S n)) (hS : ∀ n, Suits E Q (S n)) {top : Bool} {v v' : Val} (h : AccessBy E S top v v') :
    v'.isVoid = v.isVoid ∧ (calm E Q v → calm E Q v') ∧ (top = true → ∀ b, Keeps E Q v b → Keeps E Q v' b) := by
  have of : ∀ {top : Bool} {v v' : Val}, Undisturbed E Q v v' →
      v'.isVoid = v.isVoid ∧ (calm E Q v → calm E Q v') ∧ (top = true → ∀ b, Keeps E Q v b → Keeps E Q v' b) :=
    fun h => ⟨h.void, h.calm, fun _ => h.keeps⟩
  induction h with
  | refl => exact ⟨rfl, id, fun _ _ => id⟩
  | trans _ _ ih1 ih2 =>
    exact ⟨ih2.1.trans ih1.1, fun hc => ih2.2.1 (ih1.2.1 hc), fun ht b hb => ih2.2.2 ht b (ih1.2.2 ht b hb)⟩
  | @native _ n _ _ _ h => exact of ((hr n).native h)
  | @contents _ n _ _ _ h => exact of ((hr n).contents h)
  | @dump _ n _ _ _ h =>
    exact ⟨((hr n).dump h).1, ((hr n).dump h).2, fun _ b hb => ((hr n).keep hb h).2⟩
  | @item _ n _ _ _ _ h => exact of ((hr n).getItem (hS n) h)
  | @len _ n v v' k h =>
    cases v with
    | node c o children m =>
      simp only [lenOf, py_bind] at h
      obtain ⟨cs, h1, h⟩ := h
      cases h
      have hmain : calm E Q (.node c o children m) → calm E Q (.node c o (some cs) m) ∧
          (checkRequired E c children = .ok () → checkRequired E c (some cs) = .ok ()) := by
        intro hc
        obtain ⟨h2, h3⟩ := (hr n).ensure (hS n) c o children m cs h1 hc
        refine ⟨?_, h3⟩
        cases children with
        | none => exact ⟨hc.1, hc.2, h2⟩
        | some _ => exact ⟨hc.1, hc.2.1, h2⟩
      refine ⟨rfl, fun hc => (hmain hc).1, fun _ b hb => ?_⟩
      cases hb with
      | node k1 k2 k3 k4 k5 => exact Keeps.node k1 k2 k3 (hmain k4).1 ((hmain k4).2 k5)
    | _ => cases h
  | @child top c o cs m idx x x' hi _ ih =>
    have hv : (Child.val x').isVoid = (Child.val x).isVoid := ih.1
    have hc : calm E Q (.node c o (some cs) m) → calm E Q (.node c o (some (cs.set idx (.val x'))) m) := by
      intro hc
      have := (calmList_iff E Q _ _).mp hc.2.2 idx _ hi
      exact ⟨hc.1, hc.2.1, calmList_set E Q _ _ idx x' hc.2.2 (ih.2.1 this)⟩
    refine ⟨rfl, hc, fun _ b hb => ?_⟩
    cases hb with
    | node k1 k2 k3 k4 k5 =>
      refine Keeps.node k1 k2 k3 (hc k4) ?_
      unfold checkRequired at k5 ⊢
      split
      · next fields _ cs' hcls hce =>
        cases hce
        simp only [hcls] at k5
        exact requiredPresent_voids (map_isVoid_set hi hv) k5
      · rfl
  | @chosen top n c o alt parsed x h =>
    refine ⟨rfl, fun _ => trivial, fun _ b hb => ?_⟩
    have := (hr n).choiceParse h b hb
    subst this; exact hb
  | alternative _ ih =>
    refine ⟨rfl, fun _ => trivial, fun ht b hb => ?_⟩
    cases hb with
    | choice k1 k2 k3 => exact Keeps.choice k1 k2 (ih.2.2 ht _ k3)
  | @anyParsed top n c o s x a h =>
    obtain ⟨⟨o', s', rfl⟩, h3⟩ := (hr n).anyParse h
    refine ⟨rfl, fun _ => trivial, fun _ b hb => (h3 b hb (.inr ?_)).2⟩
    cases hb with | any k1 k2 k3 k4 => exact k4 rfl
  | @anyParse top n c o p s spec x a h hc =>
    obtain ⟨⟨o', s', rfl⟩, h3⟩ := (hr n).anyParse h
    refine ⟨rfl, fun _ => trivial, fun ht b hb => (h3 b hb (.inr ?_)).2⟩
    cases hb with | any k1 k2 k3 k4 => exact hc ht _ _ k1 k2
  | @inAny top c o s x x' _ ih =>
    refine ⟨rfl, fun _ => trivial, fun ht b hb => hb.any_replace (ih.2.2 ht _ ?_)⟩
    cases hb with | any k1 k2 k3 k4 => exact k3 _ rfl
  | strParse h =>
    simp only [parsableParse] at h
    split at h
    · cases h; exact ⟨rfl, fun _ => trivial, fun _ b hb => hb⟩
    · simp only [py_bind] at h
      obtain ⟨⟨b, o'⟩, h1, v, h2, h⟩ := h
      cases h
      exact ⟨rfl, fun _ => trivial, fun _ b hb => hb.parsable_frame (parsableBytes_frame h1)⟩
  | strBytes h => exact ⟨rfl, fun _ => trivial, fun _ b hb => hb.parsable_frame (parsableBytes_frame h)⟩
  | payload _ ih => exact ⟨rfl, fun _ => trivial, fun _ b hb => hb.parsable_frame ⟨rfl, rfl, rfl, rfl⟩⟩

theorem asn1Dump_returns {ν : Type} {k : Bool} {o : Obj ν} {h c : Bytes} (hh : o.header = some h) (hc : o.contents = some c)
    (he : headerEnds80 (some h) = false) : asn1Dump k o false = .ok (h ++ c ++ o.trailer, o) := by
  unfold asn1Dump
  rw [hc, hh]
  simp only [he, Bool.or_self]

/-- A value with a tag of its own. -/
def solid : Val → Bool
  | .leaf _ _ => true
  | .node _ _ _ _ => true
  | .parsable _ _ _ _ => true
  | _ => false

theorem solid_returns {E : Env} {Q : Cond} {v : Val} {b : Bytes} (hk : Keeps E Q v b) (hs : solid v = true) (m : Nat) :
    ∃ v', (ops E (m + 1)).dump v false = .ok (b, v') := by
  cases hk with
  | @leaf c s h cs k1 k2 k3 =>
    have hb := LeafSt.dump_base (s := s) (by rw [k1]; exact k2)
    rw [asn1Dump_returns k1 k3 k2] at hb
    cases hd : s.dump false with
    | error e => rw [hd] at hb; cases hb
    | ok q =>
      rw [hd] at hb
      simp only [Except.map, Except.ok.injEq, Prod.mk.injEq] at hb
      refine ⟨.leaf c q.2, ?_⟩
      show dumpStep E (ops E m) (.leaf c s) false = _
      simp only [dumpStep, hd, bind, Except.bind, hb.1]
  | @node c o children mu hd cs k1 k2 k3 k4 k5 =>
    refine ⟨.node c o children mu, ?_⟩
    show nodeDump E (ops E m) c o children mu false = _
    simp only [nodeDump, k1, k2, Bool.or_self, Bool.false_and, Bool.false_eq_true, if_false, bind, Except.bind, k5,
      nodeContents_calm c _ _ _ k4, asn1Dump_returns k1 k3 k2]
  | @parsable c o parsed pspec hd cs k1 k2 k3 k4 =>
    refine ⟨.parsable c o parsed pspec, ?_⟩
    show parsableDump E (ops E m) c o parsed pspec false = _
    simp only [parsableDump, k4, Bool.or_self, Bool.false_eq_true, if_false, bind, Except.bind, asn1Dump_returns k1 k3 k2]
  | choice => cases hs
  | any => cases hs

theorem keeps_returns {E : Env} {Q : Cond} {v : Val} {b : Bytes} (hk : Keeps E Q v b) : unparsedAny v = false →
    ∃ m₀, ∀ m, m₀ ≤ m → ∃ v', (ops E m).dump v false = .ok (b, v') := by
  have up : ∀ {P : Nat → Prop}, (∀ m, P (m + 1)) → ∃ m₀, ∀ m, m₀ ≤ m → P m := by
    intro P h
    refine ⟨1, fun m hm => ?_⟩
    obtain ⟨k, rfl⟩ : ∃ k, m = k + 1 := ⟨m - 1, by omega⟩
    exact h k
  induction hk with
  | leaf k1 k2 k3 => exact fun _ => up (solid_returns (Q := Q) (.leaf k1 k2 k3) rfl)
  | node k1 k2 k3 k4 k5 => exact fun _ => up (solid_returns (Q := Q) (.node k1 k2 k3 k4 k5) rfl)
  | parsable k1 k2 k3 k4 => exact fun _ => up (solid_returns (Q := Q) (.parsable k1 k2 k3 k4) rfl)
  | @choice c o alt w hd b k1 k2 k3 ih =>
    intro hu
    obtain ⟨m₀, h⟩ := ih hu
    refine ⟨m₀ + 1, fun m hm => ?_⟩
    obtain ⟨k, rfl⟩ : ∃ k, m = k + 1 := ⟨m - 1, by omega⟩
    obtain ⟨w', hw⟩ := h k (by omega)
    refine ⟨.choice c { o with contents := some b } alt (some w'), ?_⟩
    show choiceDump E (ops E k) c o alt (some w) false = _
    simp only [choiceDump, choiceParse, k1, k2, Bool.or_self, bind, Except.bind, hw]
  | @any c o parsed pspec hd cs k1 k2 k3 k4 ih =>
    intro hu
    cases parsed with
    | none => cases hu
    | some w =>
      obtain ⟨m₀, h⟩ := ih w rfl hu
      refine ⟨m₀ + 1, fun m hm => ?_⟩
      obtain ⟨k, rfl⟩ : ∃ k, m = k + 1 := ⟨m - 1, by omega⟩
      obtain ⟨w', hw⟩ := h k (by omega)
      refine ⟨.any c o (some w') pspec, ?_⟩
      show dumpStep E (ops E k) (.any c o (some w) pspec) false = _
      simp only [dumpStep, hw, bind, Except.bind]

theorem load_reads {E : Env} {Q : Cond} (hR : Regular E) {S : Nat → Ops} (hrd : ∀ n, Reader E Q (S n)) (hS : ∀ n, Suits E Q (S n)) {n : Nat} {c : ClassId} {p : Params} (hp : p.default = none)
    {data : Bytes} {strict : Bool} {v v' : Val} (hl : loadVal E (ops E n) c p data strict = .ok v)
    (ht : ∀ w rest, data = w.bytes ++ rest → Ber 11 w → Tidy E (loadSpec E c) p w) (ha : AccessBy E S true v v') :
    ∃ w rest, data = w.bytes ++ rest ∧ Ber 11 w ∧ (strict = true → rest = []) ∧ Keeps E Q v' w.bytes := by
  simp only [loadVal, py_bind] at hl
  obtain ⟨i, hi, hb⟩ := hl
  obtain ⟨rest, hr, hber, hst⟩ : ∃ rest, data = i.tlv.bytes ++ rest ∧ Ber 11 i.tlv ∧ (strict = true → rest = []) := by
    cases strict with
    | false =>
      obtain ⟨rest, h1, h2⟩ := (parse_ok_iff _ _).mp hi
      exact ⟨rest, h1, h2, fun h => by cases h⟩
    | true =>
      obtain ⟨h1, h2⟩ := (parse_strict_ok_iff _ _).mp hi
      exact ⟨[], by simpa using h1, h2, fun _ => rfl⟩
  have hb : (ops E n).build i (loadSpec E c) p none = .ok v := by
    unfold loadSpec
    split at hb
    · next hc => rw [hc]; exact hb
    · next hc =>
      have : (match E.cls c with | .any => none | _ => some c) = some c := by
        split
        · next h => exact absurd h hc
        · rfl
      rw [this]; exact hb
  have hk : Keeps E Q v i.tlv.bytes := ((builder hR Q n).of hp hb).2.2 hber (ht _ _ hr hber)
  have hk' := (access_undisturbed hrd hS ha).2.2 rfl _ hk
  exact ⟨i.tlv, rest, hr, hber, hst, hk'⟩

theorem load_keeps {E : Env} (hE : PlainSchema E) {n : Nat} {c : ClassId} {p : Params} (hp : p.default = none)
    {data : Bytes} {strict : Bool} {v v' : Val} (hl : loadVal E (ops E n) c p data strict = .ok v)
    (ht : ∀ w rest, data = w.bytes ++ rest → Ber 11 w → Tidy E (loadSpec E c) p w) (ha : Access E true v v') :
    ∃ w rest, data = w.bytes ++ rest ∧ Ber 11 w ∧ (strict = true → rest = []) ∧ Keeps E (SpecOk E) v' w.bytes :=
  load_reads (plain_regular hE) (reader hE) (fun n => plain_suits hE (ops E n)) hp hl ht ha

/-- Loading and then dumping gives the bytes of the first element of the data (all of the data if `strict`), and `dump()` does return them unless the value
is an `Any` not parsed yet. -/
theorem C15_undisturbed_partial {E : Env} (hE : Regular E) {n : Nat} {c : ClassId} {p : Params} (hp : p.default = none)
    {data : Bytes} {strict : Bool} {v : Val} (hl : loadVal E (ops E n) c p data strict = .ok v)
    (ht : ∀ w rest, data = w.bytes ++ rest → Ber 11 w → Tidy E (loadSpec E c) p w) :
    ∃ w rest, data = w.bytes ++ rest ∧ Ber 11 w ∧ (strict = true → rest = []) ∧
      (∀ m b v'', (ops E m).dump v false = .ok (b, v'') → b = w.bytes) ∧
      (unparsedAny v = false → ∃ m₀, ∀ m, m₀ ≤ m → ∃ v'', (ops E m).dump v false = .ok (w.bytes, v'')) := by
  obtain ⟨w, rest, h1, h2, h3, h4⟩ := load_reads (Q := fun _ _ => True) (S := fun _ => Ops.zero) hE (fun _ => Reader.zero E _ (fun _ _ _ => trivial))
    (fun _ => ⟨fun _ => trivial, fun _ _ _ _ _ _ _ _ _ => trivial, fun _ _ _ _ _ _ _ _ _ _ _ => trivial, fun _ _ _ _ _ _ _ _ _ _ _ _ => trivial,
      fun _ _ _ _ _ _ _ _ _ _ _ h => by cases h⟩) hp hl ht .refl
  exact ⟨w, rest, h1, h2, h3, fun m b v'' hd => (keeper hE _ m h4 hd).1, keeps_returns h4⟩

/-- Loading and then dumping, with any read-only accesses in between, gives the bytes of the first element of the data
(all of the data if `strict`), and `dump()` does return them unless the value is an `Any` not parsed yet. -/
theorem C15_load_dump_partial {E : Env} (hE : PlainSchema E) {n : Nat} {c : ClassId} {p : Params} (hp : p.default = none)
    {data : Bytes} {strict : Bool} {v v' : Val} (hl : loadVal E (ops E n) c p data strict = .ok v)
    (ht : ∀ w rest, data = w.bytes ++ rest → Ber 11 w → Tidy E (loadSpec E c) p w) (ha : Access E true v v') :
    ∃ w rest, data = w.bytes ++ rest ∧ Ber 11 w ∧ (strict = true → rest = []) ∧
      (∀ m b v'', (ops E m).dump v' false = .ok (b, v'') → b = w.bytes) ∧
      (unparsedAny v' = false → ∃ m₀, ∀ m, m₀ ≤ m → ∃ v'', (ops E m).dump v' false = .ok (w.bytes, v'')) := by
  obtain ⟨w, rest, h1, h2, h3, h4⟩ := load_keeps hE hp hl ht ha
  exact ⟨w, rest, h1, h2, h3, fun m b v'' hd => ((reader hE m).keep h4 hd).1, keeps_returns h4⟩

theorem solid_native {E : Env} {r : Ops} {v v' : Val} {x : PyVal} (h : nativeStep E r v = .ok (x, v')) (hs : solid v = true) :
    solid v' = true := by
  cases v with
  | leaf c s =>
    simp only [nativeStep, py_bind] at h
    obtain ⟨_, _, h⟩ := h
    cases h; rfl
  | node c o children m =>
    simp only [nativeStep, nodeNative, py_bind] at h
    obtain ⟨⟨o', ch', m'⟩, _, h⟩ := h
    simp only at h
    split at h
    · cases h; rfl
    · simp only [py_bind] at h
      obtain ⟨cs, _, h⟩ := h
      split at h
      · simp only [py_bind] at h
        obtain ⟨_, _, h⟩ := h
        cases h; rfl
      · simp only [py_bind] at h
        obtain ⟨_, _, h⟩ := h
        cases h; rfl
  | parsable c o parsed pspec =>
    simp only [nativeStep] at h
    split at h
    · cases h; rfl
    · simp only [py_bind] at h
      obtain ⟨_, _, h⟩ := h
      cases h; rfl
    · simp only [py_bind] at h
      obtain ⟨_, _, h⟩ := h
      cases h; rfl
  | _ => cases hs

theorem solid_contents {E : Env} {r : Ops} {v v' : Val} {x : Option Bytes} (h : contentsStep E r v = .ok (x, v')) (hs : solid v = true) :
    solid v' = true := by
  cases v with
  | leaf c s => cases h; rfl
  | node c o children m =>
    simp only [contentsStep, py_bind] at h
    obtain ⟨_, _, h⟩ := h
    cases h; rfl
  | parsable c o parsed pspec => cases h; rfl
  | _ => cases hs

theorem solid_dump {E : Env} {r : Ops} {v v' : Val} {f : Bool} {b : Bytes} (h : dumpStep E r v f = .ok (b, v')) (hs : solid v = true) :
    solid v' = true := by
  cases v with
  | leaf c s =>
    simp only [dumpStep, py_bind] at h
    obtain ⟨_, _, h⟩ := h
    cases h; rfl
  | node c o children m =>
    obtain ⟨_, _, _, rfl⟩ := nodeDump_node h
    rfl
  | parsable c o parsed pspec =>
    simp only [dumpStep, parsableDump] at h
    split at h
    · cases parsed with
      | some w =>
        simp only [py_bind] at h
        obtain ⟨_, _, _, _, h⟩ := h
        cases h; rfl
      | none =>
        cases hc : o.contents with
        | none => rw [hc] at h; cases h
        | some d =>
          simp only [hc, py_bind] at h
          obtain ⟨_, _, _, _, h⟩ := h
          cases h; rfl
    · simp only [py_bind] at h
      obtain ⟨_, _, h⟩ := h
      cases h; rfl
  | _ => cases hs

theorem solid_access {E : Env} {top : Bool} {v v' : Val} (h : Access E top v v') : solid v = true → solid v' = true := by
  induction h with
  | refl => exact id
  | trans _ _ ih1 ih2 => exact fun hs => ih2 (ih1 hs)
  | @native _ n _ _ _ h =>
    cases n with
    | zero => cases h
    | succ n => exact solid_native h
  | @contents _ n _ _ _ h =>
    cases n with
    | zero => cases h
    | succ n => exact solid_contents h
  | @dump _ n _ _ _ h =>
    cases n with
    | zero => cases h
    | succ n => exact solid_dump h
  | @item _ n v _ _ _ h =>
    intro hs
    cases v with
    | node c o children m =>
      simp only [getItem, py_bind] at h
      obtain ⟨cs, _, h⟩ := h
      split at h
      · cases h
      · cases h
      · simp only [py_bind] at h
        obtain ⟨_, _, h⟩ := h
        cases h; rfl
    | _ => cases h
  | @len _ n v v' k h =>
    intro hs
    cases v with
    | node c o children m =>
      simp only [lenOf, py_bind] at h
      obtain ⟨_, _, h⟩ := h
      cases h; rfl
    | _ => cases h
  | child => exact fun _ => rfl
  | strParse h =>
    simp only [parsableParse] at h
    split at h
    · cases h; exact id
    · simp only [py_bind] at h
      obtain ⟨_, _, _, _, h⟩ := h
      cases h; exact id
  | strBytes h => exact fun _ => rfl
  | payload => exact fun _ => rfl
  | chosen => exact fun hs => by cases hs
  | alternative => exact fun hs => by cases hs
  | anyParsed => exact fun hs => by cases hs
  | anyParse => exact fun hs => by cases hs
  | inAny => exact fun hs => by cases hs

theorem solid_build {E : Env} {n : Nat} {i : Info} {c : ClassId} {p : Params} {v : Val} (hp : p.default = none)
    (hc : HasTag (E.cls c)) (h : (ops E n).build i (some c) p none = .ok v) : solid v = true := by
  cases n with
  | zero => cases h
  | succ n =>
    change buildStep E (ops E n) i (some c) p none = .ok v at h
    simp only [buildStep, py_bind] at h
    obtain ⟨w, h, h'⟩ := h
    cases h'
    simp only [buildPlain] at h
    split at h
    · simp only [py_bind] at h
      obtain ⟨_, _, s, _, h⟩ := h
      cases h; rfl
    · simp only [py_bind, hp] at h
      obtain ⟨_, _, o, _, h⟩ := h
      cases ho : o.explicit <;> rw [ho] at h <;> (cases h; rfl)
    · simp only [py_bind] at h
      obtain ⟨_, _, o, _, h⟩ := h
      cases h; rfl
    · next hcls => rw [hcls] at hc; exact hc.elim
    · next hcls => rw [hcls] at hc; exact hc.elim
    · simp only [py_bind] at h
      obtain ⟨_, _, o, _, h⟩ := h
      cases h; rfl

/-- The case of a class with a tag of its own: `dump()` always returns the bytes. -/
theorem C15_tagged_partial {E : Env} (hE : PlainSchema E) {n : Nat} {c : ClassId} {p : Params} (hp : p.default = none)
    (hc : HasTag (E.cls c)) {data : Bytes} {strict : Bool} {v v' : Val} (hl : loadVal E (ops E n) c p data strict = .ok v)
    (ht : ∀ w rest, data = w.bytes ++ rest → Ber 11 w → Tight (explicitOf E c p).reverse w) (ha : Access E true v v') :
    ∃ w rest, data = w.bytes ++ rest ∧ Ber 11 w ∧ (strict = true → rest = []) ∧
      ∀ m, 1 ≤ m → ∃ v'', (ops E m).dump v' false = .ok (w.bytes, v'') := by
  have hspec : loadSpec E c = some c := by
    unfold loadSpec
    split
    · next h => rw [h] at hc; exact hc.elim
    · rfl
  obtain ⟨w, rest, h1, h2, h3, h4⟩ := load_keeps hE hp hl
    (fun w rest hw hb => by rw [hspec]; exact Tidy.base hc (ht w rest hw hb)) ha
  have hsolid : solid v = true := by
    simp only [loadVal, py_bind] at hl
    obtain ⟨i, hi, hb⟩ := hl
    split at hb
    · next h => rw [h] at hc; exact hc.elim
    · exact solid_build hp hc hb
  refine ⟨w, rest, h1, h2, h3, fun m hm => ?_⟩
  obtain ⟨k, rfl⟩ : ∃ k, m = k + 1 := ⟨m - 1, by omega⟩
  exact solid_returns h4 (solid_access ha hsolid) k

/-! ### Where the code does not have the property -/

/-- Class 0 is INTEGER, 1 BOOLEAN, 2 a Choice of the two, 3 a SEQUENCE of an INTEGER, 4 a SEQUENCE of an INTEGER and
a SEQUENCE of type 3 with a DEFAULT, 5 is `Any`, 6 OCTET STRING with a payload, 7 a SEQUENCE with an explicitly tagged
version with a DEFAULT, an INTEGER, an `Any` and an optional SEQUENCE OF INTEGER, 8 SEQUENCE OF INTEGER. -/
def keepEnv : Env where
  cls
    | 1 => .leaf (.boolean { cls := 0, method := 0, tag := 1 }) []
    | 2 => .choice [] none [⟨"n", 0, {}⟩, ⟨"b", 1, {}⟩]
    | 3 => .seq { cls := 0, method := 1, tag := 16 } [] false [⟨"n", 0, {}⟩] none
    | 4 => .seq { cls := 0, method := 1, tag := 16 } [] false
        [⟨"n", 0, {}⟩, ⟨"s", 3, { default := some (.dict [("n", .scalar (.int 5))]) }⟩] none
    | 5 => .any
    | 6 => .parsable { cls := 0, method := 0, tag := 4 } false
    | 7 => .seq { cls := 0, method := 1, tag := 16 } [] false
        [⟨"v", 0, { explicit := [(2, 0)], default := some (.scalar (.int 0)) }⟩, ⟨"n", 0, {}⟩, ⟨"a", 5, {}⟩, ⟨"l", 8, { optional := true }⟩] none
    | 8 => .seqOf { cls := 0, method := 1, tag := 16 } [] false (some 0)
    | _ => .leaf (.integer none { cls := 0, method := 0, tag := 2 }) []
  universal
    | 1 => some 1
    | 2 => some 0
    | 16 => some 8
    | _ => none

/-- The bytes of `cls.load(data, **params).dump()`, after reading `native` if `read`. -/
def redump (c : ClassId) (p : Params) (read : Bool) (data : Bytes) : Py Bytes := do
  let v ← loadVal keepEnv (ops keepEnv 9) c p data
  if read then do
    let (_, v) ← (ops keepEnv 9).native v
    let (b, _) ← (ops keepEnv 9).dump v false
    .ok b
  else do
    let (b, _) ← (ops keepEnv 9).dump v false
    .ok b

/-- A BOOLEAN of 128 octets, whose length in the long form ends in `0x80`, is re-encoded although it has a definite length. -/
theorem C15_length_128_fails :
    redump 1 {} false ([0x01, 0x81, 0x80] ++ List.replicate 128 1) = .ok [0x01, 0x01, 0xff] := by decide +kernel

/-- Bytes behind the value inside an explicit wrapper are accepted, and dropped although the wrapper's length still
counts them. -/
theorem C15_wrapper_junk_fails :
    redump 0 { explicit := [(2, 0)] } false [0xa0, 6, 2, 1, 5, 2, 1, 6] = .ok [0xa0, 6, 2, 1, 5] := by decide +kernel

/-- Of two explicit headers around a Choice only the outer one is written. -/
theorem C15_choice_wrappers_fails :
    redump 2 { explicit := [(2, 0), (2, 1)] } false [0xa1, 5, 0xa0, 3, 2, 1, 5] = .ok [0xa1, 5, 2, 1, 5] := by decide +kernel

/-- Reading one field of a SEQUENCE in which another field, of SEQUENCE type, is absent and gets its DEFAULT, makes
`dump()` re-encode: the length, not minimal, is not kept. Without the access it is. -/
theorem C15_default_sequence_fails :
    redump 4 {} false [0x30, 0x81, 3, 2, 1, 7] = .ok [0x30, 0x81, 3, 2, 1, 7] ∧
    (do let v ← loadVal keepEnv (ops keepEnv 9) 4 {} [0x30, 0x81, 3, 2, 1, 7]
        let (_, v) ← getItem keepEnv (ops keepEnv 9) v 0
        let (b, _) ← (ops keepEnv 9).dump v false
        .ok b) = (.ok [0x30, 3, 2, 1, 7] : Py Bytes) := by decide +kernel

/-- An `Any` field of a tag that is not universal is accepted, but its `dump()` raises. -/
theorem C15_any_dump_fails :
    (do let v ← (ops keepEnv 9).build ⟨2, 0, 9, [0x89, 1], [7], []⟩ (some 5) {} none
        let (b, _) ← (ops keepEnv 9).dump v false
        .ok b) = (.error .valueError : Py Bytes) := by decide +kernel

/-! ### Non-vacuity -/

/-- A non-minimal length, an absent DEFAULT, and an absent optional field. -/
def keepBytes : Bytes := [0x30, 0x82, 0, 8, 2, 2, 0, 5, 0x89, 0x81, 1, 7]

example : redump 7 {} false keepBytes = .ok keepBytes := by decide +kernel
example : redump 8 {} true [0x30, 0x81, 4, 2, 2, 0, 5] = .ok [0x30, 0x81, 4, 2, 2, 0, 5] := by decide +kernel
example : redump 2 { explicit := [(2, 0)] } true [0xa0, 0x81, 4, 2, 2, 0, 5] = .ok [0xa0, 0x81, 4, 2, 2, 0, 5] := by decide +kernel
example : redump 6 { explicit := [(2, 0)] } true [0xa0, 0x80, 4, 2, 0, 5, 0, 0] = .ok [0xa0, 0x80, 4, 2, 0, 5, 0, 0] := by decide +kernel
example : redump 5 {} true [0x30, 0x81, 4, 2, 2, 0, 5] = .ok [0x30, 0x81, 4, 2, 2, 0, 5] := by decide +kernel

/-- The same classes without the DEFAULT of SEQUENCE type. -/
def plainEnv : Env := { keepEnv with cls := fun c => if c = 4 then .any else keepEnv.cls c }

theorem plainEnv_ok : PlainSchema plainEnv where
  field := by
    intro c proto bad s fields oid h f hf hd
    unfold plainEnv keepEnv at h
    simp only at h
    split at h
    · cases h
    split at h <;> first | cases h | skip
    · simp only [List.mem_singleton] at hf; subst hf; cases hd
    · next h4 => exact absurd rfl h4
    · simp only [List.mem_cons, List.not_mem_nil, or_false] at hf
      rcases hf with rfl | rfl | rfl | rfl
      · show IsPrim (plainEnv.cls 0); trivial
      all_goals cases hd
  replaced := by
    intro c proto bad s fields p h
    unfold plainEnv keepEnv at h
    simp only at h
    split at h
    · cases h
    split at h <;> cases h
  alt := by
    intro c e t alts h f hf
    unfold plainEnv keepEnv at h
    simp only at h
    split at h
    · cases h
    split at h <;> first | cases h | skip
    simp only [List.mem_cons, List.not_mem_nil, or_false] at hf
    rcases hf with rfl | rfl <;> rfl
  str := by
    intro c proto b h
    unfold plainEnv keepEnv at h
    simp only at h
    split at h
    · cases h
    split at h <;> first | cases h | skip
    rfl

/-- An element is found at the front of the data in one way only. -/
example : ∀ w rest, keepBytes = w.bytes ++ rest → Ber 11 w → Tight (explicitOf plainEnv 7 {}).reverse w := by
  intro w rest h hb
  obtain ⟨i, hi⟩ : ∃ i, parse keepBytes = .ok i ∧ i.header = [0x30, 0x82, 0, 8] := ⟨_, rfl, rfl⟩
  obtain ⟨rest', h1, h2⟩ := (parse_ok_iff _ _).mp hi.1
  obtain ⟨rfl, _⟩ := Ber_unique hb h2 (h.symm.trans h1)
  show i.header.getLast? ≠ _
  rw [hi.2]; decide

example : HasTag (plainEnv.cls 7) := trivial
example : ((loadVal plainEnv (ops plainEnv 9) 7 {} keepBytes true).map fun _ => ()) = .ok () := by decide +kernel

end Asn1.Props
