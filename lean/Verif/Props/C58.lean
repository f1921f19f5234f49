import Verif.Model.Equal
import Verif.Props.C53

/-!
# C58 — Primitive values are equal exactly if they are of the same ASN.1 type and have the same contents octets
-/

namespace Asn1.Props
open Asn1 Spec

/-- `v` is an instance of the primitive class `c` with the contents octets `b`, or none so far. -/
inductive Primitive : Val → ClassId → Option (List UInt8) → Prop
  | leaf (c : ClassId) (st : LeafSt) : Primitive (.leaf c st) c st.base.contents
  | string (c : ClassId) (o : Obj Bytes) (parsed : Option Val) (spec : Option ClassId) : Primitive (.parsable c o parsed spec) c o.contents

/-- The universal tag number of the type of the class, whatever tags the instance has. -/
def typeTag (E : Env) (c : ClassId) : Nat := (E.cls c).tagging.2.1

theorem Primitive.view {v : Val} {c : ClassId} {b : Option (List UInt8)} (h : Primitive v c b) : v.primitive = some (c, b) := by
  cases h <;> rfl

section
variable (E : Env) (r : Ops) (bases : ClassId → List ClassId) (low : List ClassId)

/-- When `self == other`: `c` is not one of the three abstract classes. -/
theorem C58_iff {v w : Val} {c d : ClassId} {x y : Option (List UInt8)} (hv : Primitive v c x) (hw : Primitive w d y) (hc : c ∉ low) :
    primitiveEq E r bases low v w = .ok (decide (typeTag E c = typeTag E d ∧ x = y)) := by
  unfold primitiveEq
  rw [hv.view, hw.view]
  simp only []
  by_cases h1 : x = y
  · by_cases h2 : (E.cls c).tagging.2.1 = (E.cls d).tagging.2.1
    · rw [if_neg (by simp [h1]), if_neg (by simp [h2])]
      have h3 : decide (typeTag E c = typeTag E d ∧ x = y) = true := by simp [typeTag, h1, h2]
      rw [h3]
      split
      · rfl
      · rw [if_pos]
        · simp [h1]
        · intro h
          have : c ∈ (bases c ++ [c]).filter (fun c => !low.contains c) := by simp [hc]
          rw [List.append_eq_nil_iff] at h
          rw [h.1] at this
          cases this
    · rw [if_neg (by simp [h1]), if_pos (by simpa using h2)]
      have h3 : decide (typeTag E c = typeTag E d ∧ x = y) = false := by simp [typeTag, h2]
      rw [h3]
  · rw [if_pos (by simpa using h1)]
    have h3 : decide (typeTag E c = typeTag E d ∧ x = y) = false := by simp [h1]
    rw [h3]

/-- A value that is not primitive is not equal to a primitive one. -/
theorem C58_other {v w : Val} {c : ClassId} {x : Option (List UInt8)} (hv : Primitive v c x) (hw : ∀ d y, ¬ Primitive w d y) :
    primitiveEq E r bases low v w = .ok false := by
  have : w.primitive = none := by
    cases w <;> first | rfl | exact absurd (Primitive.leaf _ _) (hw _ _) | exact absurd (Primitive.string _ _ _ _) (hw _ _)
  unfold primitiveEq
  rw [hv.view, this]

/-- Every value is equal to itself. -/
theorem C58_refl {v : Val} {c : ClassId} {x : Option (List UInt8)} (hv : Primitive v c x) (hc : c ∉ low) : primitiveEq E r bases low v v = .ok true := by
  rw [C58_iff E r bases low hv hv hc]
  simp

/-- It does not matter which of the two is asked. -/
theorem C58_symm {v w : Val} {c d : ClassId} {x y : Option (List UInt8)} (hv : Primitive v c x) (hw : Primitive w d y) (hc : c ∉ low) (hd : d ∉ low) :
    primitiveEq E r bases low v w = primitiveEq E r bases low w v := by
  rw [C58_iff E r bases low hv hw hc, C58_iff E r bases low hw hv hd]
  simp only [eq_comm]

theorem C58_trans {u v w : Val} {b c d : ClassId} {x y z : Option (List UInt8)} (hu : Primitive u b x) (hv : Primitive v c y) (hw : Primitive w d z)
    (hb : b ∉ low) (hc : c ∉ low) (h1 : primitiveEq E r bases low u v = .ok true) (h2 : primitiveEq E r bases low v w = .ok true) :
    primitiveEq E r bases low u w = .ok true := by
  rw [C58_iff E r bases low hu hv hb] at h1
  rw [C58_iff E r bases low hv hw hc] at h2
  rw [C58_iff E r bases low hu hw hb]
  simp only [Except.ok.injEq, decide_eq_true_eq] at h1 h2 ⊢
  exact ⟨h1.1.trans h2.1, h1.2.trans h2.2⟩

end

/-- Instances made from Python values `x` and `y`, with any tags, are equal exactly if they stand for the same value. -/
theorem C58_values {E : Env} {U : ClassId → Prop} (hT : Types E U) (bases : ClassId → List ClassId) (low : List ClassId) {c : ClassId} (hU : U c)
    (hl : c ∉ low) {proto : LeafSt} {bad : List Nat} (hc : E.cls c = .leaf proto bad) (hp : PlainLeaf proto) (hn : ∀ o, proto ≠ .null o) {p q : Params}
    (hp' : GoodTags p) (hq' : GoodTags q) {x y s t : Scalar} (hx : x ≠ .none) (hy : y ≠ .none) (h : Holds proto x s) (h' : Holds proto y t) :
    ∃ N v w res, (res = true ↔ s = t) ∧ ∀ j ≥ N, (ops E j).construct c p (.scalar x) = .ok v ∧ (ops E j).construct c q (.scalar y) = .ok w ∧
      primitiveEq E (ops E j) bases low v w = .ok res := by
  obtain ⟨sx, sx', b, b1, b2, b3, b4, b5, b6⟩ := h
  obtain ⟨sy, sy', d, d1, d2, d3, d4, d5, d6⟩ := h'
  have h : Written proto x b s := ⟨sx, b1, b2, b3, b4⟩
  have h' : Written proto y d t := ⟨sy, d1, d2, d3, d4⟩
  have htag : HasTag (E.cls c) := by rw [hc]; trivial
  obtain ⟨v, m1, m2, m3, m4, m5, _⟩ := (makes_leaf hT hU hc hn hx h).made p hp' (fun h => absurd htag h) (fun h => by injection h with h; exact absurd h hx)
  obtain ⟨w, k1, k2, k3, k4, k5, _⟩ := (makes_leaf hT hU hc hn hy h').made q hq' (fun h => absurd htag h) (fun h => by injection h with h; exact absurd h hy)
  obtain ⟨st, _, rfl, _⟩ := m5 _ _ hc
  obtain ⟨st', _, rfl, _⟩ := k5 _ _ hc
  obtain ⟨N, hN⟩ := m1.and k1
  have hv : Primitive (.leaf c st) c (some b) := by
    cases m2 with
    | leaf h1 => rw [← h1]; exact .leaf c st
  have hw : Primitive (.leaf c st') c (some d) := by
    cases k2 with
    | leaf h1 => rw [← h1]; exact .leaf c st'
  refine ⟨N, _, _, decide (typeTag E c = typeTag E c ∧ some b = some d), ?_, fun j hj => ⟨(hN j hj).1, (hN j hj).2, C58_iff E _ bases low hv hw hl⟩⟩
  simp only [decide_eq_true_eq, true_and, Option.some.injEq]
  constructor
  · rintro rfl
    obtain ⟨_, st1, r1, _⟩ := b4
    obtain ⟨_, st2, r2, _⟩ := d4
    rw [r1] at r2
    injection r2 with r2
    injection r2
  · rintro rfl
    obtain ⟨c1, k1, k2⟩ := derContents_of_set hp b4 b5
    obtain ⟨c2, k3, k4⟩ := derContents_of_set hp d4 d5
    rw [b6] at k1
    rw [d6] at k3
    cases k1
    cases k3
    exact derContents_unique hp k2 k4

theorem holds_written {proto : LeafSt} {s : Scalar} {b : List UInt8} (h : Written proto s b s) : Holds proto s s := by
  obtain ⟨st, h1, h2, h3, h4⟩ := h
  exact ⟨st, st, b, h1, h2, h3, h4, h1, h2⟩

/-- `Integer(5, explicit=1) == Integer(5, implicit=2)`, and `Integer(5) == Integer(-5)` is false. -/
example : (∃ N v w, ∀ j ≥ N, (ops orderEnv j).construct 0 { explicit := [(2, 1)] } (.scalar (.int 5)) = .ok v ∧
      (ops orderEnv j).construct 0 { implicit := some (2, 2) } (.scalar (.int 5)) = .ok w ∧
      primitiveEq orderEnv (ops orderEnv j) (fun _ => [91, 92]) [90, 91, 92] v w = .ok true) ∧
    ∃ N v w, ∀ j ≥ N, (ops orderEnv j).construct 0 {} (.scalar (.int 5)) = .ok v ∧ (ops orderEnv j).construct 0 {} (.scalar (.int (-5))) = .ok w ∧
      primitiveEq orderEnv (ops orderEnv j) (fun _ => [91, 92]) [90, 91, 92] v w = .ok false := by
  have g1 : GoodTags { explicit := [(2, 1)] } := ⟨rfl, by simp, by simp, .inr rfl⟩
  have g2 : GoodTags { implicit := some (2, 2) } := ⟨rfl, by simp, by simp, .inl rfl⟩
  constructor
  · obtain ⟨N, v, w, res, h1, h2⟩ := C58_values orderEnv_types (fun _ => [91, 92]) [90, 91, 92] (c := 0) (by decide) (by decide) rfl
      (.integer (by decide) (by simp)) (fun o h => by cases h) g1 g2 (x := .int 5) (y := .int 5) (by simp) (by simp)
      (holds_written (b := [5]) (writtenB_sound (by decide +kernel))) (holds_written (b := [5]) (writtenB_sound (by decide +kernel)))
    rw [h1.mpr rfl] at h2
    exact ⟨N, v, w, h2⟩
  · obtain ⟨N, v, w, res, h1, h2⟩ := C58_values orderEnv_types (fun _ => [91, 92]) [90, 91, 92] (c := 0) (by decide) (by decide) rfl
      (.integer (by decide) (by simp)) (fun o h => by cases h) goodTags_plain goodTags_plain (x := .int 5) (y := .int (-5)) (by simp) (by simp)
      (holds_written (b := [5]) (writtenB_sound (by decide +kernel))) (holds_written (b := [0xfb]) (writtenB_sound (by decide +kernel)))
    have : res = false := by
      cases res with
      | false => rfl
      | true => exact absurd (h1.mp rfl) (by simp)
    rw [this] at h2
    exact ⟨N, v, w, h2⟩

/-! ### Values that are the same, or not -/

/-- BOOLEAN, OCTET STRING, and an OCTET STRING that is read as a number. -/
def sameEnv : Env where
  cls := fun c => match c with
    | 0 => .leaf (.boolean { cls := 0, method := 0, tag := 1 }) []
    | 1 => .leaf (.octets { cls := 0, method := 0, tag := 4 }) []
    | 2 => .leaf (.intOctets { cls := 0, method := 0, tag := 4 }) []
    | _ => .any
  universal := fun _ => none

/-- Loads two values, compares them, and reads both. -/
def compared (E : Env) (j : Nat) (c d : ClassId) (x y : Bytes) : Py (Bool × PyVal × PyVal) := do
  let v ← loadVal E (ops E j) c {} x
  let w ← loadVal E (ops E j) d {} y
  let e ← primitiveEq E (ops E j) (fun _ => [91, 92]) [90, 91, 92] v w
  let (n, _) ← (ops E j).native v
  let (m, _) ← (ops E j).native w
  .ok (e, n, m)

/-- Two encodings of the same value, allowed by BER, are not equal after loading: only contents octets are compared. -/
theorem C58_ber_fails (j : Nat) : compared sameEnv (j + 5) 0 0 [1, 1, 1] [1, 1, 0xff] = .ok (false, .scalar (.bool true), .scalar (.bool true)) := by
  kernel_rfl

/-- Values of different classes for the same ASN.1 type are equal although they are read as different values. -/
theorem C58_kinds_fails (j : Nat) : compared sameEnv (j + 5) 1 2 [4, 1, 7] [4, 1, 7] = .ok (true, .scalar (.bytes [7]), .scalar (.int 7)) := by
  kernel_rfl

/-- An OCTET STRING received in segments is equal to the one whose octets are the encodings of these segments. -/
theorem C58_segments_fails (j : Nat) : compared sameEnv (j + 5) 1 1 [0x24, 0x80, 4, 1, 5, 0, 0] [4, 3, 4, 1, 5] = .ok (true, .scalar (.bytes [5]), .scalar (.bytes [4, 1, 5])) := by
  kernel_rfl

end Asn1.Props
