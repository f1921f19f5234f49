import Verif.Model.Obj
import Verif.Lemmas.ParseIff
import Mathlib.Data.List.Induction
import Mathlib.Tactic.Tauto

/-! # Lemmas on tagging, `dump` and `_build` -/

namespace Asn1
open Spec

/-- Representable with the definite length form (127 length octets). -/
def Fits (bs : Bytes) : Prop := bs.length < 256 ^ 127

theorem Fits.of_append_right {a b : Bytes} (h : Fits (a ++ b)) : Fits b := by
  unfold Fits at *; rw [List.length_append] at h; omega

theorem Fits.of_append_left {a b : Bytes} (h : Fits (a ++ b)) : Fits a := by
  unfold Fits at *; rw [List.length_append] at h; omega

theorem parse_of_strict {data : Bytes} {i : Info} (h : parse data true = .ok i) : parse data = .ok i := by
  obtain ⟨h1, h2⟩ := (parse_strict_ok_iff data i).mp h
  exact (parse_ok_iff data i).mpr ⟨[], by simpa using h1, h2⟩

theorem wrapExplicit_append (es fs : List (Nat × Nat)) (c : Bytes) : ∀ h,
    wrapExplicit (es ++ fs) h c = (wrapExplicit es h c).bind (fun h1 => wrapExplicit fs h1 c) := by
  induction es with
  | nil => intro h; rfl
  | cons e es ih =>
    intro h
    obtain ⟨a, b⟩ := e
    simp only [List.cons_append, wrapExplicit]
    cases dumpHeader a 1 b (h ++ c) with
    | error e => rfl
    | ok h1 => exact ih _

theorem dumpHeader_parse {cl m t : Nat} {c h : Bytes} (hc : cl < 4) (hm : m < 2) (hf : Fits c)
    (h1 : dumpHeader cl m t c = .ok h) :
    parse (h ++ c) true = .ok ⟨cl, m, t, h, c, []⟩ ∧ Ber 1 ⟨cl, m, t, h, c, []⟩ := by
  obtain ⟨id, len, h2, h3, h4, _⟩ := dumpHeader_spec (t := t) hc hm c hf
  rw [h1] at h2
  injection h2 with h2
  subst h2
  refine ⟨(parse_strict_ok_iff _ _).mpr ⟨by simp [Info.tlv, TLV.bytes], .definite h3 h4⟩, .definite h3 h4⟩

theorem dumpHeader_total {cl m t : Nat} {c : Bytes} (hc : cl < 4) (hm : m < 2) (hf : Fits c) :
    ∃ h, dumpHeader cl m t c = .ok h := by
  obtain ⟨id, len, h2, _⟩ := dumpHeader_spec (t := t) hc hm c hf
  exact ⟨_, h2⟩

theorem explicitLoop_frame (pre post : Bytes) : ∀ (es : List (Nat × Nat)) (i : Info) (h t : Bytes) (r : Info × Bytes × Bytes),
    explicitLoop es i h t = .ok r → explicitLoop es i (pre ++ h) (t ++ post) = .ok (r.1, pre ++ r.2.1, r.2.2 ++ post) := by
  intro es
  induction es with
  | nil =>
    intro i h t r hr
    simp only [explicitLoop] at hr ⊢
    injection hr with hr
    subst hr
    rfl
  | cons e es ih =>
    intro i h t r hr
    obtain ⟨c, tg⟩ := e
    simp only [explicitLoop] at hr ⊢
    split at hr
    · cases hr
    · next h1 =>
      rw [if_neg h1]
      split at hr
      · cases hr
      · next h2 =>
        rw [if_neg h2]
        split at hr
        · cases hr
        · next h3 =>
          rw [if_neg h3]
          cases hp : parse i.contents with
          | error e => rw [hp] at hr; cases hr
          | ok i' =>
            rw [hp] at hr
            simp only [bind, Except.bind] at hr ⊢
            have := ih _ _ _ _ hr
            simpa [List.append_assoc] using this

/-- Dump of nested explicit tags is read back by the explicit loop of `_build`. -/
theorem wrapExplicit_explicitLoop (i0 : Info) (ht : i0.trailer = [])
    (h0 : parse (i0.header ++ i0.contents) true = .ok i0) (es : List (Nat × Nat)) (hes : ∀ e ∈ es, e.1 < 4) :
    ∀ h, wrapExplicit es i0.header i0.contents = .ok h → Fits (h ++ i0.contents) →
      ∃ i, parse (h ++ i0.contents) true = .ok i ∧ i.trailer = [] ∧
        explicitLoop es.reverse i i.header [] = .ok (i0, h, []) := by
  induction es using List.reverseRecOn with
  | nil =>
    intro h hw _
    simp only [wrapExplicit] at hw
    injection hw with hw
    subst hw
    exact ⟨i0, h0, ht, rfl⟩
  | append_singleton es e ih =>
    intro h hw hf
    obtain ⟨c, t⟩ := e
    rw [wrapExplicit_append] at hw
    cases hw1 : wrapExplicit es i0.header i0.contents with
    | error e => rw [hw1] at hw; cases hw
    | ok h1 =>
      rw [hw1] at hw
      simp only [Except.bind, wrapExplicit] at hw
      cases hd : dumpHeader c 1 t (h1 ++ i0.contents) with
      | error e => rw [hd] at hw; cases hw
      | ok h2 =>
        rw [hd] at hw
        simp only [bind, Except.bind] at hw
        injection hw with hw
        subst hw
        have hf1 : Fits (h1 ++ i0.contents) := by rw [List.append_assoc] at hf; exact hf.of_append_right
        obtain ⟨i1, hp1, ht1, hl1⟩ := ih (fun e he => hes e (by simp [he])) h1 hw1 hf1
        have hc : c < 4 := hes (c, t) (by simp)
        obtain ⟨hp2, _⟩ := dumpHeader_parse hc (by decide : 1 < 2) hf1 hd
        refine ⟨⟨c, 1, t, h2, h1 ++ i0.contents, []⟩, by rw [List.append_assoc]; exact hp2, rfl, ?_⟩
        rw [List.reverse_append, List.reverse_singleton, List.singleton_append]
        simp only [explicitLoop, ne_eq, not_true_eq_false, if_false]
        rw [parse_of_strict hp1]
        simp only [bind, Except.bind, ht1]
        have := explicitLoop_frame h2 [] _ _ _ _ _ hl1
        simpa using this

variable {ν : Type}

/-- The prototype `spec(**params)` an object was made from: its tagging without any value. -/
def Obj.proto (o : Obj ν) : Obj ν :=
  { cls := o.cls, method := o.method, tag := o.tag, implicit := o.implicit, explicit := o.explicit }

theorem asn1Dump_fresh {k : Bool} {o : Obj ν} {c : Bytes} (hc : o.contents = some c) (hh : o.header = none)
    (hi : o.indefinite = false) (force : Bool) :
    asn1Dump k o force = (dumpHeader o.cls o.method o.tag c).bind (fun h0 =>
      (wrapExplicit o.explicit h0 c).bind (fun h => .ok (h ++ c, { o with header := some h, trailer := [] }))) := by
  unfold asn1Dump
  rw [hc, hh, hi]
  simp only [Bool.and_false, Bool.false_eq_true, if_false, bind, List.append_nil, hc, hi]

/-- A freshly encoded object (any tagging) loads back with the same contents. -/
theorem load_dump {k : Bool} {bad : List Nat} {o o1 : Obj ν} {c bytes : Bytes} (hc : o.contents = some c)
    (hh : o.header = none) (hi : o.indefinite = false) (hcls : o.cls < 4) (hm : o.method < 2)
    (hes : ∀ e ∈ o.explicit, e.1 < 4) {force : Bool} (strict : Bool)
    (hd : asn1Dump k o force = .ok (bytes, o1)) (hf : Fits bytes) :
    ∃ h, bytes = h ++ c ∧ o1.header = some h ∧
      loadObj k bad o.proto bytes strict =
        .ok { o.proto with header := some h, contents := some c, trailer := [], native := none } := by
  rw [asn1Dump_fresh hc hh hi] at hd
  cases h1 : dumpHeader o.cls o.method o.tag c with
  | error e => rw [h1] at hd; cases hd
  | ok h0 =>
    rw [h1] at hd
    simp only [Except.bind] at hd
    cases h2 : wrapExplicit o.explicit h0 c with
    | error e => rw [h2] at hd; cases hd
    | ok h =>
      rw [h2] at hd
      simp only [Except.ok.injEq, Prod.mk.injEq] at hd
      obtain ⟨rfl, rfl⟩ := hd
      refine ⟨h, rfl, rfl, ?_⟩
      obtain ⟨hp0, _⟩ := dumpHeader_parse hcls hm hf.of_append_right h1
      obtain ⟨i, hp, ht, hl⟩ := wrapExplicit_explicitLoop ⟨o.cls, o.method, o.tag, h0, c, []⟩ rfl hp0 o.explicit hes h h2 hf
      unfold loadObj
      have hp' : parse (h ++ c) strict = .ok i := by
        cases strict with
        | true => exact hp
        | false => exact parse_of_strict hp
      rw [hp']
      simp only [bind, Except.bind]
      unfold buildObj
      cases he : o.explicit with
      | nil =>
        rw [he] at h2 hl
        simp only [wrapExplicit, explicitLoop, List.reverse_nil, Except.ok.injEq, Prod.mk.injEq] at h2 hl
        obtain ⟨rfl, _⟩ := hl
        subst h2
        simp [Obj.proto, he, buildBase, bind, Except.bind]
      | cons e es =>
        have hne : o.proto.explicit = e :: es := he
        simp only [hne]
        rw [he] at hl
        rw [ht, hl]
        simp [Obj.proto, he, buildBase, bind, Except.bind]

/-- Encoding always succeeds for values whose nested lengths are representable; here with a generous bound. -/
theorem asn1Dump_untagged_total {k : Bool} {o : Obj ν} {c : Bytes} (hc : o.contents = some c)
    (hh : o.header = none) (hi : o.indefinite = false) (hcls : o.cls < 4) (hm : o.method < 2)
    (he : o.explicit = []) (hf : Fits c) (force : Bool) :
    ∃ h, asn1Dump k o force = .ok (h ++ c, { o with header := some h, trailer := [] }) ∧
      dumpHeader o.cls o.method o.tag c = .ok h := by
  obtain ⟨h, hd⟩ := dumpHeader_total (t := o.tag) hcls hm hf
  refine ⟨h, ?_, hd⟩
  rw [asn1Dump_fresh hc hh hi, hd, he]
  rfl

/-- An instance without value, primitive, with valid tag classes. -/
structure Blank (p : Obj ν) : Prop where
  isProto : p = p.proto
  cls : p.cls < 4
  method : p.method = 0
  explicit : ∀ e ∈ p.explicit, e.1 < 4

/-- The instance after a successful `set`. -/
def Obj.put (p : Obj ν) (v : ν) (c : Bytes) : Obj ν :=
  { p with native := some v, contents := some c, header := none, trailer := [] }

/-- The instance after loading. -/
def Obj.loaded (p : Obj ν) (h c : Bytes) : Obj ν :=
  { p with header := some h, contents := some c, trailer := [], native := none }

theorem load_dump_put {k : Bool} {bad : List Nat} {p o1 : Obj ν} {v : ν} {c bytes : Bytes} (hp : Blank p)
    (strict : Bool) (hd : asn1Dump k (p.put v c) = .ok (bytes, o1)) (hf : Fits bytes) :
    ∃ h, bytes = h ++ c ∧ loadObj k bad p bytes strict = .ok (p.loaded h c) := by
  have hind : p.indefinite = false := by rw [hp.isProto]; rfl
  obtain ⟨h, hb, _, hl⟩ := load_dump (bad := bad) (o := p.put v c) (c := c) rfl rfl hind hp.cls
    (by rw [show (p.put v c).method = p.method from rfl, hp.method]; decide) hp.explicit strict hd hf
  refine ⟨h, hb, ?_⟩
  have hpp : (p.put v c).proto = p := by
    conv_rhs => rw [hp.isProto]
    rfl
  rw [hpp] at hl
  exact hl

theorem dump_put_total {k : Bool} {p : Obj ν} (v : ν) {c : Bytes} (hp : Blank p) (he : p.explicit = []) (hf : Fits c) :
    ∃ h, asn1Dump k (p.put v c) = .ok (h ++ c, { p.put v c with header := some h }) ∧
      dumpHeader p.cls 0 p.tag c = .ok h := by
  have hind : p.indefinite = false := by rw [hp.isProto]; rfl
  obtain ⟨h, ha, hb⟩ := asn1Dump_untagged_total (k := k) (o := p.put v c) (c := c) rfl rfl hind hp.cls
    (by rw [show (p.put v c).method = p.method from rfl, hp.method]; decide) he hf false
  refine ⟨h, ha, ?_⟩
  rw [← hp.method]
  exact hb

theorem buildBase_ok {k : Bool} {bad : List Nat} {p o : Obj ν} {i : Info} :
    buildBase k bad p i = .ok o ↔ i.cls = p.cls ∧ (i.tag = p.tag ∨ i.tag ∈ bad) ∧
      ((i.method = p.method ∧
          o = { p with header := some i.header, contents := some i.contents, trailer := i.trailer, native := none }) ∨
       (i.method = 1 ∧ p.method = 0 ∧ i.trailer = [0, 0] ∧ k = true ∧
          o = { p with header := some i.header, contents := some i.contents, trailer := i.trailer, native := none,
                       method := 1, indefinite := true })) := by
  unfold buildBase
  by_cases h1 : i.cls = p.cls
  · rw [if_neg (by simpa using h1)]
    by_cases h2 : i.method = p.method
    · rw [if_neg (by simpa using h2)]
      simp only [bind, Except.bind]
      by_cases h3 : i.tag = p.tag ∨ i.tag ∈ bad
      · rw [if_neg (by tauto)]
        simp only [Except.ok.injEq, h1, h2, h3, true_and]
        constructor
        · intro h; exact Or.inl h.symm
        · rintro (h | ⟨h4, h5, _⟩)
          · exact h.symm
          · omega
      · rw [if_pos (by tauto)]
        simp [h3]
    · rw [if_pos (by simpa using h2)]
      by_cases h4 : i.method = 1 ∧ p.method = 0 ∧ i.trailer = [0, 0] ∧ k = true
      · rw [if_pos h4]
        simp only [bind, Except.bind]
        by_cases h3 : i.tag = p.tag ∨ i.tag ∈ bad
        · rw [if_neg (by simpa using (by tauto : ¬(i.tag ≠ p.tag ∧ i.tag ∉ bad)))]
          simp only [Except.ok.injEq, h1, h2, h3, true_and, false_and, false_or, h4]
          simp only [Nat.succ_ne_zero, false_and, false_or]
          exact eq_comm
        · rw [if_pos (by simpa using (by tauto : i.tag ≠ p.tag ∧ i.tag ∉ bad))]
          simp [h3]
      · rw [if_neg h4]
        simp only [bind, Except.bind, reduceCtorEq, false_iff]
        tauto
  · rw [if_pos (by simpa using h1)]
    simp [h1]

theorem buildBase_error {k : Bool} {bad : List Nat} {p : Obj ν} {i : Info} {e : PyErr}
    (h : buildBase k bad p i = .error e) : e = .valueError := by
  unfold buildBase at h
  simp only [bind, Except.bind] at h
  repeat' split at h
  all_goals first | cases h; done | (injection h with h; exact h.symm)

theorem buildObj_eq (k : Bool) (bad : List Nat) (p : Obj ν) (i : Info) :
    buildObj k bad p i = (explicitLoop p.explicit.reverse i i.header i.trailer).bind (fun r =>
      (buildBase k bad { p with explicit := [] } r.1).bind (fun o =>
        .ok { o with header := some r.2.1, trailer := r.2.2, explicit := p.explicit })) := by
  unfold buildObj
  split
  · next h =>
    rw [h]
    have hp : ({ p with explicit := [] } : Obj ν) = p := by rw [← h]
    simp only [List.reverse_nil, explicitLoop, Except.bind, hp]
    cases hb : buildBase k bad p i with
    | error e => rfl
    | ok o =>
      rcases (buildBase_ok.mp hb).2.2 with ⟨_, rfl⟩ | ⟨_, _, _, _, rfl⟩ <;> simp [h]
  · rfl

theorem loadObj_inv {k : Bool} {bad : List Nat} {p o : Obj ν} {data : Bytes} {strict : Bool}
    (h : loadObj k bad p data strict = .ok o) :
    ∃ i r o0, parse data strict = .ok i ∧ explicitLoop p.explicit.reverse i i.header i.trailer = .ok r ∧
      buildBase k bad { p with explicit := [] } r.1 = .ok o0 ∧
      o = { o0 with header := some r.2.1, trailer := r.2.2, explicit := p.explicit } := by
  unfold loadObj at h
  cases hp : parse data strict with
  | error e => rw [hp] at h; cases h
  | ok i =>
    rw [hp] at h
    simp only [bind, Except.bind] at h
    rw [buildObj_eq] at h
    cases he : explicitLoop p.explicit.reverse i i.header i.trailer with
    | error e => rw [he] at h; cases h
    | ok r =>
      rw [he] at h
      simp only [Except.bind] at h
      cases hb : buildBase k bad { p with explicit := [] } r.1 with
      | error e => rw [hb] at h; cases h
      | ok o0 =>
        rw [hb] at h
        simp only [Except.ok.injEq] at h
        exact ⟨i, r, o0, rfl, he, hb, h.symm⟩

/-- A loaded object has contents and no cached native value. -/
theorem loadObj_contents {k : Bool} {bad : List Nat} {p o : Obj ν} {data : Bytes} {strict : Bool}
    (h : loadObj k bad p data strict = .ok o) : o.native = none ∧ ∃ c, o.contents = some c := by
  obtain ⟨i, r, o0, _, _, h3, rfl⟩ := loadObj_inv h
  rcases (buildBase_ok.mp h3).2.2 with ⟨_, rfl⟩ | ⟨_, _, _, _, rfl⟩ <;> exact ⟨rfl, _, rfl⟩

theorem explicitLoop_error : ∀ (es : List (Nat × Nat)) (i : Info) (h t : Bytes) (e : PyErr),
    explicitLoop es i h t = .error e → e = .valueError := by
  intro es
  induction es with
  | nil => intro i h t e he; cases he
  | cons x es ih =>
    intro i h t e he
    obtain ⟨c, tg⟩ := x
    simp only [explicitLoop] at he
    split at he
    · injection he with he; exact he.symm
    · split at he
      · injection he with he; exact he.symm
      · split at he
        · injection he with he; exact he.symm
        · cases hp : parse i.contents with
          | error e' =>
            rw [hp] at he
            injection he with he
            rw [← he]
            exact parse_error _ _ _ hp
          | ok i' =>
            rw [hp] at he
            exact ih _ _ _ _ he

/-- Loading can only fail with `ValueError`. -/
theorem loadObj_error {k : Bool} {bad : List Nat} {p : Obj ν} {data : Bytes} {strict : Bool} {e : PyErr}
    (h : loadObj k bad p data strict = .error e) : e = .valueError := by
  unfold loadObj at h
  cases hp : parse data strict with
  | error e' =>
    rw [hp] at h
    injection h with h
    rw [← h]
    exact parse_error _ _ _ hp
  | ok i =>
    rw [hp] at h
    simp only [bind, Except.bind] at h
    rw [buildObj_eq] at h
    cases he : explicitLoop p.explicit.reverse i i.header i.trailer with
    | error e' =>
      rw [he] at h
      injection h with h
      rw [← h]
      exact explicitLoop_error _ _ _ _ _ he
    | ok r =>
      rw [he] at h
      simp only [Except.bind] at h
      cases hb : buildBase k bad { p with explicit := [] } r.1 with
      | error e' =>
        rw [hb] at h
        injection h with h
        rw [← h]
        exact buildBase_error hb
      | ok o0 => rw [hb] at h; cases h

end Asn1
