import Verif.Lemmas.Pending
import Verif.Lemmas.LeafRep

/-! # New instances, continued: what they are written as -/

namespace Asn1
open Spec Props

/-- What kind of instance it is, and of which class. -/
def Val.mark : Val → Nat × Option ClassId
  | .void => (0, none)
  | .leaf c _ => (1, some c)
  | .node c _ _ _ => (2, some c)
  | .choice c _ _ _ => (3, some c)
  | .any c _ _ _ => (4, some c)
  | .parsable c _ _ _ => (5, some c)

/-- The kind of the instances of a class. -/
def Shape.mark : Shape → Nat
  | .leaf _ _ => 1
  | .seq _ _ _ _ _ => 2
  | .seqOf _ _ _ _ => 2
  | .choice _ _ _ => 3
  | .any => 4
  | .parsable _ _ => 5

theorem classOf_mark (v : Val) : v.classOf = v.mark.2 := by cases v <;> rfl

/-- `class_`, `tag`, `implicit` and `explicit` of an instance, see `Val.tagging`. -/
abbrev Tags : Type := Option Nat × Option Nat × Bool × List (Nat × Nat)

/-- Tagging of the instances of a class without tagging of its own, made with the params. -/
def tagsFor (sh : Shape) (p : Params) : Tags :=
  match sh with
  | .choice _ _ _ => (none, none, false, p.explicit)
  | .any => (none, none, false, p.explicit)
  | sh => (some (effTag (sh.tagging.1, sh.tagging.2.1) p).1, some (effTag (sh.tagging.1, sh.tagging.2.1) p).2, p.explicit.isEmpty && p.implicit.isSome,
      p.explicit)

/-- The element an instance with this tagging is written as. -/
def Shown (T : Tags) : Piece → TLV → Prop
  | .octets m cs, t => ∃ u, T.1 = some u.cls ∧ T.2.1 = some u.tag ∧ u.method = m ∧ u.contents = cs ∧ DerInside T.2.2.2.reverse t u
  | .element w, t => DerInside T.2.2.2.reverse t w

/-- A new instance, nothing of which has been written yet; see `Piece`. -/
inductive Pending (E : Env) : Val → Piece → Prop
  | leaf {c : ClassId} {st : LeafSt} {cs : Bytes} : st.base.contents = some cs → st.base.header = none → st.base.indefinite = false →
      st.base.method = 0 → Pending E (.leaf c st) (.octets 0 cs)
  | string {c : ClassId} {o : Obj Bytes} {sp : Option ClassId} {cs : Bytes} : o.contents = some cs → o.header = none → o.indefinite = false →
      o.method = 0 → Pending E (.parsable c o none sp) (.octets 0 cs)
  | payload {c : ClassId} {o : Obj Bytes} {v : Val} {sp : Option ClassId} {cs : Bytes} : o.contents = some cs → o.header = none →
      o.indefinite = false → o.method = 0 → Rest v → Pending E (.parsable c o (some v) sp) (.octets 0 cs)
  | node {c : ClassId} {o : Obj Unit} {ch ch' : Option (List Child)} {m : Bool} {cs : Bytes} : o.header = none → o.indefinite = false →
      o.trailer = [] → o.method = 1 → checkRequired E c ch = .ok () → checkRequired E c ch' = .ok () →
      (Val.node c { o with contents := some cs } ch' false).isMutated = false →
      Ev (fun j => nodeContents E (ops E j) c o ch m = .ok ({ o with contents := some cs }, ch', false)) → Pending E (.node c o ch m) (.octets 1 cs)
  | choice {c : ClassId} {o : Obj Unit} {k : Nat} {v : Val} {b : Piece} {w : TLV} : o.header = none → Pending E v b → Shown v.tagging b w →
      Pending E (.choice c o (some k) (some v)) (.element w)

/-! ### `contents` -/

theorem Pending.contents {E : Env} {v : Val} {b : Piece} (h : Pending E v b) :
    ∃ cs v', Ev (fun j => (ops E j).contents v = .ok (some cs, v')) ∧ Pending E v' b ∧ Rest v' ∧ v'.tagging = v.tagging ∧ v'.mark = v.mark := by
  induction h with
  | @leaf c st cs h1 h2 h3 h4 =>
    exact ⟨cs, _, Ev.up (Ev.of (fun j => by rw [ops_contents]; simp only [contentsStep, h1])), .leaf h1 h2 h3 h4, .leaf h1 h3, rfl, rfl⟩
  | @string c o sp cs h1 h2 h3 h4 =>
    exact ⟨cs, _, Ev.up (Ev.of (fun j => by rw [ops_contents]; simp only [contentsStep, h1])), .string h1 h2 h3 h4, .string h1 h3, rfl, rfl⟩
  | @payload c o v sp cs h1 h2 h3 h4 h5 =>
    exact ⟨cs, _, Ev.up (Ev.of (fun j => by rw [ops_contents]; simp only [contentsStep, h1])), .payload h1 h2 h3 h4 h5, .payload h1 h3 h5, rfl, rfl⟩
  | @node c o ch ch' m cs h1 h2 h3 h4 h5 h6 h7 h8 =>
    refine ⟨cs, .node c { o with contents := some cs } ch' false, Ev.up (h8.mono (fun j hj => ?_)), ?_, .node rfl h7, rfl, rfl⟩
    · rw [ops_contents]
      simp only [contentsStep, hj, bind, Except.bind]
    · exact .node h1 h2 h3 h4 h6 h6 h7 (Ev.of (fun j => nodeContents_rest h7))
  | @choice c o k v b w h1 h2 h3 ih =>
    obtain ⟨cs, v', i1, i2, i3, i4, i5⟩ := ih
    refine ⟨cs, .choice c o (some k) (some v'), Ev.up (i1.mono (fun j hj => ?_)), .choice h1 i2 (by rw [i4]; exact h3), .choice i3, rfl, rfl⟩
    rw [ops_contents]
    simp only [contentsStep, hj, bind, Except.bind]

/-! ### `dump()` -/

theorem shown_headers {T : Tags} {m : Nat} {cs : Bytes} {t : TLV} (h : Shown T (.octets m cs) t) {cl tg : Nat} {i : Bool} {es : List (Nat × Nat)}
    (hT : T = (some cl, some tg, i, es)) : ∃ h0 h1, dumpHeader cl m tg cs = .ok h0 ∧ wrapExplicit es h0 cs = .ok h1 ∧ t.bytes = h1 ++ cs := by
  subst hT
  obtain ⟨u, h1, h2, h3, h4, h5⟩ := h
  injection h1 with h1
  injection h2 with h2
  subst h1; subst h2; subst h3; subst h4
  have hu := (derInside_head h5).2
  have htr : u.trailer = [] := by obtain ⟨_, _, _, _, _, h⟩ := hu; exact h
  obtain ⟨h', k1, k2⟩ := derInside_wrap es (h := u.header) (c := u.contents) h5 (by rw [TLV.bytes, htr, List.append_nil])
  exact ⟨_, h', derHead_dumpHeader hu, k1, k2⟩

theorem headerEnds80_none : headerEnds80 none = false := rfl

theorem Pending.dump {E : Env} {v : Val} {b : Piece} (h : Pending E v b) : ∀ {t : TLV}, Shown v.tagging b t →
    ∃ v', Ev (fun j => (ops E j).dump v false = .ok (t.bytes, v')) ∧ Rest v' ∧ v'.tagging = v.tagging ∧ v'.mark = v.mark := by
  induction h with
  | @leaf c st cs h1 h2 h3 h4 =>
    intro t ht
    obtain ⟨a, b, k1, k2, k3⟩ := shown_headers ht rfl
    have hb := LeafSt.base_headed b st
    refine ⟨.leaf c (st.headed b), Ev.up (Ev.of (fun j => ?_)), .leaf (b := cs) (by rw [hb]; exact h1) (by rw [hb]; exact h3), ?_, rfl⟩
    · rw [ops_dump]
      simp only [dumpStep, LeafSt.dump_new h2 h3 h1, h4, k1, k2, bind, Except.bind, k3]
    · simp only [Val.tagging, hb]
  | @string c o sp cs h1 h2 h3 h4 =>
    intro t ht
    obtain ⟨a, b, k1, k2, k3⟩ := shown_headers ht rfl
    refine ⟨.parsable c { o with header := some b, trailer := [] } none sp, Ev.up (Ev.of (fun j => ?_)), .string (b := cs) h1 h3, rfl, rfl⟩
    rw [ops_dump]
    simp only [dumpStep, parsableDump, h3, Bool.or_false, Bool.false_eq_true, if_false, asn1Dump_fresh h1 h2 h3, h4, k1, k2, bind, Except.bind, k3]
  | @payload c o v sp cs h1 h2 h3 h4 h5 =>
    intro t ht
    obtain ⟨a, b, k1, k2, k3⟩ := shown_headers ht rfl
    refine ⟨.parsable c { o with header := some b, trailer := [] } (some v) sp, Ev.up (Ev.of (fun j => ?_)), .payload (b := cs) h1 h3 h5, rfl, rfl⟩
    rw [ops_dump]
    simp only [dumpStep, parsableDump, h3, Bool.or_false, Bool.false_eq_true, if_false, asn1Dump_fresh h1 h2 h3, h4, k1, k2, bind, Except.bind, k3]
  | @node c o ch ch' m cs h1 h2 h3 h4 h5 h6 h7 h8 =>
    intro t ht
    obtain ⟨a, b, k1, k2, k3⟩ := shown_headers ht rfl
    refine ⟨.node c { o with contents := some cs, header := some b, trailer := [] } ch' false, Ev.up (h8.mono (fun j hj => ?_)),
      .node (b := cs) rfl (by cases ch' <;> exact h7), rfl, rfl⟩
    rw [ops_dump]
    have hd := asn1Dump_fresh (k := false) (o := { o with contents := some cs }) (c := cs) rfl h1 h2 false
    simp only [h4] at hd
    simp only [dumpStep, nodeDump, h1, headerEnds80_none, Bool.or_false, Bool.false_and, Bool.false_eq_true, if_false, hj, h5, bind, Except.bind]
    simp only [h1, h4] at hd ⊢
    rw [hd]
    simp only [k1, k2, Except.bind, k3]
  | @choice c o k v b w h1 h2 h3 ih =>
    intro t ht
    obtain ⟨v', i1, i2, i3, i4⟩ := ih h3
    obtain ⟨h', k1, k2⟩ := derInside_wrap o.explicit (h := []) (c := w.bytes) ht rfl
    refine ⟨.choice c { o with header := some h', contents := some w.bytes } (some k) (some v'), Ev.up (i1.mono (fun j hj => ?_)), .choice i2, rfl, rfl⟩
    rw [ops_dump]
    simp only [dumpStep, choiceDump, h1, headerEnds80_none, Bool.or_false, choiceParse, hj, bind, Except.bind, choiceHeader_eq, k1, k2]

/-! ### `copy()` with other tags -/

/-- Tagging of a copy. -/
def copiedTags (v : Val) (cl tg : Nat) (im : Bool) (es : List (Nat × Nat)) : Tags :=
  match v with
  | .choice _ _ _ _ => (none, none, false, es)
  | _ => (some cl, some tg, im, es)

theorem Pending.copy {E : Env} {v : Val} {b : Piece} (h : Pending E v b) : ∀ cl tg im es, ∃ w,
    Ev (fun j => (ops E j).copyTo v cl tg im es = .ok w) ∧ Pending E w b ∧ w.tagging = copiedTags v cl tg im es ∧ w.mark = v.mark := by
  induction h with
  | @leaf c st cs h1 h2 h3 h4 =>
    intro cl tg im es
    have hb := LeafSt.base_fresh st cl tg im es
    refine ⟨.leaf c (st.fresh cl tg im es), Ev.up (Ev.of (fun j => ?_)), .leaf ?_ ?_ ?_ ?_, ?_, rfl⟩
    · rw [ops_copyTo]
      simp only [copyStep, copyTo_leaf h3, bind, Except.bind]
    · rw [hb]; exact h1
    · rw [hb]
    · rw [hb]
    · rw [hb]
    · simp only [Val.tagging, hb, copiedTags]
  | @string c o sp cs h1 h2 h3 h4 =>
    intro cl tg im es
    refine ⟨.parsable c { cls := cl, method := 0, tag := tg, implicit := im, explicit := es, contents := o.contents, native := o.native } none sp,
      Ev.up (Ev.of (fun j => ?_)), .string h1 rfl rfl rfl, rfl, rfl⟩
    rw [ops_copyTo]
    simp only [copyStep, h3, Bool.false_eq_true, if_false, bind, Except.bind]
  | @payload c o v sp cs h1 h2 h3 h4 h5 =>
    intro cl tg im es
    obtain ⟨q, hq⟩ := h5.copy (E := E) (v.tagging.1.getD 0) (v.tagging.2.1.getD 0) v.tagging.2.2.1 v.tagging.2.2.2
    obtain ⟨hq, hr⟩ := hq
    refine ⟨.parsable c { cls := cl, method := 0, tag := tg, implicit := im, explicit := es, contents := o.contents, native := o.native } (some q) sp,
      Ev.up (hq.mono (fun j hj => ?_)), .payload h1 rfl rfl rfl hr, rfl, rfl⟩
    rw [ops_copyTo]
    have hcv : copyVal (ops E j) v = .ok q := hj
    simp only [copyStep, hcv, h3, Bool.false_eq_true, if_false, bind, Except.bind]
  | @node c o ch ch' m cs h1 h2 h3 h4 h5 h6 h7 h8 =>
    intro cl tg im es
    refine ⟨.node c { cls := cl, method := 1, tag := tg, implicit := im, explicit := es, contents := some cs } none false,
      Ev.up (h8.mono (fun j hj => ?_)), .node (ch' := none) rfl rfl rfl rfl ?_ ?_ rfl (Ev.of (fun j => rfl)), rfl, rfl⟩
    · rw [ops_copyTo]
      simp only [copyStep, hj, bind, Except.bind]
    · unfold checkRequired
      cases E.cls c <;> rfl
    · unfold checkRequired
      cases E.cls c <;> rfl
  | @choice c o k v b w h1 h2 h3 ih =>
    intro cl tg im es
    obtain ⟨q, hq, q1, q2, q3⟩ := ih (v.tagging.1.getD 0) (v.tagging.2.1.getD 0) v.tagging.2.2.1 v.tagging.2.2.2
    obtain ⟨cs, v', hc, _⟩ := h2.contents
    refine ⟨.choice c { cls := o.cls, method := o.method, tag := o.tag, explicit := es, contents := some cs } (some k) (some q),
      Ev.up (hq.map2 hc (fun j hj hj' => ?_)), .choice rfl q1 ?_, rfl, rfl⟩
    · rw [ops_copyTo]
      have hcv : copyVal (ops E j) v = .ok q := hj
      simp only [copyStep, contentsStep, hj', hcv, bind, Except.bind]
    · rw [q2]
      have : copiedTags v (v.tagging.1.getD 0) (v.tagging.2.1.getD 0) v.tagging.2.2.1 v.tagging.2.2.2 = v.tagging := by
        cases h2 <;> rfl
      rw [this]
      exact h3

end Asn1
