import Verif.Spec.Give
import Verif.Lemmas.DerLeaf
import Verif.Lemmas.EncBase
import Verif.Lemmas.LeafRep

/-! # New instances: writing them, copying them, asking for their contents -/

namespace Asn1
open Spec Props

/-! ### From some level of recursion on -/

/-- `P` holds from some number on. -/
def Ev (P : Nat → Prop) : Prop := ∃ M, ∀ j ≥ M, P j

theorem Ev.of {P : Nat → Prop} (h : ∀ j, P j) : Ev P := ⟨0, fun j _ => h j⟩

theorem Ev.mono {P Q : Nat → Prop} (h : Ev P) (f : ∀ j, P j → Q j) : Ev Q := by
  obtain ⟨M, h⟩ := h
  exact ⟨M, fun j hj => f j (h j hj)⟩

theorem Ev.and {P Q : Nat → Prop} (h : Ev P) (h' : Ev Q) : Ev (fun j => P j ∧ Q j) := by
  obtain ⟨M, h⟩ := h
  obtain ⟨M', h'⟩ := h'
  exact ⟨max M M', fun j hj => ⟨h j (by omega), h' j (by omega)⟩⟩

theorem Ev.map2 {P Q R : Nat → Prop} (h : Ev P) (h' : Ev Q) (f : ∀ j, P j → Q j → R j) : Ev R :=
  (h.and h').mono (fun j hj => f j hj.1 hj.2)

/-- One level more. -/
theorem Ev.up {P : Nat → Prop} (h : Ev (fun j => P (j + 1))) : Ev P := by
  obtain ⟨M, h⟩ := h
  refine ⟨M + 1, fun j hj => ?_⟩
  obtain ⟨k, rfl⟩ : ∃ k, j = k + 1 := ⟨j - 1, by omega⟩
  exact h k (by omega)

/-- One level less. -/
theorem Ev.down {P : Nat → Prop} (h : Ev P) : Ev (fun j => P (j + 1)) := by
  obtain ⟨M, h⟩ := h
  exact ⟨M, fun j hj => h (j + 1) (by omega)⟩

theorem Ev.get {P : Nat → Prop} (h : Ev P) : ∃ j, P j := by
  obtain ⟨M, h⟩ := h
  exact ⟨M, h M (le_refl _)⟩

theorem ops_contents (E : Env) (j : Nat) (v : Val) : (ops E (j + 1)).contents v = contentsStep E (ops E j) v := rfl

theorem ops_dump (E : Env) (j : Nat) (v : Val) (force : Bool) : (ops E (j + 1)).dump v force = dumpStep E (ops E j) v force := rfl

theorem ops_construct (E : Env) (j : Nat) (c : ClassId) (p : Params) (x : PyVal) :
    (ops E (j + 1)).construct c p x = constructStep E (ops E j) c p x := rfl

theorem ops_copyTo (E : Env) (j : Nat) (v : Val) (cl tg : Nat) (im : Bool) (es : List (Nat × Nat)) :
    (ops E (j + 1)).copyTo v cl tg im es = copyStep E (ops E j) v cl tg im es := rfl

/-! ### Headers -/

theorem derHead_dumpHeader {t : TLV} (h : DerHead t) : dumpHeader t.cls t.method t.tag t.contents = .ok t.header := by
  obtain ⟨id, len, h1, h2, h3, h4⟩ := id h
  have hfit : t.contents.length < 256 ^ 127 := by
    rcases h2 with ⟨h2, _⟩ | ⟨_, d, ds, _, hl, _, hv⟩
    · exact Nat.lt_of_lt_of_le h2 (by decide)
    · rw [← hv]
      exact Nat.lt_of_lt_of_le (valU_lt _) (Nat.pow_le_pow_right (by decide) hl)
  obtain ⟨x, hx⟩ := dumpHeader_total (t := t.tag) h1.1 h1.2.1 hfit
  have := derHead_unique (dumpHeader_der h1.1 h1.2.1 hx) h rfl rfl rfl rfl
  rw [hx, ← this]

/-- Headers around an element, the innermost first. -/
theorem derInside_wrap : ∀ (es : List (Nat × Nat)) {t u : TLV} {h c : Bytes}, DerInside es.reverse t u → u.bytes = h ++ c →
    ∃ h', wrapExplicit es h c = .ok h' ∧ t.bytes = h' ++ c := by
  intro es
  induction es with
  | nil =>
    intro t u h c hi hu
    cases hi
    exact ⟨h, rfl, hu⟩
  | cons e es ih =>
    intro t u h c hi hu
    rw [List.reverse_cons] at hi
    have split : ∀ {l : List (Nat × Nat)} {t : TLV}, DerInside (l ++ [e]) t u →
        ∃ v, DerInside l t v ∧ DerHead v ∧ v.method = 1 ∧ v.contents = u.bytes ∧ e = (v.cls, v.tag) := by
      intro l
      induction l with
      | nil =>
        intro t ht
        rw [List.nil_append] at ht
        generalize hl : [e] = l at ht
        cases ht with
        | nil => cases hl
        | cons h1 h2 h3 h4 =>
          injection hl with hl1 hl2
          subst hl2
          cases h4
          exact ⟨t, .nil h1, h1, h2, h3, hl1⟩
      | cons a l ihl =>
        intro t ht
        rw [List.cons_append] at ht
        generalize hl : a :: (l ++ [e]) = l' at ht
        cases ht with
        | nil => cases hl
        | cons h1 h2 h3 h4 =>
          injection hl with hl1 hl2
          subst hl2
          obtain ⟨v, g1, g2⟩ := ihl h4
          rw [hl1]
          exact ⟨v, .cons h1 h2 h3 g1, g2⟩
    obtain ⟨v, g1, g2, g3, g4, rfl⟩ := split hi
    have htr : v.trailer = [] := by obtain ⟨_, _, _, _, _, h⟩ := g2; exact h
    have hd := derHead_dumpHeader g2
    rw [g3, g4, hu] at hd
    obtain ⟨h', k1, k2⟩ := ih (h := v.header ++ h) (c := c) g1 (by rw [TLV.bytes, htr, g4, hu, List.append_nil, List.append_assoc])
    refine ⟨h', ?_, k2⟩
    unfold wrapExplicit
    simp only [hd, bind, Except.bind]
    exact k1

theorem choiceHeader_eq (es : List (Nat × Nat)) : ∀ (h c : Bytes), choiceHeader es h c = wrapExplicit es h c := by
  induction es with
  | nil => intro h c; rfl
  | cons e es ih =>
    intro h c
    obtain ⟨a, b⟩ := e
    unfold choiceHeader wrapExplicit
    simp only [ih]

/-! ### Instances that are at rest -/

/-- Nothing is left to compute: contents are known and there are no changes. -/
inductive Rest : Val → Prop
  | leaf {c : ClassId} {st : LeafSt} {b : Bytes} : st.base.contents = some b → st.base.indefinite = false → Rest (.leaf c st)
  | node {c : ClassId} {o : Obj Unit} {ch : Option (List Child)} {b : Bytes} : o.contents = some b → (Val.node c o ch false).isMutated = false →
      Rest (.node c o ch false)
  | choice {c : ClassId} {o : Obj Unit} {k : Option Nat} {v : Val} : Rest v → Rest (.choice c o k (some v))
  | string {c : ClassId} {o : Obj Bytes} {sp : Option ClassId} {b : Bytes} : o.contents = some b → o.indefinite = false → Rest (.parsable c o none sp)
  | payload {c : ClassId} {o : Obj Bytes} {v : Val} {sp : Option ClassId} {b : Bytes} : o.contents = some b → o.indefinite = false → Rest v →
      Rest (.parsable c o (some v) sp)
  | any {c : ClassId} {o : Obj Unit} {v : Val} {sp : Option ClassId} {b : Bytes} : o.contents = some b → Rest v → Rest (.any c o (some v) sp)

theorem Rest.calm {v : Val} (h : Rest v) : v.isMutated = false := by
  cases h <;> first | rfl | assumption

theorem Rest.notVoid {v : Val} (h : Rest v) : v ≠ .void := by
  cases h <;> simp

theorem nodeContents_rest {E : Env} {r : Ops} {c : ClassId} {o : Obj Unit} {ch : Option (List Child)} (h : (Val.node c o ch false).isMutated = false) :
    nodeContents E r c o ch false = .ok (o, ch, false) := by
  unfold nodeContents
  cases ch with
  | none => rfl
  | some cs => simp only [h, Bool.false_eq_true, if_false]

theorem Rest.contents {E : Env} {v : Val} (h : Rest v) : ∃ b, Ev (fun j => (ops E j).contents v = .ok (some b, v)) := by
  induction h with
  | @leaf c st b h1 h2 => exact ⟨b, Ev.up (Ev.of (fun j => by rw [ops_contents]; simp only [contentsStep, h1]))⟩
  | @node c o ch b h1 h2 =>
    refine ⟨b, Ev.up (Ev.of (fun j => ?_))⟩
    rw [ops_contents]
    simp only [contentsStep, nodeContents_rest h2, bind, Except.bind, h1]
  | @choice c o k v _ ih =>
    obtain ⟨b, ih⟩ := ih
    refine ⟨b, Ev.up (ih.mono (fun j hj => ?_))⟩
    rw [ops_contents]
    simp only [contentsStep, hj, bind, Except.bind]
  | @string c o sp b h1 h2 => exact ⟨b, Ev.up (Ev.of (fun j => by rw [ops_contents]; simp only [contentsStep, h1]))⟩
  | @payload c o v sp b h1 h2 _ ih => exact ⟨b, Ev.up (Ev.of (fun j => by rw [ops_contents]; simp only [contentsStep, h1]))⟩
  | @any c o v sp b h1 _ ih => exact ⟨b, Ev.up (Ev.of (fun j => by rw [ops_contents]; simp only [contentsStep, h1]))⟩

theorem copyTo_leaf {st : LeafSt} {cl tg : Nat} {im : Bool} {es : List (Nat × Nat)} (h : st.base.indefinite = false) :
    st.copyTo cl tg im es = .ok (st.fresh cl tg im es) := by
  unfold LeafSt.copyTo
  rw [h, Bool.and_false]
  rfl

theorem Rest.copy {E : Env} {v : Val} (h : Rest v) : ∀ cl tg im es, ∃ w, Ev (fun j => (ops E j).copyTo v cl tg im es = .ok w) ∧ Rest w := by
  induction h with
  | @leaf c st b h1 h2 =>
    intro cl tg im es
    refine ⟨.leaf c (st.fresh cl tg im es), Ev.up (Ev.of (fun j => ?_)), .leaf (b := b) (by rw [LeafSt.base_fresh]; exact h1) (by rw [LeafSt.base_fresh])⟩
    · rw [ops_copyTo]
      simp only [copyStep, copyTo_leaf h2, bind, Except.bind]
  | @node c o ch b h1 h2 =>
    intro cl tg im es
    refine ⟨.node c { cls := cl, method := 1, tag := tg, implicit := im, explicit := es, contents := o.contents } none false, Ev.up (Ev.of (fun j => ?_)), .node (b := b) h1 rfl⟩
    · rw [ops_copyTo]
      simp only [copyStep, nodeContents_rest h2, bind, Except.bind]
  | @choice c o k v hv ih =>
    intro cl tg im es
    obtain ⟨q, hq, hr⟩ := ih (v.tagging.1.getD 0) (v.tagging.2.1.getD 0) v.tagging.2.2.1 v.tagging.2.2.2
    obtain ⟨b, hb⟩ := hv.contents (E := E)
    refine ⟨.choice c { cls := o.cls, method := o.method, tag := o.tag, explicit := es, contents := some b } k (some q), Ev.up (hq.map2 hb (fun j hj hj' => ?_)), .choice hr⟩
    · rw [ops_copyTo]
      have hc : copyVal (ops E j) v = .ok q := hj
      simp only [copyStep, contentsStep, hj', hc, bind, Except.bind]
  | @string c o sp b h1 h2 =>
    intro cl tg im es
    refine ⟨.parsable c { cls := cl, method := 0, tag := tg, implicit := im, explicit := es, contents := o.contents, native := o.native } none sp, Ev.up (Ev.of (fun j => ?_)), .string (b := b) h1 rfl⟩
    · rw [ops_copyTo]
      simp only [copyStep, h2, Bool.false_eq_true, if_false, bind, Except.bind]
  | @payload c o v sp b h1 h2 hv ih =>
    intro cl tg im es
    obtain ⟨q, hq, hr⟩ := ih (v.tagging.1.getD 0) (v.tagging.2.1.getD 0) v.tagging.2.2.1 v.tagging.2.2.2
    refine ⟨.parsable c { cls := cl, method := 0, tag := tg, implicit := im, explicit := es, contents := o.contents, native := o.native } (some q) sp, Ev.up (hq.mono (fun j hj => ?_)), .payload (b := b) h1 rfl hr⟩
    · rw [ops_copyTo]
      have hc : copyVal (ops E j) v = .ok q := hj
      simp only [copyStep, hc, h2, Bool.false_eq_true, if_false, bind, Except.bind]
  | @any c o v sp b h1 hv ih =>
    intro cl tg im es
    obtain ⟨q, hq, hr⟩ := ih (v.tagging.1.getD 0) (v.tagging.2.1.getD 0) v.tagging.2.2.1 v.tagging.2.2.2
    refine ⟨.any c { cls := o.cls, method := o.method, tag := o.tag, explicit := es, contents := o.contents } (some q) sp, Ev.up (hq.mono (fun j hj => ?_)), .any (b := b) h1 hr⟩
    · rw [ops_copyTo]
      have hc : copyVal (ops E j) v = .ok q := hj
      simp only [copyStep, hc, bind, Except.bind]

end Asn1
