import Verif.Lemmas.PendingTag

/-! # Making the value of a field -/

namespace Asn1
open Spec Props

theorem Ev.unique {α : Type} {f : Nat → Py α} {a b : α} (h : Ev (fun j => f j = .ok a)) (h' : Ev (fun j => f j = .ok b)) : a = b := by
  obtain ⟨j, h1, h2⟩ := (h.and h').get
  exact Except.ok.inj (h1.symm.trans h2)

/-- The value of a field of this SEQUENCE decides about something else. -/
def TellsSub (E : Env) (c : ClassId) (v : Val) (n : PyVal) : Prop :=
  ∀ proto bad fs oid k g ns name m, E.cls c = .seq proto bad false fs oid → fs[k]? = some g → Telling E g → (∀ q, oid = some q → q.value ≠ k) →
    n = .dict ns → ns[k]? = some (name, m) → Ev (fun j => decisive (ops E j) (some k) v = .ok (m, v))

/-- The value of a primitive instance is known. -/
def TellsLeaf (E : Env) (c : ClassId) (v : Val) (n : PyVal) : Prop :=
  ∀ proto bad, E.cls c = .leaf proto bad → ∃ st s, v = .leaf c st ∧ n = .scalar s ∧ st.native = .ok (s, st)

/-- `c(x, **q)` works and gives a new instance made of `b` with the value `n`. -/
structure Makes (E : Env) (c : ClassId) (x : PyVal) (b : Piece) (n : PyVal) : Prop where
  tag : (∃ m cs, b = .octets m cs) → HasTag (E.cls c)
  plain : ∀ v, x ≠ .asn1 v
  pair : (∃ e tagged alts, E.cls c = .choice e tagged alts) ↔ ∃ name y, x = .pair name y
  notAny : E.cls c ≠ .any
  made : ∀ q : Params, GoodTags q → (¬ HasTag (E.cls c) → q.implicit = none ∧ q.default = none) → (x = .scalar .none → q.default = none) →
    ∃ v, Ev (fun j => (ops E j).construct c q x = .ok v) ∧ Pending E v b ∧ v.mark = ((E.cls c).mark, some c) ∧ v.tagging = tagsFor (E.cls c) q ∧
      TellsLeaf E c v n ∧ ∀ cs v', Ev (fun j => (ops E j).contents v = .ok (some cs, v')) → TellsSub E c v' n

/-- The params say nothing about tags. -/
def Untagged (p : Params) : Prop := p.explicit = [] ∧ p.implicit = none

/-- What is known about a value that has been put into a field. -/
structure Put (E : Env) (c : ClassId) (p : Params) (v : Val) (t : TLV) (n : PyVal) (w : Val) : Prop where
  dump : Ev (fun j => (ops E j).dump v false = .ok (t.bytes, w))
  calm : w.isMutated = false
  there : v ≠ .void
  stays : w ≠ .void
  tags : HasTag (E.cls c) → w.tagging = tagsFor (E.cls c) p
  leaf : (∃ proto bad, E.cls c = .leaf proto bad) → Ev (fun j => (ops E j).native v = .ok (n, v)) ∧
    ∃ w', Ev (fun j => (ops E j).native w = .ok (n, w'))

theorem leaf_native {E : Env} {c : ClassId} {st : LeafSt} {s : Scalar} (h : st.native = .ok (s, st)) :
    Ev (fun j => (ops E j).native (.leaf c st) = .ok (.scalar s, .leaf c st)) :=
  Ev.up (Ev.of (fun j => by rw [ops_native]; simp only [nativeStep, h, bind, Except.bind]))

/-- Reading the value after it has been written. -/
theorem leaf_native_dumped {E : Env} {c : ClassId} {st : LeafSt} {s : Scalar} {b : Piece} {out : Bytes} {w : Val} (h : st.native = .ok (s, st))
    (hp : Pending E (.leaf c st) b) (hd : Ev (fun j => (ops E j).dump (.leaf c st) false = .ok (out, w))) :
    ∃ w', Ev (fun j => (ops E j).native w = .ok (.scalar s, w')) := by
  cases hp with
  | @leaf c st cs h1 h2 h3 h4 =>
  obtain ⟨j, hj⟩ := hd.down.get
  rw [ops_dump] at hj
  simp only [dumpStep, LeafSt.dump_new h2 h3 h1, bind] at hj
  cases k1 : dumpHeader st.base.cls st.base.method st.base.tag cs with
  | error e => rw [k1] at hj; cases hj
  | ok h0 =>
    rw [k1] at hj
    simp only [Except.bind] at hj
    cases k2 : wrapExplicit st.base.explicit h0 cs with
    | error e => rw [k2] at hj; cases hj
    | ok h' =>
      rw [k2] at hj
      simp only [Except.bind] at hj
      injection hj with hj
      injection hj with _ hj
      subst hj
      have := LeafSt.native_frame st h1 st.base.cls st.base.tag st.base.implicit st.base.explicit (some h') []
      rw [← LeafSt.headed_frame, h] at this
      refine ⟨.leaf c (st.map (Obj.frame st.base.cls st.base.tag st.base.implicit st.base.explicit (some h') [])), Ev.up (Ev.of (fun j => ?_))⟩
      rw [ops_native]
      simp only [nativeStep, this, bind, Except.bind, Except.map]

theorem Rest.mark {v : Val} (h : Rest v) : v.mark.1 ≠ 0 := by cases h <;> simp [Val.mark]

theorem mark_void {v : Val} (h : v.mark.1 ≠ 0) : v ≠ .void := by rintro rfl; exact h rfl

theorem Pending.mark {E : Env} {v : Val} {b : Piece} (h : Pending E v b) : v.mark.1 ≠ 0 := by cases h <;> simp [Val.mark]

theorem contents_leaf {E : Env} {c : ClassId} {st : LeafSt} {cs : Bytes} {v : Val}
    (h : Ev (fun j => (ops E j).contents (.leaf c st) = .ok (some cs, v))) : v = .leaf c st := by
  obtain ⟨j, hj⟩ := h.down.get
  rw [ops_contents] at hj
  injection hj with hj
  injection hj with _ hj
  exact hj.symm

/-- An instance with the tags of the class or other ones, put into a field: its tags are put right, then its contents are asked for. -/
theorem made_field {E : Env} {U : ClassId → Prop} (hT : Types E U) {c : ClassId} {p q : Params} {v : Val} {b : Piece} {t : TLV} {n : PyVal}
    (hU : Usable E U c p) (hv : Pending E v b) (hm : v.mark = ((E.cls c).mark, some c)) (ht : v.tagging = tagsFor (E.cls c) q)
    (htag : (∃ m cs, b = .octets m cs) → HasTag (E.cls c)) (hd : DerElement E c p b t)
    (hl : TellsLeaf E c v n) (hq : Untagged p → Untagged q)
    (hs : ∀ cs v', Ev (fun j => (ops E j).contents v = .ok (some cs, v')) → TellsSub E c v' n) :
    ∃ v1 nv w1 w cs, Ev (fun j => fixTagging E (ops E j) v p = .ok v1) ∧ Ev (fun j => (ops E j).contents v1 = .ok (some cs, nv)) ∧
      v1.mark = v.mark ∧ Put E c p v1 t n w1 ∧ Put E c p nv t n w ∧ (Untagged p → TellsSub E c nv n) := by
  obtain ⟨v1, f1, f2, f3, f4, f5⟩ := fix_tagging (types_tagging hT hU.mem) hv hm ht hU.tags (fun h => (hU.untagged h).1)
  have hsh := derElement_shown htag hd
  obtain ⟨cs, nv, c1, c2, c3, c4, c5⟩ := f2.contents
  obtain ⟨w1, d1, d2, d3, d4⟩ := f2.dump (t := t) (by rw [f3]; exact hsh)
  obtain ⟨w, e1, e2, e3, e4⟩ := c2.dump (t := t) (by rw [c4, f3]; exact hsh)
  have key : ∀ st s, v = .leaf c st → st.native = .ok (s, st) → ∃ st', v1 = .leaf c st' ∧ st'.native = .ok (s, st') := by
    rintro st s rfl hn
    cases hv with
    | leaf h1 h2 h3 h4 => exact fix_leaf h1 h3 hn f1
  have hsame : Untagged p → v1 = v := fun h => f5 h.1 h.2 (hq h).1 (hq h).2
  refine ⟨v1, nv, w1, w, cs, f1, c1, f4, ⟨d1, d2.calm, mark_void f2.mark, d2.notVoid, fun _ => by rw [d3, f3], ?_⟩,
    ⟨e1, e2.calm, mark_void c2.mark, e2.notVoid, fun _ => by rw [e3, c4, f3], ?_⟩, ?_⟩
  · rintro ⟨proto, bad, hc⟩
    obtain ⟨st, s, rfl, rfl, h3⟩ := hl proto bad hc
    obtain ⟨st', rfl, h4⟩ := key st s rfl h3
    exact ⟨leaf_native h4, leaf_native_dumped h4 f2 d1⟩
  · rintro ⟨proto, bad, hc⟩
    obtain ⟨st, s, rfl, rfl, h3⟩ := hl proto bad hc
    obtain ⟨st', rfl, h4⟩ := key st s rfl h3
    have := contents_leaf c1
    subst this
    exact ⟨leaf_native h4, leaf_native_dumped h4 f2 e1⟩
  · intro hp
    have := hsame hp
    subst this
    exact hs cs nv c1

end Asn1
