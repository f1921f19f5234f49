import Verif.Lemmas.RepRead
import Verif.Spec.Ready

/-! # Dumping, reading, copying and constructing succeeds -/

namespace Asn1
open Spec Props

theorem Spec.Works.ok {α : Type} {x : Py α} {y : α} (h : x = .ok y) : Works x := .inl ⟨y, h⟩

theorem Spec.Works.bind {α β : Type} {x : Py α} {f : α → Py β} (h : Works x) (hf : ∀ y, x = .ok y → Works (f y)) : Works (x >>= f) := by
  rcases h with ⟨y, h⟩ | h
  · have := hf y h
    subst h
    exact this
  · subst h
    exact .inr rfl

theorem Spec.Works.bind' {α β : Type} {x : Py α} {f : α → Py β} (h : Works x) (hf : ∀ y, x = .ok y → Works (f y)) : Works (Except.bind x f) :=
  Works.bind h hf

theorem dumpHeader_works {cl m tg : Nat} {c : Bytes} (hc : cl < 4) (hm : m < 2) : Works (dumpHeader cl m tg c) := by
  by_cases hf : c.length < 256 ^ 127
  · obtain ⟨id, len, h, _⟩ := dumpHeader_spec (t := tg) hc hm c hf
    exact .ok h
  · obtain ⟨id, h, _⟩ := dumpIdent_spec hc hm tg
    right
    unfold dumpHeader dumpLength
    have h1 : ¬ c.length ≤ 127 := fun h => hf (Nat.lt_of_le_of_lt h (by decide))
    rw [if_neg h1, if_pos (Nat.not_lt.mp hf), h]
    rfl

theorem wrapExplicit_works : ∀ (es : List (Nat × Nat)) (h c : Bytes), (∀ e ∈ es, e.1 < 4) → Works (wrapExplicit es h c)
  | [], h, c, _ => .ok rfl
  | (cl, tg) :: es, h, c, he => by
    unfold wrapExplicit
    exact (dumpHeader_works (he (cl, tg) (by simp)) (by omega)).bind (fun y _ => wrapExplicit_works es _ c (fun e hm => he e (by simp [hm])))

theorem asn1Dump_works {ν : Type} {k : Bool} {o : Obj ν} {force : Bool} {c : Bytes} (h1 : o.contents = some c) (h2 : o.cls < 4) (h3 : o.method < 2)
    (h4 : ∀ e ∈ o.explicit, e.1 < 4) : Works (asn1Dump k o force) := by
  unfold asn1Dump
  rw [h1]
  simp only
  split
  · exact .ok rfl
  · split
    · exact (dumpHeader_works h2 (by simp)).bind (fun y _ => (wrapExplicit_works _ _ _ h4).bind (fun z _ => .ok rfl))
    · exact (dumpHeader_works h2 h3).bind (fun y _ => (wrapExplicit_works _ _ _ h4).bind (fun z _ => .ok rfl))

/-! ### Primitive values -/

theorem set_transfer {s t : LeafSt} {x : Scalar} {s' : LeafSt} (hn : s.notNull = true) (hk : t.kind = s.kind) (h : s.set x = .ok s') :
    ∃ t', t.set x = .ok t' := by
  obtain ⟨_, _, _, _, tr⟩ := LeafSt.set_spec hn h
  obtain ⟨t', h1, _⟩ := tr t hk
  exact ⟨t', h1⟩

theorem leafRep_cls {q : Bool} {p : Params} {proto st : LeafSt} {s : Scalar} (hp : p.Valid) (hg : GoodLeaf proto) (hr : LeafRep q p proto st s) :
    st.base.cls < 4 ∧ st.base.method < 2 ∧ ∀ e ∈ st.base.explicit, e.1 < 4 := by
  refine ⟨?_, ?_, ?_⟩
  · have : st.base.cls = (effTag (proto.base.cls, proto.base.tag) p).1 := by rw [← hr.tag]
    rw [this]
    exact effTag_valid hp hg.blank.cls
  · rw [hr.method]; split <;> omega
  · rw [hr.explicit]; exact hp.1

theorem leaf_dump_works {q : Bool} {p : Params} {proto st : LeafSt} {s : Scalar} {force : Bool} (hg : GoodLeaf proto) (hp : p.Valid)
    (hr : LeafRep q p proto st s) (hs : ∃ st1, proto.set s = .ok st1) : Works (st.dump force) := by
  have new : ∀ {st : LeafSt} {c : Bytes}, LeafRep q p proto st s → st.base.header = none → st.base.contents = some c → Works (st.dump false) := by
    intro st c hr hh hc
    obtain ⟨k1, k2, k3⟩ := leafRep_cls hp hg hr
    rw [LeafSt.dump_new hh (hr.bare hh).2 hc]
    exact (dumpHeader_works k1 k2).bind' (fun y _ => (wrapExplicit_works _ _ _ k3).bind' (fun z _ => .ok rfl))
  obtain ⟨d, hc, hrd⟩ := hr.data
  by_cases hf : (force || headerEnds80 st.base.header) = true
  · by_cases hnn : proto.notNull = true
    · obtain ⟨st1, n1, n2⟩ := hr.native
      rw [LeafSt.dump_forced ((LeafSt.kind_notNull hr.kind).trans hnn) hf hc n1]
      obtain ⟨_, _, hr1⟩ := hr.native_step n1
      obtain ⟨st0, hs⟩ := hs
      obtain ⟨st2, h2⟩ := set_transfer (t := st1.map (fun o => { o with contents := none })) hnn ((LeafSt.kind_map _ st1).trans hr1.kind) hs
      rw [h2]
      obtain ⟨hr2, hh, c, hc2, _⟩ := hr1.reset hg hnn h2
      exact new hr2 hh hc2
    · have hkk := LeafSt.kind_notNull hr.kind
      cases st with
      | null o =>
        obtain ⟨k1, k2, k3⟩ := leafRep_cls hp hg hr
        have hf' : (force || headerEnds80 o.header) = true := hf
        simp only [LeafSt.dump, Null.dump, primDump, hf', if_true]
        have hc' : o.contents = some d := hc
        simp only [Null.set, bind, Except.bind]
        rcases asn1Dump_works (k := false) (force := false) (o := { o with contents := some [] }) (c := []) rfl k1 k2 k3 with ⟨y, h⟩ | h
        · rw [h]; exact .ok rfl
        · rw [h]; exact .inr rfl
      | _ => exact absurd hkk.symm (by simpa [LeafSt.notNull] using hnn)
  · have hf2 : force = false ∧ headerEnds80 st.base.header = false :=
      Bool.or_eq_false_iff.mp (Bool.not_eq_true _ ▸ hf)
    obtain ⟨rfl, he⟩ := hf2
    cases hh : st.base.header with
    | none => exact new hr hh hc
    | some h =>
      rw [hh] at he
      rw [LeafSt.dump_kept hh he hc]
      exact .ok rfl

theorem leaf_copy_ok {q : Bool} {p : Params} {proto st : LeafSt} {s : Scalar} {cl tg : Nat} {im : Bool} {es : List (Nat × Nat)} (hg : GoodLeaf proto)
    (hr : LeafRep q p proto st s) (hs : ∃ st1, proto.set s = .ok st1) : ∃ st', st.copyTo cl tg im es = .ok st' := by
  obtain ⟨st0, n1, n2⟩ := hr.native
  have hk := LeafSt.kind_fresh hr.kind hg.width cl tg im es
  unfold LeafSt.copyTo
  split
  · next hcond =>
    have hind : st.base.indefinite = true := by
      cases hx : st.base.indefinite <;> simp_all
    have hnn : proto.notNull = true := by
      cases proto <;> first | rfl | exact absurd (hr.ind hind) (by simp [LeafSt.constructable])
    obtain ⟨st1, hs⟩ := hs
    obtain ⟨st2, h2⟩ := set_transfer (t := st.fresh cl tg im es) hnn hk hs
    exact ⟨st2, by simp only [n1, bind, Except.bind, h2]⟩
  · exact ⟨_, rfl⟩

end Asn1
