import Verif.Lemmas.LeafKind
import Verif.Lemmas.Frame

/-! # Instances of primitive classes that represent a value -/

namespace Asn1
open Spec

/-- A class of primitive values whose values survive being set again. -/
structure GoodLeaf (proto : LeafSt) : Prop where
  blank : BlankObj proto.base 0
  null : ∀ o, proto = .null o → o.contents = some []
  width : ∀ o, proto = .intOctets o → o.width = none
  caches : proto = (proto.kind).map (Obj.over proto.base)
  canon : proto.notNull = true → ∀ ind c s st, Reads proto ind c s → proto.set s = .ok st → ∃ c', st.base.contents = some c' ∧ st.native = .ok (s, st) ∧
    Reads proto false c' s

/-- `st` is an instance of the class `proto`, tagged with `p`, that stands for `s`; with `q` its encoding has no end-of-contents
octets of its own. -/
structure LeafRep (q : Bool) (p : Params) (proto st : LeafSt) (s : Scalar) : Prop where
  kind : st.kind = proto.kind
  tag : (st.base.cls, st.base.tag) = effTag (proto.base.cls, proto.base.tag) p
  implicit : st.base.implicit = (p.explicit.isEmpty && p.implicit.isSome)
  explicit : st.base.explicit = p.explicit
  method : st.base.method = if st.base.indefinite then 1 else 0
  ind : st.base.indefinite = true → proto.constructable = true
  data : ∃ data, st.base.contents = some data ∧ Reads proto st.base.indefinite data s
  native : ∃ st', st.native = .ok (s, st') ∧ st'.native = .ok (s, st')
  blank : st.cached = false → st = proto.map (Obj.over st.base)
  head : ∀ h data, st.base.header = some h → st.base.contents = some data → ∃ t u, t.bytes = h ++ data ++ st.base.trailer ∧
    Framed (proto.base.cls, proto.base.tag) p t u ∧ ReadsElement proto u s ∧ (q = true → t.trailer = [])
  bare : st.base.header = none → st.base.trailer = [] ∧ st.base.indefinite = false

theorem LeafSt.base_native_none (s : LeafSt) : s.base.native = none := by cases s <;> rfl

theorem LeafSt.native_cached {s s' : LeafSt} {x : Scalar} {d : Bytes} (hc : s.base.contents = some d) (h : s.native = .ok (x, s')) :
    s'.cached = true ∨ s' = s := by
  cases s with
  | boolean o =>
    obtain ⟨_, _, _, _, _, _, co, _, na, ind⟩ := o
    cases co <;> cases na <;> first | (cases hc; done) | (cases h; exact .inl rfl)
  | integer m o =>
    obtain ⟨_, _, _, _, _, _, co, _, na, ind⟩ := o
    cases co <;> cases na <;> first | (cases hc; done) | (cases h; exact .inl rfl)
  | enumerated m o =>
    obtain ⟨_, _, _, _, _, _, co, _, na, ind⟩ := o
    cases co with
    | none => cases hc
    | some co =>
    cases na with
    | some n => cases h; exact .inl rfl
    | none =>
      cases m with
      | none => cases h
      | some m =>
        simp only [LeafSt.native, Enumerated.native, bind, Except.bind] at h
        split at h
        · cases h
        · next hh =>
          split at hh
          · cases hh; cases h; exact .inl rfl
          · cases hh
  | null o => cases h; exact .inr rfl
  | oid k o =>
    obtain ⟨⟨_, _, _, _, _, _, co, _, na, ind⟩, dt⟩ := o
    cases co with
    | none => cases hc
    | some co =>
    cases na with
    | some n => cases h; exact .inl rfl
    | none =>
      simp only [LeafSt.native, Oid.native, bind, Except.bind] at h
      split at h
      · cases h
      · next hh =>
        split at hh
        · cases hh
        · cases hh; cases h; exact .inl rfl
  | octets o =>
    obtain ⟨_, _, _, _, _, _, co, _, na, ind⟩ := o
    cases co with
    | none => cases hc
    | some co =>
    cases na with
    | some n => cases h; exact .inl rfl
    | none =>
      simp only [LeafSt.native, OctetString.native, bind, Except.bind] at h
      split at h
      · cases h
      · next hh =>
        split at hh
        · cases hh
        · cases hh; cases h; exact .inl rfl
  | chars k u o =>
    obtain ⟨_, _, _, _, _, _, co, _, na, ind⟩ := o
    cases co with
    | none => cases hc
    | some co =>
    cases na with
    | some n => cases h; exact .inl rfl
    | none =>
      simp only [LeafSt.native, AbstractString.native, bind, Except.bind] at h
      split at h
      · cases h
      · next hh =>
        split at hh
        · cases hh
        · split at hh
          · cases hh
          · cases hh; cases h; exact .inl rfl
  | bits o =>
    obtain ⟨⟨_, _, _, _, _, _, co, _, na, ind⟩, un⟩ := o
    cases co with
    | none => cases hc
    | some co =>
    cases na with
    | some n => cases h; exact .inl rfl
    | none =>
      simp only [LeafSt.native, BitString.native, bind, Except.bind, pure, Except.pure] at h
      split at h
      · cases h
      · next hh =>
        split at hh
        · cases hh
        · split at hh
          · cases hh
          · cases hh; cases h; exact .inl rfl
  | named m o =>
    obtain ⟨⟨_, _, _, _, _, _, co, _, na, ind⟩, un⟩ := o
    cases co with
    | none => cases hc
    | some co =>
    cases na with
    | some n => cases h; exact .inl rfl
    | none =>
      simp only [LeafSt.native, NamedBits.native, bind, Except.bind, pure, Except.pure] at h
      split at h
      · cases h
      · next hh =>
        split at hh
        · cases hh
        · split at hh
          · cases hh
          · cases hh; cases h; exact .inl rfl
  | octetBits o =>
    obtain ⟨⟨_, _, _, _, _, _, co, _, na, ind⟩, un⟩ := o
    cases co with
    | none => cases hc
    | some co =>
    cases na with
    | some n => cases h; exact .inl rfl
    | none =>
      simp only [LeafSt.native, OctetBitString.native, bind, Except.bind, pure, Except.pure] at h
      split at h
      · cases h
      · next hh =>
        split at hh
        · cases hh
        · cases hh; cases h; exact .inl rfl
  | intBits o =>
    obtain ⟨⟨_, _, _, _, _, _, co, _, na, ind⟩, un⟩ := o
    cases co with
    | none => cases hc
    | some co =>
    cases na with
    | some n => cases h; exact .inl rfl
    | none =>
      simp only [LeafSt.native, IntegerBitString.native, bind, Except.bind, pure, Except.pure] at h
      split at h
      · cases h
      · next hh =>
        split at hh
        · cases hh
        · cases hh; cases h; exact .inl rfl
  | intOctets o =>
    obtain ⟨⟨_, _, _, _, _, _, co, _, na, ind⟩, un⟩ := o
    cases co with
    | none => cases hc
    | some co =>
    cases na with
    | some n => cases h; exact .inl rfl
    | none =>
      simp only [LeafSt.native, IntegerOctetString.native, bind, Except.bind, pure, Except.pure] at h
      split at h
      · cases h
      · next hh =>
        split at hh
        · cases hh
        · cases hh; cases h; exact .inl rfl

theorem LeafRep.native_step {q : Bool} {p : Params} {proto st st' : LeafSt} {s x : Scalar} (h : LeafRep q p proto st s) (hn : st.native = .ok (x, st')) :
    x = s ∧ st'.base = st.base ∧ LeafRep q p proto st' s := by
  obtain ⟨d, hc, hr⟩ := h.data
  obtain ⟨st0, n1, n2⟩ := h.native
  rw [n1] at hn
  injection hn with hn
  injection hn with e1 e2
  subst e1; subst e2
  have hb := LeafSt.native_base hc n1
  have hk := LeafSt.native_kind hc n1
  refine ⟨rfl, hb, ?_⟩
  constructor
  · rw [hk]; exact h.kind
  · rw [hb]; exact h.tag
  · rw [hb]; exact h.implicit
  · rw [hb]; exact h.explicit
  · rw [hb]; exact h.method
  · rw [hb]; exact h.ind
  · rw [hb]; exact h.data
  · exact ⟨st0, n2, n2⟩
  · intro hcc
    rcases LeafSt.native_cached hc n1 with e | e
    · rw [e] at hcc; cases hcc
    · rw [e] at hcc ⊢; exact h.blank hcc
  · rw [hb]; exact h.head
  · rw [hb]; exact h.bare

theorem LeafSt.base_headed (h : Bytes) (s : LeafSt) : (s.headed h).base = { s.base with header := some h, trailer := [] } := by
  cases s <;> rfl

theorem LeafSt.headed_frame (h : Bytes) (s : LeafSt) :
    s.headed h = s.map (Obj.frame s.base.cls s.base.tag s.base.implicit s.base.explicit (some h) []) := by
  cases s <;> rfl

theorem LeafSt.stable_frame {s : LeafSt} {x : Scalar} {d : Bytes} (hc : s.base.contents = some d)
    (hn : ∃ s', s.native = .ok (x, s') ∧ s'.native = .ok (x, s')) (c t : Nat) (i : Bool) (es : List (Nat × Nat)) (h : Option Bytes) (tr : Bytes) :
    ∃ s', (s.map (Obj.frame c t i es h tr)).native = .ok (x, s') ∧ s'.native = .ok (x, s') := by
  obtain ⟨s', n1, n2⟩ := hn
  refine ⟨s'.map (Obj.frame c t i es h tr), ?_, ?_⟩
  · rw [LeafSt.native_frame s hc, n1]; rfl
  · rw [LeafSt.native_frame s' ((congrArg Obj.contents (LeafSt.native_base hc n1)).trans hc), n2]; rfl

theorem reads_native {proto : LeafSt} {ind : Bool} {data : Bytes} {s : Scalar} (hr : Reads proto ind data s) (b : Obj Unit)
    (hm : b.method = if ind then 1 else 0) (hc : b.contents = some data) (hi : b.indefinite = ind) :
    ∃ st', (proto.map (Obj.over b)).native = .ok (s, st') ∧ st'.native = .ok (s, st') := by
  obtain ⟨_, hr⟩ := hr
  obtain ⟨cls, method, tag, implicit, explicit, header, contents, trailer, native, indefinite⟩ := b
  simp only at hm hc hi
  subst hm; subst hc; subst hi
  have hcon : (proto.map (fun o => { o with method := if indefinite then 1 else 0, contents := some data, indefinite := indefinite, native := none })).base.contents = some data := by cases proto <;> rfl
  have := LeafSt.stable_frame hcon hr cls tag implicit explicit header trailer
  rw [LeafSt.map_map] at this
  exact this

/-- The instance after its header has been written. -/
theorem LeafRep.headed {q : Bool} {p : Params} {proto st : LeafSt} {s : Scalar} {c h0 h : Bytes} (hr : LeafRep q p proto st s) (hp : p.Valid)
    (hb : BlankObj proto.base 0) (hi : st.base.indefinite = false) (hc : st.base.contents = some c)
    (h1 : dumpHeader st.base.cls st.base.method st.base.tag c = .ok h0) (h2 : wrapExplicit st.base.explicit h0 c = .ok h) :
    LeafRep q p proto (st.headed h) s ∧ ∃ t u, t.bytes = h ++ c ∧ Framed (proto.base.cls, proto.base.tag) p t u ∧ ReadsElement proto u s ∧
      t.trailer = [] := by
  have hm : st.base.method = 0 := by rw [hr.method, hi]; rfl
  obtain ⟨d, hd, hrd⟩ := hr.data
  rw [hc] at hd
  cases hd
  rw [hi] at hrd
  rw [hm] at h1
  rw [hr.explicit] at h2
  obtain ⟨t, u, t1, t2, t3, u1, u2, u3⟩ := dump_framed hp hb.cls (by decide) hr.tag h1 h2
  have hre : ReadsElement proto u s := .inl ⟨u1, by rw [u2]; exact hrd⟩
  refine ⟨?_, t, u, t1, t2, hre, t3⟩
  have hbase := LeafSt.base_headed h st
  constructor
  · exact (LeafSt.kind_map _ st).trans hr.kind
  · rw [hbase]; exact hr.tag
  · rw [hbase]; exact hr.implicit
  · rw [hbase]; exact hr.explicit
  · rw [hbase]; exact hr.method
  · rw [hbase]; exact hr.ind
  · rw [hbase]; exact hr.data
  · rw [LeafSt.headed_frame]; exact LeafSt.stable_frame hc hr.native _ _ _ _ _ _
  · intro hcc
    have : st.cached = false := by
      cases st <;> exact hcc
    have e := hr.blank this
    rw [hbase]
    conv_lhs => rw [e]
    cases proto <;> rfl
  · intro h' d' hh hd
    rw [hbase] at hh hd ⊢
    cases hh
    have hd' : st.base.contents = some d' := hd
    rw [hc] at hd'
    cases hd'
    exact ⟨t, u, by rw [t1]; simp, t2, hre, fun _ => t3⟩
  · intro hh
    rw [hbase] at hh
    cases hh

/-- The value after it has been set again. -/
theorem LeafRep.reset {q : Bool} {p : Params} {proto st st2 : LeafSt} {s : Scalar} (hg : GoodLeaf proto) (hnn : proto.notNull = true)
    (hr : LeafRep q p proto st s) (hs : (st.map (fun o => { o with contents := none })).set s = .ok st2) :
    LeafRep q p proto st2 s ∧ st2.base.header = none ∧ ∃ c, st2.base.contents = some c ∧
      ∃ st1, proto.set s = .ok st1 ∧ st1.base.contents = some c := by
  have hk : (st.map (fun o => { o with contents := none })).kind = proto.kind := (LeafSt.kind_map _ st).trans hr.kind
  have hk' := LeafSt.kind_notNull hk
  obtain ⟨c, e1, e2, e3, tr⟩ := LeafSt.set_spec (hk'.trans hnn) hs
  obtain ⟨st1, p1, p2, p3⟩ := tr proto hk.symm
  obtain ⟨d, hd, hrd⟩ := hr.data
  obtain ⟨c', q1, q2, q3⟩ := hg.canon hnn _ d s st1 hrd p1
  rw [p2] at q1
  cases q1
  obtain ⟨_, _, _, _, tr2⟩ := LeafSt.set_spec hnn p1
  obtain ⟨st2', r1, r2, r3⟩ := tr2 _ hk
  rw [hs] at r1
  cases r1
  have hn := r3 s q2
  have hcon : (st.map (fun o => { o with contents := none })).constructable = proto.constructable := LeafSt.kind_constructable hk
  have hbase : (st.map (fun o => { o with contents := none })).base = { st.base with contents := none } := by cases st <;> rfl
  rw [hcon, hbase] at e1
  refine ⟨?_, by rw [e1]; rfl, c, by rw [e1]; rfl, st1, p1, p2⟩
  have hind : st2.base.indefinite = false := by
    rw [e1]
    simp only [Obj.afterSet]
    cases hb : st.base.indefinite with
    | false => simp
    | true => rw [hr.ind hb]; rfl
  have hmeth : st2.base.method = 0 := by
    rw [e1]
    simp only [Obj.afterSet]
    cases hb : st.base.indefinite with
    | false => simp only [Bool.and_false, Bool.false_eq_true, if_false]; rw [hr.method, hb]; rfl
    | true => rw [hr.ind hb]; rfl
  constructor
  · exact e2.trans hk
  · rw [e1]; exact hr.tag
  · rw [e1]; exact hr.implicit
  · rw [e1]; exact hr.explicit
  · rw [hmeth, hind]; rfl
  · intro h; rw [hind] at h; cases h
  · exact ⟨c, by rw [e1]; rfl, by rw [hind]; exact q3⟩
  · exact ⟨st2, hn, hn⟩
  · intro h; rw [e3] at h; cases h
  · intro h' d' hh; rw [e1] at hh; cases hh
  · intro _; exact ⟨by rw [e1]; rfl, hind⟩

/-- `dump` of a primitive value. -/
theorem LeafRep.dump_step {q : Bool} {p : Params} {proto st st' : LeafSt} {s : Scalar} {force : Bool} {b : Bytes} (hg : GoodLeaf proto) (hp : p.Valid)
    (hr : LeafRep q p proto st s) (hd : st.dump force = .ok (b, st')) :
    LeafRep q p proto st' s ∧
      ∃ t u, t.bytes = b ∧ Framed (proto.base.cls, proto.base.tag) p t u ∧ ReadsElement proto u s ∧ (q = true → t.trailer = []) := by
  obtain ⟨d, hc, hrd⟩ := hr.data
  have new : ∀ {st : LeafSt} {b : Bytes} {st' : LeafSt} {c : Bytes}, LeafRep q p proto st s → st.base.indefinite = false → st.base.contents = some c →
      (dumpHeader st.base.cls st.base.method st.base.tag c).bind (fun h0 =>
      (wrapExplicit st.base.explicit h0 c).bind (fun h => (.ok (h ++ c, st.headed h) : Py (Bytes × LeafSt)))) = .ok (b, st') →
      LeafRep q p proto st' s ∧
      ∃ t u, t.bytes = b ∧ Framed (proto.base.cls, proto.base.tag) p t u ∧ ReadsElement proto u s ∧ t.trailer = [] := by
    intro st b st' c hr hi hc hd
    cases h1 : dumpHeader st.base.cls st.base.method st.base.tag c with
    | error e => rw [h1] at hd; cases hd
    | ok h0 =>
      rw [h1] at hd
      simp only [Except.bind] at hd
      cases h2 : wrapExplicit st.base.explicit h0 c with
      | error e => rw [h2] at hd; cases hd
      | ok h =>
        rw [h2] at hd
        cases hd
        obtain ⟨a1, t, u, a2, a3, a4, a5⟩ := hr.headed hp hg.blank hi hc h1 h2
        exact ⟨a1, t, u, a2, a3, a4, a5⟩
  by_cases hf : (force || headerEnds80 st.base.header) = true
  · by_cases hnn : proto.notNull = true
    · obtain ⟨st1, n1, n2⟩ := hr.native
      rw [LeafSt.dump_forced ((LeafSt.kind_notNull hr.kind).trans hnn) hf hc n1] at hd
      obtain ⟨_, _, hr1⟩ := hr.native_step n1
      cases hs : (st1.map (fun o => { o with contents := none })).set s with
      | error e => rw [hs] at hd; cases hd
      | ok st2 =>
        rw [hs] at hd
        obtain ⟨hr2, hh, c, hc2, _⟩ := hr1.reset hg hnn hs
        have hi := (hr2.bare hh).2
        replace hd : st2.dump false = .ok (b, st') := hd
        rw [LeafSt.dump_new hh hi hc2] at hd
        obtain ⟨a1, t, u, a3, a4, a5, a6⟩ := new hr2 hi hc2 hd
        exact ⟨a1, t, u, a3, a4, a5, fun _ => a6⟩
    · have hkk := LeafSt.kind_notNull hr.kind
      cases st with
      | null o =>
        have hpn : ∃ o', proto = .null o' := by
          cases proto <;> first | exact ⟨_, rfl⟩ | cases hr.kind
        obtain ⟨o', rfl⟩ := hpn
        have hd0 := hrd.1 o' rfl
        subst hd0
        obtain ⟨cls, method, tag, implicit, explicit, header, contents, trailer, native, indefinite⟩ := o
        have hc' : contents = some [] := hc
        subst hc'
        have hi : indefinite = false := by
          cases hb : indefinite with
          | false => rfl
          | true => exact absurd (hr.ind hb) (by simp [LeafSt.constructable])
        subst hi
        have hf' : (force || headerEnds80 header) = true := hf
        simp only [LeafSt.dump, Null.dump, primDump, hf', if_true, bind, Except.bind, Null.set] at hd
        cases header with
        | none =>
          rw [asn1Dump_fresh rfl rfl rfl] at hd
          have hd' : (dumpHeader cls method tag []).bind (fun h0 => (wrapExplicit explicit h0 []).bind (fun h =>
              (.ok (h ++ [], LeafSt.headed h (.null { cls := cls, method := method, tag := tag, implicit := implicit, explicit := explicit, contents := some [], trailer := trailer, native := native })) : Py (Bytes × LeafSt)))) = .ok (b, st') := by
            rw [← hd]
            cases dumpHeader cls method tag [] with
            | error e => rfl
            | ok h0 => simp only [Except.bind]; cases wrapExplicit explicit h0 [] <;> rfl
          obtain ⟨a1, t, u, a3, a4, a5, a6⟩ := new hr rfl rfl hd'
          exact ⟨a1, t, u, a3, a4, a5, fun _ => a6⟩
        | some h =>
          cases he : headerEnds80 (some h) with
          | false =>
            rw [asn1Dump_keep rfl he rfl] at hd
            cases hd
            obtain ⟨t, u, a1, a2, a3, a4⟩ := hr.head h [] rfl rfl
            exact ⟨hr, t, u, a1, a2, a3, a4⟩
          | true =>
            have hd' : (dumpHeader cls method tag []).bind (fun h0 => (wrapExplicit explicit h0 []).bind (fun h' =>
              (.ok (h' ++ [], LeafSt.headed h' (.null { cls := cls, method := method, tag := tag, implicit := implicit, explicit := explicit, header := some h, contents := some [], trailer := trailer, native := native })) : Py (Bytes × LeafSt)))) = .ok (b, st') := by
              rw [← hd]
              simp only [asn1Dump, he, Bool.or_true, Bool.and_false, Bool.false_eq_true, if_false, bind, Except.bind]
              cases dumpHeader cls method tag [] with
              | error e => rfl
              | ok h0 => simp only []; cases wrapExplicit explicit h0 [] <;> simp [LeafSt.headed, LeafSt.map]; rfl
            obtain ⟨a1, t, u, a3, a4, a5, a6⟩ := new hr rfl rfl hd'
            exact ⟨a1, t, u, a3, a4, a5, fun _ => a6⟩
      | _ => exact absurd hkk.symm (by simpa [LeafSt.notNull] using hnn)
  · have hf2 : force = false ∧ headerEnds80 st.base.header = false :=
      Bool.or_eq_false_iff.mp (Bool.not_eq_true _ ▸ hf)
    obtain ⟨rfl, he⟩ := hf2
    cases hh : st.base.header with
    | none =>
      have hi := (hr.bare hh).2
      rw [LeafSt.dump_new hh hi hc] at hd
      obtain ⟨a1, t, u, a3, a4, a5, a6⟩ := new hr hi hc hd
      exact ⟨a1, t, u, a3, a4, a5, fun _ => a6⟩
    | some h =>
      rw [hh] at he
      rw [LeafSt.dump_kept hh he hc] at hd
      cases hd
      obtain ⟨t, u, a1, a2, a3, a4⟩ := hr.head h d hh hc
      exact ⟨hr, t, u, a1, a2, a3, a4⟩

/-- `_build` of an element that encodes a value. -/
theorem leafRep_build {q : Bool} {p : Params} {proto st : LeafSt} {s : Scalar} {t u : TLV} {i : Info} (hg : GoodLeaf proto)
    (hp : GoodParams p) (hF : Framed (proto.base.cls, proto.base.tag) p t u) (hre : ReadsElement proto u s) (hi : i.tlv = t)
    (hq : q = true → t.trailer = []) (hb : LeafSt.build [] (proto.init p.tags) i = .ok st) : LeafRep q p proto st s := by
  rw [LeafSt.build_eq, LeafSt.base_init] at hb
  obtain ⟨h, tr, b1, b2, b3⟩ := buildObj_framed (k := (proto.init p.tags).constructable) hg.blank hp hF hi
  rw [b3] at hb
  have hk : (proto.init p.tags).constructable = proto.constructable := by cases proto <;> rfl
  have hover : ∀ b, (proto.init p.tags).map (Obj.over b) = proto.map (Obj.over b) := by
    intro b; cases proto <;> rfl
  obtain ⟨f1, f2, f3, f4, f5, f6, f7⟩ := initTagging_fields proto.base p hp.keep
  have f8 : (initTagging proto.base p.tags).implicit = (p.explicit.isEmpty && p.implicit.isSome) := by
    have := hg.blank.implicit
    obtain ⟨pe, pi, pn, po, pd⟩ := p
    cases pe <;> cases pi <;> cases pn <;> simp [initTagging, Params.tags, this]
  rw [hg.blank.explicit, List.nil_append] at f2
  have key : ∀ ind : Bool, st = proto.map (Obj.over (framedObj (initTagging proto.base p.tags) h u.contents tr ind)) →
      (ind = true → proto.constructable = true) → Reads proto ind u.contents s → LeafRep q p proto st s := by
    intro ind hst hcon hrd
    have hbase : st.base = framedObj (initTagging proto.base p.tags) h u.contents tr ind := by
      rw [hst, LeafSt.base_over]; rfl
    constructor
    · rw [hst]; exact LeafSt.kind_map _ _
    · rw [hbase]; exact f1
    · rw [hbase]; exact f8
    · rw [hbase]; exact f2
    · rw [hbase]
      simp only [framedObj, f3, hg.blank.method]
    · rw [hbase]; exact hcon
    · exact ⟨u.contents, by rw [hbase]; rfl, by rw [hbase]; exact hrd⟩
    · rw [hst]
      exact reads_native hrd _ (by simp only [framedObj, f3, hg.blank.method]) rfl rfl
    · intro _
      rw [hbase]; exact hst
    · intro h' d' hh hd
      rw [hbase] at hh hd ⊢
      cases hh; cases hd
      exact ⟨t, u, b1, hF, hre, hq⟩
    · intro hh
      rw [hbase] at hh
      cases hh
  rcases hre with ⟨m1, m2⟩ | ⟨m1, m2, m3, m4⟩
  · rw [if_pos m1] at hb
    cases hb
    exact key false (hover _) (fun h => by cases h) m2
  · rw [if_neg (by rw [m1]; decide), if_pos ⟨m1, rfl, m2, hk.trans m3⟩] at hb
    cases hb
    exact key true (hover _) (fun _ => m3) m4

/-- A new instance. -/
theorem leafRep_construct {q : Bool} {p : Params} {proto st : LeafSt} {x s : Scalar} (hg : GoodLeaf proto) (hp : GoodParams p)
    (hh : Holds proto x s) (hs : (proto.init p.tags).set x = .ok st) : LeafRep q p proto st s := by
  obtain ⟨st0, st0', c, g1, g2, g3, g4, g5, g6⟩ := hh
  obtain ⟨f1, f2, f3, f4, f5, f6, f7⟩ := initTagging_fields proto.base p hp.keep
  have f8 : (initTagging proto.base p.tags).implicit = (p.explicit.isEmpty && p.implicit.isSome) := by
    have := hg.blank.implicit
    obtain ⟨pe, pi, pn, po, pd⟩ := p
    cases pe <;> cases pi <;> cases pn <;> simp [initTagging, Params.tags, this]
  rw [hg.blank.explicit, List.nil_append] at f2
  rw [hg.blank.method] at f3
  rw [hg.blank.header] at f4
  rw [hg.blank.trailer] at f5
  rw [hg.blank.indefinite] at f6
  have hk : (proto.init p.tags).kind = proto.kind := LeafSt.kind_map _ _
  by_cases hnn : proto.notNull = true
  · obtain ⟨c1, e1, e2, e3, tr⟩ := LeafSt.set_spec ((LeafSt.kind_notNull hk).trans hnn) hs
    obtain ⟨st0'', r1, r2, r3⟩ := tr proto hk.symm
    rw [g1] at r1
    cases r1
    rw [g2] at r2
    cases r2
    obtain ⟨_, _, _, _, tr2⟩ := LeafSt.set_spec hnn g1
    obtain ⟨st', t1, t2, t3⟩ := tr2 _ hk
    rw [hs] at t1
    cases t1
    have hn := t3 s g3
    rw [LeafSt.base_init] at e1
    have hind : st.base.indefinite = false := by rw [e1]; simp [Obj.afterSet, f6]
    constructor
    · exact e2.trans hk
    · rw [e1]; exact f1
    · rw [e1]; exact f8
    · rw [e1]; exact f2
    · rw [hind, e1]; simp [Obj.afterSet, f3]
    · intro h; rw [hind] at h; cases h
    · exact ⟨c, by rw [e1]; rfl, by rw [hind]; exact g4⟩
    · exact ⟨st, hn, hn⟩
    · intro h; rw [e3] at h; cases h
    · intro h' d' hh; rw [e1] at hh; cases hh
    · intro _; exact ⟨by rw [e1]; rfl, hind⟩
  · cases proto with
    | null o =>
      have hc : c = [] := g4.1 o rfl
      subst hc
      have hs' : st = .null { (initTagging o p.tags) with contents := some [] } := by
        cases hs; rfl
      have hon : o.native = none := by
        have := hg.caches
        injection this with this
        rw [this]; rfl
      have hob : (LeafSt.null o).base = o := Obj.erase_unit o hon
      have hin : (initTagging o p.tags).native = none := by
        rw [initTagging_eq]; exact hon
      have hbase : st.base = { initTagging (LeafSt.null o).base p.tags with contents := some [] } := by
        rw [hs', hob]
        exact Obj.erase_unit _ hin
      have hx : s = .none := by
        cases g1; cases g3; rfl
      subst hx
      have hind : st.base.indefinite = false := by rw [hbase]; exact f6
      have htr : st.base.trailer = [] := by rw [hbase]; exact f5
      constructor
      · rw [hs']; rfl
      · rw [hbase]; exact f1
      · rw [hbase]; exact f8
      · rw [hbase]; exact f2
      · rw [hind, hbase]; exact f3
      · intro h; rw [hind] at h; cases h
      · exact ⟨[], by rw [hbase], by rw [hind]; exact g4⟩
      · rw [hs']; exact ⟨_, rfl, rfl⟩
      · intro _
        rw [hbase, hs', hob]
        simp only [LeafSt.map, Obj.over, hin]
      · intro h' d' hh; rw [hbase, f4] at hh; cases hh
      · intro _; exact ⟨htr, hind⟩
    | _ => exact absurd rfl hnn

theorem LeafSt.kind_fresh {s proto : LeafSt} (hk : s.kind = proto.kind) (hw : ∀ o, proto = .intOctets o → o.width = none) (c t : Nat)
    (i : Bool) (es : List (Nat × Nat)) : (s.fresh c t i es).kind = proto.kind := by
  rw [← hk]
  cases s with
  | intOctets o =>
    cases proto with
    | intOctets o' =>
      have h1 := hw o' rfl
      simp only [LeafSt.kind, LeafSt.intOctets.injEq, IntOctObj.mk.injEq, true_and] at hk
      simp only [LeafSt.kind, LeafSt.fresh, hk, h1]
    | _ => cases hk
  | _ => rfl

theorem LeafSt.base_fresh (s : LeafSt) (c t : Nat) (i : Bool) (es : List (Nat × Nat)) :
    (s.fresh c t i es).base = { cls := c, method := 0, tag := t, implicit := i, explicit := es, contents := s.base.contents } := by
  cases s <;> rfl

/-- The name of an OID, or the dotted form. -/
def oidName (k : OidClass) (n : Str) : Str :=
  match k.map with
  | some m => (m.get n).getD n
  | none => n

theorem oid_native_cached {k : OidClass} {o : OidObj} {co : Bytes} {n : Str} (hc : o.contents = some co) (hn : o.native = some n) :
    (LeafSt.oid k o).native = .ok (.str (oidName k n), .oid k { o with native := some (oidName k n) }) := by
  simp only [LeafSt.native, Oid.native, hc, hn, bind, Except.bind, pure, Except.pure]
  rfl

theorem LeafSt.fresh_cached {s s' : LeafSt} {x : Scalar} {d : Bytes} (hcc : s.cached = true) (hc : s.base.contents = some d)
    (h : s.native = .ok (x, s')) (h' : s'.native = .ok (x, s')) (c t : Nat) (i : Bool) (es : List (Nat × Nat)) :
    ∃ f, (s.fresh c t i es).native = .ok (x, f) ∧ f.native = .ok (x, f) := by
  cases s with
  | oid k o =>
    cases hna : o.native with
    | none => rw [LeafSt.cached, hna] at hcc; cases hcc
    | some n =>
      have hc' : o.contents = some d := hc
      rw [oid_native_cached hc' hna] at h
      cases h
      rw [oid_native_cached (o := { o with native := some (oidName k n) }) hc' rfl] at h'
      injection h' with h'
      injection h' with h1 h2
      injection h1 with h1
      let g : OidObj := { toObj := LeafSt.freshObj c t i es o.toObj }
      refine ⟨_, oid_native_cached (o := g) hc' hna, ?_⟩
      have e := oid_native_cached (k := k) (o := { g with native := some (oidName k n) }) hc' rfl
      rw [h1] at e
      exact e
  | boolean o =>
    obtain ⟨_, _, _, _, _, _, co, _, na, ind⟩ := o
    cases co with
    | none => cases hc
    | some co => cases na with
      | none => cases hcc
      | some n => cases h; exact ⟨_, rfl, rfl⟩
  | integer m o =>
    obtain ⟨_, _, _, _, _, _, co, _, na, ind⟩ := o
    cases co with
    | none => cases hc
    | some co => cases na with
      | none => cases hcc
      | some n => cases h; exact ⟨_, rfl, rfl⟩
  | enumerated m o =>
    obtain ⟨_, _, _, _, _, _, co, _, na, ind⟩ := o
    cases co with
    | none => cases hc
    | some co => cases na with
      | none => cases hcc
      | some n => cases h; exact ⟨_, rfl, rfl⟩
  | null o => cases h; exact ⟨_, rfl, rfl⟩
  | octets o =>
    obtain ⟨_, _, _, _, _, _, co, _, na, ind⟩ := o
    cases co with
    | none => cases hc
    | some co => cases na with
      | none => cases hcc
      | some n => cases h; exact ⟨_, rfl, rfl⟩
  | chars k u o =>
    obtain ⟨_, _, _, _, _, _, co, _, na, ind⟩ := o
    cases co with
    | none => cases hc
    | some co => cases na with
      | none => cases hcc
      | some n => cases h; exact ⟨_, rfl, rfl⟩
  | bits o =>
    obtain ⟨⟨_, _, _, _, _, _, co, _, na, ind⟩, un⟩ := o
    cases co with
    | none => cases hc
    | some co => cases na with
      | none => cases hcc
      | some n => cases h; exact ⟨_, rfl, rfl⟩
  | named m o =>
    obtain ⟨⟨_, _, _, _, _, _, co, _, na, ind⟩, un⟩ := o
    cases co with
    | none => cases hc
    | some co => cases na with
      | none => cases hcc
      | some n => cases h; exact ⟨_, rfl, rfl⟩
  | octetBits o =>
    obtain ⟨⟨_, _, _, _, _, _, co, _, na, ind⟩, un⟩ := o
    cases co with
    | none => cases hc
    | some co => cases na with
      | none => cases hcc
      | some n => cases h; exact ⟨_, rfl, rfl⟩
  | intBits o =>
    obtain ⟨⟨_, _, _, _, _, _, co, _, na, ind⟩, un⟩ := o
    cases co with
    | none => cases hc
    | some co => cases na with
      | none => cases hcc
      | some n => cases h; exact ⟨_, rfl, rfl⟩
  | intOctets o =>
    obtain ⟨⟨_, _, _, _, _, _, co, _, na, ind⟩, un⟩ := o
    cases co with
    | none => cases hc
    | some co => cases na with
      | none => cases hcc
      | some n => cases h; exact ⟨_, rfl, rfl⟩

/-- A copy with another tagging. -/
theorem LeafRep.copy_step {q q' : Bool} {p p' : Params} {proto st st' : LeafSt} {s : Scalar} {cl tg : Nat} {im : Bool} {es : List (Nat × Nat)}
    (hg : GoodLeaf proto) (hr : LeafRep q p proto st s) (h1 : (cl, tg) = effTag (proto.base.cls, proto.base.tag) p')
    (h2 : im = (p'.explicit.isEmpty && p'.implicit.isSome)) (h3 : es = p'.explicit) (hc : st.copyTo cl tg im es = .ok st') :
    LeafRep q' p' proto st' s := by
  obtain ⟨d, hd, hrd⟩ := hr.data
  obtain ⟨st0, n1, n2⟩ := hr.native
  have hk := LeafSt.kind_fresh hr.kind hg.width cl tg im es
  have hb := LeafSt.base_fresh st cl tg im es
  unfold LeafSt.copyTo at hc
  split at hc
  · next hcond =>
    rw [n1] at hc
    simp only [bind, Except.bind] at hc
    have hind : st.base.indefinite = true := by
      cases hx : st.base.indefinite <;> simp_all
    have hnn : proto.notNull = true := by
      cases proto <;> first | rfl | exact absurd (hr.ind hind) (by simp [LeafSt.constructable])
    obtain ⟨c, e1, e2, e3, tr⟩ := LeafSt.set_spec ((LeafSt.kind_notNull hk).trans hnn) hc
    obtain ⟨st1, p1, p2, p3⟩ := tr proto hk.symm
    obtain ⟨c', q1, q2, q3⟩ := hg.canon hnn _ d s st1 hrd p1
    rw [p2] at q1
    cases q1
    obtain ⟨_, _, _, _, tr2⟩ := LeafSt.set_spec hnn p1
    obtain ⟨st2', r1, r2, r3⟩ := tr2 _ hk
    rw [hc] at r1
    cases r1
    have hn := r3 s q2
    rw [hb] at e1
    have hi' : st'.base.indefinite = false := by rw [e1]; simp [Obj.afterSet]
    constructor
    · exact e2.trans hk
    · rw [e1]; exact h1
    · rw [e1]; exact h2
    · rw [e1]; exact h3
    · rw [hi', e1]; simp [Obj.afterSet]
    · intro h; rw [hi'] at h; cases h
    · exact ⟨c, by rw [e1]; rfl, by rw [hi']; exact q3⟩
    · exact ⟨st', hn, hn⟩
    · intro h; rw [e3] at h; cases h
    · intro h' d' hh; rw [e1] at hh; cases hh
    · intro _; exact ⟨by rw [e1]; rfl, hi'⟩
  · next hcond =>
    cases hc
    have hind : st.base.indefinite = false := by
      cases hx : st.base.indefinite with
      | false => rfl
      | true =>
        refine absurd ?_ hcond
        rw [hx, LeafSt.kind_constructable hr.kind, hr.ind hx]; rfl
    rw [hind] at hrd
    have hblank : st.cached = false → st.fresh cl tg im es = proto.map (Obj.over (st.fresh cl tg im es).base) := by
      intro hcc
      have e := hr.blank hcc
      have hca := hg.caches
      have hw := hg.width
      rw [LeafSt.base_fresh]
      conv_lhs => rw [e]
      cases proto with
      | oid k o =>
        injection hca with _ hca
        have : o.dotted = none := by rw [hca]; rfl
        simp only [LeafSt.fresh, LeafSt.map, this]
        rfl
      | intOctets o =>
        have := hw o rfl
        simp only [LeafSt.fresh, LeafSt.map, this]
        rfl
      | _ => rfl
    constructor
    · exact hk
    · rw [hb]; exact h1
    · rw [hb]; exact h2
    · rw [hb]; exact h3
    · rw [hb]; rfl
    · intro h; rw [hb] at h; cases h
    · exact ⟨d, by rw [hb]; exact hd, by rw [hb]; exact hrd⟩
    · cases hcc : st.cached with
      | true => exact LeafSt.fresh_cached hcc hd n1 n2 _ _ _ _
      | false =>
        rw [hblank hcc]
        exact reads_native hrd _ (by rw [hb]; rfl) (by rw [hb]; exact hd) (by rw [hb])
    · intro h
      apply hblank
      cases st <;> exact h
    · intro h' d' hh; rw [hb] at hh; cases hh
    · intro _; rw [hb]; exact ⟨rfl, rfl⟩

end Asn1
