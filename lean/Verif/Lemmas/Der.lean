import Verif.Lemmas.DerLeaf
import Verif.Lemmas.RepHist

/-! # Forced encodings are DER encodings -/

namespace Asn1
open Spec

/-! ### Uniqueness -/

mutual
theorem der_unique {E : Env} {U : ClassId → Prop} (hU : Universe E U) : ∀ {c : ClassId} {p : Params} {t t' : TLV} {a : AVal}, U c →
    Der E c p t a → Der E c p t' a → t = t'
  | c, p, t, t', .prim s, hc, h, h' => by
    cases h with
    | leaf h1 h2 h3 h4 =>
      cases h' with
      | leaf g1 g2 g3 g4 =>
        rw [h1] at g1
        cases g1
        exact derFramed_unique h2 g2 (h3.trans g3.symm) (derContents_unique (hU.leaf _ _ _ hc h1).2 h4 g4)
  | c, p, t, t', .seq as, hc, h, h' => by
    cases h with
    | seq h1 h2 h3 h4 =>
      cases h' with
      | seq g1 g2 g3 g4 =>
        rw [h1] at g1
        cases g1
        have := fieldsDer_unique hU (fun f hf => ((hU.seq _ _ _ _ _ _ hc h1).2.2.2.2.2.2 f hf).mem) h4 g4
        exact derFramed_unique h2 g2 (h3.trans g3.symm) this
  | c, p, t, t', .list as, hc, h, h' => by
    cases h with
    | seqOf h1 h2 h3 h4 =>
      cases h' with
      | seqOf g1 g2 g3 g4 =>
        rw [h1] at g1
        cases g1
        obtain ⟨_, _, _, d, k0, hd⟩ := hU.seqOf _ _ _ _ _ hc h1
        cases k0
        have := listDer_unique hU hd h4 g4
        exact derFramed_unique h2 g2 (h3.trans g3.symm) this
  | c, p, t, t', .alt k a, hc, h, h' => by
    cases h with
    | choice h1 h2 h3 h4 =>
      cases h' with
      | choice g1 g2 g3 g4 =>
        rw [h1] at g1
        cases g1
        rw [h3] at g3
        cases g3
        have := der_unique hU ((hU.choice _ _ _ _ hc h1).2.2.2 _ (List.mem_of_getElem? h3)).1.mem h4 g4
        exact this
  | c, p, t, t', .absent, hc, h, h' => by cases h
theorem fieldsDer_unique {E : Env} {U : ClassId → Prop} (hU : Universe E U) : ∀ {fs : List Field} {b b' : Bytes} {as : List AVal},
    (∀ f ∈ fs, U f.spec) → FieldsDer E fs b as → FieldsDer E fs b' as → b = b'
  | fs, b, b', [], hf, h, h' => by
    cases h
    cases h'
    rfl
  | fs, b, b', a :: as, hf, h, h' => by
    cases h with
    | present h1 h2 h3 =>
      cases h' with
      | present g1 g2 g3 =>
        have e1 := der_unique hU (hf _ (by simp)) h1 g1
        have e2 := fieldsDer_unique hU (fun f hm => hf f (by simp [hm])) h3 g3
        rw [e1, e2]
      | absent g1 g2 => cases h1
      | default g1 g2 => exact absurd g1 h2
    | absent h1 h2 =>
      cases h' with
      | present g1 g2 g3 => cases g1
      | absent g1 g2 =>
        have := fieldsDer_unique hU (fun f hm => hf f (by simp [hm])) h2 g2
        exact this
      | default g1 g2 => exact absurd rfl (default_ne_absent g1)
    | default h1 h2 =>
      cases h' with
      | present g1 g2 g3 => exact absurd h1 g2
      | absent g1 g2 => exact absurd rfl (default_ne_absent h1)
      | default g1 g2 =>
        have := fieldsDer_unique hU (fun f hm => hf f (by simp [hm])) h2 g2
        exact this
theorem listDer_unique {E : Env} {U : ClassId → Prop} (hU : Universe E U) : ∀ {ch : ClassId} {b b' : Bytes} {as : List AVal},
    U ch → ListDer E ch b as → ListDer E ch b' as → b = b'
  | ch, b, b', [], hf, h, h' => by
    cases h
    cases h'
    rfl
  | ch, b, b', a :: as, hf, h, h' => by
    cases h with
    | cons h1 h2 =>
      cases h' with
      | cons g1 g2 =>
        have e1 := der_unique hU hf h1 g1
        have e2 := listDer_unique hU hf h2 g2
        rw [e1, e2]
end

/-! ### Primitive values -/

/-- An instance without header, with DER contents, is written as DER. -/
theorem leaf_new_der {q : Bool} {p : Params} {proto st st' : LeafSt} {s : Scalar} {c b : Bytes} (hg : GoodLeaf proto) (hp : p.Valid)
    (hr : LeafRep q p proto st s) (hh : st.base.header = none) (hc : st.base.contents = some c) (hd : DerContents proto s c)
    (he : st.dump false = .ok (b, st')) :
    ∃ t u, t.bytes = b ∧ DerFramed (proto.base.cls, proto.base.tag) p t u ∧ u.method = 0 ∧ DerContents proto s u.contents := by
  have hi := (hr.bare hh).2
  rw [LeafSt.dump_new hh hi hc] at he
  have hm : st.base.method = 0 := by rw [hr.method, hi]; rfl
  cases h1 : dumpHeader st.base.cls st.base.method st.base.tag c with
  | error e => rw [h1] at he; cases he
  | ok h0 =>
    rw [h1] at he
    simp only [Except.bind] at he
    cases h2 : wrapExplicit st.base.explicit h0 c with
    | error e => rw [h2] at he; cases he
    | ok h =>
      rw [h2] at he
      cases he
      rw [hm] at h1
      rw [hr.explicit] at h2
      obtain ⟨t, u, t1, t2, t3, t4⟩ := dump_der hp hg.blank.cls (by decide) hr.tag h1 h2
      exact ⟨t, u, t1, t2, t3, by rw [t4]; exact hd⟩

theorem leaf_forced_der {q : Bool} {p : Params} {proto st st' : LeafSt} {s : Scalar} {b : Bytes} (hl : PlainLeaf proto) (hp : p.Valid)
    (hnn : proto.notNull = true) (hr : LeafRep q p proto st s) (he : st.dump true = .ok (b, st')) :
    ∃ t u, t.bytes = b ∧ DerFramed (proto.base.cls, proto.base.tag) p t u ∧ u.method = 0 ∧ DerContents proto s u.contents := by
  have hg := plainLeaf_good hl
  obtain ⟨d, hc, hrd⟩ := hr.data
  obtain ⟨st1, n1, n2⟩ := hr.native
  rw [LeafSt.dump_forced ((LeafSt.kind_notNull hr.kind).trans hnn) (by rfl) hc n1] at he
  obtain ⟨_, _, hr1⟩ := hr.native_step n1
  cases hs : (st1.map (fun o => { o with contents := none })).set s with
  | error e => rw [hs] at he; cases he
  | ok st2 =>
    rw [hs] at he
    obtain ⟨hr2, hh, c, hc2, st3, hs3, hc3⟩ := hr1.reset hg hnn hs
    obtain ⟨c', k1, k2⟩ := derContents_of_set hl hrd hs3
    rw [hc3] at k1
    cases k1
    exact leaf_new_der hg hp hr2 hh hc2 k2 he

theorem Spec.NoNull.leaf {E : Env} {U : ClassId → Prop} (h : NoNull E U) {c : ClassId} {proto : LeafSt} {bad : List Nat} (hc : U c)
    (hl : E.cls c = .leaf proto bad) : proto.notNull = true := by
  cases proto <;> first | rfl | exact absurd hl (h _ _ _ hc)

/-! ### All values -/

/-- What is written by force is DER, and so is what is written for a default value. Nothing is marked as changed after writing. -/
structure Canon (E : Env) (U : ClassId → Prop) (r : Ops) : Prop where
  calm : ∀ {q c p v v' a b force}, GoodUse E U c p → Rep E q c p v a → r.dump v force = .ok (b, v') → v'.isMutated = false
  dump : ∀ {q c p v v' a b}, GoodUse E U c p → Rep E q c p v a → r.dump v true = .ok (b, v') → ∃ t : TLV, t.bytes = b ∧ Der E c p t a
  default : ∀ {f d d' b}, GoodUse E U f.spec f.params → f.params.default.isSome = true → r.construct f.spec f.params (.scalar .none) = .ok d →
    r.dump d false = .ok (b, d') → ∃ (a : AVal) (t : TLV), DefaultIs E f a ∧ t.bytes = b ∧ Der E f.spec f.params t a

theorem fieldEncoding_der {E : Env} {U : ClassId → Prop} {r : Ops} (hU : Universe E U) (hS : Sim E U r) (hC : Canon E U r) {f : Field}
    {fs : List Field} {ch ch' : Child} {cs : List Child} {a : AVal} {as : List AVal} {b : Bytes} (hg : GoodUse E U f.spec f.params)
    (h : FieldsRep E (f :: fs) (ch :: cs) (a :: as)) (he : fieldEncoding r true f ch = .ok (b, ch')) :
    (a = .absent → f.params.optional = true) → ∀ bs as', FieldsDer E fs bs as' → FieldsDer E (f :: fs) (b ++ bs) (a :: as') := by
  have some' : ∀ {v0 v1 : Val} {b0 : Bytes} (ch0 : Child), Rep E false f.spec f.params v0 a → r.dump v0 true = .ok (b0, v1) →
      (match f.params.default with
        | none => (.ok (b0, ch0) : Py (Bytes × Child))
        | some _ => do
          let d ← r.construct f.spec f.params (.scalar .none)
          let (db, _) ← r.dump d false
          .ok (if db = b0 then [] else b0, ch0)) = .ok (b, ch') →
      ∀ bs as', FieldsDer E fs bs as' → FieldsDer E (f :: fs) (b ++ bs) (a :: as') := by
    intro v0 v1 b0 ch0 hr hd0 h
    obtain ⟨t, k1, k2⟩ := hC.dump hg hr hd0
    cases hdf : f.params.default with
    | none =>
      rw [hdf] at h
      cases h
      refine fun bs as' k => k1 ▸ .present k2 ?_ k
      rintro ⟨_, _, _, _, _, h, _⟩
      rw [hdf] at h
      cases h
    | some dv =>
      rw [hdf] at h
      simp only [bind, Except.bind] at h
      cases hc : r.construct f.spec f.params (.scalar .none) with
      | error e => rw [hc] at h; cases h
      | ok d =>
        rw [hc] at h
        simp only at h
        cases hdd : r.dump d false with
        | error e => rw [hdd] at h; cases h
        | ok x =>
          obtain ⟨db, d'⟩ := x
          rw [hdd] at h
          simp only at h
          obtain ⟨a', t', m1, m2, m3⟩ := hC.default hg (by rw [hdf]; rfl) hc hdd
          obtain ⟨a2, n1, n2⟩ := hS.default (q := false) hg (by rw [hdf]; rfl) hc
          cases default_unique m1 n1
          obtain ⟨_, td, n3, n4, _⟩ := hS.dump hg n2 hdd
          obtain ⟨_, tv, n5, n6, _⟩ := hS.dump hg hr hd0
          cases h
          refine fun bs as' k => ?_
          split
          next heq =>
            have ht : td = tv := (Ber_unique (r := []) (r' := []) (dec_ber n4) (dec_ber n6) (by rw [n3, n5, heq])).1
            subst ht
            have m1' := m1
            obtain ⟨proto, bad, _, _, k5, _⟩ := m1
            rw [dec_leaf_unique k5 n6 n4]
            exact .default m1' k
          next heq =>
            refine k1 ▸ .present k2 (fun hdef => ?_) k
            cases default_unique m1 hdef
            cases der_unique hU hg.mem m3 k2
            exact heq (m2.symm.trans k1)
  unfold fieldEncoding at he
  cases h with
  | @lazy _ _ i _ _ _ h1 h2 =>
    simp only [bind, Except.bind] at he
    cases hb : r.build i (some f.spec) f.params none with
    | error e => rw [hb] at he; cases he
    | ok v =>
      rw [hb] at he
      simp only at he
      have k1 := hS.build (q := false) hg h1 (fun h => by cases h) hb
      cases hd : r.dump v true with
      | error e => rw [hd] at he; cases he
      | ok x =>
        obtain ⟨db, v'⟩ := x
        rw [hd] at he
        simp only at he
        exact fun _ => some' (.val v') k1 hd he
  | @val _ _ v _ _ _ h1 h2 =>
    simp only [bind, Except.bind] at he
    cases hd : r.dump v true with
    | error e => rw [hd] at he; cases he
    | ok x =>
      obtain ⟨db, v'⟩ := x
      rw [hd] at he
      simp only at he
      exact fun _ => some' (.val v') h1 hd he
  | void h1 h2 =>
    simp only [bind, Except.bind, h1] at he
    cases hd : r.dump .void true with
    | error e => rw [hd] at he; cases he
    | ok x =>
      obtain ⟨db, v'⟩ := x
      rw [hd] at he
      obtain ⟨rfl, rfl⟩ := hS.voidDump hd
      cases he
      exact fun ho bs as' k => .absent (ho rfl) k

theorem encodeFields_der {E : Env} {U : ClassId → Prop} {r : Ops} (hU : Universe E U) (hS : Sim E U r) (hC : Canon E U r) :
    ∀ {fs : List Field} {cs cs' : List Child} {as : List AVal} {b : Bytes}, (∀ f ∈ fs, GoodUse E U f.spec f.params) → FieldsRep E fs cs as →
    encodeFields r true fs cs = .ok (b, cs') → Complete fs as → FieldsDer E fs b as
  | [], cs, cs', as, b, _, h, he => by
    cases h
    cases he
    exact fun _ => .nil
  | f :: fs, cs, cs', as, b, hg, h, he => by
    obtain ⟨ch, cs1, a, as1, rfl, rfl, h'⟩ := fieldsRep_uncons h
    simp only [encodeFields, bind, Except.bind] at he
    cases h1 : fieldEncoding r true f ch with
    | error e => rw [h1] at he; cases he
    | ok x =>
      obtain ⟨b1, ch1⟩ := x
      rw [h1] at he
      simp only at he
      cases h2 : encodeFields r true fs cs1 with
      | error e => rw [h2] at he; cases he
      | ok y =>
        obtain ⟨b2, cs2⟩ := y
        rw [h2] at he
        cases he
        intro hw
        obtain ⟨w1, w2⟩ := List.forall₂_cons.mp hw
        exact fieldEncoding_der hU hS hC (hg f (by simp)) h h1 w1 _ _
          (encodeFields_der hU hS hC (fun g hm => hg g (by simp [hm])) h' h2 w2)

theorem encodeElements_der {E : Env} {U : ClassId → Prop} {r : Ops} (hS : Sim E U r) (hC : Canon E U r) {ch : ClassId} (hg : U ch) :
    ∀ {cs cs' : List Child} {as : List AVal} {bs : List Bytes}, ListRep E ch cs as → encodeElements r true cs = .ok (bs, cs') →
    ListDer E ch bs.flatten as
  | [], cs', as, bs, h, he => by
    cases h
    cases he
    exact .nil
  | x :: cs, cs', as, bs, h, he => by
    simp only [encodeElements, bind, Except.bind] at he
    cases h1 : buildChild r {} x with
    | error e => rw [h1] at he; cases he
    | ok v =>
      rw [h1] at he
      simp only at he
      obtain ⟨a, as1, rfl, k1, k2⟩ := buildChild_rep hS hg h h1
      cases h2 : r.dump v true with
      | error e => rw [h2] at he; cases he
      | ok y =>
        obtain ⟨b, v'⟩ := y
        rw [h2] at he
        simp only at he
        cases h3 : encodeElements r true cs with
        | error e => rw [h3] at he; cases he
        | ok z =>
          obtain ⟨b2, cs2⟩ := z
          rw [h3] at he
          cases he
          obtain ⟨t, k4, k5⟩ := hC.dump (goodUse_plain hg) k1 h2
          rw [List.flatten_cons, ← k4]
          exact .cons k5 (encodeElements_der hS hC hg k2 h3)

/-- The contents octets are the DER ones. -/
inductive DerBody (E : Env) (c : ClassId) : AVal → Bytes → Prop
  | seq {proto : Obj Unit} {bad : List Nat} {fields : List Field} {as : List AVal} {data : Bytes} :
      E.cls c = .seq proto bad false fields none → FieldsDer E fields data as → DerBody E c (.seq as) data
  | list {proto : Obj Unit} {bad : List Nat} {ch : ClassId} {as : List AVal} {data : Bytes} :
      E.cls c = .seqOf proto bad false (some ch) → ListDer E ch data as → DerBody E c (.list as) data

theorem derBody_der {E : Env} {c : ClassId} {p : Params} {a : AVal} {data : Bytes} {proto : Obj Unit} {t u : TLV} (hp : NodeProto E c proto)
    (h : DerBody E c a data) (hF : DerFramed (proto.cls, proto.tag) p t u) (hm : u.method = 1) (hc : u.contents = data) : Der E c p t a := by
  subst hc
  cases h with
  | seq g1 g2 =>
    rcases hp with ⟨_, _, hp⟩ | ⟨_, _, hp⟩ <;> (rw [g1] at hp; cases hp)
    exact .seq g1 hF hm g2
  | list g1 g2 =>
    rcases hp with ⟨_, _, hp⟩ | ⟨_, _, hp⟩ <;> (rw [g1] at hp; cases hp)
    exact .seqOf g1 hF hm g2

theorem encode_der {E : Env} {U : ClassId → Prop} {r : Ops} (hU : Universe E U) (hS : Sim E U r) (hC : Canon E U r) {c : ClassId} {a : AVal}
    {cs cs' : List Child} {b : Bytes} (hc : U c) (h : Kids E c a cs) (he : encodeChildren E r c true cs = .ok (b, cs')) :
    Whole E c a → DerBody E c a b := by
  cases h with
  | seq g1 g2 =>
    unfold encodeChildren at he
    rw [g1] at he
    exact fun hw => .seq g1 (encodeFields_der hU hS hC (hU.seq _ _ _ _ _ _ hc g1).2.2.2.2.2.2 g2 he ((whole_complete g1).mp hw))
  | list g1 g2 =>
    unfold encodeChildren at he
    rw [g1] at he
    simp only [bind, Except.bind] at he
    obtain ⟨_, _, _, d, k0, hd⟩ := hU.seqOf _ _ _ _ _ hc g1
    cases k0
    cases h3 : encodeElements r true cs with
    | error e => rw [h3] at he; cases he
    | ok z =>
      obtain ⟨b2, cs2⟩ := z
      rw [h3] at he
      cases he
      exact fun _ => .list g1 (encodeElements_der hS hC hd g2 h3)

/-! ### Nothing is marked as changed -/

theorem fieldEncoding_calm {E : Env} {U : ClassId → Prop} {r : Ops} (hS : Sim E U r) (hC : Canon E U r) {force : Bool} {f : Field}
    {fs : List Field} {ch ch' : Child} {cs cs' : List Child} {a : AVal} {as : List AVal} {b : Bytes} (hg : GoodUse E U f.spec f.params)
    (h : FieldsRep E (f :: fs) (ch :: cs) (a :: as)) (he : fieldEncoding r force f ch = .ok (b, ch')) :
    childrenMutated (ch' :: cs') = childrenMutated cs' := by
  have out : ∀ {b0 : Bytes} {ch0 : Child},
      (match f.params.default with
        | none => (.ok (b0, ch0) : Py (Bytes × Child))
        | some _ => do
          let d ← r.construct f.spec f.params (.scalar .none)
          let (db, _) ← r.dump d false
          .ok (if db = b0 then [] else b0, ch0)) = .ok (b, ch') → ch' = ch0 := by
    intro b0 ch0 h
    cases hdf : f.params.default with
    | none => rw [hdf] at h; cases h; rfl
    | some dv =>
      rw [hdf] at h
      simp only [bind, Except.bind] at h
      cases hc : r.construct f.spec f.params (.scalar .none) with
      | error e => rw [hc] at h; cases h
      | ok d =>
        rw [hc] at h
        simp only at h
        cases hdd : r.dump d false with
        | error e => rw [hdd] at h; cases h
        | ok x => rw [hdd] at h; cases h; rfl
  have val : ∀ {v' : Val}, v'.isMutated = false → childrenMutated (.val v' :: cs') = childrenMutated cs' := by
    intro v' h
    rw [childrenMutated, h, Bool.false_or]
  unfold fieldEncoding at he
  cases h with
  | @lazy _ _ i _ _ _ h1 h2 =>
    cases force with
    | false =>
      simp only [bind, Except.bind] at he
      rw [out he, childrenMutated]
    | true =>
      simp only [bind, Except.bind] at he
      cases hb : r.build i (some f.spec) f.params none with
      | error e => rw [hb] at he; cases he
      | ok v =>
        rw [hb] at he
        simp only at he
        have k1 := hS.build (q := false) hg h1 (fun h => by cases h) hb
        cases hd : r.dump v true with
        | error e => rw [hd] at he; cases he
        | ok x =>
          obtain ⟨db, v'⟩ := x
          rw [hd] at he
          simp only at he
          rw [out he]
          exact val (hC.calm hg k1 hd)
  | @val _ _ v _ _ _ h1 h2 =>
    simp only [bind, Except.bind] at he
    cases hd : r.dump v force with
    | error e => rw [hd] at he; cases he
    | ok x =>
      obtain ⟨db, v'⟩ := x
      rw [hd] at he
      simp only at he
      rw [out he]
      exact val (hC.calm hg h1 hd)
  | void h1 h2 =>
    simp only [bind, Except.bind] at he
    cases hd : r.dump .void force with
    | error e => rw [hd] at he; cases he
    | ok x =>
      obtain ⟨db, v'⟩ := x
      rw [hd] at he
      obtain ⟨rfl, rfl⟩ := hS.voidDump hd
      simp only at he
      rw [out he]
      exact val (by simp [Val.isMutated])

theorem encodeFields_calm {E : Env} {U : ClassId → Prop} {r : Ops} (hS : Sim E U r) (hC : Canon E U r) {force : Bool} :
    ∀ {fs : List Field} {cs cs' : List Child} {as : List AVal} {b : Bytes}, (∀ f ∈ fs, GoodUse E U f.spec f.params) → FieldsRep E fs cs as →
    encodeFields r force fs cs = .ok (b, cs') → childrenMutated cs' = false
  | [], cs, cs', as, b, _, h, he => by
    cases h
    cases he
    rfl
  | f :: fs, cs, cs', as, b, hg, h, he => by
    obtain ⟨ch, cs1, a, as1, rfl, rfl, h'⟩ := fieldsRep_uncons h
    simp only [encodeFields, bind, Except.bind] at he
    cases h1 : fieldEncoding r force f ch with
    | error e => rw [h1] at he; cases he
    | ok x =>
      obtain ⟨b1, ch1⟩ := x
      rw [h1] at he
      simp only at he
      cases h2 : encodeFields r force fs cs1 with
      | error e => rw [h2] at he; cases he
      | ok y =>
        obtain ⟨b2, cs2⟩ := y
        rw [h2] at he
        cases he
        rw [fieldEncoding_calm hS hC (hg f (by simp)) h h1]
        exact encodeFields_calm hS hC (fun g hm => hg g (by simp [hm])) h' h2

theorem encodeElements_calm {E : Env} {U : ClassId → Prop} {r : Ops} (hS : Sim E U r) (hC : Canon E U r) {force : Bool} {ch : ClassId} (hg : U ch) :
    ∀ {cs cs' : List Child} {as : List AVal} {bs : List Bytes}, ListRep E ch cs as → encodeElements r force cs = .ok (bs, cs') →
    childrenMutated cs' = false
  | [], cs', as, bs, h, he => by
    cases h
    cases he
    rfl
  | x :: cs, cs', as, bs, h, he => by
    simp only [encodeElements, bind, Except.bind] at he
    cases h1 : buildChild r {} x with
    | error e => rw [h1] at he; cases he
    | ok v =>
      rw [h1] at he
      simp only at he
      obtain ⟨a, as1, rfl, k1, k2⟩ := buildChild_rep hS hg h h1
      cases h2 : r.dump v force with
      | error e => rw [h2] at he; cases he
      | ok y =>
        obtain ⟨b, v'⟩ := y
        rw [h2] at he
        simp only at he
        cases h3 : encodeElements r force cs with
        | error e => rw [h3] at he; cases he
        | ok z =>
          obtain ⟨b2, cs2⟩ := z
          rw [h3] at he
          cases he
          rw [childrenMutated, hC.calm (goodUse_plain hg) k1 h2, Bool.false_or]
          exact encodeElements_calm hS hC hg k2 h3

theorem encode_calm {E : Env} {U : ClassId → Prop} {r : Ops} (hU : Universe E U) (hS : Sim E U r) (hC : Canon E U r) {c : ClassId} {a : AVal}
    {force : Bool} {cs cs' : List Child} {b : Bytes} (hc : U c) (h : Kids E c a cs) (he : encodeChildren E r c force cs = .ok (b, cs')) :
    childrenMutated cs' = false := by
  cases h with
  | seq g1 g2 =>
    unfold encodeChildren at he
    rw [g1] at he
    exact encodeFields_calm hS hC (hU.seq _ _ _ _ _ _ hc g1).2.2.2.2.2.2 g2 he
  | list g1 g2 =>
    unfold encodeChildren at he
    rw [g1] at he
    simp only [bind, Except.bind] at he
    obtain ⟨_, _, _, d, k0, hd⟩ := hU.seqOf _ _ _ _ _ hc g1
    cases k0
    cases h3 : encodeElements r force cs with
    | error e => rw [h3] at he; cases he
    | ok z =>
      obtain ⟨b2, cs2⟩ := z
      rw [h3] at he
      cases he
      exact encodeElements_calm hS hC hd g2 h3

theorem setContents_der {E : Env} {U : ClassId → Prop} {r : Ops} (hU : Universe E U) (hS : Sim E U r) (hC : Canon E U r) {c : ClassId} {a : AVal}
    {o o' : Obj Unit} {ch : Option (List Child)} {cs' : List Child} {force : Bool} (hc : U c)
    (h : ∀ cs, ensureChildren E r c o ch = .ok cs → Kids E c a cs) (he : setContents E r c o ch force = .ok (o', cs')) :
    childrenMutated cs' = false ∧ ∃ data, o' = { o with contents := some data, header := none, trailer := [] } ∧
      (force = true → Whole E c a → DerBody E c a data) := by
  unfold setContents at he
  simp only [bind, Except.bind] at he
  cases h1 : ensureChildren E r c o ch with
  | error e => rw [h1] at he; cases he
  | ok cs =>
    rw [h1] at he
    simp only at he
    cases h2 : encodeChildren E r c force cs with
    | error e => rw [h2] at he; cases he
    | ok x =>
      obtain ⟨b, cs2⟩ := x
      rw [h2] at he
      cases he
      refine ⟨encode_calm hU hS hC hc (h cs h1) h2, b, rfl, ?_⟩
      rintro rfl
      exact encode_der hU hS hC hc (h cs h1) h2

theorem nodeContents_settled {E : Env} {U : ClassId → Prop} {r : Ops} (hU : Universe E U) (hS : Sim E U r) (hC : Canon E U r) {q : Bool} {c : ClassId}
    {p : Params} {a : AVal} {o o' : Obj Unit} {ch ch' : Option (List Child)} {m m' : Bool} (hc : U c) (h : Rep E q c p (.node c o ch m) a)
    (he : nodeContents E r c o ch m = .ok (o', ch', m')) : ∀ o2, (Val.node c o2 ch' m').isMutated = false := by
  obtain ⟨_, proto, hp, ht, h'⟩ := rep_node.mp h
  rcases h' with ⟨rfl, rfl, data, h1, h2, h3⟩ | ⟨cs, rfl, h1, h2⟩
  · cases he
    intro o2
    rw [Val.isMutated]
  · unfold nodeContents at he
    simp only at he
    split at he
    · simp only [bind, Except.bind] at he
      cases h3 : setContents E r c o (some cs) false with
      | error e => rw [h3] at he; cases he
      | ok x =>
        obtain ⟨o1, cs1⟩ := x
        rw [h3] at he
        cases he
        intro o2
        rw [isMutated_node, (setContents_der hU hS hC hc (fun cs2 h => by cases h; exact h1) h3).1]
        rfl
    · next hm =>
      cases he
      intro o2
      rw [Bool.not_eq_true, isMutated_node] at hm
      rw [isMutated_node, hm]

/-- `dump` of a SEQUENCE or SEQUENCE OF. -/
theorem nodeDump_der {E : Env} {U : ClassId → Prop} {r : Ops} (hU : Universe E U) (hS : Sim E U r) (hC : Canon E U r) {q : Bool} {c : ClassId}
    {p : Params} {a : AVal} {o : Obj Unit} {ch : Option (List Child)} {m force : Bool} {b : Bytes} {v : Val} (hg : GoodUse E U c p)
    (h : Rep E q c p (.node c o ch m) a) (he : nodeDump E r c o ch m force = .ok (b, v)) :
    v.isMutated = false ∧ (force = true → ∃ t : TLV, t.bytes = b ∧ Der E c p t a) := by
  have hc := hg.mem
  have hwh := (nodeDump_rep hU hS hg h he).2.1
  -- after the forced part
  have calm : ∀ {o : Obj Unit} {ch : Option (List Child)} {m : Bool}, Rep E q c p (.node c o ch m) a →
      (do
        checkRequired E c ch
        let (o, children, mutated) ← nodeContents E r c o ch m
        let (b, o) ← asn1Dump false o
        (.ok (b, .node c o children mutated) : Py (Bytes × Val))) = .ok (b, v) → v.isMutated = false := by
    intro o ch m h he
    simp only [bind, Except.bind] at he
    cases h1 : checkRequired E c ch with
    | error e => rw [h1] at he; cases he
    | ok u =>
      rw [h1] at he
      simp only at he
      cases h2 : nodeContents E r c o ch m with
      | error e => rw [h2] at he; cases he
      | ok x =>
        obtain ⟨o1, ch1, m1⟩ := x
        rw [h2] at he
        simp only at he
        cases h3 : asn1Dump false o1 with
        | error e => rw [h3] at he; cases he
        | ok y =>
          obtain ⟨b1, o2⟩ := y
          rw [h3] at he
          cases he
          exact nodeContents_settled hU hS hC hc h h2 o2
  obtain ⟨_, proto, hp, ht, _⟩ := rep_node.mp h
  unfold nodeDump at he
  simp only [nodeProto_plain hU hc hp, Bool.not_false, Bool.and_true] at he
  split at he
  · simp only [bind, Except.bind] at he
    cases h1 : setContents E r c o ch true with
    | error e => rw [h1] at he; cases he
    | ok x =>
      obtain ⟨o1, cs1⟩ := x
      rw [h1] at he
      simp only at he
      have hk := fun cs2 h2 => (ensure_kids hU hS hc h (cs := cs2) h2).1
      obtain ⟨k1, k2, k3, k4⟩ := setContents_rep hU hS hc hk h1
      obtain ⟨d1, data, rfl, d3⟩ := setContents_der hU hS hC hc hk h1
      refine ⟨calm (rep_node.mpr ⟨rfl, proto, hp, k4 _ _ ht, .inr ⟨cs1, rfl, k1, fun _ => k2 _ _⟩⟩) he, fun _ => ?_⟩
      have d3 := d3 rfl hwh
      cases h2 : checkRequired E c (some cs1) with
      | error e => rw [h2] at he; cases he
      | ok u =>
        rw [h2] at he
        have hm : (Val.node c { o with contents := some data, header := none, trailer := [] } (some cs1) false).isMutated = false := by
          rw [isMutated_node, d1]; rfl
        simp only [nodeContents, hm, Bool.false_eq_true, if_false, asn1Dump, Bool.false_and, bind, Except.bind] at he
        cases e1 : dumpHeader o.cls o.method o.tag data with
        | error e => rw [e1] at he; cases he
        | ok h0 =>
          rw [e1] at he
          simp only at he
          cases e2 : wrapExplicit o.explicit h0 data with
          | error e => rw [e2] at he; cases he
          | ok h' =>
            rw [e2] at he
            cases he
            rw [ht.method] at e1
            rw [ht.explicit] at e2
            obtain ⟨t, u, f1, f2, f3, f4⟩ := dump_der (d := (proto.cls, proto.tag)) (goodParams hg.tags).valid
              (nodeProto_blank hU hc hp).cls (by decide) ht.tag e1 e2
            exact ⟨t, by rw [f1]; simp, derBody_der hp d3 f2 f3 f4⟩
  · next hf =>
    refine ⟨calm h he, fun hf' => ?_⟩
    rw [hf'] at hf
    exact absurd rfl hf

theorem step_der {E : Env} {U : ClassId → Prop} {r : Ops} (hU : Universe E U) (hN : NoNull E U) (hS : Sim E U r) (hC : Canon E U r) {q : Bool}
    {c : ClassId} {p : Params} {a : AVal} {v v' : Val} {b : Bytes} {force : Bool} (hg : GoodUse E U c p) (h : Rep E q c p v a)
    (hn : dumpStep E r v force = .ok (b, v')) : v'.isMutated = false ∧ (force = true → ∃ t : TLV, t.bytes = b ∧ Der E c p t a) := by
  have node : ∀ {c' o ch m}, Rep E q c p (.node c' o ch m) a → dumpStep E r (.node c' o ch m) force = .ok (b, v') →
      v'.isMutated = false ∧ (force = true → ∃ t : TLV, t.bytes = b ∧ Der E c p t a) := by
    intro c' o ch m h hn
    obtain rfl := (rep_node.mp h).1
    exact nodeDump_der hU hS hC hg h hn
  cases h with
  | @leaf _ _ _ st proto bad s h1 h2 =>
    obtain ⟨rfl, hpl⟩ := hU.leaf _ _ _ hg.mem h1
    simp only [dumpStep, bind, Except.bind] at hn
    cases h3 : st.dump force with
    | error e => rw [h3] at hn; cases hn
    | ok y =>
      obtain ⟨n, st'⟩ := y
      rw [h3] at hn
      cases hn
      refine ⟨by simp [Val.isMutated], ?_⟩
      rintro rfl
      obtain ⟨t, u, k1, k2, k3, k4⟩ := leaf_forced_der hpl (goodParams hg.tags).valid (hN.leaf hg.mem h1) h2 h3
      exact ⟨t, k1, .leaf h1 k2 k3 k4⟩
  | seqRaw h1 h2 h3 h4 h5 => exact node (.seqRaw h1 h2 h3 h4 h5) hn
  | seq h1 h2 h3 h4 => exact node (.seq h1 h2 h3 h4) hn
  | listRaw h1 h2 h3 h4 h5 => exact node (.listRaw h1 h2 h3 h4 h5) hn
  | list h1 h2 h3 h4 => exact node (.list h1 h2 h3 h4) hn
  | @choice _ _ _ o alts k f w a h1 h2 h3 h4 h5 h6 =>
    obtain ⟨_, _, _, hal⟩ := hU.choice _ _ _ _ hg.mem h1
    obtain ⟨hgf, _, _⟩ := hal f (List.mem_of_getElem? h3)
    have h80 : headerEnds80 o.header = false := by
      rcases h5 with h5 | h5 <;> rw [h5] <;> rfl
    simp only [dumpStep, choiceDump, choiceParse, bind, Except.bind, h80, Bool.or_false] at hn
    cases h7 : r.dump w force with
    | error e => rw [h7] at hn; cases hn
    | ok y =>
      obtain ⟨n, w'⟩ := y
      rw [h7] at hn
      have key : b = n ∧ v'.isMutated = false := by
        rcases h5 with h5 | h5
        · rw [h5] at hn
          simp only [h4, choiceHeader] at hn
          cases hn
          exact ⟨rfl, by simp [Val.isMutated]⟩
        · rw [h5] at hn
          cases force <;> simp only [h4, choiceHeader] at hn <;> cases hn
          · exact ⟨rfl, by simp [Val.isMutated]⟩
          · exact ⟨rfl, by simp [Val.isMutated]⟩
      refine ⟨key.2, ?_⟩
      rintro rfl
      obtain ⟨t, k1, k2⟩ := hC.dump hgf h6 h7
      exact ⟨t, k1.trans key.1.symm, .choice h1 h2 h3 k2⟩

theorem canon_step {E : Env} {U : ClassId → Prop} {r : Ops} (hU : Universe E U) (hN : NoNull E U) (hS : Sim E U r) (hC : Canon E U r) :
    Canon E U (r.step E) where
  calm hg h hd := (step_der hU hN hS hC hg h hd).1
  dump hg h hd := (step_der hU hN hS hC hg h hd).2 rfl
  default := by
    intro f d d' b hg hdf hc hd
    obtain ⟨dv, hdv⟩ := Option.isSome_iff_exists.mp hdf
    obtain ⟨ho, proto, bad, x, s, g1, rfl, g3, g4⟩ := hg.default dv hdv
    obtain ⟨rfl, hpl⟩ := hU.leaf _ _ _ hg.mem g1
    have hnn := hN.leaf hg.mem g1
    have hc' : constructStep E r f.spec f.params (.scalar .none) = .ok d := hc
    simp only [constructStep, g1, hdv, givenValue] at hc'
    simp only [bind, Except.bind] at hc'
    cases h2 : (proto.init f.params.tags).set x with
    | error e => rw [h2] at hc'; cases hc'
    | ok st =>
      rw [h2] at hc'
      cases hc'
      have hr := leafRep_construct (q := false) (plainLeaf_good hpl) (goodParams hg.tags) g4 h2
      have hd' : dumpStep E r (.leaf f.spec st) false = .ok (b, d') := hd
      simp only [dumpStep, bind, Except.bind] at hd'
      cases h3 : st.dump false with
      | error e => rw [h3] at hd'; cases hd'
      | ok y =>
        obtain ⟨n, st'⟩ := y
        rw [h3] at hd'
        cases hd'
        have hk : (proto.init f.params.tags).kind = proto.kind := LeafSt.kind_map _ _
        obtain ⟨c1, e1, e2, e3, tr⟩ := LeafSt.set_spec ((LeafSt.kind_notNull hk).trans hnn) h2
        obtain ⟨st0, r1, r2, r3⟩ := tr proto hk.symm
        have g4' := g4
        obtain ⟨st1, st1', c, k1, k2, k3, k4, k5, k6⟩ := g4
        rw [k1] at r1
        cases r1
        rw [k2] at r2
        cases r2
        obtain ⟨c', m1, m2⟩ := derContents_of_set hpl k4 k5
        rw [k6] at m1
        cases m1
        obtain ⟨t, u, n1, n2, n3, n4⟩ := leaf_new_der (plainLeaf_good hpl) (goodParams hg.tags).valid hr (by rw [e1]; rfl) (by rw [e1]; rfl) m2 h3
        exact ⟨.prim s, t, ⟨proto, _, x, s, g1, hdv, g3, rfl, g4'⟩, n1, .leaf g1 n2 n3 n4⟩

theorem canon_zero (E : Env) (U : ClassId → Prop) : Canon E U Ops.zero := by
  constructor
  · intro _ _ _ _ _ _ _ _ _ _ h; cases h
  · intro _ _ _ _ _ _ _ _ _ h; cases h
  · intro _ _ _ _ _ _ h; cases h

theorem canon_ops {E : Env} {U : ClassId → Prop} (hU : Universe E U) (hN : NoNull E U) : ∀ n, Canon E U (ops E n)
  | 0 => canon_zero E U
  | n + 1 => canon_step hU hN (sim_ops hU n) (canon_ops hU hN n)

theorem dec_whole {E : Env} : ∀ {a : AVal} {c : ClassId} {p : Params} {t : TLV}, Dec E c p t a → Whole E c a
  | .absent, _, _, _, h => by cases h
  | .prim s, _, _, _, _ => by simp only [Whole]
  | .list as, _, _, _, _ => whole_list
  | .seq as, _, _, _, h => by
    cases h with
    | seq h1 h2 h3 h4 => exact (whole_complete h1).mpr (fieldsDec_complete h4)
  | .alt k a, _, _, _, h => by
    cases h with
    | choice h1 h2 h3 h4 h5 =>
      rw [Whole]
      intro _ _ _ _ h' hf'
      rw [h1] at h'
      cases h'
      rw [h3] at hf'
      cases hf'
      have := dec_whole h4
      exact this

end Asn1
