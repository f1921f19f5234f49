import Verif.Spec.Forced
import Verif.Lemmas.Made
import Verif.Lemmas.GiveEnc
import Verif.Lemmas.Parsable

/-! # Instances that can be encoded again by force -/

namespace Asn1
open Spec Props

theorem Spec.Renewing.mono {E : Env} {N M : Nat} {P : Val → PyVal → Bytes → Prop} (h : Renewing E N P) (hM : N ≤ M) : Renewing E M P :=
  ⟨h.calm, fun hp j hj => h.native hp j (Nat.le_trans hM hj), fun hp h1 h2 h3 j hj => h.field hp h1 h2 h3 j (Nat.le_trans hM hj),
    fun hp h1 h2 h3 j hj => h.element hp h1 h2 h3 j (Nat.le_trans hM hj), fun hp j hj => h.force hp j (Nat.le_trans hM hj)⟩

theorem Spec.Forceable.mono {E : Env} {N M : Nat} {v : Val} {n : PyVal} {b : Bytes} (h : Forceable E N v n b) (hM : N ≤ M) : Forceable E M v n b := by
  obtain ⟨P, h1, h2⟩ := h
  exact ⟨P, h1.mono hM, h2⟩

theorem renewing_forceable (E : Env) (N : Nat) : Renewing E N (Forceable E N) where
  calm := fun ⟨P, h, hp⟩ => h.calm hp
  native := by
    rintro v n b ⟨P, h, hp⟩ j hj
    obtain ⟨w, h1, h2, h3⟩ := h.native hp j hj
    exact ⟨w, h1, ⟨P, h, h2⟩, h3⟩
  field := by
    rintro v ns b c proto bad isSet fields oid k name m ⟨P, h, hp⟩ h1 h2 h3 j hj
    obtain ⟨x, w, b', k1, k2, k3, k4⟩ := h.field hp h1 h2 h3 j hj
    exact ⟨x, w, b', k1, ⟨P, h, k2⟩, ⟨P, h, k3⟩, k4⟩
  element := by
    rintro v ns b c proto bad isSet ch k m ⟨P, h, hp⟩ h1 h2 h3 j hj
    obtain ⟨x, w, b', k1, k2, k3, k4⟩ := h.element hp h1 h2 h3 j hj
    exact ⟨x, w, b', k1, ⟨P, h, k2⟩, ⟨P, h, k3⟩, k4⟩
  force := by
    rintro v n b ⟨P, h, hp⟩ j hj
    obtain ⟨w, h1, h2, h3⟩ := h.force hp j hj
    exact ⟨w, h1, ⟨P, h, h2⟩, h3⟩

/-- A relation whose instances stay in it, or become forceable, consists of forceable instances. -/
theorem forceable_of {E : Env} {N : Nat} {P : Val → PyVal → Bytes → Prop}
    (calm : ∀ {v n b}, P v n b → v.isMutated = false)
    (native : ∀ {v n b}, P v n b → ∀ j ≥ N, ∃ w, (ops E j).native v = .ok (n, w) ∧ (P w n b ∨ Forceable E N w n b) ∧ formOf w = formOf v)
    (field : ∀ {v ns b c proto bad isSet fields oid k name m}, P v (.dict ns) b → formOf v = .node c → E.cls c = .seq proto bad isSet fields oid →
      ns[k]? = some (name, m) → ∀ j ≥ N, ∃ x w b', (ops E j).item v k = .ok (x, w) ∧ (P x m b' ∨ Forceable E N x m b') ∧
        (P w (.dict ns) b ∨ Forceable E N w (.dict ns) b) ∧ formOf w = formOf v)
    (element : ∀ {v ns b c proto bad isSet ch k m}, P v (.list ns) b → formOf v = .node c → E.cls c = .seqOf proto bad isSet ch →
      ns[k]? = some m → ∀ j ≥ N, ∃ x w b', (ops E j).item v k = .ok (x, w) ∧ (P x m b' ∨ Forceable E N x m b') ∧
        (P w (.list ns) b ∨ Forceable E N w (.list ns) b) ∧ formOf w = formOf v)
    (force : ∀ {v n b}, P v n b → ∀ j ≥ N, ∃ w, (ops E j).dump v true = .ok (b, w) ∧ (P w n b ∨ Forceable E N w n b) ∧ formOf w = formOf v)
    {v : Val} {n : PyVal} {b : Bytes} (h : P v n b) : Forceable E N v n b := by
  have hR := renewing_forceable E N
  refine ⟨fun v n b => P v n b ∨ Forceable E N v n b, ?_, .inl h⟩
  constructor
  · rintro v n b (h | h)
    · exact calm h
    · exact hR.calm h
  · rintro v n b (h | h) j hj
    · exact native h j hj
    · obtain ⟨w, h1, h2, h3⟩ := hR.native h j hj
      exact ⟨w, h1, .inr h2, h3⟩
  · rintro v ns b c proto bad isSet fields oid k name m (h | h) h1 h2 h3 j hj
    · exact field h h1 h2 h3 j hj
    · obtain ⟨x, w, b', k1, k2, k3, k4⟩ := hR.field h h1 h2 h3 j hj
      exact ⟨x, w, b', k1, .inr k2, .inr k3, k4⟩
  · rintro v ns b c proto bad isSet ch k m (h | h) h1 h2 h3 j hj
    · exact element h h1 h2 h3 j hj
    · obtain ⟨x, w, b', k1, k2, k3, k4⟩ := hR.element h h1 h2 h3 j hj
      exact ⟨x, w, b', k1, .inr k2, .inr k3, k4⟩
  · rintro v n b (h | h) j hj
    · exact force h j hj
    · obtain ⟨w, h1, h2, h3⟩ := hR.force h j hj
      exact ⟨w, h1, .inr h2, h3⟩

/-- Instances that are not containers. -/
theorem forceable_other {E : Env} {N : Nat} {P : Val → PyVal → Bytes → Prop} (ho : ∀ {v n b}, P v n b → ∀ c, formOf v ≠ .node c)
    (native : ∀ {v n b}, P v n b → ∀ j ≥ N, ∃ w, (ops E j).native v = .ok (n, w) ∧ (P w n b ∨ Forceable E N w n b) ∧ formOf w = formOf v)
    (force : ∀ {v n b}, P v n b → ∀ j ≥ N, ∃ w, (ops E j).dump v true = .ok (b, w) ∧ (P w n b ∨ Forceable E N w n b) ∧ formOf w = formOf v)
    {v : Val} {n : PyVal} {b : Bytes} (h : P v n b) : Forceable E N v n b := by
  refine forceable_of (P := P) ?_ native ?_ ?_ force h
  · intro v n b h
    cases v with
    | node c o cs m => exact absurd rfl (ho h c)
    | _ => simp [Val.isMutated]
  · intro v ns b c _ _ _ _ _ _ _ _ h h1
    exact absurd h1 (ho h c)
  · intro v ns b c _ _ _ _ _ _ h h1
    exact absurd h1 (ho h c)

theorem forceable_void (E : Env) : Forceable E 1 .void (.scalar .none) [] := by
  refine forceable_other (P := fun v n b => v = .void ∧ n = .scalar .none ∧ b = []) ?_ ?_ ?_ ⟨rfl, rfl, rfl⟩
  · rintro v n b ⟨rfl, rfl, rfl⟩ c h; cases h
  · rintro v n b ⟨rfl, rfl, rfl⟩ j hj
    obtain ⟨j, rfl⟩ : ∃ k, j = k + 1 := ⟨j - 1, by omega⟩
    exact ⟨.void, rfl, .inl ⟨rfl, rfl, rfl⟩, rfl⟩
  · rintro v n b ⟨rfl, rfl, rfl⟩ j hj
    obtain ⟨j, rfl⟩ : ∃ k, j = k + 1 := ⟨j - 1, by omega⟩
    exact ⟨.void, rfl, .inl ⟨rfl, rfl, rfl⟩, rfl⟩

/-! ### Primitive instances -/

/-- An instance of the class `proto` with the given tags, that stands for `s`. -/
structure LeafFor (proto : LeafSt) (cl tg : Nat) (es : List (Nat × Nat)) (s : Scalar) (st : LeafSt) : Prop where
  kind : st.kind = proto.kind
  cls : st.base.cls = cl
  tag : st.base.tag = tg
  explicit : st.base.explicit = es
  method : st.base.method = if st.base.indefinite then 1 else 0
  ind : st.base.indefinite = true → proto.constructable = true
  contents : ∃ d, st.base.contents = some d
  native : ∃ st', st.native = .ok (s, st') ∧ st'.native = .ok (s, st')

theorem notNull_of {proto : LeafSt} (h : ∀ o, proto ≠ .null o) : proto.notNull = true := by
  cases proto <;> first | rfl | exact absurd rfl (h _)

theorem LeafFor.read {proto : LeafSt} {cl tg : Nat} {es : List (Nat × Nat)} {s : Scalar} {st : LeafSt} (h : LeafFor proto cl tg es s st) :
    ∃ st', st.native = .ok (s, st') ∧ LeafFor proto cl tg es s st' := by
  obtain ⟨st', n1, n2⟩ := h.native
  obtain ⟨d, hd⟩ := h.contents
  have hb := LeafSt.native_base hd n1
  refine ⟨st', n1, ?_⟩
  constructor
  · rw [LeafSt.native_kind hd n1]; exact h.kind
  · rw [hb]; exact h.cls
  · rw [hb]; exact h.tag
  · rw [hb]; exact h.explicit
  · rw [hb]; exact h.method
  · rw [hb]; exact h.ind
  · rw [hb]; exact h.contents
  · exact ⟨st', n2, n2⟩

theorem LeafFor.force {proto : LeafSt} {cl tg : Nat} {es : List (Nat × Nat)} {s : Scalar} {st : LeafSt} (h : LeafFor proto cl tg es s st)
    (hnn : ∀ o, proto ≠ .null o) {c : Bytes} (hw : Written proto s c s) {h0 h1 : Bytes} (hh0 : dumpHeader cl 0 tg c = .ok h0) (hh1 : wrapExplicit es h0 c = .ok h1) :
    ∃ st', st.dump true = .ok (h1 ++ c, st') ∧ LeafFor proto cl tg es s st' := by
  obtain ⟨st1, n1, n2⟩ := h.read
  obtain ⟨d, hd⟩ := h.contents
  obtain ⟨w, w1, w2, w3, w4⟩ := hw
  have hnn' := notNull_of hnn
  have hk : (st1.map (fun o => { o with contents := none })).kind = proto.kind := (LeafSt.kind_map _ st1).trans n2.kind
  obtain ⟨c0, b0, _, _, tr⟩ := LeafSt.set_spec hnn' w1
  have hc0 : c0 = c := by
    rw [b0] at w2
    exact Option.some.inj w2
  subst hc0
  obtain ⟨st2, r1, r2, r3⟩ := tr _ hk
  have hn := r3 s w3
  have hnn2 : (st1.map (fun o => { o with contents := none })).notNull = true := (LeafSt.kind_notNull hk).trans hnn'
  obtain ⟨c', e1, e2, e3, _⟩ := LeafSt.set_spec hnn2 r1
  have hc' : c' = c0 := by
    rw [e1] at r2
    exact Option.some.inj r2
  subst hc'
  have hcon : (st1.map (fun o => { o with contents := none })).constructable = proto.constructable := LeafSt.kind_constructable hk
  have hbase : (st1.map (fun o => { o with contents := none })).base = { st1.base with contents := none } := by cases st1 <;> rfl
  rw [hcon, hbase] at e1
  have hind : st2.base.indefinite = false := by
    rw [e1]
    show (!proto.constructable && st1.base.indefinite) = false
    cases hi : st1.base.indefinite with
    | false => simp
    | true => rw [n2.ind hi]; rfl
  have hmeth : st2.base.method = 0 := by
    rw [e1]
    show (if proto.constructable && st1.base.indefinite then 0 else st1.base.method) = 0
    cases hi : st1.base.indefinite with
    | false => rw [n2.method, hi]; simp
    | true => rw [n2.ind hi]; rfl
  have hcls : st2.base.cls = cl := by rw [e1]; exact n2.cls
  have htag : st2.base.tag = tg := by rw [e1]; exact n2.tag
  have hexp : st2.base.explicit = es := by rw [e1]; exact n2.explicit
  have hhd : st2.base.header = none := by rw [e1]; rfl
  refine ⟨st2.headed h1, ?_, ?_⟩
  · rw [LeafSt.dump_forced ((LeafSt.kind_notNull h.kind).trans hnn') rfl hd n1, r1]
    show st2.dump false = _
    rw [LeafSt.dump_new hhd hind r2, hmeth, hcls, htag, hexp, hh0]
    show (wrapExplicit es h0 c').bind _ = _
    rw [hh1]
    rfl
  · have hb := LeafSt.base_headed h1 st2
    constructor
    · rw [LeafSt.headed_frame, LeafSt.kind_map]
      exact (e2.trans hk)
    · rw [hb]; exact hcls
    · rw [hb]; exact htag
    · rw [hb]; exact hexp
    · rw [hb]
      show st2.base.method = if st2.base.indefinite then 1 else 0
      rw [hmeth, hind]; rfl
    · rw [hb]
      intro h
      have h : st2.base.indefinite = true := h
      rw [hind] at h; cases h
    · rw [hb]; exact ⟨_, r2⟩
    · rw [LeafSt.headed_frame]
      exact LeafSt.stable_frame r2 ⟨st2, hn, hn⟩ _ _ _ _ _ _

theorem forceable_leaf (E : Env) {c : ClassId} {proto : LeafSt} {cl tg : Nat} {es : List (Nat × Nat)} {s : Scalar} {st : LeafSt}
    (h : LeafFor proto cl tg es s st) (hnn : ∀ o, proto ≠ .null o) {t u : TLV} (hi : DerInside es.reverse t u) (hc : u.cls = cl) (hm : u.method = 0)
    (ht : u.tag = tg) (hw : Written proto s u.contents s) : Forceable E 1 (.leaf c st) (.scalar s) t.bytes := by
  have hu := (derInside_head hi).2
  have hd := derHead_dumpHeader hu
  rw [hc, hm, ht] at hd
  obtain ⟨h1, w1, w2⟩ := derInside_wrap es (h := u.header) (c := u.contents) hi (by rw [TLV.bytes, derHead_trailer hu, List.append_nil])
  refine forceable_other (P := fun v n b => n = .scalar s ∧ b = t.bytes ∧ ∃ st, v = .leaf c st ∧ LeafFor proto cl tg es s st) ?_ ?_ ?_ ⟨rfl, rfl, st, rfl, h⟩
  · rintro v n b ⟨rfl, rfl, st, rfl, h⟩ c h; cases h
  · rintro v n b ⟨rfl, rfl, st, rfl, h⟩ j hj
    obtain ⟨j, rfl⟩ : ∃ k, j = k + 1 := ⟨j - 1, by omega⟩
    obtain ⟨st', k1, k2⟩ := h.read
    refine ⟨.leaf c st', ?_, .inl ⟨rfl, rfl, st', rfl, k2⟩, rfl⟩
    rw [ops_native]
    simp only [nativeStep, bind, Except.bind, k1]
  · rintro v n b ⟨rfl, rfl, st, rfl, h⟩ j hj
    obtain ⟨j, rfl⟩ : ∃ k, j = k + 1 := ⟨j - 1, by omega⟩
    obtain ⟨st', k1, k2⟩ := h.force hnn hw hd w1
    refine ⟨.leaf c st', ?_, .inl ⟨rfl, rfl, st', rfl, k2⟩, rfl⟩
    rw [ops_dump]
    simp only [dumpStep, bind, Except.bind, k1, w2]

/-! ### Things that are kept as they are -/

/-- What is written is always `b`, with contents `c`. -/
structure KeptObj (c b : Bytes) (o : Obj Unit) : Prop where
  contents : o.contents = some c
  ind : o.indefinite = false
  writes : (∃ h, o.header = some h ∧ headerEnds80 (some h) = false ∧ h ++ c ++ o.trailer = b) ∨
    (headerEnds80 o.header = true ∧ ∃ h0 h1, dumpHeader o.cls o.method o.tag c = .ok h0 ∧ wrapExplicit o.explicit h0 c = .ok h1 ∧ h1 ++ c = b)

theorem KeptObj.dump {c b : Bytes} {o : Obj Unit} (h : KeptObj c b o) : ∃ o', asn1Dump false o = .ok (b, o') ∧ KeptObj c b o' := by
  rcases h.writes with ⟨hd, h1, h2, h3⟩ | ⟨h1, h0, hh, h2, h3, h4⟩
  · exact ⟨o, by rw [asn1Dump_keep h1 h2 h.contents, h3], h⟩
  · refine ⟨{ o with header := some hh, trailer := [] }, ?_, h.contents, h.ind, ?_⟩
    · rw [asn1Dump_again _ _ _ (.inr h1), asn1Dump_fresh (o := { o with header := none }) h.contents rfl h.ind]
      simp only [h2, h3, Except.bind, h4]
    · by_cases he : headerEnds80 (some hh) = true
      · exact .inr ⟨he, h0, hh, h2, h3, h4⟩
      · exact .inl ⟨hh, rfl, by simpa using he, by rw [List.append_nil]; exact h4⟩

theorem forceable_null (E : Env) {c : ClassId} {o : Obj Unit} {b : Bytes} (h : KeptObj [] b o) : Forceable E 1 (.leaf c (.null o)) (.scalar .none) b := by
  refine forceable_other (P := fun v n b' => n = .scalar .none ∧ b' = b ∧ ∃ o, v = .leaf c (.null o) ∧ KeptObj [] b o) ?_ ?_ ?_ ⟨rfl, rfl, o, rfl, h⟩
  · rintro v n b ⟨rfl, rfl, st, rfl, h⟩ c h; cases h
  · rintro v n b ⟨rfl, rfl, o, rfl, h⟩ j hj
    obtain ⟨j, rfl⟩ : ∃ k, j = k + 1 := ⟨j - 1, by omega⟩
    refine ⟨.leaf c (.null o), rfl, .inl ⟨rfl, rfl, o, rfl, h⟩, rfl⟩
  · rintro v n b ⟨rfl, rfl, o, rfl, h⟩ j hj
    obtain ⟨j, rfl⟩ : ∃ k, j = k + 1 := ⟨j - 1, by omega⟩
    obtain ⟨o', k1, k2⟩ := h.dump
    refine ⟨.leaf c (.null o'), ?_, .inl ⟨rfl, rfl, o', rfl, k2⟩, rfl⟩
    rw [ops_dump]
    have : Null.dump o true = .ok (b, o') := by
      unfold Null.dump primDump
      simp only [Bool.true_or, if_true, bind, Except.bind, Null.set]
      have : ({ o with contents := some [] } : Obj Unit) = o := by
        have := h.contents
        cases o
        simp only at this
        subst this
        rfl
      rw [this]; exact k1
    simp only [dumpStep, LeafSt.dump, bind, Except.bind, this, pure, Except.pure]

/-! ### Instances around others -/

theorem derAround_wrap : ∀ (es : List (Nat × Nat)) {t u : TLV} {h c : Bytes}, DerAround es.reverse t u → u.bytes = h ++ c →
    ∃ h', wrapExplicit es h c = .ok h' ∧ t.bytes = h' ++ c := by
  intro es
  induction es with
  | nil =>
    intro t u h c hi hu
    cases hi
    exact ⟨h, rfl, hu⟩
  | cons e es ih =>
    intro t u h c hi hu
    rw [List.reverse_cons] at hi
    have split : ∀ {l : List (Nat × Nat)} {t : TLV}, DerAround (l ++ [e]) t u →
        ∃ v, DerAround l t v ∧ DerHead v ∧ v.method = 1 ∧ v.contents = u.bytes ∧ e = (v.cls, v.tag) := by
      intro l
      induction l with
      | nil =>
        intro t ht
        rw [List.nil_append] at ht
        generalize hl : [e] = l at ht
        cases ht with
        | nil => cases hl
        | cons h1 h2 h3 h4 =>
          injection hl with hl1 hl2
          subst hl2
          cases h4
          exact ⟨t, .nil, h1, h2, h3, hl1⟩
      | cons a l ihl =>
        intro t ht
        rw [List.cons_append] at ht
        generalize hl : a :: (l ++ [e]) = l' at ht
        cases ht with
        | nil => cases hl
        | cons h1 h2 h3 h4 =>
          injection hl with hl1 hl2
          subst hl2
          obtain ⟨v, g1, g2⟩ := ihl h4
          rw [hl1]
          exact ⟨v, .cons h1 h2 h3 g1, g2⟩
    obtain ⟨v, g1, g2, g3, g4, rfl⟩ := split hi
    have hd := derHead_dumpHeader g2
    rw [g3, g4, hu] at hd
    obtain ⟨h', k1, k2⟩ := ih (h := v.header ++ h) (c := c) g1 (by rw [TLV.bytes, derHead_trailer g2, g4, hu, List.append_nil, List.append_assoc])
    refine ⟨h', ?_, k2⟩
    unfold wrapExplicit
    simp only [hd, bind, Except.bind]
    exact k1

theorem forceable_choice {E : Env} {N : Nat} {c : ClassId} {o : Obj Unit} {k : Option Nat} {v : Val} {n : PyVal} {t u : TLV}
    (ho : DerAround o.explicit.reverse t u) (h : Forceable E N v n u.bytes) : Forceable E (N + 1) (.choice c o k (some v)) n t.bytes := by
  obtain ⟨hd, w1, w2⟩ := derAround_wrap o.explicit (h := []) (c := u.bytes) ho rfl
  refine forceable_other (P := fun x m b => m = n ∧ b = t.bytes ∧ ∃ o' w, x = .choice c o' k (some w) ∧ o'.explicit = o.explicit ∧ Forceable E N w n u.bytes)
    ?_ ?_ ?_ ⟨rfl, rfl, o, v, rfl, rfl, h⟩
  · rintro x m b ⟨rfl, rfl, o', w, rfl, _, hw⟩ c h
    cases h
  · rintro x m b ⟨rfl, rfl, o', w, rfl, he, hw⟩ j hj
    obtain ⟨j, rfl⟩ : ∃ k, j = k + 1 := ⟨j - 1, by omega⟩
    obtain ⟨w', k1, k2, k3⟩ := (renewing_forceable E N).native hw j (by omega)
    refine ⟨.choice c o' k (some w'), ?_, .inl ⟨rfl, rfl, o', w', rfl, he, k2⟩, rfl⟩
    rw [ops_native]
    simp only [nativeStep, choiceParse, bind, Except.bind, k1]
  · rintro x m b ⟨rfl, rfl, o', w, rfl, he, hw⟩ j hj
    obtain ⟨j, rfl⟩ : ∃ k, j = k + 1 := ⟨j - 1, by omega⟩
    obtain ⟨w', k1, k2, k3⟩ := (renewing_forceable E N).force hw j (by omega)
    refine ⟨.choice c { o' with header := some hd, contents := some u.bytes } k (some w'), ?_, .inl ⟨rfl, rfl, _, w', rfl, he, k2⟩, rfl⟩
    rw [ops_dump]
    simp only [dumpStep, choiceDump, choiceParse, bind, Except.bind, Bool.true_or, k1, choiceHeader_eq, he, w1, w2]
    cases o'.header <;> rfl

theorem forceable_any {E : Env} {N : Nat} {c : ClassId} {o : Obj Unit} {s : Option ClassId} {v : Val} {n : PyVal} {b : Bytes} (h : Forceable E N v n b) :
    Forceable E (N + 1) (.any c o (some v) s) n b := by
  refine forceable_other (P := fun x m b' => m = n ∧ b' = b ∧ ∃ w, x = .any c o (some w) s ∧ Forceable E N w n b) ?_ ?_ ?_ ⟨rfl, rfl, v, rfl, h⟩
  · rintro x m b ⟨rfl, rfl, w, rfl, hw⟩ c h
    cases h
  · rintro x m b ⟨rfl, rfl, w, rfl, hw⟩ j hj
    obtain ⟨j, rfl⟩ : ∃ k, j = k + 1 := ⟨j - 1, by omega⟩
    obtain ⟨w', k1, k2, k3⟩ := (renewing_forceable E N).native hw j (by omega)
    refine ⟨.any c o (some w') s, ?_, .inl ⟨rfl, rfl, w', rfl, k2⟩, rfl⟩
    rw [ops_native]
    simp only [nativeStep, bind, Except.bind, k1]
  · rintro x m b ⟨rfl, rfl, w, rfl, hw⟩ j hj
    obtain ⟨j, rfl⟩ : ∃ k, j = k + 1 := ⟨j - 1, by omega⟩
    obtain ⟨w', k1, k2, k3⟩ := (renewing_forceable E N).force hw j (by omega)
    refine ⟨.any c o (some w') s, ?_, .inl ⟨rfl, rfl, w', rfl, k2⟩, rfl⟩
    rw [ops_dump]
    simp only [dumpStep, bind, Except.bind, k1]

/-- Something that becomes forceable when it is used for the first time. -/
theorem forceable_first {E : Env} {N : Nat} {v : Val} {n : PyVal} {b : Bytes} (ho : formOf v = .other)
    (h : ∀ j ≥ N, ∃ w, (ops E j).native v = .ok (n, w) ∧ Forceable E N w n b ∧ formOf w = .other)
    (hf : ∀ j ≥ N, ∃ w, (ops E j).dump v true = .ok (b, w) ∧ Forceable E N w n b ∧ formOf w = .other) : Forceable E N v n b := by
  refine forceable_other (P := fun x m b' => x = v ∧ m = n ∧ b' = b) ?_ ?_ ?_ ⟨rfl, rfl, rfl⟩
  · rintro x m b ⟨rfl, rfl, rfl⟩ c h
    rw [ho] at h; cases h
  · rintro x m b ⟨rfl, rfl, rfl⟩ j hj
    obtain ⟨w, h1, h2, h3⟩ := h j hj
    exact ⟨w, h1, .inr h2, h3.trans ho.symm⟩
  · rintro x m b ⟨rfl, rfl, rfl⟩ j hj
    obtain ⟨w, h1, h2, h3⟩ := hf j hj
    exact ⟨w, h1, .inr h2, h3.trans ho.symm⟩

/-! ### Strings that may hold an encoding -/

/-- The tags of a string in primitive form, with contents. -/
structure StringObj (cl tg : Nat) (es : List (Nat × Nat)) (o : Obj Bytes) : Prop where
  cls : o.cls = cl
  tag : o.tag = tg
  explicit : o.explicit = es
  method : o.method = 0
  ind : o.indefinite = false
  contents : ∃ d, o.contents = some d

theorem StringObj.write {cl tg : Nat} {es : List (Nat × Nat)} {o : Obj Bytes} (h : StringObj cl tg es o) {isBit : Bool} {b : Bytes} {t u : TLV}
    (hi : DerInside es.reverse t u) (hc : u.cls = cl) (hm : u.method = 0) (ht : u.tag = tg) (hb : u.contents = stringContents isBit b) :
    ∃ o', asn1Dump true (parsableSet isBit { o with contents := none } b) = .ok (t.bytes, o') ∧ StringObj cl tg es o' ∧
      o'.contents = some (stringContents isBit b) ∧ o'.native = some b := by
  have hu := (derInside_head hi).2
  have hd := derHead_dumpHeader hu
  rw [hc, hm, ht] at hd
  obtain ⟨h1, w1, w2⟩ := derInside_wrap es (h := u.header) (c := u.contents) hi (by rw [TLV.bytes, derHead_trailer hu, List.append_nil])
  have hs : parsableSet isBit { o with contents := none } b = { o with native := some b, contents := some u.contents, header := none, trailer := [] } := by
    unfold parsableSet strPut
    rw [hb]
    simp only [h.ind, stringContents]
    rfl
  refine ⟨{ o with native := some b, contents := some u.contents, header := some h1, trailer := [] }, ?_, ⟨h.cls, h.tag, h.explicit, h.method, h.ind, _, rfl⟩, by rw [hb], rfl⟩
  rw [hs, asn1Dump_fresh (o := { o with native := some b, contents := some u.contents, header := none, trailer := [] }) rfl rfl h.ind]
  simp only [h.cls, h.method, h.tag, h.explicit, hd, w1, Except.bind, w2]

theorem forceable_payload {E : Env} {N : Nat} {c : ClassId} {pr : Obj Bytes} {isBit : Bool} (hE : E.cls c = .parsable pr isBit) {cl tg : Nat}
    {es : List (Nat × Nat)} {o : Obj Bytes} {s : Option ClassId} {v : Val} {n : PyVal} {b : Bytes} (ho : StringObj cl tg es o) {t u : TLV}
    (hi : DerInside es.reverse t u) (hc : u.cls = cl) (hm : u.method = 0) (ht : u.tag = tg) (hb : u.contents = stringContents isBit b)
    (h : Forceable E N v n b) : Forceable E (N + 1) (.parsable c o (some v) s) n t.bytes := by
  have hpp : parsableProto E c = (pr, isBit) := by simp only [parsableProto, hE]
  refine forceable_other (P := fun x m b' => m = n ∧ b' = t.bytes ∧ ∃ o w, x = .parsable c o (some w) s ∧ StringObj cl tg es o ∧ Forceable E N w n b)
    ?_ ?_ ?_ ⟨rfl, rfl, o, v, rfl, ho, h⟩
  · rintro x m b ⟨rfl, rfl, o, w, rfl, ho, hw⟩ c h
    cases h
  · rintro x m b ⟨rfl, rfl, o, w, rfl, ho, hw⟩ j hj
    obtain ⟨j, rfl⟩ : ∃ k, j = k + 1 := ⟨j - 1, by omega⟩
    obtain ⟨w', k1, k2, k3⟩ := (renewing_forceable E N).native hw j (by omega)
    refine ⟨.parsable c o (some w') s, ?_, .inl ⟨rfl, rfl, o, w', rfl, ho, k2⟩, rfl⟩
    obtain ⟨d, hd⟩ := ho.contents
    rw [ops_native]
    simp only [nativeStep, hd, bind, Except.bind, k1]
  · rintro x m b ⟨rfl, rfl, o, w, rfl, ho, hw⟩ j hj
    obtain ⟨j, rfl⟩ : ∃ k, j = k + 1 := ⟨j - 1, by omega⟩
    obtain ⟨w', k1, k2, k3⟩ := (renewing_forceable E N).force hw j (by omega)
    obtain ⟨o', g1, g2, _⟩ := ho.write hi hc hm ht hb
    refine ⟨.parsable c o' (some w') s, ?_, .inl ⟨rfl, rfl, o', w', rfl, g2, k2⟩, rfl⟩
    rw [ops_dump]
    simp only [dumpStep, parsableDump, Bool.true_or, if_true, bind, Except.bind, k1, hpp, g1]

theorem forceable_string {E : Env} {c : ClassId} {pr : Obj Bytes} {isBit : Bool} (hE : E.cls c = .parsable pr isBit) {cl tg : Nat}
    {es : List (Nat × Nat)} {o : Obj Bytes} {s : Option ClassId} {b : Bytes} (ho : StringObj cl tg es o) (hco : o.contents = some (stringContents isBit b))
    (hn : o.native = none ∨ o.native = some b) {t u : TLV}
    (hi : DerInside es.reverse t u) (hc : u.cls = cl) (hm : u.method = 0) (ht : u.tag = tg) (hb : u.contents = stringContents isBit b) :
    Forceable E 1 (.parsable c o none s) (.scalar (.bytes b)) t.bytes := by
  have hpp : parsableProto E c = (pr, isBit) := by simp only [parsableProto, hE]
  have bytes : ∀ o : Obj Bytes, StringObj cl tg es o → o.contents = some (stringContents isBit b) → (o.native = none ∨ o.native = some b) →
      ∃ o', parsableBytes isBit pr o = .ok (b, o') ∧ StringObj cl tg es o' ∧ o'.contents = some (stringContents isBit b) ∧ (o'.native = none ∨ o'.native = some b) := by
    intro o ho h1 h3
    have h2 := ho.ind
    unfold parsableBytes
    rw [h1]
    rcases h3 with hn | hn
    · simp only [hn, h2, mergeObj]
      rw [show mergeChunks (parsableChunk isBit) pr ((stringContents isBit b).length + 1) false (stringContents isBit b) = .ok b from by
        rw [mergeChunks]; exact parsableChunk_contents isBit false b]
      exact ⟨_, rfl, ⟨ho.cls, ho.tag, ho.explicit, ho.method, rfl, _, rfl⟩, rfl, .inr rfl⟩
    · simp only [hn]
      exact ⟨o, rfl, ho, h1, .inr hn⟩
  refine forceable_other (P := fun x m b' => m = .scalar (.bytes b) ∧ b' = t.bytes ∧ ∃ o, x = .parsable c o none s ∧ StringObj cl tg es o ∧
      o.contents = some (stringContents isBit b) ∧ (o.native = none ∨ o.native = some b)) ?_ ?_ ?_ ⟨rfl, rfl, o, rfl, ho, hco, hn⟩
  · rintro x m b ⟨rfl, rfl, o, rfl, ho, hw⟩ c h
    cases h
  · rintro x m b ⟨rfl, rfl, o, rfl, ho, h1, h2⟩ j hj
    obtain ⟨j, rfl⟩ : ∃ k, j = k + 1 := ⟨j - 1, by omega⟩
    obtain ⟨o', l1, l2, l3, l4⟩ := bytes o ho h1 h2
    refine ⟨.parsable c o' none s, ?_, .inl ⟨rfl, rfl, o', rfl, l2, l3, l4⟩, rfl⟩
    rw [ops_native]
    simp only [nativeStep, h1, hpp, l1, bind, Except.bind]
  · rintro x m b ⟨rfl, rfl, o, rfl, ho, h1, h2⟩ j hj
    obtain ⟨j, rfl⟩ : ∃ k, j = k + 1 := ⟨j - 1, by omega⟩
    obtain ⟨o', l1, l2, l3, l4⟩ := bytes o ho h1 h2
    obtain ⟨o2, g1, g2, g3, g4⟩ := l2.write hi hc hm ht hb
    refine ⟨.parsable c o2 none s, ?_, .inl ⟨rfl, rfl, o2, rfl, g2, g3, .inr g4⟩, rfl⟩
    rw [ops_dump]
    simp only [dumpStep, parsableDump, Bool.true_or, if_true, bind, Except.bind, h1, hpp, l1, g1]

end Asn1
