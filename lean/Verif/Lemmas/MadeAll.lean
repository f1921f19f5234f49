import Verif.Lemmas.MadeList

/-! # Making instances of all kinds of classes -/

namespace Asn1
open Spec Props

theorem decides_free {oid : Option OidPair} {before : List PyVal} (h : Free oid before.length) : Decides oid before .same := by
  unfold Decides
  cases oid with
  | none => rfl
  | some p => simp only [if_neg (h p rfl)]

theorem free_decides {oid : Option OidPair} {before : List PyVal} {pick : Pick} (h : Free oid before.length) (hd : Decides oid before pick) : pick = .same := by
  unfold Decides at hd
  cases oid with
  | none => exact hd
  | some p => simpa only [if_neg (h p rfl)] using hd

/-! ### Default values -/

theorem construct_default {E : Env} {c : ClassId} {p : Params} {y : PyVal} (ht : HasTag (E.cls c)) (hd : p.default = some y) (hy : y ≠ .scalar .none) (j : Nat) :
    (ops E (j + 1)).construct c p (.scalar .none) = (ops E (j + 1)).construct c p y := by
  rw [ops_construct, ops_construct]
  have h1 : givenValue p.default y = y := given_some (fun h => absurd h hy)
  have h2 : givenValue p.default (.scalar .none) = y := by rw [hd]; rfl
  unfold constructStep
  rw [h1, h2]
  cases hc : E.cls c <;> first | rfl | (rw [hc] at ht; exact absurd ht id)

/-- What is made of the default value of a field. -/
theorem made_default {E : Env} {U : ClassId → Prop} (hT : Types E U) {f : Field} {y : PyVal} {e : Piece} {t : TLV} {n : PyVal}
    (hu : Usable E U f.spec f.params) (hd : f.params.default = some y) (hopt : f.params.optional = false) (hy : y ≠ .scalar .none)
    (hg : Makes E f.spec y e n) (hde : DerElement E f.spec f.params e t) :
    ∃ v v1 nv w0 w1 w cs, Ev (fun j => (ops E j).construct f.spec f.params (.scalar .none) = .ok v) ∧
      Ev (fun j => (ops E j).dump v false = .ok (t.bytes, w0)) ∧
      Ev (fun j => makeValue E (ops E j) f.spec f.spec f.params (.scalar .none) = .ok v1) ∧
      Ev (fun j => assignedContents E (ops E j) v1 = .ok (some cs, nv)) ∧ Put E f.spec f.params v1 t n w1 ∧ Put E f.spec f.params nv t n w := by
  have ht : HasTag (E.cls f.spec) := by
    by_contra h
    have := (hu.untagged h).2
    rw [hd] at this; cases this
  have hnc : ∀ e tagged alts, E.cls f.spec ≠ .choice e tagged alts := by
    intro e tagged alts h
    rw [h] at ht; exact ht
  obtain ⟨v, m1, m2, m3, m4, m5, m6⟩ := hg.made f.params hu.tags (fun h => absurd ht h) (fun h => absurd h hy)
  have hcon : Ev (fun j => (ops E j).construct f.spec f.params (.scalar .none) = .ok v) :=
    Ev.up (m1.down.mono (fun j hj => by rw [construct_default ht hd hy]; exact hj))
  obtain ⟨w0, d1, d2, d3, d4⟩ := m2.dump (t := t) (by rw [m4]; exact derElement_shown hg.tag hde)
  obtain ⟨v1, nv, w1, w, cs, f1, f2, f3, f4, f5, f6⟩ := made_field (n := n) hT hu m2 m3 m4 hg.tag hde m5 (fun h => h) m6
  refine ⟨v, v1, nv, w0, w1, w, cs, hcon, d1, ?_, ?_, f4, f5⟩
  · refine hcon.map2 f1 (fun j h1 h2 => ?_)
    rw [makeValue_eq (fun _ => hopt), makeRaw_value (fun v h => by cases h) hnc (.inl rfl), h1]
    exact h2
  · refine f2.mono (fun j hj => ?_)
    rw [assigned_eq (by rw [f3, m3]; exact mark_shape hg.notAny)]
    exact hj

/-! ### Seats -/

theorem seat_given {E : Env} {f : Field} {oid : Option OidPair} {before : List PyVal} {pick : Pick} {v w : Val} {t : TLV} {n : PyVal}
    (hd : f.params.default = none) (hdec : Decides oid before pick) (hp : Put E (pickedSpec E f pick) f.params v t n w)
    (hs : Untagged f.params → TellsSub E (pickedSpec E f pick) v n) : Seat E f (Free oid before.length) v t.bytes n w := by
  refine ⟨hp.dump.mono (fun j hj => ?_), hp.calm, ?_, ?_, ?_⟩
  · unfold fieldEncoding
    simp only [hj, hd, bind, Except.bind]
  · rintro (h | h)
    · exact absurd h hp.there
    · exact absurd h hp.stays
  · intro hfree hl
    have := free_decides hfree hdec
    subst this
    exact hp.leaf hl
  · intro hfree hun _
    have := free_decides hfree hdec
    subst this
    exact hs hun

theorem seat_default {E : Env} {f : Field} {free : Prop} {y : PyVal} {v w d w0 : Val} {t td : TLV} {n : PyVal} {b : Bytes}
    (hd : f.params.default = some y) (hp : Put E f.spec f.params v t n w)
    (hc : Ev (fun j => (ops E j).construct f.spec f.params (.scalar .none) = .ok d)) (hdump : Ev (fun j => (ops E j).dump d false = .ok (td.bytes, w0)))
    (hb : b = if td.bytes = t.bytes then [] else t.bytes) : Seat E f free v b n w := by
  refine ⟨(hp.dump.and (hc.and hdump)).mono (fun j hj => ?_), hp.calm, ?_, ?_, ?_⟩
  · obtain ⟨h1, h2, h3⟩ := hj
    unfold fieldEncoding
    simp only [h1, h2, h3, hd, bind, Except.bind, hb]
  · rintro (h | h)
    · exact absurd h hp.there
    · exact absurd h hp.stays
  · intro _ hl
    exact hp.leaf hl
  · intro _ _ h
    rw [hd] at h; cases h

theorem seat_void {E : Env} {f : Field} {free : Prop} (hd : f.params.default = none) (ho : f.params.optional = true) :
    Seat E f free .void [] (.scalar .none) .void := by
  have hn : Ev (fun j => (ops E j).native .void = .ok (.scalar .none, .void)) := Ev.up (Ev.of (fun j => by rw [ops_native]; rfl))
  refine ⟨Ev.up (Ev.of (fun j => ?_)), rfl, fun _ => by rw [ho, Bool.or_true], fun _ _ => ⟨hn, _, hn⟩, ?_⟩
  · have : (ops E (j + 1)).dump .void false = .ok ([], .void) := by rw [ops_dump]; rfl
    unfold fieldEncoding
    simp only [this, hd, bind, Except.bind]
  · intro _ _ _ proto bad fs oid k g ns name m _ _ _ _ h
    cases h

/-! ### The tag of a field of a SET -/

theorem gives_octets {E : Env} {U : ClassId → Prop} {c : ClassId} {x : PyVal} {b : Piece} {n : PyVal} (h : Gives E U c x b n) (ht : HasTag (E.cls c)) :
    ∃ m cs, b = .octets m cs := by
  cases h <;> first | exact ⟨_, _, rfl⟩ | (rename_i h _; rw [h] at ht; exact absurd ht id)

theorem der_tag {E : Env} {c : ClassId} {p : Params} {b : Piece} {t : TLV} (ht : HasTag (E.cls c)) (he : p.explicit = []) (hb : ∃ m cs, b = .octets m cs)
    (h : DerElement E c p b t) : (tagsFor (E.cls c) p).2.1 = some t.tag := by
  have hs := derElement_shown (fun _ => ht) h
  obtain ⟨m, cs, rfl⟩ := hb
  obtain ⟨u, h1, h2, h3, h4, h5⟩ := hs
  have : (tagsFor (E.cls c) p).2.2.2 = [] := by
    rcases shape_cases (E.cls c) with ⟨_, _, _, h⟩ | ⟨_, _, h⟩ <;> rw [h] <;> exact he
  rw [this] at h5
  cases h5
  exact h2

theorem slot_tag {E : Env} {U : ClassId → Prop} {f : Field} {x : PyVal} {t : TLV} {n : PyVal} (h : FieldGiven E U f .same x t n)
    (ht : HasTag (E.cls f.spec)) (he : f.params.explicit = []) : (tagsFor (E.cls f.spec) f.params).2.1 = some t.tag := by
  cases h with
  | plain h1 h2 h3 h4 => exact der_tag ht he (gives_octets h3 ht) h4
  | entry h2 h3 h4 => exact der_tag ht he (gives_octets h3 ht) h4
  | inst h1 h2 h3 h4 => exact der_tag ht he (gives_octets h3 ht) h4
  | alternative h1 h2 =>
    obtain ⟨alts, h2, _⟩ := h2
    rw [show E.cls f.spec = _ from h2] at ht; exact absurd ht id
  | any h1 => rw [h1] at ht; exact absurd ht id

/-! ### All kinds -/

theorem picked_value {E : Env} {U : ClassId → Prop} {f : Field} {d : ClassId} {o : Obj Bytes} {isBit : Bool} (h1 : E.cls f.spec = .parsable o isBit)
    (hp : PickOk E U f (.value d)) : U d ∧ pickedSpec E f (.value d) = f.spec ∧ pickedNested E f (.value d) = some d := by
  refine ⟨?_, by unfold pickedSpec; rw [h1], by unfold pickedNested; rw [h1]⟩
  unfold PickOk at hp
  simp only [h1] at hp
  exact hp.mem

/-- See `Makes`. -/
theorem gives_makes {E : Env} {U : ClassId → Prop} (hT : Types E U) (hM : Makable E U) {c : ClassId} {x : PyVal} {b : Piece} {n : PyVal}
    (h : Gives E U c x b n) : U c → Makes E c x b n := by
  refine Gives.rec (E := E) (U := U) (motive_1 := fun c x b n _ => U c → Makes E c x b n)
    (motive_2 := fun f pick x t n _ => Usable E U f.spec f.params → PickOk E U f pick → FieldMakes E f pick x t n)
    (motive_3 := fun oid d fs before b ns _ => ∀ c proto bad pre, U c → E.cls c = .seq proto bad false (pre ++ fs) oid → pre.length = before.length →
      ∃ bs vs us ws, bs.flatten = b ∧ FieldsMake E d oid fs before bs ns vs us ws)
    (motive_4 := fun d fs ts ns _ => ∀ c proto bad pre, U c → E.cls c = .seq proto bad true (pre ++ fs) none → ∀ before,
      ∃ bs vs us ws, FieldsMake E d none fs before bs ns vs us ws ∧ SlotsDump E fs us ts ws)
    (motive_5 := fun ch xs ps _ => Usable E U ch {} → ∃ us ws, ListMake E ch xs (ps.map Prod.fst) us ws)
    ?leaf ?null ?seq ?set ?list ?setOf ?choice ?choiceInst ?string ?plain ?entry ?inst ?alternative ?payload ?payloadInst ?payloadLoaded ?octets ?any ?fnil ?given ?other ?same ?default ?absent ?snil ?sgiven
    ?lnil ?lplain ?linst ?lalternative h
  case leaf => intro c x s b proto bad h1 h2 h3 h4 hU; exact makes_leaf hT hU h1 h2 h3 h4
  case null => intro c o bad h1 h2 hU; exact makes_null hT hU h1 h2
  case seq =>
    intro c d b ns proto bad fields oid h1 h2 h3 h4 ih hU
    obtain ⟨bs, vs, us, ws, rfl, hf⟩ := ih c proto bad [] hU h1 rfl
    have hok := ((hT.seq c proto bad false fields oid hU h1).2.2.1 rfl).2
    refine makes_seq hT hU h1 ((hM.empty c hU).1 _ _ _ _ _ h1) ?_ hf h3 h4 ?_
    · intro p hp f hfp
      subst hp
      obtain ⟨_, f0, g1, g2, g3⟩ := hM.pair c proto bad false fields p hU h1
      rw [hfp] at g1
      injection g1 with g1
      subst g1
      have hlt := (hok p rfl).before
      refine ⟨by omega, g2, fun k hk => ?_⟩
      · obtain ⟨j1, j2, k1, _, proto', bad', fs, o, g, k2, k3, k4, k5⟩ := g3 k hk
        exact ⟨⟨j1, j2⟩, k1, proto', bad', fs, o, g, k2, k3, k4, k5⟩
    · intro i f hi hd p hp heq
      subst hp
      have := (hM.pair c proto bad false fields p hU h1).1 f (by rw [heq]; exact hi)
      rw [this] at hd; cases hd
  case set =>
    intro c d ts ns proto bad fields h1 h2 h3 h4 ih hU
    obtain ⟨bs, vs, us, ws, hf, hs⟩ := ih c proto bad [] hU h1 []
    exact makes_set hT hU h1 ((hM.empty c hU).1 _ _ _ _ _ h1) hf hs h3 h4
  case list =>
    intro c ch xs ps proto bad h1 h2 ih hU
    obtain ⟨us, ws, hl⟩ := ih ((hT.seqOf c proto bad false (some ch) hU h1).2 ch rfl)
    exact makes_list hT hU h1 ((hM.empty c hU).2 _ _ _ _ h1) hl rfl
  case setOf =>
    intro c ch xs ps qs proto bad h1 h2 h3 ih hU
    obtain ⟨us, ws, hl⟩ := ih ((hT.seqOf c proto bad true (some ch) hU h1).2 ch rfl)
    exact makes_list hT hU h1 ((hM.empty c hU).2 _ _ _ _ h1) hl (sorted_joined h3)
  case choice =>
    intro c name k f x b t n alts h1 h2 h3 h4 h5 h6 h7 h8 ih hU
    exact makes_choice hT hU h1 h2 h3 h4 h5 h6 (ih h5) h8
  case choiceInst =>
    intro c name k f x v b t n alts h1 h2 h3 h4 h5 h6 h7 h8 ih hU
    exact makes_choice_inst hT hU h1 h2 h3 h4 h5 h6 (ih h5) h8
  case string => intro c b o isBit h1 hU; exact makes_string hT hU h1
  case plain =>
    intro f pick x b t n h1 h2 h3 h4 ih hu hp
    exact field_plain hT h1 h2 (ih (picked_usable hu hp).mem) h4 hu hp
  case entry =>
    intro f pick name x b t n h2 h3 h4 ih hu hp
    exact field_entry hT h2 (ih (picked_usable hu hp).mem) h4 hu hp
  case inst =>
    intro f pick x v b t n h1 h2 h3 h4 ih hu hp
    exact field_inst hT h1 h2 (ih (picked_usable hu hp).mem) h4 hu hp
  case alternative =>
    intro f g pick x v b t u n h1 h2 h3 h4 h5 h6 h7 ih hu hp
    exact field_alternative hT h1 h2 h4 (ih h3) h6 h7 hu hp
  case payload =>
    intro f d x b w t u n o isBit h1 h2 h3 h4 h5 h6 h7 h8 h9 ih hu hp
    have hUd : U d := by
      unfold PickOk at hp
      simp only [h1] at hp
      exact hp.mem
    exact field_payload hT h1 h2 h3 h4 (ih hUd) h6 h7 h8 h9 hu
  case payloadInst =>
    intro f d x v b w t u n o isBit h1 h2 h3 h4 h5 h6 h7 h8 h9 ih hu hp
    exact field_payload_inst hT h1 h2 h3 h4 (ih (picked_value h1 hp).1) h6 h7 h8 h9 hu
  case payloadLoaded =>
    intro f d v w t u n o isBit proto bad isSet fields oid h1 h2 h3 h4 h5 h7 h8 h9 hu hp
    exact field_payload_loaded hT (picked_value h1 hp).1 h1 h2 h3 h4 h5 h7 h8 h9 hu
  case octets =>
    intro f d v w t u n o isBit proto bad isSet fields oid h1 h2 h3 h4 h7 h8 h9 hu hp
    exact field_octets hT (picked_value h1 hp).1 h1 h2 h3 h4 h7 h8 h9 hu
  case any =>
    intro f d x s v b t proto bad h1 h2 h3 h4 h5 h6 h7 h8 h9 ih hu hp
    exact field_any h1 h2 h4 h6 (ih (hT.universal _ _ h3)) h8 h9 hu
  case fnil => intro oid d before c proto bad pre hU hc hl; exact ⟨[], [], [], [], rfl, .nil⟩
  case given =>
    intro oid d f fs before pick x t b n ns h1 h2 h3 h4 h5 ih1 ih2 c proto bad pre hU hc hl
    obtain ⟨_, k2, k3, _⟩ := hT.seq c proto bad false _ oid hU hc
    have hget : (pre ++ f :: fs)[before.length]? = some f := by
      rw [← hl, List.getElem?_append_right (Nat.le_refl _), Nat.sub_self]; rfl
    obtain ⟨v, nv, w, cs, m1, m2, m3, m4⟩ := ih1 (k2 f (by simp)) (decides_ok (k3 rfl).2 hget h2)
    obtain ⟨bs, vs, us, ws, rfl, hf⟩ := ih2 c proto bad (pre ++ [f]) hU (by simpa using hc) (by simp [hl])
    exact ⟨t.bytes :: bs, .void :: vs, nv :: us, w :: ws, rfl, .cons (.inl ⟨h4, rfl⟩) (.set h1 h2 m1 m2 (seat_given h4 h2 m3 m4)) hf⟩
  case other =>
    intro oid d f fs before x y e t td b n m ns h1 h2 h3 h4 h5 h6 h7 h8 h9 ih1 ih2 ih3 c proto bad pre hU hc hl
    obtain ⟨_, k2, k3, _⟩ := hT.seq c proto bad false _ oid hU hc
    have hget : (pre ++ f :: fs)[before.length]? = some f := by
      rw [← hl, List.getElem?_append_right (Nat.le_refl _), Nat.sub_self]; rfl
    have hfree : Free oid before.length := by
      intro p hp heq
      subst hp
      have := (hM.pair c proto bad false _ p hU hc).1 f (by rw [heq]; exact hget)
      rw [this] at h3; cases h3
    have hu := k2 f (by simp)
    obtain ⟨v, nv, w, cs, m1, m2, m3, m4⟩ := ih1 hu trivial
    obtain ⟨dv, v1, _, _, _, _, _, d1, d2, d3, _, _, _⟩ := made_default hT hu h3 h4 h5 (ih2 hu.mem) h7
    obtain ⟨bs, vs, us, ws, rfl, hf⟩ := ih3 c proto bad (pre ++ [f]) hU (by simpa using hc) (by simp [hl])
    exact ⟨t.bytes :: bs, v1 :: vs, nv :: us, w :: ws, rfl, .cons (.inr ⟨by rw [h3]; rfl, d3⟩)
      (.set h1 (decides_free hfree) m1 m2 (seat_default h3 m3 d1 d2 (by rw [if_neg h8]))) hf⟩
  case same =>
    intro oid d f fs before x y e t b n ns h1 h2 h3 h4 h5 h6 h7 h8 h9 ih1 ih2 ih3 c proto bad pre hU hc hl
    obtain ⟨_, k2, k3, _⟩ := hT.seq c proto bad false _ oid hU hc
    have hget : (pre ++ f :: fs)[before.length]? = some f := by
      rw [← hl, List.getElem?_append_right (Nat.le_refl _), Nat.sub_self]; rfl
    have hfree : Free oid before.length := by
      intro p hp heq
      subst hp
      have := (hM.pair c proto bad false _ p hU hc).1 f (by rw [heq]; exact hget)
      rw [this] at h3; cases h3
    have hu := k2 f (by simp)
    obtain ⟨v, nv, w, cs, m1, m2, m3, m4⟩ := ih1 hu trivial
    obtain ⟨dv, v1, _, _, _, _, _, d1, d2, d3, _, _, _⟩ := made_default hT hu h3 h4 h5 (ih2 hu.mem) h7
    obtain ⟨bs, vs, us, ws, rfl, hf⟩ := ih3 c proto bad (pre ++ [f]) hU (by simpa using hc) (by simp [hl])
    exact ⟨[] :: bs, v1 :: vs, nv :: us, w :: ws, rfl, .cons (.inr ⟨by rw [h3]; rfl, d3⟩)
      (.set h1 (decides_free hfree) m1 m2 (seat_default h3 m3 d1 d2 (by rw [if_pos rfl]))) hf⟩
  case default =>
    intro oid d f fs before y e t b n ns h1 h3 h4 h5 h6 h7 h8 h9 ih2 ih3 c proto bad pre hU hc hl
    obtain ⟨_, k2, k3, _⟩ := hT.seq c proto bad false _ oid hU hc
    have hget : (pre ++ f :: fs)[before.length]? = some f := by
      rw [← hl, List.getElem?_append_right (Nat.le_refl _), Nat.sub_self]; rfl
    have hfree : Free oid before.length := by
      intro p hp heq
      subst hp
      have := (hM.pair c proto bad false _ p hU hc).1 f (by rw [heq]; exact hget)
      rw [this] at h3; cases h3
    have hu := k2 f (by simp)
    obtain ⟨dv, v1, nv, _, w1, w, cs, d1, d2, d3, d4, d5, d6⟩ := made_default hT hu h3 h4 h5 (ih2 hu.mem) h7
    obtain ⟨bs, vs, us, ws, rfl, hf⟩ := ih3 c proto bad (pre ++ [f]) hU (by simpa using hc) (by simp [hl])
    cases hv : valueOf d f.name with
    | none =>
      exact ⟨[] :: bs, v1 :: vs, v1 :: us, w1 :: ws, rfl, .cons (.inr ⟨by rw [h3]; rfl, d3⟩)
        (.keep hv (seat_default h3 d5 d1 d2 (by rw [if_pos rfl]))) hf⟩
    | some x =>
      have := h1 x hv
      subst this
      exact ⟨[] :: bs, v1 :: vs, nv :: us, w :: ws, rfl, .cons (.inr ⟨by rw [h3]; rfl, d3⟩)
        (.set hv (decides_free hfree) d3 d4 (seat_default h3 d6 d1 d2 (by rw [if_pos rfl]))) hf⟩
  case absent =>
    intro oid d f fs before b ns h1 h2 h3 h4 ih c proto bad pre hU hc hl
    obtain ⟨_, k2, k3, _⟩ := hT.seq c proto bad false _ oid hU hc
    have hget : (pre ++ f :: fs)[before.length]? = some f := by
      rw [← hl, List.getElem?_append_right (Nat.le_refl _), Nat.sub_self]; rfl
    obtain ⟨bs, vs, us, ws, rfl, hf⟩ := ih c proto bad (pre ++ [f]) hU (by simpa using hc) (by simp [hl])
    cases hv : valueOf d f.name with
    | none => exact ⟨[] :: bs, .void :: vs, .void :: us, .void :: ws, rfl, .cons (.inl ⟨h3, rfl⟩) (.keep hv (seat_void h3 h2)) hf⟩
    | some x =>
      have := h1 x hv
      subst this
      obtain ⟨pick, hp⟩ := decides_some (k3 rfl).2 hget (by unfold Field.skippable; simp [h2])
      refine ⟨[] :: bs, .void :: vs, .void :: us, .void :: ws, rfl, .cons (.inl ⟨h3, rfl⟩)
        (.set (v0 := .void) (cs := []) hv hp (Ev.of (fun j => ?_)) (Ev.up (Ev.of (fun j => ?_))) (seat_void h3 h2)) hf⟩
      · unfold makeValue; rw [h2]
      · show (ops E (j + 1)).contents .void = _
        rw [ops_contents]; rfl
  case snil => intro d c proto bad pre hU hc before; exact ⟨[], [], [], [], .nil, .nil⟩
  case sgiven =>
    intro d f fs x t ts n ns h1 h2 h3 h4 ih1 ih2 c proto bad pre hU hc before
    obtain ⟨_, k2, k3, _⟩ := hT.seq c proto bad true _ none hU hc
    obtain ⟨hs1, hs2⟩ := hM.set c proto bad _ none hU hc f (by simp)
    obtain ⟨v, nv, w, cs, m1, m2, m3, m4⟩ := ih1 (k2 f (by simp)) trivial
    obtain ⟨bs, vs, us, ws, hf, hs⟩ := ih2 c proto bad (pre ++ [f]) hU (by simpa using hc) (before ++ [n])
    exact ⟨t.bytes :: bs, .void :: vs, nv :: us, w :: ws, .cons (.inl ⟨h3, rfl⟩) (.set (pick := .same) h1 rfl m1 m2 (seat_given (pick := .same) h3 rfl m3 m4)) hf,
      .cons h3 m3.dump (by rw [m3.tags hs1]; exact slot_tag h2 hs1 hs2) hs⟩
  case lnil => intro ch hu; exact ⟨[], [], .nil⟩
  case lplain =>
    intro ch x xs b t n ps h1 h2 h3 h4 ih1 ih2 hu
    obtain ⟨u, w, e1, e2, e3⟩ := element_plain h1 (ih1 hu.mem) h3
    obtain ⟨us, ws, hl⟩ := ih2 hu
    exact ⟨u :: us, w :: ws, .cons e1 e2 e3 hl⟩
  case linst =>
    intro ch x v xs b t n ps h1 h2 h3 h4 ih1 ih2 hu
    obtain ⟨w, e1, e2, e3⟩ := element_inst hT hu.mem h1 (ih1 hu.mem) h3
    obtain ⟨us, ws, hl⟩ := ih2 hu
    exact ⟨v :: us, w :: ws, .cons e1 e2 e3 hl⟩
  case lalternative =>
    intro ch g x v xs b t n ps h1 h2 h3 h4 h5 h6 ih1 ih2 hu
    obtain ⟨u, w, e1, e2, e3⟩ := element_alternative hT hu.mem h1 h3 (ih1 h2) h5
    obtain ⟨us, ws, hl⟩ := ih2 hu
    exact ⟨u :: us, w :: ws, .cons e1 e2 e3 hl⟩

end Asn1
