import Verif.Lemmas.Made
import Verif.Lemmas.EncLoad

/-! # Making the value of a field, continued: the different ways to give it -/

namespace Asn1
open Spec Props

/-- Assigning `x` to the field works; see `Put`. -/
def FieldMakes (E : Env) (f : Field) (pick : Pick) (x : PyVal) (t : TLV) (n : PyVal) : Prop :=
  ∃ v nv w cs, Ev (fun j => makeValue E (ops E j) (pick.fieldSpec f.spec) (pick.valueSpec f.spec) f.params x = .ok v) ∧
    Ev (fun j => assignedContents E (ops E j) v = .ok (some cs, nv)) ∧ Put E (pickedSpec E f pick) f.params nv t n w ∧
    (Untagged f.params → TellsSub E (pickedSpec E f pick) nv n)

theorem goodTags_plain : GoodTags {} := ⟨rfl, fun e h => (by cases h), fun e h => (by cases h), .inl rfl⟩

theorem picked_usable {E : Env} {U : ClassId → Prop} {f : Field} {pick : Pick} (hu : Usable E U f.spec f.params) (hp : PickOk E U f pick) :
    Usable E U (pickedSpec E f pick) f.params := by
  cases pick with
  | same => exact hu
  | field c => exact hp.1
  | value c =>
    unfold PickOk at hp
    unfold pickedSpec
    cases hc : E.cls f.spec with
    | any => rw [hc] at hp; exact hp
    | _ => exact hu

theorem makeValue_eq {E : Env} {r : Ops} {field c : ClassId} {p : Params} {x : PyVal} (h : x = .scalar .none → p.optional = false) :
    makeValue E r field c p x = (makeRaw E r field c p x).bind (fun v => fixTagging E r v p) := by
  unfold makeValue
  split
  · next h' => exact absurd (h rfl) (by rw [h']; decide)
  · rfl

theorem assigned_eq {E : Env} {r : Ops} {v : Val} (h : v.mark.1 ≠ 4) : assignedContents E r v = r.contents v := by
  cases v <;> first | rfl | exact absurd rfl h

theorem mark_shape {sh : Shape} (h : sh ≠ .any) : sh.mark ≠ 4 := by
  cases sh <;> simp [Shape.mark] at h ⊢

/-- What `makeRaw` does with a value for a class other than CHOICE. -/
theorem makeRaw_value {E : Env} {r : Ops} {field c : ClassId} {p : Params} {x : PyVal} (hx : ∀ v, x ≠ .asn1 v)
    (hc : ∀ e tagged alts, E.cls c ≠ .choice e tagged alts) (hf : field = c ∨ E.cls field = .any) :
    makeRaw E r field c p x = r.construct c p x := by
  unfold makeRaw
  split
  · next h => exact absurd h (hc _ _ _)
  · next h => exact absurd h (hc _ _ _)
  · next h => exact absurd h (hc _ _ _)
  · next h _ _ _ => exact absurd h (hc _ _ _)
  · exact absurd rfl (hx _)
  · by_cases h : field = c
    · simp only [h, decide_true]
    · rcases hf with hf | hf
      · exact absurd hf h
      · simp only [h, decide_false, hf]

theorem makeRaw_choice {E : Env} {r : Ops} {field c : ClassId} {p : Params} {name : String} {y : PyVal} {e tagged alts}
    (hc : E.cls c = .choice e tagged alts) : makeRaw E r field c p (.pair name y) = r.construct c {} (.pair name y) := by
  unfold makeRaw
  rw [hc]

theorem makeRaw_entry {E : Env} {r : Ops} {field c : ClassId} {p : Params} {name : String} {y : PyVal} {e tagged alts}
    (hc : E.cls c = .choice e tagged alts) : makeRaw E r field c p (.dict [(name, y)]) = r.construct c {} (.pair name y) := by
  unfold makeRaw
  rw [hc]

theorem makeRaw_given {E : Env} {r : Ops} {field c : ClassId} {p : Params} {v : Val} (hv : v.classOf = some c) (hf : field = c ∨ E.cls field = .any) :
    makeRaw E r field c p (.asn1 v) = .ok v := by
  have main : (if v.classOf = some field then if field ≠ c then (parseAs E r v (some c)).bind (fun x => Except.ok x.2) else Except.ok v
      else if v.classOf = some c then (match E.cls field with | .any => Except.ok v | _ => embedPayload r field p v) else
        match E.cls field, decide (field = c) with | .any, true => r.construct c p (.asn1 v) | _, _ => Except.error .typeError : Py Val) = .ok v := by
    by_cases h : field = c
    · rw [if_pos (by rw [hv, h]), if_neg (by simp [h])]
    · rw [if_neg (by rw [hv]; intro h'; injection h' with h'; exact h h'.symm), if_pos hv]
      rcases hf with hf | hf
      · exact absurd hf h
      · rw [hf]
  unfold makeRaw
  cases hc : E.cls c <;> simp only [] <;> first | exact main | rw [if_pos hv]

theorem picked_specs {E : Env} {f : Field} {pick : Pick} (h : pickedNested E f pick = none) :
    pick.valueSpec f.spec = pickedSpec E f pick ∧ (pick.fieldSpec f.spec = pickedSpec E f pick ∨ E.cls (pick.fieldSpec f.spec) = .any) := by
  cases pick with
  | same => exact ⟨rfl, .inl rfl⟩
  | field c => exact ⟨rfl, .inl rfl⟩
  | value c =>
    unfold pickedNested at h
    unfold pickedSpec
    show c = _ ∧ (f.spec = _ ∨ E.cls f.spec = .any)
    cases hc : E.cls f.spec <;> rw [hc] at h <;> first | exact ⟨rfl, .inr rfl⟩ | cases h

/-- From an instance to the field. -/
theorem field_from {E : Env} {U : ClassId → Prop} (hT : Types E U) {f : Field} {pick : Pick} {x : PyVal} {q : Params} {v : Val} {b : Piece} {t : TLV}
    {n : PyVal} (hu : Usable E U f.spec f.params) (hp : PickOk E U f pick) (hN : E.cls (pickedSpec E f pick) ≠ .any)
    (hx : x = .scalar .none → f.params.optional = false)
    (hr : Ev (fun j => makeRaw E (ops E j) (pick.fieldSpec f.spec) (pick.valueSpec f.spec) f.params x = .ok v)) (hv : Pending E v b)
    (hm : v.mark = ((E.cls (pickedSpec E f pick)).mark, some (pickedSpec E f pick))) (ht : v.tagging = tagsFor (E.cls (pickedSpec E f pick)) q)
    (htag : (∃ m cs, b = .octets m cs) → HasTag (E.cls (pickedSpec E f pick))) (hd : DerElement E (pickedSpec E f pick) f.params b t)
    (hl : TellsLeaf E (pickedSpec E f pick) v n) (hq : Untagged f.params → Untagged q)
    (hs : ∀ cs v', Ev (fun j => (ops E j).contents v = .ok (some cs, v')) → TellsSub E (pickedSpec E f pick) v' n) :
    FieldMakes E f pick x t n := by
  obtain ⟨v1, nv, w1, w, cs, k1, k2, k3, k4, k5, k6⟩ := made_field hT (picked_usable hu hp) hv hm ht htag hd hl hq hs
  refine ⟨v1, nv, w, cs, hr.map2 k1 (fun j h1 h2 => ?_), k2.mono (fun j hj => ?_), k5, k6⟩
  · rw [makeValue_eq hx, h1]
    exact h2
  · rw [assigned_eq (by rw [k3, hm]; exact mark_shape hN)]
    exact hj

theorem field_plain {E : Env} {U : ClassId → Prop} (hT : Types E U) {f : Field} {pick : Pick} {x : PyVal} {b : Piece} {t : TLV} {n : PyVal}
    (hx : x = .scalar .none → f.params.optional = false ∧ f.params.default = none) (hn : pickedNested E f pick = none)
    (hg : Makes E (pickedSpec E f pick) x b n) (hd : DerElement E (pickedSpec E f pick) f.params b t) (hu : Usable E U f.spec f.params)
    (hp : PickOk E U f pick) : FieldMakes E f pick x t n := by
  have hus := picked_usable hu hp
  obtain ⟨s1, s2⟩ := picked_specs hn
  by_cases hc : ∃ e tagged alts, E.cls (pickedSpec E f pick) = .choice e tagged alts
  · obtain ⟨name, y, rfl⟩ := hg.pair.mp hc
    obtain ⟨e, tagged, alts, hc⟩ := hc
    obtain ⟨v, m1, m2, m3, m4, m5, m6⟩ := hg.made {} goodTags_plain (fun _ => ⟨rfl, rfl⟩) (fun _ => rfl)
    refine field_from hT hu hp hg.notAny (fun h => (hx h).1) (m1.mono (fun j hj => ?_)) m2 m3 m4 hg.tag hd m5 (fun _ => ⟨rfl, rfl⟩) m6
    rw [s1, makeRaw_choice hc]; exact hj
  · obtain ⟨v, m1, m2, m3, m4, m5, m6⟩ := hg.made f.params hus.tags hus.untagged (fun h => (hx h).2)
    refine field_from hT hu hp hg.notAny (fun h => (hx h).1) (m1.mono (fun j hj => ?_)) m2 m3 m4 hg.tag hd m5 id m6
    rw [s1, makeRaw_value hg.plain (fun e tagged alts h => hc ⟨e, tagged, alts, h⟩) s2]; exact hj

theorem field_entry {E : Env} {U : ClassId → Prop} (hT : Types E U) {f : Field} {pick : Pick} {name : String} {x : PyVal} {b : Piece} {t : TLV} {n : PyVal}
    (hn : pickedNested E f pick = none)
    (hg : Makes E (pickedSpec E f pick) (.pair name x) b n) (hd : DerElement E (pickedSpec E f pick) f.params b t) (hu : Usable E U f.spec f.params)
    (hp : PickOk E U f pick) : FieldMakes E f pick (.dict [(name, x)]) t n := by
  obtain ⟨s1, s2⟩ := picked_specs hn
  obtain ⟨e, tagged, alts, hc⟩ := hg.pair.mpr ⟨name, x, rfl⟩
  obtain ⟨v, m1, m2, m3, m4, m5, m6⟩ := hg.made {} goodTags_plain (fun _ => ⟨rfl, rfl⟩) (fun _ => rfl)
  refine field_from hT hu hp hg.notAny (fun h => by cases h) (m1.mono (fun j hj => ?_)) m2 m3 m4 hg.tag hd m5 (fun _ => ⟨rfl, rfl⟩) m6
  rw [s1, makeRaw_entry hc]; exact hj

theorem field_inst {E : Env} {U : ClassId → Prop} (hT : Types E U) {f : Field} {pick : Pick} {x : PyVal} {v : Val} {b : Piece} {t : TLV} {n : PyVal}
    (hn : pickedNested E f pick = none) (hb : Built E (pickedSpec E f pick) x v)
    (hg : Makes E (pickedSpec E f pick) x b n) (hd : DerElement E (pickedSpec E f pick) f.params b t) (hu : Usable E U f.spec f.params)
    (hp : PickOk E U f pick) : FieldMakes E f pick (.asn1 v) t n := by
  obtain ⟨s1, s2⟩ := picked_specs hn
  obtain ⟨v', m1, m2, m3, m4, m5, m6⟩ := hg.made {} goodTags_plain (fun _ => ⟨rfl, rfl⟩) (fun _ => rfl)
  have : v = v' := Ev.unique hb m1
  subst this
  refine field_from hT hu hp hg.notAny (fun h => by cases h) (Ev.of (fun j => ?_)) m2 m3 m4 hg.tag hd m5 (fun _ => ⟨rfl, rfl⟩) m6
  rw [s1, makeRaw_given (by rw [classOf_mark, m3]) s2]

/-- An instance of an alternative is put into a CHOICE. -/
theorem wrapped_alternative {E : Env} {U : ClassId → Prop} (hT : Types E U) {c : ClassId} (hU : U c) {g : Field} {x : PyVal} {v : Val} {b : Piece} {u : TLV}
    {n : PyVal} (ha : OwnAlternative E c g) (hb : Built E g.spec x v) (hg : Makes E g.spec x b n) (hd : DerElement E g.spec g.params b u) :
    v.classOf ≠ some c ∧ ∃ k w, Ev (fun j => wrapChoice E (ops E j) c v = .ok (.choice c { cls := 0, method := 0, tag := 0, explicit := [] } (some k) (some w))) ∧
      Pending E (.choice c { cls := 0, method := 0, tag := 0, explicit := [] } (some k) (some w)) (.element u) := by
  obtain ⟨alts, hc, hm, ht, he, hi⟩ := ha
  obtain ⟨k, hk⟩ := List.mem_iff_getElem?.mp hm
  obtain ⟨_, _, hdt, hal⟩ := hT.choice _ _ _ _ hU hc
  obtain ⟨v', m1, m2, m3, m4, m5, m6⟩ := hg.made {} goodTags_plain (fun _ => ⟨rfl, rfl⟩) (fun _ => rfl)
  have : v = v' := Ev.unique hb m1
  subst this
  have hcl : v.classOf = some g.spec := by rw [classOf_mark, m3]
  refine ⟨?_, ?_⟩
  · rw [hcl]
    intro h
    injection h with h
    rw [h, hc] at ht
    exact ht
  obtain ⟨cs, nv, c1, c2, c3, c4, c5⟩ := m2.contents
  have htags : tagsFor (E.cls g.spec) g.params = tagsFor (E.cls g.spec) {} := by
    rcases shape_cases (E.cls g.spec) with ⟨_, _, _, h⟩ | ⟨_, _, h⟩ <;> simp only [h, effTag, he, hi]
  have hsh : Shown nv.tagging b u := by
    rw [c4, m4, ← htags]
    exact derElement_shown hg.tag hd
  have hown : explicitOf E g.spec g.params = [] := by
    obtain ⟨p1, p2⟩ := (hal g hm).1
    rcases p2 with p2 | p2
    · exact absurd he p2
    · unfold explicitOf
      rw [p1, he, p2.2]; rfl
  have hfind := find_alt (fun g hm => (hal g hm).1) hdt hk (.own hown ht hi)
  have htg : ∃ i es, nv.tagging = (some (E.cls g.spec).tagging.1, some (E.cls g.spec).tagging.2.1, i, es) := by
    rw [c4, m4]
    rcases shape_cases (E.cls g.spec) with ⟨_, _, _, h⟩ | ⟨h, _⟩
    · rw [h]
      exact ⟨_, _, rfl⟩
    · exact absurd ht h
  obtain ⟨i, es, htg⟩ := htg
  refine ⟨k, nv, c1.mono (fun j hj => ?_), .choice rfl c2 hsh⟩
  unfold wrapChoice
  simp only [hc, hj, htg, choiceValidate, List.getLast?_nil, bind, Except.bind]
  rw [hfind]

theorem field_alternative {E : Env} {U : ClassId → Prop} (hT : Types E U) {f g : Field} {pick : Pick} {x : PyVal} {v : Val} {b : Piece} {t u : TLV} {n : PyVal}
    (hn : pickedNested E f pick = none) (ha : OwnAlternative E (pickedSpec E f pick) g) (hb : Built E g.spec x v)
    (hg : Makes E g.spec x b n) (hd : DerElement E g.spec g.params b u) (hd' : DerElement E (pickedSpec E f pick) f.params (.element u) t)
    (hu : Usable E U f.spec f.params) (hp : PickOk E U f pick) : FieldMakes E f pick (.asn1 v) t n := by
  obtain ⟨s1, s2⟩ := picked_specs hn
  obtain ⟨hcl, k, w, h1, h2⟩ := wrapped_alternative hT (picked_usable hu hp).mem ha hb hg hd
  obtain ⟨alts, hc, _⟩ := ha
  refine field_from hT (q := {}) hu hp (by rw [hc]; simp) (fun h => by cases h) (h1.mono (fun j hj => ?_)) h2 (by rw [hc]; rfl) (by rw [hc]; rfl)
    (fun ⟨_, _, h⟩ => by cases h) hd' ?_ (fun _ => ⟨rfl, rfl⟩) ?_
  · rw [s1]
    unfold makeRaw
    simp only [hc, hcl, if_false, hj]
  · intro proto' bad' h
    rw [hc] at h; cases h
  · intro cs v' _ proto' bad' fs oid k g ns name m h
    rw [hc] at h; cases h

theorem putBytes_contents (isBit : Bool) (o : Obj Bytes) (b : Bytes) : (parsableSet isBit o b).contents = some (stringContents isBit b) := rfl

/-- A string with the right octets is put into the field. -/
theorem field_string {E : Env} {U : ClassId → Prop} (hT : Types E U) {f : Field} {d : ClassId} {x : PyVal} {t u : TLV} {n : PyVal} {bytes : Bytes}
    {o : Obj Bytes} {isBit : Bool} {e : Val} (hc : E.cls f.spec = .parsable o isBit) (hx : x = .scalar .none → f.params.optional = false)
    (hf : DerFramed (o.cls, o.tag) f.params t u) (hum : u.method = 0) (huc : u.contents = stringContents isBit bytes) (hu : Usable E U f.spec f.params)
    (hpe : Pending E e (.octets 0 (stringContents isBit bytes))) (hm : e.mark = (5, some f.spec)) {q : Params}
    (ht : e.tagging = tagsFor (E.cls f.spec) q) (hq : Untagged f.params → Untagged q)
    (hraw : Ev (fun j => makeRaw E (ops E j) f.spec d f.params x = .ok e)) : FieldMakes E f (.value d) x t n := by
  have hspec : pickedSpec E f (.value d) = f.spec := by unfold pickedSpec; rw [hc]
  obtain ⟨v1, nv, w1, w', cs, k1, k2, k3, k4, k5, k6⟩ := made_field hT (c := f.spec) (n := n) (t := t) hu hpe (by rw [hm, hc]; rfl) ht
    (fun _ => by rw [hc]; trivial) ⟨_, u, by rw [hc]; rfl, hf, hum, huc⟩ (fun proto bad h' => (by rw [hc] at h'; cases h')) hq
    (fun cs v'' _ proto bad fs oid k g ns name m h' => by rw [hc] at h'; cases h')
  refine ⟨v1, nv, w', cs, hraw.map2 k1 (fun j h1 h2 => ?_), k2.mono (fun j hj => ?_), by rw [hspec]; exact k5, by rw [hspec]; exact k6⟩
  · show makeValue E (ops E j) f.spec d f.params x = _
    rw [makeValue_eq hx, h1]
    exact h2
  · rw [assigned_eq (by rw [k3, hm]; show (5 : Nat) ≠ 4; decide)]
    exact hj

/-- The string around an instance. -/
theorem string_around {E : Env} {U : ClassId → Prop} (hT : Types E U) {f : Field} {o : Obj Bytes} {isBit : Bool} (hc : E.cls f.spec = .parsable o isBit)
    (hu : Usable E U f.spec f.params) {bytes : Bytes} {v v' : Val} (h1 : Ev (fun j => (ops E j).dump v false = .ok (bytes, v'))) (h2 : Rest v') :
    ∃ e, Pending E e (.octets 0 (stringContents isBit bytes)) ∧ e.mark = (5, some f.spec) ∧ e.tagging = tagsFor (E.cls f.spec) f.params ∧
      Ev (fun j => embedPayload (ops E j) f.spec f.params v = .ok e) := by
  have hB := hT.parsable f.spec o isBit hu.mem hc
  obtain ⟨i1, i2, i3, i4, i5, i6, i7⟩ := initTagging_fields o f.params hu.tags.keep
  refine ⟨.parsable f.spec (parsableSet isBit (initTagging o f.params.tags) bytes) (some v') v'.classOf, .payload rfl rfl rfl ?_ h2, rfl, ?_, ?_⟩
  · show (if (initTagging o f.params.tags).indefinite then 0 else (initTagging o f.params.tags).method) = 0
    rw [i6, i3, hB.indefinite, hB.method]; rfl
  · rw [hc]
    exact init_tags hB hu.tags
  · refine h1.map2 (Ev.up (P := fun j => (ops E j).construct f.spec f.params (.scalar (.bytes bytes)) =
      .ok (.parsable f.spec (parsableSet isBit (initTagging o f.params.tags) bytes) none none)) (Ev.of (fun j => ?_))) (fun j h1 h2 => ?_)
    · rw [ops_construct]
      unfold constructStep givenValue
      rw [hc]
    · simp only [embedPayload, h1, h2, bind, Except.bind]

theorem field_payload {E : Env} {U : ClassId → Prop} (hT : Types E U) {f : Field} {d : ClassId} {x : PyVal} {b : Piece} {w t u : TLV} {n : PyVal}
    {o : Obj Bytes} {isBit : Bool} (hc : E.cls f.spec = .parsable o isBit) (hnc : ∀ e tagged alts, E.cls d ≠ .choice e tagged alts) (hne : d ≠ f.spec)
    (hx : x = .scalar .none → f.params.optional = false) (hg : Makes E d x b n) (hw : DerElement E d {} b w)
    (hf : DerFramed (o.cls, o.tag) f.params t u) (hum : u.method = 0) (huc : u.contents = stringContents isBit w.bytes)
    (hu : Usable E U f.spec f.params) : FieldMakes E f (.value d) x t n := by
  obtain ⟨v, m1, m2, m3, m4, m5, m6⟩ := hg.made {} goodTags_plain (fun _ => ⟨rfl, rfl⟩) (fun _ => rfl)
  obtain ⟨v', d1, d2, d3, d4⟩ := m2.dump (t := w) (by rw [m4]; exact derElement_shown hg.tag hw)
  obtain ⟨e, e1, e2, e3, e4⟩ := string_around hT hc hu d1 d2
  refine field_string hT hc hx hf hum huc hu e1 e2 e3 id (m1.map2 e4 (fun j h1 h2 => ?_))
  unfold makeRaw
  split
  · next h => exact absurd h (hnc _ _ _)
  · next h => exact absurd h (hnc _ _ _)
  · next h => exact absurd h (hnc _ _ _)
  · next h _ _ _ => exact absurd h (hnc _ _ _)
  · exact absurd rfl (hg.plain _)
  · have : decide (f.spec = d) = false := by simp [Ne.symm hne]
    rw [this]
    simp only [hc, h1, bind, Except.bind, h2]

/-- An instance is put into the string of a field. -/
theorem makeRaw_held {E : Env} {r : Ops} {f : Field} {d : ClassId} {v : Val} {o : Obj Bytes} {isBit : Bool} (hc : E.cls f.spec = .parsable o isBit)
    (hnc : ∀ e tagged alts, E.cls d ≠ .choice e tagged alts) (hne : d ≠ f.spec) (hv : v.classOf = some d) :
    makeRaw E r f.spec d f.params (.asn1 v) = embedPayload r f.spec f.params v := by
  have h1 : v.classOf ≠ some f.spec := by rw [hv]; intro h; injection h with h; exact hne h
  unfold makeRaw
  cases hd : E.cls d with
  | choice e tagged alts => exact absurd hd (hnc e tagged alts)
  | _ => simp only [if_neg h1, if_pos hv, hc]

theorem field_payload_inst {E : Env} {U : ClassId → Prop} (hT : Types E U) {f : Field} {d : ClassId} {x : PyVal} {v : Val} {b : Piece} {w t u : TLV}
    {n : PyVal} {o : Obj Bytes} {isBit : Bool} (hc : E.cls f.spec = .parsable o isBit) (hnc : ∀ e tagged alts, E.cls d ≠ .choice e tagged alts)
    (hne : d ≠ f.spec) (hb : Built E d x v) (hg : Makes E d x b n) (hw : DerElement E d {} b w)
    (hf : DerFramed (o.cls, o.tag) f.params t u) (hum : u.method = 0) (huc : u.contents = stringContents isBit w.bytes)
    (hu : Usable E U f.spec f.params) : FieldMakes E f (.value d) (.asn1 v) t n := by
  obtain ⟨v', m1, m2, m3, m4, m5, m6⟩ := hg.made {} goodTags_plain (fun _ => ⟨rfl, rfl⟩) (fun _ => rfl)
  have : v = v' := Ev.unique hb m1
  subst this
  obtain ⟨v', d1, d2, d3, d4⟩ := m2.dump (t := w) (by rw [m4]; exact derElement_shown hg.tag hw)
  obtain ⟨e, e1, e2, e3, e4⟩ := string_around hT hc hu d1 d2
  exact field_string hT hc (fun h => by cases h) hf hum huc hu e1 e2 e3 id
    (e4.mono (fun j h => by rw [makeRaw_held hc hnc hne (by rw [classOf_mark, m3])]; exact h))

/-! ### Loaded instances -/

/-- The encoding of a SEQUENCE or SET without tagging is one element. -/
theorem enc_seq_plain {E : Env} {U : ClassId → Prop} {d : ClassId} {w : TLV} {n : PyVal} {proto : Obj Unit} {bad : List Nat} {isSet : Bool}
    {fields : List Field} {oid : Option OidPair} (hc : E.cls d = .seq proto bad isSet fields oid) (h : Enc E U (some d) none {} w n) :
    Ber 11 w ∧ (w.cls, w.tag) = (proto.cls, proto.tag) ∧ w.method = 1 := by
  have key : ∀ {u : TLV}, Framed (proto.cls, proto.tag) {} w u → u.method = 1 → Ber 11 w ∧ (w.cls, w.tag) = (proto.cls, proto.tag) ∧ w.method = 1 := by
    intro u h1 h2
    have h3 := h1.inside
    cases h3
    exact ⟨h1.ber, h1.ident, h2⟩
  cases h with
  | leaf h1 => rw [hc] at h1; cases h1
  | seq h1 _ h2 h3 => rw [hc] at h1; cases h1; exact key h2 h3
  | openSeq h1 h2 h3 => rw [hc] at h1; cases h1; exact key h2 h3
  | set h1 h2 h3 => rw [hc] at h1; cases h1; exact key h2 h3
  | list h1 => rw [hc] at h1; cases h1
  | choice h1 => rw [hc] at h1; cases h1
  | any h1 => rw [hc] at h1; cases h1
  | string h1 => rw [hc] at h1; cases h1

/-- The instance loaded from such an element. -/
def loadedSeq (d : ClassId) (proto : Obj Unit) (w : TLV) : Val :=
  .node d { proto with header := some w.header, contents := some w.contents, trailer := w.trailer, native := none } none false

theorem initTagging_none {ν : Type} (o : Obj ν) : initTagging o ({} : Params).tags = o := by
  simp [initTagging, Params.tags]

theorem build_seq_plain {E : Env} {U : ClassId → Prop} (hT : Types E U) {d : ClassId} (hU : U d) {w : TLV} {proto : Obj Unit} {bad : List Nat} {isSet : Bool}
    {fields : List Field} {oid : Option OidPair} (hc : E.cls d = .seq proto bad isSet fields oid) (hid : (w.cls, w.tag) = (proto.cls, proto.tag))
    (hm : w.method = 1) (i : Info) (hi : i.tlv = w) (j : Nat) : (ops E (j + 1)).build i (some d) {} none = .ok (loadedSeq d proto w) := by
  obtain ⟨hbare, _⟩ := hT.seq _ _ _ _ _ _ hU hc
  subst hi
  injection hid with h1 h2
  have hb : buildObj false bad proto i =
      .ok { proto with header := some i.header, contents := some i.contents, trailer := i.trailer, native := none } := by
    have h1' : i.cls = proto.cls := h1
    have h2' : i.tag = proto.tag := h2
    have h3' : i.method = 1 := hm
    unfold buildObj
    rw [hbare.explicit]
    simp [buildBase, h1', h2', h3', hbare.method, bind, Except.bind, hbare.explicit]
  rw [ops_build]
  refine buildStep_plain ?_
  simp only [buildPlain, hc, bind, Except.bind, hbare.explicit, buildTags_nil, initTagging_none, hb, defaultCheck]
  simp [loadedSeq, Info.tlv, hbare.explicit]

theorem loaded_seq {E : Env} {U : ClassId → Prop} (hT : Types E U) {d : ClassId} (hU : U d) {w : TLV} {n : PyVal} {v : Val} {proto : Obj Unit}
    {bad : List Nat} {isSet : Bool} {fields : List Field} {oid : Option OidPair} (hc : E.cls d = .seq proto bad isSet fields oid)
    (h : Enc E U (some d) none {} w n) (hl : LoadedFrom E d w v) : v = loadedSeq d proto w := by
  obtain ⟨h1, h2, h3⟩ := enc_seq_plain hc h
  refine Ev.unique (f := fun j => loadVal E (ops E j) d {} w.bytes) hl (Ev.up (Ev.of (fun j => ?_)))
  obtain ⟨i, hi, hp⟩ := parse_front (rest := []) h1 false (fun h => by cases h)
  rw [List.append_nil] at hp
  simp only [loadVal, hp, bind, Except.bind, hc]
  exact build_seq_plain hT hU hc h2 h3 i hi j

theorem dump_loaded {E : Env} {d : ClassId} {w : TLV} {proto : Obj Unit} (h80 : w.header.getLast? ≠ some 0x80) :
    Ev (fun j => (ops E j).dump (loadedSeq d proto w) false = .ok (w.bytes, loadedSeq d proto w)) := by
  refine Ev.up (Ev.of (fun j => ?_))
  have h8 : headerEnds80 (some w.header) = false := by
    unfold headerEnds80
    cases hl : w.header.getLast? with
    | none => simp [hl]
    | some l =>
      simp only [hl]
      rw [hl] at h80
      simp only [ne_eq, Option.some.injEq] at h80
      simpa using h80
  have hr : checkRequired E d none = .ok () := by
    unfold checkRequired
    cases E.cls d <;> rfl
  rw [ops_dump]
  simp only [loadedSeq, dumpStep, nodeDump, h8, Bool.or_false, Bool.false_and, Bool.false_eq_true, if_false, hr, nodeContents, asn1Dump, bind, Except.bind]
  rfl

theorem field_payload_loaded {E : Env} {U : ClassId → Prop} (hT : Types E U) {f : Field} {d : ClassId} (hU : U d) {v : Val} {w t u : TLV}
    {n : PyVal} {o : Obj Bytes} {isBit : Bool} {proto : Obj Unit} {bad : List Nat} {isSet : Bool} {fields : List Field} {oid : Option OidPair}
    (hc : E.cls f.spec = .parsable o isBit) (hd : E.cls d = .seq proto bad isSet fields oid) (hl : LoadedFrom E d w v)
    (he : Enc E U (some d) none {} w n) (h80 : w.header.getLast? ≠ some 0x80)
    (hf : DerFramed (o.cls, o.tag) f.params t u) (hum : u.method = 0) (huc : u.contents = stringContents isBit w.bytes)
    (hu : Usable E U f.spec f.params) : FieldMakes E f (.value d) (.asn1 v) t n := by
  have := loaded_seq hT hU hd he hl
  subst this
  obtain ⟨e, e1, e2, e3, e4⟩ := string_around hT hc hu (dump_loaded (proto := proto) h80) (.node (b := w.contents) rfl rfl)
  exact field_string hT hc (fun h => by cases h) hf hum huc hu e1 e2 e3 id
    (e4.mono (fun j h => by rw [makeRaw_held hc (fun _ _ _ h => by rw [hd] at h; cases h) (by rintro rfl; rw [hd] at hc; cases hc) rfl]; exact h))

theorem field_octets {E : Env} {U : ClassId → Prop} (hT : Types E U) {f : Field} {d : ClassId} (hU : U d) {v : Val} {w t u : TLV}
    {n : PyVal} {o : Obj Bytes} {isBit : Bool} {proto : Obj Unit} {bad : List Nat} {isSet : Bool} {fields : List Field} {oid : Option OidPair}
    (hc : E.cls f.spec = .parsable o isBit) (hd : E.cls d = .seq proto bad isSet fields oid) (hb : Built E f.spec (.scalar (.bytes w.bytes)) v)
    (he : Enc E U (some d) none {} w n)
    (hf : DerFramed (o.cls, o.tag) f.params t u) (hum : u.method = 0) (huc : u.contents = stringContents isBit w.bytes)
    (hu : Usable E U f.spec f.params) : FieldMakes E f (.value d) (.asn1 v) t n := by
  obtain ⟨h1, h2, h3⟩ := enc_seq_plain hd he
  have hB := hT.parsable f.spec o isBit hu.mem hc
  have hv : v = .parsable f.spec (parsableSet isBit o w.bytes) none none := by
    refine Ev.unique (f := fun j => (ops E j).construct f.spec {} (.scalar (.bytes w.bytes))) hb (Ev.up (Ev.of (fun j => ?_)))
    rw [ops_construct]
    unfold constructStep givenValue
    rw [hc]
    simp only [initTagging_none]
  subst hv
  have hne : d ≠ f.spec := by rintro rfl; rw [hd] at hc; cases hc
  refine field_string hT hc (e := .parsable f.spec (parsableSet isBit o w.bytes) (some (loadedSeq d proto w)) (some d)) (q := {}) (fun h => by cases h)
    hf hum huc hu (.payload rfl rfl rfl ?_ (.node (b := w.contents) rfl rfl)) rfl ?_ (fun _ => ⟨rfl, rfl⟩) (Ev.up (Ev.of (fun j => ?_)))
  · show (if o.indefinite then 0 else o.method) = 0
    rw [hB.indefinite, hB.method]; rfl
  · rw [hc]
    have := init_tags (q := {}) hB goodTags_plain
    rw [initTagging_none] at this
    exact this
  · obtain ⟨i, hi, hp⟩ := parse_front (rest := []) h1 false (fun h => by cases h)
    rw [List.append_nil] at hp
    have hbd := build_seq_plain hT hU hd h2 h3 i hi j
    unfold makeRaw
    simp only [hd, Val.classOf, if_true]
    rw [if_pos (Ne.symm hne)]
    have hbytes : parsableBytes isBit o (parsableSet isBit o w.bytes) = .ok (w.bytes, parsableSet isBit o w.bytes) := rfl
    simp only [parseAs, parsableParse, parsableProto, hc, hbytes, parseBuild, hp, hbd, bind, Except.bind]

theorem field_any {E : Env} {U : ClassId → Prop} {f : Field} {d : ClassId} {x s : Scalar} {v : Val} {b : Bytes} {t : TLV} {proto : LeafSt}
    {bad : List Nat} (hc : E.cls f.spec = .any) (hpe : f.params.explicit = []) (hd : E.cls d = .leaf proto bad) (hb : Built E d (.scalar x) v)
    (hg : Makes E d (.scalar x) (.octets 0 b) (.scalar s)) (ht : DerElement E d {} (.octets 0 b) t) (h80 : t.header.getLast? ≠ some 0x80)
    (hu : Usable E U f.spec f.params) : FieldMakes E f .same (.asn1 v) t (.scalar s) := by
  have hnt : ¬ HasTag (E.cls f.spec) := by rw [hc]; exact id
  obtain ⟨hpi, hpd⟩ := hu.untagged hnt
  obtain ⟨v', m1, m2, m3, m4, m5, m6⟩ := hg.made {} goodTags_plain (fun _ => ⟨rfl, rfl⟩) (fun _ => rfl)
  have : v = v' := Ev.unique hb m1
  subst this
  obtain ⟨st, s', rfl, _, _⟩ := m5 proto bad hd
  -- the first time it is written
  have hsh := derElement_shown hg.tag ht
  rw [← m4] at hsh
  cases m2 with
  | @leaf _ _ _ h1 h2 h3 h4 =>
  obtain ⟨u, a1, a2, a3, a4, a5⟩ := hsh
  have hexp : st.base.explicit = [] := by
    have := congrArg (fun T => T.2.2.2) m4
    simp only [Val.tagging] at this
    rw [this, hd]; rfl
  have hexp' : (Val.leaf d st).tagging.2.2.2.reverse = [] := by show st.base.explicit.reverse = []; rw [hexp]; rfl
  rw [hexp'] at a5
  cases a5 with
  | nil hu' =>
  have htr : t.trailer = [] := by obtain ⟨_, _, _, _, _, h⟩ := hu'; exact h
  have hd0 := derHead_dumpHeader hu'
  have e1 : st.base.cls = t.cls := Option.some.inj a1
  have e2 : st.base.tag = t.tag := Option.some.inj a2
  have hdump : st.dump false = .ok (t.bytes, st.headed t.header) := by
    rw [LeafSt.dump_new h2 h3 h1, h4, e1, e2, ← a3, ← a4, hd0]
    simp only [Except.bind, hexp, wrapExplicit]
    rw [TLV.bytes, htr, List.append_nil]
  have hbase := LeafSt.base_headed t.header st
  have hagain : (st.headed t.header).dump false = .ok (t.bytes, st.headed t.header) := by
    rw [LeafSt.dump_kept (h := t.header) (c := b) (by rw [hbase]) ?_ (by rw [hbase]; exact h1), hbase]
    · rw [← a4]; simp [TLV.bytes, htr]
    · unfold headerEnds80
      cases hl : t.header.getLast? with
      | none => simp [hl]
      | some l =>
        simp only [hl]
        rw [hl] at h80
        simp only [ne_eq, Option.some.injEq] at h80
        simpa using h80
  let a : Val := .any f.spec { cls := 0, method := 0, tag := 0, explicit := [], contents := some t.bytes } (some (.leaf d (st.headed t.header))) (some d)
  have hcons : Ev (fun j => (ops E j).construct f.spec f.params (.asn1 (.leaf d st)) = .ok a) := by
    refine Ev.up (Ev.up (Ev.of (fun j => ?_)))
    rw [ops_construct]
    unfold constructStep
    simp only [hc, hpd, ops_dump, dumpStep, hdump, bind, Except.bind, hpe, ite_self]
    rfl
  have hne : d ≠ f.spec := by
    intro h
    rw [h, hc] at hd
    cases hd
  refine ⟨a, a, a, [], hcons.mono (fun j hj => ?_), Ev.of (fun j => rfl), ⟨Ev.up (Ev.up (Ev.of (fun j => ?_))), rfl, by simp [a], by simp [a], ?_, ?_⟩, ?_⟩
  · show makeValue E (ops E j) f.spec f.spec f.params _ = _
    rw [makeValue_eq (fun h => by cases h)]
    have : makeRaw E (ops E j) f.spec f.spec f.params (.asn1 (.leaf d st)) = .ok a := by
      unfold makeRaw
      rw [hc]
      simp only [Val.classOf]
      rw [if_neg (by intro h; injection h with h; exact hne h), if_neg (by intro h; injection h with h; exact hne h)]
      simp only [decide_true]
      exact hj
    rw [this]
    simp only [Except.bind, fixTagging, fixTags, a, Val.tagging, hpe, hpi]
    rfl
  · rw [ops_dump]
    simp only [dumpStep, a, ops_dump, hagain, bind, Except.bind]
  · intro h
    exact absurd h hnt
  · rintro ⟨proto', bad', h⟩
    simp only [pickedSpec, hc] at h
    cases h
  · intro _ proto' bad' fs oid k g ns name m h
    simp only [pickedSpec, hc] at h
    cases h

end Asn1
