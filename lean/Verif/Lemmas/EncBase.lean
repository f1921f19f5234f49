import Verif.Lemmas.Read

/-! # Tags of encodings, and the fields they belong to -/

namespace Asn1
open Spec Props

theorem Spec.Bare.blank {ν : Type} {o : Obj ν} {m : Nat} (h : Bare o m) : BlankObj o m :=
  ⟨h.cls, h.method, h.implicit, h.explicit, h.header, h.trailer, h.indefinite⟩

theorem enc_ber {E : Env} {U : ClassId → Prop} {spec nested : Option ClassId} {p : Params} {t : TLV} {n : PyVal} (h : Enc E U spec nested p t n) : Ber 11 t := by
  cases h with
  | leaf _ h => exact h.ber
  | seq _ _ h => exact h.ber
  | openSeq _ h => exact h.ber
  | set _ h => exact h.ber
  | list _ h => exact h.ber
  | choice _ h => exact h
  | any _ h => exact h
  | string _ h => exact h.ber
  | payload _ h => exact h.ber
  | freeLeaf _ _ _ h => exact h
  | freeSeq _ _ _ _ h => exact h

theorem types_explicit {E : Env} {U : ClassId → Prop} (hU : Types E U) {c : ClassId} (hc : U c) : (E.cls c).tagging.2.2.2 = [] := by
  cases h : E.cls c with
  | leaf proto bad => exact (hU.leaf c _ _ hc h).explicit
  | seq proto bad isSet fields oid => exact (hU.seq c _ _ _ _ _ hc h).1.explicit
  | seqOf proto bad isSet ch => exact (hU.seqOf c _ _ _ _ hc h).1.explicit
  | choice e t alts => exact (hU.choice c _ _ _ hc h).1
  | any => rfl
  | parsable o b => exact (hU.parsable c _ _ hc h).explicit

theorem types_explicitOf {E : Env} {U : ClassId → Prop} (hU : Types E U) {c : ClassId} {p : Params} (hg : Usable E U c p) :
    explicitOf E c p = p.explicit := by
  unfold explicitOf
  rw [hg.tags.keep, types_explicit hU hg.mem]
  rfl

/-- Inside explicit tags. -/
theorem inside_outer {E : Env} {U : ClassId → Prop} (hU : Types E U) {c : ClassId} {p : Params} {t u : TLV} (hg : Usable E U c p)
    (he : p.explicit ≠ []) (h : Inside p.explicit.reverse t u) : OuterTag E c p (t.cls, t.tag) := by
  apply OuterTag.explicit
  rw [types_explicitOf hU hg]
  have : ∃ e es, p.explicit.reverse = e :: es := by
    cases hr : p.explicit.reverse with
    | nil => exact absurd (List.reverse_eq_nil_iff.mp hr) he
    | cons e es => exact ⟨e, es, rfl⟩
  obtain ⟨e, es, hr⟩ := this
  rw [hr] at h
  rw [List.getLast?_eq_head?_reverse, hr]
  rw [(inside_cons h).1]; rfl

theorem framed_begins {E : Env} {U : ClassId → Prop} (hU : Types E U) {c : ClassId} {p : Params} {t u : TLV} (hg : Usable E U c p)
    (ht : HasTag (E.cls c)) (hF : Framed ((E.cls c).tagging.1, (E.cls c).tagging.2.1) p t u) : OuterTag E c p (t.cls, t.tag) := by
  have hx := types_explicitOf hU hg
  by_cases he : p.explicit = []
  · obtain ⟨h1, h2, h3⟩ := hF
    rw [if_pos he] at h3
    rw [he, List.reverse_nil] at h2
    cases h2
    cases hi : p.implicit with
    | none =>
      rw [hi] at h3
      rw [h3]
      exact .own (hx.trans he) ht hi
    | some e =>
      rw [hi] at h3
      rw [h3]
      exact .implicit (hx.trans he) ht hi
  · exact inside_outer hU hg he hF.inside

/-- An encoding begins with a tag of its type. -/
theorem enc_begins {E : Env} {U : ClassId → Prop} (hU : Types E U) {c : ClassId} {nested : Option ClassId} {p : Params} {t : TLV} {n : PyVal}
    (hg : Usable E U c p) (h : Enc E U (some c) nested p t n) : Begins E c p (t.cls, t.tag) ∧ (PlainTag E ⟨"", c, p⟩ → OuterTag E c p (t.cls, t.tag)) := by
  have base : ∀ {c nested p n}, Usable E U c p → PlainTag E ⟨"", c, p⟩ ∨ HasTag (E.cls c) → Enc E U (some c) nested p t n → OuterTag E c p (t.cls, t.tag) := by
    intro c nested p n hg hpl h
    have plain : ¬ HasTag (E.cls c) → p.explicit ≠ [] := fun hn => by
      rcases hpl with hpl | hpl
      · exact hpl.2.resolve_right (fun h => hn h.1)
      · exact absurd hpl hn
    cases h with
    | leaf h1 h2 => exact framed_begins hU hg (by rw [h1]; trivial) (by rw [h1]; exact h2)
    | seq h1 _ h2 => exact framed_begins hU hg (by rw [h1]; trivial) (by rw [h1]; exact h2)
    | openSeq h1 h2 => exact framed_begins hU hg (by rw [h1]; trivial) (by rw [h1]; exact h2)
    | set h1 h2 => exact framed_begins hU hg (by rw [h1]; trivial) (by rw [h1]; exact h2)
    | list h1 h2 => exact framed_begins hU hg (by rw [h1]; trivial) (by rw [h1]; exact h2)
    | string h1 h2 => exact framed_begins hU hg (by rw [h1]; trivial) (by rw [h1]; exact h2)
    | payload h1 h2 => exact framed_begins hU hg (by rw [h1]; trivial) (by rw [h1]; exact h2)
    | choice h1 _ h2 => exact inside_outer hU hg (plain (by rw [h1]; exact fun h => h)) h2
    | any h1 _ h2 => exact inside_outer hU hg (plain (by rw [h1]; exact fun h => h)) h2
  refine ⟨?_, fun hp => base hg (.inl hp) h⟩
  by_cases ht : HasTag (E.cls c)
  · exact .inr (base hg (.inr ht) h)
  · by_cases he : p.explicit = []
    · cases h with
      | leaf h1 => rw [h1] at ht; exact absurd trivial ht
      | seq h1 => rw [h1] at ht; exact absurd trivial ht
      | openSeq h1 => rw [h1] at ht; exact absurd trivial ht
      | set h1 => rw [h1] at ht; exact absurd trivial ht
      | list h1 => rw [h1] at ht; exact absurd trivial ht
      | string h1 => rw [h1] at ht; exact absurd trivial ht
      | payload h1 => rw [h1] at ht; exact absurd trivial ht
      | any h1 => exact .inl h1
      | @choice _ _ _ u k n alts f h1 h2 h3 h4 hm' h5 h6 =>
        rw [he, List.reverse_nil] at h3
        cases h3
        have hm := List.mem_of_getElem? h4
        obtain ⟨_, _, _, hal⟩ := hU.choice _ _ _ _ hg.mem h1
        exact .inr (.alternative ((types_explicitOf hU hg).trans he) h1 hm (base ((hal f hm).2 hm') (.inl (hal f hm).1) h5))
    · exact .inr (base hg (.inl ⟨hg.tags.keep, .inl he⟩) h)

theorem usable_plainTag {E : Env} {U : ClassId → Prop} (hU : Types E U) {f : Field} (hg : Usable E U f.spec f.params)
    (h : HasTag (E.cls f.spec) ∨ f.params.explicit ≠ []) : PlainTag E f :=
  ⟨hg.tags.keep, h.elim (fun ht => .inr ⟨ht, types_explicit hU hg.mem⟩) .inl⟩

/-- Whether a field is taken as absent. -/
theorem fieldAbsent_begins {E : Env} {U : ClassId → Prop} (hU : Types E U) {f : Field} (hg : Usable E U f.spec f.params) (i : Info) :
    (Begins E f.spec f.params (i.cls, i.tag) → fieldAbsent E f i = .ok false) ∧
    (¬ Begins E f.spec f.params (i.cls, i.tag) → Field.skippable f = true → fieldAbsent E f i = .ok true) := by
  by_cases hany : E.cls f.spec = .any
  · refine ⟨fun _ => ?_, fun h => absurd (.inl hany) h⟩
    unfold fieldAbsent
    rw [hany]
    split <;> rfl
  have hB : Begins E f.spec f.params (i.cls, i.tag) ↔ OuterTag E f.spec f.params (i.cls, i.tag) :=
    ⟨fun h => h.resolve_left hany, .inr⟩
  rw [hB]
  by_cases ht : HasTag (E.cls f.spec) ∨ f.params.explicit ≠ []
  · have hi := fieldIdent_iff (usable_plainTag hU hg ht) (i.cls, i.tag)
    constructor
    · intro h
      unfold fieldAbsent
      rw [hi.mpr h]
      simp
    · intro h hs
      unfold fieldAbsent
      rw [if_pos]
      · cases hc : E.cls f.spec with
        | choice e tagged alts =>
          obtain ⟨rfl, rfl, hd, hal⟩ := hU.choice _ _ _ _ hg.mem hc
          obtain ⟨him, hdef⟩ := hg.untagged (by rw [hc]; exact fun h => h)
          have hex : f.params.explicit ≠ [] := ht.resolve_left (by rw [hc]; exact fun h => h)
          obtain ⟨e, he⟩ : ∃ e, f.params.explicit.getLast? = some e := ⟨_, List.getLast?_eq_getLast_of_ne_nil hex⟩
          have hne : e ≠ (i.cls, i.tag) := by
            rintro rfl
            exact h (.explicit (by rw [types_explicitOf hU hg]; exact he))
          simp only [hdef, him, Option.isSome_none, Bool.false_eq_true, if_false, choiceExplicit, hg.tags.keep, List.nil_append, choiceValidate, he,
            ne_eq, hne, not_false_eq_true, if_true, bind, Except.bind]
        | any => exact absurd hc hany
        | _ => rfl
      · rw [show (f.params.optional || f.params.default.isSome) = true from hs, Bool.true_and, bne_iff_ne]
        exact fun h' => h (hi.mp h')
  · obtain ⟨ht, he⟩ : ¬ HasTag (E.cls f.spec) ∧ f.params.explicit = [] := by
      constructor
      · exact fun h => ht (.inl h)
      · by_contra h; exact ht (.inr h)
    obtain ⟨him, hdef⟩ := hg.untagged ht
    cases hc : E.cls f.spec with
    | choice e tagged alts =>
      obtain ⟨rfl, rfl, hd, hal⟩ := hU.choice _ _ _ _ hg.mem hc
      have hid : fieldIdent E f = none := by
        unfold fieldIdent
        rw [he, him, hc]; rfl
      have hex : explicitOf E f.spec f.params = [] := (types_explicitOf hU hg).trans he
      have hv1 : ∀ x a, alts.zipIdx.reverse.find? (fun a => fieldIdent E a.1 == some (i.cls, i.tag)) = some a →
          choiceValidate E (choiceExplicit [] f.params) none alts i.cls i.tag x = .ok a.2 := by
        intro x a h
        simp only [choiceValidate, choiceExplicit, hg.tags.keep, he, List.append_nil, Bool.false_eq_true, if_false, List.getLast?_nil, bind,
          Except.bind, h]
      have hv2 : ∀ x, alts.zipIdx.reverse.find? (fun a => fieldIdent E a.1 == some (i.cls, i.tag)) = none →
          choiceValidate E (choiceExplicit [] f.params) none alts i.cls i.tag x = .error (choiceMismatch E alts) := by
        intro x h
        simp only [choiceValidate, choiceExplicit, hg.tags.keep, he, List.append_nil, Bool.false_eq_true, if_false, List.getLast?_nil, bind,
          Except.bind, h]
      have hp : ∀ g ∈ alts, PlainTag E g := fun g hm => (hal g hm).1
      constructor
      · generalize hid2 : (i.cls, i.tag) = id2 at hv1
        intro h
        have : ∃ (k : Nat) (g : Field), alts[k]? = some g ∧ OuterTag E g.spec g.params id2 := by
          cases h with
          | explicit h1 => rw [hex] at h1; cases h1
          | implicit _ h2 => exact absurd h2 ht
          | own _ h2 => exact absurd h2 ht
          | alternative _ h1 h2 h3 =>
            rw [hc] at h1
            cases h1
            obtain ⟨k, hk⟩ := List.getElem?_of_mem h2
            exact ⟨k, _, hk, h3⟩
        obtain ⟨k, g, hk, ho⟩ := this
        unfold fieldAbsent
        simp only [hc, hdef, him, Option.isSome_none, Bool.false_eq_true, if_false, hv1 _ _ (find_alt hp hd hk ho)]
        split <;> rfl
      · intro h hs
        have hno : ∀ g ∈ alts, ¬ OuterTag E g.spec g.params (i.cls, i.tag) := fun g hm ho => h (.alternative hex hc hm ho)
        unfold fieldAbsent
        rw [if_pos]
        · simp only [hc, hdef, him, Option.isSome_none, Bool.false_eq_true, if_false, hv2 _ (find_no_alt hp hno), mismatch_plain hp]
        · rw [show (f.params.optional || f.params.default.isSome) = true from hs, hid]
          rfl
    | any => exact absurd hc hany
    | _ => rw [hc] at ht; exact absurd trivial ht

/-! ### Fields -/

/-- The class that a child must have because a part of it decides about another field. -/
def mustAt (all : List Field) (oid : Option OidPair) (k : Nat) : Option ClassId :=
  match oid with
  | none => none
  | some p => if p.sub.isSome = true ∧ p.oid = k then (all[k]?).map Field.spec else none

/-- The decision about the class of the next field. -/
theorem override_ok {E : Env} {U : ClassId → Prop} {N j : Nat} (hj : N ≤ j) {q : Prop} {all : List Field} {oid : Option OidPair}
    (ho : ∀ p, oid = some p → OidOk E U all p) {before : List PyVal} {cs : List Child} (hk : KidList E N q all (mustAt all oid) cs before)
    (hall : before.length ≤ all.length) {pick : Pick} (hd : Decides oid before pick) :
    ∃ cs', oidOverride (ops E j) all oid cs.length cs = .ok (pick, cs') ∧ KidList E N q all (mustAt all oid) cs' before := by
  cases oid with
  | none =>
    cases hd
    exact ⟨cs, rfl, hk⟩
  | some p =>
    simp only [Decides] at hd
    simp only [oidOverride]
    rw [hk.1]
    by_cases hv : p.value = before.length
    · rw [if_pos hv] at hd ⊢
      obtain ⟨n, m, h1, h2, h3⟩ := hd
      have hlt : p.oid < before.length := hv ▸ (ho p rfl).before
      obtain ⟨ch, hch⟩ : ∃ ch, cs[p.oid]? = some ch := ⟨_, List.getElem?_eq_getElem (h := by rw [hk.1]; exact hlt)⟩
      obtain ⟨f, hf⟩ : ∃ f, all[p.oid]? = some f := ⟨_, List.getElem?_eq_getElem (h := Nat.lt_of_lt_of_le hlt hall)⟩
      have hkid := hk.2 _ _ _ hch h1
      rw [hch]
      cases hs : p.sub with
      | none =>
        rw [hs] at h2
        have h2 : m = n := h2
        subst h2
        obtain ⟨v, w, b1, b2, b3, b4, b5⟩ := hkid.read hj
        refine ⟨cs.set p.oid (.val w), ?_, hk.set (fun n' hn' => ?_)⟩
        · simp only [b1, bind, Except.bind, decisive, b2, h3]
        · rw [h1] at hn'
          cases hn'
          exact kid_val b3 b4 b5
      | some k =>
        rw [hs] at h2
        obtain ⟨ns, name, rfl, hns⟩ := h2
        have hmust : mustAt all (some p) p.oid = some f.spec := by
          simp [mustAt, hs, hf]
        obtain ⟨_, proto, bad, isSet, fs, oid', hcls, hquiet⟩ := (ho p rfl).sub k f hs hf
        obtain ⟨v, b1, b2, b3, b4⟩ := hkid.build hj (.inr (by rw [hmust]; exact fun h => by cases h))
        have hform : formOf v = .node f.spec := by
          rcases b4 f.spec hmust with h | h
          · exfalso
            obtain ⟨w, k1, _⟩ := (closed_readable E N).native b2 j hj
            cases v with
            | void =>
              cases j with
              | zero => cases k1
              | succ j => cases k1
            | _ => cases h
          · exact h
        obtain ⟨x, w, c1, c2, c3, c4⟩ := (closed_readable E N).field b2 hform hcls hquiet hns j hj
        obtain ⟨x', d1, _⟩ := (closed_readable E N).native c2 j hj
        refine ⟨cs.set p.oid (.val w), ?_, hk.set (fun n' hn' => ?_)⟩
        · simp only [b1, bind, Except.bind, decisive, c1, d1, h3]
        · rw [h1] at hn'
          cases hn'
          refine kid_val c3 (fun h => ?_) (fun c hc => ?_)
          · rw [c4, hform] at h; cases h
          · rw [c4, hform]
            rw [hmust] at hc
            cases hc
            exact .inr rfl
    · rw [if_neg hv] at hd ⊢
      subst hd
      exact ⟨cs, rfl, hk⟩

theorem decides_some {E : Env} {U : ClassId → Prop} {all : List Field} {oid : Option OidPair}
    (ho : ∀ p, oid = some p → OidOk E U all p) {before : List PyVal} {f : Field} (hf : all[before.length]? = some f)
    (hs : Field.skippable f = true) : ∃ pick, Decides oid before pick := by
  cases oid with
  | none => exact ⟨.same, rfl⟩
  | some p =>
    simp only [Decides]
    by_cases hv : p.value = before.length
    · simp only [if_pos hv]
      obtain ⟨h1, q, h2⟩ := ((ho p rfl).pick f (by rw [hv]; exact hf)).2.2 hs
      have hlt : p.oid < before.length := hv ▸ (ho p rfl).before
      obtain ⟨n, hn⟩ : ∃ n, before[p.oid]? = some n := ⟨_, List.getElem?_eq_getElem (h := hlt)⟩
      have : ∃ pick, p.choose n = .ok pick := by
        unfold OidPair.choose
        split
        · split
          · exact ⟨_, rfl⟩
          · exact ⟨q, h2⟩
        · exact ⟨q, h2⟩
      obtain ⟨pick, hp⟩ := this
      exact ⟨pick, n, n, hn, by rw [h1]; rfl, hp⟩
    · simp only [if_neg hv]
      exact ⟨.same, rfl⟩

theorem decides_ok {E : Env} {U : ClassId → Prop} {all : List Field} {oid : Option OidPair}
    (ho : ∀ p, oid = some p → OidOk E U all p) {before : List PyVal} {f : Field} (hf : all[before.length]? = some f)
    {pick : Pick} (hd : Decides oid before pick) : PickOk E U f pick := by
  cases oid with
  | none => cases hd; exact trivial
  | some p =>
    simp only [Decides] at hd
    by_cases hv : p.value = before.length
    · simp only [if_pos hv] at hd
      obtain ⟨n, m, h1, h2, h3⟩ := hd
      obtain ⟨g1, g2, _⟩ := (ho p rfl).pick f (by rw [hv]; exact hf)
      unfold OidPair.choose at h3
      split at h3
      · split at h3
        · next e he =>
          cases h3
          exact g1 _ (List.mem_of_find?_eq_some he)
        · exact g2 _ h3
      · exact g2 _ h3
    · simp only [if_neg hv] at hd
      subst hd
      exact trivial

end Asn1
