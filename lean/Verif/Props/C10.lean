import Verif.Lemmas.Oid
import Verif.Lemmas.Integer

/-!
# C10 — OID name maps

A class state is `_map` (a dict, keys distinct) together with `_reverse_map`, which is absent until first use.
`ClassOk c m` says: `c` has the map `m`, names in `m` are distinct, no name is also a key, and `_reverse_map`,
if already built, is the inverse of `m`. Freshly defined classes satisfy it (`C10_fresh`), and registering new
entries preserves it (`C10_register`), in either state of the lazily built reverse map.
-/

namespace Asn1.Props
open Asn1 Spec

structure ClassOk (c : OidClass) (m : StrMap) : Prop where
  map : c.map = some m
  keys : (m.map Prod.fst).Nodup
  names : (m.map Prod.snd).Nodup
  disjoint : ∀ s ∈ m.map Prod.snd, s ∉ m.map Prod.fst
  rev : ∀ r, c.rev = some r → ∀ name oid, r.get name = some oid ↔ (oid, name) ∈ m
  own : c.bare = false

theorem get_iff {m : StrMap} (hk : (m.map Prod.fst).Nodup) (k v : Str) : m.get k = some v ↔ (k, v) ∈ m := by
  unfold StrMap.get
  rw [Option.map_eq_some_iff]
  constructor
  · rintro ⟨a, h1, h2⟩
    have h3 := List.find?_some h1
    have h4 := List.mem_of_find?_eq_some h1
    obtain ⟨x, y⟩ := a
    simp only [beq_iff_eq] at h3 h2
    subst h3; subst h2
    exact h4
  · intro h
    exact ⟨_, find?_eq_of_nodup m hk h, rfl⟩

theorem get_none {m : StrMap} {k : Str} (h : k ∉ m.map Prod.fst) : m.get k = none := by
  unfold StrMap.get
  rw [Option.map_eq_none_iff, List.find?_eq_none]
  intro x hx
  simp only [beq_iff_eq]
  rintro rfl
  exact h (List.mem_map.mpr ⟨x, hx, rfl⟩)

theorem put_new {m : StrMap} {k v : Str} (h : k ∉ m.map Prod.fst) : m.put k v = m ++ [(k, v)] := by
  unfold StrMap.put
  rw [if_neg]
  simp only [List.any_eq_true, beq_iff_eq, not_exists, not_and]
  rintro x hx rfl
  exact h (List.mem_map.mpr ⟨x, hx, rfl⟩)

theorem reversed_go (m : StrMap) : ∀ acc : StrMap, (m.map Prod.snd).Nodup → (∀ s ∈ m.map Prod.snd, s ∉ acc.map Prod.fst) →
    m.foldl (fun r e => r.put e.2 e.1) acc = acc ++ m.map (fun e => (e.2, e.1)) := by
  induction m with
  | nil => intro acc _ _; simp
  | cons e es ih =>
    intro acc hn hd
    simp only [List.map_cons, List.nodup_cons] at hn
    rw [List.foldl_cons, put_new (hd e.2 (by simp)), ih _ hn.2]
    · simp
    · intro s hs
      simp only [List.map_append, List.map_cons, List.map_nil, List.mem_append, List.mem_singleton, not_or]
      exact ⟨hd s (by simp [hs]), by rintro rfl; exact hn.1 hs⟩

theorem reversed_eq {m : StrMap} (hn : (m.map Prod.snd).Nodup) : m.reversed = m.map (fun e => (e.2, e.1)) := by
  unfold StrMap.reversed
  rw [reversed_go m [] hn (by simp)]
  rfl

theorem reversed_get {m : StrMap} (hn : (m.map Prod.snd).Nodup) (name oid : Str) :
    m.reversed.get name = some oid ↔ (oid, name) ∈ m := by
  rw [reversed_eq hn, get_iff]
  · simp only [List.mem_map, Prod.mk.injEq]
    constructor
    · rintro ⟨⟨a, b⟩, h, rfl, rfl⟩; exact h
    · intro h; exact ⟨_, h, rfl, rfl⟩
  · rw [List.map_map]
    exact hn

/-- After `_setup` the reverse map is the inverse of the map. -/
theorem setup_rev {c : OidClass} {m : StrMap} (h : ClassOk c m) :
    c.setup.map = some m ∧ ∀ name oid, (c.setup.rev.getD []).get name = some oid ↔ (oid, name) ∈ m := by
  unfold OidClass.setup
  rw [h.map, h.own]
  cases hr : c.rev with
  | none =>
    exact ⟨rfl, fun name oid => reversed_get h.names name oid⟩
  | some r =>
    refine ⟨h.map, fun name oid => ?_⟩
    simp only [hr]
    exact h.rev r hr name oid

theorem setup_rev_none {c : OidClass} {m : StrMap} (h : ClassOk c m) {s : Str} (hs : s ∉ m.map Prod.snd) :
    (c.setup.rev.getD []).get s = none := by
  cases hg : (c.setup.rev.getD []).get s with
  | none => rfl
  | some oid =>
    have := ((setup_rev h).2 s oid).mp hg
    exact absurd (List.mem_map.mpr ⟨_, this, rfl⟩) hs

/-- The lookup in the reverse map always finds the dict. -/
theorem setup_lookup {c : OidClass} {m : StrMap} (h : ClassOk c m) (s : Str) :
    c.setup.lookup s = .ok ((c.setup.rev.getD []).get s) := by
  unfold OidClass.lookup OidClass.setup
  rw [h.map, h.own]
  cases hr : c.rev with
  | none => rfl
  | some r => simp only [hr]; rfl

theorem resolve_eq {c : OidClass} {m : StrMap} (h : ClassOk c m) (s : Str) :
    c.resolve s = .ok (((c.setup.rev.getD []).get s).getD s) := by
  unfold OidClass.resolve
  rw [(setup_rev h).1, setup_lookup h]
  rfl

theorem C10_fresh (m : StrMap) (hk : (m.map Prod.fst).Nodup) (hn : (m.map Prod.snd).Nodup)
    (hd : ∀ s ∈ m.map Prod.snd, s ∉ m.map Prod.fst) : ClassOk { map := some m } m :=
  ⟨rfl, hk, hn, hd, by simp, rfl⟩

/-- `_setup` (the lazy construction of the reverse map) preserves the invariant. -/
theorem C10_setup (c : OidClass) (m : StrMap) (h : ClassOk c m) : ClassOk c.setup m := by
  refine ⟨(setup_rev h).1, h.keys, h.names, h.disjoint, ?_, ?_⟩
  rotate_left
  · unfold OidClass.setup
    split <;> exact h.own
  intro r hr name oid
  have := (setup_rev h).2 name oid
  rw [hr] at this
  exact this

/-- `map` and `unmap` are mutually inverse on the entries. -/
theorem C10_inverse (c : OidClass) (m : StrMap) (h : ClassOk c m) (oid name : Str) (he : (oid, name) ∈ m) :
    c.mapOid oid = .ok name ∧ c.unmap name = .ok oid := by
  constructor
  · unfold OidClass.mapOid
    simp only [h.map, (get_iff h.keys oid name).mpr he]
    rfl
  · unfold OidClass.unmap
    rw [(setup_rev h).1, setup_lookup h, ((setup_rev h).2 name oid).mpr he]

/-- Unknown OIDs pass through `map`; strings that are not names are refused by `unmap` with `ValueError` unless they are
in dotted form, which passes through. -/
theorem C10_unknown (c : OidClass) (m : StrMap) (h : ClassOk c m) (s : Str) :
    (s ∉ m.map Prod.fst → c.mapOid s = .ok s) ∧
    (s ∉ m.map Prod.snd → c.unmap s = if oidRe s then .ok s else .error .valueError) := by
  constructor
  · intro hs
    unfold OidClass.mapOid
    simp only [h.map, get_none hs]
    rfl
  · intro hs
    unfold OidClass.unmap
    rw [(setup_rev h).1, setup_lookup h, setup_rev_none h hs]

/-- Every dotted text of natural numbers is in dotted form for `unmap`; text with a component that contains a
non-digit (e.g. a letter) is not. -/
theorem C10_dotted_form (arcs : List Nat) (hne : arcs ≠ []) : oidRe (dottedText arcs) = true := by
  rw [dottedText_eq]
  have hl : (dottedStr arcs).getLast? ≠ some '\n' := by
    intro hc
    have hm : '\n' ∈ dottedStr arcs := List.mem_of_getLast? hc
    have hj : ∀ (ps : List Nat), '\n' ∈ pyJoin ['.'] (ps.map pyStrNat) → False := by
      intro ps
      induction ps with
      | nil => simp [pyJoin]
      | cons x xs ih =>
        have hx : '\n' ∉ pyStrNat x := by
          intro hx
          obtain ⟨d, hd, he⟩ := mem_pyStrNat x _ hx
          have : ∀ d < 10, '\n' ≠ digitChar d := by decide
          exact this d hd he
        cases xs with
        | nil => simpa [pyJoin] using hx
        | cons y ys =>
          simp only [List.map_cons, pyJoin, List.mem_append, List.mem_singleton]
          rintro ((h | h) | h)
          · exact hx h
          · exact absurd h (by decide)
          · exact ih h
    exact hj arcs hm
  unfold oidRe
  simp only [hl, if_false]
  rw [pySplit_dottedStr arcs hne, List.all_eq_true]
  intro p hp
  obtain ⟨n, _, rfl⟩ := List.mem_map.mp hp
  simp only [Bool.and_eq_true, Bool.not_eq_true', List.all_eq_true]
  refine ⟨by simpa using pyStrNat_ne_nil n, ?_⟩
  intro ch hch
  obtain ⟨d, hd, rfl⟩ := mem_pyStrNat n ch hch
  rw [digitVal_digitChar hd]
  rfl

/-- Setting by name and setting by dotted OID give the same outcome and the same contents, and `native` is the name. -/
theorem C10_set (c : OidClass) (m : StrMap) (h : ClassOk c m) (oid name : Str) (he : (oid, name) ∈ m) (p o1 o2 : OidObj)
    (e1 e2 : Option PyErr) (h1 : Oid.set c p name = (o1, e1)) (h2 : Oid.set c p oid = (o2, e2)) :
    e1 = e2 ∧ o1.contents = o2.contents ∧
      (e1 = none → (∃ o', Oid.native c o1 = .ok (some name, o')) ∧ (∃ o', Oid.native c o2 = .ok (some name, o')) ∧
        (Oid.dump c o1).map Prod.fst = (Oid.dump c o2).map Prod.fst) := by
  have hk : oid ∈ m.map Prod.fst := List.mem_map.mpr ⟨_, he, rfl⟩
  have hnm : name ∈ m.map Prod.snd := List.mem_map.mpr ⟨_, he, rfl⟩
  have hon : oid ∉ m.map Prod.snd := fun hc => h.disjoint oid hc hk
  have hno : name ∉ m.map Prod.fst := h.disjoint name hnm
  unfold Oid.set at h1 h2
  rw [resolve_eq h] at h1 h2
  simp only [((setup_rev h).2 name oid).mpr he, setup_rev_none h hon, Option.getD_some, Option.getD_none] at h1 h2
  cases hl : oidLoop 0 0 (pySplit '.' oid) [] with
  | mk b e =>
    rw [hl] at h1 h2
    cases e with
    | some e =>
      simp only [Prod.mk.injEq] at h1 h2
      obtain ⟨rfl, rfl⟩ := h1
      obtain ⟨rfl, rfl⟩ := h2
      exact ⟨rfl, rfl, by simp⟩
    | none =>
      simp only [Prod.mk.injEq] at h1 h2
      obtain ⟨rfl, rfl⟩ := h1
      obtain ⟨rfl, rfl⟩ := h2
      refine ⟨rfl, rfl, fun _ => ⟨?_, ?_, ?_⟩⟩
      · simp only [Oid.native, h.map, get_none hno, bind, Except.bind, pure, Except.pure, Option.getD_none]
        exact ⟨_, rfl⟩
      · simp only [Oid.native, h.map, (get_iff h.keys oid name).mpr he, bind, Except.bind, pure, Except.pure, Option.getD_some]
        exact ⟨_, rfl⟩
      · unfold Oid.dump
        rw [if_neg (by simp [headerEnds80]), if_neg (by simp [headerEnds80])]
        simp only [asn1Dump, bind, Except.bind, pure, Except.pure, Bool.false_and, Bool.false_eq_true, if_false]
        cases dumpHeader p.cls p.method p.tag b with
        | error e => rfl
        | ok h0 =>
          simp only
          cases wrapExplicit p.explicit h0 b with
          | error e => rfl
          | ok h1 => rfl

/-- Loaded values: `native` is the mapped name of the dotted OID if there is one, else the dotted OID. -/
theorem C10_loaded (c : OidClass) (m : StrMap) (h : ClassOk c m) (o : OidObj) (arcs : List Nat) (b : Bytes)
    (hv : OidValid arcs) (hc : o.contents = some b) (hb : OidContents arcs b) (hn : o.native = none) (hd : o.dotted = none) :
    (∀ name, (dottedText arcs, name) ∈ m → ∃ o', Oid.native c o = .ok (some name, o')) ∧
    (dottedText arcs ∉ m.map Prod.fst → ∃ o', Oid.native c o = .ok (some (dottedText arcs), o')) := by
  have hdot : Oid.dotted o = .ok (dottedText arcs, { o with dotted := some (dottedText arcs) }) := by
    unfold Oid.dotted
    simp only [hd, hc]
    rw [dottedLoop_contents arcs hv b hb, dottedText_eq]
    rfl
  constructor
  · intro name he
    simp only [Oid.native, hc, hn, hdot, h.map, (get_iff h.keys _ name).mpr he, bind, Except.bind, pure, Except.pure]
    exact ⟨_, rfl⟩
  · intro hk
    simp only [Oid.native, hc, hn, hdot, h.map, get_none hk, bind, Except.bind, pure, Except.pure]
    exact ⟨_, rfl⟩

/-- Registering a new curve keeps the class consistent, whether or not the reverse map was already built. Together with
`C10_inverse` both directions then answer for the new and for all old entries. -/
theorem C10_register (c : OidClass) (m : StrMap) (h : ClassOk c m) (oid name : Str) (ho : oid ∉ m.map Prod.fst)
    (hn : name ∉ m.map Prod.snd) (hx : name ∉ m.map Prod.fst) (hy : oid ∉ m.map Prod.snd) (hne : name ≠ oid) :
    ClassOk (c.register name oid) (m ++ [(oid, name)]) := by
  refine ⟨?_, ?_, ?_, ?_, ?_, h.own⟩
  · simp [OidClass.register, h.map, put_new ho]
  · rw [List.map_append, List.nodup_append]
    refine ⟨h.keys, by simp, ?_⟩
    intro a ha b hb
    simp only [List.map_cons, List.map_nil, List.mem_singleton] at hb
    rintro rfl; subst hb; exact ho ha
  · rw [List.map_append, List.nodup_append]
    refine ⟨h.names, by simp, ?_⟩
    intro a ha b hb
    simp only [List.map_cons, List.map_nil, List.mem_singleton] at hb
    rintro rfl; subst hb; exact hn ha
  · intro s hs
    simp only [List.map_append, List.map_cons, List.map_nil, List.mem_append, List.mem_singleton] at hs ⊢
    rcases hs with hs | rfl
    · rintro (h' | rfl)
      · exact h.disjoint s hs h'
      · exact hy hs
    · rintro (h' | h')
      · exact hx h'
      · exact hne h'
  · intro r hr nm od
    simp only [OidClass.register, Option.map_eq_some_iff] at hr
    obtain ⟨r0, hr0, rfl⟩ := hr
    have hrev := h.rev r0 hr0
    have hnr : name ∉ r0.map Prod.fst := by
      intro hc
      obtain ⟨⟨a, b⟩, hab, rfl⟩ := List.mem_map.mp hc
      have : (StrMap.get r0 a).isSome := by
        unfold StrMap.get
        rw [Option.isSome_map, List.find?_isSome]
        exact ⟨_, hab, by simp⟩
      obtain ⟨v, hv⟩ := Option.isSome_iff_exists.mp this
      exact hn (List.mem_map.mpr ⟨_, (hrev a v).mp hv, rfl⟩)
    rw [put_new hnr]
    simp only [List.mem_append, List.mem_singleton, Prod.mk.injEq]
    by_cases hc : nm = name
    · subst hc
      have : StrMap.get (r0 ++ [(nm, oid)]) nm = some oid := by
        unfold StrMap.get
        rw [List.find?_append]
        have h0 : List.find? (fun e => e.1 == nm) r0 = none := by
          rw [List.find?_eq_none]
          intro x hx'
          simp only [beq_iff_eq]
          rintro rfl
          exact hnr (List.mem_map.mpr ⟨x, hx', rfl⟩)
        rw [h0]
        simp
      rw [this]
      constructor
      · intro h'; injection h' with h'; exact Or.inr ⟨h'.symm, rfl⟩
      · rintro (h' | ⟨rfl, _⟩)
        · exact absurd (List.mem_map.mpr ⟨_, h', rfl⟩) hn
        · rfl
    · have : StrMap.get (r0 ++ [(name, oid)]) nm = StrMap.get r0 nm := by
        unfold StrMap.get
        rw [List.find?_append]
        have : List.find? (fun e => e.1 == nm) [(name, oid)] = none := by
          rw [List.find?_cons_of_neg (by simpa using Ne.symm hc)]; rfl
        rw [this]
        simp
      rw [this, hrev nm od]
      constructor
      · exact Or.inl
      · rintro (h' | ⟨_, h'⟩)
        · exact h'
        · exact absurd h' hc

/-- A two-entry map, used lazily, then extended: the hypotheses are met and both directions answer. -/
example :
    let c : OidClass := { map := some [("1.2.840.10045.3.1.7".toList, "secp256r1".toList), ("1.3.132.0.34".toList, "secp384r1".toList)] }
    ClassOk c [("1.2.840.10045.3.1.7".toList, "secp256r1".toList), ("1.3.132.0.34".toList, "secp384r1".toList)] ∧
    c.setup.rev ≠ none ∧
    (c.setup.register "mine".toList "1.2.3.4".toList).unmap "mine".toList = .ok "1.2.3.4".toList ∧
    (c.register "mine".toList "1.2.3.4".toList).mapOid "1.2.3.4".toList = .ok "mine".toList ∧
    c.unmap "nope".toList = .error .valueError := by
  refine ⟨C10_fresh _ (by decide) (by decide) (by decide), by decide, by decide, by decide, by decide⟩

end Asn1.Props
