import Verif.Lemmas.LeafGood
import Verif.Spec.Tables

/-! # Checks of the name tables -/

namespace Asn1.Props
open Asn1 Spec

/-- A number for a text (texts with different numbers are different). -/
def code (s : Str) : Nat := s.foldl (fun a c => a * 1114112 + c.toNat) 1

/-- No number twice. -/
def distinctB : List Nat → Bool
  | [] => true
  | x :: xs => xs.all (fun y => !(Nat.beq x y)) && distinctB xs

theorem distinctB_sound : ∀ {l : List Nat}, distinctB l = true → l.Nodup
  | [], _ => List.nodup_nil
  | x :: xs, h => by
    rw [distinctB, Bool.and_eq_true, List.all_eq_true] at h
    refine List.nodup_cons.mpr ⟨fun hm => ?_, distinctB_sound h.2⟩
    have := h.1 x hm
    simp at this

/-- No text twice. -/
def textsB (l : List Str) : Bool := distinctB (l.map code)

theorem textsB_sound {l : List Str} (h : textsB l = true) : l.Nodup := List.Nodup.of_map _ (distinctB_sound h)

/-- The arcs of an OID in dotted form. -/
def arcsOf (s : Str) : List Nat := (pySplit '.' s).map (fun p => p.foldl (fun a c => a * 10 + (c.toNat - 48)) 0)

/-- The text is an OID in dotted form. -/
def dottedB (s : Str) : Bool := decide (OidValid (arcsOf s)) && dottedText (arcsOf s) == s

theorem dottedB_sound {s : Str} (h : dottedB s = true) : ∃ arcs, OidValid arcs ∧ dottedText arcs = s := by
  rw [dottedB, Bool.and_eq_true, decide_eq_true_eq, beq_iff_eq] at h
  exact ⟨_, h⟩

/-- The text is not an OID in dotted form. -/
def wordB (s : Str) : Bool := s.any (fun c => (digitVal c).isNone && c != '.')

theorem dotted_chars (arcs : List Nat) : ∀ c ∈ dottedText arcs, (digitVal c).isSome = true ∨ c = '.' := by
  have hj : ∀ (ps : List Nat), ∀ c ∈ pyJoin ['.'] (ps.map pyStrNat), (digitVal c).isSome = true ∨ c = '.' := by
    intro ps
    induction ps with
    | nil => simp [pyJoin]
    | cons x xs ih =>
      have hx : ∀ c ∈ pyStrNat x, (digitVal c).isSome = true := by
        intro c hc
        obtain ⟨d, hd, rfl⟩ := mem_pyStrNat x c hc
        rw [digitVal_digitChar hd]
        rfl
      intro c hc
      cases xs with
      | nil => exact .inl (hx c (by simpa [pyJoin] using hc))
      | cons y ys =>
        rw [List.map_cons, List.map_cons, pyJoin, List.mem_append, List.mem_append] at hc
        rcases hc with (hc | hc) | hc
        · exact .inl (hx c hc)
        · exact .inr (by simpa using hc)
        · exact ih c (by rw [List.map_cons]; exact hc)
  rw [dottedText_eq]
  exact hj arcs

theorem wordB_sound {s : Str} (h : wordB s = true) (arcs : List Nat) : dottedText arcs ≠ s := by
  rintro rfl
  obtain ⟨c, h1, h2⟩ := List.any_eq_true.mp h
  rw [Bool.and_eq_true] at h2
  rcases dotted_chars arcs c h1 with h | h
  · cases hd : digitVal c <;> simp [hd] at h h2
  · simp [h] at h2

/-- The tables of an OID class fit together: every entry is for an OID, no name is in dotted form, and what a name is set to has that name. -/
def oidTableB (k : OidClass) : Bool :=
  match k.map with
  | none => k.rev.isNone
  | some m => textsB (m.map Prod.fst) && m.all (fun e => dottedB e.1 && wordB e.2) && (k.bare || match k.rev with
    | none => textsB (m.map Prod.snd)
    | some r => r.all (fun e => wordB e.1) && m.all (fun e => match r.get e.2 with
      | none => false
      | some d => m.get d == some e.2))

/-- The table of numbers fits. -/
def intTableB (m : IntMap) : Bool := decide (m.map Prod.fst).Nodup && textsB (m.map (fun e => e.2.toList))

/-- The table of a class fits. -/
def leafTableB : Shape → Bool
  | .leaf (.oid k o) _ => o.dotted.isNone && oidTableB k
  | .leaf (.integer (some m) _) _ => intTableB m
  | .leaf (.enumerated (some m) _) _ => intTableB m
  | .leaf (.named m _) _ => decide (m.map Prod.fst).Nodup && textsB (m.map (fun e => e.2.toList))
  | _ => true

/-- No name of an OID class twice. -/
def oneNameB : Shape → Bool
  | .leaf (.oid k _) _ => textsB ((k.map.getD []).map Prod.snd)
  | _ => true

/-- The name is one of the class, or an OID without a name. -/
def keyB (s : Str) : LeafSt → Bool
  | .oid k _ => ((k.map.getD []).map Prod.snd).contains s || (dottedB s && !((k.map.getD []).map Prod.fst).contains s)
  | .integer m _ => ((m.getD []).map (fun e => e.2.toList)).contains s
  | .enumerated m _ => ((m.getD []).map (fun e => e.2.toList)).contains s
  | _ => false

/-- The class of the value that decides. -/
def deciding (E : Env) (fields : List Field) (p : OidPair) : Option ClassId := match fields[p.oid]?, p.sub with
  | some f, none => some f.spec
  | some f, some k => match E.cls f.spec with
    | .seq _ _ _ fs _ => (fs[k]?).map Field.spec
    | _ => none
  | none, _ => none

/-- All names in a table of classes can occur. -/
def specTableB (E : Env) (n : Nat) : Shape → Bool
  | .seq _ _ _ fields (some p) => match deciding E fields p with
    | some c => decide (c < n) && match E.cls c with
      | .leaf proto _ => p.specs.all (fun e => e.1 == "microsoft_csp_name".toList || keyB e.1 proto)
      | _ => false
    | none => false
  | _ => true

theorem deciding_sound {E : Env} {fields : List Field} {p : OidPair} {c : ClassId} (h : deciding E fields p = some c) {proto : LeafSt} {bad : List Nat}
    (hc : E.cls c = .leaf proto bad) : DecidedBy E fields p proto := by
  unfold deciding at h
  split at h
  · next f hf hs => injection h with h; subst h; exact .field hs hf hc
  · next f k hf hs =>
    split at h
    · next hseq =>
      obtain ⟨g, hg, rfl⟩ := Option.map_eq_some_iff.mp h
      exact .nested hs hf hseq hg hc
    · cases h
  · cases h

/-- What the check of an OID class means. -/
structure OidTable (k : OidClass) (m : StrMap) : Prop where
  map : k.map = some m
  keys : (m.map Prod.fst).Nodup
  valid : ∀ e ∈ m, ∃ arcs, OidValid arcs ∧ dottedText arcs = e.1
  words : ∀ e ∈ m, ∀ arcs, dottedText arcs ≠ e.2
  resolve : k.bare = false → ∀ e ∈ m, ∃ d, k.resolve e.2 = .ok d ∧ (d, e.2) ∈ m
  dotted : k.bare = false → ∀ arcs, k.resolve (dottedText arcs) = .ok (dottedText arcs)

theorem oidTableB_sound {k : OidClass} {m : StrMap} (h : oidTableB k = true) (hm : k.map = some m) : OidTable k m := by
  rw [oidTableB, hm] at h
  simp only [Bool.and_eq_true, List.all_eq_true, Bool.or_eq_true] at h
  obtain ⟨⟨h1, h2⟩, h3⟩ := h
  have hk := textsB_sound h1
  have hw : ∀ e ∈ m, ∀ arcs, dottedText arcs ≠ e.2 := fun e he => wordB_sound (h2 e he).2
  have hd : ∀ s ∈ m.map Prod.snd, s ∉ m.map Prod.fst := by
    intro s hs hc
    obtain ⟨e, e1, rfl⟩ := List.mem_map.mp hs
    obtain ⟨d, d1, d2⟩ := List.mem_map.mp hc
    obtain ⟨arcs, _, ha⟩ := dottedB_sound (h2 d d1).1
    exact hw e e1 arcs (ha.trans d2)
  refine ⟨hm, hk, fun e he => dottedB_sound (h2 e he).1, hw, fun hb => ?_, fun hb => ?_⟩
  all_goals
    rw [hb] at h3
    simp only [Bool.false_eq_true, false_or] at h3
    cases hr : k.rev with
    | none => ?_
    | some r => ?_
  · rw [hr] at h3
    have ok : ClassOk k m := ⟨hm, hk, textsB_sound h3, hd, fun r h => (by rw [hr] at h; cases h), hb⟩
    intro e he
    refine ⟨e.1, ?_, he⟩
    rw [resolve_eq ok, ((setup_rev ok).2 e.2 e.1).mpr he]
    rfl
  · rw [hr] at h3
    simp only [Bool.and_eq_true, List.all_eq_true] at h3
    intro e he
    have := h3.2 e he
    cases hg : r.get e.2 with
    | none => rw [hg] at this; cases this
    | some d =>
      rw [hg] at this
      refine ⟨d, ?_, (get_iff hk d e.2).mp (by simpa using this)⟩
      simp [OidClass.resolve, OidClass.setup, hm, hr, OidClass.lookup, hg, Except.map]
  · rw [hr] at h3
    have ok : ClassOk k m := ⟨hm, hk, textsB_sound h3, hd, fun r h => (by rw [hr] at h; cases h), hb⟩
    intro arcs
    rw [resolve_eq ok, setup_rev_none ok]
    · rfl
    · intro hc
      obtain ⟨e, e1, e2⟩ := List.mem_map.mp hc
      exact hw e e1 arcs e2.symm
  · rw [hr] at h3
    simp only [Bool.and_eq_true, List.all_eq_true] at h3
    intro arcs
    have hg : r.get (dottedText arcs) = none := get_none (fun hc => by
      obtain ⟨e, e1, e2⟩ := List.mem_map.mp hc
      exact wordB_sound (h3.1 e e1) arcs e2.symm)
    simp [OidClass.resolve, OidClass.setup, hm, hr, OidClass.lookup, hg, Except.map]

/-- Reading the contents octets of an OID gives its name, or the dotted form. -/
theorem oid_reads_of {k : OidClass} {o : OidObj} (hd : o.dotted = none) {arcs : List Nat} (hv : OidValid arcs) {c : Bytes} (hc : OidContents arcs c)
    (h2 : oidName k (oidName k (dottedText arcs)) = oidName k (dottedText arcs)) :
    Reads (.oid k o) false c (.str (oidName k (dottedText arcs))) := by
  refine ⟨fun o h => (by cases h), ?_⟩
  have h1 : (LeafSt.oid k { o with method := 0, contents := some c, indefinite := false, native := none }).native =
      .ok (.str (oidName k (dottedText arcs)), .oid k { o with method := 0, contents := some c, indefinite := false, native := some (oidName k (dottedText arcs)), dotted := some (dottedText arcs) }) := by
    simp only [LeafSt.native, Oid.native, Oid.dotted, hd, bind, Except.bind, pure, Except.pure]
    rw [dottedLoop_contents arcs hv c hc, ← dottedStr, ← dottedText_eq]
    rfl
  refine ⟨_, h1, ?_⟩
  rw [oid_native_cached rfl rfl, h2]

theorem mem_of_get {m : StrMap} {k v : Str} (h : m.get k = some v) : (k, v) ∈ m := by
  unfold StrMap.get at h
  obtain ⟨a, a3, a4⟩ := Option.map_eq_some_iff.mp h
  have a5 := List.find?_some a3
  have a6 := List.mem_of_find?_eq_some a3
  simp only [beq_iff_eq] at a5
  rw [← a5, ← a4]
  exact a6

theorem oid_reads_name {k : OidClass} {o : OidObj} (hd : o.dotted = none) {m : StrMap} (ht : OidTable k m) {arcs : List Nat} (hv : OidValid arcs) {c : Bytes}
    (hc : OidContents arcs c) : Reads (.oid k o) false c (.str (oidName k (dottedText arcs))) := by
  refine oid_reads_of hd hv hc ?_
  simp only [oidName, ht.map]
  cases hg : m.get (dottedText arcs) with
  | none => simp [hg]
  | some nm =>
    rw [Option.getD_some, get_none, Option.getD_none]
    intro hk
    obtain ⟨e, e1, e2⟩ := List.mem_map.mp hk
    obtain ⟨arcs', _, a2⟩ := ht.valid e e1
    exact ht.words _ (mem_of_get hg) arcs' (a2.trans e2)

theorem leaf_of_all {E : Env} {n i : Nat} {P : Nat → Shape → Bool} (h : (List.range n).all (fun i => P i (E.cls i)) = true) (hi : i < n) {s : Shape}
    (hs : E.cls i = s) : P i s = true := by
  rw [← hs]
  exact List.all_eq_true.mp h i (List.mem_range.mpr hi)

end Asn1.Props
