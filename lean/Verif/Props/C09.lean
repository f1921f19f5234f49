import Verif.Lemmas.Oid

/-!
# C09 — OBJECT IDENTIFIER

The class is `ObjectIdentifier` itself (no name map); classes with a map are in C10.
`p` is any instance, with any tagging and any previous value. Arcs are natural numbers of any size.

Disagreements with the English property found while proving (all shown below by evaluation):
* one-arc strings and negative arcs are accepted instead of being refused (`C09_refusal_fails`);
* `.dotted` is cached and never invalidated by `set` (`C09_history_fails`).
-/

namespace Asn1.Props
open Asn1 Spec

/-- `ObjectIdentifier`: no name map. -/
def plainOid : OidClass := { map := none }

theorem set_plain (p : OidObj) (s : Str) (c : Bytes) (h : oidLoop 0 0 (pySplit '.' s) [] = (c, none)) :
    Oid.set plainOid p s = ({ p with native := some s, contents := some c, header := none, trailer := [] }, none) := by
  simp [Oid.set, plainOid, OidClass.resolve, OidClass.setup, h]

theorem oidLoop_enc (arcs : List Nat) (hv : OidValid arcs) :
    ∃ c, oidLoop 0 0 (pySplit '.' (dottedText arcs)) [] = (c, none) ∧ OidContents arcs c := by
  match arcs, hv with
  | a :: b :: rest, hv =>
    rw [dottedText_eq]
    exact ⟨_, oidLoop_valid a b rest hv, _, rfl, forall2_parts _⟩

/-- Valid OIDs are accepted on every instance and get the X.690 contents; `native` gives the text back. -/
theorem C09_encode (p : OidObj) (arcs : List Nat) (hv : OidValid arcs) :
    ∃ o c, Oid.set plainOid p (dottedText arcs) = (o, none) ∧ o.contents = some c ∧ OidContents arcs c ∧
      Oid.native plainOid o = .ok (some (dottedText arcs), o) := by
  obtain ⟨c, h1, h2⟩ := oidLoop_enc arcs hv
  exact ⟨_, c, set_plain p _ c h1, rfl, h2, rfl⟩

example : OidValid [1, 2, 840, 113549] ∧ dottedText [1, 2, 840, 113549] = "1.2.840.113549".toList := by decide

/-- The X.690 contents are unique, and different OIDs have different contents. -/
theorem C09_canonical (arcs arcs' : List Nat) (c c' : Bytes) (hv : OidValid arcs) (hv' : OidValid arcs')
    (h : OidContents arcs c) (h' : OidContents arcs' c') : c = c' ↔ arcs = arcs' := by
  constructor
  · rintro rfl
    have h1 := dottedLoop_contents arcs hv c h
    rw [dottedLoop_contents arcs' hv' c h'] at h1
    exact (map_pyStrNat_inj h1).symm
  · rintro rfl
    exact OidContents_unique h h'

/-- The contents are minimal: no subidentifier starts with a zero group. -/
theorem C09_minimal (arcs : List Nat) (c : Bytes) (h : OidContents arcs c) :
    ∃ chunks : List Bytes, c = chunks.flatten ∧ chunks.length = (oidSubs arcs).length ∧
      ∀ x ∈ chunks, x ≠ [] ∧ x.head? ≠ some 0x80 := by
  obtain ⟨chunks, rfl, hf⟩ := h
  refine ⟨chunks, rfl, hf.length_eq, ?_⟩
  generalize oidSubs arcs = subs at hf
  induction hf with
  | nil => simp
  | cons hv _ ih =>
    intro x hx
    rcases List.mem_cons.mp hx with rfl | hx
    · obtain ⟨init, last, rfl, _, _, h, _⟩ := hv
      exact ⟨by simp, h⟩
    · exact ih x hx

example : OidContents [1, 2, 840] [0x2a, 0x86, 0x48] := by
  refine ⟨[[0x2a], [0x86, 0x48]], rfl, ?_⟩
  refine .cons ⟨[], 0x2a, rfl, by simp, by decide, by decide, by decide⟩
    (.cons ⟨[0x86], 0x48, rfl, by decide, by decide, by decide, by decide⟩ .nil)

/-- Reading: an instance holding X.690 contents and no cached text reports the OID. -/
theorem C09_dotted (o : OidObj) (arcs : List Nat) (c : Bytes) (hv : OidValid arcs) (hc : o.contents = some c)
    (h : OidContents arcs c) (hd : o.dotted = none) :
    Oid.dotted o = .ok (dottedText arcs, { o with dotted := some (dottedText arcs) }) := by
  unfold Oid.dotted
  simp only [hd, hc]
  rw [dottedLoop_contents arcs hv c h, dottedText_eq]
  rfl

/-- Build, dump, load (any tagging): dotted and native agree before and after. -/
theorem C09_dump_load (p : Obj Str) (arcs : List Nat) (hv : OidValid arcs) (hp : Blank p) (o o1 : OidObj)
    (bytes : Bytes) (strict : Bool) (hs : Oid.set plainOid { toObj := p } (dottedText arcs) = (o, none))
    (hd : Oid.dump plainOid o = .ok (bytes, o1)) (hf : Fits bytes) :
    (∃ o', Oid.dotted o = .ok (dottedText arcs, o')) ∧
    ∃ o2 o3 o4, Oid.load p bytes strict = .ok o2 ∧ Oid.dotted o2 = .ok (dottedText arcs, o3) ∧
      Oid.native plainOid o2 = .ok (some (dottedText arcs), o4) ∧ o2.contents = o.contents := by
  obtain ⟨c, h1, h2⟩ := oidLoop_enc arcs hv
  rw [set_plain _ _ c h1] at hs
  simp only [Prod.mk.injEq, and_true] at hs
  subst hs
  refine ⟨⟨_, C09_dotted _ arcs c hv rfl h2 rfl⟩, ?_⟩
  unfold Oid.dump at hd
  rw [if_neg (by simp [headerEnds80])] at hd
  cases ha : asn1Dump false (p.put (dottedText arcs) c) with
  | error e => 
    have ha' : asn1Dump false ({ p with native := some (dottedText arcs), contents := some c, header := none, trailer := [] } : Obj Str) = .error e := ha
    rw [ha'] at hd; cases hd
  | ok r =>
    obtain ⟨b, o'⟩ := r
    have ha' : asn1Dump false ({ p with native := some (dottedText arcs), contents := some c, header := none, trailer := [] } : Obj Str) = .ok (b, o') := ha
    rw [ha'] at hd
    simp only [bind, Except.bind, pure, Except.pure, Except.ok.injEq, Prod.mk.injEq] at hd
    obtain ⟨rfl, rfl⟩ := hd
    obtain ⟨h, hb, hl⟩ := load_dump_put (bad := []) hp strict ha hf
    have hd2 := C09_dotted { toObj := p.loaded h c } arcs c hv rfl h2 rfl
    have hn : ∃ o4, Oid.native plainOid { toObj := p.loaded h c } = .ok (some (dottedText arcs), o4) := by
      unfold Oid.native
      simp only [show ({ toObj := p.loaded h c } : OidObj).contents = some c from rfl,
        show ({ toObj := p.loaded h c } : OidObj).native = none from rfl, hd2, plainOid, bind, Except.bind, pure, Except.pure]
      exact ⟨_, rfl⟩
    obtain ⟨o4, hn⟩ := hn
    refine ⟨{ toObj := p.loaded h c }, _, o4, ?_, hd2, hn, rfl⟩
    unfold Oid.load
    rw [hl]
    rfl

/-- Exact acceptance condition of `set`: every component is an integer literal, and if there are two or more the
first is at most 2 and, when it is below 2, the second is below 40. All other strings give `ValueError`. -/
theorem C09_accepts_iff (p : OidObj) (s : Str) :
    ((Oid.set plainOid p s).2 = none ∨ (Oid.set plainOid p s).2 = some .valueError) ∧
    ((Oid.set plainOid p s).2 = none ↔
      (∀ x ∈ pySplit '.' s, ∃ n, pyInt x = .ok n) ∧
      ∀ x y rest a b, pySplit '.' s = x :: y :: rest → pyInt x = .ok a → pyInt y = .ok b → a ≤ 2 ∧ (a < 2 → b < 40)) := by
  have he : (Oid.set plainOid p s).2 = (oidLoop 0 0 (pySplit '.' s) []).2 := by
    unfold Oid.set
    simp only [plainOid, OidClass.resolve, OidClass.setup]
    split <;> next h => rw [h]
  rw [he]
  constructor
  · cases h : oidLoop 0 0 (pySplit '.' s) [] with
    | mk c e =>
      cases e with
      | none => exact Or.inl rfl
      | some e => exact Or.inr (by rw [oidLoop_error _ _ _ _ _ _ h])
  · match hs : pySplit '.' s with
    | [] => exact absurd hs (pySplit_ne_nil '.' s)
    | [x] =>
      rw [oidLoop]
      cases hx : pyInt x with
      | error e => simp [hx]
      | ok a => simp [hx, oidLoop]
    | x :: y :: rest =>
      rw [oidLoop]
      cases hx : pyInt x with
      | error e => simp [hx]
      | ok a =>
        simp only [if_true]
        rw [oidLoop]
        cases hy : pyInt y with
        | error e => simp [hy]
        | ok b =>
          simp only [Nat.one_ne_zero, if_false, if_true]
          split
          · next h =>
            simp only [reduceCtorEq, false_iff]
            rintro ⟨_, h2⟩
            have := h2 x y rest a b rfl hx hy
            omega
          · next h =>
            split
            · next h' =>
              simp only [reduceCtorEq, false_iff]
              rintro ⟨_, h2⟩
              have := h2 x y rest a b rfl hx hy
              omega
            · next h' =>
              rw [oidLoop_ok_rest _ _ _ _ (by decide)]
              constructor
              · intro h3
                refine ⟨?_, ?_⟩
                · intro z hz
                  simp only [List.mem_cons] at hz
                  rcases hz with rfl | rfl | hz
                  · exact ⟨_, hx⟩
                  · exact ⟨_, hy⟩
                  · exact h3 z hz
                · intro x' y' r' a' b' heq hx' hy'
                  simp only [List.cons.injEq] at heq
                  obtain ⟨rfl, rfl, rfl⟩ := heq
                  rw [hx] at hx'; rw [hy] at hy'
                  injection hx' with hx'; injection hy' with hy'
                  subst hx'; subst hy'
                  omega
              · rintro ⟨h3, _⟩ z hz
                exact h3 z (by simp [hz])

/-- Refusal, for dotted strings of two or more non-negative arcs. Missing for the full property: one-arc strings and
negative arcs, which the code accepts (see `C09_refusal_fails`). -/
theorem C09_refused_partial (p : OidObj) (arcs : List Nat) (hl : 2 ≤ arcs.length) (hv : ¬ OidValid arcs) :
    (Oid.set plainOid p (dottedText arcs)).2 = some .valueError := by
  obtain ⟨h1, h2⟩ := C09_accepts_iff p (dottedText arcs)
  rcases h1 with h1 | h1
  · exfalso
    have h3 := (h2.mp h1).2
    match arcs, hl with
    | a :: b :: rest, _ =>
      rw [dottedText_eq, pySplit_dottedStr _ (by simp)] at h3
      have := h3 _ _ _ a b rfl (pyInt_pyStrNat a) (pyInt_pyStrNat b)
      apply hv
      simp only [OidValid]
      omega
  · exact h1

example : ¬ OidValid [3, 5, 7] ∧ ¬ OidValid [1, 40] ∧ OidValid [2, 999] := by decide

/-- The full refusal claim is false of the code: a single arc gives empty contents, and `0.-1` is encoded. -/
theorem C09_refusal_fails :
    Oid.set plainOid Oid.new "7".toList =
      ({ Oid.new with native := some "7".toList, contents := some [] }, none) ∧
    (Oid.set plainOid Oid.new "0.-1".toList).2 = none ∧
    (Oid.set plainOid Oid.new "0.-1".toList).1.contents = some [0x7f] := by decide +kernel

/-- Changing the value: `native` always reports the new value, whatever the history of the object; `dotted` does if it
had not been read before. Missing for the full property: objects whose `dotted` was already read
(see `C09_history_fails`). -/
theorem C09_history_partial (p o : OidObj) (arcs : List Nat) (hv : OidValid arcs)
    (hs : Oid.set plainOid p (dottedText arcs) = (o, none)) :
    Oid.native plainOid o = .ok (some (dottedText arcs), o) ∧
    (p.dotted = none → ∃ o', Oid.dotted o = .ok (dottedText arcs, o')) := by
  obtain ⟨c, h1, h2⟩ := oidLoop_enc arcs hv
  rw [set_plain _ _ c h1] at hs
  simp only [Prod.mk.injEq, and_true] at hs
  subst hs
  exact ⟨rfl, fun hd => ⟨_, C09_dotted _ arcs c hv rfl h2 hd⟩⟩

/-- The full history claim is false of the code: read `dotted`, set a new value, `dotted` is still the old one. -/
theorem C09_history_fails :
    ∃ o1 o2 o3, Oid.set plainOid Oid.new "1.2.3".toList = (o1, none) ∧ Oid.dotted o1 = .ok ("1.2.3".toList, o2) ∧
      Oid.set plainOid o2 "1.2.4".toList = (o3, none) ∧ o3.contents = some [0x2a, 4] ∧
      Oid.dotted o3 = .ok ("1.2.3".toList, o3) :=
  ⟨{ Oid.new with native := some "1.2.3".toList, contents := some [0x2a, 3] },
    { Oid.new with native := some "1.2.3".toList, contents := some [0x2a, 3], dotted := some "1.2.3".toList },
    { Oid.new with native := some "1.2.4".toList, contents := some [0x2a, 4], dotted := some "1.2.3".toList },
    by decide +kernel⟩

end Asn1.Props
