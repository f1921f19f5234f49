import Verif.Props.C82
import Verif.Model.Package

/-!
# C83 — RELATIVE-OID

`RelativeOid` (core.py:3316-3322) is `ObjectIdentifier` with the tag 13: it merges the first two arcs, which X.690 8.20 does not do.
-/

namespace Asn1.Props
open Asn1 Spec

/-- Contents octets of a RELATIVE-OID (X.690 8.20.2): every arc in base 128 without leading zero group. -/
def RelContents (arcs : List Nat) (contents : List UInt8) : Prop :=
  ∃ chunks : List (List UInt8), contents = chunks.flatten ∧ List.Forall₂ Vlq chunks arcs

/-- `RelativeOid()` -/
def newRelative : OidObj := { Oid.new with tag := 13 }

theorem subIds_chunks {chunks : List Bytes} {ns : List Nat} (h : List.Forall₂ Vlq chunks ns) : SubIds chunks.flatten ns := by
  induction h with
  | nil => exact .rest (by simp)
  | cons hv _ ih =>
    obtain ⟨init, last, rfl, hi, hl, _, rfl⟩ := hv
    rw [List.flatten_cons, List.append_assoc, List.singleton_append]
    exact .more hi hl ih

theorem subIds_unique {c : Bytes} {ns ms : List Nat} (h : SubIds c ns) (h' : SubIds c ms) : ns = ms := (C82_same h h').1 rfl

theorem dottedText_unique {a b : List Nat} (h : a ≠ []) (h' : b ≠ []) (e : dottedText a = dottedText b) : a = b := by
  rw [dottedText_eq, dottedText_eq] at e
  have e2 := congrArg (pySplit '.') e
  rw [pySplit_dottedStr a h, pySplit_dottedStr b h'] at e2
  exact map_pyStrNat_inj e2

theorem arcsOfSubs_length {ns : List Nat} (h : ns ≠ []) : (arcsOfSubs ns).length = ns.length + 1 := by
  cases ns with
  | nil => exact absurd rfl h
  | cons n ns =>
    unfold arcsOfSubs
    by_cases h1 : n < 40
    · simp [h1]
    · by_cases h2 : n < 80 <;> simp [h1, h2]

/-- **No RELATIVE-OID is read as its arcs**: the first arc is always read as two. -/
theorem C83_reads_fails {o : OidObj} {c : Bytes} {arcs : List Nat} (ho : Unread o c) (hn : arcs ≠ []) (hc : RelContents arcs c) :
    ∃ t o', Oid.dotted o = .ok (t, o') ∧ t = dottedText (arcsOfSubs arcs) ∧ t ≠ dottedText arcs := by
  obtain ⟨chunks, rfl, hf⟩ := hc
  have hs := subIds_chunks hf
  obtain ⟨ns, _, h2⟩ := C82_dotted ho
  obtain ⟨rfl, o', h3, _⟩ := h2 _ hs
  refine ⟨_, o', h3, rfl, fun e => ?_⟩
  have hl := arcsOfSubs_length hn
  rw [dottedText_unique (by intro h; rw [h] at hl; simp at hl) hn e] at hl
  omega

/-- **No RELATIVE-OID is written as X.690 says**: its text is refused with `ValueError`, or other contents are written. -/
theorem C83_writes_fails (p : OidObj) {arcs : List Nat} (hn : arcs ≠ []) :
    (Oid.set plainOid p (dottedText arcs)).2 = some .valueError ∨
    ∃ o c, Oid.set plainOid p (dottedText arcs) = (o, none) ∧ o.contents = some c ∧ ¬ RelContents arcs c := by
  match arcs, hn with
  | [a], _ =>
    right
    have h : oidLoop 0 0 (pySplit '.' (dottedText [a])) [] = ([], none) := by
      rw [dottedText_eq, pySplit_dottedStr [a] (by simp)]
      simp [oidLoop, pyInt_pyStrNat]
    refine ⟨_, [], set_plain p _ [] h, rfl, ?_⟩
    rintro ⟨chunks, hc, hf⟩
    have h1 := subIds_chunks hf
    rw [← hc] at h1
    exact absurd (subIds_unique h1 (.rest (by simp))) (by simp)
  | a :: b :: rest, _ =>
    by_cases hv : OidValid (a :: b :: rest)
    · right
      obtain ⟨o, c, h1, h2, ⟨chunks, rfl, hf⟩, _⟩ := C09_encode p _ hv
      refine ⟨o, _, h1, h2, ?_⟩
      rintro ⟨chunks', hc, hf'⟩
      have h3 := subIds_chunks hf'
      rw [← hc] at h3
      have := subIds_unique h3 (subIds_chunks hf)
      have := congrArg List.length this
      simp [oidSubs] at this
    · left
      exact C09_refused_partial p _ (by simp) hv

/-- Partial: only texts that are OIDs, and the octets are not those of X.690. What is written is read back as the same text. -/
theorem C83_round_trip_partial (arcs : List Nat) (hv : OidValid arcs) (o o1 : OidObj) (bytes : Bytes) (strict : Bool)
    (hs : Oid.set plainOid newRelative (dottedText arcs) = (o, none)) (hd : Oid.dump plainOid o = .ok (bytes, o1)) (hf : Fits bytes) :
    ∃ o2 o3, Oid.load newRelative.toObj bytes strict = .ok o2 ∧ Oid.dotted o2 = .ok (dottedText arcs, o3) := by
  obtain ⟨_, o2, o3, _, h1, h2, _, _⟩ := C09_dump_load newRelative.toObj arcs hv ⟨rfl, by decide, by decide, by intro e he; cases he⟩ o o1 bytes strict hs hd hf
  exact ⟨o2, o3, h1, h2⟩

/-- The class of the package is the one meant here. -/
theorem C83_class : Pkg.core.RelativeOid = .leaf (.oid plainOid newRelative) [] := rfl

/-- The example of X.690 8.20.5: {8571 3 2} is `0d 04 c2 7b 03 02`. -/
theorem C83_example_fails : RelContents [8571, 3, 2] [0xc2, 0x7b, 3, 2] ∧
    (Oid.set plainOid newRelative "8571.3.2".toList).2 = some .valueError ∧
    ∃ o, Oid.load newRelative.toObj [0x0d, 4, 0xc2, 0x7b, 3, 2] true = .ok o ∧ Unread o [0xc2, 0x7b, 3, 2] ∧
      (Oid.dotted o).map Prod.fst = .ok "2.8491.3.2".toList := by
  refine ⟨⟨[[0xc2, 0x7b], [3], [2]], rfl, ?_⟩, by decide +kernel,
    { newRelative with header := some [0x0d, 4], contents := some [0xc2, 0x7b, 3, 2] }, rfl, ⟨rfl, rfl, rfl⟩, by decide +kernel⟩
  exact .cons ⟨[0xc2], 0x7b, rfl, by decide, by decide, by decide, by decide⟩
    (.cons ⟨[], 3, rfl, by simp, by decide, by decide, by decide⟩ (.cons ⟨[], 2, rfl, by simp, by decide, by decide, by decide⟩ .nil))

end Asn1.Props
