import Verif.Model.Status
import Verif.Model.Package
import Verif.Lemmas.KernelRfl

/-!
# C80 — The states of certificates in OCSP responses

`Status` (Model/Status.lean) is the class `StatusGood` (`name` is `good`) or `StatusUnknown` (`unknown`).
-/

namespace Asn1.Props
open Asn1

/-- What can be given as the value of the state `name`. -/
inductive StatusValue (name : Str) : Status.Arg → Prop
  | none : StatusValue name .none
  | name : StatusValue name (.text name)
  | null : StatusValue name .null

/-- Exactly these values are accepted; everything else is refused with `ValueError`. -/
theorem C80_set (name : Str) (o : Obj Unit) (v : Status.Arg) : (StatusValue name v → Status.set name o v = .ok { o with contents := some [] }) ∧
    (¬ StatusValue name v → Status.set name o v = .error .valueError) := by
  constructor
  · rintro (_ | _ | _)
    · rfl
    · simp [Status.set, Null.set]
    · rfl
  · intro h
    cases v with
    | none => exact absurd .none h
    | null => exact absurd .null h
    | other => rfl
    | text s =>
      by_cases hs : s = name
      · subst hs; exact absurd .name h
      · simp [Status.set, hs]

example : StatusValue ("good".toList) (.text ("good".toList)) := .name
example : ¬ StatusValue ("good".toList) (.text ("unknown".toList)) := by
  intro h
  generalize hv : Status.Arg.text ("unknown".toList) = v at h
  cases h with
  | none => cases hv
  | null => cases hv
  | name => injection hv with hv; exact absurd hv (by decide +kernel)

/-- What is read can be given back. -/
theorem C80_given_back (name : Str) (o o' : Obj Unit) : Status.set name o (.text (Status.native name o')) = .ok { o with contents := some [] } :=
  (C80_set name o _).1 .name

/-- A state is written as NULL with the same tags is, forced or not, loaded or built. -/
theorem C80_dump (name : Str) (o : Obj Unit) (force : Bool) : Status.dump name o force = Null.dump o force := by
  unfold Status.dump Null.dump primDump
  rw [C80_given_back]
  rfl

/-- Partial: loading is only said of what was written (see `C80_contents_fails`). A state built from what is accepted is written as its tag with no contents, reads as its name, and is loaded back: `t` is 0 for `good`, 2 for `unknown`. -/
theorem C80_round_trip_partial (name : Str) (v : Status.Arg) (hv : StatusValue name v) (t : Nat) (ht : t = 0 ∨ t = 2) (force : Bool) :
    ∃ o o' o'' b, Status.construct name { implicit := some (2, t) } v = .ok o ∧ Status.native name o = name ∧ Status.dump name o force = .ok (b, o') ∧
      b = [UInt8.ofNat (0x80 + t), 0] ∧ Null.load (initTagging Null.new { implicit := some (2, t) }) b true = .ok o'' ∧ Status.native name o'' = name ∧
      Status.dump name o'' force = .ok (b, o'') := by
  have hc : Status.construct name { implicit := some (2, t) } v = .ok (initTagging Null.new { implicit := some (2, t) }) := by
    cases hv with
    | none => rfl
    | name => simp [Status.construct, Status.set, Null.set, initTagging, Null.new]
    | null => rfl
  simp only [hc, C80_dump]
  rcases ht with rfl | rfl <;> cases force <;> exact ⟨_, _, _, _, rfl, rfl, rfl, rfl, rfl, rfl, rfl⟩

example : ∃ o o', Status.construct ("unknown".toList) { implicit := some (2, 2) } (.text ("unknown".toList)) = .ok o ∧ Status.dump ("unknown".toList) o true = .ok ([0x82, 0], o') :=
  ⟨_, _, rfl, rfl⟩

/-- The alternative that a status is in, as the package has it: `good` and `unknown` are told apart by their tags. -/
theorem C80_alternatives (K : Pkg.Codecs) : ∃ f g h, (Pkg.env K).cls Pkg.Id.ocsp.CertStatus = .choice [] none [f, g, h] ∧
    (f.name, f.params.implicit) = ("good", some (2, 0)) ∧ (g.name, g.params.implicit) = ("revoked", some (2, 1)) ∧
    (h.name, h.params.implicit) = ("unknown", some (2, 2)) := by
  have hE : (Pkg.env K).cls Pkg.Id.ocsp.CertStatus = Pkg.ocsp.CertStatus := by kernel_rfl
  exact ⟨_, _, _, hE, rfl, rfl, rfl⟩

/-- **A state with contents is accepted**, and forcing it writes a header without contents, as for NULL (`C24_null_cut`). -/
theorem C80_contents_fails (name : Str) : ∃ o o', Null.load (initTagging Null.new { implicit := some (2, 0) }) [0x80, 1, 0] true = .ok o ∧
    Status.native name o = name ∧ Status.dump name o true = .ok ([0x80, 1], o') := by
  simp only [C80_dump]
  exact ⟨_, _, rfl, rfl, rfl⟩

end Asn1.Props
