import Verif.Props.C07

/-! # C08 — BOOLEAN -/

namespace Asn1.Props
open Asn1 Spec

/-- The two DER encodings, and they load back. -/
theorem C08_dump_load (b strict : Bool) :
    ∃ o o1 o2 o3, Boolean.set Boolean.new b = .ok o ∧ Boolean.native o = .ok (some b, o) ∧
      Boolean.dump o = .ok ([0x01, 0x01, if b then 0xff else 0x00], o1) ∧
      Boolean.load Boolean.new [0x01, 0x01, if b then 0xff else 0x00] strict = .ok o2 ∧
      Boolean.native o2 = .ok (some b, o3) := by
  cases b <;> cases strict <;> exact ⟨_, _, _, _, rfl, rfl, rfl, rfl, rfl⟩

/-- Any loaded value reads as False exactly for the single zero byte. -/
theorem C08_loaded_native (p o : Obj Bool) (data : Bytes) (strict : Bool) (h : Boolean.load p data strict = .ok o) :
    ∃ c o', o.contents = some c ∧ Boolean.native o = .ok (some (decide (c ≠ [0x00])), o') := by
  obtain ⟨hn, c, hc⟩ := loadObj_contents h
  refine ⟨c, { o with native := some (decide (c ≠ [0x00])) }, hc, ?_⟩
  unfold Boolean.native
  simp only [hc, hn]

/-- Forced dump of a loaded BOOLEAN gives the DER form for its tag with the same value. -/
theorem C08_force (o : Obj Bool) (c : Bytes) (hc : o.contents = some c) (hn : o.native = none)
    (hcls : o.cls < 4) (hm : o.method < 2) (he : o.explicit = []) (hi : o.indefinite = false) :
    ∃ h o', Boolean.dump o true = .ok (h ++ (if c = [0x00] then [0x00] else [0xff]), o') ∧
      dumpHeader o.cls o.method o.tag (if c = [0x00] then [0x00] else [0xff]) = .ok h ∧
      Boolean.native o' = .ok (some (decide (c ≠ [0x00])), o') := by
  have hfit : Fits (if c = [0x00] then [0x00] else [0xff]) := by
    have : (if c = [0x00] then [0x00] else [0xff] : Bytes).length = 1 := by split <;> rfl
    unfold Fits
    rw [this]
    exact Nat.one_lt_pow (by decide) (by decide)
  let o1 : Obj Bool := { o with native := some (decide (c ≠ [0x00])), contents := some (if c = [0x00] then [0x00] else [0xff]), header := none, trailer := [] }
  obtain ⟨h, ha, hb⟩ := asn1Dump_untagged_total (k := false) (o := o1) rfl rfl hi hcls hm he hfit false
  refine ⟨h, { o1 with header := some h, trailer := [] }, ?_, hb, rfl⟩
  unfold Boolean.dump primDump
  simp only [Bool.true_or, if_true, Boolean.native, hc, hn, bind, Except.bind, Boolean.set]
  have e : (if decide (c ≠ [0x00]) = true then [0xff] else [0x00] : Bytes) = if c = [0x00] then [0x00] else [0xff] := by
    by_cases h : c = [0x00] <;> simp [h]
  rw [e]
  exact ha

/-- Non-vacuity: a BER True (01 01 05) is canonicalised. -/
example : (do
    let o ← Boolean.load Boolean.new [0x01, 0x01, 0x05]
    let (b, _) ← Boolean.dump o true
    pure b : Py Bytes) = .ok [0x01, 0x01, 0xff] := by decide +kernel

end Asn1.Props
