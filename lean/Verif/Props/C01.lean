import Verif.Lemmas.ParseIff

/-!
# C01 — emitted values are read back exactly

`256 ^ 127` octets is the BER limit of the definite length form (127 length octets); no Python
byte string gets near it.
-/

namespace Asn1.Props
open Asn1 Spec

/-- Emit then strict parse returns exactly the emitted fields, with an empty trailer. -/
theorem C01_emit_parse (c m t : Nat) (contents : Bytes) (hc : c ≤ 3) (hm : m ≤ 1)
    (hl : contents.length < 256 ^ 127) :
    ∃ header, emit c m t contents = .ok (header ++ contents) ∧
      parse (header ++ contents) true = .ok ⟨c, m, t, header, contents, []⟩ := by
  obtain ⟨id, len, h1, h2, h3, _⟩ := dumpHeader_spec (t := t) (show c < 4 by omega) (show m < 2 by omega) contents hl
  refine ⟨id ++ len, ?_, ?_⟩
  · unfold emit
    rw [if_neg (by omega), if_neg (by omega), if_neg (by omega)]
    simp only [Int.toNat_natCast, h1]
    rfl
  · rw [parse_strict_ok_iff]
    exact ⟨by simp [Info.tlv, TLV.bytes], .definite h2 h3⟩

/-- Two different tuples are never emitted as the same bytes. -/
theorem C01_emit_injective (c m t c' m' t' : Int) (contents contents' out : Bytes)
    (hl : contents.length < 256 ^ 127) (hl' : contents'.length < 256 ^ 127)
    (h : emit c m t contents = .ok out) (h' : emit c' m' t' contents' = .ok out) :
    c = c' ∧ m = m' ∧ t = t' ∧ contents = contents' := by
  have key : ∀ {c m t : Int} {contents : Bytes}, contents.length < 256 ^ 127 → emit c m t contents = .ok out →
      ∃ hd, parse out true = .ok ⟨c.toNat, m.toNat, t.toNat, hd, contents, []⟩ ∧ 0 ≤ c ∧ 0 ≤ m ∧ 0 ≤ t := by
    intro c m t contents hl h
    have hc : 0 ≤ c ∧ c ≤ 3 ∧ 0 ≤ m ∧ m ≤ 1 ∧ 0 ≤ t := by
      unfold emit at h
      split at h
      · cases h
      · split at h
        · cases h
        · split at h
          · cases h
          · omega
    obtain ⟨hd, h1, h2⟩ := C01_emit_parse c.toNat m.toNat t.toNat contents (by omega) (by omega) hl
    rw [Int.toNat_of_nonneg hc.1, Int.toNat_of_nonneg hc.2.2.1, Int.toNat_of_nonneg hc.2.2.2.2, h] at h1
    injection h1 with h1
    exact ⟨hd, h1 ▸ h2, hc.1, hc.2.2.1, hc.2.2.2.2⟩
  obtain ⟨hd, p1, hc, hm, ht⟩ := key hl h
  obtain ⟨hd', p2, hc', hm', ht'⟩ := key hl' h'
  rw [p1] at p2
  simp only [Except.ok.injEq, Info.mk.injEq] at p2
  refine ⟨?_, ?_, ?_, p2.2.2.2.2.1⟩ <;> omega

/-- Out-of-range class, method or tag: `ValueError`, nothing emitted; in range: never an error. -/
theorem C01_emit_range (c m t : Int) (contents : Bytes) (hl : contents.length < 256 ^ 127) :
    emit c m t contents = .error .valueError ↔ ¬ (0 ≤ c ∧ c ≤ 3 ∧ 0 ≤ m ∧ m ≤ 1 ∧ 0 ≤ t) := by
  constructor
  · intro h hr
    obtain ⟨hd, h1, _⟩ := C01_emit_parse c.toNat m.toNat t.toNat contents (by omega) (by omega) hl
    rw [Int.toNat_of_nonneg hr.1, Int.toNat_of_nonneg hr.2.2.1, Int.toNat_of_nonneg hr.2.2.2.2, h] at h1
    cases h1
  · intro h
    unfold emit
    by_cases h1 : c < 0 ∨ c > 3
    · rw [if_pos h1]
    · rw [if_neg h1]
      by_cases h2 : m < 0 ∨ m > 1
      · rw [if_pos h2]
      · rw [if_neg h2, if_pos (by omega)]

/-- Non-vacuity: a private constructed value with a four-octet identifier. -/
example : emit 3 1 100000 [1, 2] = .ok [0xff, 0x86, 0x8d, 0x20, 0x02, 1, 2] := by decide +kernel
example : emit 4 0 1 [] = .error .valueError := by decide +kernel

end Asn1.Props
