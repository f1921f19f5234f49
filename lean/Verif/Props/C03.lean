import Verif.Lemmas.ParseIff

/-! # C03 — prefix stability and rejection of truncated values -/

namespace Asn1.Props
open Asn1 Spec

/-- The suffix after the consumed bytes is irrelevant. -/
theorem C03_prefix_stable (data suffix : Bytes) (i : Info) (n : Nat)
    (h : parse data = .ok i) (hn : peek data = .ok n) :
    parse (data.take n ++ suffix) = .ok i ∧ peek (data.take n ++ suffix) = .ok n := by
  obtain ⟨rest, h1, h2⟩ := (parse_ok_iff data i).mp h
  obtain ⟨j, hj, rfl⟩ := (peek_ok_iff data n).mp hn
  rw [h] at hj
  injection hj with hj
  subst hj
  have ht : data.take i.tlv.bytes.length = i.tlv.bytes := by rw [h1]; simp
  rw [ht]
  have hp : parse (i.tlv.bytes ++ suffix) = .ok i := (parse_ok_iff _ i).mpr ⟨suffix, rfl, h2⟩
  exact ⟨hp, (peek_ok_iff _ _).mpr ⟨i, hp, rfl⟩⟩

/-- Every proper prefix of the consumed bytes is rejected with `ValueError`. -/
theorem C03_truncated (data : Bytes) (n k : Nat) (strict : Bool) (hn : peek data = .ok n) (hk : k < n) :
    parse (data.take k) strict = .error .valueError := by
  obtain ⟨i, hi, rfl⟩ := (peek_ok_iff data n).mp hn
  obtain ⟨rest, h1, h2⟩ := (parse_ok_iff data i).mp hi
  have main : ∀ j, parse (data.take k) ≠ .ok j := by
    intro j hj
    obtain ⟨r', e, hb⟩ := (parse_ok_iff _ j).mp hj
    have hd : i.tlv.bytes ++ rest = j.tlv.bytes ++ (r' ++ data.drop k) := by
      rw [← h1, ← List.append_assoc, ← e, List.take_append_drop]
    have := (Ber_unique h2 hb hd).1
    have hl := congrArg List.length e
    rw [List.length_append, List.length_take, ← this] at hl
    omega
  cases hp : parse (data.take k) strict with
  | error e => rw [parse_error _ _ _ hp]
  | ok j =>
    exfalso
    cases strict with
    | false => exact main j hp
    | true =>
      obtain ⟨e, hb⟩ := (parse_strict_ok_iff _ j).mp hp
      exact main j ((parse_ok_iff _ j).mpr ⟨[], by simpa using e, hb⟩)

/-- Non-vacuity: an indefinite-length value inside a longer stream. -/
example : peek [0x30, 0x80, 0x02, 0x01, 0x05, 0x00, 0x00, 0xaa] = .ok 7 ∧
    parse [0x30, 0x80, 0x02, 0x01, 0x05, 0x00] = .error .valueError := by decide +kernel

end Asn1.Props
