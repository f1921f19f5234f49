import Verif.Lemmas.ParseIff

/-! # C02 — parse cuts out faithful slices; peek and strict agree with it -/

namespace Asn1.Props
open Asn1 Spec

/-- header + contents + trailer is a prefix of the data, its length is `peek`, between 2 and `len(data)`. -/
theorem C02_slices (data : Bytes) (i : Info) (h : parse data = .ok i) :
    i.header ++ i.contents ++ i.trailer <+: data ∧
    peek data = .ok (i.header ++ i.contents ++ i.trailer).length ∧
    2 ≤ (i.header ++ i.contents ++ i.trailer).length ∧
    (i.header ++ i.contents ++ i.trailer).length ≤ data.length := by
  obtain ⟨rest, h1, h2⟩ := (parse_ok_iff data i).mp h
  have hp : i.header ++ i.contents ++ i.trailer <+: data := ⟨rest, h1.symm⟩
  exact ⟨hp, (peek_ok_iff data _).mpr ⟨i, h, rfl⟩, Ber_two_le h2, hp.length_le⟩

/-- `peek` succeeds exactly when `parse` does, and never fails otherwise than `parse`. -/
theorem C02_peek_iff (data : Bytes) : (∃ n, peek data = .ok n) ↔ ∃ i, parse data = .ok i := by
  constructor
  · rintro ⟨n, h⟩
    obtain ⟨i, h, _⟩ := (peek_ok_iff data n).mp h
    exact ⟨i, h⟩
  · rintro ⟨i, h⟩
    exact ⟨_, (peek_ok_iff data _).mpr ⟨i, h, rfl⟩⟩

/-- Strict parsing succeeds exactly when the value spans all the data, with the same tuple. -/
theorem C02_strict (data : Bytes) (i : Info) :
    parse data true = .ok i ↔ parse data = .ok i ∧ peek data = .ok data.length := by
  constructor
  · intro h
    obtain ⟨h1, h2⟩ := (parse_strict_ok_iff data i).mp h
    have hp : parse data = .ok i := (parse_ok_iff data i).mpr ⟨[], by simpa using h1, h2⟩
    exact ⟨hp, (peek_ok_iff data _).mpr ⟨i, hp, by rw [← h1]⟩⟩
  · rintro ⟨h1, h2⟩
    obtain ⟨rest, e, hb⟩ := (parse_ok_iff data i).mp h1
    obtain ⟨j, hj, hn⟩ := (peek_ok_iff data _).mp h2
    rw [h1] at hj
    injection hj with hj
    subst hj
    have : rest = [] := by
      apply List.length_eq_zero_iff.mp
      have := congrArg List.length e
      rw [List.length_append] at this
      omega
    subst this
    exact (parse_strict_ok_iff data i).mpr ⟨by simpa using e, hb⟩

/-- Non-vacuity: trailing data, non-strict and strict. -/
example : parse [0x04, 0x01, 0x61, 0xff] = .ok ⟨0, 0, 4, [4, 1], [0x61], []⟩ ∧
    peek [0x04, 0x01, 0x61, 0xff] = .ok 3 ∧
    parse [0x04, 0x01, 0x61, 0xff] true = .error .valueError := by decide +kernel

end Asn1.Props
