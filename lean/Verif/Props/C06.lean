import Verif.Lemmas.Num

/-!
# C06 — integer/byte-string conversion is exact and minimal

Statements use only the model entry points `intToBytes`, `intFromBytes`, `fillWidth` and the
positional values `Spec.valU` (unsigned) / `Spec.valS` (two's complement).
-/

namespace Asn1.Props
open Asn1 Spec

/-- `int_from_bytes` computes the positional value, for every byte string. -/
theorem C06_from_bytes_value (bs : Bytes) :
    intFromBytes bs = (valU bs : Int) ∧ intFromBytes bs true = valS bs :=
  ⟨intFromBytes_unsigned bs, intFromBytes_signed bs⟩

/-- Signed conversion without width: never fails, reads back, non-empty, and it is the unique
shortest byte string with that two's complement value. -/
theorem C06_signed_roundtrip_minimal (n : Int) :
    ∃ bs, intToBytes n true = .ok bs ∧ intFromBytes bs true = n ∧ bs ≠ [] ∧ valS bs = n ∧
      ∀ cs : Bytes, cs ≠ [] → valS cs = n →
        bs.length ≤ cs.length ∧ (cs.length = bs.length → cs = bs) := by
  obtain ⟨h1, h2, h3⟩ := signedWidth_fits n
  refine ⟨_, intToBytes_signed n, ?_, ?_, valS_beBytes _ _ h3 h1 h2, ?_⟩
  · rw [intFromBytes_signed, valS_beBytes _ _ h3 h1 h2]
  · intro h
    have := congrArg List.length h
    simp at this; exact h3 this
  · intro cs hne hv
    have hr := valS_range cs hne
    rw [hv] at hr
    refine ⟨?_, ?_⟩
    · rw [beBytes_length]
      exact signedWidth_min n cs.length (by simpa using hne) hr.1 hr.2
    · intro hl
      exact valS_inj _ _ hl (by rw [hv, valS_beBytes _ _ h3 h1 h2])

/-- Unsigned conversion without width of a non-negative integer: reads back, non-empty, unique shortest. -/
theorem C06_unsigned_roundtrip_minimal (n : Nat) :
    ∃ bs, intToBytes (n : Int) = .ok bs ∧ intFromBytes bs = n ∧ bs ≠ [] ∧
      ∀ cs : Bytes, cs ≠ [] → valU cs = n →
        bs.length ≤ cs.length ∧ (cs.length = bs.length → cs = bs) := by
  have hv : valU (beBytes (byteWidth (bitLength n)) n) = n := by
    rw [valU_beBytes, Nat.mod_eq_of_lt (byteWidth_bitLength_fits n)]
  refine ⟨_, intToBytes_unsigned n, ?_, ?_, ?_⟩
  · rw [intFromBytes_unsigned, hv]
  · intro h
    have := congrArg List.length h
    simp at this; exact byteWidth_ne_zero _ this
  · intro cs hne hcv
    refine ⟨?_, fun hl => valU_inj _ _ hl (by rw [hv, hcv])⟩
    rw [beBytes_length]
    exact byteWidth_bitLength_min n _ (by simpa using hne) (hcv ▸ valU_lt cs)

/-- A negative integer cannot be converted without `signed`: `OverflowError`, with or without width. -/
theorem C06_unsigned_negative (n : Int) (h : n < 0) (w : Option Nat) :
    intToBytes n false w = .error .overflowError := by
  unfold intToBytes pyToBytes
  have : ¬ (0 ≤ n) := by omega
  simp [this]

/-- With an explicit width, the unsigned conversion returns exactly the byte string of that length
having that value; so it succeeds iff such a byte string exists. -/
theorem C06_unsigned_width (v : Int) (w : Nat) (bs : Bytes) :
    intToBytes v false (some w) = .ok bs ↔ (bs.length = w ∧ (valU bs : Int) = v) := by
  unfold intToBytes pyToBytes
  simp only [Bool.false_eq_true, if_false]
  constructor
  · split
    · next h =>
      intro hb
      injection hb with hb
      subst hb
      refine ⟨by simp, ?_⟩
      rw [valU_beBytes, Nat.mod_eq_of_lt]
      · omega
      · have : ((v.toNat : Nat) : Int) < ((256 ^ w : Nat) : Int) := by push_cast; omega
        exact_mod_cast this
    · intro h; cases h
  · rintro ⟨hl, hv⟩
    subst hl; subst hv
    have hlt : ((valU bs : Nat) : Int) < 256 ^ bs.length := by exact_mod_cast valU_lt bs
    rw [if_pos ⟨by omega, hlt⟩]
    simp [beBytes_valU]

/-- The same for the signed conversion. -/
theorem C06_signed_width (v : Int) (w : Nat) (bs : Bytes) :
    intToBytes v true (some w) = .ok bs ↔ (bs.length = w ∧ valS bs = v) := by
  unfold intToBytes pyToBytes
  simp only [if_true]
  constructor
  · split
    · next h =>
      intro hb
      injection hb with hb
      subst hb
      refine ⟨by simp, ?_⟩
      by_cases hw : w = 0
      · have := h.2.2 hw; subst hw; subst this; rfl
      · exact valS_beBytes _ _ hw h.1 h.2.1
    · intro h; cases h
  · rintro ⟨hl, hv⟩
    subst hl; subst hv
    rw [beBytes_valS]
    rw [if_pos]
    by_cases hne : bs = []
    · subst hne; simp [valS]
    · have := valS_range bs hne
      exact ⟨this.1, this.2, fun h0 => absurd (List.length_eq_zero_iff.mp h0) hne⟩

/-- A value that does not fit into the requested width raises `OverflowError` and nothing else. -/
theorem C06_width_overflow (v : Int) (w : Nat) (signed : Bool)
    (h : ∀ bs : Bytes, bs.length = w → (if signed then valS bs else (valU bs : Int)) ≠ v) :
    intToBytes v signed (some w) = .error .overflowError := by
  cases hr : intToBytes v signed (some w) with
  | ok bs =>
    exfalso
    cases signed with
    | false => have := (C06_unsigned_width v w bs).mp hr; exact h bs this.1 (by simpa using this.2)
    | true => have := (C06_signed_width v w bs).mp hr; exact h bs this.1 (by simpa using this.2)
  | error e =>
    unfold intToBytes pyToBytes at hr
    simp only at hr
    split at hr <;> split at hr <;> first | (injection hr with hr; rw [hr]) | cases hr

/-- Bytes → integer → bytes of the same width is the identity (signed and unsigned). -/
theorem C06_bytes_roundtrip (bs : Bytes) (signed : Bool) :
    intToBytes (intFromBytes bs signed) signed (some bs.length) = .ok bs := by
  cases signed with
  | false => exact (C06_unsigned_width _ _ _).mpr ⟨rfl, (intFromBytes_unsigned bs).symm⟩
  | true => exact (C06_signed_width _ _ _).mpr ⟨rfl, (intFromBytes_signed bs).symm⟩

/-- `fill_width` pads on the left with zero bytes to the requested width, never shortens and keeps the value. -/
theorem C06_fill_width (bs : Bytes) (w : Nat) :
    (fillWidth bs w).length = max bs.length w ∧ intFromBytes (fillWidth bs w) = intFromBytes bs ∧
      ∃ k, fillWidth bs w = List.replicate k 0 ++ bs := by
  refine ⟨length_fillWidth bs w, ?_, _, fillWidth_eq bs w⟩
  rw [intFromBytes_unsigned, intFromBytes_unsigned, valU_fillWidth]

-- Non-vacuity and sanity: concrete cases.
example : intToBytes (-129) true = .ok [0xff, 0x7f] := by decide +kernel
example : intToBytes 128 true = .ok [0x00, 0x80] ∧ intToBytes 128 = .ok [0x80] := by decide +kernel
example : intToBytes 256 false (some 1) = .error .overflowError := by decide +kernel
example : ∀ bs : Bytes, bs.length = 1 → (if false then valS bs else (valU bs : Int)) ≠ 256 := by
  intro bs h hv
  have := valU_lt bs
  rw [h] at this
  simp at hv
  omega
example : intFromBytes [0xff, 0x7f] true = -129 := by decide +kernel

end Asn1.Props
