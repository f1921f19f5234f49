import Verif.Model.Keys
import Verif.Lemmas.Num

/-!
# C37 — DSA signatures in P1363 form

`Spec.valU` is the big-endian value of a byte string.
-/

namespace Asn1.Props
open Asn1 Asn1.Keys Spec

private theorem slice_lo (b : Bytes) (k : Nat) : slice b 0 k = b.take k := by simp [slice]
private theorem slice_hi (b : Bytes) (k : Nat) : slice b k b.length = b.drop k := by simp [slice]

private theorem fill_eq (n w : Nat) (h : (beBytes (byteWidth (bitLength n)) n).length ≤ w) :
    fillWidth (beBytes (byteWidth (bitLength n)) n) w = beBytes w n := by
  apply valU_inj
  · rw [length_fillWidth]; simp at h ⊢; exact h
  · rw [valU_fillWidth, valU_beBytes, valU_beBytes, Nat.mod_eq_of_lt (byteWidth_bitLength_fits n)]
    refine (Nat.mod_eq_of_lt (Nat.lt_of_lt_of_le (byteWidth_bitLength_fits n) ?_)).symm
    exact Nat.pow_le_pow_right (by decide) (by simpa using h)

/-- Reading: the first half of the data is `r`, the rest is `s`, big-endian. -/
theorem C37_from (a b : Bytes) (h : a.length = b.length ∨ a.length + 1 = b.length) :
    fromP1363 (a ++ b) = ⟨valU a, valU b⟩ := by
  have hl : (a ++ b).length / 2 = a.length := by simp; omega
  simp only [fromP1363, slice_lo, slice_hi, hl, List.take_left', List.drop_left', intFromBytes_unsigned]

private theorem toP1363_nat (r s : Nat) (w : Option Int) : toP1363 ⟨r, s⟩ w =
    match w with
    | none => .ok (beBytes (max (byteWidth (bitLength r)) (byteWidth (bitLength s))) r ++
        beBytes (max (byteWidth (bitLength r)) (byteWidth (bitLength s))) s)
    | some w => if w < max (byteWidth (bitLength r)) (byteWidth (bitLength s)) then .error .valueError
      else .ok (beBytes w.toNat r ++ beBytes w.toNat s) := by
  simp only [toP1363, intToBytes_unsigned, beBytes_length]
  cases w with
  | none => simp only; rw [fill_eq _ _ (by simp), fill_eq _ _ (by simp)]
  | some w =>
    simp only
    split
    · rfl
    · rename_i h
      rw [fill_eq _ _ (by simp; omega), fill_eq _ _ (by simp; omega)]

private theorem fits_iff (n w : Nat) (hw : w ≠ 0) : byteWidth (bitLength n) ≤ w ↔ n < 256 ^ w :=
  ⟨fun h => Nat.lt_of_lt_of_le (byteWidth_bitLength_fits n) (Nat.pow_le_pow_right (by decide) h),
    fun h => byteWidth_bitLength_min n w hw h⟩

/-- Writing with a width: it succeeds exactly when the width is positive and both numbers fit, with the
two numbers in exactly that many bytes each; otherwise `ValueError`. -/
theorem C37_to (r s : Nat) (w : Int) :
    (∀ out, toP1363 ⟨r, s⟩ (some w) = .ok out ↔
      0 < w ∧ r < 256 ^ w.toNat ∧ s < 256 ^ w.toNat ∧
        ∃ a b, out = a ++ b ∧ (a.length : Int) = w ∧ (b.length : Int) = w ∧ valU a = r ∧ valU b = s) ∧
    (¬ (0 < w ∧ r < 256 ^ w.toNat ∧ s < 256 ^ w.toNat) → toP1363 ⟨r, s⟩ (some w) = .error .valueError) := by
  have hr := byteWidth_ne_zero (bitLength r)
  rw [toP1363_nat]
  have key : (¬ w < max (byteWidth (bitLength r)) (byteWidth (bitLength s))) ↔
      (0 < w ∧ r < 256 ^ w.toNat ∧ s < 256 ^ w.toNat) := by
    constructor
    · intro h
      have : 0 < w := by omega
      exact ⟨this, (fits_iff r _ (by omega)).mp (by omega), (fits_iff s _ (by omega)).mp (by omega)⟩
    · rintro ⟨h0, h1, h2⟩
      have := (fits_iff r _ (by omega)).mpr h1
      have := (fits_iff s _ (by omega)).mpr h2
      omega
  refine ⟨fun out => ?_, fun h => ?_⟩
  · constructor
    · intro h
      simp only at h
      split at h
      · cases h
      · rename_i hc
        obtain ⟨h0, h1, h2⟩ := key.mp hc
        refine ⟨h0, h1, h2, _, _, (Except.ok.inj h).symm, by simp; omega, by simp; omega, ?_, ?_⟩
        · rw [valU_beBytes, Nat.mod_eq_of_lt h1]
        · rw [valU_beBytes, Nat.mod_eq_of_lt h2]
    · rintro ⟨h0, h1, h2, a, b, rfl, ha, hb, rfl, rfl⟩
      simp only
      rw [if_neg (key.mpr ⟨h0, h1, h2⟩)]
      have e1 : w.toNat = a.length := by omega
      have e2 : w.toNat = b.length := by omega
      congr 2
      · rw [e1, beBytes_valU]
      · rw [e2, beBytes_valU]
  · simp only
    rw [if_pos (Classical.not_not.mp (fun hc => h (key.mp hc)))]

example : toP1363 ⟨1, 256⟩ (some 3) = .ok [0, 0, 1, 0, 1, 0] := by decide +kernel
example : toP1363 ⟨1, 256⟩ (some 1) = .error .valueError := by decide +kernel

/-- Without a width the least sufficient width is used. -/
theorem C37_least (r s : Nat) :
    ∃ w : Nat, toP1363 ⟨r, s⟩ none = toP1363 ⟨r, s⟩ (some w) ∧ (∃ out, toP1363 ⟨r, s⟩ none = .ok out) ∧
      ∀ v : Int, (∃ out, toP1363 ⟨r, s⟩ (some v) = .ok out) → (w : Int) ≤ v := by
  refine ⟨max (byteWidth (bitLength r)) (byteWidth (bitLength s)), ?_, ⟨_, toP1363_nat r s none⟩, ?_⟩
  · rw [toP1363_nat, toP1363_nat]
    simp only
    rw [if_neg (by omega), show ((max (byteWidth (bitLength r)) (byteWidth (bitLength s)) : Nat) : Int).toNat =
      max (byteWidth (bitLength r)) (byteWidth (bitLength s)) from Int.toNat_natCast _]
  · rintro v ⟨out, h⟩
    rw [toP1363_nat] at h
    simp only at h
    split at h
    · cases h
    · rename_i hc; push_cast; push_cast at hc; omega

/-- Reading back gives the same signature, for every width that is accepted and for none. -/
theorem C37_round_trip (r s : Nat) (w : Option Int) (out : Bytes) (h : toP1363 ⟨r, s⟩ w = .ok out) :
    fromP1363 out = ⟨r, s⟩ := by
  cases w with
  | some w =>
    obtain ⟨-, -, -, a, b, rfl, ha, hb, hr, hs⟩ := ((C37_to r s w).1 out).mp h
    rw [C37_from a b (by omega), hr, hs]
  | none =>
    obtain ⟨w, h1, -, -⟩ := C37_least r s
    rw [h1] at h
    obtain ⟨-, -, -, a, b, rfl, ha, hb, hr, hs⟩ := ((C37_to r s w).1 out).mp h
    rw [C37_from a b (by omega), hr, hs]

example : ∃ out, toP1363 ⟨300, 70000⟩ none = .ok out ∧ out.length = 6 ∧ fromP1363 out = ⟨300, 70000⟩ :=
  ⟨[0, 1, 44, 1, 17, 112], by decide +kernel, rfl, by decide +kernel⟩

/-- Data of even length that is not empty is written back unchanged, at half its length. -/
theorem C37_data (data : Bytes) (h : data ≠ []) (he : 2 ∣ data.length) :
    toP1363 (fromP1363 data) (some ((data.length / 2 : Nat) : Int)) = .ok data := by
  obtain ⟨k, hk⟩ := he
  have hpos : 0 < data.length := List.length_pos_iff.mpr h
  have hsplit : data = data.take k ++ data.drop k := (List.take_append_drop k data).symm
  have h1 : (data.take k).length = k := by simp; omega
  have h2 : (data.drop k).length = k := by simp; omega
  have hf : fromP1363 data = ⟨valU (data.take k), valU (data.drop k)⟩ := by
    conv => lhs; rw [hsplit]
    exact C37_from _ _ (.inl (by omega))
  have hd : ((data.length / 2 : Nat) : Int) = k := by omega
  rw [hf, hd]
  refine ((C37_to _ _ _).1 data).mpr ⟨by omega, ?_, ?_, _, _, hsplit, by omega, by omega, rfl, rfl⟩
  · have := valU_lt (data.take k); rw [h1] at this; simpa using this
  · have := valU_lt (data.drop k); rw [h2] at this; simpa using this

/-- The empty string is read as two zeros, which need one byte each: it is not written back. -/
theorem C37_empty : fromP1363 [] = ⟨0, 0⟩ ∧ toP1363 ⟨0, 0⟩ (some 0) = .error .valueError ∧
    toP1363 ⟨0, 0⟩ none = .ok [0, 0] := by decide +kernel

/-- Negative numbers are refused. -/
theorem C37_negative (r s : Int) (w : Option Int) (h : r < 0 ∨ s < 0) :
    toP1363 ⟨r, s⟩ w = .error .overflowError := by
  have neg : ∀ n : Int, n < 0 → intToBytes n = .error .overflowError := by
    intro n hn
    unfold intToBytes pyToBytes
    have : ¬ (0 ≤ n) := by omega
    simp [this]
  simp only [toP1363]
  by_cases hr : r < 0
  · rw [neg r hr]
  · have hs := h.resolve_left hr
    obtain ⟨n, rfl⟩ := Int.eq_ofNat_of_zero_le (show 0 ≤ r by omega)
    rw [neg s hs, intToBytes_unsigned]

end Asn1.Props
