import Verif.Model.Util
import Verif.Spec.Num
import Mathlib.Tactic.Ring
import Mathlib.Tactic.Linarith

/-! # Lemmas on byte strings as numbers -/

namespace Asn1
open Spec

theorem pow256 (n : Nat) : (256 : Nat) ^ n = 2 ^ (8 * n) := by
  rw [show (256 : Nat) = 2 ^ 8 by rfl, ← Nat.pow_mul]

@[simp] theorem beBytes_length (w n : Nat) : (beBytes w n).length = w := by
  induction w generalizing n with
  | zero => rfl
  | succ w ih => simp [beBytes, ih]

theorem valU_append (a b : Bytes) : valU (a ++ b) = valU a * 256 ^ b.length + valU b := by
  induction a with
  | nil => simp [valU]
  | cons x xs ih => simp only [List.cons_append, valU, ih, List.length_append, Nat.pow_add]; ring

theorem valU_lt (bs : Bytes) : valU bs < 256 ^ bs.length := by
  induction bs with
  | nil => simp [valU]
  | cons x xs ih =>
    have hx : x.toNat < 256 := x.toNat_lt
    simp only [valU, List.length_cons, Nat.pow_succ]
    nlinarith [Nat.mul_le_mul_right (256 ^ xs.length) (Nat.le_of_lt_succ hx)]

theorem valU_singleton (b : UInt8) : valU [b] = b.toNat := by simp [valU]

theorem valU_beBytes (w n : Nat) : valU (beBytes w n) = n % 256 ^ w := by
  induction w generalizing n with
  | zero => simp [beBytes, valU, Nat.mod_one]
  | succ w ih =>
    simp only [beBytes, valU_append, ih, valU_singleton, List.length_singleton, Nat.pow_one]
    rw [Nat.pow_succ, Nat.mul_comm (256 ^ w) 256, Nat.mod_mul]
    simp
    omega

theorem valU_inj : ∀ (a b : Bytes), a.length = b.length → valU a = valU b → a = b
  | [], [], _, _ => rfl
  | x :: xs, y :: ys, hl, hv => by
    simp only [List.length_cons, Nat.add_right_cancel_iff] at hl
    simp only [valU, hl] at hv
    have h1 := valU_lt xs
    have h2 := valU_lt ys
    rw [hl] at h1
    have hp : 0 < 256 ^ ys.length := Nat.pow_pos (by decide)
    have e1 : (x.toNat * 256 ^ ys.length + valU xs) / 256 ^ ys.length = x.toNat := by
      rw [Nat.mul_comm, Nat.mul_add_div hp, Nat.div_eq_of_lt h1]; simp
    have e2 : (y.toNat * 256 ^ ys.length + valU ys) / 256 ^ ys.length = y.toNat := by
      rw [Nat.mul_comm, Nat.mul_add_div hp, Nat.div_eq_of_lt h2]; simp
    have hxy : x.toNat = y.toNat := by rw [← e1, ← e2, hv]
    have hx : x = y := UInt8.toNat_inj.mp hxy
    subst hx
    have := valU_inj xs ys hl (by omega)
    rw [this]

theorem beBytes_valU (bs : Bytes) : beBytes bs.length (valU bs) = bs := by
  apply valU_inj
  · simp
  · rw [valU_beBytes, Nat.mod_eq_of_lt (valU_lt bs)]

theorem foldl_bytes (bs : Bytes) (acc : Nat) :
    bs.foldl (fun acc b => acc * 256 + b.toNat) acc = acc * 256 ^ bs.length + valU bs := by
  induction bs generalizing acc with
  | nil => simp [valU]
  | cons x xs ih => simp only [List.foldl_cons, ih, valU, List.length_cons, Nat.pow_succ]; ring

theorem pyFromBytesU_eq (bs : Bytes) : pyFromBytesU bs = valU bs := by
  simp [pyFromBytesU, foldl_bytes]

theorem intFromBytes_unsigned (bs : Bytes) : intFromBytes bs = (valU bs : Int) := by
  unfold intFromBytes pyFromBytes
  cases bs with
  | nil => simp [valU]
  | cons b bs => simp [pyFromBytesU_eq]

theorem intFromBytes_signed (bs : Bytes) : intFromBytes bs true = valS bs := by
  unfold intFromBytes pyFromBytes
  cases bs with
  | nil => simp [valS]
  | cons b bs =>
    have : (b ≥ 128) ↔ ¬ b.toNat < 128 := by
      rw [ge_iff_le, UInt8.le_iff_toNat_le]; simp
    simp only [pyFromBytesU_eq, valS, Bool.true_and, decide_eq_true_eq, this, List.length_cons]
    by_cases h : b.toNat < 128 <;> simp [h]

theorem bitLength_le (n k : Nat) : bitLength n ≤ k ↔ n < 2 ^ k := by
  unfold bitLength
  split
  · next h => subst h; simp
  · next h =>
    have := @Nat.log2_lt n k h
    omega

theorem lt_two_pow_bitLength (n : Nat) : n < 2 ^ bitLength n := (bitLength_le n _).mp (Nat.le_refl _)

/-- Range of a two's complement value of `n` bytes. -/
theorem valS_range (bs : Bytes) (h : bs ≠ []) :
    -(256 ^ bs.length : Int) ≤ 2 * valS bs ∧ 2 * valS bs < (256 ^ bs.length : Int) := by
  match bs, h with
  | b :: bs, _ =>
    have hv := valU_lt (b :: bs)
    have ht := valU_lt bs
    have hb : b.toNat < 256 := b.toNat_lt
    have hp : 0 < 256 ^ bs.length := Nat.pow_pos (by decide)
    have e : (256 : Int) ^ (bs.length + 1) = 256 * ((256 ^ bs.length : Nat) : Int) := by
      push_cast; ring
    simp only [valS, List.length_cons]
    rw [e]
    have hvv : valU (b :: bs) = b.toNat * 256 ^ bs.length + valU bs := rfl
    generalize hP : (256 ^ bs.length : Nat) = P at *
    split
    · next hlt =>
      have h1 : b.toNat * P ≤ 127 * P := Nat.mul_le_mul_right _ (by omega)
      have h0 : 0 ≤ b.toNat * P := Nat.zero_le _
      omega
    · next hge =>
      have h1 : b.toNat * P ≤ 255 * P := Nat.mul_le_mul_right _ (by omega)
      have h2 : 128 * P ≤ b.toNat * P := Nat.mul_le_mul_right _ (by omega)
      omega

/-- `valS` is determined by the value modulo `256^n` and the range. -/
theorem valS_mod (bs : Bytes) : valS bs % (256 ^ bs.length : Int) = (valU bs : Int) := by
  cases bs with
  | nil => simp [valS, valU]
  | cons b bs =>
    have hv := valU_lt (b :: bs)
    have hv' : ((valU (b :: bs) : Nat) : Int) < 256 ^ (b :: bs).length := by exact_mod_cast hv
    simp only [valS, List.length_cons] at *
    split
    · exact Int.emod_eq_of_lt (by omega) hv'
    · rw [Int.sub_emod_right]
      exact Int.emod_eq_of_lt (by omega) hv'

theorem valS_beBytes (w : Nat) (v : Int) (hw : w ≠ 0)
    (h1 : -(256 ^ w : Int) ≤ 2 * v) (h2 : 2 * v < (256 ^ w : Int)) :
    valS (beBytes w (v % (256 ^ w : Int)).toNat) = v := by
  have hl := beBytes_length w (v % (256 ^ w : Int)).toNat
  generalize hbs : beBytes w (v % (256 ^ w : Int)).toNat = bs at *
  have hne : bs ≠ [] := by intro h; rw [h] at hl; simp at hl; omega
  have hr := valS_range bs hne
  have hm := valS_mod bs
  have hu : valU bs = (v % (256 ^ w : Int)).toNat % 256 ^ w := by rw [← hbs, valU_beBytes]
  rw [hl] at hr hm
  have hP : (0 : Int) < 256 ^ w := by positivity
  have hnn := Int.emod_nonneg v (ne_of_gt hP)
  have hlt := Int.emod_lt_of_pos v hP
  have hu' : (valU bs : Int) = v % (256 ^ w : Int) := by
    rw [hu, Nat.mod_eq_of_lt]
    · omega
    · have : (((v % (256 ^ w : Int)).toNat : Nat) : Int) < ((256 ^ w : Nat) : Int) := by
        push_cast; rw [Int.toNat_of_nonneg hnn]; exact hlt
      exact_mod_cast this
  have hdiv : (256 ^ w : Int) ∣ valS bs - v := by
    apply Int.dvd_of_emod_eq_zero
    rw [Int.sub_emod, hm, hu']; simp
  obtain ⟨k, hk⟩ := hdiv
  have hk0 : k = 0 := by
    generalize (256 ^ w : Int) = P at *
    by_contra hne
    rcases Int.lt_or_gt_of_ne hne with hneg | hpos
    · have : P * k ≤ P * (-1) := Int.mul_le_mul_of_nonneg_left (by omega) (le_of_lt hP)
      omega
    · have : P * 1 ≤ P * k := Int.mul_le_mul_of_nonneg_left (by omega) (le_of_lt hP)
      omega
  subst hk0
  omega

theorem valS_inj (a b : Bytes) (hl : a.length = b.length) (hv : valS a = valS b) : a = b := by
  apply valU_inj a b hl
  have h1 := valS_mod a
  have h2 := valS_mod b
  rw [hv, hl, h2] at h1
  exact_mod_cast h1.symm

theorem beBytes_valS (bs : Bytes) :
    beBytes bs.length (valS bs % (256 ^ bs.length : Int)).toNat = bs := by
  rw [valS_mod]; simpa using beBytes_valU bs

/-- Width chosen by the signed branch of `int_to_bytes`. -/
def signedWidth (value : Int) : Nat :=
  let b : Nat := if value < 0 then bitLength (value + 1).natAbs else bitLength value.natAbs
  byteWidth (if b % 8 = 0 then b + 1 else b)

theorem signedWidth_fits (v : Int) :
    -(256 ^ signedWidth v : Int) ≤ 2 * v ∧ 2 * v < (256 ^ signedWidth v : Int) ∧ signedWidth v ≠ 0 := by
  have key : ∀ (m b w : Nat), m < 2 ^ b → b + 1 ≤ 8 * w → 2 * ((m : Nat) : Int) + 2 ≤ ((256 ^ w : Nat) : Int) := by
    intro m b w hm hb
    have h1 : 2 ^ (b + 1) ≤ 2 ^ (8 * w) := Nat.pow_le_pow_right (by decide) hb
    rw [← pow256, Nat.pow_succ] at h1
    omega
  have hw : ∀ b : Nat, b + 1 ≤ 8 * byteWidth (if b % 8 = 0 then b + 1 else b) ∧
      byteWidth (if b % 8 = 0 then b + 1 else b) ≠ 0 := by
    intro b; unfold byteWidth; split <;> split <;> omega
  have hcast : ((256 ^ signedWidth v : Nat) : Int) = (256 : Int) ^ signedWidth v := by push_cast; rfl
  rw [← hcast]
  unfold signedWidth
  simp only
  split
  · next hneg =>
    have h1 := key _ _ _ (lt_two_pow_bitLength (v + 1).natAbs) (hw _).1
    refine ⟨?_, ?_, (hw _).2⟩ <;> omega
  · next hpos =>
    have h1 := key _ _ _ (lt_two_pow_bitLength v.natAbs) (hw _).1
    refine ⟨?_, ?_, (hw _).2⟩ <;> omega

theorem signedWidth_min (v : Int) (n : Nat) (hn : n ≠ 0)
    (h1 : -(256 ^ n : Int) ≤ 2 * v) (h2 : 2 * v < (256 ^ n : Int)) : signedWidth v ≤ n := by
  have hcast : (256 : Int) ^ n = ((256 ^ n : Nat) : Int) := by push_cast; rfl
  have hp : 256 ^ n = 2 * 2 ^ (8 * n - 1) := by
    rw [pow256, ← Nat.pow_succ']; congr 1; omega
  rw [hcast, hp] at h1 h2
  have hw : ∀ b : Nat, b ≤ 8 * n - 1 → byteWidth (if b % 8 = 0 then b + 1 else b) ≤ n := by
    intro b hb; unfold byteWidth; split <;> split <;> omega
  unfold signedWidth
  simp only
  split
  · apply hw; rw [bitLength_le]; omega
  · apply hw; rw [bitLength_le]; omega

theorem intToBytes_signed (v : Int) :
    intToBytes v true none = .ok (beBytes (signedWidth v) (v % (256 ^ signedWidth v : Int)).toNat) := by
  have h := signedWidth_fits v
  unfold intToBytes pyToBytes
  simp only [if_true]
  change (if -(256 ^ signedWidth v : Int) ≤ 2 * v ∧ 2 * v < (256 ^ signedWidth v : Int) ∧
    (signedWidth v = 0 → v = 0) then _ else _) = _
  rw [if_pos ⟨h.1, h.2.1, fun h0 => absurd h0 h.2.2⟩]
  rfl

theorem byteWidth_bitLength_fits (n : Nat) : n < 256 ^ byteWidth (bitLength n) := by
  rw [pow256, ← bitLength_le]
  unfold byteWidth; split <;> omega

theorem byteWidth_bitLength_min (n w : Nat) (hw : w ≠ 0) (h : n < 256 ^ w) :
    byteWidth (bitLength n) ≤ w := by
  rw [pow256, ← bitLength_le] at h
  unfold byteWidth; split <;> omega

theorem byteWidth_ne_zero (b : Nat) : byteWidth b ≠ 0 := by unfold byteWidth; split <;> omega

theorem intToBytes_unsigned (n : Nat) :
    intToBytes (n : Int) = .ok (beBytes (byteWidth (bitLength n)) n) := by
  have h := byteWidth_bitLength_fits n
  have h' : (n : Int) < 256 ^ byteWidth (bitLength n) := by exact_mod_cast h
  unfold intToBytes pyToBytes
  simp [h']

theorem fillWidth_eq (bs : Bytes) (w : Nat) :
    fillWidth bs w = List.replicate (w - bs.length) 0 ++ bs := by
  fun_induction fillWidth bs w with
  | case1 bs h ih =>
    rw [ih]
    obtain ⟨k, hk⟩ : ∃ k, w - bs.length = k + 1 := ⟨w - bs.length - 1, by omega⟩
    have : w - (0 :: bs).length = k := by simp; omega
    rw [this, hk, List.replicate_succ', List.append_assoc]; rfl
  | case2 bs h =>
    have : w - bs.length = 0 := by omega
    simp [this]

theorem valU_replicate_zero (k : Nat) : valU (List.replicate k 0) = 0 := by
  induction k with
  | zero => rfl
  | succ k ih => simp [List.replicate_succ, valU, ih]

theorem valU_fillWidth (bs : Bytes) (w : Nat) : valU (fillWidth bs w) = valU bs := by
  simp [fillWidth_eq, valU_append, valU_replicate_zero]

theorem length_fillWidth (bs : Bytes) (w : Nat) : (fillWidth bs w).length = max bs.length w := by
  simp [fillWidth_eq]; omega

end Asn1
