import Verif.Model.Util2
import Verif.Lemmas.Num

/-!
# C79 — Integer conversions under Python 2

`intToBytes2` and `intFromBytes2` (Model/Util2.lean) are what `util.int_to_bytes` and `util.int_from_bytes` are under Python 2, `intToBytes` and `intFromBytes`
what they are under Python 3 (C06).
-/

namespace Asn1.Props
open Asn1 Spec

theorem foldl_hex (bs : Bytes) : ∀ a : Nat, (encodeHex bs).foldl (fun a d => a * 16 + d) a = a * 256 ^ bs.length + valU bs := by
  induction bs with
  | nil => intro a; simp [encodeHex, valU]
  | cons b bs ih =>
    intro a
    simp only [encodeHex, List.foldl_cons, ih, valU, List.length_cons, Nat.pow_succ]
    have : b.toNat = 16 * (b.toNat / 16) + b.toNat % 16 := by omega
    rw [show (a * 16 + b.toNat / 16) * 16 + b.toNat % 16 = a * 256 + b.toNat by omega]
    ring

/-- Reading octets as a number gives the same under Python 2, for all octets. -/
theorem C79_from_bytes (bs : Bytes) (signed : Bool) : intFromBytes2 bs signed = intFromBytes bs signed := by
  unfold intFromBytes2 intFromBytes pyFromBytes
  cases bs with
  | nil => rfl
  | cons b bs =>
    rw [foldl_hex, pyFromBytesU_eq]
    have hp : (2 : Int) ^ ((b :: bs).length * 8) = 256 ^ (b :: bs).length := by
      rw [show (256 : Int) = 2 ^ 8 by rfl, ← pow_mul, Nat.mul_comm]
    simp only [List.cons_ne_nil, if_false, hp, topBit2, Nat.zero_mul, Nat.zero_add]
    cases signed <;> simp

theorem hexText_split (n : Nat) (h : 256 ≤ n) : hexText n = hexText (n / 256) ++ [n / 16 % 16, n % 16] := by
  rw [hexText, if_neg (by omega), hexText, if_neg (by omega), Nat.div_div_eq_div_mul]
  simp

theorem decodeHex_append : ∀ (l : List Nat) (a b : Nat), l.length % 2 = 0 → decodeHex (l ++ [a, b]) = decodeHex l ++ [UInt8.ofNat (16 * a + b)]
  | [], a, b, _ => rfl
  | [_], _, _, h => by simp at h
  | x :: y :: l, a, b, h => by
    simp only [List.cons_append, decodeHex]
    rw [decodeHex_append l a b (by simp only [List.length_cons] at h; omega)]

theorem even_evenDigits (l : List Nat) : (evenDigits l).length % 2 = 0 := by
  unfold evenDigits
  split
  · simp only [List.length_cons]; omega
  · omega

/-- The octets of a number by way of its text. -/
abbrev hexTextBytes (n : Nat) : Bytes := decodeHex (evenDigits (hexText n))

theorem byteWidth_div (n : Nat) (h : 256 ≤ n) : byteWidth (bitLength n) = byteWidth (bitLength (n / 256)) + 1 := by
  have h1 := byteWidth_bitLength_fits (n / 256)
  have h2 := byteWidth_bitLength_fits n
  have h3 := byteWidth_ne_zero (bitLength n)
  apply Nat.le_antisymm
  · refine byteWidth_bitLength_min n _ (by omega) ?_
    rw [Nat.pow_succ]
    omega
  · obtain ⟨w, hw⟩ := Nat.exists_eq_succ_of_ne_zero h3
    rw [hw] at h2 ⊢
    have h4 : n / 256 < 256 ^ w := by rw [Nat.pow_succ] at h2; omega
    have hw0 : w ≠ 0 := by rintro rfl; simp at h4; omega
    have := byteWidth_bitLength_min (n / 256) w hw0 h4
    omega

theorem hexBytes_eq (n : Nat) : hexTextBytes n = beBytes (byteWidth (bitLength n)) n := by
  induction n using Nat.strongRecOn with
  | _ n ih =>
    by_cases h : n < 256
    · have hw : byteWidth (bitLength n) = 1 :=
        Nat.le_antisymm (byteWidth_bitLength_min n 1 (by omega) (by simpa using h)) (Nat.one_le_iff_ne_zero.mpr (byteWidth_ne_zero _))
      rw [hw]
      by_cases h16 : n < 16
      · rw [hexTextBytes, hexText, if_pos h16]
        simp [evenDigits, decodeHex, beBytes, Nat.mod_eq_of_lt h]
      · rw [hexTextBytes, hexText, if_neg h16, hexText, if_pos (by omega)]
        have e : 16 * (n / 16) + n % 16 = n := by omega
        simp [evenDigits, decodeHex, beBytes, Nat.mod_eq_of_lt h, e]
    · have h' : 256 ≤ n := by omega
      have e : evenDigits (hexText n) = evenDigits (hexText (n / 256)) ++ [n / 16 % 16, n % 16] := by
        rw [hexText_split n h']
        unfold evenDigits
        simp only [List.length_append, List.length_cons, List.length_nil]
        split <;> split <;> first | rfl | omega
      rw [hexTextBytes, e, decodeHex_append _ _ _ (even_evenDigits _), byteWidth_div n h']
      have := ih (n / 256) (by omega)
      rw [hexTextBytes] at this
      rw [this]
      simp only [beBytes]
      rw [show 16 * (n / 16 % 16) + n % 16 = n % 256 by omega]

theorem length_decodeHex : ∀ l : List Nat, (decodeHex l).length = l.length / 2
  | [] => rfl
  | [_] => by simp [decodeHex]
  | a :: b :: l => by
    simp only [decodeHex, List.length_cons, length_decodeHex l]
    omega

/-- Half the number of hexadecimal digits is the number of octets. -/
theorem half_digits (n : Nat) : ((hexText n).length + 1) / 2 = byteWidth (bitLength n) := by
  have h : (hexTextBytes n).length = byteWidth (bitLength n) := by rw [hexBytes_eq, beBytes_length]
  rw [hexTextBytes, length_decodeHex] at h
  rw [← h]
  unfold evenDigits
  split
  · simp only [List.length_cons]
  · omega

theorem topBit_iff (bs : Bytes) (h : bs ≠ []) : topBit2 bs = true ↔ 256 ^ bs.length ≤ 2 * valU bs := by
  cases bs with
  | nil => exact absurd rfl h
  | cons b bs =>
    have hv := valU_lt bs
    simp only [topBit2, ge_iff_le, decide_eq_true_eq, valU, List.length_cons, Nat.pow_succ, UInt8.le_iff_toNat_le]
    have hb : (128 : UInt8).toNat = 128 := rfl
    rw [hb]
    generalize 256 ^ bs.length = p at *
    constructor
    · intro hb
      have := Nat.mul_le_mul_right p hb
      omega
    · intro h
      by_contra hc
      have := Nat.mul_le_mul_right p (show b.toNat ≤ 127 by omega)
      omega

theorem valS_top (bs : Bytes) : valS bs = if topBit2 bs then (valU bs : Int) - 256 ^ bs.length else valU bs := by
  cases bs with
  | nil => simp [valS, topBit2, valU]
  | cons b bs =>
    simp only [valS, topBit2, ge_iff_le, decide_eq_true_eq, UInt8.le_iff_toNat_le, List.length_cons]
    have hb : (128 : UInt8).toNat = 128 := rfl
    rw [hb]
    by_cases h : b.toNat < 128
    · rw [if_pos h, if_neg (by omega)]
    · rw [if_neg h, if_pos (by omega)]

theorem hexBytes_ne (n : Nat) : hexTextBytes n ≠ [] := by
  rw [hexBytes_eq]
  intro h
  have := beBytes_length (byteWidth (bitLength n)) n
  rw [h] at this
  exact byteWidth_ne_zero _ this.symm

theorem valU_hexBytes (n : Nat) : valU (hexTextBytes n) = n := by
  rw [hexBytes_eq, valU_beBytes, Nat.mod_eq_of_lt (byteWidth_bitLength_fits n)]

theorem length_hexBytes (n : Nat) : (hexTextBytes n).length = byteWidth (bitLength n) := by rw [hexBytes_eq, beBytes_length]

theorem topBit_hexBytes (n : Nat) : topBit2 (hexTextBytes n) = true ↔ 256 ^ byteWidth (bitLength n) ≤ 2 * n := by
  rw [topBit_iff _ (hexBytes_ne n), valU_hexBytes, length_hexBytes]

/-- The octets of a number that is not negative, with a sign octet if one is needed. -/
def natBytes2 (signed : Bool) (n : Nat) : Bytes := if signed && topBit2 (hexTextBytes n) then 0 :: hexTextBytes n else hexTextBytes n

theorem valU_natBytes (signed : Bool) (n : Nat) : valU (natBytes2 signed n) = n := by
  unfold natBytes2
  split
  · simp only [valU, valU_hexBytes]; simp
  · exact valU_hexBytes n

theorem natBytes_signed_length (n : Nat) : (natBytes2 true n).length = signedWidth n := by
  obtain ⟨-, f2, f3⟩ := signedWidth_fits (n : Int)
  have f2' : 2 * n < 256 ^ signedWidth n := by exact_mod_cast f2
  have low : ∀ w, w ≠ 0 → 2 * n < 256 ^ w → signedWidth n ≤ w := fun w hw h =>
    signedWidth_min n w hw (by have : (0 : Int) ≤ 256 ^ w := by positivity
                               omega) (by exact_mod_cast h)
  have hw := byteWidth_bitLength_min n _ f3 (by omega)
  have h1 := byteWidth_bitLength_fits n
  unfold natBytes2
  by_cases ht : topBit2 (hexTextBytes n) = true
  · have h2 := (topBit_hexBytes n).mp ht
    simp only [ht, Bool.and_self, if_true, List.length_cons, length_hexBytes]
    apply Nat.le_antisymm
    · by_contra hc
      have : signedWidth n = byteWidth (bitLength n) := by omega
      rw [this] at f2'
      omega
    · exact low _ (by omega) (by rw [Nat.pow_succ]; omega)
  · have h2 := mt (topBit_hexBytes n).mpr ht
    simp only [ht, Bool.and_false, Bool.false_eq_true, if_false, length_hexBytes]
    exact Nat.le_antisymm hw (low _ (byteWidth_ne_zero _) (by omega))

theorem natBytes_length_le (signed : Bool) (n w : Nat) (hw : w ≠ 0) :
    (natBytes2 signed n).length ≤ w ↔ if signed then 2 * n < 256 ^ w else n < 256 ^ w := by
  cases signed
  · have h1 := byteWidth_bitLength_fits n
    simp only [natBytes2, Bool.false_and, Bool.false_eq_true, if_false, length_hexBytes]
    exact ⟨fun h => Nat.lt_of_lt_of_le h1 (Nat.pow_le_pow_right (by decide) h), fun h => byteWidth_bitLength_min n w hw h⟩
  · rw [natBytes_signed_length]
    obtain ⟨-, f2, f3⟩ := signedWidth_fits (n : Int)
    have f2' : 2 * n < 256 ^ signedWidth n := by exact_mod_cast f2
    simp only [if_true]
    refine ⟨fun h => Nat.lt_of_lt_of_le f2' (Nat.pow_le_pow_right (by decide) h), fun h => ?_⟩
    exact signedWidth_min n w hw (by have : (0 : Int) ≤ 256 ^ w := by positivity
                                     omega) (by exact_mod_cast h)

theorem natBytes_ne (signed : Bool) (n : Nat) : natBytes2 signed n ≠ [] := by
  unfold natBytes2
  split
  · simp
  · exact hexBytes_ne n

theorem intToBytes2_nat (signed : Bool) (n : Nat) (width : Option Nat) : intToBytes2 n signed width =
    if n = 0 ∧ width = some 0 then .ok [] else match width with
      | some w => if (natBytes2 signed n).length > w then .error .overflowError
        else .ok (List.replicate (w - (natBytes2 signed n).length) 0 ++ natBytes2 signed n)
      | none => .ok (natBytes2 signed n) := by
  have hn : ¬ ((n : Int) < 0) := by omega
  unfold intToBytes2 natBytes2 hexTextBytes
  simp only [hn, decide_false, Bool.and_false, Bool.false_eq_true, if_false, Int.toNat_natCast, Bool.not_false, Bool.and_true, Bool.false_and, Int.natCast_eq_zero]
  cases width <;> rfl

/-- Numbers that are not negative are written the same under Python 2, signed or not, with or without a width, and are refused for the same widths. -/
theorem C79_not_negative (n : Nat) (signed : Bool) (width : Option Nat) : intToBytes2 n signed width = intToBytes n signed width := by
  rw [intToBytes2_nat]
  have hmod : ∀ w, 2 * n < 256 ^ w → ((n : Int) % (256 ^ w : Int)).toNat = n := by
    intro w h
    have h' : (n : Int) < 256 ^ w := by
      have : n < 256 ^ w := by omega
      exact_mod_cast this
    rw [Int.emod_eq_of_lt (by omega) h', Int.toNat_natCast]
  have key : ∀ w, w ≠ 0 → (natBytes2 signed n).length ≤ w → pyToBytes n w signed = .ok (List.replicate (w - (natBytes2 signed n).length) 0 ++ natBytes2 signed n) := by
    intro w hw hl
    have hb : List.replicate (w - (natBytes2 signed n).length) 0 ++ natBytes2 signed n = beBytes w n := by
      have h1 := (natBytes_length_le signed n w hw).mp hl
      have h2 : n < 256 ^ w := by cases signed <;> simp at h1 <;> omega
      apply valU_inj
      · simp only [List.length_append, List.length_replicate, beBytes_length]; omega
      · rw [valU_append, valU_replicate_zero, valU_natBytes, valU_beBytes, Nat.mod_eq_of_lt h2]; omega
    rw [hb]
    have h1 := (natBytes_length_le signed n w hw).mp hl
    unfold pyToBytes
    cases signed
    · simp only [Bool.false_eq_true, if_false] at h1 ⊢
      rw [if_pos ⟨by omega, by exact_mod_cast h1⟩, Int.toNat_natCast]
    · simp only [if_true] at h1 ⊢
      rw [if_pos ⟨by have : (0 : Int) ≤ 256 ^ w := by positivity
                     omega, by exact_mod_cast h1, fun h => absurd h hw⟩, hmod w h1]
  have bad : ∀ w, w ≠ 0 → (natBytes2 signed n).length > w → pyToBytes n w signed = .error .overflowError := by
    intro w hw hl
    have h1 := mt (natBytes_length_le signed n w hw).mpr (by omega)
    unfold pyToBytes
    cases signed
    · simp only [Bool.false_eq_true, if_false] at h1 ⊢
      rw [if_neg]
      rintro ⟨-, h⟩
      exact h1 (by exact_mod_cast h)
    · simp only [if_true] at h1 ⊢
      rw [if_neg]
      rintro ⟨-, h, -⟩
      exact h1 (by exact_mod_cast h)
  have hlen : (natBytes2 signed n).length ≠ 0 := fun h => natBytes_ne signed n (List.length_eq_zero_iff.mp h)
  cases width with
  | some w =>
    simp only [intToBytes]
    by_cases hw : w = 0
    · subst hw
      by_cases h0 : n = 0
      · subst h0
        rw [if_pos ⟨rfl, rfl⟩]
        cases signed <;> rfl
      · rw [if_neg (fun h => h0 h.1), if_pos (by omega)]
        unfold pyToBytes
        cases signed
        · simp only [Bool.false_eq_true, if_false]
          rw [if_neg]
          rintro ⟨-, h⟩
          simp at h
          omega
        · simp only [if_true]
          rw [if_neg]
          rintro ⟨-, -, h⟩
          have := h trivial
          omega
    · rw [if_neg (fun h => hw (Option.some.inj h.2))]
      by_cases hl : (natBytes2 signed n).length > w
      · rw [if_pos hl, bad w hw hl]
      · rw [if_neg hl, key w hw (by omega)]
  | none =>
    rw [if_neg (fun h => nomatch h.2)]
    have h3 : intToBytes n signed none = pyToBytes n (natBytes2 signed n).length signed := by
      cases signed
      · simp [intToBytes, natBytes2, length_hexBytes]
      · rw [natBytes_signed_length]
        simp [intToBytes, signedWidth]
    rw [h3, key _ hlen (Nat.le_refl _)]
    simp

/-- Non-vacuity: 128 needs an octet for the sign. -/
example : intToBytes2 128 true = .ok [0, 128] ∧ intToBytes2 128 = .ok [128] ∧ intToBytes2 128 true (some 1) = .error .overflowError := by decide +kernel

/-! ### Negative numbers -/

/-- The octets written for the number `-m` without a width. -/
theorem intToBytes2_neg (m : Nat) (hm : m ≠ 0) : intToBytes2 (-(m : Int)) true none =
    .ok (if topBit2 (hexTextBytes (256 ^ byteWidth (bitLength m) - m)) then hexTextBytes (256 ^ byteWidth (bitLength m) - m)
      else 0xff :: hexTextBytes (256 ^ byteWidth (bitLength m) - m)) := by
  have hf := byteWidth_bitLength_fits m
  have hlt : (-(m : Int)) < 0 := by omega
  have hp : (2 : Int) ^ (byteWidth (bitLength m) * 8) = ((256 ^ byteWidth (bitLength m) : Nat) : Int) := by
    push_cast
    rw [show (256 : Int) = 2 ^ 8 by rfl, ← pow_mul, Nat.mul_comm]
  unfold intToBytes2
  simp only [hlt, decide_true, Bool.and_self, if_true, Int.natAbs_neg, Int.natAbs_natCast, half_digits, hp, reduceCtorEq, and_false, if_false, Bool.not_true,
    Bool.and_false, Bool.false_and, Bool.true_and, Bool.false_eq_true]
  generalize 256 ^ byteWidth (bitLength m) = M at *
  have e : (-(m : Int) + (M : Int)) % (M : Int) = ((M - m : Nat) : Int) := by
    rw [Int.emod_eq_of_lt (by omega) (by omega)]
    omega
  rw [e, if_neg (by omega), Int.toNat_natCast]
  show _ = Except.ok (if topBit2 (hexTextBytes (M - m)) = true then _ else _)
  by_cases h : topBit2 (hexTextBytes (M - m)) = true
  · have h' : topBit2 (decodeHex (evenDigits (hexText (M - m)))) = true := h
    simp [h']
  · have h' : topBit2 (decodeHex (evenDigits (hexText (M - m)))) = false := by simpa using h
    simp [h']

/-- The number that these octets stand for. -/
theorem valS_neg (x : Nat) : valS (if topBit2 (hexTextBytes x) then hexTextBytes x else 0xff :: hexTextBytes x) = (x : Int) - 256 ^ byteWidth (bitLength x) := by
  split
  · next h => rw [valS_top, if_pos h, valU_hexBytes, length_hexBytes]
  · have ht : topBit2 (0xff :: hexTextBytes x) = true := by simp [topBit2]
    rw [valS_top, if_pos ht]
    simp only [valU, valU_hexBytes, List.length_cons, length_hexBytes, pow_succ]
    have : (255 : UInt8).toNat = 255 := rfl
    rw [this]
    push_cast
    ring

/-- `m` is an octet FF followed by other octets that are not all zero. -/
def FfAndMore (m : Nat) : Prop := ∃ k, 255 * 256 ^ (k + 1) < m ∧ m < 256 ^ (k + 2)

theorem ffAndMore_iff (m : Nat) (hm : m ≠ 0) : FfAndMore m ↔ byteWidth (bitLength (256 ^ byteWidth (bitLength m) - m)) ≠ byteWidth (bitLength m) := by
  have hf := byteWidth_bitLength_fits m
  have h0 := byteWidth_ne_zero (bitLength m)
  have hle : byteWidth (bitLength (256 ^ byteWidth (bitLength m) - m)) ≤ byteWidth (bitLength m) := byteWidth_bitLength_min _ _ h0 (by omega)
  constructor
  · rintro ⟨k, h1, h2⟩ he
    have hw : byteWidth (bitLength m) = k + 2 := by
      apply Nat.le_antisymm
      · exact byteWidth_bitLength_min m _ (by omega) h2
      · by_contra hc
        have h3 : 256 ^ byteWidth (bitLength m) ≤ 256 ^ (k + 1) := Nat.pow_le_pow_right (by decide) (by omega)
        omega
    rw [hw] at he
    have h3 : byteWidth (bitLength (256 ^ (k + 2) - m)) ≤ k + 1 := byteWidth_bitLength_min _ _ (by omega) (by
      have : 256 ^ (k + 2) = 256 ^ (k + 1) * 256 := Nat.pow_succ ..
      omega)
    omega
  · intro he
    have h1 := byteWidth_ne_zero (bitLength (256 ^ byteWidth (bitLength m) - m))
    have h2 := byteWidth_bitLength_fits (256 ^ byteWidth (bitLength m) - m)
    obtain ⟨k, hk⟩ : ∃ k, byteWidth (bitLength m) = k + 2 := ⟨byteWidth (bitLength m) - 2, by omega⟩
    refine ⟨k, ?_, by rwa [hk] at hf⟩
    rw [hk] at h2 he hle
    have h3 : 256 ^ byteWidth (bitLength (256 ^ (k + 2) - m)) ≤ 256 ^ (k + 1) := Nat.pow_le_pow_right (by decide) (by omega)
    have : 256 ^ (k + 2) = 256 ^ (k + 1) * 256 := Nat.pow_succ ..
    omega

/-- Negative numbers are written the same without a width exactly when their absolute value is not an octet FF followed by octets that are not all zero. -/
theorem C79_negative_iff (m : Nat) (hm : m ≠ 0) : intToBytes2 (-(m : Int)) true = intToBytes (-(m : Int)) true ↔ ¬ FfAndMore m := by
  rw [ffAndMore_iff m hm, intToBytes2_neg m hm, intToBytes_signed, not_not]
  obtain ⟨f1, f2, f3⟩ := signedWidth_fits (-(m : Int))
  have hval := valS_beBytes _ _ f3 f1 f2
  have hf := byteWidth_bitLength_fits m
  have h0 := byteWidth_ne_zero (bitLength m)
  have hx := valS_neg (256 ^ byteWidth (bitLength m) - m)
  generalize hW : byteWidth (bitLength m) = B at *
  have hcast : ((256 ^ B - m : Nat) : Int) = 256 ^ B - m := by
    rw [Int.natCast_sub (by omega)]
    push_cast
    rfl
  constructor
  · intro h
    replace h := Except.ok.inj h
    rw [h, hval, hcast] at hx
    have : (256 : Int) ^ byteWidth (bitLength (256 ^ B - m)) = 256 ^ B := by omega
    have : 256 ^ byteWidth (bitLength (256 ^ B - m)) = 256 ^ B := by exact_mod_cast this
    exact Nat.pow_right_injective (Nat.le_refl 2 |>.trans (by decide)) this
  · intro he
    have f1' : 2 * m ≤ 256 ^ signedWidth (-(m : Int)) := by
      have : 2 * (m : Int) ≤ 256 ^ signedWidth (-(m : Int)) := by omega
      exact_mod_cast this
    have hB : B ≤ signedWidth (-(m : Int)) := by
      rw [← hW]
      exact byteWidth_bitLength_min m _ f3 (by omega)
    have low : ∀ w, w ≠ 0 → 2 * m ≤ 256 ^ w → signedWidth (-(m : Int)) ≤ w := fun w hw h =>
      signedWidth_min _ w hw (by have : 2 * (m : Int) ≤ 256 ^ w := by exact_mod_cast h
                                 omega) (by have : (0 : Int) < 256 ^ w := by positivity
                                            omega)
    congr 1
    apply valS_inj
    · rw [beBytes_length]
      split
      · next ht =>
        rw [topBit_hexBytes, he] at ht
        rw [length_hexBytes, he]
        exact Nat.le_antisymm hB (low B h0 (by omega))
      · next ht =>
        rw [topBit_hexBytes, he] at ht
        rw [List.length_cons, length_hexBytes, he]
        apply Nat.le_antisymm
        · by_contra hc
          have : signedWidth (-(m : Int)) = B := by omega
          rw [this] at f1'
          omega
        · exact low _ (by omega) (by rw [Nat.pow_succ]; omega)
    · rw [hx, hval, he, hcast]
      omega

/-- **The property fails for these numbers**: each of them is written as another number under Python 2. -/
theorem C79_negative_fails (m : Nat) (h : FfAndMore m) : ∃ b, intToBytes2 (-(m : Int)) true = .ok b ∧ intFromBytes b true ≠ -(m : Int) := by
  have hm : m ≠ 0 := by
    obtain ⟨k, h, -⟩ := h
    omega
  refine ⟨_, intToBytes2_neg m hm, ?_⟩
  rw [ffAndMore_iff m hm] at h
  rw [intFromBytes_signed, valS_neg]
  have hf := byteWidth_bitLength_fits m
  intro e
  rw [Int.natCast_sub (by omega)] at e
  push_cast at e
  have : (256 : Int) ^ byteWidth (bitLength (256 ^ byteWidth (bitLength m) - m)) = 256 ^ byteWidth (bitLength m) := by omega
  have : 256 ^ byteWidth (bitLength (256 ^ byteWidth (bitLength m) - m)) = 256 ^ byteWidth (bitLength m) := by exact_mod_cast this
  exact h (Nat.pow_right_injective (Nat.le_refl 2 |>.trans (by decide)) this)

/-- Python 2 writes -65535 as the octets of -255; -255 itself is written as it should be. -/
example : FfAndMore 65535 ∧ ¬ FfAndMore 255 ∧ intToBytes2 (-65535) true = .ok [0xff, 1] ∧ intToBytes (-65535) true = .ok [0xff, 0, 1] ∧
    intFromBytes2 [0xff, 1] true = -255 := by
  refine ⟨⟨0, by decide, by decide⟩, ?_, by decide +kernel, by decide +kernel, by decide +kernel⟩
  rintro ⟨k, h, -⟩
  have : 1 ≤ 256 ^ k := Nat.one_le_two_pow.trans (Nat.pow_le_pow_left (by decide) k)
  rw [Nat.pow_succ] at h
  omega

theorem valU_replicate_ff (k : Nat) : valU (List.replicate k 0xff) + 1 = 256 ^ k := by
  induction k with
  | zero => rfl
  | succ k ih =>
    have : (255 : UInt8).toNat = 255 := rfl
    simp only [List.replicate_succ, valU, List.length_replicate, this, Nat.pow_succ]
    omega

/-- The other negative numbers are written the same with a width they fit in. Missing from the property: numbers as in `C79_negative_fails`, and widths that are too
small, see `C79_width_fails`. -/
theorem C79_negative_width_partial (m w : Nat) (hm : m ≠ 0) (hw : 2 * m ≤ 256 ^ w) (hn : ¬ FfAndMore m) :
    intToBytes2 (-(m : Int)) true (some w) = intToBytes (-(m : Int)) true (some w) := by
  rw [ffAndMore_iff m hm, not_not] at hn
  have hw0 : w ≠ 0 := by rintro rfl; simp at hw; omega
  have hf := byteWidth_bitLength_fits m
  have hB : byteWidth (bitLength m) ≤ w := byteWidth_bitLength_min m w hw0 (by omega)
  have hlt : (-(m : Int)) < 0 := by omega
  have hp : (2 : Int) ^ (byteWidth (bitLength m) * 8) = ((256 ^ byteWidth (bitLength m) : Nat) : Int) := by
    push_cast
    rw [show (256 : Int) = 2 ^ 8 by rfl, ← pow_mul, Nat.mul_comm]
  have hv := valU_hexBytes (256 ^ byteWidth (bitLength m) - m)
  have hl := length_hexBytes (256 ^ byteWidth (bitLength m) - m)
  rw [hn] at hl
  unfold intToBytes2
  simp only [hlt, decide_true, Bool.and_self, if_true, Int.natAbs_neg, Int.natAbs_natCast, half_digits, hp, Bool.not_true, Bool.and_false, Bool.false_and,
    Bool.false_eq_true, if_false]
  generalize byteWidth (bitLength m) = B at *
  have e : (-(m : Int) + ((256 ^ B : Nat) : Int)) % ((256 ^ B : Nat) : Int) = ((256 ^ B - m : Nat) : Int) := by
    generalize 256 ^ B = M at *
    rw [Int.emod_eq_of_lt (by omega) (by omega)]
    omega
  rw [e, if_neg (by omega), if_neg (by omega), Int.toNat_natCast]
  change (if (hexTextBytes (256 ^ B - m)).length > w then _ else Except.ok (List.replicate (w - (hexTextBytes (256 ^ B - m)).length) 0xff ++ hexTextBytes (256 ^ B - m))) = _
  rw [hl, if_neg (by omega)]
  have hW : (256 : Int) ^ w = ((256 ^ w : Nat) : Int) := by push_cast; rfl
  unfold intToBytes pyToBytes
  simp only [if_true]
  rw [hW, if_pos ⟨by omega, by omega, fun h => absurd h hw0⟩]
  have e2 : (-(m : Int) % ((256 ^ w : Nat) : Int)).toNat = 256 ^ w - m := by
    have : -(m : Int) % ((256 ^ w : Nat) : Int) = ((256 ^ w : Nat) : Int) - m := by
      rw [← Int.add_emod_right, Int.emod_eq_of_lt (by omega) (by omega)]
      omega
    rw [this]
    omega
  rw [e2]
  congr 1
  apply valU_inj
  · simp only [List.length_append, List.length_replicate, hl, beBytes_length]
    omega
  · rw [valU_append, hv, hl, valU_beBytes, Nat.mod_eq_of_lt (by omega)]
    have h1 := valU_replicate_ff (w - B)
    have h2 : 256 ^ w = 256 ^ (w - B) * 256 ^ B := by rw [← Nat.pow_add]; congr 1; omega
    rw [h2, ← h1, Nat.add_mul, Nat.one_mul]
    omega

/-- Non-vacuity: -255 in four octets. -/
example : intToBytes2 (-255) true (some 4) = .ok [0xff, 0xff, 0xff, 1] := by decide +kernel

/-- **It fails for widths that are too small**: -255 does not fit in one octet, which Python 3 says, but Python 2 writes the octet of 1. -/
theorem C79_width_fails : intToBytes2 (-255) true (some 1) = .ok [1] ∧ intToBytes (-255) true (some 1) = .error .overflowError := by decide +kernel

/-- **It fails for negative numbers without sign**: both refuse them, but not with the same exception. -/
theorem C79_unsigned_fails (v : Int) (hv : v < 0) (width : Option Nat) :
    intToBytes2 v false width = .error .typeError ∧ intToBytes v false width = .error .overflowError := by
  constructor
  · unfold intToBytes2
    rw [if_neg (by omega)]
    simp [hv]
  · unfold intToBytes pyToBytes
    simp only [Bool.false_eq_true, if_false]
    rw [if_neg (by omega)]

end Asn1.Props
