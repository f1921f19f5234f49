import Verif.Model.Strings
import Verif.Spec.Bits
import Verif.Lemmas.Num
import Mathlib.Tactic.Ring
import Mathlib.Tactic.Linarith

/-! # Lemmas on bit lists -/

namespace Asn1
open Spec

theorem valBits_append (a b : List Bool) : valBits (a ++ b) = valBits a * 2 ^ b.length + valBits b := by
  induction a with
  | nil => simp [valBits]
  | cons x xs ih => simp only [List.cons_append, valBits, ih, List.length_append]; ring

theorem valBits_lt (a : List Bool) : valBits a < 2 ^ a.length := by
  induction a with
  | nil => simp [valBits]
  | cons x xs ih =>
    simp only [valBits, List.length_cons, Nat.pow_succ]
    cases x <;> simp <;> omega

theorem natOfBits_go (bits : List Bool) : ∀ acc, bits.foldl (fun acc b => 2 * acc + b.toNat) acc = acc * 2 ^ bits.length + valBits bits := by
  induction bits with
  | nil => intro acc; simp [valBits]
  | cons b bs ih => intro acc; simp only [List.foldl_cons, ih, valBits, List.length_cons]; ring

theorem natOfBits_eq (bits : List Bool) : natOfBits bits = valBits bits := by
  unfold natOfBits; rw [natOfBits_go]; simp

theorem valBits_inj : ∀ (a b : List Bool), a.length = b.length → valBits a = valBits b → a = b
  | [], [], _, _ => rfl
  | [], _ :: _, h, _ => by simp at h
  | _ :: _, [], h, _ => by simp at h
  | x :: xs, y :: ys, h, hv => by
    simp only [List.length_cons, Nat.add_right_cancel_iff] at h
    have h1 := valBits_lt xs
    have h2 := valBits_lt ys
    simp only [valBits, h] at hv h1
    have hxy : x = y := by
      cases x <;> cases y <;> simp at hv ⊢ <;> omega
    subst hxy
    rw [valBits_inj xs ys h (by omega)]

theorem valBits_replicate (k : Nat) : valBits (List.replicate k false) = 0 := by
  induction k with
  | zero => rfl
  | succ k ih => simp [List.replicate_succ, valBits, ih]

theorem length_byteBits (b : UInt8) : (byteBits b).length = 8 := by simp [byteBits]

theorem valBits_byteBits (b : UInt8) : valBits (byteBits b) = b.toNat := by
  have h : ∀ n < 256, valBits ((List.range 8).map (fun i => n.testBit (7 - i))) = n := by decide +kernel
  exact h _ b.toNat_lt

theorem length_bitsOf (bs : Bytes) : (bitsOf bs).length = 8 * bs.length := by
  induction bs with
  | nil => rfl
  | cons b bs ih =>
    have : bitsOf (b :: bs) = byteBits b ++ bitsOf bs := rfl
    rw [this, List.length_append, length_byteBits, ih, List.length_cons]; omega

theorem valBits_bitsOf (bs : Bytes) : valBits (bitsOf bs) = valU bs := by
  induction bs with
  | nil => rfl
  | cons b bs ih =>
    have : bitsOf (b :: bs) = byteBits b ++ bitsOf bs := rfl
    rw [this, valBits_append, valBits_byteBits, ih, length_bitsOf, valU, ← pow256]

theorem bitsOf_inj {a b : Bytes} (h : bitsOf a = bitsOf b) : a = b := by
  have hl := congrArg List.length h
  rw [length_bitsOf, length_bitsOf] at hl
  refine valU_inj a b (by omega) ?_
  rw [← valBits_bitsOf, ← valBits_bitsOf, h]

theorem bitsOf_beBytes (k : Nat) (bits : List Bool) (h : bits.length = 8 * k) : bitsOf (beBytes k (valBits bits)) = bits := by
  refine valBits_inj _ _ (by rw [length_bitsOf, beBytes_length, h]) ?_
  rw [valBits_bitsOf, valU_beBytes, Nat.mod_eq_of_lt]
  rw [pow256, ← h]; exact valBits_lt bits

theorem valBits_binDigits (n : Nat) : valBits (binDigits n) = n := by
  induction n using Nat.strongRecOn with
  | _ n ih =>
    rw [binDigits]
    split
    · next h =>
      have : n = 0 ∨ n = 1 := by omega
      rcases this with rfl | rfl <;> rfl
    · next h =>
      rw [valBits_append, ih _ (by omega)]
      have : n % 2 = 0 ∨ n % 2 = 1 := by omega
      rcases this with h' | h' <;> simp [valBits, h'] <;> omega

theorem length_binDigits_le (n : Nat) : ∀ k, k ≠ 0 → n < 2 ^ k → (binDigits n).length ≤ k := by
  induction n using Nat.strongRecOn with
  | _ n ih =>
    intro k hk hn
    rw [binDigits]
    split
    · simp; omega
    · next h =>
      obtain ⟨j, rfl⟩ : ∃ j, k = j + 1 := ⟨k - 1, by omega⟩
      have hj : j ≠ 0 := by rintro rfl; simp at hn; omega
      rw [List.length_append]
      have := ih (n / 2) (by omega) j hj (by rw [Nat.pow_succ] at hn; omega)
      simp; omega

theorem binDigits_ne_nil (n : Nat) : binDigits n ≠ [] := by
  rw [binDigits]; split <;> simp

/-- `_int_to_bit_tuple` writes the value in the given number of bits. -/
theorem intToBitTuple_ok (bits : List Bool) : intToBitTuple (valBits bits) bits.length = .ok bits := by
  unfold intToBitTuple
  have hlt := valBits_lt bits
  by_cases hb : bits.length = 0
  · have : bits = [] := List.length_eq_zero_iff.mp hb
    subst this
    simp [valBits]
  · have hle := length_binDigits_le _ _ hb hlt
    rw [if_neg (by tauto)]
    simp only [List.length_append, List.length_replicate]
    rw [if_neg (by omega)]
    congr 1
    refine valBits_inj _ _ (by simp; omega) ?_
    rw [valBits_append, valBits_replicate, valBits_binDigits]
    simp

theorem intToBitTuple_ok' {v n : Nat} {bits : List Bool} (h1 : valBits bits = v) (h2 : bits.length = n) :
    intToBitTuple v n = .ok bits := by
  subst h1 h2; exact intToBitTuple_ok bits

theorem exists_bits (v n : Nat) (h : v < 2 ^ n) : ∃ bits : List Bool, bits.length = n ∧ valBits bits = v := by
  induction n generalizing v with
  | zero => exact ⟨[], rfl, by simp [valBits]; omega⟩
  | succ n ih =>
    obtain ⟨bs, h1, h2⟩ := ih (v % 2 ^ n) (Nat.mod_lt _ (by positivity))
    have hd : v / 2 ^ n < 2 := by
      rw [Nat.div_lt_iff_lt_mul (by positivity)]; rw [Nat.pow_succ] at h; omega
    have hdm := Nat.div_add_mod v (2 ^ n)
    refine ⟨(decide (v / 2 ^ n = 1)) :: bs, by simp [h1], ?_⟩
    simp only [valBits, h1, h2]
    have : v / 2 ^ n = 0 ∨ v / 2 ^ n = 1 := by generalize v / 2 ^ n = q at hd; omega
    rcases this with h' | h'
    · rw [h'] at hdm; simp only [h', Nat.zero_ne_one, decide_false, Bool.toNat_false, Nat.zero_mul]; omega
    · rw [h'] at hdm; simp only [h', decide_true, Bool.toNat_true]; omega

/-- Contents computed by `BitString.set`. -/
theorem bitsContents_spec (bits : List Bool) :
    ∃ c extra, bitsContents bits = .ok (c, extra) ∧ BitContents bits c ∧ extra = (8 - bits.length % 8) % 8 ∧
      c.length = (bits.length + 7) / 8 + 1 := by
  have hk : ∃ extra, (if bits.length % 8 ≠ 0 then 8 - bits.length % 8 else 0) = extra ∧ extra = (8 - bits.length % 8) % 8 ∧
      extra < 8 ∧ bits.length + extra = 8 * ((bits.length + 7) / 8) := by
    refine ⟨_, rfl, ?_⟩
    split <;> omega
  obtain ⟨extra, he, he1, he2, he3⟩ := hk
  have hvlen : (bits ++ List.replicate extra false).length = 8 * ((bits.length + 7) / 8) := by
    rw [List.length_append, List.length_replicate, he3]
  have heb : extraByte extra = .ok [UInt8.ofNat extra] := by
    have : ∀ e < 8, extraByte e = .ok [UInt8.ofNat e] := by decide +kernel
    exact this extra he2
  have hvb : ∃ vb, valueBytes (bits ++ List.replicate extra false) = .ok vb ∧
      List.replicate ((bits.length + 7) / 8 - vb.length) 0 ++ vb = beBytes ((bits.length + 7) / 8) (valBits (bits ++ List.replicate extra false)) ∧
      vb.length ≤ (bits.length + 7) / 8 := by
    unfold valueBytes
    split
    · next h =>
      rw [h] at hvlen
      simp only [List.length_nil] at hvlen
      have h0 : (bits.length + 7) / 8 = 0 := by omega
      exact ⟨[], rfl, by rw [h0]; rfl, by simp⟩
    · next h =>
      rw [natOfBits_eq, intToBytes_unsigned]
      refine ⟨_, rfl, ?_⟩
      have hpos : (bits.length + 7) / 8 ≠ 0 := by
        intro h0
        apply h
        rw [h0] at hvlen
        exact List.length_eq_zero_iff.mp hvlen
      have hlt : valBits (bits ++ List.replicate extra false) < 256 ^ ((bits.length + 7) / 8) := by
        rw [pow256, ← hvlen]; exact valBits_lt _
      have hle := byteWidth_bitLength_min _ _ hpos hlt
      constructor
      · refine valU_inj _ _ (by simp; omega) ?_
        rw [valU_append, valU_replicate_zero, valU_beBytes, valU_beBytes, Nat.mod_eq_of_lt hlt,
          Nat.mod_eq_of_lt (byteWidth_bitLength_fits _)]
        simp
      · simpa using hle
  obtain ⟨vb, hv1, hv2, hv3⟩ := hvb
  have hbody : (if vb.length ≠ (bits.length + 7) / 8 then List.replicate ((bits.length + 7) / 8 - vb.length) 0 ++ vb else vb) =
      beBytes ((bits.length + 7) / 8) (valBits (bits ++ List.replicate extra false)) := by
    split
    · exact hv2
    · next h =>
      have : (bits.length + 7) / 8 - vb.length = 0 := by omega
      rw [this] at hv2
      simpa using hv2
  refine ⟨UInt8.ofNat extra :: beBytes ((bits.length + 7) / 8) (valBits (bits ++ List.replicate extra false)), extra, ?_, ?_, he1, ?_⟩
  · unfold bitsContents
    simp only [he, heb, hv1, bind, Except.bind, pure, Except.pure, hbody, List.singleton_append]
  · exact ⟨extra, _, rfl, he2, bitsOf_beBytes _ _ hvlen⟩
  · simp

theorem BitContents_unique {bits : List Bool} {c d : Bytes} (hc : BitContents bits c) (hd : BitContents bits d) : c = d := by
  obtain ⟨p, b, rfl, h1, h2⟩ := hc
  obtain ⟨q, e, rfl, h3, h4⟩ := hd
  have l1 := congrArg List.length h2
  have l2 := congrArg List.length h4
  rw [length_bitsOf, List.length_append, List.length_replicate] at l1 l2
  have : p = q := by omega
  subst this
  rw [← h4] at h2
  rw [bitsOf_inj h2]

theorem BitContents.leaf {bits : List Bool} {c : Bytes} (h : BitContents bits c) : BitLeaf c bits := by
  obtain ⟨p, b, rfl, h1, h2⟩ := h
  exact ⟨p, b, _, rfl, h1, by simp, h2⟩

/-- Reading one primitive chunk of an integer bit string. -/
theorem intBitsChunk_ok_iff (c : Bytes) (r : List BitChunk) :
    intBitsChunk false c = .ok r ↔ ∃ bits padding : List Bool, r = [(valBits bits, bits.length, padding)] ∧
      ∃ (pad : Nat) (body : Bytes), c = UInt8.ofNat pad :: body ∧ pad < 8 ∧ padding.length = pad ∧
        bitsOf body = bits ++ padding := by
  unfold intBitsChunk
  rw [if_neg (by decide)]
  cases c with
  | nil => simp
  | cons u rest =>
    simp only [intFromBytes_unsigned, Int.toNat_natCast]
    have hu : UInt8.ofNat u.toNat = u := by simp
    by_cases h0 : u.toNat = 0
    · rw [if_pos h0]
      constructor
      · intro h
        injection h with h
        exact ⟨bitsOf rest, [], by rw [valBits_bitsOf, length_bitsOf, ← h, Nat.mul_comm], 0, rest, by rw [← h0, hu], by decide, rfl, by simp⟩
      · rintro ⟨bits, padding, rfl, pad, body, hc, hp, hpl, hb⟩
        injection hc with hc1 hc2
        subst hc2
        have : pad = 0 := by
          rw [hc1, UInt8.toNat_ofNat_of_lt' (by simp [UInt8.size]; omega)] at h0; exact h0
        subst this
        have : padding = [] := List.length_eq_zero_iff.mp hpl
        subst this
        rw [List.append_nil] at hb
        rw [← hb, valBits_bitsOf, length_bitsOf, Nat.mul_comm]
    · rw [if_neg h0]
      by_cases h1 : rest.length = 0
      · rw [if_pos h1]
        simp only [reduceCtorEq, false_iff]
        rintro ⟨bits, padding, rfl, pad, body, hc, hp, hpl, hb⟩
        injection hc with hc1 hc2
        subst hc2
        have hl := congrArg List.length hb
        rw [length_bitsOf, h1, List.length_append] at hl
        have : pad = 0 := by omega
        subst this
        rw [hc1] at h0
        exact h0 rfl
      · rw [if_neg h1]
        by_cases h7 : u.toNat > 7
        · rw [if_pos h7]
          simp only [reduceCtorEq, false_iff]
          rintro ⟨bits, padding, rfl, pad, body, hc, hp, hpl, hb⟩
          injection hc with hc1 hc2
          rw [hc1, UInt8.toNat_ofNat_of_lt' (by simp [UInt8.size]; omega)] at h7
          omega
        · rw [if_neg h7]
          have hmain : ∀ (bits padding : List Bool), padding.length = u.toNat → bitsOf rest = bits ++ padding →
              valU rest >>> u.toNat = valBits bits ∧ rest.length * 8 - u.toNat = bits.length ∧
              intToBitTuple (valU rest &&& ((1 <<< u.toNat) - 1)) u.toNat = .ok padding := by
            intro bits padding hpl hb
            have hv : valU rest = valBits bits * 2 ^ u.toNat + valBits padding := by
              rw [← valBits_bitsOf, hb, valBits_append, hpl]
            have hlt : valBits padding < 2 ^ u.toNat := by rw [← hpl]; exact valBits_lt padding
            have hl := congrArg List.length hb
            rw [length_bitsOf, List.length_append, hpl] at hl
            refine ⟨?_, by omega, ?_⟩
            · rw [Nat.shiftRight_eq_div_pow, hv]
              rw [Nat.add_comm, Nat.add_mul_div_right _ _ (by positivity), Nat.div_eq_of_lt hlt, Nat.zero_add]
            · refine intToBitTuple_ok' ?_ hpl
              rw [Nat.one_shiftLeft, Nat.and_two_pow_sub_one_eq_mod, hv, Nat.add_comm, Nat.add_mul_mod_self_right,
                Nat.mod_eq_of_lt hlt]
          have hsplit : ∃ bits padding : List Bool, padding.length = u.toNat ∧ bitsOf rest = bits ++ padding := by
            refine ⟨(bitsOf rest).take (8 * rest.length - u.toNat), (bitsOf rest).drop (8 * rest.length - u.toNat), ?_, ?_⟩
            · rw [List.length_drop, length_bitsOf]; omega
            · rw [List.take_append_drop]
          obtain ⟨bits, padding, hp1, hp2⟩ := hsplit
          obtain ⟨e1, e2, e3⟩ := hmain bits padding hp1 hp2
          rw [e1, e2, e3]
          simp only [bind, Except.bind, pure, Except.pure, Except.ok.injEq]
          constructor
          · rintro rfl
            exact ⟨bits, padding, rfl, u.toNat, rest, by rw [hu], by omega, hp1, hp2⟩
          · rintro ⟨bits', padding', rfl, pad, body, hc, hp, hpl, hb⟩
            injection hc with hc1 hc2
            subst hc2
            have hpad : pad = u.toNat := by
              rw [hc1, UInt8.toNat_ofNat_of_lt' (by simp [UInt8.size]; omega)]
            rw [hp2] at hb
            obtain ⟨rfl, rfl⟩ := List.append_inj' hb (by omega)
            rfl

end Asn1
