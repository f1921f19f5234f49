import Verif.Model.Keys
import Verif.Spec.Keys
import Verif.Lemmas.Num

/-!
# C38 — EC point coordinates

`w` is the byte width that the code computes with floating point logarithms. `Spec.FloatLog` is what is
assumed of it; the first theorems hold for every `w`.
-/

namespace Asn1.Props
open Asn1 Asn1.Keys Spec

private theorem to_w (n w : Nat) : intToBytes (n : Int) (width := some w) =
    if n < 256 ^ w then .ok (beBytes w n) else .error .overflowError := by
  simp only [intToBytes, pyToBytes]
  by_cases h : n < 256 ^ w
  · simp [h, show ((n : Int) < 256 ^ w) by exact_mod_cast h]
  · simp [h, show ¬ ((n : Int) < 256 ^ w) by exact_mod_cast h]

/-- Reading: `04`, then the two coordinates in equally many bytes (the second one has the odd byte). -/
theorem C38_to (a b : Bytes) (h : a.length = b.length ∨ a.length + 1 = b.length) :
    toCoords (0x04 :: (a ++ b)) = .ok (valU a, valU b) := by
  have e1 : slice (0x04 :: (a ++ b)) 0 1 = [0x04] := by simp [slice]
  have e2 : slice (0x04 :: (a ++ b)) 1 (0x04 :: (a ++ b)).length = a ++ b := by
    simp only [slice, List.take_length]; rfl
  have e3 : (a ++ b).length / 2 = a.length := by simp; omega
  have e4 : slice (a ++ b) 0 a.length = a := by simp [slice]
  have e5 : slice (a ++ b) a.length (a ++ b).length = b := by
    simp only [slice, List.take_length, List.drop_left']
  simp only [toCoords, e1, e2, e3, e4, e5, if_true, intFromBytes_unsigned]

/-- Every point that does not begin with `04`, also the empty one, is refused. -/
theorem C38_refused (data : Bytes) (h : data.head? ≠ some 0x04) : toCoords data = .error .valueError := by
  have : slice data 0 1 ≠ [0x04] := by
    cases data with
    | nil => simp [slice]
    | cons c r => simp [slice] at h ⊢; exact h
  simp only [toCoords, if_neg this]
  split <;> rfl

example : toCoords [0x03, 1, 2] = .error .valueError := C38_refused _ (by decide)

/-- Writing: if both coordinates fit the width then the encoding is `04` and the two coordinates,
big-endian, in that many bytes each, and reading gives them back. If one does not fit: `OverflowError`. -/
theorem C38_from (w : Nat → Nat) (x y : Nat) (hx : 0 < x) (hy : 0 < y) :
    (x < 256 ^ max (w x) (w y) ∧ y < 256 ^ max (w x) (w y) →
      ∃ a b, fromCoords w x y = .ok (0x04 :: (a ++ b)) ∧ a.length = max (w x) (w y) ∧ b.length = max (w x) (w y) ∧
        valU a = x ∧ valU b = y ∧ toCoords (0x04 :: (a ++ b)) = .ok ((x : Int), (y : Int))) ∧
    (¬ (x < 256 ^ max (w x) (w y) ∧ y < 256 ^ max (w x) (w y)) → fromCoords w x y = .error .overflowError) := by
  have h1 : ¬ ((x : Int) ≤ 0) := by omega
  have h2 : ¬ ((y : Int) ≤ 0) := by omega
  simp only [fromCoords, if_neg h1, if_neg h2, Int.toNat_natCast, to_w]
  generalize max (w x) (w y) = k
  constructor
  · rintro ⟨ha, hb⟩
    have va : valU (beBytes k x) = x := by rw [valU_beBytes, Nat.mod_eq_of_lt ha]
    have vb : valU (beBytes k y) = y := by rw [valU_beBytes, Nat.mod_eq_of_lt hb]
    refine ⟨beBytes k x, beBytes k y, by simp [ha, hb], by simp, by simp, va, vb, ?_⟩
    rw [C38_to _ _ (.inl (by simp)), va, vb]
  · intro h
    by_cases ha : x < 256 ^ k
    · have hb : ¬ y < 256 ^ k := fun hb => h ⟨ha, hb⟩
      simp [ha, hb]
    · simp [ha]

/-- Coordinates that are not positive are refused. -/
theorem C38_positive (w : Nat → Nat) (x y : Int) (h : x ≤ 0 ∨ y ≤ 0) : fromCoords w x y = .error .valueError := by
  simp only [fromCoords]
  split
  · rfl
  · rw [if_pos (h.resolve_left ‹_›)]

/-- The full property would be this for all positive coordinates, see `C38_one_fails`, `C38_byte_fails`. Proved
for coordinates below `2 ^ 4096` that are not within one part in `2 ^ 32` of a power of 256. -/
theorem C38_round_trip_partial (w : Nat → Nat) (hw : FloatLog w) (x y : Nat)
    (hbig : x < 2 ^ 4096 ∧ y < 2 ^ 4096)
    (hx : ∃ k, 256 ^ k * (2 ^ 32 + 1) ≤ x * 2 ^ 32 ∧ x * 2 ^ 32 ≤ 256 ^ (k + 1) * (2 ^ 32 - 1))
    (hy : ∃ k, 256 ^ k * (2 ^ 32 + 1) ≤ y * 2 ^ 32 ∧ y * 2 ^ 32 ≤ 256 ^ (k + 1) * (2 ^ 32 - 1)) :
    ∃ a b, fromCoords w x y = .ok (0x04 :: (a ++ b)) ∧ a.length = b.length ∧ valU a = x ∧ valU b = y ∧
      toCoords (0x04 :: (a ++ b)) = .ok ((x : Int), (y : Int)) := by
  obtain ⟨k, hk1, hk2⟩ := hx
  obtain ⟨l, hl1, hl2⟩ := hy
  have fit : ∀ z m, 256 ^ m * (2 ^ 32 + 1) ≤ z * 2 ^ 32 → z * 2 ^ 32 ≤ 256 ^ (m + 1) * (2 ^ 32 - 1) →
      0 < z ∧ z < 256 ^ (m + 1) := by
    intro z m h1 h2
    have hp : 0 < 256 ^ m := Nat.pow_pos (by decide)
    have hq : 0 < 256 ^ (m + 1) := Nat.pow_pos (by decide)
    generalize 256 ^ m = p at *
    generalize 256 ^ (m + 1) = q at *
    norm_num at h1 h2
    omega
  obtain ⟨px, fx⟩ := fit x k hk1 hk2
  obtain ⟨py, fy⟩ := fit y l hl1 hl2
  have ex := hw.between x k hbig.1 hk1 hk2
  have ey := hw.between y l hbig.2 hl1 hl2
  obtain ⟨a, b, h1, h2, h3, h4, h5, h6⟩ := (C38_from w x y px py).1
    ⟨Nat.lt_of_lt_of_le fx (Nat.pow_le_pow_right (by decide) (by omega)),
      Nat.lt_of_lt_of_le fy (Nat.pow_le_pow_right (by decide) (by omega))⟩
  exact ⟨a, b, h1, by omega, h4, h5, h6⟩

/-- A width with the assumed property exists: the logarithm without rounding errors. -/
theorem C38_exact : FloatLog exactLog := by
  have up : ∀ x k, exactLog x ≤ k ↔ x ≤ 256 ^ k := by
    intro x k
    have h1 : exactLog x ≤ k ↔ bitLength (x - 1) ≤ 8 * k := by
      unfold exactLog; omega
    have h2 : 0 < 256 ^ k := Nat.pow_pos (by decide)
    rw [h1, bitLength_le, ← pow256]
    generalize 256 ^ k = p at *
    omega
  refine ⟨?_, by decide +kernel, by decide +kernel⟩
  intro x k _ h1 h2
  have hu := (up x (k + 1)).mpr (by
    have hq : 0 < 256 ^ (k + 1) := Nat.pow_pos (by decide)
    generalize 256 ^ (k + 1) = q at *
    norm_num at h2
    omega)
  have hl : ¬ exactLog x ≤ k := by
    rw [up]
    have hq : 0 < 256 ^ k := Nat.pow_pos (by decide)
    generalize 256 ^ k = q at *
    norm_num at h1
    omega
  omega

/-- A 32-byte point meets the hypotheses. -/
example : ∃ a b, fromCoords exactLog ((3 * 2 ^ 250 + 17 : Nat) : Int) ((2 ^ 254 + 5 : Nat) : Int) = .ok (0x04 :: (a ++ b)) ∧
    a.length = b.length ∧ valU a = 3 * 2 ^ 250 + 17 ∧ valU b = 2 ^ 254 + 5 ∧
      toCoords (0x04 :: (a ++ b)) = .ok (((3 * 2 ^ 250 + 17 : Nat) : Int), ((2 ^ 254 + 5 : Nat) : Int)) :=
  C38_round_trip_partial _ C38_exact _ _
    ⟨Nat.lt_of_lt_of_le (by norm_num) (Nat.pow_le_pow_right (by decide) (show 256 ≤ 4096 by decide)),
      Nat.lt_of_lt_of_le (by norm_num) (Nat.pow_le_pow_right (by decide) (show 256 ≤ 4096 by decide))⟩ ⟨31, by norm_num⟩ ⟨31, by norm_num⟩

/-- The property fails at 1, whose logarithm is 0: no room is made for it. -/
theorem C38_one_fails (w : Nat → Nat) (hw : FloatLog w) : fromCoords w 1 1 = .error .overflowError :=
  (C38_from w 1 1 (by decide) (by decide)).2 (by rw [hw.one]; decide)

/-- And at 256, which needs two bytes and is given one. -/
theorem C38_byte_fails (w : Nat → Nat) (hw : FloatLog w) : fromCoords w 256 256 = .error .overflowError :=
  (C38_from w 256 256 (by decide) (by decide)).2 (by rw [hw.byte]; decide)

/-- With the logarithm free of rounding errors, it fails exactly when the larger coordinate is a power of 256. -/
theorem C38_exact_fails (x y : Nat) (hx : 0 < x) (hy : 0 < y) :
    fromCoords exactLog x y = .error .overflowError ↔ ∃ k, max x y = 256 ^ k := by
  have up : ∀ x k, exactLog x ≤ k ↔ x ≤ 256 ^ k := by
    intro x k
    have h1 : exactLog x ≤ k ↔ bitLength (x - 1) ≤ 8 * k := by
      unfold exactLog; omega
    have h2 : 0 < 256 ^ k := Nat.pow_pos (by decide)
    rw [h1, bitLength_le, ← pow256]
    generalize 256 ^ k = p at *
    omega
  have hmax : ∀ k, max (exactLog x) (exactLog y) ≤ k ↔ max x y ≤ 256 ^ k := by
    intro k
    have h1 := up x k
    have h2 := up y k
    omega
  have hfit : (x < 256 ^ max (exactLog x) (exactLog y) ∧ y < 256 ^ max (exactLog x) (exactLog y)) ↔
      max x y < 256 ^ max (exactLog x) (exactLog y) := by omega
  constructor
  · intro h
    have hn : ¬ max x y < 256 ^ max (exactLog x) (exactLog y) := by
      rw [← hfit]
      intro hc
      obtain ⟨a, b, h1, -⟩ := (C38_from exactLog x y hx hy).1 hc
      rw [h] at h1; cases h1
    exact ⟨_, Nat.le_antisymm ((hmax _).mp (Nat.le_refl _)) (Nat.not_lt.mp hn)⟩
  · rintro ⟨k, hk⟩
    refine (C38_from exactLog x y hx hy).2 ?_
    rw [hfit, hk, Nat.not_lt]
    exact Nat.pow_le_pow_right (by decide) ((hmax k).mpr (Nat.le_of_eq hk))

end Asn1.Props
