import Verif.Model.Iri
import Verif.Spec.Iri
import Verif.Lemmas.Num
import Mathlib.Tactic.IntervalCases

/-! # Lemmas about the percent-encoding layer -/

namespace Asn1.Iri
open Asn1

theorem char_valid (c : Char) : c.toNat < 55296 ∨ 57344 ≤ c.toNat ∧ c.toNat < 1114112 := by
  have := c.valid
  simp only [UInt32.isValidChar, Nat.isValidChar] at this
  simp only [Char.toNat]
  omega

theorem toNat_char {n : Nat} (h : n < 55296 ∨ 57344 ≤ n ∧ n < 1114112) : (Char.ofNat n).toNat = n := by
  have hv : n.isValidChar := by simp only [Nat.isValidChar]; omega
  simp only [Char.ofNat, dif_pos hv, Char.toNat, Char.ofNatAux]
  rfl

theorem utf8_eq (c : Char) : utf8 c = String.utf8EncodeChar c := by
  have hv := char_valid c
  simp only [utf8, String.utf8EncodeChar, Char.toNat] at *
  generalize c.val.toNat = n at *
  by_cases h1 : n < 128
  · simp only [if_pos h1, if_pos (show n ≤ 127 by omega)]
  by_cases h2 : n < 2048
  · simp only [if_neg h1, if_neg (show ¬ n ≤ 127 by omega), if_pos h2, if_pos (show n ≤ 2047 by omega), List.cons.injEq,
      and_true]
    constructor <;> congr 1 <;> omega
  by_cases h3 : n < 65536
  · simp only [if_neg h1, if_neg (show ¬ n ≤ 127 by omega), if_neg h2, if_neg (show ¬ n ≤ 2047 by omega), if_pos h3,
      if_pos (show n ≤ 65535 by omega), List.cons.injEq, and_true]
    refine ⟨?_, ?_, ?_⟩ <;> congr 1 <;> omega
  · simp only [if_neg h1, if_neg (show ¬ n ≤ 127 by omega), if_neg h2, if_neg (show ¬ n ≤ 2047 by omega), if_neg h3,
      if_neg (show ¬ n ≤ 65535 by omega), List.cons.injEq, and_true]
    refine ⟨?_, ?_, ?_, ?_⟩ <;> congr 1 <;> omega

theorem encodeUtf8_eq (s : Str) : encodeUtf8 s = Spec.Iri.utf8Bytes s := by
  simp only [encodeUtf8, Spec.Iri.utf8Bytes]
  congr 1; funext c; exact utf8_eq c

theorem toNat_ofNat {n : Nat} (h : n < 256) : (UInt8.ofNat n).toNat = n := by
  simp [Nat.mod_eq_of_lt h]

theorem cont_eq {b : UInt8} {n : Nat} (h : n < 64) (hb : b.toNat = 128 + n) : cont b = some n := by
  unfold cont
  rw [if_pos (And.intro (by omega) (by omega)), hb, Nat.add_sub_cancel_left]

theorem cont_ofNat {n : Nat} (h : n < 64) : cont (UInt8.ofNat (128 + n)) = some n := cont_eq h (toNat_ofNat (by omega))

theorem scalar_char {lo : Nat} {c : Char} (h : lo ≤ c.toNat) : scalar lo c.toNat = some c := by
  rw [scalar, if_pos ⟨h, char_valid c⟩, Char.ofNat_toNat]

theorem decodeOne_utf8 (c : Char) (rest : Bytes) : decodeOne (utf8 c ++ rest) = some (c, rest) := by
  have hv := char_valid c
  simp only [utf8]
  by_cases h1 : c.toNat < 128
  · rw [if_pos h1]
    simp only [List.singleton_append, decodeOne, toNat_ofNat (show c.toNat < 256 by omega), if_pos h1, Char.ofNat_toNat]
  · rw [if_neg h1]
    by_cases h2 : c.toNat < 2048
    · rw [if_pos h2]
      simp only [List.cons_append, List.nil_append, decodeOne]
      rw [toNat_ofNat (by omega), if_neg (by omega), if_neg (by omega), if_pos (by omega), cont_ofNat (by omega)]
      have : (192 + c.toNat / 64 - 192) * 64 + c.toNat % 64 = c.toNat := by omega
      simp only [bind, Option.bind, this, scalar_char (show 128 ≤ c.toNat by omega), pure]
    · rw [if_neg h2]
      by_cases h3 : c.toNat < 65536
      · rw [if_pos h3]
        simp only [List.cons_append, List.nil_append, decodeOne]
        rw [toNat_ofNat (by omega), if_neg (by omega), if_neg (by omega), if_neg (by omega), if_pos (by omega),
          cont_ofNat (by omega), cont_ofNat (by omega)]
        have : (224 + c.toNat / 4096 - 224) * 4096 + c.toNat / 64 % 64 * 64 + c.toNat % 64 = c.toNat := by omega
        simp only [bind, Option.bind, this, scalar_char (show 2048 ≤ c.toNat by omega), pure]
      · rw [if_neg h3]
        simp only [List.cons_append, List.nil_append, decodeOne]
        rw [toNat_ofNat (by omega), if_neg (by omega), if_neg (by omega), if_neg (by omega), if_neg (by omega),
          if_pos (by omega), cont_ofNat (by omega), cont_ofNat (by omega), cont_ofNat (by omega)]
        have : (240 + c.toNat / 262144 - 240) * 262144 + c.toNat / 4096 % 64 * 4096 + c.toNat / 64 % 64 * 64 +
          c.toNat % 64 = c.toNat := by omega
        simp only [bind, Option.bind, this, scalar_char (show 65536 ≤ c.toNat by omega), pure]

theorem ofNat_toNat (b : UInt8) : UInt8.ofNat b.toNat = b := by simp

theorem cont_inv {b : UInt8} {y : Nat} (h : cont b = some y) : y < 64 ∧ b = UInt8.ofNat (128 + y) := by
  simp only [cont] at h
  split at h
  · injection h with h
    refine ⟨by omega, ?_⟩
    rw [← h, show 128 + (b.toNat - 128) = b.toNat by omega, ofNat_toNat]
  · exact absurd h (by simp)

theorem scalar_inv {lo n : Nat} {c : Char} (h : scalar lo n = some c) : lo ≤ n ∧ c.toNat = n := by
  simp only [scalar] at h
  split at h
  · next hc =>
    injection h with h
    refine ⟨hc.1, ?_⟩
    subst h
    exact toNat_char (by omega)
  · exact absurd h (by simp)

/-- What was decoded is the UTF-8 form of the character. -/
theorem decodeOne_inv {b rest : Bytes} {c : Char} (h : decodeOne b = some (c, rest)) : b = utf8 c ++ rest := by
  cases b with
  | nil => exact absurd h (by simp [decodeOne])
  | cons a r =>
    simp only [decodeOne] at h
    split at h
    · next h1 =>
      simp only [Option.some.injEq, Prod.mk.injEq] at h
      obtain ⟨h2, h3⟩ := h
      have : c.toNat = a.toNat := by
        rw [← h2]
        exact toNat_char (by omega)
      simp only [utf8, this, if_pos h1, List.singleton_append, ofNat_toNat, h3]
    split at h
    · exact absurd h (by simp)
    split at h
    · split at h
      · next h1 h2 h3 _ b r =>
        cases hy : cont b with
        | none => simp [hy] at h
        | some y =>
          cases hc : scalar 128 ((a.toNat - 192) * 64 + y) with
          | none => simp [hy, hc] at h
          | some c' =>
            simp only [hy, hc, bind, Option.bind, pure, Option.some.injEq, Prod.mk.injEq] at h
            obtain ⟨rfl, rfl⟩ := h
            obtain ⟨y1, y2⟩ := cont_inv hy
            obtain ⟨s1, s2⟩ := scalar_inv hc
            simp only [utf8]
            rw [if_neg (by omega), if_pos (by omega), y2]
            simp only [List.cons_append, List.nil_append, List.cons.injEq, and_true]
            constructor
            · rw [show 192 + c'.toNat / 64 = a.toNat by omega, ofNat_toNat]
            · congr 2; omega
      · exact absurd h (by simp)
    split at h
    · split at h
      · next h1 h2 h3 h4 _ b d r =>
        cases hy : cont b with
        | none => simp [hy] at h
        | some y =>
        cases hz : cont d with
        | none => simp [hy, hz] at h
        | some z =>
          cases hc : scalar 2048 ((a.toNat - 224) * 4096 + y * 64 + z) with
          | none => simp [hy, hz, hc] at h
          | some c' =>
            simp only [hy, hz, hc, bind, Option.bind, pure, Option.some.injEq, Prod.mk.injEq] at h
            obtain ⟨rfl, rfl⟩ := h
            obtain ⟨y1, y2⟩ := cont_inv hy
            obtain ⟨z1, z2⟩ := cont_inv hz
            obtain ⟨s1, s2⟩ := scalar_inv hc
            simp only [utf8]
            rw [if_neg (by omega), if_neg (by omega), if_pos (by omega), y2, z2]
            simp only [List.cons_append, List.nil_append, List.cons.injEq, and_true]
            refine ⟨?_, ?_, ?_⟩
            · rw [show 224 + c'.toNat / 4096 = a.toNat by omega, ofNat_toNat]
            · congr 2; omega
            · congr 2; omega
      · exact absurd h (by simp)
    split at h
    · split at h
      · next h1 h2 h3 h4 h5 _ b d e r =>
        cases hy : cont b with
        | none => simp [hy] at h
        | some y =>
        cases hz : cont d with
        | none => simp [hy, hz] at h
        | some z =>
        cases hw : cont e with
        | none => simp [hy, hz, hw] at h
        | some w =>
          cases hc : scalar 65536 ((a.toNat - 240) * 262144 + y * 4096 + z * 64 + w) with
          | none => simp [hy, hz, hw, hc] at h
          | some c' =>
            simp only [hy, hz, hw, hc, bind, Option.bind, pure, Option.some.injEq, Prod.mk.injEq] at h
            obtain ⟨rfl, rfl⟩ := h
            obtain ⟨y1, y2⟩ := cont_inv hy
            obtain ⟨z1, z2⟩ := cont_inv hz
            obtain ⟨w1, w2⟩ := cont_inv hw
            obtain ⟨s1, s2⟩ := scalar_inv hc
            simp only [utf8]
            rw [if_neg (by omega), if_neg (by omega), if_neg (by omega), y2, z2, w2]
            simp only [List.cons_append, List.nil_append, List.cons.injEq, and_true]
            refine ⟨?_, ?_, ?_, ?_⟩
            · rw [show 240 + c'.toNat / 262144 = a.toNat by omega, ofNat_toNat]
            · congr 2; omega
            · congr 2; omega
            · congr 2; omega
      · exact absurd h (by simp)
    · exact absurd h (by simp)

theorem utf8_ne_nil (c : Char) : utf8 c ≠ [] := by
  simp only [utf8]; repeat' split
  all_goals simp

theorem utf8_length (c : Char) : 1 ≤ (utf8 c).length := by
  have := utf8_ne_nil c
  cases h : utf8 c with
  | nil => exact absurd h this
  | cons => simp

theorem decodeGo_fuel (b : Bytes) : ∀ {m n : Nat}, b.length ≤ m → b.length ≤ n → decodeGo m b = decodeGo n b := by
  induction hk : b.length using Nat.strong_induction_on generalizing b with
  | _ k ih =>
    subst hk
    intro m n hm hn
    cases b with
    | nil => cases m <;> cases n <;> simp [decodeGo]
    | cons a r =>
      simp only [List.length_cons] at hm hn ih
      obtain ⟨m, rfl⟩ : ∃ k, m = k + 1 := ⟨m - 1, by omega⟩
      obtain ⟨n, rfl⟩ : ∃ k, n = k + 1 := ⟨n - 1, by omega⟩
      simp only [decodeGo]
      cases hd : decodeOne (a :: r) with
      | none => simp only; congr 1; exact ih _ (by omega) r rfl (by omega) (by omega)
      | some cr =>
        obtain ⟨c, rest⟩ := cr
        have := congrArg List.length (decodeOne_inv hd)
        have h1 := utf8_length c
        simp only [List.length_cons, List.length_append] at this
        simp only; congr 1
        exact ih _ (by omega) rest rfl (by omega) (by omega)

theorem decodeIri_cons {a : UInt8} {r : Bytes} : decodeIri (a :: r) = match decodeOne (a :: r) with
    | some (c, rest) => c :: decodeIri rest
    | none => pctLower a ++ decodeIri r := by
  simp only [decodeIri, List.length_cons, decodeGo]
  cases hd : decodeOne (a :: r) with
  | none => rfl
  | some cr =>
    obtain ⟨c, rest⟩ := cr
    have := congrArg List.length (decodeOne_inv hd)
    have h1 := utf8_length c
    simp only [List.length_cons, List.length_append] at this
    simp only; congr 1
    exact decodeGo_fuel _ (by omega) (by omega)

theorem decodeIri_utf8 (s : Str) : decodeIri (encodeUtf8 s) = s := by
  induction s with
  | nil => rfl
  | cons c cs ih =>
    simp only [encodeUtf8, List.flatMap_cons]
    have h := decodeOne_utf8 c (cs.flatMap utf8)
    cases hu : utf8 c ++ cs.flatMap utf8 with
    | nil => exact absurd (List.append_eq_nil_iff.1 hu).1 (utf8_ne_nil c)
    | cons a r =>
      rw [decodeIri_cons, ← hu, h]
      simp only [List.cons.injEq, true_and]
      exact ih

open Spec.Iri

/-! ### Digits -/

theorem hexVal_isHex {c : Char} (h : isHex c) : hexVal c.toNat = some (hexNum c) ∧ hexNum c < 16 ∧ c.toNat < 128 ∧ c ≠ '%' := by
  have : ∀ c ∈ "0123456789abcdefABCDEF".toList, hexVal c.toNat = some (hexNum c) ∧ hexNum c < 16 ∧ c.toNat < 128 ∧ c ≠ '%' := by
    decide
  exact this c h

theorem isHex_of_hexVal {c : Char} (h : (hexVal c.toNat).isSome) : isHex c := by
  have h1 : c.toNat < 103 := by
    simp only [hexVal] at h
    split at h
    · omega
    split at h
    · omega
    split at h
    · omega
    · simp at h
  have : ∀ n < 103, (hexVal n).isSome → Char.ofNat n ∈ "0123456789abcdefABCDEF".toList := by decide
  have := this _ h1 h
  rwa [Char.ofNat_toNat] at this

theorem hexPair_isSome {a b : Char} : (hexPair a.toNat b.toNat).isSome ↔ isHex a ∧ isHex b := by
  constructor
  · intro h
    simp only [hexPair] at h
    cases ha : hexVal a.toNat with
    | none => simp [ha] at h
    | some x =>
      cases hb : hexVal b.toNat with
      | none => simp [ha, hb] at h
      | some y => exact ⟨isHex_of_hexVal (by simp [ha]), isHex_of_hexVal (by simp [hb])⟩
  · rintro ⟨ha, hb⟩
    simp [hexPair, (hexVal_isHex ha).1, (hexVal_isHex hb).1]

theorem hexPair_isHex {a b : Char} (ha : isHex a) (hb : isHex b) :
    hexPair a.toNat b.toNat = some (UInt8.ofNat (16 * hexNum a + hexNum b)) := by
  simp only [hexPair, (hexVal_isHex ha).1, (hexVal_isHex hb).1, bind, Option.bind, pure, Nat.mul_comm 16]

theorem asc_toNat {c : Char} (h : c.toNat < 128) : (asc c).toNat = c.toNat := toNat_ofNat (by omega)

theorem asc_inj {c d : Char} (hc : c.toNat < 128) (hd : d.toNat < 128) (h : asc c = asc d) : c = d := by
  have := congrArg UInt8.toNat h
  rw [asc_toNat hc, asc_toNat hd] at this
  rw [← Char.ofNat_toNat c, ← Char.ofNat_toNat d, this]

theorem byte_cases (P : UInt8 → Prop) (h : ∀ n < 256, P (UInt8.ofNat n)) (b : UInt8) : P b := by
  have := h b.toNat b.toNat_lt
  rwa [ofNat_toNat] at this

instance : DecidablePred isHex := fun c => inferInstanceAs (Decidable (c ∈ _))
instance : DecidablePred unreserved := fun c => inferInstanceAs (Decidable (_ ∨ _))

theorem pctUpper_piece (b : UInt8) : ∃ x y, isHex x ∧ isHex y ∧ pctUpper b = [asc '%', asc x, asc y] ∧
    UInt8.ofNat (16 * hexNum x + hexNum y) = b := by
  refine ⟨Char.ofNat (upperHex (b.toNat / 16)), Char.ofNat (upperHex (b.toNat % 16)), ?_⟩
  revert b
  refine byte_cases _ ?_
  decide +kernel

theorem pctLower_piece (b : UInt8) : ∃ x y, isHex x ∧ isHex y ∧ pctLower b = ['%', x, y] ∧
    UInt8.ofNat (16 * hexNum x + hexNum y) = b := by
  refine ⟨Char.ofNat (lowerHex (b.toNat / 16)), Char.ofNat (lowerHex (b.toNat % 16)), ?_⟩
  revert b
  refine byte_cases _ ?_
  decide +kernel

theorem alwaysSafe_unreserved (b : UInt8) (h : alwaysSafe b = true) :
    unreserved (Char.ofNat b.toNat) ∧ asc (Char.ofNat b.toNat) = b := by
  revert b
  refine byte_cases _ ?_
  decide +kernel

theorem unreserved_ascii {c : Char} (h : unreserved c) : c.toNat < 128 ∧ c ≠ '%' := by
  rcases h with h | h
  · simp only [Char.isAlphanum, Char.isAlpha, Char.isUpper, Char.isLower, Char.isDigit, Bool.or_eq_true,
      decide_eq_true_eq, Bool.and_eq_true, ge_iff_le, UInt32.le_iff_toNat_le] at h
    simp only [Char.toNat]
    refine ⟨by rcases h with (h | h) | h <;> (have := h.1; have := h.2; simp at *; omega), ?_⟩
    rintro rfl
    revert h
    decide
  · have : ∀ c ∈ ['-', '.', '_', '~'], c.toNat < 128 ∧ c ≠ '%' := by decide
    exact this c h

/-- What is required of the characters that stand for themselves in a component. -/
structure SafeSet (safe : Str) : Prop where
  ascii : ∀ c ∈ safe, c.toNat < 128
  hex : ∀ c ∈ safe, ¬ isHex c
  pct : '%' ∉ safe
  nul : Char.ofNat 0 ∉ safe

theorem safeUser_ok : SafeSet safeUser := ⟨by decide, by decide, by decide, by decide⟩
theorem safePath_ok : SafeSet safePath := ⟨by decide, by decide, by decide, by decide⟩
theorem safeQuery_ok : SafeSet safeQuery := ⟨by decide, by decide, by decide, by decide⟩

/-! ### Quoting -/

theorem quoteByte_cases (safe : Str) (b : UInt8) :
    (quoteByte safe b = [b] ∧ ∃ c, (unreserved c ∨ c ∈ safe) ∧ c.toNat < 128 ∧ asc c = b) ∨ quoteByte safe b = pctUpper b := by
  simp only [quoteByte]
  split
  · next h =>
    refine .inl ⟨rfl, ?_⟩
    rw [Bool.or_eq_true] at h
    rcases h with h | h
    · obtain ⟨h1, h2⟩ := alwaysSafe_unreserved b h
      exact ⟨_, .inl h1, (unreserved_ascii h1).1, h2⟩
    · obtain ⟨c, h1, h2⟩ := List.any_eq_true.1 h
      simp only [Bool.and_eq_true, decide_eq_true_eq, beq_iff_eq] at h2
      refine ⟨c, .inr h1, h2.1, ?_⟩
      rw [asc, h2.2, ofNat_toNat]
  · exact .inr rfl

theorem Denotes.append {safe : Str} {x y : Bytes} {d e : List (UInt8 × Bool)} (h : Denotes safe x d) (h' : Denotes safe y e) :
    Denotes safe (x ++ y) (d ++ e) := by
  induction h with
  | nil => exact h'
  | plain hc _ ih => exact .plain hc ih
  | esc ha hb _ ih => exact .esc ha hb ih

/-- A byte that stands for itself is marked if it is a character of `safe`. -/
def mark (safe : Str) (b : UInt8) : UInt8 × Bool := (b, decide (b ∈ safe.map asc))

theorem mark_asc {safe : Str} (hs : SafeSet safe) {c : Char} (hc : c.toNat < 128) :
    mark safe (asc c) = (asc c, decide (c ∈ safe)) := by
  have : asc c ∈ safe.map asc ↔ c ∈ safe := by
    constructor
    · intro h
      obtain ⟨d, h1, h2⟩ := List.mem_map.1 h
      exact asc_inj (hs.ascii d h1) hc h2 ▸ h1
    · exact List.mem_map_of_mem
  simp only [mark, this]

theorem mark_other {safe : Str} (hs : SafeSet safe) {b : UInt8} (hb : 128 ≤ b.toNat) : mark safe b = (b, false) := by
  have : b ∉ safe.map asc := by
    intro h
    obtain ⟨d, h1, rfl⟩ := List.mem_map.1 h
    have := hs.ascii d h1
    rw [asc_toNat this] at hb
    omega
  simp only [mark, this, decide_false]

theorem quoteByte_denotes {safe : Str} (hs : SafeSet safe) (b : UInt8) : Denotes safe (quoteByte safe b) [mark safe b] := by
  by_cases hm : b ∈ safe.map asc
  · obtain ⟨c, h1, rfl⟩ := List.mem_map.1 hm
    have hc := hs.ascii c h1
    have : quoteByte safe (asc c) = [asc c] := by
      simp only [quoteByte]
      rw [if_pos]
      rw [Bool.or_eq_true]
      refine .inr (List.any_eq_true.2 ⟨c, h1, ?_⟩)
      simp [asc_toNat hc, hc]
    rw [this, mark_asc hs hc]
    exact .plain (.inr h1) .nil
  · rcases quoteByte_cases safe b with ⟨h, c, h1, hc, rfl⟩ | h
    · rw [h, mark_asc hs hc]; exact .plain h1 .nil
    · obtain ⟨x, y, hx, hy, h1, h2⟩ := pctUpper_piece b
      have : mark safe b = (b, false) := by simp only [mark, hm, decide_false]
      rw [this, h, h1]
      conv => rhs; rw [← h2]
      exact .esc hx hy .nil

theorem quoteBytes_denotes {safe : Str} (hs : SafeSet safe) (bs : Bytes) :
    Denotes safe (quoteBytes safe bs) (bs.map (mark safe)) := by
  induction bs with
  | nil => exact .nil
  | cons b bs ih => exact Denotes.append (quoteByte_denotes hs b) ih

theorem unquoteBytes_plain {a : UInt8} (h : a ≠ 37) (t : Bytes) : unquoteBytes (a :: t) = a :: unquoteBytes t := by
  match t with
  | [] => simp [unquoteBytes]
  | [b] => simp [unquoteBytes]
  | b :: c :: r => rw [unquoteBytes, if_neg h]

theorem asc_pct : asc '%' = 37 := rfl

theorem unquoteBytes_denotes {safe : Str} (hs : SafeSet safe) {x : Bytes} {d : List (UInt8 × Bool)}
    (h : Denotes safe x d) : unquoteBytes x = d.map Prod.fst := by
  induction h with
  | nil => rfl
  | @plain c t d hc _ ih =>
    rw [unquoteBytes_plain _ t, ih, List.map_cons]
    intro h
    have hc' : c.toNat < 128 ∧ c ≠ '%' := by
      rcases hc with hc | hc
      · exact unreserved_ascii hc
      · exact ⟨hs.ascii c hc, fun h => hs.pct (h ▸ hc)⟩
    exact hc'.2 (asc_inj hc'.1 (by decide) h)
  | @esc a b t d ha hb _ ih =>
    obtain ⟨_, _, a3, _⟩ := hexVal_isHex ha
    obtain ⟨_, _, b3, _⟩ := hexVal_isHex hb
    rw [unquoteBytes, if_pos asc_pct, asc_toNat a3, asc_toNat b3, hexPair_isHex ha hb, ih, List.map_cons]

theorem Denotes.ascii {safe : Str} (hs : SafeSet safe) {x : Bytes} {d : List (UInt8 × Bool)}
    (h : Denotes safe x d) : ∀ b ∈ x, b.toNat < 128 := by
  induction h with
  | nil => simp
  | @plain c t d hc _ ih =>
    have hc' : c.toNat < 128 := by
      rcases hc with hc | hc
      · exact (unreserved_ascii hc).1
      · exact hs.ascii c hc
    intro b hb
    rcases List.mem_cons.1 hb with rfl | hb
    · rw [asc_toNat hc']; exact hc'
    · exact ih b hb
  | @esc a b t d ha hb _ ih =>
    obtain ⟨_, _, a3, _⟩ := hexVal_isHex ha
    obtain ⟨_, _, b3, _⟩ := hexVal_isHex hb
    intro c hc
    simp only [List.mem_cons] at hc
    rcases hc with rfl | rfl | rfl | hc
    · decide
    · rw [asc_toNat a3]; exact a3
    · rw [asc_toNat b3]; exact b3
    · exact ih c hc

/-! ### Escapes that are put back -/

theorem restore_cons3 (es : List Bytes) (a b c : UInt8) (r : Bytes) : restoreEscapes es (a :: b :: c :: r) =
    if a = 37 ∧ b = 48 ∧ c = 48 then
      match es with
      | [] => .error .indexError
      | e :: es => (e ++ ·) <$> restoreEscapes es r
    else (a :: ·) <$> restoreEscapes es (b :: c :: r) := by
  cases es with
  | nil =>
    simp only [restoreEscapes]
    split
    · rfl
    · cases restoreEscapes [] (b :: c :: r) <;> rfl
  | cons e es =>
    simp only [restoreEscapes]
    split
    · cases restoreEscapes es r <;> rfl
    · cases restoreEscapes (e :: es) (b :: c :: r) <;> rfl

theorem restore_plain {a : UInt8} (h : a ≠ 37) (es : List Bytes) (t : Bytes) :
    restoreEscapes es (a :: t) = (a :: ·) <$> restoreEscapes es t := by
  match t with
  | [] => simp [restoreEscapes]
  | [b] => simp [restoreEscapes]
  | b :: c :: r =>
    rw [restore_cons3, if_neg (fun h' => h h'.1)]

theorem pctUpper_zero (b : UInt8) (h : b ≠ 0) : ¬ ((pctUpper b)[1]? = some 48 ∧ (pctUpper b)[2]? = some 48) := by
  revert b
  refine byte_cases _ ?_
  decide +kernel

theorem asc_hex_ne {c : Char} (h : isHex c) : asc c ≠ 37 := by
  obtain ⟨_, _, h3, h4⟩ := hexVal_isHex h
  exact fun h => h4 (asc_inj h3 (by decide) h)

theorem restore_quoteByte {safe : Str} (hs : SafeSet safe) {b : UInt8} (h : b ≠ 0) (es : List Bytes) (t : Bytes) :
    restoreEscapes es (quoteByte safe b ++ t) = (quoteByte safe b ++ ·) <$> restoreEscapes es t := by
  rcases quoteByte_cases safe b with ⟨h1, c, h2, h3, h4⟩ | h1
  · rw [h1]
    refine restore_plain ?_ es t
    have h5 : c ≠ '%' := by
      rcases h2 with h2 | h2
      · exact (unreserved_ascii h2).2
      · exact fun h => hs.pct (h ▸ h2)
    rw [← h4]
    exact fun h => h5 (asc_inj h3 (by decide) h)
  · obtain ⟨x, y, hx, hy, h2, _⟩ := pctUpper_piece b
    have h3 := pctUpper_zero b h
    rw [h2] at h3
    rw [h1, h2]
    simp only [List.cons_append, List.nil_append]
    rw [restore_cons3, if_neg (fun h => h3 ⟨by simp [h.2.1], by simp [h.2.2]⟩), restore_plain (asc_hex_ne hx),
      restore_plain (asc_hex_ne hy)]
    cases restoreEscapes es t <;> rfl

theorem quoteByte_zero {safe : Str} (hs : SafeSet safe) : quoteByte safe 0 = [37, 48, 48] := by
  rcases quoteByte_cases safe 0 with ⟨_, c, h2, h3, h4⟩ | h1
  · exfalso
    have : c = Char.ofNat 0 := asc_inj h3 (by decide) h4
    subst this
    rcases h2 with h2 | h2
    · revert h2; decide
    · exact hs.nul h2
  · rw [h1]; rfl

theorem restore_zero {safe : Str} (hs : SafeSet safe) (es : List Bytes) (t : Bytes) :
    restoreEscapes es (quoteByte safe 0 ++ t) = match es with
      | [] => .error .indexError
      | e :: es => (e ++ ·) <$> restoreEscapes es t := by
  rw [quoteByte_zero hs]
  simp only [List.cons_append, List.nil_append]
  rw [restore_cons3, if_pos ⟨rfl, rfl, rfl⟩]

/-- An escape as bytes. -/
def IsEsc (e : Bytes) : Prop := ∃ x y, isHex x ∧ isHex y ∧ e = [asc '%', asc x, asc y]

theorem restore_denotes {safe : Str} (hs : SafeSet safe) : ∀ (bs : Bytes) (es : List Bytes) (out : Bytes),
    (∀ e ∈ es, IsEsc e) → restoreEscapes es (quoteBytes safe bs) = .ok out → ∃ d, Denotes safe out d := by
  intro bs
  induction bs with
  | nil =>
    intro es out _ h
    simp only [quoteBytes, List.flatMap_nil, restoreEscapes, Except.ok.injEq] at h
    subst h
    exact ⟨_, .nil⟩
  | cons b bs ih =>
    intro es out he h
    simp only [quoteBytes, List.flatMap_cons] at h
    by_cases hb : b = 0
    · subst hb
      rw [restore_zero hs] at h
      cases es with
      | nil => exact absurd h (by simp)
      | cons e es =>
        simp only at h
        cases hr : restoreEscapes es (bs.flatMap (quoteByte safe)) with
        | error x => rw [hr] at h; exact absurd h (by simp [Functor.map, Except.map])
        | ok t =>
          rw [hr] at h
          have h : e ++ t = out := by simpa [Functor.map, Except.map] using h
          obtain ⟨d, hd⟩ := ih es t (fun x hx => he x (List.mem_cons_of_mem _ hx)) hr
          obtain ⟨x, y, hx, hy, rfl⟩ := he e List.mem_cons_self
          subst h
          exact ⟨_, .esc hx hy hd⟩
    · rw [restore_quoteByte hs hb] at h
      cases hr : restoreEscapes es (bs.flatMap (quoteByte safe)) with
      | error x => rw [hr] at h; exact absurd h (by simp [Functor.map, Except.map])
      | ok t =>
        rw [hr] at h
        have h : quoteByte safe b ++ t = out := by simpa [Functor.map, Except.map] using h
        obtain ⟨d, hd⟩ := ih es t he hr
        subst h
        exact ⟨_, Denotes.append (quoteByte_denotes hs b) hd⟩

theorem extract_cons3 (a b c : Char) (r : Str) : extractEscapes (a :: b :: c :: r) =
    if a = '%' ∧ (hexPair b.toNat c.toNat).isSome then
      ([37, UInt8.ofNat b.toNat, UInt8.ofNat c.toNat] :: (extractEscapes r).1, Char.ofNat 0 :: (extractEscapes r).2)
    else ((extractEscapes (b :: c :: r)).1, a :: (extractEscapes (b :: c :: r)).2) := by
  rw [extractEscapes]

theorem extract_isEsc (s : Str) : ∀ e ∈ (extractEscapes s).1, IsEsc e := by
  induction hk : s.length using Nat.strong_induction_on generalizing s with
  | _ k ih =>
    subst hk
    match s with
    | [] => simp [extractEscapes]
    | [_] => simp [extractEscapes]
    | [_, _] => simp [extractEscapes]
    | a :: b :: c :: r =>
      rw [extract_cons3]
      split
      · next h =>
        intro e he
        rcases List.mem_cons.1 he with rfl | he
        · obtain ⟨h1, h2⟩ := hexPair_isSome.1 h.2
          exact ⟨b, c, h1, h2, rfl⟩
        · exact ih _ (by simp; omega) r rfl e he
      · intro e he
        exact ih _ (by simp) (b :: c :: r) rfl e he

theorem urlquote_shape {safe s : Str} {out : Bytes} (hs : SafeSet safe) (h : urlquote s safe = .ok (some out)) :
    ∃ d, Denotes safe out d := by
  simp only [urlquote] at h
  split at h
  · simp at h
  by_cases he : hasEscape s = true
  · simp only [if_pos he] at h
    split at h
    · simp only [Except.ok.injEq, Option.some.injEq] at h
      subst h
      exact ⟨_, quoteBytes_denotes hs _⟩
    · cases hr : restoreEscapes (extractEscapes (unescapeRuns safe [] s)).1
          (quoteBytes safe (encodeUtf8 (extractEscapes (unescapeRuns safe [] s)).2)) with
      | error e => rw [hr] at h; exact absurd h (by simp [bind, Except.bind])
      | ok t =>
        rw [hr] at h
        have h : t = out := by simpa [bind, Except.bind, pure, Except.pure] using h
        subst h
        exact restore_denotes hs _ _ _ (extract_isEsc _) hr
  · simp only [if_neg he, if_true, Except.ok.injEq, Option.some.injEq] at h
    subst h
    exact ⟨_, quoteBytes_denotes hs _⟩

/-! ### Texts without escapes -/

theorem hasEscape_cons (a b c : Char) (r : Str) : hasEscape (a :: b :: c :: r) =
    ((a == '%' && (hexPair b.toNat c.toNat).isSome) || hasEscape (b :: c :: r)) := by rw [hasEscape]

theorem hasEscape_false {s : Str} (h : NoEscape s) : hasEscape s = false := by
  induction hk : s.length using Nat.strong_induction_on generalizing s with
  | _ k ih =>
    subst hk
    match s with
    | [] => simp [hasEscape]
    | [_] => simp [hasEscape]
    | [_, _] => simp [hasEscape]
    | a :: b :: c :: r =>
      rw [hasEscape_cons, ih _ (by simp) (s := b :: c :: r) ?_ rfl, Bool.or_false]
      · cases hx : (a == '%' && (hexPair b.toNat c.toNat).isSome) with
        | false => rfl
        | true =>
          exfalso
          simp only [Bool.and_eq_true, beq_iff_eq] at hx
          obtain ⟨rfl, hx⟩ := hx
          obtain ⟨h1, h2⟩ := hexPair_isSome.1 hx
          exact h ⟨[], b, c, r, rfl, h1, h2⟩
      · rintro ⟨pre, x, y, post, h1, h2⟩
        exact h ⟨a :: pre, x, y, post, by rw [h1]; rfl, h2⟩

theorem urlquote_plain {s safe : Str} (h : NoEscape s) (hne : s ≠ []) :
    urlquote s safe = .ok (some (quoteBytes safe (encodeUtf8 s))) := by
  simp only [urlquote, if_neg hne, hasEscape_false h]
  rfl

/-! ### Texts in which every `%` begins an escape -/

/-- A piece that is not a `NUL` character. -/
def Fine : Piece → Prop
  | .char c => c ≠ '%' ∧ c ≠ Char.ofNat 0
  | .esc a b => isHex a ∧ isHex b

theorem mem_utf8_ascii {c : Char} {b : UInt8} (hb : b ∈ utf8 c) (h : b.toNat < 128) : utf8 c = [b] ∧ c.toNat = b.toNat := by
  have hv := char_valid c
  simp only [utf8] at hb ⊢
  split at hb
  · next h1 =>
    rw [if_pos h1]
    simp only [List.mem_singleton] at hb
    subst hb
    exact ⟨rfl, (toNat_ofNat (by omega)).symm⟩
  · exfalso
    split at hb
    · simp only [List.mem_cons, List.not_mem_nil, or_false] at hb
      rcases hb with rfl | rfl <;> (rw [toNat_ofNat (by omega)] at h; omega)
    split at hb
    · simp only [List.mem_cons, List.not_mem_nil, or_false] at hb
      rcases hb with rfl | rfl | rfl <;> (rw [toNat_ofNat (by omega)] at h; omega)
    · simp only [List.mem_cons, List.not_mem_nil, or_false] at hb
      rcases hb with rfl | rfl | rfl | rfl <;> (rw [toNat_ofNat (by omega)] at h; omega)

theorem utf8_ascii {c : Char} (h : c.toNat < 128) : utf8 c = [asc c] := by
  simp only [utf8, if_pos h, asc]

theorem decode_pieces (run : Bytes) (h0 : (0 : UInt8) ∉ run) (h37 : (37 : UInt8) ∉ run) :
    ∃ qs : List Piece, decodeIri run = qs.flatMap Piece.text ∧ qs.flatMap Piece.bytes = run ∧ ∀ q ∈ qs, Fine q := by
  induction hk : run.length using Nat.strong_induction_on generalizing run with
  | _ k ih =>
    subst hk
    cases run with
    | nil => exact ⟨[], rfl, rfl, by simp⟩
    | cons a r =>
      rw [decodeIri_cons]
      cases hd : decodeOne (a :: r) with
      | none =>
        obtain ⟨qs, h1, h2, h3⟩ := ih r.length (by simp) r (fun h => h0 (List.mem_cons_of_mem _ h))
          (fun h => h37 (List.mem_cons_of_mem _ h)) rfl
        obtain ⟨x, y, hx, hy, h4, h5⟩ := pctLower_piece a
        refine ⟨.esc x y :: qs, ?_, ?_, ?_⟩
        · simp only [h1, h4, List.flatMap_cons, Piece.text]
        · simp only [List.flatMap_cons, Piece.bytes, h5, h2, List.singleton_append]
        · intro q hq
          rcases List.mem_cons.1 hq with rfl | hq
          · exact ⟨hx, hy⟩
          · exact h3 q hq
      | some cr =>
        obtain ⟨c, rest⟩ := cr
        have hinv := decodeOne_inv hd
        have hl := congrArg List.length hinv
        have h1 := utf8_length c
        simp only [List.length_cons, List.length_append] at hl
        have hsub : ∀ b ∈ rest, b ∈ a :: r := by rw [hinv]; exact fun b hb => List.mem_append_right _ hb
        obtain ⟨qs, h2, h3, h4⟩ := ih rest.length (by simp; omega) rest (fun h => h0 (hsub _ h)) (fun h => h37 (hsub _ h)) rfl
        refine ⟨.char c :: qs, ?_, ?_, ?_⟩
        · simp only [h2, List.flatMap_cons, Piece.text, List.singleton_append]
        · simp only [List.flatMap_cons, Piece.bytes, h3, ← utf8_eq]
          exact hinv.symm
        · intro q hq
          rcases List.mem_cons.1 hq with rfl | hq
          · constructor
            · rintro rfl
              exact h37 (by rw [hinv]; exact List.mem_append_left _ (by decide))
            · rintro rfl
              exact h0 (by rw [hinv]; exact List.mem_append_left _ (by decide))
          · exact h4 q hq

theorem replace_pieces {c : Char} (hc : c.toNat < 128) (hx : ¬ isHex c) (hp : c ≠ '%') (qs : List Piece) (hq : ∀ q ∈ qs, Fine q) :
    ∃ rs : List Piece, replace c (pctLower (UInt8.ofNat c.toNat)) (qs.flatMap Piece.text) = rs.flatMap Piece.text ∧
      rs.flatMap Piece.bytes = qs.flatMap Piece.bytes ∧ (∀ r ∈ rs, Fine r) ∧
      ∀ d, .char d ∈ rs → .char d ∈ qs ∧ d ≠ c := by
  induction qs with
  | nil => exact ⟨[], rfl, rfl, by simp, by simp⟩
  | cons q qs ih =>
    obtain ⟨rs, h1, h2, h3, h0⟩ := ih (fun x hx => hq x (List.mem_cons_of_mem _ hx))
    have hf := hq q List.mem_cons_self
    simp only [replace] at h1
    cases q with
    | char d =>
      by_cases hd : d = c
      · subst hd
        obtain ⟨x, y, hx', hy, h4, h5⟩ := pctLower_piece (UInt8.ofNat d.toNat)
        refine ⟨.esc x y :: rs, ?_, ?_, ?_, ?_⟩
        · rw [h4] at h1 ⊢
          simp only [replace, List.flatMap_cons, Piece.text, List.singleton_append, if_true, h1]
        · simp only [List.flatMap_cons, Piece.bytes, h2, h5, ← utf8_eq, utf8_ascii hc]
          rfl
        · intro r hr
          rcases List.mem_cons.1 hr with rfl | hr
          · exact ⟨hx', hy⟩
          · exact h3 r hr
        · intro e he
          rcases List.mem_cons.1 he with he | he
          · exact absurd he (by simp)
          · exact ⟨List.mem_cons_of_mem _ (h0 e he).1, (h0 e he).2⟩
      · refine ⟨.char d :: rs, ?_, ?_, ?_, ?_⟩
        · simp only [replace, List.flatMap_cons, Piece.text, List.singleton_append, if_neg hd, h1]
        · simp only [List.flatMap_cons, h2]
        · intro r hr
          rcases List.mem_cons.1 hr with rfl | hr
          · exact hf
          · exact h3 r hr
        · intro e he
          rcases List.mem_cons.1 he with he | he
          · obtain rfl : e = d := by simpa using he
            exact ⟨List.mem_cons_self, hd⟩
          · exact ⟨List.mem_cons_of_mem _ (h0 e he).1, (h0 e he).2⟩
    | esc a b =>
      refine ⟨.esc a b :: rs, ?_, ?_, ?_, ?_⟩
      · simp only [replace, List.flatMap_cons, Piece.text, List.cons_append, List.nil_append,
          if_neg (Ne.symm hp), if_neg (fun h => hx (h ▸ hf.1) : ¬ a = c), if_neg (fun h => hx (h ▸ hf.2) : ¬ b = c), h1]
      · simp only [List.flatMap_cons, h2]
      · intro r hr
        rcases List.mem_cons.1 hr with rfl | hr
        · exact hf
        · exact h3 r hr
      · intro e he
        rcases List.mem_cons.1 he with he | he
        · exact absurd he (by simp)
        · exact ⟨List.mem_cons_of_mem _ (h0 e he).1, (h0 e he).2⟩

theorem marked_esc {safe : Str} (qs : List Piece) (h : ∀ d, .char d ∈ qs → d ∉ safe) :
    qs.flatMap (Piece.marked safe) = (qs.flatMap Piece.bytes).map fun b => (b, false) := by
  induction qs with
  | nil => rfl
  | cons q qs ih =>
    rw [List.flatMap_cons, List.flatMap_cons, List.map_append, ih fun d hd => h d (List.mem_cons_of_mem _ hd)]
    congr 1
    cases q with
    | char c => simp [Piece.marked, Piece.bytes, h c List.mem_cons_self]
    | esc a b => rfl

theorem unescape_pieces {safe : Str} (hs : SafeSet safe) (run : Bytes) (h0 : (0 : UInt8) ∉ run) (h37 : (37 : UInt8) ∉ run) :
    ∃ qs : List Piece, unescape safe run = qs.flatMap Piece.text ∧
      qs.flatMap (Piece.marked safe) = (run.map fun b => (b, false)) ∧ ∀ q ∈ qs, Fine q := by
  obtain ⟨qs, h1, h2, h3⟩ := decode_pieces run h0 h37
  suffices h : ∀ (l : Str), (∀ c ∈ l, c ∈ safe) → ∀ qs : List Piece, (∀ q ∈ qs, Fine q) → ∃ rs : List Piece,
      l.foldl (fun s c => replace c (pctLower (UInt8.ofNat c.toNat)) s) (qs.flatMap Piece.text) = rs.flatMap Piece.text ∧
      rs.flatMap Piece.bytes = qs.flatMap Piece.bytes ∧ (∀ r ∈ rs, Fine r) ∧ ∀ d, .char d ∈ rs → .char d ∈ qs ∧ d ∉ l by
    obtain ⟨rs, h4, h5, h6, h7⟩ := h safe (fun _ h => h) qs h3
    exact ⟨rs, by rw [unescape, h1, h4], by rw [marked_esc rs fun d hd => (h7 d hd).2, h5, h2], h6⟩
  intro l
  induction l with
  | nil => intro _ qs hq; exact ⟨qs, rfl, rfl, hq, fun d hd => ⟨hd, by simp⟩⟩
  | cons c l ih =>
    intro hl qs hq
    have hc := hl c List.mem_cons_self
    obtain ⟨rs, h4, h5, h6, h6'⟩ := replace_pieces (hs.ascii c hc) (hs.hex c hc) (fun h => hs.pct (h ▸ hc)) qs hq
    obtain ⟨ts, h7, h8, h9, h9'⟩ := ih (fun x hx => hl x (List.mem_cons_of_mem _ hx)) rs h6
    refine ⟨ts, by rw [List.foldl_cons, h4, h7], by rw [h8, h5], h9, fun d hd => ?_⟩
    obtain ⟨h10, h11⟩ := h9' d hd
    obtain ⟨h12, h13⟩ := h6' d h10
    exact ⟨h12, by simp [h11, h13]⟩

/-- The text of the bytes collected so far. -/
def flush (safe : Str) (run : Bytes) : Str := if run = [] then [] else unescape safe run

theorem runs_char {safe : Str} {c : Char} (h : c ≠ '%') (run : Bytes) (t : Str) :
    unescapeRuns safe run (c :: t) = flush safe run ++ c :: unescapeRuns safe [] t := by
  match t with
  | [] => simp [unescapeRuns, flush]
  | [b] => simp [unescapeRuns, flush]
  | b :: d :: r => rw [unescapeRuns, if_neg h]; rfl

theorem runs_esc {safe : Str} {a b : Char} (ha : isHex a) (hb : isHex b) (run : Bytes) (t : Str) :
    unescapeRuns safe run ('%' :: a :: b :: t) = unescapeRuns safe (run ++ [UInt8.ofNat (16 * hexNum a + hexNum b)]) t := by
  rw [unescapeRuns, if_pos rfl, hexPair_isHex ha hb]

theorem runs_pieces {safe : Str} (hs : SafeSet safe) : ∀ (ps : List Piece) (run : Bytes), (∀ p ∈ ps, Fine p) →
    (0 : UInt8) ∉ run ++ ps.flatMap Piece.bytes → (∀ a b, .esc a b ∈ ps → 16 * hexNum a + hexNum b ≠ 37) →
    (37 : UInt8) ∉ run → ∃ qs : List Piece, unescapeRuns safe run (ps.flatMap Piece.text) = qs.flatMap Piece.text ∧
      qs.flatMap (Piece.marked safe) = (run.map fun b => (b, false)) ++ ps.flatMap (Piece.marked safe) ∧ ∀ q ∈ qs, Fine q := by
  have hflush : ∀ run : Bytes, (0 : UInt8) ∉ run → (37 : UInt8) ∉ run → ∃ qs : List Piece,
      flush safe run = qs.flatMap Piece.text ∧
      qs.flatMap (Piece.marked safe) = (run.map fun b => (b, false)) ∧ ∀ q ∈ qs, Fine q := by
    intro run h0 h37
    by_cases hr : run = []
    · subst hr; exact ⟨[], rfl, rfl, by simp⟩
    · simp only [flush, if_neg hr]
      exact unescape_pieces hs run h0 h37
  intro ps
  induction ps with
  | nil =>
    intro run _ h0 _ h37
    obtain ⟨qs, h1, h2, h3⟩ := hflush run (by simpa using h0) h37
    refine ⟨qs, ?_, by simpa using h2, h3⟩
    rw [← h1]; simp [unescapeRuns, flush]
  | cons p ps ih =>
    intro run hp h0 he h37
    have hf := hp p List.mem_cons_self
    cases p with
    | char c =>
      obtain ⟨qs, h1, h2, h3⟩ := hflush run (fun h => h0 (List.mem_append_left _ h)) h37
      obtain ⟨rs, h4, h5, h6⟩ := ih [] (fun x hx => hp x (List.mem_cons_of_mem _ hx)) (fun h => h0 (by
        simp only [List.nil_append] at h
        simp only [List.flatMap_cons, List.mem_append]
        exact .inr (.inr h))) (fun a b h => he a b (List.mem_cons_of_mem _ h)) (by simp)
      refine ⟨qs ++ .char c :: rs, ?_, ?_, ?_⟩
      · simp only [List.flatMap_cons, Piece.text, List.singleton_append, List.flatMap_append]
        rw [runs_char hf.1, h1, h4]
      · simp only [List.flatMap_cons, List.flatMap_append, h2, h5, List.map_nil, List.nil_append]
      · intro q hq
        rcases List.mem_append.1 hq with hq | hq
        · exact h3 q hq
        rcases List.mem_cons.1 hq with rfl | hq
        · exact hf
        · exact h6 q hq
    | esc a b =>
      obtain ⟨rs, h4, h5, h6⟩ := ih (run ++ [UInt8.ofNat (16 * hexNum a + hexNum b)])
        (fun x hx => hp x (List.mem_cons_of_mem _ hx))
        (fun h => h0 (by simpa [List.flatMap_cons, Piece.bytes, List.append_assoc] using h))
        (fun a b h => he a b (List.mem_cons_of_mem _ h)) (by
          intro h
          rcases List.mem_append.1 h with h | h
          · exact h37 h
          · have h := congrArg UInt8.toNat (List.mem_singleton.1 h)
            have h1 := (hexVal_isHex hf.1).2.1
            have h2 := (hexVal_isHex hf.2).2.1
            rw [toNat_ofNat (by omega)] at h
            exact he a b List.mem_cons_self h.symm)
      refine ⟨rs, ?_, ?_, h6⟩
      · simp only [List.flatMap_cons, Piece.text, List.cons_append, List.nil_append]
        rw [runs_esc hf.1 hf.2, h4]
      · rw [h5]; simp [List.flatMap_cons, Piece.marked]

theorem extract_char {c : Char} (h : c ≠ '%') (t : Str) : extractEscapes (c :: t) =
    ((extractEscapes t).1, c :: (extractEscapes t).2) := by
  match t with
  | [] => simp [extractEscapes]
  | [b] => simp [extractEscapes]
  | b :: d :: r => rw [extract_cons3, if_neg (fun h' => h h'.1)]

/-- The text of a piece in the result. -/
def quotePiece (safe : Str) : Piece → Bytes
  | .char c => quoteBytes safe (utf8 c)
  | .esc a b => [asc '%', asc a, asc b]

theorem restore_quoteBytes {safe : Str} (hs : SafeSet safe) (bs : Bytes) (h : (0 : UInt8) ∉ bs) (es : List Bytes) (t : Bytes) :
    restoreEscapes es (quoteBytes safe bs ++ t) = (quoteBytes safe bs ++ ·) <$> restoreEscapes es t := by
  induction bs with
  | nil => simp [quoteBytes]
  | cons b bs ih =>
    simp only [quoteBytes, List.flatMap_cons, List.append_assoc] at *
    rw [restore_quoteByte hs (fun hb => h (by simp [hb])), ih (fun hb => h (by simp [hb]))]
    cases restoreEscapes es t <;> rfl

theorem zero_not_mem_utf8 {c : Char} (h : c ≠ Char.ofNat 0) : (0 : UInt8) ∉ utf8 c := by
  intro hm
  have := (mem_utf8_ascii hm (by decide)).2
  apply h
  rw [← Char.ofNat_toNat c, this]
  rfl

theorem extract_restore {safe : Str} (hs : SafeSet safe) (qs : List Piece) (hq : ∀ q ∈ qs, Fine q) :
    restoreEscapes (extractEscapes (qs.flatMap Piece.text)).1
      (quoteBytes safe (encodeUtf8 (extractEscapes (qs.flatMap Piece.text)).2)) = .ok (qs.flatMap (quotePiece safe)) ∧
    ((extractEscapes (qs.flatMap Piece.text)).1 = [] →
      quoteBytes safe (encodeUtf8 (extractEscapes (qs.flatMap Piece.text)).2) = qs.flatMap (quotePiece safe)) := by
  induction qs with
  | nil => simp [extractEscapes, restoreEscapes, quoteBytes, encodeUtf8]
  | cons q qs ih =>
    obtain ⟨h1, h2⟩ := ih (fun x hx => hq x (List.mem_cons_of_mem _ hx))
    have hf := hq q List.mem_cons_self
    cases q with
    | char c =>
      simp only [List.flatMap_cons, Piece.text, List.singleton_append]
      rw [extract_char hf.1]
      simp only [encodeUtf8, List.flatMap_cons, quotePiece, quoteBytes, List.flatMap_append] at h1 h2 ⊢
      constructor
      · have := restore_quoteBytes hs (utf8 c) (zero_not_mem_utf8 hf.2)
        simp only [quoteBytes] at this
        rw [this, h1]; rfl
      · intro h
        rw [h2 h]
    | esc a b =>
      simp only [List.flatMap_cons, Piece.text, List.cons_append, List.nil_append]
      rw [extract_cons3, if_pos ⟨rfl, hexPair_isSome.2 hf⟩]
      refine ⟨?_, fun h => absurd h (by simp)⟩
      simp only [encodeUtf8, List.flatMap_cons, quotePiece, quoteBytes, List.flatMap_append] at h1 ⊢
      have hz : (utf8 (Char.ofNat 0)).flatMap (quoteByte safe) = quoteByte safe 0 := by
        rw [utf8_ascii (by decide)]
        simp only [List.flatMap_cons, List.flatMap_nil, List.append_nil]
        rfl
      rw [hz, restore_zero hs]
      simp only
      rw [h1]
      rfl

theorem map_mark_utf8 {safe : Str} (hs : SafeSet safe) (c : Char) :
    (utf8 c).map (mark safe) = (Piece.char c).marked safe := by
  simp only [Piece.marked, ← utf8_eq]
  by_cases hc : c.toNat < 128
  · rw [utf8_ascii hc]
    simp only [List.map_cons, List.map_nil, mark_asc hs hc]
  · refine List.map_congr_left fun b hb => ?_
    have hb' : 128 ≤ b.toNat := by
      by_contra h
      have := (mem_utf8_ascii hb (by omega)).2
      omega
    rw [mark_other hs hb']
    have : c ∉ safe := fun h => hc (hs.ascii c h)
    simp [this]

theorem map_mark_encode {safe : Str} (hs : SafeSet safe) (s : Str) :
    (encodeUtf8 s).map (mark safe) = (s.map Piece.char).flatMap (Piece.marked safe) := by
  induction s with
  | nil => rfl
  | cons c cs ih =>
    simp only [encodeUtf8, List.flatMap_cons, List.map_append, List.map_cons] at ih ⊢
    rw [ih, map_mark_utf8 hs]

theorem pieces_denote {safe : Str} (hs : SafeSet safe) (qs : List Piece) (hq : ∀ q ∈ qs, Fine q) :
    Denotes safe (qs.flatMap (quotePiece safe)) (qs.flatMap (Piece.marked safe)) := by
  induction qs with
  | nil => exact .nil
  | cons q qs ih =>
    simp only [List.flatMap_cons]
    refine Denotes.append ?_ (ih fun x hx => hq x (List.mem_cons_of_mem _ hx))
    have hf := hq q List.mem_cons_self
    cases q with
    | char c => rw [← map_mark_utf8 hs]; exact quoteBytes_denotes hs _
    | esc a b => exact .esc hf.1 hf.2 .nil

theorem hasEscape_append (pre : Str) {a b : Char} (ha : isHex a) (hb : isHex b) (post : Str) :
    hasEscape (pre ++ '%' :: a :: b :: post) = true := by
  induction pre with
  | nil =>
    rw [List.nil_append, hasEscape_cons, hexPair_isSome.2 ⟨ha, hb⟩]; rfl
  | cons c pre ih =>
    cases hp : pre ++ '%' :: a :: b :: post with
    | nil => simp at hp
    | cons x t =>
      cases t with
      | nil => have := congrArg List.length hp; simp at this; omega
      | cons y t => rw [List.cons_append, hp, hasEscape_cons, ← hp, ih, Bool.or_true]

theorem urlquote_pieces {safe : Str} (hs : SafeSet safe) {s : Str} {ps : List Piece} (h : Escaped s ps) (hne : s ≠ [])
    (hnul : (0 : UInt8) ∉ ps.flatMap Piece.bytes) (hpct : ∀ a b, .esc a b ∈ ps → 16 * hexNum a + hexNum b ≠ 37) :
    ∃ out, urlquote s safe = .ok (some out) ∧ Denotes safe out (ps.flatMap (Piece.marked safe)) := by
  obtain ⟨rfl, hwf⟩ := h
  have hfine : ∀ p ∈ ps, Fine p := by
    intro p hp
    have := hwf p hp
    cases p with
    | char c =>
      refine ⟨this, ?_⟩
      rintro rfl
      exact hnul (List.mem_flatMap.2 ⟨_, hp, by decide⟩)
    | esc a b => exact this
  by_cases he : hasEscape (ps.flatMap Piece.text) = true
  · obtain ⟨qs, h1, h2, h3⟩ := runs_pieces hs ps [] hfine (by simpa using hnul) hpct (by simp)
    obtain ⟨h4, h5⟩ := extract_restore hs qs h3
    refine ⟨qs.flatMap (quotePiece safe), ?_, ?_⟩
    · simp only [urlquote, if_neg hne, he, if_true, h1]
      split
      · next hn => rw [h5 hn]
      · rw [h4]; rfl
    · have := pieces_denote hs qs h3
      rwa [h2, List.map_nil, List.nil_append] at this
  · have hchar : ∀ p ∈ ps, ∀ a b, p ≠ .esc a b := by
      rintro p hp a b rfl
      obtain ⟨l1, l2, rfl⟩ := List.append_of_mem hp
      have hab := hwf _ hp
      apply he
      simp only [List.flatMap_append, List.flatMap_cons, Piece.text, List.cons_append, List.nil_append]
      exact hasEscape_append _ hab.1 hab.2 _
    refine ⟨quoteBytes safe (encodeUtf8 (ps.flatMap Piece.text)), ?_, ?_⟩
    · simp only [urlquote, if_neg hne, if_neg he]; rfl
    · have : (encodeUtf8 (ps.flatMap Piece.text)).map (mark safe) = ps.flatMap (Piece.marked safe) := by
        clear hne hnul hpct he hwf hfine
        induction ps with
        | nil => rfl
        | cons p ps ih =>
          rw [List.flatMap_cons, List.flatMap_cons, ← ih fun x hx => hchar x (List.mem_cons_of_mem _ hx)]
          cases p with
          | char c =>
            rw [← map_mark_utf8 hs, ← List.map_append]
            rfl
          | esc a b => exact absurd rfl (hchar _ List.mem_cons_self a b)
      rw [← this]
      exact quoteBytes_denotes hs _

/-! ### Unquoting -/

/-- `quoteBytes` with a map applied to the bytes that stand for themselves. -/
def quoteMap (safe : Str) (g : UInt8 → UInt8) (bs : Bytes) : Bytes :=
  bs.flatMap fun b => if quoteByte safe b = [b] then [g b] else pctUpper b

theorem pctUpper_ne_single (b : UInt8) : pctUpper b ≠ [b] := by simp [pctUpper]

theorem quoteMap_id (safe : Str) (bs : Bytes) : quoteMap safe id bs = quoteBytes safe bs := by
  simp only [quoteMap, quoteBytes]
  congr 1
  funext b
  split
  · next h => rw [h]; rfl
  · next h =>
    rcases quoteByte_cases safe b with ⟨h1, _⟩ | h1
    · exact absurd h1 h
    · exact h1.symm

theorem replace_quoteMap (safe : Str) (g : UInt8 → UInt8) (bs : Bytes) {x y : UInt8} (hx : ∀ c, isHex c → asc c ≠ x) (hp : x ≠ 37) :
    replace x [y] (quoteMap safe g bs) = quoteMap safe (fun b => if g b = x then y else g b) bs := by
  induction bs with
  | nil => rfl
  | cons b bs ih =>
    simp only [quoteMap, replace, List.flatMap_cons, List.flatMap_append] at ih ⊢
    rw [ih]
    congr 1
    split
    · simp only [List.flatMap_cons, List.flatMap_nil, List.append_nil]
      split <;> rfl
    · obtain ⟨a, d, ha, hd, h, _⟩ := pctUpper_piece b
      rw [h]
      simp only [List.flatMap_cons, List.flatMap_nil, List.append_nil, asc_pct, if_neg (Ne.symm hp), if_neg (hx a ha),
        if_neg (hx d hd), List.cons_append, List.nil_append]

theorem unquote_quoteMap (safe : Str) (g : UInt8 → UInt8) (bs : Bytes) (hg : ∀ b, quoteByte safe b = [b] → g b ≠ 37) :
    unquoteBytes (quoteMap safe g bs) = bs.map fun b => if quoteByte safe b = [b] then g b else b := by
  induction bs with
  | nil => rfl
  | cons b bs ih =>
    simp only [quoteMap, List.flatMap_cons, List.map_cons] at ih ⊢
    rw [← ih]
    split
    · next h => rw [List.singleton_append, unquoteBytes_plain (hg b h)]
    · obtain ⟨x, y, hx, hy, h1, h2⟩ := pctUpper_piece b
      obtain ⟨_, _, x3, _⟩ := hexVal_isHex hx
      obtain ⟨_, _, y3, _⟩ := hexVal_isHex hy
      rw [h1]
      simp only [List.cons_append, List.nil_append]
      rw [unquoteBytes, if_pos asc_pct, asc_toNat x3, asc_toNat y3, hexPair_isHex hx hy, h2]

theorem replace_append {α : Type} [DecidableEq α] (x : α) (t a b : List α) : replace x t (a ++ b) = replace x t a ++ replace x t b := by
  simp [replace]

theorem replace_absent {α : Type} [DecidableEq α] {x : α} {t s : List α} (h : x ∉ s) : replace x t s = s := by
  induction s with
  | nil => rfl
  | cons c s ih =>
    simp only [replace, List.flatMap_cons] at ih ⊢
    rw [if_neg (fun hc => h (by simp [hc])), ih fun hm => h (List.mem_cons_of_mem _ hm)]
    rfl

theorem replace_encode {c : Char} (hc : c.toNat < 128) {t : Str} (ht : ∀ d ∈ t, d.toNat < 128) (s : Str) :
    replace (asc c) (t.map asc) (encodeUtf8 s) = encodeUtf8 (replace c t s) := by
  have hasc : ∀ l : Str, (∀ d ∈ l, d.toNat < 128) → encodeUtf8 l = l.map asc := by
    intro l hl
    induction l with
    | nil => rfl
    | cons d l ih =>
      simp only [encodeUtf8, List.flatMap_cons, List.map_cons] at ih ⊢
      rw [utf8_ascii (hl d List.mem_cons_self), ih fun x hx => hl x (List.mem_cons_of_mem _ hx)]
      rfl
  induction s with
  | nil => rfl
  | cons d s ih =>
    have e1 : encodeUtf8 (d :: s) = utf8 d ++ encodeUtf8 s := rfl
    have e2 : replace c t (d :: s) = (if d = c then t else [d]) ++ replace c t s := rfl
    have e3 : ∀ a b : Str, encodeUtf8 (a ++ b) = encodeUtf8 a ++ encodeUtf8 b := by intro a b; simp [encodeUtf8]
    rw [e1, e2, replace_append, e3, ih]
    congr 1
    by_cases hd : d = c
    · subst hd
      rw [if_pos rfl, utf8_ascii hc, hasc t ht]
      simp [replace]
    · rw [if_neg hd]
      have : asc c ∉ utf8 d := by
        intro hm
        have h1 := (mem_utf8_ascii hm (by rw [asc_toNat hc]; exact hc)).2
        rw [asc_toNat hc] at h1
        apply hd
        rw [← Char.ofNat_toNat d, h1, Char.ofNat_toNat]
      rw [replace_absent this]
      simp [encodeUtf8]

theorem encode_ne_nil {s : Str} (h : s ≠ []) : encodeUtf8 s ≠ [] := by
  cases s with
  | nil => exact absurd rfl h
  | cons c s =>
    intro h
    exact utf8_ne_nil c (List.append_eq_nil_iff.1 h).1

theorem quoteBytes_ne_nil {safe : Str} {bs : Bytes} (h : bs ≠ []) : quoteBytes safe bs ≠ [] := by
  cases bs with
  | nil => exact absurd rfl h
  | cons b bs =>
    intro h
    have := (List.append_eq_nil_iff.1 h).1
    rcases quoteByte_cases safe b with ⟨h1, _⟩ | h1
    · rw [h1] at this; exact absurd this (by simp)
    · rw [h1] at this; exact absurd this (by simp [pctUpper])

/-- A byte that stands for itself and is replaced before unquoting is replaced in the result. -/
theorem unquote_preserved {safe : Str} (bs : Bytes) (g : UInt8 → UInt8) (h1 : ∀ b, quoteByte safe b = [b] → g b ≠ 37)
    (h2 : ∀ b, quoteByte safe b ≠ [b] → g b = b) : unquoteBytes (quoteMap safe g bs) = bs.map g := by
  rw [unquote_quoteMap safe g bs h1]
  refine List.map_congr_left fun b _ => ?_
  split
  · rfl
  · next h => exact (h2 b h).symm

theorem map_eq_replace {α : Type} [DecidableEq α] (x y : α) (bs : List α) :
    bs.map (fun b => if b = x then y else b) = replace x [y] bs := by
  induction bs with
  | nil => rfl
  | cons b bs ih =>
    simp only [replace, List.map_cons, List.flatMap_cons] at ih ⊢
    rw [ih]; split <;> rfl

theorem plain_ne_pct {safe : Str} (hs : SafeSet safe) {b : UInt8} (h : quoteByte safe b = [b]) : b ≠ 37 := by
  rintro rfl
  rcases quoteByte_cases safe 37 with ⟨_, c, h1, h2, h3⟩ | h1
  · have : c = '%' := asc_inj h2 (by decide) h3
    subst this
    rcases h1 with h1 | h1
    · exact (unreserved_ascii h1).2 rfl
    · exact hs.pct h1
  · rw [h1] at h; exact pctUpper_ne_single _ h

theorem unquote_replace {safe : Str} (hs : SafeSet safe) {x y : UInt8} (hx : ∀ c, isHex c → asc c ≠ x) (hp : x ≠ 37)
    (hq : quoteByte safe x = [x]) (hy : y ≠ 37) (bs : Bytes) :
    unquoteBytes (replace x [y] (quoteBytes safe bs)) = replace x [y] bs := by
  rw [← quoteMap_id, replace_quoteMap safe id bs hx hp, unquote_preserved]
  · exact map_eq_replace x y bs
  · intro b hb
    have := plain_ne_pct hs hb
    simp only [id]
    split
    · exact hy
    · exact this
  · intro b hb
    exact if_neg (fun h => hb (by rw [show b = x from h]; exact hq))

theorem unquote_replace2 {safe : Str} (hs : SafeSet safe) {x y x' y' : UInt8} (hx : ∀ c, isHex c → asc c ≠ x) (hp : x ≠ 37)
    (hq : quoteByte safe x = [x]) (hy : y ≠ 37) (hx' : ∀ c, isHex c → asc c ≠ x') (hp' : x' ≠ 37)
    (hq' : quoteByte safe x' = [x']) (hy' : y' ≠ 37) (bs : Bytes) :
    unquoteBytes (replace x' [y'] (replace x [y] (quoteBytes safe bs))) = replace x' [y'] (replace x [y] bs) := by
  rw [← quoteMap_id, replace_quoteMap safe id bs hx hp, replace_quoteMap safe _ bs hx' hp', unquote_preserved]
  · rw [← map_eq_replace x y bs, ← map_eq_replace x' y', List.map_map]
    rfl
  · intro b hb
    have := plain_ne_pct hs hb
    simp only [id]
    repeat' split
    all_goals first | exact hy | exact hy' | exact this
  · intro b hb
    have h1 : ¬ b = x := fun h => hb (by rw [h]; exact hq)
    have h2 : ¬ b = x' := fun h => hb (by rw [h]; exact hq')
    simp only [id, if_neg h1, if_neg h2]

end Asn1.Iri
