import Verif.Model.Teletex
import Mathlib.Data.List.Basic

/-!
# C41 — the T.61 codec

Unicode strings are lists of code points.
-/

namespace Asn1.Props
open Asn1 Asn1.Teletex

/-- Byte `b` stands for code point `ch` in T.61: the entry of the table, if it is not the mark U+FFFE for "undefined". -/
def Stands (b : UInt8) (ch : Nat) : Prop := decodingTable[b.toNat]? = some ch ∧ ch ≠ 0xfffe

instance (b : UInt8) (ch : Nat) : Decidable (Stands b ch) := by unfold Stands; infer_instance

private theorem all_bytes (P : UInt8 → Prop) (h : ∀ n, n < 256 → P (UInt8.ofNat n)) (b : UInt8) : P b := by
  have := h b.toNat b.toNat_lt
  simpa using this

/-- All 256 bytes have an entry. -/
private theorem entry (b : UInt8) : ∃ ch, decodingTable[b.toNat]? = some ch := by
  have hl : decodingTable.length = 256 := by decide +kernel
  exact ⟨_, List.getElem?_eq_getElem (by rw [hl]; exact b.toNat_lt)⟩

/-- Two bytes never stand for the same code point. -/
theorem C41_distinct (a b : UInt8) (ch : Nat) (ha : Stands a ch) (hb : Stands b ch) : a = b := by
  have h : ∀ m < 256, ∀ n < 256, decodingTable[m]? = decodingTable[n]? → decodingTable[m]? ≠ some 0xfffe → m = n := by
    decide +kernel
  apply UInt8.toNat_inj.mp
  refine h _ a.toNat_lt _ b.toNat_lt (by rw [ha.1, hb.1]) ?_
  rw [ha.1]
  intro hc
  exact ha.2 (Option.some.inj hc)

private theorem lookup_iff (ch : Nat) (b : UInt8) : lookup ch = some b ↔ Stands b ch := by
  have h1 : ∀ n < 256, ∀ c, decodingTable[n]? = some c → c ≠ 0xfffe → lookup c = some (UInt8.ofNat n) := by
    have : ∀ n < 256, (decodingTable[n]?).all (fun c => c = 0xfffe || lookup c == some (UInt8.ofNat n)) = true := by
      decide +kernel
    intro n hn c hc hne
    have := this n hn
    rw [hc] at this
    simpa [hne] using this
  have h2 : ∀ e ∈ encodingTable, Stands e.2 e.1 := by decide +kernel
  constructor
  · intro h
    obtain ⟨e, he, rfl⟩ := Option.map_eq_some_iff.mp h
    have h3 := h2 e (List.mem_reverse.mp (List.mem_of_find?_eq_some he))
    have h4 : e.1 = ch := by simpa using List.find?_some he
    rw [← h4]; exact h3
  · intro h
    have := h1 b.toNat b.toNat_lt ch h.1 h.2
    simpa using this

/-- Decoding gives for each byte the code point that it stands for, and exactly then succeeds. -/
theorem C41_decode (bs : Bytes) (s : List Nat) : decode bs = .ok s ↔ List.Forall₂ Stands bs s := by
  induction bs generalizing s with
  | nil => exact ⟨fun h => by cases h; exact .nil, fun h => by cases h; rfl⟩
  | cons b r ih =>
    obtain ⟨ch, hch⟩ := entry b
    simp only [decode, hch]
    by_cases hf : ch = 0xfffe
    · simp only [if_pos hf]
      constructor
      · intro h; cases h
      · intro h
        cases h with
        | cons h1 _ => exact absurd ((Option.some.inj (hch.symm.trans h1.1)) ▸ hf) h1.2
    · simp only [if_neg hf]
      constructor
      · intro h
        cases hd : decode r with
        | error e => rw [hd] at h; cases h
        | ok s' =>
          rw [hd] at h
          cases h
          exact .cons ⟨hch, hf⟩ ((ih s').mp hd)
      · intro h
        cases h with
        | cons h1 h2 =>
          rw [(ih _).mpr h2, Option.some.inj (hch.symm.trans h1.1)]

/-- Encoding gives for each code point the byte that stands for it, and exactly then succeeds. -/
theorem C41_encode (s : List Nat) (bs : Bytes) : encode s = .ok bs ↔ List.Forall₂ Stands bs s := by
  induction s generalizing bs with
  | nil => exact ⟨fun h => by cases h; exact .nil, fun h => by cases h; rfl⟩
  | cons ch r ih =>
    simp only [encode]
    cases hl : lookup ch with
    | none =>
      constructor
      · intro h; cases h
      · intro h
        cases h with
        | cons h1 _ => rw [(lookup_iff _ _).mpr h1] at hl; cases hl
    | some b =>
      have hb := (lookup_iff ch b).mp hl
      simp only
      constructor
      · intro h
        cases hd : encode r with
        | error e => rw [hd] at h; cases h
        | ok s' =>
          rw [hd] at h
          cases h
          exact .cons hb ((ih s').mp hd)
      · intro h
        cases h with
        | cons h1 h2 => rw [(ih _).mpr h2, C41_distinct _ _ _ h1 hb]

/-- Decoding and encoding are inverse to each other. -/
theorem C41_round_trip (bs : Bytes) (s : List Nat) : decode bs = .ok s ↔ encode s = .ok bs := by
  rw [C41_decode, C41_encode]

/-- Whatever contains a byte or a code point outside the table is refused with a `UnicodeError`. -/
theorem C41_refused :
    (∀ bs, (∃ b ∈ bs, ∀ ch, ¬ Stands b ch) → decode bs = .error .unicodeError) ∧
    (∀ s, (∃ ch ∈ s, ∀ b, ¬ Stands b ch) → encode s = .error .unicodeError) := by
  constructor
  · intro bs
    induction bs with
    | nil => simp
    | cons b r ih =>
      intro h
      obtain ⟨ch, hch⟩ := entry b
      simp only [decode, hch]
      by_cases hf : ch = 0xfffe
      · simp only [if_pos hf]
      · simp only [if_neg hf]
        rw [ih]
        obtain ⟨b', hb', hn⟩ := h
        cases hb' with
        | head => exact absurd ⟨hch, hf⟩ (hn ch)
        | tail _ hm => exact ⟨b', hm, hn⟩
  · intro s
    induction s with
    | nil => simp
    | cons ch r ih =>
      intro h
      simp only [encode]
      cases hl : lookup ch with
      | none => rfl
      | some b =>
        simp only
        rw [ih]
        obtain ⟨c', hc', hn⟩ := h
        cases hc' with
        | head => exact absurd ((lookup_iff ch b).mp hl) (hn b)
        | tail _ hm => exact ⟨c', hm, hn⟩

/-- ASCII characters stand for themselves, but for the eight that T.61 does not have in their place: two of them
are elsewhere, six are missing. 220 bytes are defined. -/
theorem C41_ascii :
    (∀ b : UInt8, b.toNat < 128 → (Stands b b.toNat ↔ b.toNat ∉ [0x23, 0x24, 0x5c, 0x5e, 0x60, 0x7b, 0x7d, 0x7e])) ∧
    Stands 0xa6 0x23 ∧ Stands 0xa4 0x24 ∧
    (∀ c ∈ [0x5c, 0x5e, 0x60, 0x7b, 0x7d, 0x7e, 0xfffe], ∀ b : UInt8, ¬ Stands b c) ∧
    (decodingTable.filter (· ≠ 0xfffe)).length = 220 := by
  refine ⟨?_, by decide +kernel, by decide +kernel, ?_, by decide +kernel⟩
  · apply all_bytes
    decide +kernel
  · intro c hc
    apply all_bytes
    revert c
    decide +kernel

example : decode [0x41, 0xc8, 0x61, 0xa6] = .ok [0x41, 0x308, 0x61, 0x23] := rfl
example : encode [0x5c] = .error .unicodeError := rfl

end Asn1.Props
