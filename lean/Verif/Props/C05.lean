import Verif.Lemmas.ParseIff

/-! # C05 — parsing is total; indefinite lengths are parsed exactly; nesting is limited -/

namespace Asn1.Props
open Asn1 Spec

/-- On every byte string `parse` returns or raises `ValueError`, nothing else (in particular the
loop over indefinite-length contents always terminates: `nonTermination` is never produced). -/
theorem C05_total (data : Bytes) (strict : Bool) :
    (∃ i, parse data strict = .ok i) ∨ parse data strict = .error .valueError := by
  cases h : parse data strict with
  | ok i => exact Or.inl ⟨i, rfl⟩
  | error e => rw [parse_error _ _ _ h]; exact Or.inr rfl

/-- `parse` accepts exactly the byte strings that start with a BER value whose indefinite-length
nesting is at most eleven levels (the outermost one and ten below it). -/
theorem C05_exact (data : Bytes) (i : Info) :
    parse data = .ok i ↔
      ∃ rest, data = i.header ++ i.contents ++ i.trailer ++ rest ∧
        Ber 11 ⟨i.cls, i.method, i.tag, i.header, i.contents, i.trailer⟩ :=
  parse_ok_iff data i

/-- Indefinite-length results: constructed, trailer `00 00`, contents are consecutive complete BER
values (each nested one level less), none starting with the end-of-contents octets. -/
theorem C05_indefinite (data : Bytes) (i : Info) (h : parse data = .ok i) (ht : i.trailer ≠ []) :
    i.method = 1 ∧ i.trailer = [0, 0] ∧
    ∃ vs : List TLV, i.contents = (vs.map TLV.bytes).flatten ∧ (∀ v ∈ vs, Ber 10 v) ∧
      ∀ v ∈ vs, ¬ [0, 0] <+: v.bytes := by
  obtain ⟨rest, _, hb⟩ := (parse_ok_iff _ _).mp h
  generalize hv : i.tlv = v at hb
  cases hb with
  | definite hi hd =>
    simp only [Info.tlv, TLV.mk.injEq] at hv
    exact absurd hv.2.2.2.2.2 ht
  | indefinite vs hi h1 h2 =>
    simp only [Info.tlv, TLV.mk.injEq] at hv
    exact ⟨hv.2.1, hv.2.2.2.2.2, vs, hv.2.2.2.2.1, h1, h2⟩

/-- `n` indefinite-length SEQUENCEs inside each other. -/
def nested : Nat → Bytes
  | 0 => []
  | n + 1 => [0x30, 0x80] ++ nested n ++ [0x00, 0x00]

def nestedTLV (n : Nat) : TLV := ⟨0, 1, 16, [0x30, 0x80], nested n, [0, 0]⟩

theorem nestedTLV_bytes (n : Nat) : (nestedTLV n).bytes = nested (n + 1) := rfl

theorem nested_ident : Ident [0x30] 0 1 16 := by
  refine ⟨by decide, by decide, Or.inl ⟨by decide, by decide⟩⟩

theorem nested_ber (n : Nat) : Ber (n + 1) (nestedTLV n) := by
  induction n with
  | zero => exact Ber.indefinite (n := 0) [] nested_ident (by simp) (by simp)
  | succ n ih =>
    have := Ber.indefinite (n := n + 1) [nestedTLV n] nested_ident (by simpa using ih)
      (by simp [nestedTLV, TLV.bytes])
    simpa [nestedTLV, nestedTLV_bytes, TLV.bytes, nested] using this

theorem nested_ber_le (n : Nat) : ∀ b, Ber b (nestedTLV n) → n + 1 ≤ b := by
  induction n with
  | zero =>
    intro b h
    generalize nestedTLV 0 = v at h
    cases h <;> omega
  | succ n ih =>
    intro b h
    generalize hv : nestedTLV (n + 1) = v at h
    cases h with
    | definite hi hd => simp [nestedTLV] at hv
    | indefinite vs hi h1 h2 =>
      simp only [nestedTLV, TLV.mk.injEq] at hv
      have hc := hv.2.2.2.2.1
      cases vs with
      | nil => simp [nested] at hc
      | cons w ws =>
        have hb := h1 w (by simp)
        rw [← nestedTLV_bytes, List.map_cons, List.flatten_cons, ← List.append_nil (nestedTLV n).bytes] at hc
        have := (Ber_unique (nested_ber n) hb hc).1
        subst this
        have := ih _ hb
        omega

/-- Exactly one to eleven nested indefinite lengths are accepted: ten below the outermost one. -/
theorem C05_depth_limit (n : Nat) :
    (∃ i, parse (nested (n + 1)) = .ok i) ↔ n ≤ 10 := by
  constructor
  · rintro ⟨i, h⟩
    obtain ⟨rest, he, hb⟩ := (parse_ok_iff _ _).mp h
    rw [← nestedTLV_bytes, ← List.append_nil (nestedTLV n).bytes] at he
    have := (Ber_unique (nested_ber n) hb he).1
    rw [← this] at hb
    have := nested_ber_le n _ hb
    omega
  · intro h
    refine ⟨⟨0, 1, 16, [0x30, 0x80], nested n, [0, 0]⟩, (parse_ok_iff _ _).mpr ⟨[], by simp [Info.tlv, TLV.bytes, nested], ?_⟩⟩
    exact Ber_mono (nested_ber n) (by omega)

/-- Non-vacuity: an indefinite-length value with a definite child containing `00 00`. -/
example : parse [0x24, 0x80, 0x04, 0x02, 0x00, 0x00, 0x00, 0x00] =
    .ok ⟨0, 1, 4, [0x24, 0x80], [0x04, 0x02, 0x00, 0x00], [0, 0]⟩ := by decide +kernel
example : parse [0x04, 0x80, 0x00, 0x00] = .error .valueError ∧ parse [] = .error .valueError := by decide +kernel

end Asn1.Props
