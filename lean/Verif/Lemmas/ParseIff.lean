import Verif.Lemmas.Emit

/-! # `parse` / `peek` characterised by the BER grammar -/

namespace Asn1
open Spec

/-- The parsed tuple as a value of the specification. -/
def Info.tlv (i : Info) : TLV := ⟨i.cls, i.method, i.tag, i.header, i.contents, i.trailer⟩

theorem info_rawOf {data : Bytes} {p : Nat} {v : TLV} {s : Bytes} (hat : At data p (v.bytes ++ s)) :
    (rawOf p v).info data = ⟨v.cls, v.method, v.tag, v.header, v.contents, v.trailer⟩ := by
  unfold Raw.info rawOf
  have hat' : At data p (v.header ++ (v.contents ++ (v.trailer ++ s))) := by
    simpa [TLV.bytes] using hat
  have h1 := hat'.slice
  have h2 := hat'.next.slice
  simp only [Info.mk.injEq, true_and, and_true]
  refine ⟨h1, ?_⟩
  have e : p + v.bytes.length - v.trailer.length = p + v.header.length + v.contents.length := by
    simp [TLV.bytes]; omega
  rw [e]; exact h2

theorem parseFrom_ok_iff (data : Bytes) (p : Nat) (hp : p ≤ data.length) (i : Info) (e : Nat) :
    parseFrom data data.length p = .ok (i, e) ↔
      ∃ rest, data.drop p = i.tlv.bytes ++ rest ∧ Ber (maxDepth + 1) i.tlv ∧ e = p + i.tlv.bytes.length := by
  have hat := At.of_le hp
  unfold parseFrom
  constructor
  · intro h
    have hs := parseAt_sound (maxDepth + 1) hat
    revert h hs
    cases parseAt data data.length (maxDepth + 1) p with
    | error e => intro h; cases h
    | ok r =>
      intro h
      rintro ⟨v, rest, he, hb, rfl⟩
      simp only [bind, Except.bind, pure, Except.pure] at h
      injection h with h
      injection h with h1 h2
      rw [he] at hat
      rw [info_rawOf hat] at h1
      subst h1
      exact ⟨rest, he, hb, h2.symm⟩
  · rintro ⟨rest, he, hb, rfl⟩
    rw [he] at hat
    rw [parseAt_complete hb hat]
    simp only [bind, Except.bind, pure, Except.pure, info_rawOf hat]
    rfl

theorem parseFrom_error (data : Bytes) (p : Nat) (hp : p ≤ data.length) (e : PyErr) :
    parseFrom data data.length p = .error e → e = .valueError := by
  have hs := parseAt_sound (maxDepth + 1) (At.of_le hp)
  unfold parseFrom
  revert hs
  cases parseAt data data.length (maxDepth + 1) p with
  | error e' =>
    intro h he
    simp only [bind, Except.bind] at he
    injection he with he
    rw [← he]; exact h
  | ok r => intro _ he; simp [bind, Except.bind, pure, Except.pure] at he

/-- `parse(data)` succeeds with `i` exactly when `data` starts with the grammatical value `i`. -/
theorem parse_ok_iff (data : Bytes) (i : Info) :
    parse data = .ok i ↔ ∃ rest, data = i.tlv.bytes ++ rest ∧ Ber 11 i.tlv := by
  have h := fun i e => parseFrom_ok_iff data 0 (Nat.zero_le _) i e
  unfold parse
  constructor
  · intro hp
    cases hf : parseFrom data data.length 0 with
    | error e => rw [hf] at hp; simp [bind, Except.bind] at hp
    | ok r =>
      obtain ⟨j, e⟩ := r
      rw [hf] at hp
      simp [bind, Except.bind, pure, Except.pure] at hp
      subst hp
      obtain ⟨rest, h1, h2, _⟩ := (h j e).mp hf
      exact ⟨rest, by simpa using h1, h2⟩
  · rintro ⟨rest, h1, h2⟩
    rw [(h i (0 + i.tlv.bytes.length)).mpr ⟨rest, by simpa using h1, h2, rfl⟩]
    simp [bind, Except.bind, pure, Except.pure]

theorem parse_strict_ok_iff (data : Bytes) (i : Info) :
    parse data true = .ok i ↔ data = i.tlv.bytes ∧ Ber 11 i.tlv := by
  have h := fun i e => parseFrom_ok_iff data 0 (Nat.zero_le _) i e
  unfold parse
  constructor
  · intro hp
    cases hf : parseFrom data data.length 0 with
    | error e => rw [hf] at hp; simp [bind, Except.bind] at hp
    | ok r =>
      obtain ⟨j, e⟩ := r
      rw [hf] at hp
      obtain ⟨rest, h1, h2, h3⟩ := (h j e).mp hf
      simp only [bind, Except.bind, pure, Except.pure, true_and] at hp
      split at hp
      · cases hp
      · next hne =>
        injection hp with hp
        subst hp
        have hlen : rest.length = 0 := by
          have := congrArg List.length h1
          simp at this hne; omega
        have : rest = [] := List.length_eq_zero_iff.mp hlen
        subst this
        exact ⟨by simpa using h1, h2⟩
  · rintro ⟨h1, h2⟩
    rw [(h i (0 + i.tlv.bytes.length)).mpr ⟨[], by simpa using h1, h2, rfl⟩]
    have : i.tlv.bytes.length = data.length := by rw [← h1]
    simp [bind, Except.bind, pure, Except.pure, this]

theorem peek_ok_iff (data : Bytes) (n : Nat) :
    peek data = .ok n ↔ ∃ i, parse data = .ok i ∧ n = i.tlv.bytes.length := by
  have h := fun i e => parseFrom_ok_iff data 0 (Nat.zero_le _) i e
  unfold peek
  constructor
  · intro hp
    cases hf : parseFrom data data.length 0 with
    | error e => rw [hf] at hp; simp [bind, Except.bind] at hp
    | ok r =>
      obtain ⟨j, e⟩ := r
      rw [hf] at hp
      simp [bind, Except.bind, pure, Except.pure] at hp
      subst hp
      obtain ⟨rest, h1, h2, h3⟩ := (h j e).mp hf
      exact ⟨j, (parse_ok_iff data j).mpr ⟨rest, by simpa using h1, h2⟩, by omega⟩
  · rintro ⟨i, hi, rfl⟩
    obtain ⟨rest, h1, h2⟩ := (parse_ok_iff data i).mp hi
    rw [(h i (0 + i.tlv.bytes.length)).mpr ⟨rest, by simpa using h1, h2, rfl⟩]
    simp [bind, Except.bind, pure, Except.pure]

theorem parse_error (data : Bytes) (strict : Bool) (e : PyErr) (h : parse data strict = .error e) :
    e = .valueError := by
  unfold parse at h
  cases hf : parseFrom data data.length 0 with
  | error e' =>
    rw [hf] at h
    simp only [bind, Except.bind] at h
    injection h with h
    subst h
    exact parseFrom_error data 0 (Nat.zero_le _) _ hf
  | ok r =>
    rw [hf] at h
    simp only [bind, Except.bind, pure, Except.pure] at h
    split at h
    · injection h with h; exact h.symm
    · cases h

end Asn1

namespace Asn1
open Spec

theorem Ber_mono {b : Nat} {v : TLV} (h : Ber b v) : ∀ {b'}, b ≤ b' → Ber b' v := by
  induction h with
  | definite h1 h2 =>
    intro b' hb
    obtain ⟨k, rfl⟩ : ∃ k, b' = k + 1 := ⟨b' - 1, by omega⟩
    exact .definite h1 h2
  | indefinite vs h1 _ h3 ih =>
    intro b' hb
    obtain ⟨k, rfl⟩ : ∃ k, b' = k + 1 := ⟨b' - 1, by omega⟩
    exact .indefinite vs h1 (fun v hv => ih v hv (by omega)) h3

/-- BER values are prefix-free and uniquely decodable. -/
theorem Ber_unique {b b' : Nat} {v v' : TLV} {r r' : Bytes} (h : Ber b v) (h' : Ber b' v')
    (he : v.bytes ++ r = v'.bytes ++ r') : v = v' ∧ r = r' := by
  have hv : v = v' := by
    have a1 : At (v.bytes ++ r) 0 (v.bytes ++ r) := At.zero _
    have a2 : At (v.bytes ++ r) 0 (v'.bytes ++ r') := he ▸ At.zero _
    have c1 := parseAt_complete (Ber_mono h (Nat.le_max_left b b')) a1
    have c2 := parseAt_complete (Ber_mono h' (Nat.le_max_right b b')) a2
    rw [c1] at c2
    injection c2 with c2
    have e := info_rawOf a1
    rw [c2, info_rawOf a2] at e
    cases v; cases v'
    simp at e
    simp [e]
  subst hv
  exact ⟨rfl, List.append_cancel_left he⟩

end Asn1
