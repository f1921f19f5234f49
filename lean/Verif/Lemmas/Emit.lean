import Verif.Lemmas.Parser

/-! # Lemmas on `_dump_header` / `emit` and uniqueness of minimal encodings -/

namespace Asn1
open Spec

theorem val128_append (a b : Bytes) : val128 (a ++ b) = val128 a * 128 ^ b.length + val128 b := by
  induction a with
  | nil => simp [val128]
  | cons x xs ih => simp only [List.cons_append, val128, ih, List.length_append, Nat.pow_add]; ring

theorem val128_lt (bs : Bytes) : val128 bs < 128 ^ bs.length := by
  induction bs with
  | nil => simp [val128]
  | cons x xs ih =>
    have hx : x.toNat % 128 < 128 := Nat.mod_lt _ (by decide)
    simp only [val128, List.length_cons, Nat.pow_succ]
    nlinarith [Nat.mul_le_mul_right (128 ^ xs.length) (Nat.le_of_lt_succ hx)]

theorem val128_pos {g : UInt8} {gs : Bytes} (h : 128 ≤ g.toNat) (hne : g ≠ 0x80) : 0 < val128 (g :: gs) := by
  have h2 : g.toNat ≠ 128 := fun he => hne (UInt8.toNat_inj.mp (by simpa using he))
  have := g.toNat_lt
  have hm : 0 < g.toNat % 128 := by omega
  have : 0 < g.toNat % 128 * 128 ^ gs.length := Nat.mul_pos hm (Nat.pow_pos (by decide))
  simp only [val128]; omega

/-- Continuation groups without a leading zero group are determined by their value. -/
theorem groups_inj : ∀ (n : Nat) (a b : Bytes), a.length ≤ n → (∀ g ∈ a, 128 ≤ g.toNat) → (∀ g ∈ b, 128 ≤ g.toNat) →
    a.head? ≠ some 0x80 → b.head? ≠ some 0x80 → val128 a = val128 b → a = b := by
  intro n
  induction n with
  | zero =>
    intro a b hl _ hb _ hb' hv
    have : a = [] := List.length_eq_zero_iff.mp (by omega)
    subst this
    cases b with
    | nil => rfl
    | cons x xs =>
      have := val128_pos (gs := xs) (hb x (by simp)) (by simpa using hb')
      rw [← hv] at this; simp [val128] at this
  | succ n ih =>
    intro a b hl ha hb ha' hb' hv
    rcases List.eq_nil_or_concat a with rfl | ⟨a0, x, rfl⟩
    · cases b with
      | nil => rfl
      | cons y ys =>
        have := val128_pos (gs := ys) (hb y (by simp)) (by simpa using hb')
        rw [← hv] at this; simp [val128] at this
    · rcases List.eq_nil_or_concat b with rfl | ⟨b0, y, rfl⟩
      · exfalso
        simp only [List.concat_eq_append] at *
        cases a0 with
        | nil =>
          have := val128_pos (gs := []) (ha x (by simp)) (by simpa using ha')
          rw [List.nil_append] at hv
          rw [hv] at this; simp [val128] at this
        | cons z zs =>
          have := val128_pos (gs := zs ++ [x]) (ha z (by simp)) (by simpa using ha')
          rw [List.cons_append] at hv
          rw [hv] at this
          simp [val128] at this
      · simp only [List.concat_eq_append] at *
        rw [val128_append, val128_append] at hv
        simp only [val128, List.length_singleton, Nat.pow_one, List.length_nil, Nat.pow_zero, Nat.mul_one, Nat.add_zero] at hv
        have hx := ha x (by simp)
        have hy := hb y (by simp)
        have hxl := x.toNat_lt
        have hyl := y.toNat_lt
        have hxy : x = y := UInt8.toNat_inj.mp (by omega)
        subst hxy
        have hv0 : val128 a0 = val128 b0 := by omega
        have h1 : a0.head? ≠ some 0x80 := by
          cases a0 with
          | nil => simp
          | cons z zs => simpa using ha'
        have h2 : b0.head? ≠ some 0x80 := by
          cases b0 with
          | nil => simp
          | cons z zs => simpa using hb'
        rw [ih a0 b0 (by simp at hl; omega) (fun g hg => ha g (by simp [hg])) (fun g hg => hb g (by simp [hg])) h1 h2 hv0]

theorem Vlq_unique {a b : Bytes} {n : Nat} (ha : Vlq a n) (hb : Vlq b n) : a = b := by
  obtain ⟨i, l, rfl, hi, hl, hh, hv⟩ := ha
  obtain ⟨j, k, rfl, hj, hk, hh', hv'⟩ := hb
  rw [val128_append] at hv hv'
  simp only [val128, List.length_singleton, Nat.pow_one, List.length_nil, Nat.pow_zero, Nat.mul_one, Nat.add_zero] at hv hv'
  have hlk : l = k := UInt8.toNat_inj.mp (by omega)
  subst hlk
  have : i = j := by
    apply groups_inj i.length i j (Nat.le_refl _) hi hj _ _ (by omega)
    · cases i with
      | nil => simp
      | cons z zs => simpa using hh
    · cases j with
      | nil => simp
      | cons z zs => simpa using hh'
  rw [this]

theorem Ident_unique {a b : Bytes} {c m t : Nat} (ha : Ident a c m t) (hb : Ident b c m t) : a = b := by
  rcases ha.2.2 with ⟨h1, rfl⟩ | ⟨h1, gs, rfl, hv⟩ <;> rcases hb.2.2 with ⟨h2, rfl⟩ | ⟨h2, gs', rfl, hv'⟩
  · rfl
  · omega
  · omega
  · rw [Vlq_unique hv hv']

theorem dumpTagLoop_cont (tag : Nat) : ∀ (h : Bytes), ∃ gs, dumpTagLoop tag 0x80 h = .ok (gs ++ h) ∧
    (∀ g ∈ gs, 128 ≤ g.toNat) ∧ val128 gs = tag ∧ gs.head? ≠ some 0x80 := by
  induction tag using Nat.strongRecOn with
  | _ tag ih =>
    intro h
    rw [dumpTagLoop]
    by_cases ht : tag > 0
    · rw [dif_pos ht]
      have hor : ∀ k, k < 128 → (0x80 ||| k) = 128 + k := by decide
      rw [show tag &&& 0x7f = tag % 128 from and_127 tag, hor _ (Nat.mod_lt _ (by decide)), shr_7]
      unfold chrCls
      rw [if_pos (by omega)]
      obtain ⟨gs, h1, h2, h3, h4⟩ := ih (tag / 128) (by omega) ([UInt8.ofNat (128 + tag % 128)] ++ h)
      have hb : (UInt8.ofNat (128 + tag % 128)).toNat = 128 + tag % 128 := toNat_ofNat_lt (by omega)
      refine ⟨gs ++ [UInt8.ofNat (128 + tag % 128)], ?_, ?_, ?_, ?_⟩
      · simp only [bind, Except.bind]
        rw [h1]; simp
      · intro g hg
        rcases List.mem_append.mp hg with hg | hg
        · exact h2 g hg
        · rw [List.mem_singleton] at hg; subst hg; omega
      · rw [val128_append, h3]
        simp only [val128, hb, List.length_singleton, List.length_nil, Nat.pow_one, Nat.pow_zero]
        omega
      · cases gs with
        | nil =>
          simp [val128] at h3
          intro hc
          rw [List.nil_append, List.head?_cons] at hc
          have := congrArg UInt8.toNat (Option.some.inj hc)
          rw [hb] at this
          have e : (0x80 : UInt8).toNat = 128 := rfl
          omega
        | cons z zs => simpa using h4
    · rw [dif_neg ht]
      exact ⟨[], by simp, by simp, by simp [val128]; omega, by simp⟩

theorem dumpTagLoop_zero (tag : Nat) (ht : 0 < tag) : ∃ gs, dumpTagLoop tag 0 [] = .ok gs ∧ Vlq gs tag := by
  rw [dumpTagLoop, dif_pos ht]
  rw [show tag &&& 0x7f = tag % 128 from and_127 tag, shr_7, Nat.zero_or]
  unfold chrCls
  rw [if_pos (by omega)]
  simp only [bind, Except.bind]
  obtain ⟨gs, h1, h2, h3, h4⟩ := dumpTagLoop_cont (tag / 128) ([UInt8.ofNat (tag % 128)] ++ [])
  have hb : (UInt8.ofNat (tag % 128)).toNat = tag % 128 := toNat_ofNat_lt (by omega)
  refine ⟨gs ++ [UInt8.ofNat (tag % 128)], by rw [h1]; simp, gs, _, rfl, h2, by omega, ?_, ?_⟩
  · cases gs with
    | nil =>
      intro hc
      simp at hc
      have := congrArg UInt8.toNat hc
      rw [hb] at this
      simp at this
      omega
    | cons z zs => simpa using h4
  · rw [val128_append, h3]
    simp only [val128, hb, List.length_singleton, List.length_nil, Nat.pow_one, Nat.pow_zero]
    omega

theorem dumpIdent_spec {c m : Nat} (hc : c < 4) (hm : m < 2) (t : Nat) :
    ∃ id, dumpIdent c m t = .ok id ∧ Ident id c m t := by
  have hor : ∀ c < 4, ∀ m < 2, ∀ t < 32, ((c <<< 6 ||| m <<< 5) ||| t) = 64 * c + 32 * m + t := by decide
  unfold dumpIdent
  by_cases ht : t ≥ 31
  · simp only [if_pos ht]
    obtain ⟨gs, hg, hv⟩ := dumpTagLoop_zero t (by omega)
    rw [hg, hor c hc m hm 31 (by decide)]
    unfold chrCls
    simp only [bind, Except.bind]
    rw [if_pos (by omega)]
    exact ⟨_, rfl, hc, hm, Or.inr ⟨ht, gs, rfl, hv⟩⟩
  · simp only [if_neg ht]
    rw [hor c hc m hm t (by omega)]
    unfold chrCls
    rw [if_pos (by omega)]
    exact ⟨_, rfl, hc, hm, Or.inl ⟨by omega, rfl⟩⟩

theorem dumpLength_spec (n : Nat) (hl : n < 256 ^ 127) :
    ∃ len, dumpLength n = .ok len ∧ DefLen len n ∧
      ∀ len', DefLen len' n → len.length ≤ len'.length ∧ (len'.length = len.length → len' = len) := by
  unfold dumpLength
  by_cases hs : n ≤ 127
  · rw [if_pos hs]
    unfold chrCls
    rw [if_pos (by omega)]
    refine ⟨[UInt8.ofNat n], rfl, Or.inl ⟨by omega, rfl⟩, ?_⟩
    intro len' h'
    rcases h' with ⟨_, rfl⟩ | ⟨ds, hne, _, rfl, _⟩
    · simp
    · exact ⟨by simp, fun h => absurd (by simpa using h) hne⟩
  · rw [if_neg hs, if_neg (Nat.not_le.mpr hl)]
    have hb := intToBytes_unsigned n
    rw [hb]
    have hw0 := byteWidth_ne_zero (bitLength n)
    have hw := byteWidth_bitLength_min n 127 (by decide) hl
    have hfit := byteWidth_bitLength_fits n
    have hor : ∀ k, k < 128 → (0x80 ||| k) = 128 + k := by decide
    unfold chrCls
    simp only [beBytes_length, bind, Except.bind]
    rw [hor _ (by omega), if_pos (by omega)]
    refine ⟨UInt8.ofNat (128 + byteWidth (bitLength n)) ::
      beBytes (byteWidth (bitLength n)) n, by simp [pure, Except.pure], ?_, ?_⟩
    · refine Or.inr ⟨beBytes (byteWidth (bitLength n)) n, ?_, ?_, ?_, ?_⟩
      rotate_left
      · rw [beBytes_length]; exact hw
      · rw [beBytes_length]
      · rw [valU_beBytes, Nat.mod_eq_of_lt hfit]
      · intro h; have := congrArg List.length h; simp at this; exact hw0 this
    · intro len' h'
      rcases h' with ⟨h, _⟩ | ⟨ds, hne, hd, rfl, hv⟩
      · omega
      · have hmin := byteWidth_bitLength_min n ds.length (by simpa using hne) (hv ▸ valU_lt ds)
        refine ⟨by simp; omega, ?_⟩
        intro he
        simp at he
        have : ds = beBytes (byteWidth (bitLength n)) n := by
          apply valU_inj
          · simp [he]
          · rw [hv, valU_beBytes, Nat.mod_eq_of_lt hfit]
        rw [← this, he]

/-- `_dump_header` yields the identifier octets and the shortest definite length octets. -/
theorem dumpHeader_spec {c m t : Nat} (hc : c < 4) (hm : m < 2) (contents : Bytes)
    (hl : contents.length < 256 ^ 127) :
    ∃ id len, dumpHeader c m t contents = .ok (id ++ len) ∧ Ident id c m t ∧ DefLen len contents.length ∧
      ∀ len', DefLen len' contents.length → len.length ≤ len'.length ∧ (len'.length = len.length → len' = len) := by
  obtain ⟨id, h1, h2⟩ := dumpIdent_spec hc hm t
  obtain ⟨len, h3, h4, h5⟩ := dumpLength_spec contents.length hl
  refine ⟨id, len, ?_, h2, h4, h5⟩
  unfold dumpHeader
  rw [h1, h3]; rfl

/-- A header is only made for contents whose length can be written. -/
theorem dumpHeader_fits {c m t : Nat} {contents h : Bytes} (hd : dumpHeader c m t contents = .ok h) : contents.length < 256 ^ 127 := by
  unfold dumpHeader dumpLength at hd
  by_contra hcon
  have h1 : ¬ contents.length ≤ 127 := by
    intro h
    exact hcon (Nat.lt_of_le_of_lt h (by decide))
  rw [if_neg h1, if_pos (Nat.not_lt.mp hcon)] at hd
  cases hi : dumpIdent c m t <;> rw [hi] at hd <;> cases hd

/-- Definite lengths that can be written have fewer than `256^127` octets. -/
theorem DefLen_lt {l : Bytes} {n : Nat} (h : DefLen l n) : n < 256 ^ 127 := by
  rcases h with ⟨h, _⟩ | ⟨ds, _, hd, _, rfl⟩
  · calc n < 256 := by omega
      _ = 256 ^ 1 := by norm_num
      _ ≤ 256 ^ 127 := Nat.pow_le_pow_right (by decide) (by decide)
  · exact Nat.lt_of_lt_of_le (valU_lt ds) (Nat.pow_le_pow_right (by decide) hd)

end Asn1
