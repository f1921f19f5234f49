import Verif.Lemmas.Chunks

/-! # Lemmas on bit string chunks and cached reads of string values -/

namespace Asn1
open Spec

variable {β ν : Type}

/-- A leaf read as chunk of an integer bit string. -/
def LeafChunk (c : Bytes) (ch : BitChunk) : Prop :=
  ∃ (bits padding : List Bool) (pad : Nat) (body : Bytes), ch = (valBits bits, bits.length, padding) ∧
    c = UInt8.ofNat pad :: body ∧ pad < 8 ∧ padding.length = pad ∧ bitsOf body = bits ++ padding

theorem intBitsChunk_leaf (c : Bytes) (r : List BitChunk) : intBitsChunk false c = .ok r ↔ ∃ ch, r = [ch] ∧ LeafChunk c ch := by
  rw [intBitsChunk_ok_iff]
  constructor
  · rintro ⟨bits, padding, rfl, pad, body, h1, h2, h3, h4⟩
    exact ⟨_, rfl, bits, padding, pad, body, rfl, h1, h2, h3, h4⟩
  · rintro ⟨ch, rfl, bits, padding, pad, body, rfl, h1, h2, h3, h4⟩
    exact ⟨bits, padding, rfl, pad, body, h1, h2, h3, h4⟩

theorem forall2_singletons {α γ : Type} {f : α → Py (List γ)} {R : α → γ → Prop}
    (h : ∀ a r, f a = .ok r ↔ ∃ x, r = [x] ∧ R a x) (ls : List α) (cs : List γ) :
    (∃ vs, List.Forall₂ (fun l v => f l = .ok v) ls vs ∧ cs = vs.flatten) ↔ List.Forall₂ R ls cs := by
  constructor
  · rintro ⟨vs, hf, rfl⟩
    induction hf with
    | nil => exact .nil
    | cons h1 _ ih =>
      obtain ⟨x, rfl, hx⟩ := (h _ _).mp h1
      exact .cons hx ih
  · intro hf
    induction hf with
    | nil => exact ⟨[], .nil, rfl⟩
    | @cons a x _ _ h1 _ ih =>
      obtain ⟨vs, h2, rfl⟩ := ih
      exact ⟨[x] :: vs, .cons ((h _ _).mpr ⟨x, rfl, h1⟩) h2, rfl⟩

theorem UInt8_ofNat_eq_zero {n : Nat} (hn : n < 8) (h : UInt8.ofNat n = 0) : n = 0 := by
  have := congrArg UInt8.toNat h
  rw [UInt8.toNat_ofNat_of_lt' (by simp [UInt8.size]; omega)] at this
  simpa using this

theorem BitLeaf_unique {c : Bytes} {a b : List Bool} (h1 : BitLeaf c a) (h2 : BitLeaf c b) : a = b := by
  obtain ⟨p, e, x, rfl, k1, k2, k3⟩ := h1
  obtain ⟨q, f, y, h, j1, j2, j3⟩ := h2
  injection h with h h'
  subst h'
  have := congrArg UInt8.toNat h
  rw [UInt8.toNat_ofNat_of_lt' (by simp [UInt8.size]; omega), UInt8.toNat_ofNat_of_lt' (by simp [UInt8.size]; omega)] at this
  rw [k3] at j3
  exact (List.append_inj' j3 (by omega)).1

theorem BitLeaf_zero (body : Bytes) : BitLeaf (0 :: body) (bitsOf body) := ⟨0, body, [], rfl, by decide, rfl, by simp⟩

/-- All leaves of a bit join are well-formed. -/
theorem foldBitChunks_ok_iff (ls : List Bytes) (cs : List BitChunk) (hf : List.Forall₂ LeafChunk ls cs) :
    ∀ (acc : List Bool) (u : List Bool), acc.length % 8 = 0 → ∀ (v n : Nat),
      ((∃ w, foldBitChunks cs (valBits acc) acc.length u = .ok (v, n, w)) ↔
        ∃ bits, BitJoin ls bits ∧ v = valBits (acc ++ bits) ∧ n = (acc ++ bits).length) := by
  induction hf with
  | nil =>
    intro acc u ha v n
    simp only [foldBitChunks, Except.ok.injEq, Prod.mk.injEq]
    constructor
    · rintro ⟨w, rfl, rfl, rfl⟩
      exact ⟨[], .nil, by simp, by simp⟩
    · rintro ⟨bits, h, rfl, rfl⟩
      cases h
      exact ⟨u, by simp, by simp, rfl⟩
  | @cons l ch ls cs h1 hf ih =>
    intro acc u ha v n
    obtain ⟨bits, padding, pad, body, rfl, rfl, hp, hpl, hb⟩ := h1
    have h7 : acc.length &&& 7 = 0 := by
      have : acc.length &&& 7 = acc.length % 2 ^ 3 := Nat.and_two_pow_sub_one_eq_mod _ 3
      omega
    have hstep : foldBitChunks ((valBits bits, bits.length, padding) :: cs) (valBits acc) acc.length u =
        foldBitChunks cs (valBits (acc ++ bits)) (acc ++ bits).length padding := by
      rw [foldBitChunks, if_neg (by omega), valBits_append, List.length_append]
      congr 1
      rw [Nat.shiftLeft_eq, Nat.mul_comm, Nat.two_pow_add_eq_or_of_lt (valBits_lt bits)]
    rw [hstep]
    have hleaf : BitLeaf (UInt8.ofNat pad :: body) bits := ⟨pad, body, padding, rfl, hp, hpl, hb⟩
    have hlen := congrArg List.length hb
    rw [length_bitsOf, List.length_append] at hlen
    cases hf with
    | nil =>
      simp only [foldBitChunks, Except.ok.injEq, Prod.mk.injEq]
      constructor
      · rintro ⟨w, rfl, rfl, rfl⟩
        exact ⟨bits, .last hleaf, rfl, rfl⟩
      · rintro ⟨bits', h, rfl, rfl⟩
        generalize hgc : UInt8.ofNat pad :: body = c at h hleaf
        cases h with
        | last h =>
          rw [BitLeaf_unique h hleaf]
          exact ⟨_, rfl, rfl, rfl⟩
    | @cons l2 ch2 ls2 cs2 h2 hf2 =>
      by_cases hz : (acc ++ bits).length % 8 = 0
      · have hp0 : pad = 0 := by rw [List.length_append] at hz; omega
        subst hp0
        have : padding = [] := List.length_eq_zero_iff.mp hpl
        subst this
        rw [List.append_nil] at hb
        subst hb
        rw [ih (acc ++ bitsOf body) [] hz v n]
        constructor
        · rintro ⟨bits', h, rfl, rfl⟩
          exact ⟨_, .cons h, by rw [List.append_assoc], by rw [List.append_assoc]⟩
        · rintro ⟨bits', h, rfl, rfl⟩
          cases h with
          | cons h => exact ⟨_, h, by rw [List.append_assoc], by rw [List.append_assoc]⟩
      · have herr : foldBitChunks (ch2 :: cs2) (valBits (acc ++ bits)) (acc ++ bits).length padding = .error .valueError := by
          obtain ⟨c1, c2, c3⟩ := ch2
          rw [foldBitChunks, if_pos]
          have : (acc ++ bits).length &&& 7 = (acc ++ bits).length % 2 ^ 3 := Nat.and_two_pow_sub_one_eq_mod _ 3
          omega
        rw [herr]
        constructor
        · rintro ⟨w, h⟩; cases h
        · rintro ⟨bits', h, _⟩
          exfalso
          generalize hc : UInt8.ofNat pad :: body = c at h
          cases h with
          | cons h =>
            injection hc with hc _
            have := UInt8_ofNat_eq_zero hp hc
            apply hz
            rw [List.length_append]
            omega

theorem foldBitChunks_error : ∀ (cs : List BitChunk) (v n : Nat) (u : List Bool) (e : PyErr),
    foldBitChunks cs v n u = .error e → e = .valueError
  | [], _, _, _, _, h => by cases h
  | (a, b, c) :: cs, v, n, u, e, h => by
    rw [foldBitChunks] at h
    split at h
    · injection h with h; exact h.symm
    · exact foldBitChunks_error cs _ _ _ _ h

theorem intToBitTuple_error {v n : Nat} {e : PyErr} (h : intToBitTuple v n = .error e) : e = .valueError := by
  unfold intToBitTuple at h
  simp only at h
  repeat' split at h
  all_goals first | cases h; done | (injection h with h; exact h.symm)

theorem intBitsChunk_error {b : Bool} {c : Bytes} {e : PyErr} (h : intBitsChunk b c = .error e) :
    e = .valueError ∨ (e = .indexError ∧ c = []) := by
  unfold intBitsChunk at h
  split at h
  · cases h
  · cases c with
    | nil => injection h with h; exact Or.inr ⟨h.symm, rfl⟩
    | cons u rest =>
      left
      simp only at h
      repeat' split at h
      · cases h
      · injection h with h; exact h.symm
      · injection h with h; exact h.symm
      · generalize hx : intToBitTuple _ _ = x at h
        cases x with
        | error e' => injection h with h; rw [← h]; exact intToBitTuple_error hx
        | ok _ => cases h

theorem chunksToInt_false (p : Obj ν) (c : Bytes) (v n : Nat) :
    (∃ w, chunksToInt p false c = .ok (v, n, w)) ↔ ∃ bits, BitLeaf c bits ∧ v = valBits bits ∧ n = bits.length := by
  unfold chunksToInt
  rw [if_pos rfl]
  constructor
  · rintro ⟨w, h⟩
    cases hc : intBitsChunk false c with
    | error e => rw [hc] at h; cases h
    | ok r =>
      obtain ⟨ch, rfl, bits, padding, pad, body, rfl, h1, h2, h3, h4⟩ := (intBitsChunk_leaf c r).mp hc
      rw [hc] at h
      simp only [bind, Except.bind] at h
      injection h with h
      injection h with ha h
      injection h with hb _
      exact ⟨bits, ⟨pad, body, padding, h1, h2, h3, h4⟩, ha.symm, hb.symm⟩
  · rintro ⟨bits, ⟨pad, body, padding, h1, h2, h3, h4⟩, rfl, rfl⟩
    rw [(intBitsChunk_leaf c _).mpr ⟨_, rfl, bits, padding, pad, body, rfl, h1, h2, h3, h4⟩]
    exact ⟨padding, rfl⟩

theorem chunksToInt_true {p : Obj ν} (hp : Plain p 3) (c : Bytes) (v n : Nat) :
    (∃ w, chunksToInt p true c = .ok (v, n, w)) ↔
      ∃ ls bits, Chunks 3 c ls ∧ BitJoin ls bits ∧ v = valBits bits ∧ n = bits.length := by
  unfold chunksToInt
  rw [if_neg (by decide)]
  constructor
  · rintro ⟨w, h⟩
    cases hc : mergeObj intBitsChunk p true c with
    | error e => rw [hc] at h; cases h
    | ok cs =>
      rw [hc] at h
      obtain ⟨ls, vs, h1, h2, h3⟩ := (mergeObj_ok_iff hp rfl c cs).mp hc
      have hf := (forall2_singletons intBitsChunk_leaf ls cs).mp ⟨vs, h2, h3⟩
      obtain ⟨bits, h4, h5, h6⟩ := (foldBitChunks_ok_iff ls cs hf [] [] rfl v n).mp ⟨w, h⟩
      exact ⟨ls, bits, h1, h4, h5, h6⟩
  · rintro ⟨ls, bits, h1, h2, rfl, rfl⟩
    have hcs : ∃ cs, List.Forall₂ LeafChunk ls cs := by
      clear h1
      induction h2 with
      | nil => exact ⟨[], .nil⟩
      | @last c bits h =>
        obtain ⟨pad, body, padding, h1, h2, h3, h4⟩ := h
        exact ⟨[_], .cons ⟨_, _, _, _, rfl, h1, h2, h3, h4⟩ .nil⟩
      | @cons body d ls bits h ih =>
        obtain ⟨cs, h⟩ := ih
        exact ⟨_ :: cs, .cons ⟨bitsOf body, [], 0, body, rfl, rfl, by decide, rfl, by simp⟩ h⟩
    obtain ⟨cs, hcs⟩ := hcs
    obtain ⟨vs, h3, h4⟩ := (forall2_singletons intBitsChunk_leaf ls cs).mpr hcs
    rw [(mergeObj_ok_iff hp rfl c cs).mpr ⟨ls, vs, h1, h3, h4⟩]
    exact (foldBitChunks_ok_iff ls cs hcs [] [] rfl _ _).mpr ⟨bits, h2, rfl, rfl⟩

theorem chunksToInt_error {p : Obj ν} {b : Bool} (hp : Plain p 3) {c : Bytes} {e : PyErr} (h : chunksToInt p b c = .error e) :
    e = .valueError ∨ e = .indexError := by
  unfold chunksToInt at h
  cases b with
  | false =>
    rw [if_pos rfl] at h
    cases hc : intBitsChunk false c with
    | error e' =>
      rw [hc] at h
      injection h with h
      subst h
      rcases intBitsChunk_error hc with h | ⟨h, _⟩
      · exact Or.inl h
      · exact Or.inr h
    | ok r =>
      rw [hc] at h
      obtain ⟨ch, rfl, _⟩ := (intBitsChunk_leaf c r).mp hc
      cases h
  | true =>
    rw [if_neg (by decide)] at h
    cases hc : mergeObj intBitsChunk p true c with
    | error e' =>
      rw [hc] at h
      injection h with h
      subst h
      rcases mergeChunks_error hp _ _ _ (by omega) hc with h | ⟨b, l, h⟩
      · exact Or.inl h
      · rcases intBitsChunk_error h with h | ⟨h, _⟩
        · exact Or.inl h
        · exact Or.inr h
    | ok cs =>
      rw [hc] at h
      exact Or.inl (foldBitChunks_error _ _ _ _ _ h)

/-! ## Octet bit strings -/

/-- A leaf read as chunk of an octet bit string: the octets with the padding bits cleared. -/
def LeafOctets (c : Bytes) (ch : Bytes × List Bool) : Prop :=
  ∃ (bits : List Bool) (pad : Nat) (body : Bytes), c = UInt8.ofNat pad :: body ∧ pad < 8 ∧ ch.2.length = pad ∧
    bitsOf body = bits ++ ch.2 ∧ bitsOf ch.1 = bits ++ List.replicate pad false

theorem bitsOf_append (a b : Bytes) : bitsOf (a ++ b) = bitsOf a ++ bitsOf b := by
  simp [bitsOf, List.flatMap_append]

theorem clear_low (l : UInt8) (p : Nat) (hp : p < 8) :
    byteBits (UInt8.ofNat (l.toNat - (l.toNat &&& ((1 <<< p) - 1)))) = (byteBits l).take (8 - p) ++ List.replicate p false ∧
    valBits ((byteBits l).drop (8 - p)) = l.toNat &&& ((1 <<< p) - 1) := by
  have h : ∀ n < 256, ∀ p < 8, byteBits (UInt8.ofNat (n - (n &&& ((1 <<< p) - 1)))) =
      (byteBits (UInt8.ofNat n)).take (8 - p) ++ List.replicate p false ∧
      valBits ((byteBits (UInt8.ofNat n)).drop (8 - p)) = n &&& ((1 <<< p) - 1) := by decide +kernel
  have := h l.toNat l.toNat_lt p hp
  simpa using this

theorem octChunk_leaf (b : Bool) (c : Bytes) (r : List (Bytes × List Bool)) :
    OctetBitString.asChunk b c = .ok r ↔ ∃ ch, r = [ch] ∧ LeafOctets c ch := by
  unfold OctetBitString.asChunk
  cases c with
  | nil =>
    simp only [reduceCtorEq, false_iff]
    rintro ⟨ch, _, bits, pad, body, h, _⟩
    cases h
  | cons u rest =>
    have hu : UInt8.ofNat u.toNat = u := by simp
    simp only
    have hpad : ∀ (pad : Nat), pad < 8 → u = UInt8.ofNat pad → pad = u.toNat := by
      intro pad hp h
      rw [h, UInt8.toNat_ofNat_of_lt' (by simp [UInt8.size]; omega)]
    by_cases h0 : u.toNat = 0
    · rw [if_pos h0]
      constructor
      · intro h
        injection h with h
        exact ⟨(rest, []), h.symm, bitsOf rest, 0, rest, by rw [← h0, hu], by decide, rfl, by simp, by simp⟩
      · rintro ⟨⟨o, padding⟩, rfl, bits, pad, body, h1, h2, h3, h4, h5⟩
        injection h1 with h1 h1'
        subst h1'
        have hp := hpad pad h2 h1
        rw [h0] at hp
        subst hp
        have : padding = [] := List.length_eq_zero_iff.mp h3
        subst this
        simp only [List.append_nil, List.replicate_zero] at h4 h5
        have := bitsOf_inj (h4.trans h5.symm)
        subst this
        rfl
    · rw [if_neg h0]
      by_cases h1 : rest.length = 0
      · rw [if_pos h1]
        simp only [reduceCtorEq, false_iff]
        rintro ⟨⟨o, padding⟩, rfl, bits, pad, body, hc, h2, h3, h4, h5⟩
        injection hc with hc hc'
        subst hc'
        have hl := congrArg List.length h4
        rw [length_bitsOf, h1, List.length_append] at hl
        simp only at hl h3
        have := hpad pad h2 hc
        omega
      · rw [if_neg h1]
        by_cases h7 : u.toNat > 7
        · rw [if_pos h7]
          simp only [reduceCtorEq, false_iff]
          rintro ⟨⟨o, padding⟩, rfl, bits, pad, body, hc, h2, h3, h4, h5⟩
          injection hc with hc hc'
          have := hpad pad h2 hc
          omega
        · rw [if_neg h7]
          obtain ⟨init, last, rfl⟩ : ∃ init last, rest = init ++ [last] := by
            rcases List.eq_nil_or_concat rest with h | ⟨i, l, h⟩
            · subst h; simp at h1
            · exact ⟨i, l, by simpa using h⟩
          have hlast : ((init ++ [last]).getLastD 0) = last := by simp
          have hinit : (init ++ [last]).dropLast = init := by simp
          rw [hlast, hinit]
          obtain ⟨e1, e2⟩ := clear_low last u.toNat (by omega)
          have hlb := length_byteBits last
          have e3 : intToBitTuple (last.toNat &&& (1 <<< u.toNat - 1)) u.toNat = .ok ((byteBits last).drop (8 - u.toNat)) := by
            refine intToBitTuple_ok' e2 ?_
            rw [List.length_drop, hlb]; omega
          rw [e3]
          simp only [bind, Except.bind, pure, Except.pure, Except.ok.injEq]
          have hb : ∀ x, bitsOf [x] = byteBits x := by intro x; simp [bitsOf]
          constructor
          · rintro rfl
            refine ⟨_, rfl, bitsOf init ++ (byteBits last).take (8 - u.toNat), u.toNat, init ++ [last], by rw [hu], by omega, ?_, ?_, ?_⟩
            · rw [List.length_drop, hlb]; omega
            · rw [bitsOf_append, hb, List.append_assoc, List.take_append_drop]
            · rw [bitsOf_append, hb, e1, List.append_assoc]
          · rintro ⟨⟨o, padding⟩, rfl, bits, pad, body, hc, h2, h3, h4, h5⟩
            injection hc with hc hc'
            subst hc'
            have hp := hpad pad h2 hc
            subst hp
            simp only at h3 h4 h5
            have key : bitsOf init ++ (byteBits last).take (8 - u.toNat) ++ (byteBits last).drop (8 - u.toNat) = bits ++ padding := by
              rw [← h4, bitsOf_append, hb, List.append_assoc, List.take_append_drop]
            obtain ⟨k1, k2⟩ := List.append_inj' key (by rw [List.length_drop, hlb]; omega)
            rw [← k2]
            have : o = init ++ [UInt8.ofNat (last.toNat - (last.toNat &&& (1 <<< u.toNat - 1)))] := by
              apply bitsOf_inj
              rw [h5, bitsOf_append, hb, e1, ← k1, List.append_assoc]
            rw [this]

theorem foldChunks_ok_iff (ls : List Bytes) (cs : List (Bytes × List Bool)) (hf : List.Forall₂ LeafOctets ls cs) :
    ∀ (acc : Bytes) (out : Bytes),
      ((∃ w, OctetBitString.foldChunks cs acc [] = .ok (out, w)) ↔
        ∃ bits, BitJoin ls bits ∧ ∃ o, out = acc ++ o ∧ ZeroPadded bits o) := by
  induction hf with
  | nil =>
    intro acc out
    simp only [OctetBitString.foldChunks, Except.ok.injEq, Prod.mk.injEq]
    constructor
    · rintro ⟨w, rfl, rfl⟩
      exact ⟨[], .nil, [], by simp, 0, by decide, rfl⟩
    · rintro ⟨bits, h, o, rfl, pad, hp, hz⟩
      cases h
      have hl := congrArg List.length hz
      rw [length_bitsOf] at hl
      simp only [List.nil_append, List.length_replicate] at hl
      have : o = [] := List.length_eq_zero_iff.mp (by omega)
      subst this
      exact ⟨[], by simp, rfl⟩
  | @cons l ch ls cs h1 hf ih =>
    intro acc out
    obtain ⟨o1, padding⟩ := ch
    obtain ⟨bits, pad, body, rfl, hp, hpl, hb, hz⟩ := h1
    simp only at hpl hb hz
    have hleaf : BitLeaf (UInt8.ofNat pad :: body) bits := ⟨pad, body, padding, rfl, hp, hpl, hb⟩
    have hstep : OctetBitString.foldChunks ((o1, padding) :: cs) acc [] = OctetBitString.foldChunks cs (acc ++ o1) padding := by
      rw [OctetBitString.foldChunks, if_neg (by simp)]
    rw [hstep]
    have hzu : ∀ o, ZeroPadded bits o → o = o1 := by
      rintro o ⟨q, hq, ho⟩
      have a := congrArg List.length ho
      have b := congrArg List.length hz
      rw [length_bitsOf, List.length_append, List.length_replicate] at a b
      have : q = pad := by omega
      subst this
      exact bitsOf_inj (ho.trans hz.symm)
    cases hf with
    | nil =>
      simp only [OctetBitString.foldChunks, Except.ok.injEq, Prod.mk.injEq]
      constructor
      · rintro ⟨w, rfl, rfl⟩
        exact ⟨bits, .last hleaf, o1, rfl, pad, hp, hz⟩
      · rintro ⟨bits', h, o, rfl, ho⟩
        generalize hgc : UInt8.ofNat pad :: body = c at h hleaf
        cases h with
        | last h =>
          rw [BitLeaf_unique h hleaf] at ho
          rw [hzu o ho]
          exact ⟨_, rfl, rfl⟩
    | @cons l2 ch2 ls2 cs2 h2 hf2 =>
      by_cases hz0 : padding = []
      · subst hz0
        have hp0 : pad = 0 := hpl.symm
        subst hp0
        rw [List.append_nil] at hb
        simp only [List.replicate_zero, List.append_nil] at hz
        have ho1 : o1 = body := bitsOf_inj (hz.trans hb.symm)
        subst ho1
        rw [ih (acc ++ o1) out]
        constructor
        · rintro ⟨bits', h, o, rfl, q, hq, ho⟩
          exact ⟨_, .cons h, o1 ++ o, by simp, q, hq, by rw [bitsOf_append, ho, List.append_assoc]⟩
        · rintro ⟨bits', h, o, rfl, q, hq, ho⟩
          cases h with
          | @cons _ _ _ bits'' h =>
            have hlen := congrArg List.length ho
            rw [length_bitsOf, List.length_append, List.length_append, length_bitsOf, List.length_replicate] at hlen
            have hle : o1.length ≤ o.length := by omega
            have hsplit : o = o.take o1.length ++ o.drop o1.length := (List.take_append_drop _ _).symm
            have : bitsOf (o.take o1.length) ++ bitsOf (o.drop o1.length) = bitsOf o1 ++ (bits'' ++ List.replicate q false) := by
              rw [← bitsOf_append, List.take_append_drop, ho, List.append_assoc]
            obtain ⟨k1, k2⟩ := List.append_inj this (by rw [length_bitsOf, length_bitsOf, List.length_take]; omega)
            refine ⟨bits'', h, o.drop o1.length, ?_, q, hq, k2⟩
            rw [List.append_assoc]
            congr 1
            conv_lhs => rw [hsplit, bitsOf_inj k1]
      · have herr : OctetBitString.foldChunks (ch2 :: cs2) (acc ++ o1) padding = .error .valueError := by
          obtain ⟨c1, c2⟩ := ch2
          rw [OctetBitString.foldChunks, if_pos hz0]
        rw [herr]
        constructor
        · rintro ⟨w, h⟩; cases h
        · rintro ⟨bits', h, _⟩
          exfalso
          generalize hc : UInt8.ofNat pad :: body = c at h
          cases h with
          | cons h =>
            injection hc with hc _
            have := UInt8_ofNat_eq_zero hp hc
            apply hz0
            exact List.length_eq_zero_iff.mp (by omega)

/-- `_as_chunk` with an empty constructed string treated as empty. -/
def emptyOk (asChunk : Bool → Bytes → Py (List β)) (b : Bool) (c : Bytes) : Py (List β) :=
  if b = true ∧ c = [] then .ok [] else asChunk b c

theorem chunkLoop_or {s t : Info → Py (List β)} {E : PyErr} (h : ∀ i, s i = t i ∨ s i = .error E) (data : Bytes) :
    ∀ (fuel p : Nat) (out : Option (List β)), chunkLoop s data fuel p out = chunkLoop t data fuel p out ∨
      chunkLoop s data fuel p out = .error E := by
  intro fuel
  induction fuel with
  | zero => intro p out; exact Or.inl rfl
  | succ fuel ih =>
    intro p out
    rw [chunkLoop, chunkLoop]
    split
    · cases parseFrom data data.length p with
      | error e => exact Or.inl rfl
      | ok r =>
        simp only [bind, Except.bind]
        rcases h r.1 with h | h
        · rw [h]
          cases t r.1 with
          | error e => exact Or.inl rfl
          | ok v => exact ih _ _
        · rw [h]; exact Or.inr rfl
    · exact Or.inl rfl

theorem mergeChunks_or {asChunk : Bool → Bytes → Py (List β)} {p : Obj ν} {E : PyErr} (hE : asChunk true [] = .error E) :
    ∀ (fuel : Nat) (b : Bool) (c : Bytes), mergeChunks asChunk p fuel b c = mergeChunks (emptyOk asChunk) p fuel b c ∨
      mergeChunks asChunk p fuel b c = .error E := by
  intro fuel
  induction fuel with
  | zero => intro b c; cases b <;> left <;> simp [mergeChunks, emptyOk]
  | succ fuel ih =>
    intro b c
    cases b with
    | false => left; simp [mergeChunks, emptyOk]
    | true =>
      rw [mergeChunks_true, mergeChunks_true]
      have hs : ∀ i, mergeStep asChunk p fuel i = mergeStep (emptyOk asChunk) p fuel i ∨
          mergeStep asChunk p fuel i = .error E := by
        intro i
        unfold mergeStep
        cases buildObj true [] p i with
        | error e => exact Or.inl rfl
        | ok o =>
          simp only [bind, Except.bind]
          cases o.contents with
          | none => exact Or.inl rfl
          | some c => exact ih _ _
      rcases chunkLoop_or hs c (c.length + 1) 0 none with h | h
      · rw [h]
        cases hl : chunkLoop (mergeStep (emptyOk asChunk) p fuel) c (c.length + 1) 0 none with
        | error e => exact Or.inl rfl
        | ok out =>
          cases out with
          | some v => exact Or.inl rfl
          | none =>
            simp only [Except.bind]
            by_cases hc : c = []
            · subst hc; rw [hE]; exact Or.inr rfl
            · left; simp [emptyOk, hc]
      · rw [h]; exact Or.inr rfl

theorem readBytes_false (c out : Bytes) :
    (∃ w, OctetBitString.readBytes false c = .ok (out, w)) ↔ ∃ bits, BitLeaf c bits ∧ ZeroPadded bits out := by
  unfold OctetBitString.readBytes
  rw [if_pos rfl]
  constructor
  · rintro ⟨w, h⟩
    cases hc : OctetBitString.asChunk false c with
    | error e => rw [hc] at h; cases h
    | ok r =>
      obtain ⟨⟨o, padding⟩, rfl, bits, pad, body, h1, h2, h3, h4, h5⟩ := (octChunk_leaf false c r).mp hc
      rw [hc] at h
      simp only [bind, Except.bind] at h
      injection h with h
      injection h with ha _
      subst ha
      exact ⟨bits, ⟨pad, body, padding, h1, h2, h3, h4⟩, pad, h2, h5⟩
  · rintro ⟨bits, ⟨pad, body, padding, h1, h2, h3, h4⟩, q, hq, ho⟩
    have hqp : q = pad := by
      have a := congrArg List.length ho
      have b := congrArg List.length h4
      rw [length_bitsOf, List.length_append] at a b
      rw [List.length_replicate] at a
      omega
    subst hqp
    rw [(octChunk_leaf false c _).mpr ⟨(out, padding), rfl, bits, q, body, h1, h2, h3, h4, ho⟩]
    exact ⟨padding, rfl⟩

theorem readBytes_true (c out : Bytes) :
    ((∃ w, OctetBitString.readBytes true c = .ok (out, w)) →
      ∃ ls bits, Chunks 3 c ls ∧ BitJoin ls bits ∧ ZeroPadded bits out) ∧
    (∀ ls bits, Chunks 3 c ls → BitJoin ls bits → ZeroPadded bits out →
      (∃ w, OctetBitString.readBytes true c = .ok (out, w)) ∨ OctetBitString.readBytes true c = .error .indexError) := by
  have hp : Plain OctetBitString.new.toObj 3 := ⟨rfl, rfl, rfl, rfl, rfl⟩
  have hleaf : ∀ c r, emptyOk OctetBitString.asChunk false c = .ok r ↔ ∃ ch, r = [ch] ∧ LeafOctets c ch := by
    intro c r
    rw [← octChunk_leaf false c r]
    simp [emptyOk]
  have hor := mergeChunks_or (p := OctetBitString.new.toObj) (asChunk := OctetBitString.asChunk) (E := .indexError) rfl (c.length + 1) true c
  change mergeObj OctetBitString.asChunk OctetBitString.new.toObj true c = mergeObj (emptyOk OctetBitString.asChunk) OctetBitString.new.toObj true c ∨ mergeObj OctetBitString.asChunk OctetBitString.new.toObj true c = _ at hor
  unfold OctetBitString.readBytes
  rw [if_neg (by decide)]
  have hiff := fun cs => mergeObj_ok_iff hp (asChunk := emptyOk OctetBitString.asChunk) rfl c cs
  constructor
  · rintro ⟨w, h⟩
    rcases hor with hor | hor
    · rw [hor] at h
      cases hc : mergeObj (emptyOk OctetBitString.asChunk) OctetBitString.new.toObj true c with
      | error e => rw [hc] at h; cases h
      | ok cs =>
        rw [hc] at h
        obtain ⟨ls, vs, h1, h2, h3⟩ := (hiff cs).mp hc
        have hf := (forall2_singletons hleaf ls cs).mp ⟨vs, h2, h3⟩
        obtain ⟨bits, h4, o, h5, h6⟩ := (foldChunks_ok_iff ls cs hf [] out).mp ⟨w, h⟩
        rw [List.nil_append] at h5
        subst h5
        exact ⟨ls, bits, h1, h4, h6⟩
    · rw [hor] at h; cases h
  · intro ls bits h1 h2 h3
    rcases hor with hor | hor
    · left
      rw [hor]
      have hcs : ∃ cs, List.Forall₂ LeafOctets ls cs := by
        clear h1 h3
        induction h2 with
        | nil => exact ⟨[], .nil⟩
        | @last c bits h =>
          obtain ⟨pad, body, padding, h1, h2, h3, h4⟩ := h
          obtain ⟨o, ho⟩ : ∃ o, bitsOf o = bits ++ List.replicate pad false := by
            refine ⟨beBytes body.length (valBits (bits ++ List.replicate pad false)), bitsOf_beBytes _ _ ?_⟩
            have := congrArg List.length h4
            rw [length_bitsOf, List.length_append] at this
            rw [List.length_append, List.length_replicate]
            omega
          exact ⟨[(o, padding)], .cons ⟨bits, pad, body, h1, h2, h3, h4, ho⟩ .nil⟩
        | @cons body d ls bits h ih =>
          obtain ⟨cs, h⟩ := ih
          exact ⟨(body, []) :: cs, .cons ⟨bitsOf body, 0, body, rfl, by decide, rfl, by simp, by simp⟩ h⟩
      obtain ⟨cs, hcs⟩ := hcs
      obtain ⟨vs, h4, h5⟩ := (forall2_singletons hleaf ls cs).mpr hcs
      rw [(hiff cs).mpr ⟨ls, vs, h1, h4, h5⟩]
      exact (foldChunks_ok_iff ls cs hcs [] out).mpr ⟨bits, h2, out, rfl, h3⟩
    · right
      rw [hor]
      rfl

end Asn1
