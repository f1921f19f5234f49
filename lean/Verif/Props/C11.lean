import Verif.Lemmas.StrRead

/-! # C11 — BIT STRING values round trip -/

namespace Asn1.Props
open Asn1 Spec

theorem bitString_set_spec (o : BitObj (List Bool)) (bits : List Bool) :
    ∃ c u, BitString.set o bits = .ok { toObj := strPut o.toObj bits c, unused := u } ∧ BitContents bits c ∧
      c.length = (bits.length + 7) / 8 + 1 := by
  obtain ⟨c, extra, h1, h2, _, h4⟩ := bitsContents_spec bits
  refine ⟨c, List.replicate extra false, ?_, h2, h4⟩
  unfold BitString.set
  rw [h1]
  rfl

/-- Every bit tuple: `native` gives it back; the contents are one octet with the padding count, below 8, and the
bits padded with zeros; so there are `⌈n/8⌉ + 1` octets. These contents are the only ones of that form. -/
theorem C11_set_native (p : BitObj (List Bool)) (bits : List Bool) :
    ∃ o c, BitString.set p bits = .ok o ∧ BitString.native o = .ok (bits, o) ∧ o.contents = some c ∧
      BitContents bits c ∧ c.length = (bits.length + 7) / 8 + 1 ∧ ∀ d, BitContents bits d → d = c := by
  obtain ⟨c, u, h1, h2, h3⟩ := bitString_set_spec p bits
  exact ⟨_, c, h1, rfl, rfl, h2, h3, fun d hd => BitContents_unique hd h2⟩

/-- The first contents octet is the number of padding bits: `-n mod 8`. -/
theorem C11_unused_count (p o : BitObj (List Bool)) (bits : List Bool) (h : BitString.set p bits = .ok o) :
    ∃ u body, o.contents = some (u :: body) ∧ u.toNat = (8 - bits.length % 8) % 8 ∧
      bitsOf body = bits ++ List.replicate u.toNat false := by
  obtain ⟨c, w, h1, ⟨pad, body, rfl, hp, hb⟩, h3⟩ := bitString_set_spec p bits
  rw [h1] at h
  injection h with h
  subst h
  have hpu : (UInt8.ofNat pad).toNat = pad := UInt8.toNat_ofNat_of_lt' (by simp [UInt8.size]; omega)
  refine ⟨_, body, rfl, ?_, by rw [hpu]; exact hb⟩
  have := congrArg List.length hb
  rw [length_bitsOf, List.length_append, List.length_replicate] at this
  rw [hpu]
  omega

/-- Dump and load, under any tagging, gives the bits back. -/
theorem C11_dump_load (p : Obj (List Bool)) (o o1 : BitObj (List Bool)) (bits : List Bool) (bytes : Bytes) (strict : Bool)
    (hp : Blank p) (hs : BitString.set { toObj := p } bits = .ok o) (hd : BitString.dump o = .ok (bytes, o1)) (hf : Fits bytes) :
    ∃ o2 o3, BitString.load p bytes strict = .ok o2 ∧ BitString.native o2 = .ok (bits, o3) ∧ o2.contents = o.contents := by
  obtain ⟨c, u, h1, h2, h3⟩ := bitString_set_spec { toObj := p } bits
  rw [h1] at hs
  injection hs with hs
  subst hs
  rw [BitString.dump_fresh rfl] at hd
  obtain ⟨⟨b, o'⟩, ha, hb⟩ := bind_dump_ok hd
  injection hb with hb _
  subst hb
  rw [strPut_blank hp] at ha
  obtain ⟨h, _, hl⟩ := load_dump_put (bad := []) hp strict ha hf
  have hind : p.indefinite = false := by rw [hp.isProto]; rfl
  obtain ⟨o3, h3⟩ := (BitString.native_iff { toObj := p.loaded h c } c rfl rfl bits).mpr (by
    change BitsMean p.indefinite c bits
    rw [hind]
    exact BitContents.leaf h2)
  refine ⟨_, o3, ?_, h3, rfl⟩
  unfold BitString.load
  rw [hl]
  rfl

/-- Untagged encoding never fails. -/
theorem C11_dump_total (bits : List Bool) :
    ∃ o c, BitString.set BitString.new bits = .ok o ∧ o.contents = some c ∧
      (Fits c → ∃ h o1, BitString.dump o = .ok (h ++ c, o1) ∧ parse (h ++ c) true = .ok ⟨0, 0, 3, h, c, []⟩) := by
  obtain ⟨c, u, h1, h2, h3⟩ := bitString_set_spec BitString.new bits
  have hbl : Blank BitString.new.toObj := plain_bits.blank
  refine ⟨_, c, h1, rfl, ?_⟩
  intro hf
  obtain ⟨h, ha, hb⟩ := dump_put_total (k := true) bits hbl rfl hf
  have hd : ∃ o1, BitString.dump { toObj := strPut BitString.new.toObj bits c, unused := u } = .ok (h ++ c, o1) := by
    rw [BitString.dump_fresh rfl]
    simp only [strPut_blank hbl, ha]
    exact ⟨_, rfl⟩
  obtain ⟨o1, hd⟩ := hd
  exact ⟨h, o1, hd, (dumpHeader_parse (by decide) (by decide) hf hb).1⟩

/-- Reading primitive contents: succeeds exactly for an octet `k ≤ 7` followed by octets of at least `k` bits, and
gives all bits but the last `k`. -/
theorem C11_read (o : BitObj (List Bool)) (c : Bytes) (hc : o.contents = some c) (hn : o.native = none)
    (hi : o.indefinite = false) (bits : List Bool) :
    (∃ o', BitString.native o = .ok (bits, o')) ↔
      ∃ (k : Nat) (body : Bytes) (padding : List Bool), c = UInt8.ofNat k :: body ∧ k ≤ 7 ∧ padding.length = k ∧
        bitsOf body = bits ++ padding := by
  rw [BitString.native_iff o c hc hn, hi]
  change BitLeaf c bits ↔ _
  constructor
  · rintro ⟨k, body, padding, h1, h2, h3, h4⟩
    exact ⟨k, body, padding, h1, by omega, h3, h4⟩
  · rintro ⟨k, body, padding, h1, h2, h3, h4⟩
    exact ⟨k, body, padding, h1, by omega, h3, h4⟩

/-- An unused-bits count above 7, and unused bits in an empty value, are refused with `ValueError`. -/
theorem C11_refuse (o : BitObj (List Bool)) (u : UInt8) (body : Bytes) (hc : o.contents = some (u :: body)) (hn : o.native = none)
    (hi : o.indefinite = false) (h : 7 < u.toNat ∨ (body = [] ∧ u ≠ 0)) :
    BitString.native o = .error .valueError := by
  have hu0 : u.toNat ≠ 0 := by
    rcases h with h | ⟨_, h⟩
    · omega
    · intro he
      apply h
      apply UInt8.toNat_inj.mp
      rw [he]; rfl
  have : intBitsChunk false (u :: body) = .error .valueError := by
    unfold intBitsChunk
    rw [if_neg (by decide)]
    simp only
    rw [if_neg hu0]
    rcases h with h | ⟨h, _⟩
    · split
      · rfl
      · first | rfl | rw [if_pos (by omega)]
    · rw [if_pos (by rw [h]; rfl)]
  unfold BitString.native
  simp only [hc, hn, hi, bind, Except.bind, pure, Except.pure, Option.getD_some]
  unfold chunksToInt
  rw [if_pos rfl, this]
  rfl

/-- Bits are read by position; positions past the end read as `False`. -/
theorem C11_getitem (o o' : BitObj (List Bool)) (bits : List Bool) (i : Nat) (h : BitString.native o = .ok (bits, o')) :
    BitString.getItem o i = .ok ((bits[i]?).getD false, o') := by
  unfold BitString.getItem
  rw [h]
  simp only [bind, Except.bind, pure, Except.pure, Except.ok.injEq, Prod.mk.injEq, and_true]
  split
  · rw [List.getD_eq_getElem?_getD]
  · rw [List.getElem?_eq_none (by omega)]; rfl

/-- Assigning a bit changes that bit only; a position past the end extends the value with zeros. -/
theorem C11_setitem (o o' : BitObj (List Bool)) (bits : List Bool) (i : Nat) (b : Bool) (h : BitString.native o = .ok (bits, o')) :
    ∃ o2 new, BitString.setItem o i b = .ok o2 ∧ BitString.native o2 = .ok (new, o2) ∧
      new.length = max bits.length (i + 1) ∧ ∀ j, new.getD j false = if j = i then b else bits.getD j false := by
  unfold BitString.setItem
  rw [h]
  simp only [bind, Except.bind]
  obtain ⟨c, u, h1, h2, h3⟩ := bitString_set_spec o' ((if i + 1 > bits.length then bits ++ List.replicate (i + 1 - bits.length) false else bits).set i b)
  refine ⟨_, _, h1, rfl, ?_, ?_⟩
  · split <;> simp <;> omega
  · intro j
    rw [List.getD_eq_getElem?_getD, List.getD_eq_getElem?_getD, List.getElem?_set]
    by_cases hij : j = i
    · subst hij
      rw [if_pos rfl, if_pos (by split <;> (try simp) <;> omega), if_pos rfl]
      rfl
    · rw [if_neg (Ne.symm hij), if_neg hij]
      split
      · rw [List.getElem?_append]
        split
        · rfl
        · next hl =>
          rw [List.getElem?_replicate, List.getElem?_eq_none (by omega)]
          split <;> rfl
      · rfl

/-- Contents without any octet (`03 00`) are not covered by `ValueError`: the code raises `IndexError`. -/
theorem C11_no_octets (o : BitObj (List Bool)) (hc : o.contents = some []) (hn : o.native = none) (hi : o.indefinite = false) :
    BitString.native o = .error .indexError := by
  unfold BitString.native
  simp only [hc, hn, hi, bind, Except.bind, pure, Except.pure, Option.getD_some]
  rfl

example : (do
    let o ← BitString.set BitString.new [true, false, true, true, false, false, false, false, true, false]
    let (b, _) ← BitString.dump o
    pure b : Py Bytes) = .ok [0x03, 0x03, 0x06, 0xb0, 0x80] := by decide +kernel

example : (do
    let o ← BitString.load BitString.new.toObj [0x03, 0x03, 0x06, 0xb0, 0x80]
    let (v, _) ← BitString.native o
    pure v : Py (List Bool)) = .ok [true, false, true, true, false, false, false, false, true, false] := by decide +kernel

example : (do
    let o ← BitString.load BitString.new.toObj [0x03, 0x02, 0x08, 0xff]
    let (v, _) ← BitString.native o
    pure v : Py (List Bool)) = .error .valueError := by decide +kernel

end Asn1.Props
