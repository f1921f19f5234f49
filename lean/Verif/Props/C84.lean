import Verif.Lemmas.Obj
import Verif.Lemmas.LeafKind
import Verif.Model.Opaque

/-!
# C84 — ObjectDescriptor, InstanceOf and Real: classes without a Python implementation

A user who meets such a value expects its octets to be kept: it loads, its contents are there, and it is written again as it was.
-/

namespace Asn1.Props
open Asn1 Spec

/-- The last octet of a definite length is `80` exactly for the lengths 128, 384, 640, … -/
theorem defLen_ends80 {len : Bytes} {n : Nat} (id : Bytes) (h : DefLen len n) :
    headerEnds80 (some (id ++ len)) = true ↔ n % 256 = 128 := by
  unfold headerEnds80
  rcases h with ⟨hn, rfl⟩ | ⟨ds, hne, _, rfl, hv⟩
  · have h1 : (UInt8.ofNat n).toNat = n := by
      rw [UInt8.toNat_ofNat']; omega
    simp only [List.getLast?_append, List.getLast?_singleton, Option.some_or, beq_iff_eq, Option.some.injEq]
    constructor
    · intro h
      rw [h] at h1
      have : (0x80 : UInt8).toNat = 128 := rfl
      omega
    · omega
  · obtain ⟨xs, d, rfl⟩ : ∃ xs d, ds = xs ++ [d] := ⟨ds.dropLast, ds.getLast hne, (List.dropLast_append_getLast hne).symm⟩
    have hd : d.toNat < 256 := d.toNat_lt
    rw [valU_append] at hv
    simp only [List.length_singleton, pow_one, valU, List.length_nil, pow_zero, Nat.mul_one, Nat.add_zero] at hv
    have hl : (id ++ UInt8.ofNat (128 + (xs ++ [d]).length) :: (xs ++ [d])).getLast? = some d := by
      rw [show id ++ UInt8.ofNat (128 + (xs ++ [d]).length) :: (xs ++ [d]) = (id ++ UInt8.ofNat (128 + (xs ++ [d]).length) :: xs) ++ [d] by simp]
      exact List.getLast?_concat
    simp only [hl, beq_iff_eq, Option.some.injEq]
    constructor
    · rintro rfl
      have : (0x80 : UInt8).toNat = 128 := rfl
      omega
    · intro h
      apply UInt8.toNat_inj.mp
      have : (0x80 : UInt8).toNat = 128 := rfl
      omega

/-- Exactly the primitive encodings under the expected tag load, whatever the contents, and the contents are kept. -/
theorem C84_accepts (p o : Obj Bytes) (data : Bytes) (hp : Blank p) (he : p.explicit = []) :
    Bare.load p data true = .ok o ↔ ∃ id len c, data = id ++ len ++ c ∧ Ident id p.cls 0 p.tag ∧ DefLen len c.length ∧
      o = { p with header := some (id ++ len), contents := some c } := by
  have hb : p.native = none ∧ p.trailer = [] := by rw [hp.isProto]; exact ⟨rfl, rfl⟩
  constructor
  · intro h
    obtain ⟨i, r, o0, h1, h2, h3, rfl⟩ := loadObj_inv h
    rw [he] at h2
    simp only [List.reverse_nil, explicitLoop, Except.ok.injEq] at h2
    subst h2
    obtain ⟨hd, hber⟩ := (parse_strict_ok_iff data i).mp h1
    obtain ⟨hc, ht, hm⟩ := buildBase_ok.mp h3
    rcases hm with ⟨hm, rfl⟩ | ⟨_, _, _, hk, _⟩
    · rcases i with ⟨cls, method, tag, header, contents, trailer⟩
      simp only [Info.tlv, TLV.bytes] at hd hber
      simp only [List.not_mem_nil, or_false] at ht
      simp only at hc hm
      rw [hp.method] at hm
      subst hc ht hm
      cases hber with
      | definite hi hl =>
        refine ⟨_, _, contents, by rw [hd, List.append_nil], hi, hl, ?_⟩
        cases p
        simp_all
    · cases hk
  · rintro ⟨id, len, c, rfl, hi, hl, rfl⟩
    have hpar : parse (id ++ len ++ c) true = .ok ⟨p.cls, 0, p.tag, id ++ len, c, []⟩ :=
      (parse_strict_ok_iff _ _).mpr ⟨by simp [Info.tlv, TLV.bytes], Ber.definite hi hl⟩
    unfold Bare.load loadObj
    rw [hpar]
    have hm := hp.method
    cases p
    simp_all [buildObj, buildBase, bind, Except.bind]

example : ∃ o, Bare.load (Bare.new 9) [9, 3, 0x80, 0, 1] true = .ok o :=
  ⟨_, (C84_accepts (Bare.new 9) _ _ ⟨rfl, by decide, rfl, by intro e h; cases h⟩ rfl).mpr
    ⟨[9], [3], [0x80, 0, 1], rfl, ⟨by decide, by decide, .inl ⟨by decide, rfl⟩⟩, .inl ⟨by decide, rfl⟩, rfl⟩⟩

/-- Partial: contents of 128, 384, 640, … octets are missing. All others are written again as they were read. -/
theorem C84_kept_partial (p o : Obj Bytes) (data : Bytes) (hp : Blank p) (he : p.explicit = []) (h : Bare.load p data true = .ok o)
    (hn : ∀ c, o.contents = some c → c.length % 256 ≠ 128) : Bare.dump o = .ok (data, o) := by
  obtain ⟨id, len, c, rfl, hi, hl, rfl⟩ := (C84_accepts p o data hp he).mp h
  have hb : p.trailer = [] := by rw [hp.isProto]; rfl
  have h8 : headerEnds80 (some (id ++ len)) = false := by
    rw [Bool.eq_false_iff, ne_eq, defLen_ends80 id hl]; exact hn c rfl
  unfold Bare.dump
  simp only [h8, Bool.or_self, Bool.false_eq_true, if_false]
  rw [asn1Dump_keep (h := id ++ len) (c := c) rfl h8 rfl]
  simp only [hb, List.append_nil]

/-- Refuted for all the rest: a value of 128, 384, 640, … octets loads, and writing it raises `AttributeError`. -/
theorem C84_kept_fails (p o : Obj Bytes) (data : Bytes) (hp : Blank p) (he : p.explicit = []) (h : Bare.load p data true = .ok o)
    (c : Bytes) (hc : o.contents = some c) (hn : c.length % 256 = 128) : Bare.dump o = .error .attributeError := by
  obtain ⟨id, len, c', rfl, hi, hl, rfl⟩ := (C84_accepts p o data hp he).mp h
  cases hc
  unfold Bare.dump
  simp only [(defLen_ends80 id hl).mpr hn, Bool.or_true, if_true]
  rfl

example : ∃ o, Bare.load (Bare.new 9) ([9, 0x81, 0x80] ++ List.replicate 128 0) true = .ok o ∧ Bare.dump o = .error .attributeError := by
  have h := (C84_accepts (Bare.new 9) _ _ ⟨rfl, by decide, rfl, by intro e h; cases h⟩ rfl).mpr
    ⟨[9], [0x81, 0x80], List.replicate 128 0, rfl, ⟨by decide, by decide, .inl ⟨by decide, rfl⟩⟩,
      .inr ⟨[0x80], by simp, by decide, rfl, by rw [List.length_replicate]; rfl⟩, rfl⟩
  exact ⟨_, h, C84_kept_fails _ _ _ ⟨rfl, by decide, rfl, by intro e h; cases h⟩ rfl h _ rfl (by rw [List.length_replicate])⟩

/-- No value of these classes can be read as a Python value or written anew. -/
theorem C84_read_fails (o : Obj Bytes) : Bare.native o = .error .attributeError ∧ Bare.dump o true = .error .attributeError := ⟨rfl, rfl⟩

/-- What is set is written under the tag of the class, and loads as the same contents. A second `dump` gives the same, or raises
`AttributeError` if there are 128, 384, 640, … octets. -/
theorem C84_set (p : Obj Bytes) (b : Bytes) (hp : Blank p) (he : p.explicit = []) (hf : Fits b) :
    ∃ o o1 o2 id len, Bare.set p (some b) = .ok o ∧ Bare.dump o = .ok (id ++ len ++ b, o1) ∧ Ident id p.cls 0 p.tag ∧ DefLen len b.length ∧
      Bare.load p (id ++ len ++ b) true = .ok o2 ∧ o2.contents = some b ∧
      Bare.dump o1 = if b.length % 256 = 128 then .error .attributeError else .ok (id ++ len ++ b, o1) := by
  obtain ⟨h, h1, h2⟩ := dump_put_total (k := false) b hp he hf
  obtain ⟨id, len, h3, h4, h5, _⟩ := dumpHeader_spec (t := p.tag) hp.cls (m := 0) (by decide) b hf
  rw [h3] at h2
  cases h2
  refine ⟨p.put b b, { p.put b b with header := some (id ++ len) }, _, id, len, rfl, ?_, h4, h5,
    (C84_accepts p _ _ hp he).mpr ⟨id, len, b, rfl, h4, h5, rfl⟩, rfl, ?_⟩
  · unfold Bare.dump
    rw [if_neg (by simp [Obj.put, headerEnds80])]
    exact h1
  · unfold Bare.dump
    by_cases h8 : b.length % 256 = 128
    · simp only [(defLen_ends80 id h5).mpr h8, Bool.or_true, if_true, if_pos h8]
      rfl
    · have h9 : headerEnds80 (some (id ++ len)) = false := by rw [Bool.eq_false_iff, ne_eq, defLen_ends80 id h5]; exact h8
      simp only [h9, Bool.or_self, Bool.false_eq_true, if_false, if_neg h8]
      rw [asn1Dump_keep (h := id ++ len) (c := b) rfl h9 rfl]
      simp only [Obj.put, List.append_nil]

example : Blank (Bare.new 7) ∧ Fits [0x41] := ⟨⟨rfl, by decide, rfl, by intro e h; cases h⟩, Nat.one_lt_pow (by decide) (by decide)⟩

/-- Under any tags, explicit ones too: what is set and written loads as the same contents, and both are written alike unless the
header ends in the octet `80`. -/
theorem C84_tagged (p o o1 : Obj Bytes) (b bytes : Bytes) (strict : Bool) (hp : Blank p) (hs : Bare.set p (some b) = .ok o)
    (hd : Bare.dump o = .ok (bytes, o1)) (hf : Fits bytes) :
    ∃ o2 h, Bare.load p bytes strict = .ok o2 ∧ o2.contents = some b ∧ bytes = h ++ b ∧
      (h.getLast? ≠ some 0x80 → Bare.dump o2 = .ok (bytes, o2)) ∧ (h.getLast? = some 0x80 → Bare.dump o2 = .error .attributeError) := by
  cases hs
  unfold Bare.dump at hd
  rw [if_neg (by simp [headerEnds80])] at hd
  obtain ⟨h, hb, hl⟩ := load_dump_put (bad := []) (v := b) (c := b) hp strict hd hf
  refine ⟨p.loaded h b, h, hl, rfl, hb, ?_, ?_⟩
  · intro h8
    have h9 : headerEnds80 (some h) = false := by unfold headerEnds80; simpa using h8
    unfold Bare.dump
    simp only [Obj.loaded, h9, Bool.or_self, Bool.false_eq_true, if_false]
    rw [asn1Dump_keep (h := h) (c := b) rfl h9 rfl, hb]
    simp only [List.append_nil]
  · intro h8
    unfold Bare.dump
    simp only [Obj.loaded, headerEnds80, h8, beq_self_eq_true, Bool.or_true, if_true]
    rfl

example : ∃ o o1 bytes, Bare.set { Bare.new 9 with explicit := [(2, 1)] } (some [0x40]) = .ok o ∧ Bare.dump o = .ok (bytes, o1) ∧
    bytes = [0xa1, 3, 9, 1, 0x40] := ⟨_, _, _, rfl, rfl, by decide +kernel⟩

/-- Anything but a byte string is refused. -/
theorem C84_set_refused (p : Obj Bytes) : Bare.set p none = .error .typeError := rfl

end Asn1.Props
