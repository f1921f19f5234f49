import Verif.Lemmas.Strings

/-! # Loading and reading string values -/

namespace Asn1
open Spec

variable {β ν : Type}

theorem strPut_blank {p : Obj ν} (hp : Blank p) (v : ν) (c : Bytes) : strPut p v c = p.put v c := by
  have hind : p.indefinite = false := by rw [hp.isProto]; rfl
  unfold strPut Obj.put
  rw [hind]
  cases p
  simp_all

/-- Tag of the string type with any implicit tagging: no explicit tags. -/
theorem load_string_iff {p : Obj ν} (hp : Blank p) (he : p.explicit = []) (data : Bytes) (o : Obj ν) :
    loadObj true [] p data = .ok o ↔ ∃ (v : TLV) (rest : Bytes), data = v.bytes ++ rest ∧ Ber 11 v ∧ v.cls = p.cls ∧ v.tag = p.tag ∧
      ((v.method = 0 ∧ o = { p with header := some v.header, contents := some v.contents, trailer := v.trailer, native := none }) ∨
       (v.method = 1 ∧ v.trailer = [0, 0] ∧
         o = { p with header := some v.header, contents := some v.contents, trailer := v.trailer, native := none,
                      method := 1, indefinite := true })) := by
  have hb : ∀ i, buildObj true [] p i = buildBase true [] p i := by
    intro i; unfold buildObj; simp only [he]
  have hm := hp.method
  unfold loadObj
  constructor
  · intro h
    cases hpp : parse data with
    | error e => rw [hpp] at h; cases h
    | ok i =>
      rw [hpp] at h
      simp only [bind, Except.bind, hb] at h
      obtain ⟨rest, h1, h2⟩ := (parse_ok_iff data i).mp hpp
      obtain ⟨a, b, c⟩ := buildBase_ok.mp h
      refine ⟨i.tlv, rest, h1, h2, a, b.resolve_right (by simp), ?_⟩
      rcases c with ⟨c, d⟩ | ⟨c, _, d, _, e⟩
      · exact Or.inl ⟨by rw [← hm]; exact c, d⟩
      · exact Or.inr ⟨c, d, e⟩
  · rintro ⟨v, rest, h1, h2, h3, h4, h5⟩
    rw [(parse_ok_iff data ⟨v.cls, v.method, v.tag, v.header, v.contents, v.trailer⟩).mpr ⟨rest, h1, h2⟩]
    simp only [bind, Except.bind, hb]
    rw [buildBase_ok]
    refine ⟨h3, Or.inl h4, ?_⟩
    rcases h5 with ⟨c, d⟩ | ⟨c, d, e⟩
    · exact Or.inl ⟨by rw [hm]; exact c, d⟩
    · exact Or.inr ⟨c, hm, d, rfl, e⟩

/-- Generic: loading then reading gives `x` iff the data is a string encoding whose leaves mean `x`, provided the
reader means `prim` on primitive and `cons` on constructed contents. -/
theorem read_string_iff {p : Obj ν} {utag : Nat} {γ : Type} (hp : Blank p) (he : p.explicit = [])
    (read : Obj ν → γ → Prop) (M : List Bytes → γ → Prop)
    (hprim : ∀ o c x, o.contents = some c → o.native = none → o.indefinite = false → (read o x ↔ M [c] x))
    (hcons : ∀ o c x, o.contents = some c → o.native = none → o.indefinite = true → (read o x ↔ ∃ ls, Chunks utag c ls ∧ M ls x))
    (data : Bytes) (x : γ) :
    (∃ o, loadObj true [] p data = .ok o ∧ read o x) ↔
      ∃ v rest ls, data = v.bytes ++ rest ∧ StringEnc p.cls p.tag utag v ls ∧ M ls x := by
  have hind : p.indefinite = false := by rw [hp.isProto]; rfl
  constructor
  · rintro ⟨o, hl, hr⟩
    obtain ⟨v, rest, h1, h2, h3, h4, h5⟩ := (load_string_iff hp he data o).mp hl
    rcases h5 with ⟨c, rfl⟩ | ⟨c, d, rfl⟩
    · exact ⟨v, rest, [v.contents], h1, ⟨h2, h3, h4, Or.inl ⟨c, rfl⟩⟩, (hprim _ v.contents x rfl rfl (by exact hind)).mp hr⟩
    · obtain ⟨ls, k1, k2⟩ := (hcons _ v.contents x rfl rfl rfl).mp hr
      exact ⟨v, rest, ls, h1, ⟨h2, h3, h4, Or.inr ⟨c, d, k1⟩⟩, k2⟩
  · rintro ⟨v, rest, ls, h1, ⟨h2, h3, h4, h5⟩, hM⟩
    rcases h5 with ⟨c, rfl⟩ | ⟨c, d, k⟩
    · exact ⟨_, (load_string_iff hp he data _).mpr ⟨v, rest, h1, h2, h3, h4, Or.inl ⟨c, rfl⟩⟩,
        (hprim _ v.contents x rfl rfl (by exact hind)).mpr hM⟩
    · exact ⟨_, (load_string_iff hp he data _).mpr ⟨v, rest, h1, h2, h3, h4, Or.inr ⟨c, d, rfl⟩⟩,
        (hcons _ v.contents x rfl rfl rfl).mpr ⟨ls, k, hM⟩⟩

theorem plain_octets : Plain OctetString.new 4 := ⟨rfl, rfl, rfl, rfl, rfl⟩
theorem plain_intoct : Plain IntegerOctetString.new.toObj 4 := ⟨rfl, rfl, rfl, rfl, rfl⟩
theorem plain_bits : Plain BitString.new.toObj 3 := ⟨rfl, rfl, rfl, rfl, rfl⟩
theorem plain_named : Plain NamedBits.new.toObj 3 := ⟨rfl, rfl, rfl, rfl, rfl⟩
theorem plain_intbits : Plain IntegerBitString.new.toObj 3 := ⟨rfl, rfl, rfl, rfl, rfl⟩

/-- What `chunksToInt` reads: a primitive leaf or the join of the chunks. -/
def BitsMean (indefinite : Bool) (c : Bytes) (bits : List Bool) : Prop :=
  if indefinite then ∃ ls, Chunks 3 c ls ∧ BitJoin ls bits else BitLeaf c bits

theorem BitJoin_single (c : Bytes) (bits : List Bool) : BitJoin [c] bits ↔ BitLeaf c bits :=
  ⟨fun h => by cases h with | last h => exact h, .last⟩

theorem chunksToInt_iff {p : Obj ν} (hp : Plain p 3) (b : Bool) (c : Bytes) (v n : Nat) :
    (∃ w, chunksToInt p b c = .ok (v, n, w)) ↔ ∃ bits, BitsMean b c bits ∧ v = valBits bits ∧ n = bits.length := by
  cases b with
  | false =>
    rw [chunksToInt_false]
    simp [BitsMean]
  | true =>
    rw [chunksToInt_true hp]
    constructor
    · rintro ⟨ls, bits, h1, h2, h3, h4⟩
      exact ⟨bits, ⟨ls, h1, h2⟩, h3, h4⟩
    · rintro ⟨bits, ⟨ls, h1, h2⟩, h3, h4⟩
      exact ⟨ls, bits, h1, h2, h3, h4⟩

theorem bits_eq_of_val {a b : List Bool} (h1 : valBits a = valBits b) (h2 : a.length = b.length) : a = b := valBits_inj a b h2 h1

/-- Uncached read of an unmapped bit string. -/
theorem BitString.native_iff (o : BitObj (List Bool)) (c : Bytes) (hc : o.contents = some c) (hn : o.native = none) (bits : List Bool) :
    (∃ o', BitString.native o = .ok (bits, o')) ↔ BitsMean o.indefinite c bits := by
  have hred : BitString.native o = (chunksToInt BitString.new.toObj o.indefinite c).bind (fun r =>
      (intToBitTuple r.1 r.2.1).bind (fun bits => .ok (bits, { o with native := some bits, unused := r.2.2 }))) := by
    unfold BitString.native
    simp only [hc, hn, bind, Except.bind, pure, Except.pure, Option.getD_some]
  rw [hred]
  constructor
  · rintro ⟨o', h⟩
    cases hr : chunksToInt BitString.new.toObj o.indefinite c with
    | error e => rw [hr] at h; cases h
    | ok r =>
      obtain ⟨v, n, w⟩ := r
      rw [hr] at h
      obtain ⟨bs, h1, rfl, rfl⟩ := (chunksToInt_iff plain_bits _ _ _ _).mp ⟨w, hr⟩
      simp only [Except.bind, intToBitTuple_ok] at h
      injection h with h
      injection h with h _
      rw [← h]; exact h1
  · intro h
    obtain ⟨w, hr⟩ := (chunksToInt_iff plain_bits o.indefinite c (valBits bits) bits.length).mpr ⟨bits, h, rfl, rfl⟩
    rw [hr]
    simp only [Except.bind, intToBitTuple_ok]
    exact ⟨_, rfl⟩

theorem NamedBits.native_eq (m : BitMap) (o : BitObj (List BitKey)) (c : Bytes) (hc : o.contents = some c) (hn : o.native = none) :
    NamedBits.native m o = (chunksToInt NamedBits.new.toObj o.indefinite c).bind (fun r =>
      (intToBitTuple r.1 r.2.1).bind (fun bits => .ok (bitNames m 0 bits [], { o with native := some (bitNames m 0 bits []), unused := r.2.2 }))) := by
  unfold NamedBits.native
  simp only [hc, hn, bind, Except.bind, pure, Except.pure, Option.getD_some]

theorem NamedBits.native_iff (m : BitMap) (o : BitObj (List BitKey)) (c : Bytes) (hc : o.contents = some c) (hn : o.native = none)
    (v : List BitKey) (o' : BitObj (List BitKey)) :
    NamedBits.native m o = .ok (v, o') → ∃ bits u, BitsMean o.indefinite c bits ∧ v = bitNames m 0 bits [] ∧
      o' = { o with native := some v, unused := u } := by
  rw [NamedBits.native_eq m o c hc hn]
  intro h
  cases hr : chunksToInt NamedBits.new.toObj o.indefinite c with
  | error e => rw [hr] at h; cases h
  | ok r =>
    obtain ⟨x, n, w⟩ := r
    rw [hr] at h
    obtain ⟨bs, h1, rfl, rfl⟩ := (chunksToInt_iff plain_named _ _ _ _).mp ⟨w, hr⟩
    simp only [Except.bind, intToBitTuple_ok] at h
    injection h with h
    injection h with h h'
    subst h h'
    exact ⟨bs, w, h1, rfl, rfl⟩

theorem NamedBits.native_of (m : BitMap) (o : BitObj (List BitKey)) (c : Bytes) (hc : o.contents = some c) (hn : o.native = none)
    (bits : List Bool) (h : BitsMean o.indefinite c bits) :
    ∃ u, NamedBits.native m o = .ok (bitNames m 0 bits [], { o with native := some (bitNames m 0 bits []), unused := u }) := by
  rw [NamedBits.native_eq m o c hc hn]
  obtain ⟨w, hr⟩ := (chunksToInt_iff plain_named o.indefinite c (valBits bits) bits.length).mpr ⟨bits, h, rfl, rfl⟩
  rw [hr]
  simp only [Except.bind, intToBitTuple_ok]
  exact ⟨_, rfl⟩

theorem IntegerBitString.native_iff (o : BitObj Nat) (c : Bytes) (hc : o.contents = some c) (hn : o.native = none) (n : Nat) :
    (∃ o', IntegerBitString.native o = .ok (some n, o')) ↔ ∃ bits, BitsMean o.indefinite c bits ∧ n = valBits bits := by
  have hred : IntegerBitString.native o = (chunksToInt IntegerBitString.new.toObj o.indefinite c).bind (fun r =>
      .ok (some r.1, { o with native := some r.1, unused := r.2.2 })) := by
    unfold IntegerBitString.native
    simp only [hc, hn, bind, pure, Except.pure]
  rw [hred]
  constructor
  · rintro ⟨o', h⟩
    cases hr : chunksToInt IntegerBitString.new.toObj o.indefinite c with
    | error e => rw [hr] at h; cases h
    | ok r =>
      obtain ⟨v, k, w⟩ := r
      rw [hr] at h
      obtain ⟨bs, h1, rfl, rfl⟩ := (chunksToInt_iff plain_intbits _ _ _ _).mp ⟨w, hr⟩
      simp only [Except.bind] at h
      injection h with h
      injection h with h _
      injection h with h
      exact ⟨bs, h1, h.symm⟩
  · rintro ⟨bits, h, rfl⟩
    obtain ⟨w, hr⟩ := (chunksToInt_iff plain_intbits o.indefinite c (valBits bits) bits.length).mpr ⟨bits, h, rfl, rfl⟩
    rw [hr]
    exact ⟨_, rfl⟩

theorem BitString.dump_fresh {o : BitObj (List Bool)} (h : o.header = none) :
    BitString.dump o = (asn1Dump true o.toObj).bind (fun r => .ok (r.1, { o with toObj := r.2 })) := by
  unfold BitString.dump
  simp only [h, headerEnds80]
  rfl

theorem NamedBits.dump_fresh {m : BitMap} {o : BitObj (List BitKey)} (h : o.header = none) :
    NamedBits.dump m o = (asn1Dump true o.toObj).bind (fun r => .ok (r.1, { o with toObj := r.2 })) := by
  unfold NamedBits.dump
  simp only [h, headerEnds80]
  rfl

theorem OctetBitString.dump_fresh {o : BitObj Bytes} (h : o.header = none) :
    OctetBitString.dump o = (asn1Dump true o.toObj).bind (fun r => .ok (r.1, { o with toObj := r.2 })) := by
  unfold OctetBitString.dump
  simp only [h, headerEnds80]
  rfl

theorem IntegerBitString.dump_fresh {o : BitObj Nat} (h : o.header = none) :
    IntegerBitString.dump o = (asn1Dump true o.toObj).bind (fun r => .ok (r.1, { o with toObj := r.2 })) := by
  unfold IntegerBitString.dump
  simp only [h, headerEnds80]
  rfl

theorem IntegerOctetString.dump_fresh {o : IntOctObj} (h : o.header = none) :
    IntegerOctetString.dump o = (asn1Dump true o.toObj).bind (fun r => .ok (r.1, { o with toObj := r.2 })) := by
  unfold IntegerOctetString.dump
  simp only [h, headerEnds80]
  rfl

theorem bind_dump_ok {α γ : Type} {x : Py α} {f : α → γ} {r : γ} (h : x.bind (fun a => .ok (f a)) = .ok r) : ∃ a, x = .ok a ∧ f a = r := by
  cases x with
  | error e => cases h
  | ok a => injection h with h; exact ⟨a, rfl, h⟩

end Asn1
