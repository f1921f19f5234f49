import Verif.Lemmas.StrRead
import Verif.Lemmas.Emit

/-!
# C13 — chunked (constructed) strings mean the concatenation of their chunks

`StringEnc cls tag utag v ls`: `v` is an encoding with tag (`cls`, `tag`), primitive or constructed with indefinite
length (to any nesting), whose primitive leaves have contents `ls`, in order. `p` is a value-less instance with any
implicit tagging. The theorems characterise loading-and-reading completely: it yields `x` if and only if the data
starts with such an encoding and `x` is the meaning of the concatenated leaves.
-/

namespace Asn1.Props
open Asn1 Spec

/-- OCTET STRING. -/
theorem C13_octets (p : Obj Bytes) (hp : Blank p) (he : p.explicit = []) (data b : Bytes) :
    (∃ o o', OctetString.load p data = .ok o ∧ OctetString.native o = .ok (some b, o')) ↔
      ∃ v rest ls, data = v.bytes ++ rest ∧ StringEnc p.cls p.tag 4 v ls ∧ b = ls.flatten := by
  have h := read_string_iff (utag := 4) hp he (fun o b => ∃ o', OctetString.native o = .ok (some b, o')) (fun ls b => b = ls.flatten)
    (by
      intro o c x hc hn hi
      unfold OctetString.native
      simp only [hc, hn, hi, mergeObj_false, OctetString.asChunk, bind, Except.bind, pure, Except.pure]
      constructor
      · rintro ⟨o', h⟩; injection h with h; injection h with h _; injection h with h; simp [h]
      · rintro rfl; exact ⟨_, by simp; rfl⟩)
    (by
      intro o c x hc hn hi
      rw [← mergeObj_octets plain_octets c x]
      unfold OctetString.native
      simp only [hc, hn, hi, bind, Except.bind, pure, Except.pure]
      cases hm : mergeObj OctetString.asChunk OctetString.new true c with
      | error e => simp
      | ok r =>
        constructor
        · rintro ⟨o', h⟩; injection h with h; injection h with h _; injection h with h; rw [h]
        · intro h; injection h with h; subst h; exact ⟨_, rfl⟩)
    data b
  rw [← h]
  constructor
  · rintro ⟨o, o', h1, h2⟩; exact ⟨o, h1, o', h2⟩
  · rintro ⟨o, h1, o', h2⟩; exact ⟨o, o', h1, h2⟩

/-- Character strings: the joined octets are decoded at the end, so a character may be split over chunks. -/
theorem C13_chars (k : Codec) (p cp : Obj Str) (utag : Nat) (hp : Blank p) (he : p.explicit = []) (hcp : Plain cp utag)
    (data : Bytes) (s : Str) :
    (∃ o o', AbstractString.load p data = .ok o ∧ AbstractString.native k cp o = .ok (some s, o')) ↔
      ∃ v rest ls, data = v.bytes ++ rest ∧ StringEnc p.cls p.tag utag v ls ∧ k.decode ls.flatten = .ok s := by
  have h := read_string_iff (utag := utag) hp he (fun o b => ∃ o', AbstractString.native k cp o = .ok (some b, o'))
    (fun ls b => k.decode ls.flatten = .ok b)
    (by
      intro o c x hc hn hi
      unfold AbstractString.native
      simp only [hc, hn, hi, mergeObj_false, OctetString.asChunk, bind, Except.bind, pure, Except.pure, List.flatten_singleton]
      cases hd : k.decode c with
      | error e => simp
      | ok r =>
        constructor
        · rintro ⟨o', h⟩; injection h with h; injection h with h _; injection h with h; rw [h]
        · intro h; injection h with h; subst h; exact ⟨_, rfl⟩)
    (by
      intro o c x hc hn hi
      unfold AbstractString.native
      simp only [hc, hn, hi, bind, Except.bind, pure, Except.pure]
      constructor
      · rintro ⟨o', h⟩
        cases hm : mergeObj OctetString.asChunk cp true c with
        | error e => rw [hm] at h; cases h
        | ok r =>
          obtain ⟨ls, h1, rfl⟩ := (mergeObj_octets hcp c r).mp hm
          rw [hm] at h
          simp only at h
          cases hd : k.decode ls.flatten with
          | error e => rw [hd] at h; cases h
          | ok t =>
            rw [hd] at h
            injection h with h; injection h with h _; injection h with h
            subst h
            exact ⟨ls, h1, hd⟩
      · rintro ⟨ls, h1, h2⟩
        rw [(mergeObj_octets hcp c _).mpr ⟨ls, h1, rfl⟩]
        simp only [h2]
        exact ⟨_, rfl⟩)
    data s
  rw [← h]
  constructor
  · rintro ⟨o, o', h1, h2⟩; exact ⟨o, h1, o', h2⟩
  · rintro ⟨o, h1, o', h2⟩; exact ⟨o, o', h1, h2⟩

theorem BitsMean_prim (c : Bytes) (bits : List Bool) : BitsMean false c bits ↔ BitJoin [c] bits := (BitJoin_single c bits).symm

/-- BIT STRING: the bits are those of the leaves joined; all leaves but the last must have no unused bits. -/
theorem C13_bits (p : Obj (List Bool)) (hp : Blank p) (he : p.explicit = []) (data : Bytes) (bits : List Bool) :
    (∃ o o', BitString.load p data = .ok o ∧ BitString.native o = .ok (bits, o')) ↔
      ∃ v rest ls, data = v.bytes ++ rest ∧ StringEnc p.cls p.tag 3 v ls ∧ BitJoin ls bits := by
  have h := read_string_iff (utag := 3) hp he (fun o b => ∃ o', BitString.native { toObj := o } = .ok (b, o')) BitJoin
    (by
      intro o c x hc hn hi
      rw [BitString.native_iff { toObj := o } c hc hn, ← BitsMean_prim]
      simp only [hi])
    (by
      intro o c x hc hn hi
      rw [BitString.native_iff { toObj := o } c hc hn]
      simp only [hi]
      rfl)
    data bits
  rw [← h]
  unfold BitString.load
  constructor
  · rintro ⟨o, o', h1, h2⟩
    obtain ⟨a, h3, rfl⟩ := bind_dump_ok h1
    exact ⟨a, h3, o', h2⟩
  · rintro ⟨o, h1, o', h2⟩
    exact ⟨{ toObj := o }, o', by rw [h1]; rfl, h2⟩

/-- IntegerBitString: the unsigned number written by the joined bits. -/
theorem C13_int_bits (p : Obj Nat) (hp : Blank p) (he : p.explicit = []) (data : Bytes) (n : Nat) :
    (∃ o o', IntegerBitString.load p data = .ok o ∧ IntegerBitString.native o = .ok (some n, o')) ↔
      ∃ v rest ls bits, data = v.bytes ++ rest ∧ StringEnc p.cls p.tag 3 v ls ∧ BitJoin ls bits ∧ n = valBits bits := by
  have h := read_string_iff (utag := 3) hp he (fun o b => ∃ o', IntegerBitString.native { toObj := o } = .ok (some b, o'))
    (fun ls n => ∃ bits, BitJoin ls bits ∧ n = valBits bits)
    (by
      intro o c x hc hn hi
      rw [IntegerBitString.native_iff { toObj := o } c hc hn]
      simp only [hi, BitsMean_prim])
    (by
      intro o c x hc hn hi
      rw [IntegerBitString.native_iff { toObj := o } c hc hn]
      simp only [hi]
      constructor
      · rintro ⟨bits, ⟨ls, h1, h2⟩, h3⟩; exact ⟨ls, h1, bits, h2, h3⟩
      · rintro ⟨ls, h1, bits, h2, h3⟩; exact ⟨bits, ⟨ls, h1, h2⟩, h3⟩)
    data n
  unfold IntegerBitString.load
  constructor
  · rintro ⟨o, o', h1, h2⟩
    obtain ⟨a, h3, rfl⟩ := bind_dump_ok h1
    obtain ⟨v, rest, ls, k1, k2, bits, k3, k4⟩ := h.mp ⟨a, h3, o', h2⟩
    exact ⟨v, rest, ls, bits, k1, k2, k3, k4⟩
  · rintro ⟨v, rest, ls, bits, k1, k2, k3, k4⟩
    obtain ⟨o, h1, o', h2⟩ := h.mpr ⟨v, rest, ls, k1, k2, bits, k3, k4⟩
    exact ⟨{ toObj := o }, o', by rw [h1]; rfl, h2⟩

/-- IntegerOctetString: the unsigned number written by the joined octets. -/
theorem C13_int_octets (p : Obj Nat) (hp : Blank p) (he : p.explicit = []) (data : Bytes) (n : Nat) :
    (∃ o o', IntegerOctetString.load p data = .ok o ∧ IntegerOctetString.native o = .ok (some n, o')) ↔
      ∃ v rest ls, data = v.bytes ++ rest ∧ StringEnc p.cls p.tag 4 v ls ∧ n = valU ls.flatten := by
  have h := read_string_iff (utag := 4) hp he (fun o b => ∃ o', IntegerOctetString.native { toObj := o } = .ok (some b, o'))
    (fun ls n => n = valU ls.flatten)
    (by
      intro o c x hc hn hi
      unfold IntegerOctetString.native
      simp only [hc, hn, hi, mergeObj_false, OctetString.asChunk, bind, Except.bind, pure, Except.pure,
        intFromBytes_unsigned, Int.toNat_natCast, List.flatten_singleton]
      constructor
      · rintro ⟨o', h⟩; injection h with h; injection h with h _; injection h with h; exact h.symm
      · rintro rfl; exact ⟨_, rfl⟩)
    (by
      intro o c x hc hn hi
      unfold IntegerOctetString.native
      simp only [hc, hn, hi, bind, Except.bind, pure, Except.pure]
      constructor
      · rintro ⟨o', h⟩
        cases hm : mergeObj OctetString.asChunk IntegerOctetString.new.toObj true c with
        | error e => rw [hm] at h; cases h
        | ok r =>
          obtain ⟨ls, h1, rfl⟩ := (mergeObj_octets plain_intoct c r).mp hm
          rw [hm] at h
          simp only [intFromBytes_unsigned, Int.toNat_natCast] at h
          injection h with h; injection h with h _; injection h with h
          exact ⟨ls, h1, h.symm⟩
      · rintro ⟨ls, h1, rfl⟩
        rw [(mergeObj_octets plain_intoct c _).mpr ⟨ls, h1, rfl⟩]
        simp only [intFromBytes_unsigned, Int.toNat_natCast]
        exact ⟨_, rfl⟩)
    data n
  rw [← h]
  unfold IntegerOctetString.load
  constructor
  · rintro ⟨o, o', h1, h2⟩
    obtain ⟨a, h3, rfl⟩ := bind_dump_ok h1
    exact ⟨a, h3, o', h2⟩
  · rintro ⟨o, h1, o', h2⟩
    exact ⟨{ toObj := o }, o', by rw [h1]; rfl, h2⟩

/-- OctetBitString: the joined bits, zero-padded to octets. Partial: when the value contains a constructed piece
without any chunk the code may raise `IndexError` instead (`C13_octet_bits_fails`). -/
theorem C13_octet_bits_partial (p : Obj Bytes) (hp : Blank p) (he : p.explicit = []) (data out : Bytes) :
    ((∃ o o', OctetBitString.load p data = .ok o ∧ OctetBitString.native o = .ok (some out, o')) →
      ∃ v rest ls bits, data = v.bytes ++ rest ∧ StringEnc p.cls p.tag 3 v ls ∧ BitJoin ls bits ∧ ZeroPadded bits out) ∧
    (∀ v rest ls bits, data = v.bytes ++ rest → StringEnc p.cls p.tag 3 v ls → BitJoin ls bits → ZeroPadded bits out →
      ∃ o, OctetBitString.load p data = .ok o ∧
        ((∃ o', OctetBitString.native o = .ok (some out, o')) ∨
          (v.method = 1 ∧ OctetBitString.native o = .error .indexError))) := by
  have hind : p.indefinite = false := by rw [hp.isProto]; rfl
  have hnat : ∀ (o : Obj Bytes) c, o.contents = some c → o.native = none →
      OctetBitString.native { toObj := o } = (OctetBitString.readBytes o.indefinite c).bind (fun r =>
        .ok (some r.1, { toObj := { o with native := some r.1 }, unused := r.2 })) := by
    intro o c hc hn
    unfold OctetBitString.native
    simp only [hc, hn, bind, pure, Except.pure]
  have hiff : ∀ (o : Obj Bytes) c, o.contents = some c → o.native = none →
      ((∃ o', OctetBitString.native { toObj := o } = .ok (some out, o')) ↔ ∃ w, OctetBitString.readBytes o.indefinite c = .ok (out, w)) := by
    intro o c hc hn
    rw [hnat o c hc hn]
    cases hr : OctetBitString.readBytes o.indefinite c with
    | error e => simp [Except.bind]
    | ok r =>
      obtain ⟨b, w⟩ := r
      simp only [Except.bind]
      constructor
      · rintro ⟨o', h⟩; injection h with h; injection h with h _; injection h with h; subst h; exact ⟨w, rfl⟩
      · rintro ⟨w', h⟩; injection h with h; injection h with h _; subst h; exact ⟨_, rfl⟩
  unfold OctetBitString.load
  constructor
  · rintro ⟨o, o', h1, h2⟩
    obtain ⟨a, h3, rfl⟩ := bind_dump_ok h1
    obtain ⟨v, rest, e1, e2, e3, e4, e5⟩ := (load_string_iff hp he data a).mp h3
    rcases e5 with ⟨c, rfl⟩ | ⟨c, d, rfl⟩
    · have := (hiff _ v.contents rfl rfl).mp ⟨o', h2⟩
      simp only [hind] at this
      obtain ⟨bits, k1, k2⟩ := (readBytes_false v.contents out).mp this
      exact ⟨v, rest, _, bits, e1, ⟨e2, e3, e4, Or.inl ⟨c, rfl⟩⟩, (BitJoin_single _ _).mpr k1, k2⟩
    · have := (hiff _ v.contents rfl rfl).mp ⟨o', h2⟩
      obtain ⟨ls, bits, k1, k2, k3⟩ := (readBytes_true v.contents out).1 this
      exact ⟨v, rest, ls, bits, e1, ⟨e2, e3, e4, Or.inr ⟨c, d, k1⟩⟩, k2, k3⟩
  · rintro v rest ls bits h1 ⟨h2, h3, h4, h5⟩ h6 h7
    rcases h5 with ⟨c, rfl⟩ | ⟨c, d, k⟩
    · refine ⟨{ toObj := { p with header := some v.header, contents := some v.contents, trailer := v.trailer, native := none } },
        by rw [(load_string_iff hp he data _).mpr ⟨v, rest, h1, h2, h3, h4, Or.inl ⟨c, rfl⟩⟩]; rfl, Or.inl ?_⟩
      refine (hiff _ v.contents rfl rfl).mpr ?_
      simp only [hind]
      exact (readBytes_false _ _).mpr ⟨bits, (BitJoin_single _ _).mp h6, h7⟩
    · refine ⟨{ toObj := { p with header := some v.header, contents := some v.contents, trailer := v.trailer, native := none,
                                  method := 1, indefinite := true } },
        by rw [(load_string_iff hp he data _).mpr ⟨v, rest, h1, h2, h3, h4, Or.inr ⟨c, d, rfl⟩⟩]; rfl, ?_⟩
      rcases (readBytes_true v.contents out).2 ls bits k h6 h7 with hr | hr
      · exact Or.inl ((hiff _ v.contents rfl rfl).mpr hr)
      · right
        refine ⟨c, ?_⟩
        rw [hnat _ v.contents rfl rfl, hr]
        rfl

/-- An empty constructed value makes `OctetBitString.native` raise `IndexError`. -/
theorem C13_octet_bits_fails : (do
    let o ← OctetBitString.load OctetBitString.new.toObj [0x23, 0x80, 0x00, 0x00]
    let (v, _) ← OctetBitString.native o
    pure v : Py (Option Bytes)) = .error .indexError := by decide +kernel

/-- How a value is split does not matter: equal leaf concatenations read equal. -/
theorem C13_split_independent (p : Obj Bytes) (hp : Blank p) (he : p.explicit = []) (v w : TLV) (ls ms : List Bytes)
    (hv : StringEnc p.cls p.tag 4 v ls) (hw : StringEnc p.cls p.tag 4 w ms) (h : ls.flatten = ms.flatten) :
    ∃ o1 o2 o1' o2', OctetString.load p v.bytes = .ok o1 ∧ OctetString.load p w.bytes = .ok o2 ∧
      OctetString.native o1 = .ok (some ls.flatten, o1') ∧ OctetString.native o2 = .ok (some ls.flatten, o2') := by
  obtain ⟨o1, o1', a1, a2⟩ := (C13_octets p hp he v.bytes ls.flatten).mpr ⟨v, [], ls, by simp, hv, rfl⟩
  obtain ⟨o2, o2', b1, b2⟩ := (C13_octets p hp he w.bytes ls.flatten).mpr ⟨w, [], ms, by simp, hw, h⟩
  exact ⟨o1, o2, o1', o2', a1, b1, a2, b2⟩

/-- Every list of chunks is the list of leaves of a constructed encoding (so the theorems above are about every
splitting), for any string type. -/
theorem C13_every_split (cls tag utag : Nat) (hc : cls < 4) (hu : 0 < utag) (ls : List Bytes) (hl : ∀ l ∈ ls, Fits l) :
    ∃ v, StringEnc cls tag utag v ls ∧ v.method = 1 := by
  obtain ⟨id, hid⟩ : ∃ id, Ident id cls 1 tag := by
    obtain ⟨id, len, h2, h3, h4, _⟩ := dumpHeader_spec (c := cls) (m := 1) (t := tag) hc (by decide) [] (by simp)
    exact ⟨id, h3⟩
  have hvs : ∃ vs : List TLV, (∀ v ∈ vs, Ber 1 v ∧ ¬ [0, 0] <+: v.bytes ∧ v.cls = 0 ∧ v.method = 0 ∧ v.tag = utag) ∧
      vs.map TLV.contents = ls := by
    induction ls with
    | nil => exact ⟨[], by simp, rfl⟩
    | cons l ls ih =>
      obtain ⟨vs, h1, h2⟩ := ih (fun x hx => hl x (by simp [hx]))
      obtain ⟨id, len, e1, e2, e3, _⟩ := dumpHeader_spec (c := 0) (m := 0) (t := utag) (by decide) (by decide) l (hl l (by simp))
      refine ⟨⟨0, 0, utag, id ++ len, l, []⟩ :: vs, ?_, by rw [List.map_cons, h2]⟩
      intro v hv
      rcases List.mem_cons.mp hv with rfl | hv
      · refine ⟨.definite e2 e3, ?_, rfl, rfl, rfl⟩
        rintro ⟨t, ht⟩
        simp only [TLV.bytes, List.cons_append, List.nil_append, List.append_nil] at ht
        rcases e2.2.2 with ⟨h31, rfl⟩ | ⟨_, gs, rfl, _⟩
        · simp only [List.cons_append] at ht
          injection ht with ht _
          have := congrArg UInt8.toNat ht
          rw [UInt8.toNat_ofNat_of_lt' (by simp [UInt8.size]; omega)] at this
          simp at this
          omega
        · simp only [List.cons_append] at ht
          injection ht with ht _
          revert ht
          decide
      · exact h1 v hv
  obtain ⟨vs, h1, h2⟩ := hvs
  have hber : Ber 2 ⟨cls, 1, tag, id ++ [0x80], (vs.map TLV.bytes).flatten, [0, 0]⟩ :=
    .indefinite vs hid (fun v hv => (h1 v hv).1) (fun v hv => (h1 v hv).2.1)
  refine ⟨_, ⟨Ber_mono hber (by decide), rfl, rfl, Or.inr ⟨rfl, rfl, ?_⟩⟩, rfl⟩
  subst h2
  clear hber hl
  induction vs with
  | nil => exact .nil
  | cons v vs ih =>
    obtain ⟨b1, _, b2, b3, b4⟩ := h1 v (by simp)
    exact .prim (Ber_mono b1 (by decide)) b2 b3 b4 (ih (fun x hx => h1 x (by simp [hx])))

/-- A chunk before the last with unused bits is refused with `ValueError`, all chunks being well-formed. -/
theorem C13_unused_inside (o : BitObj (List Bool)) (c : Bytes) (hc : o.contents = some c) (hn : o.native = none)
    (hi : o.indefinite = true) (before after : List Bytes) (u : UInt8) (body next : Bytes) (hu : u ≠ 0)
    (hch : Chunks 3 c (before ++ (u :: body) :: next :: after))
    (hwf : ∀ l ∈ before ++ (u :: body) :: next :: after, ∃ bits, BitLeaf l bits) :
    BitString.native o = .error .valueError := by
  have hno : ∀ ls bits, BitJoin ls bits → ∀ before, ls ≠ before ++ (u :: body) :: next :: after := by
    intro ls bits h
    induction h with
    | nil => intro before h; simp at h
    | last _ =>
      intro before h
      have := congrArg List.length h
      simp at this
      omega
    | cons _ ih =>
      intro before h
      cases before with
      | nil =>
        injection h with h _
        injection h with h _
        exact hu h.symm
      | cons b bs =>
        injection h with _ h
        exact ih bs h
  have hcs : ∃ cs, List.Forall₂ LeafChunk (before ++ (u :: body) :: next :: after) cs := by
    generalize before ++ (u :: body) :: next :: after = ls at hwf
    clear hno
    induction ls with
    | nil => exact ⟨[], .nil⟩
    | cons l ls ih =>
      obtain ⟨cs, h⟩ := ih (fun x hx => hwf x (by simp [hx]))
      obtain ⟨bits, pad, bd, padding, h1, h2, h3, h4⟩ := hwf l (by simp)
      exact ⟨_ :: cs, .cons ⟨bits, padding, pad, bd, rfl, h1, h2, h3, h4⟩ h⟩
  obtain ⟨cs, hcs⟩ := hcs
  obtain ⟨vs, k1, k2⟩ := (forall2_singletons intBitsChunk_leaf _ cs).mpr hcs
  have hm := (mergeObj_ok_iff plain_bits rfl c cs).mpr ⟨_, vs, hch, k1, k2⟩
  have hfold : foldBitChunks cs 0 0 [] = .error .valueError := by
    cases hf : foldBitChunks cs 0 0 [] with
    | error e => rw [foldBitChunks_error _ _ _ _ _ hf]
    | ok r =>
      obtain ⟨v, n, w⟩ := r
      obtain ⟨bits, hb, _⟩ := (foldBitChunks_ok_iff _ cs hcs [] [] rfl v n).mp ⟨w, hf⟩
      exact absurd rfl (hno _ bits hb before)
  unfold BitString.native
  simp only [hc, hn, hi, bind, Except.bind, pure, Except.pure, Option.getD_some]
  unfold chunksToInt
  rw [if_neg (by decide), hm]
  simp only [bind, Except.bind, hfold]

/-- Failure of reading an OCTET STRING is always `ValueError`. -/
theorem C13_octets_error (o : Obj Bytes) (e : PyErr) (h : OctetString.native o = .error e) : e = .valueError := by
  unfold OctetString.native at h
  cases hc : o.contents with
  | none => rw [hc] at h; cases h
  | some c =>
    rw [hc] at h
    cases hn : o.native with
    | some b => rw [hn] at h; cases h
    | none =>
      rw [hn] at h
      simp only [bind, Except.bind, pure, Except.pure] at h
      cases hi : o.indefinite with
      | false => rw [hi] at h; cases h
      | true =>
        rw [hi] at h
        cases hm : mergeObj OctetString.asChunk OctetString.new true c with
        | ok r => rw [hm] at h; cases h
        | error e' =>
          rw [hm] at h
          injection h with h
          subst h
          rcases mergeChunks_error plain_octets _ _ _ (by omega) hm with h | ⟨_, _, h⟩
          · exact h
          · cases h

/-- The clause "independent of definite or indefinite length" fails: a constructed string of definite length, which
BER allows, is refused. Witness: `24 03 04 01 61`. -/
theorem C13_definite_fails : OctetString.load OctetString.new [0x24, 0x03, 0x04, 0x01, 0x61] = .error .valueError ∧
    parse [0x24, 0x03, 0x04, 0x01, 0x61] true = .ok ⟨0, 1, 4, [0x24, 0x03], [0x04, 0x01, 0x61], []⟩ := by decide +kernel

/-- In general: every definite-length constructed encoding is refused. -/
theorem C13_definite_refused (p : Obj Bytes) (hp : Blank p) (he : p.explicit = []) (data : Bytes) (i : Info)
    (h : parse data = .ok i) (hm : i.method = 1) (ht : i.trailer = []) : OctetString.load p data = .error .valueError := by
  cases hl : OctetString.load p data with
  | error e => rw [loadObj_error hl]
  | ok o =>
    exfalso
    unfold OctetString.load loadObj at hl
    rw [h] at hl
    simp only [bind, Except.bind] at hl
    unfold buildObj at hl
    rw [he] at hl
    rcases (buildBase_ok.mp hl).2.2 with ⟨h1, _⟩ | ⟨_, _, h2, _⟩
    · rw [hp.method] at h1; omega
    · rw [ht] at h2; cases h2

theorem strPut_loaded {ν : Type} {p o : Obj ν} (hp : Blank p) (he : p.explicit = []) {data : Bytes} (h : loadObj true [] p data = .ok o)
    (v : ν) (c : Bytes) : strPut o v c = strPut p v c := by
  have hm := hp.method
  have hi : p.indefinite = false := by rw [hp.isProto]; rfl
  obtain ⟨t, rest, _, _, _, _, ⟨_, rfl⟩ | ⟨_, _, rfl⟩⟩ := (load_string_iff hp he data o).mp h
  · rfl
  · simp [strPut, hm, hi]

/-- Nothing of the form in which a string was loaded stays behind when it is assigned a value: the result is that of the same assignment
to a new instance, so its encoding is the primitive one of definite length. -/
theorem C13_reassign :
    (∀ (p o : Obj Bytes) (data v : Bytes), Blank p → p.explicit = [] → OctetString.load p data = .ok o →
      OctetString.set o v = OctetString.set p v) ∧
    (∀ (k : Codec) (p o : Obj Str) (data : Bytes) (v : Str), Blank p → p.explicit = [] → AbstractString.load p data = .ok o →
      AbstractString.set k o v = AbstractString.set k p v) ∧
    (∀ (p : Obj Nat) (o : IntOctObj) (data : Bytes) (n : Int), Blank p → p.explicit = [] → IntegerOctetString.load p data = .ok o →
      IntegerOctetString.set o n = IntegerOctetString.set { toObj := p } n) ∧
    (∀ (p : Obj (List Bool)) (o : BitObj (List Bool)) (data : Bytes) (v : List Bool), Blank p → p.explicit = [] → BitString.load p data = .ok o →
      BitString.set o v = BitString.set { toObj := p } v) ∧
    (∀ (m : BitMap) (p : Obj (List BitKey)) (o : BitObj (List BitKey)) (data : Bytes) (v : List BitKey), Blank p → p.explicit = [] →
      NamedBits.load p data = .ok o → NamedBits.set m o v = NamedBits.set m { toObj := p } v) ∧
    (∀ (p : Obj Bytes) (o : BitObj Bytes) (data v : Bytes), Blank p → p.explicit = [] → OctetBitString.load p data = .ok o →
      OctetBitString.set o v = OctetBitString.set { toObj := p } v) ∧
    (∀ (p : Obj Nat) (o : BitObj Nat) (data : Bytes) (n : Int), Blank p → p.explicit = [] → IntegerBitString.load p data = .ok o →
      IntegerBitString.set o n = IntegerBitString.set { toObj := p } n) := by
  refine ⟨?_, ?_, ?_, ?_, ?_, ?_, ?_⟩
  · intro p o data v hp he h
    rw [OctetString.set, OctetString.set, strPut_loaded hp he h]
  · intro k p o data v hp he h
    simp only [AbstractString.set, strPut_loaded hp he h]
  · intro p o data n hp he h
    obtain ⟨a, h', rfl⟩ := bind_dump_ok h
    simp only [IntegerOctetString.set, strPut_loaded hp he h']
  · intro p o data v hp he h
    obtain ⟨a, h', rfl⟩ := bind_dump_ok h
    simp only [BitString.set, bitPut, strPut_loaded hp he h']
  · intro m p o data v hp he h
    obtain ⟨a, h', rfl⟩ := bind_dump_ok h
    simp only [NamedBits.set, NamedBits.setBits, bitPut, strPut_loaded hp he h']
  · intro p o data v hp he h
    obtain ⟨a, h', rfl⟩ := bind_dump_ok h
    simp only [OctetBitString.set, bitPut, strPut_loaded hp he h']
  · intro p o data n hp he h
    obtain ⟨a, h', rfl⟩ := bind_dump_ok h
    simp only [IntegerBitString.set, bitPut, strPut_loaded hp he h']

/-- The bytes: an OCTET STRING loaded in chunks and then assigned `v` is dumped as one primitive element with contents `v`. -/
theorem C13_reassign_dump (p o : Obj Bytes) (data v : Bytes) (hp : Blank p) (he : p.explicit = []) (hl : OctetString.load p data = .ok o)
    (hv : Fits v) : ∃ o1 o2 id len, OctetString.set o v = .ok o1 ∧ OctetString.dump o1 = .ok (id ++ len ++ v, o2) ∧
      Ident id p.cls 0 p.tag ∧ DefLen len v.length := by
  obtain ⟨h, h1, h2⟩ := dump_put_total (k := true) v hp he hv
  obtain ⟨id, len, h3, h4, h5, _⟩ := dumpHeader_spec (t := p.tag) hp.cls (m := 0) (by decide) v hv
  rw [h3] at h2
  cases h2
  refine ⟨p.put v v, { p.put v v with header := some (id ++ len) }, id, len, ?_, ?_, h4, h5⟩
  · rw [C13_reassign.1 p o data v hp he hl, OctetString.set, strPut_blank hp]
  · rw [OctetString.dump, primDump_fresh rfl]
    exact h1

/-- Non-vacuity: nested chunks. -/
example : (do
    let o ← OctetString.load OctetString.new [0x24, 0x80, 0x04, 0x01, 0x61, 0x24, 0x80, 0x04, 0x02, 0x62, 0x63, 0x00, 0x00, 0x04, 0x01, 0x64, 0x00, 0x00]
    let (v, _) ← OctetString.native o
    pure v : Py (Option Bytes)) = .ok (some [0x61, 0x62, 0x63, 0x64]) := by decide +kernel

example : (do
    let o ← BitString.load BitString.new.toObj [0x23, 0x80, 0x03, 0x02, 0x00, 0xff, 0x03, 0x02, 0x06, 0x40, 0x00, 0x00]
    let (v, _) ← BitString.native o
    pure v : Py (List Bool)) = .ok [true, true, true, true, true, true, true, true, false, true] := by decide +kernel

example : (do
    let o ← BitString.load BitString.new.toObj [0x23, 0x80, 0x03, 0x02, 0x06, 0x40, 0x03, 0x02, 0x00, 0xff, 0x00, 0x00]
    let (v, _) ← BitString.native o
    pure v : Py (List Bool)) = .error .valueError := by decide +kernel

/-- A string loaded in two chunks and assigned another value. -/
example : (do
    let o ← OctetString.load OctetString.new [0x24, 0x80, 0x04, 0x01, 0x61, 0x04, 0x01, 0x62, 0x00, 0x00]
    let o ← OctetString.set o [0x78]
    let (b, _) ← OctetString.dump o
    pure b : Py Bytes) = .ok [0x04, 0x01, 0x78] := by decide +kernel

end Asn1.Props
