import Verif.Props.C01

/-! # C04 — emitted headers are the unique shortest ones (DER) -/

namespace Asn1.Props
open Asn1 Spec

/-- Any definite-length header that `parse` accepts for the same class, method, tag and contents is
at least as long as the emitted one, and equal to it when it has the same length. -/
theorem C04_shortest (c m t : Nat) (contents out : Bytes) (hl : contents.length < 256 ^ 127)
    (h : emit c m t contents = .ok out) :
    ∃ header, out = header ++ contents ∧
      ∀ (data header' : Bytes), parse data = .ok ⟨c, m, t, header', contents, []⟩ →
        header.length ≤ header'.length ∧ (header'.length = header.length → header' = header) := by
  have hr : ¬ ¬ (0 ≤ (c : Int) ∧ (c : Int) ≤ 3 ∧ 0 ≤ (m : Int) ∧ (m : Int) ≤ 1 ∧ 0 ≤ (t : Int)) := by
    intro hn
    rw [(C01_emit_range c m t contents hl).mpr hn] at h
    cases h
  obtain ⟨id, len, h1, h2, h3, h4⟩ := dumpHeader_spec (t := t) (show c < 4 by omega) (show m < 2 by omega) contents hl
  have hout : out = id ++ len ++ contents := by
    unfold emit at h
    rw [if_neg (by omega), if_neg (by omega), if_neg (by omega)] at h
    simp only [Int.toNat_natCast, h1] at h
    injection h with h
    exact h.symm
  refine ⟨id ++ len, hout, ?_⟩
  intro data header' hp
  obtain ⟨rest, _, hb⟩ := (parse_ok_iff _ _).mp hp
  simp only [Info.tlv] at hb
  cases hb with
  | definite hi hd =>
    rename_i id' len'
    have := Ident_unique h2 hi
    subst this
    obtain ⟨a, b⟩ := h4 _ hd
    refine ⟨by simp; omega, ?_⟩
    intro he
    simp at he
    rw [b he]

/-- No leading zero groups: the identifier is one octet below tag 31 and otherwise the base-128
digits of the tag without a leading zero group; the length octets are the short form below 128 and
otherwise a count octet and base-256 digits without a leading zero octet. -/
theorem C04_no_leading_zero (c m t : Nat) (contents : Bytes) (hc : c ≤ 3) (hm : m ≤ 1)
    (hl : contents.length < 256 ^ 127) :
    ∃ id len, emit c m t contents = .ok (id ++ len ++ contents) ∧ Ident id c m t ∧
      ((contents.length < 128 ∧ len = [UInt8.ofNat contents.length]) ∨
       (128 ≤ contents.length ∧ ∃ d ds, len = UInt8.ofNat (128 + (d :: ds).length) :: d :: ds ∧ d ≠ 0 ∧
          valU (d :: ds) = contents.length)) := by
  obtain ⟨id, len, h1, h2, h3, h4⟩ := dumpHeader_spec (t := t) (show c < 4 by omega) (show m < 2 by omega) contents hl
  refine ⟨id, len, ?_, h2, ?_⟩
  · unfold emit
    rw [if_neg (by omega), if_neg (by omega), if_neg (by omega)]
    simp only [Int.toNat_natCast, h1]
    rfl
  · by_cases hs : contents.length < 128
    · left
      refine ⟨hs, ?_⟩
      obtain ⟨a, b⟩ := h4 _ (Or.inl ⟨hs, rfl⟩)
      rcases h3 with ⟨_, h⟩ | ⟨ds, hne, _, rfl, _⟩
      · exact h
      · have := List.length_pos_iff.mpr hne
        simp at a
        exact absurd a hne
    · right
      refine ⟨by omega, ?_⟩
      rcases h3 with ⟨h, _⟩ | ⟨ds, hne, hd, rfl, hv⟩
      · exact absurd h hs
      · cases ds with
        | nil => exact absurd rfl hne
        | cons d ds =>
          refine ⟨d, ds, rfl, ?_, hv⟩
          rintro rfl
          simp [valU] at hv
          have hds : ds ≠ [] := by
            rintro rfl
            simp [valU] at hv
            omega
          obtain ⟨a, _⟩ := h4 _ (Or.inr ⟨ds, hds, by simp at hd; omega, rfl, hv⟩)
          simp at a

/-- A high-tag-number identifier with a leading zero group is rejected. -/
theorem C04_reject_leading_zero_tag (b : UInt8) (rest : Bytes) (strict : Bool) (hb : b.toNat % 32 = 31) :
    parse (b :: 0x80 :: rest) strict = .error .valueError := by
  cases hp : parse (b :: 0x80 :: rest) strict with
  | error e => rw [parse_error _ _ _ hp]
  | ok j =>
    exfalso
    have hj : ∃ r, b :: 0x80 :: rest = j.tlv.bytes ++ r ∧ Ber 11 j.tlv := by
      cases strict with
      | false => exact (parse_ok_iff _ _).mp hp
      | true =>
        obtain ⟨e, h⟩ := (parse_strict_ok_iff _ _).mp hp
        exact ⟨[], by simpa using e, h⟩
    obtain ⟨r, he, hB⟩ := hj
    have : ∃ id l m, Ident id j.cls m j.tag ∧ j.header = id ++ l ∧ l ≠ [] := by
      generalize hv : j.tlv = v at hB
      cases hB with
      | definite hi hd =>
        simp only [Info.tlv, TLV.mk.injEq] at hv
        exact ⟨_, _, _, hv.1 ▸ hv.2.2.1 ▸ hi, hv.2.2.2.1, DefLen_ne_nil hd⟩
      | indefinite vs hi _ _ =>
        simp only [Info.tlv, TLV.mk.injEq] at hv
        exact ⟨_, _, _, hv.1 ▸ hv.2.2.1 ▸ hi, hv.2.2.2.1, by simp⟩
    obtain ⟨id, l, m, hi, hh, hl⟩ := this
    simp only [Info.tlv, TLV.bytes, hh, List.append_assoc] at he
    obtain ⟨hc, hm, hi⟩ := hi
    rcases hi with ⟨ht, rfl⟩ | ⟨ht, gs, rfl, hv⟩
    · simp only [List.cons_append, List.nil_append, List.cons.injEq] at he
      have := congrArg UInt8.toNat he.1
      rw [toNat_ofNat_lt (by omega)] at this
      omega
    · obtain ⟨init, last, rfl, _, hlast, hhead, _⟩ := hv
      cases init with
      | nil =>
        simp only [List.cons_append, List.nil_append, List.cons.injEq] at he
        rw [← he.2.1] at hlast
        simp at hlast
      | cons z zs =>
        simp only [List.cons_append, List.cons.injEq] at he
        simp at hhead
        exact hhead he.2.1.symm

/-- A high-tag-number identifier whose number is below 31 (one group) is rejected. -/
theorem C04_reject_small_high_tag (b g : UInt8) (rest : Bytes) (strict : Bool) (hb : b.toNat % 32 = 31)
    (hg : g.toNat < 31) : parse (b :: g :: rest) strict = .error .valueError := by
  cases hp : parse (b :: g :: rest) strict with
  | error e => rw [parse_error _ _ _ hp]
  | ok j =>
    exfalso
    have hj : ∃ r, b :: g :: rest = j.tlv.bytes ++ r ∧ Ber 11 j.tlv := by
      cases strict with
      | false => exact (parse_ok_iff _ _).mp hp
      | true =>
        obtain ⟨e, h⟩ := (parse_strict_ok_iff _ _).mp hp
        exact ⟨[], by simpa using e, h⟩
    obtain ⟨r, he, hB⟩ := hj
    have : ∃ id l m, Ident id j.cls m j.tag ∧ j.header = id ++ l ∧ l ≠ [] := by
      generalize hv : j.tlv = v at hB
      cases hB with
      | definite hi hd =>
        simp only [Info.tlv, TLV.mk.injEq] at hv
        exact ⟨_, _, _, hv.1 ▸ hv.2.2.1 ▸ hi, hv.2.2.2.1, DefLen_ne_nil hd⟩
      | indefinite vs hi _ _ =>
        simp only [Info.tlv, TLV.mk.injEq] at hv
        exact ⟨_, _, _, hv.1 ▸ hv.2.2.1 ▸ hi, hv.2.2.2.1, by simp⟩
    obtain ⟨id, l, m, hi, hh, hl⟩ := this
    simp only [Info.tlv, TLV.bytes, hh, List.append_assoc] at he
    obtain ⟨hc, hm, hi⟩ := hi
    rcases hi with ⟨ht, rfl⟩ | ⟨ht, gs, rfl, hv⟩
    · simp only [List.cons_append, List.nil_append, List.cons.injEq] at he
      have := congrArg UInt8.toNat he.1
      rw [toNat_ofNat_lt (by omega)] at this
      omega
    · obtain ⟨init, last, rfl, hinit, hlast, hhead, hval⟩ := hv
      cases init with
      | nil =>
        simp only [List.cons_append, List.nil_append, List.cons.injEq] at he
        rw [← he.2.1] at hval
        simp [val128] at hval
        omega
      | cons z zs =>
        simp only [List.cons_append, List.cons.injEq] at he
        have := hinit z (by simp)
        rw [← he.2.1] at this
        omega

/-- Re-emitting the parsed fields of a definite-length value reproduces the consumed bytes exactly
when its header has the shortest possible length. -/
theorem C04_reemit (data : Bytes) (i : Info) (h : parse data = .ok i) (ht : i.trailer = []) :
    ∃ header, emit i.cls i.method i.tag i.contents = .ok (header ++ i.contents) ∧
      header.length ≤ i.header.length ∧
      (i.header.length = header.length ↔
        emit i.cls i.method i.tag i.contents = .ok (i.header ++ i.contents)) := by
  obtain ⟨rest, _, hb⟩ := (parse_ok_iff _ _).mp h
  have hshape : i.cls ≤ 3 ∧ i.method ≤ 1 ∧ i.contents.length < 256 ^ 127 := by
    generalize hv : i.tlv = v at hb
    cases hb with
    | definite hi hd =>
      simp only [Info.tlv, TLV.mk.injEq] at hv
      obtain ⟨a, b, _, _, e, _⟩ := hv
      have := hi.1
      have := hi.2.1
      exact ⟨by omega, by omega, e ▸ DefLen_lt hd⟩
    | indefinite vs hi _ _ =>
      simp only [Info.tlv, TLV.mk.injEq] at hv
      rw [hv.2.2.2.2.2] at ht
      cases ht
  obtain ⟨hc, hm, hl⟩ := hshape
  obtain ⟨hd, h1, _⟩ := C01_emit_parse i.cls i.method i.tag i.contents hc hm hl
  obtain ⟨hd', e, hs⟩ := C04_shortest i.cls i.method i.tag i.contents _ hl h1
  have e := List.append_cancel_right e
  subst e
  have hp : parse data = .ok ⟨i.cls, i.method, i.tag, i.header, i.contents, []⟩ := by
    rw [h, ← ht]
  obtain ⟨a, b⟩ := hs data i.header hp
  refine ⟨hd, h1, a, ?_⟩
  constructor
  · intro he; rw [h1, b he]
  · intro he
    rw [h1] at he
    injection he with he
    rw [List.append_cancel_right he]

/-- Non-vacuity: a long-form length where the short form exists is accepted but not reproduced. -/
example : parse [0x04, 0x81, 0x01, 0x61] = .ok ⟨0, 0, 4, [0x04, 0x81, 0x01], [0x61], []⟩ ∧
    emit 0 0 4 [0x61] = .ok [0x04, 0x01, 0x61] := by decide +kernel
example : parse [0x1f, 0x1e, 0x00] = .error .valueError ∧ parse [0x1f, 0x80, 0x40, 0x00] = .error .valueError ∧
    parse [0x1f, 0x1f, 0x00] = .ok ⟨0, 0, 31, [0x1f, 0x1f, 0x00], [], []⟩ := by decide +kernel

end Asn1.Props
