import Verif.Lemmas.KeepBuild
import Verif.Lemmas.Tag
import Verif.Spec.Parsable

/-! # Strings with a parsable payload -/

namespace Asn1
open Spec

theorem wrapped_tlv {es : List (Nat × Nat)} {b w : Bytes} (h : Wrapped es b w) {u : TLV} (hu : b = u.bytes) (hb : Ber 11 u) :
    ∃ v : TLV, w = v.bytes ∧ Ber 11 v ∧ Chain es.reverse v u := by
  induction h with
  | nil => exact ⟨u, hu, hb, .nil⟩
  | @snoc es b w id len c t hw hid hlen ih =>
    obtain ⟨v, rfl, h2, h3⟩ := ih hu
    refine ⟨⟨c, 1, t, id ++ len, v.bytes, []⟩, by simp [TLV.bytes], .definite hid hlen, ?_⟩
    rw [List.reverse_append]
    exact Chain.cons (v := ⟨c, 1, t, id ++ len, v.bytes, []⟩) (junk := []) rfl (by simp) h2 h3

theorem encoded_string {es : List (Nat × Nat)} {cls tag : Nat} {k : Bool} {b w : Bytes}
    (h : Encoded es cls 0 tag (stringContents k b) w) : StringElement es cls tag k b w := by
  obtain ⟨id, len, h1, h2, h3⟩ := h
  obtain ⟨v, k1, k2, k3⟩ := wrapped_tlv h3 (u := ⟨cls, 0, tag, id ++ len, stringContents k b, []⟩) (by simp [TLV.bytes])
    (.definite h1 h2)
  exact ⟨v, _, k1, k2, k3, rfl, rfl, rfl, rfl⟩

/-- The string object `o` holds the octets `b`. -/
structure HoldsOctets (es : List (Nat × Nat)) (cl tg : Nat) (k : Bool) (o : Obj Bytes) (b : Bytes) : Prop where
  explicit : o.explicit = es
  cls : o.cls = cl
  tag : o.tag = tg
  method : o.method = 0
  indefinite : o.indefinite = false
  contents : o.contents = some (stringContents k b)
  native : o.native = none ∨ o.native = some b
  header : ∀ h, o.header = some h → Fits (h ++ stringContents k b ++ o.trailer) →
    StringElement es cl tg k b (h ++ stringContents k b ++ o.trailer)

variable {es : List (Nat × Nat)} {cls tag : Nat} {k : Bool} {o : Obj Bytes} {b : Bytes}

theorem parsableChunk_contents (k i : Bool) (b : Bytes) : parsableChunk k i (stringContents k b) = .ok b := by
  cases k <;> rfl

/-- `bytes(value)` -/
theorem HoldsOctets.bytes (h : HoldsOctets es cls tag k o b) (pr : Obj Bytes) :
    ∃ o', parsableBytes k pr o = .ok (b, o') ∧ HoldsOctets es cls tag k o' b := by
  unfold parsableBytes
  rw [h.contents]
  rcases h.native with hn | hn
  · simp only [hn, h.indefinite, mergeObj]
    rw [show mergeChunks (parsableChunk k) pr ((stringContents k b).length + 1) false (stringContents k b) = .ok b from by
      rw [mergeChunks]; exact parsableChunk_contents k false b]
    exact ⟨_, rfl, ⟨h.explicit, h.cls, h.tag, h.method, rfl, rfl, Or.inr rfl, h.header⟩⟩
  · simp only [hn]
    exact ⟨o, rfl, h⟩

theorem asn1Dump_again {ν : Type} (k : Bool) (o : Obj ν) (force : Bool) (h : force = true ∨ headerEnds80 o.header = true) :
    asn1Dump k o force = asn1Dump k { o with header := none } force := by
  obtain ⟨c, m, t, i, e, hd, cs, tr, n, ind⟩ := o
  unfold asn1Dump
  cases cs with
  | none => rfl
  | some cs =>
    have : (force || headerEnds80 hd) = true := by
      rcases h with h | h
      · simp [h]
      · have h' : headerEnds80 hd = true := h
        simp [h']
    simp only [this]
    cases hd <;> cases k <;> cases ind <;> simp

/-- Encoding a string that holds `b`. -/
theorem HoldsOctets.dump (h : HoldsOctets es cls tag k o b) (hcls : cls < 4) (hes : ∀ e ∈ es, e.1 < 4) {force : Bool}
    {w : Bytes} {o' : Obj Bytes} (hd : asn1Dump true o force = .ok (w, o')) :
    HoldsOctets es cls tag k o' b ∧ (Fits w → StringElement es cls tag k b w) := by
  by_cases hf : force = true ∨ headerEnds80 o.header = true ∨ o.header = none
  · have hd' : asn1Dump true { o with header := none } force = .ok (w, o') := by
      rcases hf with hf | hf | hf
      · rw [← asn1Dump_again _ _ _ (Or.inl hf)]; exact hd
      · rw [← asn1Dump_again _ _ _ (Or.inr hf)]; exact hd
      · obtain ⟨c, m, t, i, e, hdr, cs, tr, n, ind⟩ := o
        simp only at hf
        subst hf
        exact hd
    have key : ∀ w' : Bytes, Fits w → StringElement es cls tag k b w := by
      intro _ hfit
      have := (asn1Dump_encoded (o := { o with header := none }) (c := stringContents k b) h.contents rfl h.indefinite
        (by show o.cls < 4; rw [h.cls]; exact hcls) (by show o.method < 2; rw [h.method]; omega)
        (by show ∀ e ∈ o.explicit, e.1 < 4; rw [h.explicit]; exact hes) hd' hfit).1
      simp only [h.explicit, h.cls, h.method, h.tag] at this
      exact encoded_string this
    refine ⟨?_, key w⟩
    rw [asn1Dump_fresh (o := { o with header := none }) h.contents rfl h.indefinite] at hd'
    cases h1 : dumpHeader o.cls o.method o.tag (stringContents k b) with
    | error e => simp only [h1, Except.bind] at hd'; cases hd'
    | ok h0 =>
      simp only [h1, Except.bind] at hd'
      cases h2 : wrapExplicit o.explicit h0 (stringContents k b) with
      | error e => simp only [h2] at hd'; cases hd'
      | ok hh =>
        simp only [h2, Except.ok.injEq, Prod.mk.injEq] at hd'
        obtain ⟨rfl, rfl⟩ := hd'
        refine ⟨h.explicit, h.cls, h.tag, h.method, h.indefinite, h.contents, h.native, ?_⟩
        intro h' hh' hfit
        simp only [Option.some.injEq] at hh'
        subst hh'
        simp only [List.append_nil] at hfit ⊢
        exact key (hh ++ stringContents k b) hfit
  · have hf1 : force = false := by cases force <;> simp_all
    have hf2 : headerEnds80 o.header = false := by cases hq : headerEnds80 o.header <;> simp_all
    subst hf1
    cases hh : o.header with
    | none => exact absurd (Or.inr (Or.inr hh)) hf
    | some hdr =>
      rw [hh] at hf2
      obtain ⟨rfl, rfl⟩ := asn1Dump_kept hh h.contents hf2 hd
      exact ⟨h, fun hfit => h.header hdr hh hfit⟩

theorem HoldsOctets.set (he : o.explicit = es) (hc : o.cls = cls) (ht : o.tag = tag) (hm : o.method = 0 ∨ o.indefinite = true)
    (b : Bytes) : HoldsOctets es cls tag k (parsableSet k o b) b := by
  refine ⟨he, hc, ht, ?_, rfl, ?_, Or.inr rfl, ?_⟩
  · show (if o.indefinite then 0 else o.method) = 0
    rcases hm with hm | hm
    · rw [hm]; simp
    · rw [hm]; rfl
  · cases k <;> rfl
  · intro h hh; cases hh

/-- A string loaded from a definite-length element. -/
theorem HoldsOctets.load {p : Obj Bytes} {i : Info} (h : buildObj true [] p i = .ok o) (hb : Ber 11 i.tlv)
    (ht : Tight p.explicit.reverse i.tlv) (hm : p.method = 0) (hi : p.indefinite = false)
    (hc : o.contents = some (stringContents k b)) : HoldsOctets p.explicit p.cls p.tag k o b := by
  obtain ⟨hd, c, h1, h2, h3, h4, h5⟩ := buildObj_tight h hb ht
  rw [hc, Option.some.injEq] at h3
  subst h3
  rw [buildObj_eq] at h
  cases he : explicitLoop p.explicit.reverse i i.header i.trailer with
  | error e => rw [he] at h; cases h
  | ok r =>
    have hch := (explicitLoop_chain p.explicit.reverse i i.header i.trailer r.1).mp ⟨r, he, rfl⟩
    rw [he] at h
    simp only [Except.bind] at h
    cases hbb : buildBase true [] { p with explicit := [] } r.1 with
    | error e => rw [hbb] at h; cases h
    | ok o0 =>
      rw [hbb] at h
      simp only [Except.ok.injEq] at h
      obtain ⟨k1, k2, k3⟩ := buildBase_ok.mp hbb
      simp only [List.not_mem_nil, or_false] at k1 k2
      rcases k3 with ⟨k3, rfl⟩ | ⟨_, _, _, _, rfl⟩
      · subst h
        refine ⟨rfl, rfl, rfl, hm, hi, hc, Or.inl rfl, ?_⟩
        intro h' hh' _
        simp only [Option.some.injEq] at hh' hc h1
        subst hh'
        rw [h1, h4]
        exact ⟨i.tlv, r.1.tlv, rfl, hb, hch, k1, k2, k3.trans hm, hc⟩
      · subst h
        rw [hi] at h5
        cases h5

end Asn1
