import Verif.Lemmas.Num
import Verif.Model.Parser
import Verif.Spec.Ber

/-! # Lemmas on the parser model: soundness and completeness with respect to the BER grammar -/

namespace Asn1
open Spec

/-! ## Bit arithmetic on octets -/

theorem and_127 (n : Nat) : n &&& 127 = n % 128 := Nat.and_two_pow_sub_one_eq_mod n 7
theorem and_31 (n : Nat) : n &&& 31 = n % 32 := Nat.and_two_pow_sub_one_eq_mod n 5
theorem and_1 (n : Nat) : n &&& 1 = n % 2 := Nat.and_two_pow_sub_one_eq_mod n 1
theorem shr_7 (n : Nat) : n >>> 7 = n / 128 := Nat.shiftRight_eq_div_pow n 7
theorem shr_6 (n : Nat) : n >>> 6 = n / 64 := Nat.shiftRight_eq_div_pow n 6
theorem shr_5 (n : Nat) : n >>> 5 = n / 32 := Nat.shiftRight_eq_div_pow n 5

theorem UInt8_ofNat_toNat (b : UInt8) : UInt8.ofNat b.toNat = b := by simp

theorem toNat_ofNat_lt {n : Nat} (h : n < 256) : (UInt8.ofNat n).toNat = n := by
  simp <;> omega

/-! ## Slices -/

theorem slice_mid (a b c : Bytes) : slice (a ++ b ++ c) a.length (a.length + b.length) = b := by
  unfold slice
  rw [List.take_append_of_le_length (by simp), List.take_of_length_le (by simp)]
  simp

theorem get_mid (a : Bytes) (x : UInt8) (s : Bytes) : (a ++ x :: s)[a.length]? = some x := by simp

/-- `s` is the part of `data` from offset `p` on. -/
def At (data : Bytes) (p : Nat) (s : Bytes) : Prop := ∃ pre, data = pre ++ s ∧ p = pre.length

theorem At.zero (data : Bytes) : At data 0 data := ⟨[], rfl, rfl⟩

theorem At.len {data : Bytes} {p : Nat} {s : Bytes} (h : At data p s) : data.length = p + s.length := by
  obtain ⟨pre, rfl, rfl⟩ := h; simp

theorem At.get {data : Bytes} {p : Nat} {x : UInt8} {s : Bytes} (h : At data p (x :: s)) :
    data[p]? = some x := by
  obtain ⟨pre, rfl, rfl⟩ := h; simp

theorem At.next {data : Bytes} {p : Nat} {a s : Bytes} (h : At data p (a ++ s)) : At data (p + a.length) s := by
  obtain ⟨pre, rfl, rfl⟩ := h; exact ⟨pre ++ a, by simp, by simp⟩

theorem At.next1 {data : Bytes} {p : Nat} {x : UInt8} {s : Bytes} (h : At data p (x :: s)) : At data (p + 1) s :=
  At.next (a := [x]) h

theorem At.slice {data : Bytes} {p : Nat} {a s : Bytes} (h : At data p (a ++ s)) :
    slice data p (p + a.length) = a := by
  obtain ⟨pre, rfl, rfl⟩ := h
  have := slice_mid pre a s
  simpa using this

theorem At.of_le {data : Bytes} {p : Nat} (h : p ≤ data.length) : At data p (data.drop p) :=
  ⟨data.take p, by simp, by simp; omega⟩

theorem At.eq {data : Bytes} {p : Nat} {s t : Bytes} (h : At data p s) (h' : At data p t) : s = t := by
  obtain ⟨a, rfl, rfl⟩ := h
  obtain ⟨b, h1, h2⟩ := h'
  exact (List.append_inj h1 h2).2

/-! ## High tag numbers -/

/-- The grammar of the remaining tag octets when `acc` has been accumulated. -/
inductive VlqFrom : Nat → Bytes → Nat → Prop
  | last {acc : Nat} {x : UInt8} : x.toNat < 128 → VlqFrom acc [x] (acc * 128 + x.toNat)
  | more {acc : Nat} {x : UInt8} {gs : Bytes} {n : Nat} : 128 ≤ x.toNat → ¬ (x.toNat = 0x80 ∧ acc = 0) →
      VlqFrom (acc * 128 + x.toNat % 128) gs n → VlqFrom acc (x :: gs) n

theorem VlqFrom.spec {acc : Nat} {gs : Bytes} {n : Nat} (h : VlqFrom acc gs n) :
    ∃ init last, gs = init ++ [last] ∧ (∀ g ∈ init, 128 ≤ g.toNat) ∧ last.toNat < 128 ∧
      (acc = 0 → gs.head? ≠ some 0x80) ∧ n = acc * 128 ^ gs.length + val128 gs := by
  induction h with
  | @last acc x hx =>
    refine ⟨[], x, rfl, by simp, hx, ?_, ?_⟩
    · intro _ hc; simp at hc; subst hc; simp at hx
    · simp [val128]; omega
  | @more acc x gs n hx hne _ ih =>
    obtain ⟨init, last, rfl, h1, h2, h3, h4⟩ := ih
    refine ⟨x :: init, last, rfl, ?_, h2, ?_, ?_⟩
    · intro g hg
      rcases List.mem_cons.mp hg with rfl | hg
      · exact hx
      · exact h1 g hg
    · intro h0 hc
      simp at hc
      subst hc
      exact hne ⟨rfl, h0⟩
    · rw [h4]; simp only [val128, List.length_cons, Nat.pow_succ]; ring

theorem VlqFrom.of_spec (init : Bytes) (last : UInt8) : ∀ (acc : Nat),
    (∀ g ∈ init, 128 ≤ g.toNat) → last.toNat < 128 →
    (acc = 0 → (init ++ [last]).head? ≠ some 0x80) →
    VlqFrom acc (init ++ [last]) (acc * 128 ^ (init ++ [last]).length + val128 (init ++ [last])) := by
  induction init with
  | nil =>
    intro acc _ h2 _
    have := VlqFrom.last (acc := acc) h2
    simpa [val128, Nat.mod_eq_of_lt h2] using this
  | cons x xs ih =>
    intro acc h1 h2 h3
    have hx := h1 x (by simp)
    have hne : ¬ (x.toNat = 0x80 ∧ acc = 0) := by
      rintro ⟨hx0, h0⟩
      apply h3 h0
      simp
      apply UInt8.toNat_inj.mp; simpa using hx0
    have := ih (acc * 128 + x.toNat % 128) (fun g hg => h1 g (by simp [hg])) h2 (by
      intro h0
      exfalso; apply hne
      have := x.toNat_lt
      refine ⟨?_, ?_⟩ <;> omega)
    have h := VlqFrom.more hx hne this
    refine Eq.mp (congrArg _ ?_) h
    simp only [List.cons_append, val128, List.length_cons, Nat.pow_succ]
    ring

theorem vlqFrom_zero_iff (gs : Bytes) (n : Nat) : VlqFrom 0 gs n ↔ Vlq gs n := by
  constructor
  · intro h
    obtain ⟨init, last, h1, h2, h3, h4, h5⟩ := h.spec
    exact ⟨init, last, h1, h2, h3, h4 rfl, by omega⟩
  · rintro ⟨init, last, rfl, h2, h3, h4, rfl⟩
    have := VlqFrom.of_spec init last 0 h2 h3 (fun _ => h4)
    simpa using this

theorem tagLoop_complete {acc : Nat} {gs : Bytes} {n : Nat} (h : VlqFrom acc gs n) :
    ∀ {data : Bytes} {p : Nat} {s : Bytes}, At data p (gs ++ s) →
      tagLoop data data.length p acc = .ok (n, p + gs.length) := by
  induction h with
  | @last acc x hx =>
    intro data p s hat
    have hl := hat.len
    rw [tagLoop, dif_neg (by simp at hl; omega), hat.get]
    have h2 : ¬ (x.toNat = 0x80 ∧ acc = 0) := by omega
    simp only [and_127, shr_7]
    rw [if_neg h2, if_pos (by omega), Nat.mod_eq_of_lt hx]
    rfl
  | @more acc x gs n hx hne _ ih =>
    intro data p s hat
    have hl := hat.len
    rw [tagLoop, dif_neg (by simp at hl; omega), hat.get]
    simp only [and_127, shr_7]
    rw [if_neg hne, if_neg (by omega), ih hat.next1]
    simp; omega

theorem tagLoop_sound (s : Bytes) : ∀ {data : Bytes} {p : Nat} (acc : Nat), At data p s →
    match tagLoop data data.length p acc with
    | .ok (n, q) => ∃ gs rest, s = gs ++ rest ∧ VlqFrom acc gs n ∧ q = p + gs.length
    | .error e => e = .valueError := by
  induction s with
  | nil =>
    intro data p acc hat
    have hl := hat.len
    rw [tagLoop, dif_pos (by simp at hl; omega)]
  | cons x s ih =>
    intro data p acc hat
    have hl := hat.len
    rw [tagLoop, dif_neg (by simp at hl; omega), hat.get]
    simp only [and_127, shr_7]
    by_cases hne : x.toNat = 0x80 ∧ acc = 0
    · rw [if_pos hne]
    · rw [if_neg hne]
      by_cases hx : x.toNat < 128
      · rw [if_pos (by omega)]
        refine ⟨[x], s, rfl, ?_, by simp⟩
        rw [Nat.mod_eq_of_lt hx]
        exact .last hx
      · rw [if_neg (by omega)]
        have := ih (acc * 128 + x.toNat % 128) hat.next1
        revert this
        cases tagLoop data data.length (p + 1) (acc * 128 + x.toNat % 128) with
        | error e => exact id
        | ok r =>
          obtain ⟨n, q⟩ := r
          rintro ⟨gs, rest, rfl, hv, rfl⟩
          exact ⟨x :: gs, rest, rfl, .more (by omega) hne hv, by simp; omega⟩

/-! ## Identifier octets -/

theorem parseIdent_complete {id : Bytes} {c m t : Nat} (h : Ident id c m t) {data : Bytes} {p : Nat} {s : Bytes}
    (hat : At data p (id ++ s)) :
    ∃ first, parseIdent data data.length p = .ok (first, t, p + id.length) ∧
      first >>> 6 = c ∧ (first >>> 5) &&& 1 = m := by
  obtain ⟨hc, hm, h⟩ := h
  have hl := hat.len
  rcases h with ⟨ht, rfl⟩ | ⟨ht, gs, rfl, hv⟩
  · refine ⟨64 * c + 32 * m + t, ?_, ?_, ?_⟩
    · unfold parseIdent
      rw [if_neg (by simp at hl; omega), hat.get]
      simp only
      rw [toNat_ofNat_lt (by omega), and_31, if_neg (by omega)]
      simp; omega
    · rw [shr_6]; omega
    · rw [shr_5, and_1]; omega
  · refine ⟨64 * c + 32 * m + 31, ?_, ?_, ?_⟩
    · unfold parseIdent
      rw [if_neg (by simp at hl; omega), hat.get]
      simp only
      rw [toNat_ofNat_lt (by omega), and_31, if_pos (by omega),
        tagLoop_complete ((vlqFrom_zero_iff gs t).mpr hv) hat.next1]
      simp [bind, Except.bind, show ¬ t < 31 by omega]; omega
    · rw [shr_6]; omega
    · rw [shr_5, and_1]; omega

theorem parseIdent_sound {data : Bytes} {p : Nat} {s : Bytes} (hat : At data p s) :
    match parseIdent data data.length p with
    | .ok (first, t, q) => ∃ id rest, s = id ++ rest ∧ Ident id (first >>> 6) ((first >>> 5) &&& 1) t ∧
        q = p + id.length
    | .error e => e = .valueError := by
  unfold parseIdent
  have hl := hat.len
  cases s with
  | nil => rw [if_pos (by simp at hl; omega)]
  | cons x s =>
    rw [if_neg (by simp at hl; omega), hat.get]
    have hx := x.toNat_lt
    have hof : UInt8.ofNat x.toNat = x := by simp
    simp only [and_31]
    by_cases h31 : x.toNat % 32 = 31
    · rw [if_pos h31]
      have := tagLoop_sound s 0 hat.next1
      revert this
      cases tagLoop data data.length (p + 1) 0 with
      | error e => exact id
      | ok r =>
        obtain ⟨n, q⟩ := r
        rintro ⟨gs, rest, rfl, hv, rfl⟩
        simp only [bind, Except.bind]
        by_cases hn : n < 31
        · rw [if_pos hn]
        · rw [if_neg hn]
          refine ⟨x :: gs, rest, rfl, ⟨?_, ?_, Or.inr ⟨by omega, gs, ?_, (vlqFrom_zero_iff gs n).mp hv⟩⟩, by simp; omega⟩
          · rw [shr_6]; omega
          · rw [shr_5, and_1]; omega
          · rw [shr_6, shr_5, and_1]
            rw [show 64 * (x.toNat / 64) + 32 * (x.toNat / 32 % 2) + 31 = x.toNat by omega, hof]
    · rw [if_neg h31]
      refine ⟨[x], s, rfl, ⟨?_, ?_, Or.inl ⟨by omega, ?_⟩⟩, by simp⟩
      · rw [shr_6]; omega
      · rw [shr_5, and_1]; omega
      · rw [shr_6, shr_5, and_1]
        rw [show 64 * (x.toNat / 64) + 32 * (x.toNat / 32 % 2) + x.toNat % 32 = x.toNat by omega, hof]

/-! ## Length octets -/

/-- The result of `_parse` at offset `start` on a value `v`. -/
def rawOf (start : Nat) (v : TLV) : Raw :=
  { cls := v.cls, constructed := v.method, tag := v.tag, start, hdrEnd := start + v.header.length,
    contentsEnd := start + v.bytes.length, trailer := v.trailer }

theorem Ident_ne_nil {id : Bytes} {c m t : Nat} (h : Ident id c m t) : id ≠ [] := by
  rcases h.2.2 with ⟨_, rfl⟩ | ⟨_, gs, rfl, _⟩ <;> simp

theorem DefLen_ne_nil {l : Bytes} {n : Nat} (h : DefLen l n) : l ≠ [] := by
  rcases h with ⟨_, rfl⟩ | ⟨_, _, _, rfl, _⟩ <;> simp

theorem Ber_two_le {n : Nat} {v : TLV} (h : Ber n v) : 2 ≤ v.bytes.length := by
  cases h with
  | definite hi hl =>
    have := List.length_pos_iff.mpr (Ident_ne_nil hi)
    have := List.length_pos_iff.mpr (DefLen_ne_nil hl)
    simp [TLV.bytes]; omega
  | indefinite vs hi => simp [TLV.bytes]; omega

theorem eocLoop_complete (step : Nat → Py Nat) {data : Bytes} (vs : List TLV)
    (hne : ∀ v ∈ vs, ¬ [0, 0] <+: v.bytes) (h2 : ∀ v ∈ vs, 2 ≤ v.bytes.length)
    (hstep : ∀ v ∈ vs, ∀ q s', At data q (v.bytes ++ s') → step q = .ok (q + v.bytes.length)) :
    ∀ (p : Nat) (rest : Bytes) (fuel : Nat), At data p ((vs.map TLV.bytes).flatten ++ 0 :: 0 :: rest) →
    (vs.map TLV.bytes).flatten.length < fuel →
    eocLoop data data.length step fuel p = .ok (p + (vs.map TLV.bytes).flatten.length) := by
  induction vs with
  | nil =>
    intro p rest fuel hat hf
    have hl := hat.len
    cases fuel with
    | zero => simp at hf
    | succ fuel =>
      have hs : slice data p (p + 2) = [0, 0] := At.slice (a := [0, 0]) (s := rest) hat
      simp only [eocLoop, hs]
      rw [if_neg (by simp at hl ⊢; omega)]
      simp
  | cons v vs ih =>
    intro p rest fuel hat hf
    cases fuel with
    | zero => simp at hf
    | succ fuel =>
      have h2v := h2 v (by simp)
      simp only [List.map_cons, List.flatten_cons, List.append_assoc] at hat
      simp only [eocLoop]
      rw [if_pos]
      · rw [hstep v (by simp) p _ hat]
        simp only [bind, Except.bind]
        rw [ih (fun w hw => hne w (by simp [hw])) (fun w hw => h2 w (by simp [hw]))
          (fun w hw => hstep w (by simp [hw])) _ rest fuel hat.next (by simp at hf ⊢; omega)]
        simp; omega
      · right
        intro hs
        apply hne v (by simp)
        obtain ⟨a, b, tl, hb⟩ : ∃ a b tl, v.bytes = a :: b :: tl := by
          match hvb : v.bytes with
          | [] => simp [hvb] at h2v
          | [_] => simp [hvb] at h2v
          | a :: b :: tl => exact ⟨a, b, tl, rfl⟩
        rw [hb] at hat
        have : slice data p (p + 2) = [a, b] := At.slice (a := [a, b]) (s := tl ++ _) hat
        rw [hs] at this
        rw [hb]
        injection this with h1 h2
        injection h2 with h2 _
        subst h1; subst h2
        exact ⟨tl, rfl⟩

theorem parseLength_def_complete {len : Bytes} {n : Nat} (h : DefLen len n) (m : Nat) (step : Nat → Py Nat)
    {data : Bytes} {p : Nat} {s : Bytes} (hat : At data p (len ++ s)) :
    parseLength data data.length m step p = .ok (p + len.length, p + len.length + n, []) := by
  unfold parseLength
  have hl := hat.len
  rcases h with ⟨hn, rfl⟩ | ⟨ds, hne, hd, rfl, rfl⟩
  · rw [if_neg (by simp at hl; omega), hat.get]
    simp only
    rw [toNat_ofNat_lt (by omega), shr_7, and_127, if_pos (by omega), Nat.mod_eq_of_lt hn]
    simp
  · rw [if_neg (by simp at hl; omega), hat.get]
    simp only
    have hpos : 0 < ds.length := List.length_pos_iff.mpr hne
    simp only [List.cons_append, List.length_cons, List.length_append] at hl
    rw [toNat_ofNat_lt (by omega), shr_7, and_127, if_neg (by omega), if_pos (by omega), if_neg (by omega)]
    have e : (128 + ds.length) % 128 = ds.length := by omega
    have := hat.next1.slice
    rw [e, show p + 1 + ds.length - ds.length = p + 1 by omega, this, intFromBytes_unsigned]
    simp; omega

/-- Completeness: every value of the grammar, followed by anything, is parsed to itself. -/
theorem parseAt_complete {b : Nat} {v : TLV} (h : Ber b v) : ∀ {data : Bytes} {p : Nat} {s : Bytes},
    At data p (v.bytes ++ s) → parseAt data data.length b p = .ok (rawOf p v) := by
  induction h with
  | @definite n c m t id len contents hi hl =>
    intro data p s hat
    simp only [TLV.bytes, List.append_assoc, List.nil_append] at hat
    obtain ⟨first, hp, hc, hm⟩ := parseIdent_complete hi hat
    have hlen := hat.len
    simp only [parseAt, hp, bind, Except.bind, hm]
    rw [parseLength_def_complete hl _ _ hat.next]
    simp only
    rw [if_neg (by simp at hlen; omega)]
    simp [rawOf, TLV.bytes, hc]
    omega
  | @indefinite n c t id vs hi hv hne ih =>
    intro data p s hat
    generalize hw : (vs.map TLV.bytes).flatten = w at hat
    simp only [TLV.bytes, List.append_assoc, List.cons_append, List.nil_append] at hat
    obtain ⟨first, hp, hc, hm⟩ := parseIdent_complete hi hat
    have hlen := hat.len
    have h80 := hat.next
    simp only [List.length_append, List.length_cons] at hlen
    simp only [parseAt, hp, bind, Except.bind, hm]
    unfold parseLength
    rw [if_neg (by omega), h80.get]
    simp (config := { decide := true }) only [if_false, if_true]
    rw [eocLoop_complete _ vs hne (fun v h => Ber_two_le (hv v h)) (by
        intro v hvm q s' hq
        simp only [ih v hvm hq]
        rfl) (p + id.length + 1) s (data.length + 1 - (p + id.length + 1)) (by rw [hw]; exact h80.next1)
        (by rw [hw]; omega)]
    rw [hw]
    simp only [pure, Except.pure, bind, Except.bind]
    rw [if_neg (by omega)]
    simp [rawOf, TLV.bytes, hc]
    omega

/-! ## Soundness -/

theorem eocLoop_sound (step : Nat → Py Nat) {data : Bytes} {b : Nat}
    (hstep : ∀ q s, At data q s → match step q with
      | .ok e => ∃ (v : TLV) (rest : Bytes), s = v.bytes ++ rest ∧ Ber b v ∧ e = q + v.bytes.length
      | .error e => e = .valueError) :
    ∀ (fuel p : Nat) (s : Bytes), At data p s → s.length < fuel →
    match eocLoop data data.length step fuel p with
    | .ok e => ∃ (vs : List TLV) (rest : Bytes), s = (vs.map TLV.bytes).flatten ++ 0 :: 0 :: rest ∧ (∀ v ∈ vs, Ber b v) ∧
        (∀ v ∈ vs, ¬ [0, 0] <+: v.bytes) ∧ e = p + (vs.map TLV.bytes).flatten.length
    | .error e => e = .valueError := by
  intro fuel
  induction fuel with
  | zero => intro p s _ h; omega
  | succ fuel ih =>
    intro p s hat hf
    have hl := hat.len
    simp only [eocLoop]
    by_cases hc : data.length < p + 2 ∨ slice data p (p + 2) ≠ [0, 0]
    · rw [if_pos hc]
      have hs := hstep p s hat
      revert hs
      cases step p with
      | error e => exact id
      | ok e =>
        rintro ⟨v, rest, rfl, hv, rfl⟩
        simp only [bind, Except.bind]
        have h2 := Ber_two_le hv
        have := ih (p + v.bytes.length) rest hat.next (by simp at hf; omega)
        revert this
        cases eocLoop data data.length step fuel (p + v.bytes.length) with
        | error e => exact id
        | ok e =>
          rintro ⟨vs, rest', rfl, h3, h4, rfl⟩
          refine ⟨v :: vs, rest', by simp, ?_, ?_, by simp; omega⟩
          · intro w hw
            rcases List.mem_cons.mp hw with rfl | hw
            · exact hv
            · exact h3 w hw
          · intro w hw
            rcases List.mem_cons.mp hw with rfl | hw
            · rintro ⟨tl, htl⟩
              rw [← htl] at hat hl
              rcases hc with hc | hc
              · simp at hl; omega
              · apply hc
                have := At.slice (a := [0, 0]) (s := tl ++ ((vs.map TLV.bytes).flatten ++ 0 :: 0 :: rest'))
                  (by simpa using hat)
                simpa using this
            · exact h4 w hw
    · rw [if_neg hc]
      have hc1 : ¬ data.length < p + 2 := fun h => hc (Or.inl h)
      have hc2 : slice data p (p + 2) = [0, 0] := by
        by_contra h
        exact hc (Or.inr h)
      match s, hat, hl with
      | [], _, hl => simp at hl; omega
      | [_], _, hl => simp at hl; omega
      | a :: c :: tl, hat, _ =>
        have : slice data p (p + 2) = [a, c] := At.slice (a := [a, c]) (s := tl) hat
        rw [hc2] at this
        injection this with h1 h2
        injection h2 with h2 _
        subst h1; subst h2
        exact ⟨[], tl, by simp, by simp, by simp, by simp⟩

theorem split_at_length {l : Bytes} {n : Nat} (h : n ≤ l.length) :
    ∃ a b, l = a ++ b ∧ a.length = n := ⟨l.take n, l.drop n, by simp, by simp; omega⟩

/-- Soundness: whatever `_parse` returns is a value of the grammar found at that offset; the only
exception is `ValueError`. -/
theorem parseAt_sound : ∀ (b : Nat) {data : Bytes} {p : Nat} {s : Bytes}, At data p s →
    match parseAt data data.length b p with
    | .ok r => ∃ v rest, s = v.bytes ++ rest ∧ Ber b v ∧ r = rawOf p v
    | .error e => e = .valueError := by
  intro b
  induction b with
  | zero => intro data p s _; simp [parseAt]
  | succ b ih =>
    intro data p s hat
    simp only [parseAt]
    have hi := parseIdent_sound hat
    revert hi
    cases parseIdent data data.length p with
    | error e => exact id
    | ok r =>
      obtain ⟨first, t, q⟩ := r
      rintro ⟨id, rest, rfl, hid, rfl⟩
      have hat2 := hat.next
      simp only [bind, Except.bind]
      unfold parseLength
      cases rest with
      | nil =>
        have hl := hat2.len
        rw [if_pos (by simp at hl; omega)]
      | cons x s =>
        have hl := hat2.len
        simp only [List.length_cons] at hl
        rw [if_neg (by omega), hat2.get]
        simp only [shr_7, and_127]
        have hx := x.toNat_lt
        have hof : UInt8.ofNat x.toNat = x := by simp
        by_cases h0 : x.toNat / 128 = 0
        · rw [if_pos h0]
          simp only
          by_cases hle : p + id.length + 1 + x.toNat % 128 > data.length
          · rw [if_pos hle]
          · rw [if_neg hle]
            obtain ⟨c, rest, rfl, hc⟩ := split_at_length (l := s) (n := x.toNat % 128) (by omega)
            have hx' : x.toNat % 128 = x.toNat := by omega
            refine ⟨⟨first >>> 6, (first >>> 5) &&& 1, t, id ++ [x], c, []⟩, rest, ?_, ?_, ?_⟩
            · simp [TLV.bytes]
            · exact .definite hid (Or.inl ⟨by omega, by rw [hc, hx', hof]⟩)
            · simp [rawOf, TLV.bytes, hc]; omega
        · rw [if_neg h0]
          by_cases hn : x.toNat % 128 = 0
          · simp only [hn, ne_eq, not_true_eq_false, if_false]
            by_cases hcon : (first >>> 5) &&& 1 = 0
            · rw [if_pos hcon]
            · rw [if_neg hcon]
              have hm1 : (first >>> 5) &&& 1 = 1 := by
                rw [and_1] at hcon ⊢; omega
              have hx80 : x = 0x80 := by
                apply UInt8.toNat_inj.mp
                simp; omega
              have hloop := eocLoop_sound (b := b)
                (fun p => (do let r ← parseAt data data.length b p; pure r.contentsEnd : Py Nat)) (data := data) (by
                  intro q s' hq
                  have := ih hq
                  revert this
                  simp only [bind, Except.bind]
                  cases parseAt data data.length b q with
                  | error e => exact fun h => h
                  | ok r =>
                    rintro ⟨v, rest, rfl, hv, rfl⟩
                    exact ⟨v, rest, rfl, hv, rfl⟩) (data.length + 1 - (p + id.length + 1)) (p + id.length + 1) s
                  hat2.next1 (by omega)
              revert hloop
              simp only [bind, Except.bind]
              cases eocLoop data data.length _ (data.length + 1 - (p + id.length + 1)) (p + id.length + 1) with
              | error e => exact fun h => h
              | ok e =>
                rintro ⟨vs, rest, rfl, h1, h2, rfl⟩
                simp only [pure, Except.pure]
                simp only [List.length_append, List.length_cons] at hl
                rw [if_neg (by omega)]
                rw [hm1] at hid ⊢
                refine ⟨⟨first >>> 6, 1, t, id ++ [0x80], (vs.map TLV.bytes).flatten, [0, 0]⟩, rest, ?_, ?_, ?_⟩
                · simp [TLV.bytes, hx80]
                · exact .indefinite vs hid h1 h2
                · simp [rawOf, TLV.bytes]; omega
          · rw [if_pos hn]
            by_cases hin : data.length < p + id.length + 1 + x.toNat % 128
            · rw [if_pos hin]
            · rw [if_neg hin]
              obtain ⟨ds, s', rfl, hds⟩ := split_at_length (l := s) (n := x.toNat % 128) (by omega)
              have hsl := hat2.next1.slice
              rw [hds] at hsl
              simp only [Nat.add_sub_cancel, hsl, intFromBytes_unsigned, Int.toNat_natCast]
              simp only [List.length_append] at hl
              by_cases hle : p + id.length + 1 + x.toNat % 128 + valU ds > data.length
              · rw [if_pos hle]
              · rw [if_neg hle]
                obtain ⟨c, rest, rfl, hc⟩ := split_at_length (l := s') (n := valU ds) (by omega)
                refine ⟨⟨first >>> 6, (first >>> 5) &&& 1, t, id ++ (x :: ds), c, []⟩, rest, ?_, ?_, ?_⟩
                · simp [TLV.bytes]
                · refine .definite hid (Or.inr ⟨ds, ?_, by omega, ?_, hc.symm⟩)
                  · intro h; rw [h] at hds; simp at hds; omega
                  · rw [hds, show 128 + x.toNat % 128 = x.toNat by omega, hof]
                · simp [rawOf, TLV.bytes, hc, hds]; omega

end Asn1
