import Verif.Lemmas.StrRead
import Verif.Props.C06

/-! # C14 — integer-valued octet and bit strings keep value and width -/

namespace Asn1.Props
open Asn1 Spec

theorem intOct_set_spec (o : IntOctObj) (n : Nat) (hw : ∀ w, o.width = some w → n < 256 ^ w) :
    ∃ c, IntegerOctetString.set o n = .ok { o with toObj := strPut o.toObj n c } ∧ valU c = n ∧
      ∀ w, o.width = some w → c.length = w := by
  cases hwo : o.width with
  | none =>
    have hv : valU (beBytes (byteWidth (bitLength n)) n) = n := by
      rw [valU_beBytes, Nat.mod_eq_of_lt (byteWidth_bitLength_fits n)]
    refine ⟨_, ?_, hv, by simp⟩
    unfold IntegerOctetString.set
    rw [if_neg (by omega), hwo, intToBytes_unsigned n]
    rfl
  | some w =>
    have hlt := hw w hwo
    refine ⟨beBytes w n, ?_, by rw [valU_beBytes, Nat.mod_eq_of_lt hlt], ?_⟩
    · unfold IntegerOctetString.set
      rw [if_neg (by omega), hwo, (C06_unsigned_width n w (beBytes w n)).mpr
        ⟨beBytes_length _ _, by rw [valU_beBytes, Nat.mod_eq_of_lt hlt]⟩]
      rfl
    · intro w' h; injection h with h; rw [← h, beBytes_length]

/-- `IntegerOctetString(n).native == n`, the contents write `n` in unsigned big-endian. -/
theorem C14_octet_set (p : Obj Nat) (n : Nat) :
    ∃ o c, IntegerOctetString.set { toObj := p } n = .ok o ∧ IntegerOctetString.native o = .ok (some n, o) ∧
      o.contents = some c ∧ valU c = n ∧ o.width = none := by
  obtain ⟨c, h1, h2, _⟩ := intOct_set_spec { toObj := p } n (by simp)
  exact ⟨_, c, h1, rfl, rfl, h2, rfl⟩

/-- Dump and load gives the number back, under any tagging. -/
theorem C14_octet_dump_load (p : Obj Nat) (o o1 : IntOctObj) (n : Nat) (bytes : Bytes) (strict : Bool) (w : Option Nat)
    (hp : Blank p) (hs : IntegerOctetString.set { toObj := p, width := w } n = .ok o)
    (hd : IntegerOctetString.dump o = .ok (bytes, o1)) (hf : Fits bytes) :
    ∃ o2 o3, IntegerOctetString.load p bytes strict = .ok o2 ∧ IntegerOctetString.native o2 = .ok (some n, o3) ∧
      o2.contents = o.contents := by
  unfold IntegerOctetString.set at hs
  rw [if_neg (by omega)] at hs
  cases hc : intToBytes (n : Int) false w with
  | error e => simp only [hc] at hs; cases hs
  | ok c =>
    simp only [hc] at hs
    injection hs with hs
    subst hs
    have hv : valU c = n := by
      cases w with
      | none =>
        rw [intToBytes_unsigned n] at hc
        injection hc with hc
        rw [← hc, valU_beBytes, Nat.mod_eq_of_lt (byteWidth_bitLength_fits n)]
      | some w =>
        have := ((C06_unsigned_width n w c).mp hc).2
        exact_mod_cast this
    rw [IntegerOctetString.dump_fresh rfl] at hd
    obtain ⟨⟨b, o'⟩, ha, hb⟩ := bind_dump_ok hd
    injection hb with hb _
    subst hb
    simp only [Int.toNat_natCast] at ha
    rw [strPut_blank hp] at ha
    obtain ⟨h, _, hl⟩ := load_dump_put (bad := []) hp strict ha hf
    have hind : (p.loaded h c).indefinite = false := by
      change p.indefinite = false
      rw [hp.isProto]; rfl
    have hnat : IntegerOctetString.native { toObj := p.loaded h c } = .ok (some n, { toObj := { p.loaded h c with native := some n } }) := by
      unfold IntegerOctetString.native
      simp only [show (p.loaded h c).contents = some c from rfl, show (p.loaded h c).native = none from rfl, hind, mergeObj_false,
        OctetString.asChunk, bind, Except.bind, pure, Except.pure, intFromBytes_unsigned, Int.toNat_natCast, hv]
    refine ⟨{ toObj := p.loaded h c }, _, ?_, hnat, rfl⟩
    unfold IntegerOctetString.load
    rw [hl]
    rfl

/-- `set_encoded_width(w)`: if the value fits in `w` octets, the contents become exactly `w` octets with the same value
and later settings keep that width; `native` is unchanged. `o` is any primitive-form value (set or loaded). -/
theorem C14_width_fits (o o' : IntOctObj) (n w : Nat) (hind : o.indefinite = false)
    (hcons : ∀ c, o.contents = some c → valU c = n) (hset : o.contents ≠ none)
    (hn : IntegerOctetString.native o = .ok (some n, o')) (hf : n < 256 ^ w) :
    ∃ o2 o3 c, IntegerOctetString.setEncodedWidth o w = .ok o2 ∧ o2.contents = some c ∧ c.length = w ∧ valU c = n ∧
      IntegerOctetString.native o2 = .ok (some n, o3) ∧ o2.width = some w := by
  obtain ⟨c, hc⟩ := Option.ne_none_iff_exists'.mp hset
  have hv := hcons c hc
  have hnat : ∃ o3, IntegerOctetString.native { o with width := some w } = .ok (some n, o3) ∧ o3.width = some w := by
    unfold IntegerOctetString.native at hn ⊢
    simp only [hc] at hn ⊢
    cases hon : o.native with
    | some k =>
      simp only [hon] at hn ⊢
      injection hn with hn
      injection hn with hn _
      rw [hn]
      exact ⟨_, rfl, rfl⟩
    | none =>
      simp only [hon, hind, mergeObj_false, OctetString.asChunk, bind, Except.bind, pure, Except.pure] at hn ⊢
      injection hn with hn
      injection hn with hn _
      rw [hn]
      exact ⟨_, rfl, rfl⟩
  obtain ⟨o3, hnat, hw3⟩ := hnat
  unfold IntegerOctetString.setEncodedWidth
  simp only [hc]
  by_cases hl : c.length ≠ w
  · rw [if_pos hl, hnat]
    simp only [bind, Except.bind]
    obtain ⟨c', h1, h2, h3⟩ := intOct_set_spec o3 n (by intro w' h'; rw [hw3] at h'; injection h' with h'; rw [← h']; exact hf)
    exact ⟨_, _, c', h1, rfl, h3 w hw3, h2, rfl, hw3⟩
  · rw [if_neg hl]
    exact ⟨_, o3, c, rfl, hc, by omega, hv, hnat, rfl⟩

/-- If the value does not fit, an error is raised. -/
theorem C14_width_overflow (o o' : IntOctObj) (n w : Nat) (hcons : ∀ c, o.contents = some c → valU c = n)
    (hset : o.contents ≠ none) (hind : o.indefinite = false)
    (hn : IntegerOctetString.native o = .ok (some n, o')) (hf : 256 ^ w ≤ n) :
    IntegerOctetString.setEncodedWidth o w = .error .overflowError := by
  obtain ⟨c, hc⟩ := Option.ne_none_iff_exists'.mp hset
  have hv := hcons c hc
  have hl : c.length ≠ w := by
    rintro rfl
    have := valU_lt c
    omega
  have hnat : ∃ o3, IntegerOctetString.native { o with width := some w } = .ok (some n, o3) ∧ o3.width = some w := by
    unfold IntegerOctetString.native at hn ⊢
    simp only [hc] at hn ⊢
    cases hon : o.native with
    | some k =>
      simp only [hon] at hn ⊢
      injection hn with hn
      injection hn with hn _
      rw [hn]
      exact ⟨_, rfl, rfl⟩
    | none =>
      simp only [hon, hind, mergeObj_false, OctetString.asChunk, bind, Except.bind, pure, Except.pure] at hn ⊢
      injection hn with hn
      injection hn with hn _
      rw [hn]
      exact ⟨_, rfl, rfl⟩
  obtain ⟨o3, hnat, hw3⟩ := hnat
  unfold IntegerOctetString.setEncodedWidth
  simp only [hc]
  rw [if_pos hl, hnat]
  simp only [bind, Except.bind]
  unfold IntegerOctetString.set
  rw [if_neg (by omega), hw3, C06_width_overflow n w false]
  · rfl
  · intro bs hbs
    have := valU_lt bs
    rw [hbs] at this
    simp only [Bool.false_eq_true, if_false]
    omega

/-- Every later `set` writes exactly `w` octets. -/
theorem C14_width_kept (o : IntOctObj) (n w : Nat) (hw : o.width = some w) (hf : n < 256 ^ w) :
    ∃ o2 c, IntegerOctetString.set o n = .ok o2 ∧ o2.contents = some c ∧ c.length = w ∧ valU c = n ∧ o2.width = some w := by
  obtain ⟨c, h1, h2, h3⟩ := intOct_set_spec o n (by intro w' h'; rw [hw] at h'; injection h' with h'; rw [← h']; exact hf)
  exact ⟨_, c, h1, rfl, h3 w hw, h2, hw⟩

/-- `IntegerBitString` round trips every natural number. -/
theorem C14_int_bits (p : Obj Nat) (n : Nat) :
    ∃ o, IntegerBitString.set { toObj := p } n = .ok o ∧ IntegerBitString.native o = .ok (some n, o) ∧
      ∀ (bytes : Bytes) (o1 : BitObj Nat) (strict : Bool), Blank p → IntegerBitString.dump o = .ok (bytes, o1) → Fits bytes →
        ∃ o2 o3, IntegerBitString.load p bytes strict = .ok o2 ∧ IntegerBitString.native o2 = .ok (some n, o3) := by
  have hset : ∃ c, IntegerBitString.set { toObj := p } n = .ok { toObj := strPut p n (0 :: c), unused := [] } ∧ valU c = n := by
    obtain ⟨h1, h2, h3⟩ := signedWidth_fits n
    have hb := intToBytes_signed n
    refine ⟨beBytes (signedWidth n) (n % 256 ^ signedWidth n : Int).toNat, ?_, ?_⟩
    · unfold IntegerBitString.set
      rw [if_neg (by omega), hb]
      rfl
    · have hvs := valS_beBytes _ _ h3 h1 h2
      generalize hbs : beBytes _ _ = bs at hvs
      have key : ∀ (bs : Bytes) (k : Nat), valS bs = (k : Int) → valU bs = k := by
        intro bs k hvs
        cases bs with
        | nil => simp [valS] at hvs; simp [valU]; omega
        | cons x xs =>
          rw [valS] at hvs
          split at hvs
          · exact_mod_cast hvs
          · have := valU_lt (x :: xs)
            rw [List.length_cons] at this
            have h256 : ((valU (x :: xs) : Nat) : Int) < 256 ^ (xs.length + 1) := by exact_mod_cast this
            omega
      exact key bs n hvs
  obtain ⟨c, hs, hv⟩ := hset
  refine ⟨_, hs, rfl, ?_⟩
  intro bytes o1 strict hp hd hf
  rw [IntegerBitString.dump_fresh rfl] at hd
  obtain ⟨⟨b, o'⟩, ha, hb⟩ := bind_dump_ok hd
  injection hb with hb _
  subst hb
  rw [strPut_blank hp] at ha
  obtain ⟨h, _, hl⟩ := load_dump_put (bad := []) hp strict ha hf
  have hind : p.indefinite = false := by rw [hp.isProto]; rfl
  obtain ⟨o3, h3⟩ := (IntegerBitString.native_iff { toObj := p.loaded h (0 :: c) } (0 :: c) rfl rfl n).mpr (by
    change ∃ bits, BitsMean p.indefinite (0 :: c) bits ∧ _
    rw [hind]
    exact ⟨bitsOf c, BitLeaf_zero c, by rw [valBits_bitsOf, hv]⟩)
  refine ⟨_, o3, ?_, h3⟩
  unfold IntegerBitString.load
  rw [hl]
  rfl

/-- `OctetBitString` round trips every byte string. -/
theorem C14_octet_bits (p : Obj Bytes) (b : Bytes) :
    ∃ o, OctetBitString.set { toObj := p } b = .ok o ∧ OctetBitString.native o = .ok (some b, o) ∧
      o.contents = some (0 :: b) ∧
      ∀ (bytes : Bytes) (o1 : BitObj Bytes) (strict : Bool), Blank p → OctetBitString.dump o = .ok (bytes, o1) → Fits bytes →
        ∃ o2 o3, OctetBitString.load p bytes strict = .ok o2 ∧ OctetBitString.native o2 = .ok (some b, o3) := by
  refine ⟨_, rfl, rfl, rfl, ?_⟩
  intro bytes o1 strict hp hd hf
  rw [OctetBitString.dump_fresh rfl] at hd
  obtain ⟨⟨x, o'⟩, ha, hb⟩ := bind_dump_ok hd
  injection hb with hb _
  subst hb
  unfold bitPut at ha
  rw [strPut_blank hp] at ha
  obtain ⟨h, _, hl⟩ := load_dump_put (bad := []) hp strict ha hf
  have hind : (p.loaded h (0 :: b)).indefinite = false := by
    change p.indefinite = false
    rw [hp.isProto]; rfl
  have hnat : ∃ o3, OctetBitString.native { toObj := p.loaded h (0 :: b) } = .ok (some b, o3) := by
    unfold OctetBitString.native
    simp only [show (p.loaded h (0 :: b)).contents = some (0 :: b) from rfl, show (p.loaded h (0 :: b)).native = none from rfl, hind]
    exact ⟨_, rfl⟩
  obtain ⟨o3, hnat⟩ := hnat
  refine ⟨_, o3, ?_, hnat⟩
  unfold OctetBitString.load
  rw [hl]
  rfl

/-- Negative numbers are refused with `ValueError`. -/
theorem C14_negative (o : IntOctObj) (q : BitObj Nat) (n : Int) (h : n < 0) :
    IntegerOctetString.set o n = .error .valueError ∧ IntegerBitString.set q n = .error .valueError := by
  constructor
  · unfold IntegerOctetString.set; rw [if_pos h]
  · unfold IntegerBitString.set; rw [if_pos h]

/-- Non-vacuity: widen, then dump. -/
example : (do
    let o ← IntegerOctetString.set IntegerOctetString.new 258
    let o ← IntegerOctetString.setEncodedWidth o 4
    let (b, _) ← IntegerOctetString.dump o
    pure b : Py Bytes) = .ok [0x04, 0x04, 0, 0, 1, 2] := by decide +kernel

example : (do
    let o ← IntegerOctetString.set IntegerOctetString.new 258
    IntegerOctetString.setEncodedWidth o 1) = .error .overflowError := by decide +kernel

example : (do
    let o ← IntegerBitString.set IntegerBitString.new 200
    let (b, _) ← IntegerBitString.dump o
    pure b : Py Bytes) = .ok [0x03, 0x03, 0x00, 0x00, 0xc8] := by decide +kernel

end Asn1.Props
