import Verif.Props.C30
import Verif.Lemmas.Obj

/-!
# C31 — `IPAddress`

The network functions are a parameter (`Inet`): `_inet.py` on Windows, `socket` elsewhere. `NetAddr` says that the pair of
functions maps the text `t` and the packed address `a` to each other; it is proved for `_inet.py` below.
-/

namespace Asn1.Props
open Asn1 Spec

/-- Number of bits of an address. -/
def Family.size : Family → Nat
  | .inet => 32
  | .inet6 => 128

/-- `t` is the text of the packed address `a`. -/
structure NetAddr (net : Inet) (f : Family) (t : Str) (a : Bytes) : Prop where
  pton : net.pton f t = .ok a
  ntop : net.ntop f a = .ok t
  length : a.length = Family.size f / 8
  noSlash : '/' ∉ t
  colon : ':' ∈ t ↔ f = .inet6

/-- A mask with `n` leading ones: of the full length, and as a number `2^size - 2^(size-n)`. -/
def Mask (size n : Nat) (m : Bytes) : Prop := m.length = size / 8 ∧ valU m + 2 ^ (size - n) = 2 ^ size

/-- The text with an optional `/n`. -/
def cidrText (t : Str) : Option Nat → Str
  | none => t
  | some n => t ++ '/' :: pyStrNat n

theorem bitsVal_append (a b : List Bool) : bitsVal (a ++ b) = bitsVal a * 2 ^ b.length + bitsVal b := by
  have : ∀ (b : List Bool) (acc : Nat), b.foldl (fun acc x => acc * 2 + (if x then 1 else 0)) acc = acc * 2 ^ b.length + bitsVal b := by
    intro b
    induction b with
    | nil => intro acc; simp [bitsVal]
    | cons x xs ih =>
      intro acc
      unfold bitsVal
      simp only [List.foldl_cons, ih, List.length_cons, Nat.pow_succ]
      ring
  unfold bitsVal
  rw [List.foldl_append, this]
  rfl

theorem bitsVal_ones (n : Nat) : bitsVal (List.replicate n true) + 1 = 2 ^ n := by
  induction n with
  | zero => rfl
  | succ n ih =>
    rw [List.replicate_succ', bitsVal_append]
    simp only [List.length_singleton, Nat.pow_one]
    have : bitsVal [true] = 1 := rfl
    rw [this, Nat.pow_succ]; omega

theorem bitsVal_zeros (n : Nat) : bitsVal (List.replicate n false) = 0 := by
  induction n with
  | zero => rfl
  | succ n ih =>
    rw [List.replicate_succ', bitsVal_append, ih]; rfl

theorem mask_val {size n : Nat} (hn : n ≤ size) :
    bitsVal (List.replicate n true ++ List.replicate (size - n) false) + 2 ^ (size - n) = 2 ^ size := by
  rw [bitsVal_append, bitsVal_zeros, List.length_replicate, Nat.add_zero]
  have := bitsVal_ones n
  calc bitsVal (List.replicate n true) * 2 ^ (size - n) + 2 ^ (size - n)
      = (bitsVal (List.replicate n true) + 1) * 2 ^ (size - n) := by ring
    _ = 2 ^ size := by rw [this, ← Nat.pow_add]; congr 1; omega

/-- The mask written is the mask with `n` leading ones. -/
theorem cidrBytes_mask {size n : Nat} (h8 : size % 8 = 0) (hs : 0 < size) (hn : n ≤ size) : ∃ m, cidrBytes size n = .ok m ∧ Mask size n m := by
  have hv := mask_val hn
  unfold cidrBytes
  generalize bitsVal (List.replicate n true ++ List.replicate (size - n) false) = v at hv ⊢
  rw [intToBytes_unsigned]
  refine ⟨_, rfl, ?_⟩
  have hlt : v < 256 ^ (size / 8) := by
    rw [pow256, show 8 * (size / 8) = size by omega]
    have := Nat.two_pow_pos (size - n)
    omega
  have hw := byteWidth_bitLength_min v (size / 8) (by omega) hlt
  refine ⟨?_, ?_⟩
  · simp; omega
  · rw [valU_append, valU_replicate_zero, valU_beBytes, Nat.mod_eq_of_lt (byteWidth_bitLength_fits v)]
    omega

theorem pyBin_ones (n : Nat) (hn : 0 < n) : pyBin (2 ^ n - 1) = List.replicate n true := by
  induction n with
  | zero => omega
  | succ n ih =>
    rw [pyBin]
    split
    · next h =>
      have h2 := Nat.two_pow_pos n
      have : n = 0 := by
        by_contra hne
        have : 2 ^ 1 ≤ 2 ^ n := Nat.pow_le_pow_right (by decide) (by omega)
        rw [Nat.pow_succ] at h
        omega
      subst this; rfl
    · next h =>
      have h2 := Nat.two_pow_pos n
      have hpos : 0 < n := by
        rcases Nat.eq_zero_or_pos n with rfl | h'
        · simp at h
        · exact h'
      rw [Nat.pow_succ] at h ⊢
      have e1 : (2 ^ n * 2 - 1) / 2 = 2 ^ n - 1 := by omega
      have e2 : (2 ^ n * 2 - 1) % 2 = 1 := by omega
      rw [e1, e2, ih hpos, List.replicate_succ']
      rfl

theorem pyBin_shift (v : Nat) (hv : 0 < v) (m : Nat) : pyBin (v * 2 ^ m) = pyBin v ++ List.replicate m false := by
  induction m with
  | zero => simp
  | succ m ih =>
    have hp := Nat.two_pow_pos m
    have hpos : 0 < v * 2 ^ m := Nat.mul_pos hv hp
    rw [Nat.pow_succ, ← Nat.mul_assoc]
    generalize hw : v * 2 ^ m = w at *
    rw [pyBin, if_neg (by omega), Nat.mul_div_cancel _ (by decide), ih, List.replicate_succ', ← List.append_assoc]
    simp

/-- Reading the prefix length off a mask. -/
theorem cidrLen_mask {size n : Nat} (hn : n ≤ size) {m : Bytes} (hm : Mask size n m) : cidrLen m = n := by
  unfold cidrLen
  rw [pyFromBytesU_eq]
  have hv := hm.2
  rcases Nat.eq_zero_or_pos n with rfl | hpos
  · have : valU m = 0 := by rw [Nat.sub_zero] at hv; omega
    rw [this]; rw [pyBin]; rfl
  · have hval : valU m = (2 ^ n - 1) * 2 ^ (size - n) := by
      have : 2 ^ size = 2 ^ n * 2 ^ (size - n) := by rw [← Nat.pow_add]; congr 1; omega
      rw [Nat.sub_mul, ← this]; omega
    have hp1 : 0 < 2 ^ n - 1 := by
      have : 2 ^ 1 ≤ 2 ^ n := Nat.pow_le_pow_right (by decide) hpos
      omega
    rw [hval, pyBin_shift _ hp1, pyBin_ones n hpos, List.reverse_append, List.reverse_replicate, List.reverse_replicate]
    have hd : ∀ (k : Nat) (l : List Bool), (List.replicate k false ++ l).dropWhile (fun b => !b) = l.dropWhile (fun b => !b) := by
      intro k l
      induction k with
      | zero => rfl
      | succ k ih => simp [List.replicate_succ, ih]
    rw [hd]
    cases n with
    | zero => omega
    | succ n => simp [List.replicate_succ, List.dropWhile]

theorem splitSlash_text {t r : Str} (h : '/' ∉ t) : splitSlash (t ++ '/' :: r) = (t, r) := by
  have h1 : ∀ t : Str, '/' ∉ t → (t ++ '/' :: r).takeWhile (· ≠ '/') = t ∧ (t ++ '/' :: r).dropWhile (· ≠ '/') = '/' :: r := by
    intro t
    induction t with
    | nil => intro _; simp
    | cons x xs ih =>
      intro h
      simp only [List.mem_cons, not_or] at h
      have hx : x ≠ '/' := fun hh => h.1 hh.symm
      obtain ⟨ih1, ih2⟩ := ih h.2
      simp only [ne_eq, decide_not] at ih1 ih2
      simp [hx, ih1, ih2]
  obtain ⟨a, b⟩ := h1 t h
  unfold splitSlash
  rw [a, b]; rfl

section
variable (net : Inet) (f : Family) (t : Str) (a : Bytes)

/-- Setting the text of an address with an optional prefix length stores the address and the mask. -/
theorem C31_set (h : NetAddr net f t a) (o : Obj Str) (n : Option Nat) (hn : ∀ k ∈ n, k ≤ Family.size f) :
    ∃ m, ipSet net o (cidrText t n) = .ok (o.put (cidrText t n) (a ++ m)) ∧
      match n with
      | none => m = []
      | some k => Mask (Family.size f) k m := by
  have hcol : t.contains ':' = decide (f = .inet6) := by
    have := h.colon
    cases hf : f with
    | inet => rw [hf] at this; simp at this; simp [this]
    | inet6 => rw [hf] at this; simp at this; simp [this]
  have hfam : ipFamily t = (f, Family.size f) := by
    unfold ipFamily
    rw [hcol]; cases f <;> rfl
  cases n with
  | none =>
    refine ⟨[], ?_, rfl⟩
    have hs : t.contains '/' = false := by
      cases hc : t.contains '/' with
      | false => rfl
      | true => exact absurd (List.contains_iff_mem.mp hc) h.noSlash
    simp only [cidrText, ipSet, hs, Bool.false_eq_true, if_false, bind, Except.bind, hfam, h.pton]
    rw [if_neg (by omega)]
    rfl
  | some k =>
    have hk := hn k rfl
    obtain ⟨m, hm1, hm2⟩ := cidrBytes_mask (size := Family.size f) (n := k) (by cases f <;> rfl) (by cases f <;> decide) hk
    refine ⟨m, ?_, hm2⟩
    have hs : (t ++ '/' :: pyStrNat k).contains '/' = true := by simp
    simp only [cidrText, ipSet, hs, if_true, splitSlash_text h.noSlash, pyInt_pyStrNat, bind, Except.bind]
    rw [if_neg (by omega)]
    simp only [hfam, Int.toNat_natCast, hm1, h.pton]
    rw [if_neg (by omega)]
    rfl

/-- Reading stored bytes gives the text with the prefix length. -/
theorem C31_read (h : NetAddr net f t a) (n : Option Nat) (hn : ∀ k ∈ n, k ≤ Family.size f) (m : Bytes)
    (hm : match n with
      | none => m = []
      | some k => Mask (Family.size f) k m) : ipText net (a ++ m) = .ok (some (cidrText t n)) := by
  have hl := h.length
  cases n with
  | none =>
    have hm : m = [] := hm
    subst hm
    rw [List.append_nil]
    cases f with
    | inet =>
      have hl : a.length = 4 := hl
      simp [ipText, hl, List.take_of_length_le, h.ntop, bind, Except.bind, cidrText]
    | inet6 =>
      have hl : a.length = 16 := hl
      simp [ipText, hl, List.take_of_length_le, h.ntop, bind, Except.bind, cidrText]
  | some k =>
    have hm : Mask (Family.size f) k m := hm
    have hc := cidrLen_mask (hn k rfl) hm
    cases f with
    | inet =>
      have hl : a.length = 4 := hl
      have hml : m.length = 4 := hm.1
      have h1 : (a ++ m).take 4 = a := by rw [← hl]; simp
      have h2 : (a ++ m).drop 4 = m := by rw [← hl]; simp
      unfold ipText
      rw [h1, h2, hc]
      simp [hl, hml, h.ntop, bind, Except.bind, cidrText]
    | inet6 =>
      have hl : a.length = 16 := hl
      have hml : m.length = 16 := hm.1
      have h1 : (a ++ m).take 16 = a := by rw [← hl]; simp
      have h2 : (a ++ m).drop 16 = m := by rw [← hl]; simp
      unfold ipText
      rw [h1, h2, hc]
      simp [hl, hml, h.ntop, bind, Except.bind, cidrText]

/-- `IPAddress(text).native == text`, and `load(dump())` has the same native value and bytes. -/
theorem C31_round_trip (h : NetAddr net f t a) (p : Obj Str) (hp : Blank p) (n : Option Nat) (hn : ∀ k ∈ n, k ≤ Family.size f)
    (o : Obj Str) (ho : ipSet net p (cidrText t n) = .ok o) :
    (∃ o', ipNative net o = .ok (some (cidrText t n), o')) ∧
    ∀ b o1 strict, asn1Dump true o = .ok (b, o1) → Fits b →
      ∃ w w', loadObj true [] p b strict = .ok w ∧ w.contents = o.contents ∧ ipNative net w = .ok (some (cidrText t n), w') := by
  obtain ⟨m, hset, hm⟩ := C31_set net f t a h p n hn
  rw [hset] at ho
  injection ho with ho
  subst ho
  refine ⟨⟨_, rfl⟩, ?_⟩
  intro b o1 strict hd hf
  obtain ⟨hdr, _, hl⟩ := load_dump_put (bad := []) hp strict hd hf
  refine ⟨_, { p.loaded hdr (a ++ m) with native := some (cidrText t n) }, hl, rfl, ?_⟩
  have : ipText net (a ++ m) = .ok (some (cidrText t n)) := C31_read net f t a h n hn m hm
  simp only [ipNative, Obj.loaded, this, bind, Except.bind]

/-- A prefix length above the size of the address is refused. -/
theorem C31_too_long (hs : '/' ∉ t) (hc : ':' ∈ t ↔ f = .inet6) (o : Obj Str) (k : Nat) (hk : Family.size f < k) :
    ipSet net o (cidrText t (some k)) = .error .valueError := by
  have hcol : t.contains ':' = decide (f = .inet6) := by
    cases hf : f with
    | inet => rw [hf] at hc; simp at hc; simp [hc]
    | inet6 => rw [hf] at hc; simp at hc; simp [hc]
  have hfam : ipFamily t = (f, Family.size f) := by
    unfold ipFamily
    rw [hcol]; cases f <;> rfl
  have hs' : (t ++ '/' :: pyStrNat k).contains '/' = true := by simp
  simp only [cidrText, ipSet, hs', if_true, splitSlash_text hs, pyInt_pyStrNat, bind, Except.bind]
  rw [if_neg (by omega)]
  simp only [hfam, Int.toNat_natCast]
  rw [if_pos (by omega)]

end

/-! ### The functions of `_inet.py` -/

theorem mem_pyJoin {sep : Str} : ∀ (ps : List Str) (c : Char), c ∈ pyJoin sep ps → c ∈ sep ∨ ∃ p ∈ ps, c ∈ p
  | [], c, h => by cases h
  | [p], c, h => .inr ⟨p, by simp, h⟩
  | p :: q :: qs, c, h => by
    rw [pyJoin] at h
    rcases List.mem_append.mp h with h | h
    · rcases List.mem_append.mp h with h | h
      · exact .inr ⟨p, by simp, h⟩
      · exact .inl h
    · rcases mem_pyJoin (q :: qs) c h with h | ⟨x, hx, h⟩
      · exact .inl h
      · exact .inr ⟨x, by simp [hx], h⟩

/-- Every IPv4 address. -/
theorem C31_shim_v4 (a : Bytes) (ha : a.length = 4) (t : Str) (ht : Ipv4Text a t) : NetAddr shimInet .inet t a := by
  obtain ⟨s, hs, h1, h2⟩ := C30_v4 a ha
  have : s = t := by rw [hs, ht]
  subst this
  have hmem : ∀ c ∈ s, c = '.' ∨ ∃ d, d < 10 ∧ c = digitChar d := by
    intro c hc
    rw [hs] at hc
    rcases mem_pyJoin _ c hc with h | ⟨p, hp, h⟩
    · left; simpa using h
    · obtain ⟨x, _, rfl⟩ := List.mem_map.mp hp
      exact .inr (mem_pyStrNat _ c h)
  have hd : ∀ d < 10, digitChar d ≠ '/' ∧ digitChar d ≠ ':' := by decide
  refine ⟨h2, h1, ha, ?_, ?_⟩
  · intro h
    rcases hmem _ h with h | ⟨d, hdl, h⟩
    · cases h
    · exact (hd d hdl).1 h.symm
  · constructor
    · intro h
      rcases hmem _ h with h | ⟨d, hdl, h⟩
      · cases h
      · exact absurd h.symm (hd d hdl).2
    · intro h; cases h

/-- Every IPv6 address whose compressed run is not at an end. -/
theorem C31_shim_v6_partial (a : Bytes) (ha : a.length = 16) (gs : List Nat) (hg : Groups gs a) (hl : gs.length = 8)
    (hin : ∀ i k, FirstLongest gs i k → 0 < i ∧ i + k < 8) (t : Str) (ht : Ipv6Text gs t) : NetAddr shimInet .inet6 t a := by
  obtain ⟨gs', s, hl', hg', hs, h1⟩ := C30_v6_text a ha
  have hgs : gs' = gs := by
    rw [← unpackH_packH gs hg.1, ← unpackH_packH gs' hg'.1, packH_eq, packH_eq, ← hg.2, ← hg'.2]
  subst hgs
  have : s = t := C30_v6_unique gs' s t hs ht
  subst this
  have h2 := C30_v6_partial a ha gs' hg hl hin s h1
  have hd : ∀ d < 16, hexChar d ≠ '/' := by decide
  have hns : ∀ ns : List Nat, '/' ∉ pyJoin [':'] (ns.map pyHexNat) := by
    intro ns h
    rcases mem_pyJoin _ _ h with h | ⟨p, hp, h⟩
    · simp at h
    · obtain ⟨x, _, rfl⟩ := List.mem_map.mp hp
      obtain ⟨d, hdl, h⟩ := mem_pyHexNat _ _ h
      exact hd d hdl h.symm
  refine ⟨h2, h1, ha, ?_, ?_⟩
  · rcases hs with ⟨_, rfl⟩ | ⟨i, k, _, rfl⟩
    · exact hns _
    · intro h
      rcases List.mem_append.mp h with h | h
      · rcases List.mem_append.mp h with h | h
        · exact hns _ h
        · simp at h
      · exact hns _ h
  · refine ⟨fun _ => rfl, fun _ => ?_⟩
    rcases hs with ⟨_, rfl⟩ | ⟨i, k, _, rfl⟩
    · match gs', hl with
      | x :: y :: r, _ => simp [pyJoin]
    · simp

/-- With `_inet.py` the loopback address cannot be set. -/
theorem C31_shim_loopback (o : Obj Str) : ipSet shimInet o "::1".toList = .error .valueError := by
  have h1 : ("::1".toList).contains '/' = false := by decide
  have h2 : ("::1".toList).contains ':' = true := by decide
  have h3 : inetPton .inet6 "::1".toList = .error .valueError := by decide +kernel
  simp only [ipSet, ipFamily, h1, h2, shimInet, Bool.false_eq_true, if_false, if_true, bind, Except.bind, h3]
  rfl

/-! ### Non-vacuity -/

example : NetAddr shimInet .inet "192.0.2.0".toList [192, 0, 2, 0] := C31_shim_v4 _ rfl _ (by unfold Ipv4Text; decide +kernel)
example : Mask 32 24 [255, 255, 255, 0] := ⟨rfl, by decide⟩
example : (ipSet shimInet { cls := 0, method := 0, tag := 4 } "192.0.2.0/24".toList).map (fun o => o.contents) = .ok (some [192, 0, 2, 0, 255, 255, 255, 0]) := by decide +kernel
example : ipText shimInet [192, 0, 2, 0, 255, 255, 255, 0] = .ok (some "192.0.2.0/24".toList) := by decide +kernel
example : Blank (ν := Str) { cls := 0, method := 0, tag := 4 } := ⟨rfl, by decide, rfl, by simp⟩

end Asn1.Props
