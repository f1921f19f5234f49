import Verif.Spec.KeySize
import Verif.Lemmas.LeafGood
import Verif.Spec.Der

/-!
# C54 — key attributes tell the size of the key

`L` stands for the floating point logarithms of the code, of which `LogsOk` is assumed (Spec/KeySize.lean). A loaded key has empty caches.
-/

namespace Asn1.Props
open Asn1 Spec KeyInfo

theorem roundUp (s k : Nat) (h1 : 8 * k < s) (h2 : s ≤ 8 * (k + 1)) : (if s % 8 ≠ 0 then s + (8 - s % 8) else s) = 8 * (k + 1) := by
  split <;> omega

theorem octets_pos {n k : Nat} (h : OctetsOf n k) (hn : 0 < n) : ∃ j, k = j + 1 ∧ 256 ^ j ≤ n ∧ n < 256 ^ (j + 1) := by
  cases k with
  | zero => have := h.1; simp at this; omega
  | succ j =>
    refine ⟨j, rfl, ?_, h.1⟩
    by_contra hh
    have := h.2 j (by omega)
    omega

/-- The bit size of a number is that of its octets. -/
theorem keyBits_spec {L : Logs} (hL : LogsOk L) {n k : Nat} (hn : 0 < n) (hb : Handled n) (hk : OctetsOf n k) (ha : ∀ j, AwayFrom (256 ^ j) n) :
    keyBits L n = .ok (8 * k) := by
  obtain ⟨j, rfl, h1, h2⟩ := octets_pos hk hn
  have l1 : 8 * j < L.ceil n := by
    refine hL.above n _ hb ?_
    rw [← pow256]
    rcases ha j with h | h
    · exact h
    · exfalso; generalize 256 ^ j = p at *; omega
  have l2 : L.ceil n ≤ 8 * (j + 1) := by
    refine hL.below n _ hb hn ?_
    rw [← pow256]
    rcases ha (j + 1) with h | h
    · exfalso; generalize 256 ^ (j + 1) = p at *; omega
    · exact h
  unfold keyBits
  rw [if_neg (by omega)]
  simp only [Int.toNat_natCast]
  rw [roundUp _ _ l1 l2]

/-- The number that the size of a private key is about. -/
inductive Measured : Priv → Nat → Prop
  | rsa {n : Nat} : Measured (.rsa n) n
  | pss {n : Nat} : Measured (.rsassaPss n) n
  | dsa {p : Nat} {q : Int} : Measured (.dsa p q) p
  | ec {d : Nat} : Measured (.ec d) d

/-- Private keys: the number of bits in whole octets of the RSA modulus or the DSA prime, and the number of octets. The size of an EC key is
meant to be that of its curve and is that of the private number (`C54_ec_private_fails`). -/
theorem C54_private_partial {L : Logs} (hL : LogsOk L) {key : Priv} {n k : Nat} (hm : Measured key n) (hn : 0 < n) (hb : Handled n) (hk : OctetsOf n k)
    (ha : ∀ j, AwayFrom (256 ^ j) n) :
    ∃ o, PrivInfo.bitSize L { key } = .ok (8 * k, o) ∧ ∃ o', PrivInfo.byteSize L { key } = .ok (k, o') := by
  have hs := keyBits_spec hL hn hb hk ha
  have : PrivInfo.bitSize L { key } = .ok (8 * k, { key, algorithmCache := some key.name, bitSizeCache := some (8 * k) }) := by
    cases hm <;> simp [PrivInfo.bitSize, PrivInfo.algorithm, Priv.name, Priv.modulus, Priv.prime, Priv.private, hs]
  refine ⟨_, this, { key, algorithmCache := some key.name, bitSizeCache := some (8 * k) }, ?_⟩
  · unfold PrivInfo.byteSize
    rw [this]
    simp only [ceilEighth, Except.ok.injEq, Prod.mk.injEq, and_true]
    omega

/-- Public RSA and DSA keys. -/
theorem C54_public {L : Logs} (hL : LogsOk L) {n k : Nat} (q : Int) (hn : 0 < n) (hb : Handled n) (hk : OctetsOf n k) (ha : ∀ j, AwayFrom (256 ^ j) n)
    (key : Pub) (hm : key = .rsa n ∨ key = .rsassaPss n ∨ key = .dsa (some (n, q))) :
    key.bitSize L = .ok (8 * k) ∧ key.byteSize L = .ok k := by
  have hs := keyBits_spec hL hn hb hk ha
  have : key.bitSize L = .ok (8 * k) := by
    rcases hm with rfl | rfl | rfl <;> simp [Pub.bitSize, hs, Except.map]
  refine ⟨this, ?_⟩
  unfold Pub.byteSize
  rw [this]
  simp only [Except.map, Except.ok.injEq]
  omega

/-- Public EC keys with an uncompressed point: the octets of a coordinate. -/
theorem C54_public_ec (L : Logs) (x y : Bytes) (h : x.length = y.length) :
    (Pub.ec (0x04 :: (x ++ y))).bitSize L = .ok (8 * x.length) ∧ (Pub.ec (0x04 :: (x ++ y))).byteSize L = .ok x.length := by
  have : (Pub.ec (0x04 :: (x ++ y))).bitSize L = .ok (8 * x.length) := by
    simp only [Pub.bitSize, List.length_cons, List.length_append, Except.ok.injEq]
    omega
  refine ⟨this, ?_⟩
  unfold Pub.byteSize
  rw [this]
  simp only [Except.map, Except.ok.injEq]
  omega

/-- Public EC keys with a compressed point: only half of the size of a coordinate is reported, rounded up to octets. -/
theorem C54_compressed_fails (L : Logs) (b : UInt8) (x : Bytes) :
    (Pub.ec (b :: x)).bitSize L = .ok (8 * x.length / 2) ∧ (Pub.ec (b :: x)).byteSize L = .ok (((x.length + 1) / 2 : Nat) : Int) := by
  have : (Pub.ec (b :: x)).bitSize L = .ok (8 * x.length / 2) := by
    simp only [Pub.bitSize, List.length_cons, Except.ok.injEq]
    omega
  refine ⟨this, ?_⟩
  unfold Pub.byteSize
  rw [this]
  simp only [Except.map, Except.ok.injEq]
  omega

example (L : Logs) (x : Bytes) (h : x.length = 32) : (Pub.ec (0x02 :: x)).bitSize L = .ok 128 := by
  rw [(C54_compressed_fails L 0x02 x).1, h]; rfl
example (L : Logs) (x : Bytes) (h : x.length = 21) : (Pub.ec (0x02 :: x)).byteSize L = .ok 11 := by
  rw [(C54_compressed_fails L 0x02 x).2, h]; rfl

/-- The hash family of DSA keys: `sha1` up to 160 bits of `q`, `sha2` above; absent parameters give `None`, and other keys are refused. -/
theorem C54_hash {L : Logs} (hL : LogsOk L) (p : Int) (q : Nat) (hq : 0 < q) (hb : Handled q) (ha : AwayFrom (2 ^ 160) q) :
    (∃ o, PrivInfo.hashAlgo L { key := .dsa p q } = .ok (if q < 2 ^ 160 then "sha1" else "sha2", o)) ∧
    Pub.hashAlgo L (.dsa (some (p, q))) = .ok (some (if q < 2 ^ 160 then "sha1" else "sha2")) ∧
    Pub.hashAlgo L (.dsa none) = .ok none ∧
    (∀ k : Pub, (∀ x, k ≠ .dsa x) → Pub.hashAlgo L k = .error (.py .valueError)) ∧
    (∀ k : Priv, k.name ≠ "dsa" → PrivInfo.hashAlgo L { key := k } = .error (.py .valueError)) := by
  have hs : L.sha1 q = decide (q < 2 ^ 160) := by
    rcases ha with h | h
    · rw [hL.long q hb h]; symm; simp only [decide_eq_false_iff_not]; omega
    · rw [hL.short q hq h]; symm; simp only [decide_eq_true_eq]; omega
  have hq' : ¬ ((q : Int) ≤ 0) := by omega
  refine ⟨⟨{ key := .dsa p q, algorithmCache := some "dsa" }, ?_⟩, ?_, rfl, ?_, ?_⟩
  · simp only [PrivInfo.hashAlgo, PrivInfo.algorithm, Priv.name, Priv.order, ne_eq, not_true_eq_false, if_false, if_neg hq', Int.toNat_natCast, hs, decide_eq_true_eq]
  · simp only [Pub.hashAlgo, if_neg hq', Int.toNat_natCast, hs, decide_eq_true_eq]
  · intro k hk
    cases k with
    | dsa x => exact absurd rfl (hk x)
    | _ => rfl
  · intro k hk
    simp [PrivInfo.hashAlgo, PrivInfo.algorithm, hk]

/-- `q_byte_size` is the number of octets of `q`, if its INTEGER has the DER contents octets. -/
theorem C54_q_byte_size {q : Nat} {c : Bytes} (hq : 0 < q) (h : ShortestSigned q c) : OctetsOf q (qByteSize c) := by
  obtain ⟨h1, h2, h3⟩ := h
  have hu := valU_of_valS h2
  have lower : ∀ (b : UInt8) (bs : Bytes), 0 < b.toNat → valU (b :: bs) = q → ∀ j, q < 256 ^ j → (b :: bs).length ≤ j := by
    intro b bs hb hv j hj
    by_contra hh
    have : 256 ^ j ≤ 256 ^ bs.length := Nat.pow_le_pow_right (by decide) (by simp at hh; omega)
    have : 1 * 256 ^ bs.length ≤ b.toNat * 256 ^ bs.length := Nat.mul_le_mul_right _ hb
    rw [valU] at hv
    omega
  cases c with
  | nil => exact absurd rfl h1
  | cons b bs =>
    by_cases hb : b = 0
    · subst hb
      have hs : qByteSize (0 :: bs) = bs.length := by
        simp [qByteSize, slice]
      have hv : valU bs = q := by simpa [valU] using hu
      rw [hs]
      refine ⟨by rw [← hv]; exact valU_lt bs, ?_⟩
      cases bs with
      | nil => simp [valU] at hv; omega
      | cons d ds =>
        refine lower d ds ?_ hv
        by_contra hd
        have hd' : d.toNat < 128 := by omega
        have := h3 (d :: ds) (by simp) (by rw [valS, if_pos hd', hv])
        simp at this
    · have hs : qByteSize (b :: bs) = (b :: bs).length := by
        simp [qByteSize, slice, hb]
      rw [hs]
      refine ⟨by rw [← hu]; exact valU_lt _, lower b bs ?_ hu⟩
      rcases Nat.eq_zero_or_pos b.toNat with h | h
      · exact absurd (UInt8.toNat_inj.mp (by simpa using h)) hb
      · exact h

example : qByteSize [0x00, 0x80, 0x01] = 2 ∧ qByteSize [0x7f, 0x01] = 2 := by decide

/-- A state reached by reading a loaded key. -/
def Seen (L : Logs) (key : Priv) (k : PrivInfo) : Prop :=
  k.key = key ∧ (k.algorithmCache = none ∨ k.algorithmCache = some key.name) ∧
  (k.bitSizeCache = none ∨ ∃ n o, k.bitSizeCache = some n ∧ PrivInfo.bitSize L { key } = .ok (n, o))

theorem seen_read {L : Logs} {key : Priv} {k : PrivInfo} (h : Seen L key k) (r : KeyRead) :
    (readKey L r k).1 = (readKey L r { key }).1 ∧ Seen L key (readKey L r k).2 := by
  obtain ⟨k0, ac, bc⟩ := k
  obtain ⟨h1, h2, h3⟩ := h
  simp only at h1 h2 h3
  subst h1
  have hbit : ∀ ac, (ac = none ∨ ac = some k0.name) → ∀ bc, (bc = none ∨ ∃ n o, bc = some n ∧ PrivInfo.bitSize L { key := k0 } = .ok (n, o)) →
      (∃ n o o', PrivInfo.bitSize L ⟨k0, ac, bc⟩ = .ok (n, o) ∧ PrivInfo.bitSize L { key := k0 } = .ok (n, o') ∧ Seen L k0 o) ∨
      (∃ e, PrivInfo.bitSize L ⟨k0, ac, bc⟩ = .error e ∧ PrivInfo.bitSize L { key := k0 } = .error e) := by
    intro ac hac bc hbc
    rcases hbc with rfl | ⟨n, o, rfl, hn⟩
    · cases hf : PrivInfo.bitSize L { key := k0 } with
      | error e =>
        right
        refine ⟨e, ?_, rfl⟩
        rcases hac with rfl | rfl
        · exact hf
        · exact hf
      | ok r =>
        left
        obtain ⟨n, o⟩ := r
        refine ⟨n, o, o, ?_, rfl, ?_⟩
        · rcases hac with rfl | rfl
          · exact hf
          · exact hf
        · have hf' := hf
          unfold PrivInfo.bitSize at hf'
          simp only [PrivInfo.algorithm] at hf'
          split at hf'
          · cases hf'
          · split at hf'
            · cases hf'
            · cases hf'
              exact ⟨rfl, .inr rfl, .inr ⟨_, _, rfl, hf⟩⟩
    · exact .inl ⟨n, _, o, rfl, hn, rfl, hac, .inr ⟨n, o, rfl, hn⟩⟩
  have halg : Seen L k0 (PrivInfo.algorithm ⟨k0, ac, bc⟩).2 ∧ (PrivInfo.algorithm ⟨k0, ac, bc⟩).1 = k0.name := by
    rcases h2 with rfl | rfl
    · exact ⟨⟨rfl, .inr rfl, h3⟩, rfl⟩
    · exact ⟨⟨rfl, .inr rfl, h3⟩, rfl⟩
  cases r with
  | algorithm => exact ⟨congrArg KeyAnswer.text halg.2, halg.1⟩
  | bitSize =>
    rcases hbit ac h2 bc h3 with ⟨n, o, o', e1, e2, e3⟩ | ⟨e, e1, e2⟩
    · simp only [readKey, e1, e2]; exact ⟨trivial, e3⟩
    · simp only [readKey, e1, e2]; exact ⟨trivial, halg.1⟩
  | byteSize =>
    rcases hbit ac h2 bc h3 with ⟨n, o, o', e1, e2, e3⟩ | ⟨e, e1, e2⟩
    · simp only [readKey, PrivInfo.byteSize, e1, e2]; exact ⟨trivial, e3⟩
    · simp only [readKey, PrivInfo.byteSize, e1, e2]; exact ⟨trivial, halg.1⟩
  | hashAlgo =>
    have hk : (PrivInfo.algorithm ⟨k0, ac, bc⟩).2.key = k0 := halg.1.1
    have h0 : PrivInfo.algorithm { key := k0 } = (k0.name, { key := k0, algorithmCache := some k0.name }) := rfl
    simp only [readKey, PrivInfo.hashAlgo, halg.2, h0, hk]
    by_cases hd : k0.name = "dsa"
    · simp only [hd, ne_eq, not_true_eq_false, if_false]
      cases k0.order with
      | error e => exact ⟨rfl, halg.1⟩
      | ok q =>
        by_cases hq : q ≤ 0
        · simp only [if_pos hq]; exact ⟨trivial, halg.1⟩
        · simp only [if_neg hq]; exact ⟨trivial, halg.1⟩
    · simp only [ne_eq, hd, not_false_eq_true, if_true]
      exact ⟨trivial, halg.1⟩

/-- Reading attributes in any order, any number of times, gives the answers of a freshly loaded key. -/
theorem C54_reads (L : Logs) (key : Priv) (rs : List KeyRead) (r : KeyRead) :
    (readKey L r (readKeys L rs { key })).1 = (readKey L r { key }).1 := by
  have : ∀ rs k, Seen L key k → Seen L key (readKeys L rs k) := by
    intro rs
    induction rs with
    | nil => intro k h; exact h
    | cons x rs ih => intro k h; exact ih _ (seen_read h x).2
  exact (seen_read (this rs _ ⟨rfl, .inl rfl, .inl rfl⟩) r).1

theorem bitSize_ec {L : Logs} {d n : Nat} (h : keyBits L d = .ok n) :
    PrivInfo.bitSize L { key := .ec d } = .ok (n, { key := .ec d, algorithmCache := some "ec", bitSizeCache := some n }) := by
  simp [PrivInfo.bitSize, PrivInfo.algorithm, Priv.name, Priv.private, h]

/-- The size of an EC private key is not that of its curve: a P-256 key with a leading zero octet is told to have 248 bits,
and the key 1 none at all. -/
theorem C54_ec_private_fails {L : Logs} (hL : LogsOk L) :
    (∃ o, PrivInfo.bitSize L { key := .ec (3 * 2 ^ 246) } = .ok (248, o)) ∧ (∃ o, PrivInfo.bitSize L { key := .ec 1 } = .ok (0, o)) := by
  constructor
  · have h0 : Handled (3 * 2 ^ 246) := Nat.lt_of_lt_of_le (by norm_num) (Nat.pow_le_pow_right (by decide) (show 256 ≤ 16384 by decide))
    have h1 := hL.above (3 * 2 ^ 246) 247 h0 (by norm_num)
    have h2 := hL.below (3 * 2 ^ 246) 248 h0 (by norm_num) (by norm_num)
    have h3 : L.ceil (3 * 2 ^ 246) = 248 := by omega
    have h4 : keyBits L ((3 * 2 ^ 246 : Nat) : Int) = .ok 248 := by
      unfold keyBits
      rw [if_neg (by norm_num)]
      simp only [Int.toNat_natCast, h3]
      rfl
    exact ⟨_, bitSize_ec h4⟩
  · refine ⟨{ key := .ec 1, algorithmCache := some "ec", bitSizeCache := some 0 }, ?_⟩
    simp [PrivInfo.bitSize, PrivInfo.algorithm, Priv.name, Priv.private, keyBits, hL.one]

/-- Keys of the other algorithms have no size: `UnboundLocalError`. -/
theorem C54_other_fails (L : Logs) : PrivInfo.bitSize L { key := .other "ed25519" } = .error .unboundLocal ∧
    Pub.bitSize L (.other "dh") = .error .unboundLocal := ⟨rfl, rfl⟩

/-- After a read the attributes do not follow changes of the key. -/
theorem C54_stale_fails (L : Logs) (n m : Int) (size : Nat) (o : PrivInfo) (h : PrivInfo.bitSize L { key := .rsa n } = .ok (size, o)) :
    (o.assign (.rsa m)).bitSize L = .ok (size, o.assign (.rsa m)) := by
  unfold PrivInfo.bitSize at h
  simp only [PrivInfo.algorithm] at h
  split at h
  · cases h
  · split at h
    · cases h
    · cases h; rfl

/-- The logarithms without rounding errors satisfy the assumption. -/
def exactLogs : Logs where
  ceil n := bitLength (n - 1)
  sha1 n := n ≤ 2 ^ 160

theorem exactLogs_ok : LogsOk exactLogs := by
  have e : ∀ n k, exactLogs.ceil n ≤ k ↔ n - 1 < 2 ^ k := fun n k => bitLength_le _ _
  refine ⟨?_, ?_, by decide +kernel, ?_, ?_⟩
  · intro n k _ h
    by_contra hh
    have := (e n k).mp (by omega)
    have : 0 < 2 ^ k := Nat.pow_pos (by decide)
    generalize 2 ^ k = p at *
    omega
  · intro n k _ hn h
    refine (e n k).mpr ?_
    generalize 2 ^ k = p at *
    omega
  · intro n _ h
    show decide (n ≤ 2 ^ 160) = false
    simp only [decide_eq_false_iff_not]
    omega
  · intro n _ h
    show decide (n ≤ 2 ^ 160) = true
    simp only [decide_eq_true_eq]
    omega

/-- A modulus of 1018 bits. -/
example : ∃ o, PrivInfo.bitSize exactLogs { key := .rsa (3 * 256 ^ 127 : Nat) } = .ok (1024, o) := by
  have big : 256 ^ 127 < 256 ^ 128 := Nat.pow_lt_pow_right (by decide) (by decide)
  obtain ⟨o, h, _⟩ := C54_private_partial exactLogs_ok (k := 128) (.rsa (n := 3 * 256 ^ 127)) (by norm_num)
    (Nat.lt_of_lt_of_le (m := 256 ^ 128) (by norm_num) (by rw [pow256]; exact Nat.pow_le_pow_right (by decide) (by decide)))
    ⟨by norm_num, fun j hj => by
      by_contra hh
      have : 256 ^ j ≤ 256 ^ 127 := Nat.pow_le_pow_right (by decide) (by omega)
      omega⟩
    (fun j => by
      by_cases hj : j ≤ 127
      · left
        have : 256 ^ j ≤ 256 ^ 127 := Nat.pow_le_pow_right (by decide) hj
        exact le_trans (Nat.mul_le_mul_right _ this) (by norm_num)
      · right
        have : 256 ^ 128 ≤ 256 ^ j := Nat.pow_le_pow_right (by decide) (by omega)
        exact le_trans (by norm_num) (Nat.mul_le_mul_right _ this))
  exact ⟨o, h⟩

example : (Pub.ec (0x04 :: (List.replicate 32 1 ++ List.replicate 32 2))).bitSize exactLogs = .ok 256 :=
  (C54_public_ec exactLogs _ _ (by simp)).1

end Asn1.Props
