import Verif.Lemmas.Algos
import Verif.Lemmas.PyStr

/-!
# C40 — what is derived from the name of an encryption algorithm

`Spec.AesName`, `Spec.Pbes1Name`, `Spec.Pkcs12Name` say what the names mean; `Spec.OidText` is a dotted text.
Parameters `p` are arbitrary wherever they are not mentioned.
-/

namespace Asn1.Props
open Asn1 Asn1.Algos Spec

private theorem take_aes {bits : Nat} (hb : bits = 128 ∨ bits = 192 ∨ bits = 256) (mode : Str) :
    (under ("aes".toList ++ pyStrNat bits) mode).take 3 = "aes".toList ∧
    look aesLengths ((under ("aes".toList ++ pyStrNat bits) mode).take 7) = some ((bits : Int) / 8) ∧
    isAes (under ("aes".toList ++ pyStrNat bits) mode) = true ∧
    (under ("aes".toList ++ pyStrNat bits) mode).drop 7 = mode ∧
    (under ("aes".toList ++ pyStrNat bits) mode) = "aes".toList ++ pyStrNat bits ++ '_' :: mode := by
  have e : ∀ t : Str, t.length = 7 → ∀ m : Str, (t ++ m).take 7 = t ∧ (t ++ m).drop 7 = m := by
    intro t ht m
    exact ⟨by rw [← ht, List.take_left], by rw [← ht, List.drop_left]⟩
  have split : ∀ b : Str, b.length = 3 → under ("aes".toList ++ b) mode = ("aes".toList ++ b ++ ['_']) ++ mode := by
    intro b _; simp [under]
  have main : ∀ b : Str, b.length = 3 → (under ("aes".toList ++ b) mode).take 7 = "aes".toList ++ b ++ ['_'] ∧
      (under ("aes".toList ++ b) mode).drop 7 = mode := by
    intro b hb
    rw [split b hb]
    exact e _ (by simp [hb]) mode
  rcases hb with rfl | rfl | rfl
  · have p : pyStrNat 128 = "128".toList := by decide +kernel
    rw [p]
    obtain ⟨h1, h2⟩ := main "128".toList rfl
    exact ⟨rfl, by rw [h1]; decide +kernel, by unfold isAes; rw [h1]; decide +kernel, h2, rfl⟩
  · have p : pyStrNat 192 = "192".toList := by decide +kernel
    rw [p]
    obtain ⟨h1, h2⟩ := main "192".toList rfl
    exact ⟨rfl, by rw [h1]; decide +kernel, by unfold isAes; rw [h1]; decide +kernel, h2, rfl⟩
  · have p : pyStrNat 256 = "256".toList := by decide +kernel
    rw [p]
    obtain ⟨h1, h2⟩ := main "256".toList rfl
    exact ⟨rfl, by rw [h1]; decide +kernel, by unfold isAes; rw [h1]; decide +kernel, h2, rfl⟩

/-- AES: the cipher, the key length of the name in bytes, its mode and blocks of 16 bytes. -/
theorem C40_aes {name : Str} {bits : Nat} {mode : Str} (h : AesName name bits mode) (p : EncParams) :
    encryptionCipher name p = .ok "aes".toList ∧ keyLength name p = .ok (bits / 8) ∧ encryptionMode name p = .ok mode ∧
      encryptionBlockSize name p = .ok 16 := by
  obtain ⟨hb⟩ := h
  obtain ⟨h1, h2, h3, h4, -⟩ := take_aes hb mode
  refine ⟨?_, ?_, ?_, ?_⟩
  · unfold encryptionCipher; rw [h3]; rfl
  · unfold keyLength item; rw [if_pos h1, h2]
  · unfold encryptionMode; rw [h3, h4]; rfl
  · unfold encryptionBlockSize; rw [h3]; rfl

/-- An AES name gives no key derivation function: `ValueError`, if the mode is a single word. -/
theorem C40_aes_kdf {name : Str} {bits : Nat} {mode : Str} (h : AesName name bits mode) (hm : '_' ∉ mode) (p : EncParams) :
    kdf name p = .error .valueError ∧ kdfHmac name p = .error .valueError := by
  obtain ⟨hb⟩ := h
  have hfirst : (under ("aes".toList ++ pyStrNat bits) mode).takeWhile (· ≠ '_') = "aes".toList ++ pyStrNat bits ∧
      "aes".toList ++ pyStrNat bits ≠ "pbes1".toList ∧ "aes".toList ++ pyStrNat bits ≠ "pkcs12".toList ∧
      under ("aes".toList ++ pyStrNat bits) mode ≠ "pbes2".toList ∧ '_' ∉ "aes".toList ++ pyStrNat bits := by
    rcases hb with rfl | rfl | rfl
    · have p : pyStrNat 128 = "128".toList := by decide +kernel
      rw [p]; exact ⟨rfl, by decide, by decide, by simp [under], by decide⟩
    · have p : pyStrNat 192 = "192".toList := by decide +kernel
      rw [p]; exact ⟨rfl, by decide, by decide, by simp [under], by decide⟩
    · have p : pyStrNat 256 = "256".toList := by decide +kernel
      rw [p]; exact ⟨rfl, by decide, by decide, by simp [under], by decide⟩
  obtain ⟨h1, h2, h3, h4, h5⟩ := hfirst
  constructor
  · unfold kdf
    rw [if_neg h4]
    split
    · split
      · simp only [h1]; rw [if_neg h2, if_neg h3]
      · rfl
    · rfl
  · unfold kdfHmac
    rw [if_neg h4]
    have : secondPart (under ("aes".toList ++ pyStrNat bits) mode) = .error .valueError := by
      unfold secondPart under
      rw [pySplit_append '_' _ mode (fun c hc e => h5 (e ▸ hc)), pySplit_single '_' mode (fun c hc e => hm (e ▸ hc))]
    rw [this]
    split
    · split <;> rfl
    · rfl

example : AesName "aes192_gcm".toList 192 "gcm".toList := by
  have p : "aes192_gcm".toList = under ("aes".toList ++ pyStrNat 192) "gcm".toList := by decide +kernel
  rw [p]; exact .intro (.inr (.inl rfl))

/-- PBES1: the hash and cipher of the name, keys and blocks of 8 bytes, CBC mode. -/
theorem C40_pbes1 {name h c : Str} (hn : Pbes1Name name h c) (p : EncParams) :
    kdf name p = .ok "pbkdf1".toList ∧ kdfHmac name p = .ok (some h) ∧ encryptionCipher name p = .ok c ∧
      keyLength name p = .ok 8 ∧ encryptionMode name p = .ok "cbc".toList ∧ encryptionBlockSize name p = .ok 8 := by
  obtain ⟨hh, hc⟩ := hn
  simp only [List.mem_cons, List.not_mem_nil, or_false] at hh hc
  rcases hh with rfl | rfl | rfl <;> rcases hc with rfl | rfl <;> exact ⟨rfl, rfl, by unfold encryptionCipher; rfl, by unfold keyLength; rfl,
      by unfold encryptionMode; rfl, by unfold encryptionBlockSize; rfl⟩

/-- PKCS#12: SHA-1, and cipher, key length and block size of the name. -/
theorem C40_pkcs12 {name c : Str} {k b : Int} (hn : Pkcs12Name name c k b) (p : EncParams) :
    kdf name p = .ok "pkcs12_kdf".toList ∧ kdfHmac name p = .ok (some "sha1".toList) ∧ encryptionCipher name p = .ok c ∧
      keyLength name p = .ok k ∧ encryptionMode name p = .ok "cbc".toList ∧ encryptionBlockSize name p = .ok b := by
  have p40 : pyStrNat 40 = "40".toList := by decide +kernel
  have p128 : pyStrNat 128 = "128".toList := by decide +kernel
  have p2 : pyStrNat 2 = "2".toList := by decide +kernel
  have p3 : pyStrNat 3 = "3".toList := by decide +kernel
  cases hn with
  | rc2 h => rcases h with rfl | rfl <;> simp only [p40, p128] <;> exact ⟨rfl, rfl, by unfold encryptionCipher; rfl, by unfold keyLength; rfl,
      by unfold encryptionMode; rfl, by unfold encryptionBlockSize; rfl⟩
  | rc4 h => rcases h with rfl | rfl <;> simp only [p40, p128] <;> exact ⟨rfl, rfl, by unfold encryptionCipher; rfl, by unfold keyLength; rfl,
      by unfold encryptionMode; rfl, by unfold encryptionBlockSize; rfl⟩
  | tripledes h => rcases h with rfl | rfl <;> simp only [p2, p3] <;> exact ⟨rfl, rfl, by unfold encryptionCipher; rfl, by unfold keyLength; rfl,
      by unfold encryptionMode; rfl, by unfold encryptionBlockSize; rfl⟩

/-- DES and triple DES with three keys. -/
theorem C40_des (p : EncParams) :
    (encryptionCipher "des".toList p = .ok "des".toList ∧ keyLength "des".toList p = .ok 8 ∧
      encryptionMode "des".toList p = .ok "cbc".toList ∧ encryptionBlockSize "des".toList p = .ok 8) ∧
    (encryptionCipher "tripledes_3key".toList p = .ok "tripledes".toList ∧ keyLength "tripledes_3key".toList p = .ok 24 ∧
      encryptionMode "tripledes_3key".toList p = .ok "cbc".toList ∧ encryptionBlockSize "tripledes_3key".toList p = .ok 8) := by
  exact ⟨⟨by unfold encryptionCipher; rfl, by unfold keyLength; rfl, by unfold encryptionMode; rfl,
    by unfold encryptionBlockSize; rfl⟩, ⟨by unfold encryptionCipher; rfl, by unfold keyLength; rfl,
    by unfold encryptionMode; rfl, by unfold encryptionBlockSize; rfl⟩⟩

/-- PBES1 and PKCS#12: salt and iteration count are those of the parameters, and there is no initialisation vector in them. -/
theorem C40_salt {name : Str} (h : (∃ a c, Pbes1Name name a c) ∨ ∃ c k b, Pkcs12Name name c k b) (salt : Bytes) (n : Int) :
    kdfSalt name (.pbes1 salt n) = .ok salt ∧ kdfIterations name (.pbes1 salt n) = .ok (some n) ∧
      encryptionIv name (.pbes1 salt n) = .ok .none := by
  have p40 : pyStrNat 40 = "40".toList := by decide +kernel
  have p128 : pyStrNat 128 = "128".toList := by decide +kernel
  have p2 : pyStrNat 2 = "2".toList := by decide +kernel
  have p3 : pyStrNat 3 = "3".toList := by decide +kernel
  rcases h with ⟨a, c, h⟩ | ⟨c, k, b, h⟩
  · obtain ⟨hh, hc⟩ := h
    simp only [List.mem_cons, List.not_mem_nil, or_false] at hh hc
    rcases hh with rfl | rfl | rfl <;> rcases hc with rfl | rfl <;> exact ⟨rfl, rfl, by unfold encryptionIv; rfl⟩
  · cases h with
    | rc2 h => rcases h with rfl | rfl <;> simp only [p40, p128] <;> exact ⟨rfl, rfl, by unfold encryptionIv; rfl⟩
    | rc4 h => rcases h with rfl | rfl <;> simp only [p40, p128] <;> exact ⟨rfl, rfl, by unfold encryptionIv; rfl⟩
    | tripledes h => rcases h with rfl | rfl <;> simp only [p2, p3] <;> exact ⟨rfl, rfl, by unfold encryptionIv; rfl⟩

example : kdfIterations "pbes1_sha1_des".toList (.pbes1 [1, 2] 2048) = .ok (some 2048) :=
  (C40_salt (.inl ⟨"sha1".toList, "des".toList, .intro (by simp) (by simp)⟩) [1, 2] 2048).2.1

/-- PBKDF2 inside PBES2: a salt that is written in the parameters is given, one from another source is refused. -/
theorem C40_pbes2_salt (a : Str) (n : Int) (len : Option Int) (prf s : Str) (q : EncParams) :
    (∀ salt, kdfSalt "pbes2".toList (.pbes2 ⟨a, .pbkdf2 (.specified salt) n len prf⟩ s q) = .ok salt) ∧
    kdfSalt "pbes2".toList (.pbes2 ⟨a, .pbkdf2 .otherSource n len prf⟩ s q) = .error .valueError :=
  ⟨fun _ => rfl, rfl⟩

/-- The initialisation vector of RC2 and RC5 is a field of the parameters. -/
theorem C40_iv (v : Option Int) (bits : Int) (iv : Bytes) :
    encryptionIv "rc2".toList (.rc2 v iv) = .ok (.bytes iv) ∧ encryptionIv "rc5".toList (.rc5 bits (some iv)) = .ok (.bytes iv) ∧
      encryptionIv "rc5".toList (.rc5 bits none) = .ok .none :=
  ⟨rfl, rfl, rfl⟩

/-- The initialisation vector of AES in CBC and OFB mode, of DES and of triple DES is the parameters; without parameters there is none. -/
theorem C40_octet_iv {name : Str} (h : AesName name 128 "cbc".toList ∨ AesName name 192 "cbc".toList ∨ AesName name 256 "cbc".toList ∨
    AesName name 128 "ofb".toList ∨ AesName name 192 "ofb".toList ∨ AesName name 256 "ofb".toList ∨ name = "des".toList ∨
    name = "tripledes_3key".toList) (iv : Bytes) :
    encryptionIv name (.octets iv) = .ok (.bytes iv) ∧ encryptionIv name .void = .ok .none := by
  have p1 : pyStrNat 128 = "128".toList := by decide +kernel
  have p2 : pyStrNat 192 = "192".toList := by decide +kernel
  have p3 : pyStrNat 256 = "256".toList := by decide +kernel
  have e : ∀ {bits : Nat} {mode : Str}, AesName name bits mode → name = under ("aes".toList ++ pyStrNat bits) mode := by
    rintro bits mode ⟨h⟩
    rfl
  rcases h with h | h | h | h | h | h | h | h
  iterate 6 (rw [e h]; simp only [p1, p2, p3]; unfold encryptionIv; exact ⟨rfl, rfl⟩)
  all_goals (rw [h]; unfold encryptionIv; exact ⟨rfl, rfl⟩)

/-- RC2: the key length is encoded in the version of the parameters (RFC 2268: 160, 120 and 58 stand for 40, 64 and
128 bits); other versions below 256 are refused. -/
theorem C40_rc2 (v : Option Int) (iv : Bytes) (p : EncParams) :
    encryptionCipher "rc2".toList p = .ok "rc2".toList ∧ encryptionMode "rc2".toList p = .ok "cbc".toList ∧
      encryptionBlockSize "rc2".toList p = .ok 8 ∧
    (v = some 160 → keyLength "rc2".toList (.rc2 v iv) = .ok (40 / 8)) ∧
    (v = some 120 → keyLength "rc2".toList (.rc2 v iv) = .ok (64 / 8)) ∧
    (v = some 58 → keyLength "rc2".toList (.rc2 v iv) = .ok (128 / 8)) ∧
    (∀ n, v = some n → n < 256 → n ≠ 160 → n ≠ 120 → n ≠ 58 → keyLength "rc2".toList (.rc2 v iv) = .error .valueError) := by
  refine ⟨by unfold encryptionCipher; rfl, by unfold encryptionMode; rfl, by unfold encryptionBlockSize; rfl, ?_, ?_, ?_, ?_⟩
  · rintro rfl; rfl
  · rintro rfl; rfl
  · rintro rfl; rfl
  · rintro n rfl h h1 h2 h3
    have hk : keyLength "rc2".toList (.rc2 (some n) iv) = rc2KeyLength (some n) := rfl
    have hl : look rc2Lengths n = none := by
      apply look_none
      simp only [rc2Lengths, List.mem_cons, List.not_mem_nil, or_false]
      rintro e (rfl | rfl | rfl) <;> simp only [ne_eq] <;> omega
    rw [hk]
    simp only [rc2KeyLength, hl]
    rw [if_neg (by omega)]

/-- RC5: the block size is in the parameters, in bits. -/
theorem C40_rc5 (bits : Int) (iv : Option Bytes) (p : EncParams) :
    encryptionCipher "rc5".toList p = .ok "rc5".toList ∧ encryptionMode "rc5".toList p = .ok "cbc".toList ∧
      encryptionBlockSize "rc5".toList (.rc5 bits iv) = .ok (bits / 8) :=
  ⟨by unfold encryptionCipher; rfl, by unfold encryptionMode; rfl, rfl⟩

/-- PBES2 asks its encryption scheme, nested to any depth; the key length may be given by the key derivation
function, which also answers for itself. -/
theorem C40_pbes2 (k : Kdf) (s : Str) (q : EncParams) :
    encryptionMode "pbes2".toList (.pbes2 k s q) = encryptionMode s q ∧
    encryptionCipher "pbes2".toList (.pbes2 k s q) = encryptionCipher s q ∧
    encryptionBlockSize "pbes2".toList (.pbes2 k s q) = encryptionBlockSize s q ∧
    encryptionIv "pbes2".toList (.pbes2 k s q) = encryptionIv s q ∧
    kdf "pbes2".toList (.pbes2 k s q) = .ok k.algorithm ∧
    (∀ salt n len prf, k.parameters = .pbkdf2 salt n len prf →
      keyLength "pbes2".toList (.pbes2 k s q) = (match len with | some l => .ok l | none => keyLength s q) ∧
      (k.algorithm ≠ "scrypt".toList → kdfHmac "pbes2".toList (.pbes2 k s q) = .ok (some prf) ∧
        kdfIterations "pbes2".toList (.pbes2 k s q) = .ok (some n))) ∧
    (∀ salt a b c len, k.parameters = .scrypt salt a b c len →
      keyLength "pbes2".toList (.pbes2 k s q) = (match len with | some l => .ok l | none => keyLength s q)) ∧
    (k.algorithm = "scrypt".toList → kdfHmac "pbes2".toList (.pbes2 k s q) = .ok none ∧
      kdfIterations "pbes2".toList (.pbes2 k s q) = .ok none) := by
  have hk : keyLength "pbes2".toList (.pbes2 k s q) = match k.parameters with
      | .other => .error .typeError
      | .pbkdf2 _ _ (some n) _ => .ok n
      | .scrypt _ _ _ _ (some n) => .ok n
      | .pbkdf2 _ _ none _ => keyLength s q
      | .scrypt _ _ _ _ none => keyLength s q := rfl
  refine ⟨rfl, rfl, rfl, rfl, rfl, ?_, ?_, ?_⟩
  · intro salt n len prf hp
    refine ⟨by rw [hk, hp]; cases len <;> rfl, fun ha => ?_⟩
    have h1 : kdfHmac "pbes2".toList (.pbes2 k s q) = if k.algorithm = "scrypt".toList then .ok none else
      match k.parameters with
      | .pbkdf2 _ _ _ prf => .ok (some prf)
      | .scrypt .. => .error .keyError
      | .other => .error .typeError := rfl
    have h2 : kdfIterations "pbes2".toList (.pbes2 k s q) = if k.algorithm = "scrypt".toList then .ok none else
      match k.parameters with
      | .pbkdf2 _ n _ _ => .ok (some n)
      | .scrypt .. => .error .keyError
      | .other => .error .typeError := rfl
    rw [h1, h2, if_neg ha, if_neg ha, hp]
    exact ⟨rfl, rfl⟩
  · intro salt a b c len hp
    rw [hk, hp]; cases len <;> rfl
  · intro ha
    have h1 : kdfHmac "pbes2".toList (.pbes2 k s q) = if k.algorithm = "scrypt".toList then .ok none else
      match k.parameters with
      | .pbkdf2 _ _ _ prf => .ok (some prf)
      | .scrypt .. => .error .keyError
      | .other => .error .typeError := rfl
    have h2 : kdfIterations "pbes2".toList (.pbes2 k s q) = if k.algorithm = "scrypt".toList then .ok none else
      match k.parameters with
      | .pbkdf2 _ n _ _ => .ok (some n)
      | .scrypt .. => .error .keyError
      | .other => .error .typeError := rfl
    rw [h1, h2, if_pos ha, if_pos ha]
    exact ⟨rfl, rfl⟩

example : keyLength "pbes2".toList (.pbes2 ⟨"pbkdf2".toList, .pbkdf2 (.specified [1]) 1000 none "sha256".toList⟩ "aes256_cbc".toList
    (.octets [0])) = .ok 32 := by decide +kernel

/-- Every known name is of one of the kinds above, or RC4 or RSA encryption. -/
theorem C40_names : ∀ oid name, (oid, name) ∈ encryptionMap →
    (∃ bits mode, AesName name bits mode) ∨ (∃ h c, Pbes1Name name h c) ∨ (∃ c k b, Pkcs12Name name c k b) ∨
    name ∈ ["des".toList, "tripledes_3key".toList, "rc2".toList, "rc5".toList, "pbes2".toList] ∨
    name ∈ ["rc4".toList, "rsaes_pkcs1v15".toList, "rsaes_oaep".toList] := by
  have h : ∀ e ∈ encryptionMap,
      (∃ bits ∈ [128, 192, 256], e.2 = under ("aes".toList ++ pyStrNat bits) (e.2.drop 7)) ∨
      (∃ h ∈ ["md2".toList, "md5".toList, "sha1".toList], ∃ c ∈ ["des".toList, "rc2".toList],
        e.2 = under "pbes1".toList (under h c)) ∨
      ((∃ bits ∈ [40, 128], e.2 = under "pkcs12_sha1_rc2".toList (pyStrNat bits)) ∨
        (∃ bits ∈ [40, 128], e.2 = under "pkcs12_sha1_rc4".toList (pyStrNat bits)) ∨
        (∃ keys ∈ [2, 3], e.2 = under "pkcs12_sha1_tripledes".toList (pyStrNat keys ++ "key".toList))) ∨
      e.2 ∈ ["des".toList, "tripledes_3key".toList, "rc2".toList, "rc5".toList, "pbes2".toList] ∨
      e.2 ∈ ["rc4".toList, "rsaes_pkcs1v15".toList, "rsaes_oaep".toList] := by decide +kernel
  intro oid name he
  rcases h _ he with ⟨b, hb, e⟩ | ⟨h, hh, c, hc, e⟩ | (⟨b, hb, e⟩ | ⟨b, hb, e⟩ | ⟨b, hb, e⟩) | e
  · refine .inl ⟨b, name.drop 7, ?_⟩
    have := AesName.intro (bits := b) (mode := name.drop 7) (by simpa using hb)
    rwa [← show name = _ from e] at this
  · exact .inr (.inl ⟨h, c, by rw [show name = _ from e]; exact .intro hh hc⟩)
  · exact .inr (.inr (.inl ⟨_, _, _, by rw [show name = _ from e]; exact .rc2 (by simpa using hb)⟩))
  · exact .inr (.inr (.inl ⟨_, _, _, by rw [show name = _ from e]; exact .rc4 (by simpa using hb)⟩))
  · exact .inr (.inr (.inl ⟨_, _, _, by rw [show name = _ from e]; exact .tripledes (by simpa using hb)⟩))
  · exact .inr (.inr (.inr e))

/-- An OID that is not in the table is its own native value, and every property raises `ValueError`. -/
theorem C40_unknown (oid : Str) (ht : OidText oid) (h : ∀ name, (oid, name) ∉ encryptionMap) (p : EncParams) :
    encryptionId.mapOid oid = .ok oid ∧
    kdf oid p = .error .valueError ∧ kdfHmac oid p = .error .valueError ∧ kdfSalt oid p = .error .valueError ∧
    kdfIterations oid p = .error .valueError ∧ keyLength oid p = .error .valueError ∧
    encryptionMode oid p = .error .valueError ∧ encryptionCipher oid p = .error .valueError ∧
    encryptionBlockSize oid p = .error .valueError ∧ encryptionIv oid p = .error .valueError := by
  have hd : noDot oid = false := noDot_dotted ht.2
  have n1 : oid ≠ "pbes2".toList := ne_of_dot ht.2 (by decide)
  have n2 : oid ≠ "rc2".toList := ne_of_dot ht.2 (by decide)
  have n3 : oid ≠ "rc5".toList := ne_of_dot ht.2 (by decide)
  have n4 : oid ≠ "des".toList := ne_of_dot ht.2 (by decide)
  have n5 : oid ≠ "tripledes_3key".toList := ne_of_dot ht.2 (by decide)
  have ha : isAes oid = false := by
    have t1 := take_ne ht (n := "aes128_".toList) (l := 7) (by decide) rfl (by decide)
    have t2 := take_ne ht (n := "aes192_".toList) (l := 7) (by decide) rfl (by decide)
    have t3 := take_ne ht (n := "aes256_".toList) (l := 7) (by decide) rfl (by decide)
    simp only [isAes, List.contains_eq_mem, decide_eq_false_iff_not, List.mem_cons, List.not_mem_nil, or_false, not_or]
    exact ⟨t1, t2, t3⟩
  have l1 : look cipherLengths oid = none := look_dotted (by decide +kernel) ht.2
  have l2 : look blockSizes oid = none := look_dotted (by decide +kernel) ht.2
  have c1 : ["des".toList, "tripledes_3key".toList, "rc2".toList, "rc5".toList].contains oid = false := by
    simp only [List.contains_eq_mem, decide_eq_false_iff_not, List.mem_cons, List.not_mem_nil, or_false, not_or]
    exact ⟨n4, n5, n2, n3⟩
  have c2 : ["des".toList, "rc2".toList, "rc5".toList].contains oid = false := by
    simp only [List.contains_eq_mem, decide_eq_false_iff_not, List.mem_cons, List.not_mem_nil, or_false, not_or]
    exact ⟨n4, n2, n3⟩
  have c3 : ["rc2".toList, "rc5".toList].contains oid = false := by
    simp only [List.contains_eq_mem, decide_eq_false_iff_not, List.mem_cons, List.not_mem_nil, or_false, not_or]
    exact ⟨n2, n3⟩
  have c4 : octetIvAlgos.contains oid = false := by
    have : ∀ e ∈ octetIvAlgos, '.' ∉ e := by decide +kernel
    simp only [List.contains_eq_mem, decide_eq_false_iff_not]
    exact fun hm => this _ hm ht.2
  have f : ∀ {α : Type} {a b : α}, (if false = true then a else b) = b := fun {_ _ _} => if_neg (by decide)
  refine ⟨?_, ?_, ?_, ?_, ?_, ?_, ?_, ?_, ?_, ?_⟩
  · have e5 : StrMap.get encryptionMap oid = none := by
      have : look encryptionMap oid = none := look_none (fun e he hc => h e.2 (by rw [← hc]; exact he))
      exact this
    have : encryptionId.mapOid oid = .ok ((StrMap.get encryptionMap oid).getD oid) := rfl
    rw [this, e5]; rfl
  · unfold kdf; rw [if_neg n1, hd, f]
  · unfold kdfHmac; rw [if_neg n1, hd, f]
  · unfold kdfSalt; rw [if_neg n1, hd, f]
  · unfold kdfIterations; rw [if_neg n1, hd, f]
  · unfold keyLength
    rw [if_neg (take_ne ht (by decide) rfl (by decide)), l1]
    simp only
    rw [if_neg n2, if_neg n1, hd, f]
  · unfold encryptionMode
    rw [ha, f, if_neg (take_ne ht (by decide) rfl (by decide)), if_neg (take_ne ht (by decide) rfl (by decide)), c1, f, if_neg n1]
  · unfold encryptionCipher
    rw [ha, f, c2, f, if_neg n5, if_neg n1, hd, f]
  · unfold encryptionBlockSize
    rw [ha, f, l2]
    simp only
    rw [if_neg n3, if_neg n1, hd, f]
  · unfold encryptionIv
    rw [c3, f, c4, f, if_neg n1, hd, f]

/-- Algorithms with the parameters that belong to them, nested to any depth. Left out are RC4 and RSA encryption, which
are not block ciphers with a key length, RC5, whose key length is not in the parameters, and RC2 parameters without a
version. -/
inductive Proper : Str → EncParams → Prop
  | aes {name : Str} {bits : Nat} {mode : Str} (p : EncParams) : AesName name bits mode → Proper name p
  | pbes1 {name h c : Str} (p : EncParams) : Pbes1Name name h c → Proper name p
  | pkcs12 {name c : Str} {k b : Int} (p : EncParams) : Pkcs12Name name c k b → Proper name p
  | des (p : EncParams) : Proper "des".toList p
  | tripledes (p : EncParams) : Proper "tripledes_3key".toList p
  | rc2 (v : Int) (iv : Bytes) : Proper "rc2".toList (.rc2 (some v) iv)
  | pbes2 {s : Str} {q : EncParams} (k : Kdf) : k.parameters ≠ .other → Proper s q → Proper "pbes2".toList (.pbes2 k s q)

/-- For these mode, cipher and block size are always found, and the key length is found or refused with `ValueError`.
The full property would say so for every known name, see `C40_key_error_fails`, `C40_rc2_fails`. -/
theorem C40_total_partial {name : Str} {p : EncParams} (h : Proper name p) :
    (∃ m, encryptionMode name p = .ok m) ∧ (∃ c, encryptionCipher name p = .ok c) ∧
    (∃ b, encryptionBlockSize name p = .ok b) ∧
    ((∃ n, keyLength name p = .ok n) ∨ keyLength name p = .error .valueError) := by
  induction h with
  | aes p h => have := C40_aes h p; exact ⟨⟨_, this.2.2.1⟩, ⟨_, this.1⟩, ⟨_, this.2.2.2⟩, .inl ⟨_, this.2.1⟩⟩
  | pbes1 p h =>
    obtain ⟨-, -, h1, h2, h3, h4⟩ := C40_pbes1 h p
    exact ⟨⟨_, h3⟩, ⟨_, h1⟩, ⟨_, h4⟩, .inl ⟨_, h2⟩⟩
  | pkcs12 p h =>
    obtain ⟨-, -, h1, h2, h3, h4⟩ := C40_pkcs12 h p
    exact ⟨⟨_, h3⟩, ⟨_, h1⟩, ⟨_, h4⟩, .inl ⟨_, h2⟩⟩
  | des p => obtain ⟨⟨h1, h2, h3, h4⟩, -⟩ := C40_des p; exact ⟨⟨_, h3⟩, ⟨_, h1⟩, ⟨_, h4⟩, .inl ⟨_, h2⟩⟩
  | tripledes p => obtain ⟨-, h1, h2, h3, h4⟩ := C40_des p; exact ⟨⟨_, h3⟩, ⟨_, h1⟩, ⟨_, h4⟩, .inl ⟨_, h2⟩⟩
  | rc2 v iv =>
    refine ⟨⟨_, rfl⟩, ⟨_, rfl⟩, ⟨_, rfl⟩, ?_⟩
    have hk : keyLength "rc2".toList (.rc2 (some v) iv) = rc2KeyLength (some v) := rfl
    rw [hk]
    unfold rc2KeyLength
    simp only
    split
    · exact .inl ⟨_, rfl⟩
    · split
      · exact .inl ⟨_, rfl⟩
      · exact .inr rfl
  | @pbes2 s q k hk _ ih =>
    obtain ⟨h1, h2, h3, -, -, h5, h6, -⟩ := C40_pbes2 k s q
    rw [h1, h2, h3]
    refine ⟨ih.1, ih.2.1, ih.2.2.1, ?_⟩
    cases hp : k.parameters with
    | other => exact absurd hp hk
    | pbkdf2 salt n len prf =>
      rw [(h5 _ _ _ _ hp).1]
      cases len with
      | none => exact ih.2.2.2
      | some l => exact .inl ⟨l, rfl⟩
    | scrypt salt a b c len =>
      rw [h6 _ _ _ _ _ hp]
      cases len with
      | none => exact ih.2.2.2
      | some l => exact .inl ⟨l, rfl⟩

example : Proper "pbes2".toList (.pbes2 ⟨"scrypt".toList, .scrypt [1] 2 3 4 none⟩ "pbes2".toList
    (.pbes2 ⟨"pbkdf2".toList, .pbkdf2 .otherSource 1 none "sha1".toList⟩ "aes128_cbc".toList (.octets []))) :=
  .pbes2 _ (by decide) (.pbes2 _ (by decide) (.aes _ (bits := 128) (mode := "cbc".toList) (by
    have p : "aes128_cbc".toList = under ("aes".toList ++ pyStrNat 128) "cbc".toList := by decide +kernel
    rw [p]; exact .intro (.inl rfl))))

/-- No key derivation function and no PRF for the ciphers: `ValueError`. -/
theorem C40_cipher_kdf (p : EncParams) : ∀ n ∈ ["des".toList, "tripledes_3key".toList, "rc2".toList, "rc4".toList, "rc5".toList,
    "rsaes_pkcs1v15".toList, "rsaes_oaep".toList], kdf n p = .error .valueError ∧ kdfHmac n p = .error .valueError := by
  simp only [List.mem_cons, List.not_mem_nil, or_false]
  rintro n (rfl | rfl | rfl | rfl | rfl | rfl | rfl) <;> exact ⟨rfl, rfl⟩

/-- Known names for which a lookup fails with `KeyError` instead of `ValueError`. -/
theorem C40_key_error_fails (p : EncParams) :
    (∀ n ∈ ["rc4".toList, "rc5".toList, "rsaes_pkcs1v15".toList, "rsaes_oaep".toList], keyLength n p = .error .keyError) ∧
    (∀ n ∈ ["rc4".toList, "rsaes_pkcs1v15".toList, "rsaes_oaep".toList],
      encryptionCipher n p = .error .keyError ∧ encryptionBlockSize n p = .error .keyError) := by
  simp only [List.mem_cons, List.not_mem_nil, or_false]
  constructor
  · rintro n (rfl | rfl | rfl | rfl) <;> (unfold keyLength; rfl)
  · rintro n (rfl | rfl | rfl) <;> exact ⟨by unfold encryptionCipher; rfl, by unfold encryptionBlockSize; rfl⟩

/-- RC2 parameters without a version mean a 32-bit key, but reading the key length is a `TypeError`; and a version of
256 or more, a number of bits, is returned as the number of bytes. -/
theorem C40_rc2_fails (iv : Bytes) :
    keyLength "rc2".toList (.rc2 none iv) = .error .typeError ∧ keyLength "rc2".toList (.rc2 (some 256) iv) = .ok 256 :=
  ⟨rfl, rfl⟩

/-- The PRF of the key wrap algorithms with padding is `wrap`. -/
theorem C40_wrap_pad_fails (p : EncParams) :
    kdf "aes128_wrap_pad".toList p = .error .valueError ∧ kdfHmac "aes128_wrap_pad".toList p = .ok (some "wrap".toList) :=
  ⟨rfl, rfl⟩

/-- The salt of scrypt: `AttributeError`. -/
theorem C40_scrypt_salt_fails (salt : Bytes) (a b c : Int) (len : Option Int) (s : Str) (q : EncParams) :
    kdfSalt "pbes2".toList (.pbes2 ⟨"scrypt".toList, .scrypt salt a b c len⟩ s q) = .error .attributeError := rfl

end Asn1.Props
