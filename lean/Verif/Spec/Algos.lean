import Verif.Model.PyStr

/-! # What algorithm names say -/

namespace Asn1.Spec
open Asn1

/-- Hash functions that occur in the names of signature algorithms. -/
def hashNames : List Str := ["md2".toList, "md5".toList, "sha1".toList, "sha224".toList, "sha256".toList, "sha384".toList,
  "sha512".toList, "sha3_224".toList, "sha3_256".toList, "sha3_384".toList, "sha3_512".toList]

/-- Signature schemes: how a name ends, and what the scheme is called. -/
def schemes : List (Str × Str) := [("rsa".toList, "rsassa_pkcs1v15".toList), ("dsa".toList, "dsa".toList),
  ("ecdsa".toList, "ecdsa".toList), ("ecdsa_plain".toList, "ecdsa".toList)]

/-- `a_b` -/
def under (a b : Str) : Str := a ++ '_' :: b

/-- A dotted OID, as far as it matters here. -/
def OidText (s : Str) : Prop := (∀ c ∈ s, ('0' ≤ c ∧ c ≤ '9') ∨ c = '.') ∧ '.' ∈ s

/-- `aes128_cbc` and so on: key bits and mode. -/
inductive AesName : Str → Nat → Str → Prop
  | intro {bits : Nat} {mode : Str} : bits = 128 ∨ bits = 192 ∨ bits = 256 →
      AesName (under ("aes".toList ++ pyStrNat bits) mode) bits mode

/-- `pbes1_md5_des` and so on: hash and cipher. -/
inductive Pbes1Name : Str → Str → Str → Prop
  | intro {h c : Str} : h ∈ ["md2".toList, "md5".toList, "sha1".toList] → c ∈ ["des".toList, "rc2".toList] →
      Pbes1Name (under "pbes1".toList (under h c)) h c

/-- `pkcs12_sha1_rc2_40` and so on: cipher, length of the key in bytes, block size (0 for a stream cipher). A DES
key has 8 bytes. -/
inductive Pkcs12Name : Str → Str → Int → Int → Prop
  | rc2 {bits : Nat} : bits = 40 ∨ bits = 128 →
      Pkcs12Name (under "pkcs12_sha1_rc2".toList (pyStrNat bits)) "rc2".toList (bits / 8) 8
  | rc4 {bits : Nat} : bits = 40 ∨ bits = 128 →
      Pkcs12Name (under "pkcs12_sha1_rc4".toList (pyStrNat bits)) "rc4".toList (bits / 8) 0
  | tripledes {keys : Nat} : keys = 2 ∨ keys = 3 →
      Pkcs12Name (under "pkcs12_sha1_tripledes".toList (pyStrNat keys ++ "key".toList)) "tripledes".toList (keys * 8) 8

end Asn1.Spec
