import Verif.Model.Oid

/-! # Tables of `algos.py` -/

namespace Asn1.Algos
open Asn1

/-- `SignedDigestAlgorithmId._map` (algos.py:233-288) -/
def signedDigestMap : StrMap := [
  ("1.3.14.3.2.3".toList, "md5_rsa".toList),
  ("1.3.14.3.2.29".toList, "sha1_rsa".toList),
  ("1.3.14.7.2.3.1".toList, "md2_rsa".toList),
  ("1.2.840.113549.1.1.2".toList, "md2_rsa".toList),
  ("1.2.840.113549.1.1.4".toList, "md5_rsa".toList),
  ("1.2.840.113549.1.1.5".toList, "sha1_rsa".toList),
  ("1.2.840.113549.1.1.14".toList, "sha224_rsa".toList),
  ("1.2.840.113549.1.1.11".toList, "sha256_rsa".toList),
  ("1.2.840.113549.1.1.12".toList, "sha384_rsa".toList),
  ("1.2.840.113549.1.1.13".toList, "sha512_rsa".toList),
  ("1.2.840.113549.1.1.10".toList, "rsassa_pss".toList),
  ("1.2.840.10040.4.3".toList, "sha1_dsa".toList),
  ("1.3.14.3.2.13".toList, "sha1_dsa".toList),
  ("1.3.14.3.2.27".toList, "sha1_dsa".toList),
  ("2.16.840.1.101.3.4.3.1".toList, "sha224_dsa".toList),
  ("2.16.840.1.101.3.4.3.2".toList, "sha256_dsa".toList),
  ("2.16.840.1.101.3.4.3.3".toList, "sha384_dsa".toList),
  ("2.16.840.1.101.3.4.3.4".toList, "sha512_dsa".toList),
  ("1.2.840.10045.4.1".toList, "sha1_ecdsa".toList),
  ("1.2.840.10045.4.3.1".toList, "sha224_ecdsa".toList),
  ("1.2.840.10045.4.3.2".toList, "sha256_ecdsa".toList),
  ("1.2.840.10045.4.3.3".toList, "sha384_ecdsa".toList),
  ("1.2.840.10045.4.3.4".toList, "sha512_ecdsa".toList),
  ("2.16.840.1.101.3.4.3.5".toList, "sha3_224_dsa".toList),
  ("2.16.840.1.101.3.4.3.6".toList, "sha3_256_dsa".toList),
  ("2.16.840.1.101.3.4.3.7".toList, "sha3_384_dsa".toList),
  ("2.16.840.1.101.3.4.3.8".toList, "sha3_512_dsa".toList),
  ("2.16.840.1.101.3.4.3.9".toList, "sha3_224_ecdsa".toList),
  ("2.16.840.1.101.3.4.3.10".toList, "sha3_256_ecdsa".toList),
  ("2.16.840.1.101.3.4.3.11".toList, "sha3_384_ecdsa".toList),
  ("2.16.840.1.101.3.4.3.12".toList, "sha3_512_ecdsa".toList),
  ("2.16.840.1.101.3.4.3.13".toList, "sha3_224_rsa".toList),
  ("2.16.840.1.101.3.4.3.14".toList, "sha3_256_rsa".toList),
  ("2.16.840.1.101.3.4.3.15".toList, "sha3_384_rsa".toList),
  ("2.16.840.1.101.3.4.3.16".toList, "sha3_512_rsa".toList),
  ("1.2.840.113549.1.1.1".toList, "rsassa_pkcs1v15".toList),
  ("1.2.840.10040.4.1".toList, "dsa".toList),
  ("1.2.840.10045.4".toList, "ecdsa".toList),
  ("1.3.101.112".toList, "ed25519".toList),
  ("1.3.101.113".toList, "ed448".toList),
  ("0.4.0.127.0.7.1.1.4.1.1".toList, "sha1_ecdsa_plain".toList),
  ("0.4.0.127.0.7.1.1.4.1.2".toList, "sha224_ecdsa_plain".toList),
  ("0.4.0.127.0.7.1.1.4.1.3".toList, "sha256_ecdsa_plain".toList),
  ("0.4.0.127.0.7.1.1.4.1.4".toList, "sha384_ecdsa_plain".toList),
  ("0.4.0.127.0.7.1.1.4.1.5".toList, "sha512_ecdsa_plain".toList),
  ("0.4.0.127.0.7.1.1.4.1.8".toList, "sha3_224_ecdsa_plain".toList),
  ("0.4.0.127.0.7.1.1.4.1.9".toList, "sha3_256_ecdsa_plain".toList),
  ("0.4.0.127.0.7.1.1.4.1.10".toList, "sha3_384_ecdsa_plain".toList),
  ("0.4.0.127.0.7.1.1.4.1.11".toList, "sha3_512_ecdsa_plain".toList)]

/-- `SignedDigestAlgorithmId._reverse_map` (algos.py:290-336) -/
def signedDigestRev : StrMap := [
  ("dsa".toList, "1.2.840.10040.4.1".toList),
  ("ecdsa".toList, "1.2.840.10045.4".toList),
  ("md2_rsa".toList, "1.2.840.113549.1.1.2".toList),
  ("md5_rsa".toList, "1.2.840.113549.1.1.4".toList),
  ("rsassa_pkcs1v15".toList, "1.2.840.113549.1.1.1".toList),
  ("rsassa_pss".toList, "1.2.840.113549.1.1.10".toList),
  ("sha1_dsa".toList, "1.2.840.10040.4.3".toList),
  ("sha1_ecdsa".toList, "1.2.840.10045.4.1".toList),
  ("sha1_rsa".toList, "1.2.840.113549.1.1.5".toList),
  ("sha224_dsa".toList, "2.16.840.1.101.3.4.3.1".toList),
  ("sha224_ecdsa".toList, "1.2.840.10045.4.3.1".toList),
  ("sha224_rsa".toList, "1.2.840.113549.1.1.14".toList),
  ("sha256_dsa".toList, "2.16.840.1.101.3.4.3.2".toList),
  ("sha256_ecdsa".toList, "1.2.840.10045.4.3.2".toList),
  ("sha256_rsa".toList, "1.2.840.113549.1.1.11".toList),
  ("sha384_dsa".toList, "2.16.840.1.101.3.4.3.3".toList),
  ("sha384_ecdsa".toList, "1.2.840.10045.4.3.3".toList),
  ("sha384_rsa".toList, "1.2.840.113549.1.1.12".toList),
  ("sha512_dsa".toList, "2.16.840.1.101.3.4.3.4".toList),
  ("sha512_ecdsa".toList, "1.2.840.10045.4.3.4".toList),
  ("sha512_rsa".toList, "1.2.840.113549.1.1.13".toList),
  ("sha3_224_dsa".toList, "2.16.840.1.101.3.4.3.5".toList),
  ("sha3_256_dsa".toList, "2.16.840.1.101.3.4.3.6".toList),
  ("sha3_384_dsa".toList, "2.16.840.1.101.3.4.3.7".toList),
  ("sha3_512_dsa".toList, "2.16.840.1.101.3.4.3.8".toList),
  ("sha3_224_ecdsa".toList, "2.16.840.1.101.3.4.3.9".toList),
  ("sha3_256_ecdsa".toList, "2.16.840.1.101.3.4.3.10".toList),
  ("sha3_384_ecdsa".toList, "2.16.840.1.101.3.4.3.11".toList),
  ("sha3_512_ecdsa".toList, "2.16.840.1.101.3.4.3.12".toList),
  ("sha3_224_rsa".toList, "2.16.840.1.101.3.4.3.13".toList),
  ("sha3_256_rsa".toList, "2.16.840.1.101.3.4.3.14".toList),
  ("sha3_384_rsa".toList, "2.16.840.1.101.3.4.3.15".toList),
  ("sha3_512_rsa".toList, "2.16.840.1.101.3.4.3.16".toList),
  ("ed25519".toList, "1.3.101.112".toList),
  ("ed448".toList, "1.3.101.113".toList),
  ("sha1_ecdsa_plain".toList, "0.4.0.127.0.7.1.1.4.1.1".toList),
  ("sha224_ecdsa_plain".toList, "0.4.0.127.0.7.1.1.4.1.2".toList),
  ("sha256_ecdsa_plain".toList, "0.4.0.127.0.7.1.1.4.1.3".toList),
  ("sha384_ecdsa_plain".toList, "0.4.0.127.0.7.1.1.4.1.4".toList),
  ("sha512_ecdsa_plain".toList, "0.4.0.127.0.7.1.1.4.1.5".toList),
  ("sha3_224_ecdsa_plain".toList, "0.4.0.127.0.7.1.1.4.1.8".toList),
  ("sha3_256_ecdsa_plain".toList, "0.4.0.127.0.7.1.1.4.1.9".toList),
  ("sha3_384_ecdsa_plain".toList, "0.4.0.127.0.7.1.1.4.1.10".toList),
  ("sha3_512_ecdsa_plain".toList, "0.4.0.127.0.7.1.1.4.1.11".toList)]

/-- `SignedDigestAlgorithm._algo_map` (algos.py:350-389) -/
def algoMap : StrMap := [
  ("md2_rsa".toList, "md2".toList),
  ("md5_rsa".toList, "md5".toList),
  ("sha1_rsa".toList, "sha1".toList),
  ("sha224_rsa".toList, "sha224".toList),
  ("sha256_rsa".toList, "sha256".toList),
  ("sha384_rsa".toList, "sha384".toList),
  ("sha512_rsa".toList, "sha512".toList),
  ("sha1_dsa".toList, "sha1".toList),
  ("sha224_dsa".toList, "sha224".toList),
  ("sha256_dsa".toList, "sha256".toList),
  ("sha384_dsa".toList, "sha384".toList),
  ("sha512_dsa".toList, "sha512".toList),
  ("sha1_ecdsa".toList, "sha1".toList),
  ("sha1_ecdsa_plain".toList, "sha1".toList),
  ("sha224_ecdsa".toList, "sha224".toList),
  ("sha256_ecdsa".toList, "sha256".toList),
  ("sha384_ecdsa".toList, "sha384".toList),
  ("sha512_ecdsa".toList, "sha512".toList),
  ("sha224_ecdsa_plain".toList, "sha224".toList),
  ("sha256_ecdsa_plain".toList, "sha256".toList),
  ("sha384_ecdsa_plain".toList, "sha384".toList),
  ("sha512_ecdsa_plain".toList, "sha512".toList),
  ("sha3_224_dsa".toList, "sha3_224".toList),
  ("sha3_256_dsa".toList, "sha3_256".toList),
  ("sha3_384_dsa".toList, "sha3_384".toList),
  ("sha3_512_dsa".toList, "sha3_512".toList),
  ("sha3_224_ecdsa".toList, "sha3_224".toList),
  ("sha3_256_ecdsa".toList, "sha3_256".toList),
  ("sha3_384_ecdsa".toList, "sha3_384".toList),
  ("sha3_512_ecdsa".toList, "sha3_512".toList),
  ("sha3_224_ecdsa_plain".toList, "sha3_224".toList),
  ("sha3_256_ecdsa_plain".toList, "sha3_256".toList),
  ("sha3_384_ecdsa_plain".toList, "sha3_384".toList),
  ("sha3_512_ecdsa_plain".toList, "sha3_512".toList),
  ("sha3_224_rsa".toList, "sha3_224".toList),
  ("sha3_256_rsa".toList, "sha3_256".toList),
  ("sha3_384_rsa".toList, "sha3_384".toList),
  ("sha3_512_rsa".toList, "sha3_512".toList)]

/-- `algo_map` in `SignedDigestAlgorithm.signature_algo` (algos.py:401-446) -/
def signatureAlgoMap : StrMap := [
  ("md2_rsa".toList, "rsassa_pkcs1v15".toList),
  ("md5_rsa".toList, "rsassa_pkcs1v15".toList),
  ("sha1_rsa".toList, "rsassa_pkcs1v15".toList),
  ("sha224_rsa".toList, "rsassa_pkcs1v15".toList),
  ("sha256_rsa".toList, "rsassa_pkcs1v15".toList),
  ("sha384_rsa".toList, "rsassa_pkcs1v15".toList),
  ("sha512_rsa".toList, "rsassa_pkcs1v15".toList),
  ("sha3_224_rsa".toList, "rsassa_pkcs1v15".toList),
  ("sha3_256_rsa".toList, "rsassa_pkcs1v15".toList),
  ("sha3_384_rsa".toList, "rsassa_pkcs1v15".toList),
  ("sha3_512_rsa".toList, "rsassa_pkcs1v15".toList),
  ("rsassa_pkcs1v15".toList, "rsassa_pkcs1v15".toList),
  ("rsassa_pss".toList, "rsassa_pss".toList),
  ("sha1_dsa".toList, "dsa".toList),
  ("sha224_dsa".toList, "dsa".toList),
  ("sha256_dsa".toList, "dsa".toList),
  ("sha384_dsa".toList, "dsa".toList),
  ("sha512_dsa".toList, "dsa".toList),
  ("sha3_224_dsa".toList, "dsa".toList),
  ("sha3_256_dsa".toList, "dsa".toList),
  ("sha3_384_dsa".toList, "dsa".toList),
  ("sha3_512_dsa".toList, "dsa".toList),
  ("dsa".toList, "dsa".toList),
  ("sha1_ecdsa".toList, "ecdsa".toList),
  ("sha224_ecdsa".toList, "ecdsa".toList),
  ("sha256_ecdsa".toList, "ecdsa".toList),
  ("sha384_ecdsa".toList, "ecdsa".toList),
  ("sha512_ecdsa".toList, "ecdsa".toList),
  ("sha3_224_ecdsa".toList, "ecdsa".toList),
  ("sha3_256_ecdsa".toList, "ecdsa".toList),
  ("sha3_384_ecdsa".toList, "ecdsa".toList),
  ("sha3_512_ecdsa".toList, "ecdsa".toList),
  ("sha1_ecdsa_plain".toList, "ecdsa".toList),
  ("sha224_ecdsa_plain".toList, "ecdsa".toList),
  ("sha256_ecdsa_plain".toList, "ecdsa".toList),
  ("sha384_ecdsa_plain".toList, "ecdsa".toList),
  ("sha512_ecdsa_plain".toList, "ecdsa".toList),
  ("sha3_224_ecdsa_plain".toList, "ecdsa".toList),
  ("sha3_256_ecdsa_plain".toList, "ecdsa".toList),
  ("sha3_384_ecdsa_plain".toList, "ecdsa".toList),
  ("sha3_512_ecdsa_plain".toList, "ecdsa".toList),
  ("ecdsa".toList, "ecdsa".toList),
  ("ed25519".toList, "ed25519".toList),
  ("ed448".toList, "ed448".toList)]

/-- `cms_algo_map` in `SignedDigestAlgorithm.cms_hash_algo` (algos.py:508-511) -/
def cmsAlgoMap : StrMap := [
  ("ed25519".toList, "sha512".toList),
  ("ed448".toList, "shake256".toList)]

/-- `EncryptionAlgorithmId._map` (algos.py:751-800) -/
def encryptionMap : StrMap := [
  ("1.3.14.3.2.7".toList, "des".toList),
  ("1.2.840.113549.3.7".toList, "tripledes_3key".toList),
  ("1.2.840.113549.3.2".toList, "rc2".toList),
  ("1.2.840.113549.3.4".toList, "rc4".toList),
  ("1.2.840.113549.3.9".toList, "rc5".toList),
  ("2.16.840.1.101.3.4.1.1".toList, "aes128_ecb".toList),
  ("2.16.840.1.101.3.4.1.2".toList, "aes128_cbc".toList),
  ("2.16.840.1.101.3.4.1.3".toList, "aes128_ofb".toList),
  ("2.16.840.1.101.3.4.1.4".toList, "aes128_cfb".toList),
  ("2.16.840.1.101.3.4.1.5".toList, "aes128_wrap".toList),
  ("2.16.840.1.101.3.4.1.6".toList, "aes128_gcm".toList),
  ("2.16.840.1.101.3.4.1.7".toList, "aes128_ccm".toList),
  ("2.16.840.1.101.3.4.1.8".toList, "aes128_wrap_pad".toList),
  ("2.16.840.1.101.3.4.1.21".toList, "aes192_ecb".toList),
  ("2.16.840.1.101.3.4.1.22".toList, "aes192_cbc".toList),
  ("2.16.840.1.101.3.4.1.23".toList, "aes192_ofb".toList),
  ("2.16.840.1.101.3.4.1.24".toList, "aes192_cfb".toList),
  ("2.16.840.1.101.3.4.1.25".toList, "aes192_wrap".toList),
  ("2.16.840.1.101.3.4.1.26".toList, "aes192_gcm".toList),
  ("2.16.840.1.101.3.4.1.27".toList, "aes192_ccm".toList),
  ("2.16.840.1.101.3.4.1.28".toList, "aes192_wrap_pad".toList),
  ("2.16.840.1.101.3.4.1.41".toList, "aes256_ecb".toList),
  ("2.16.840.1.101.3.4.1.42".toList, "aes256_cbc".toList),
  ("2.16.840.1.101.3.4.1.43".toList, "aes256_ofb".toList),
  ("2.16.840.1.101.3.4.1.44".toList, "aes256_cfb".toList),
  ("2.16.840.1.101.3.4.1.45".toList, "aes256_wrap".toList),
  ("2.16.840.1.101.3.4.1.46".toList, "aes256_gcm".toList),
  ("2.16.840.1.101.3.4.1.47".toList, "aes256_ccm".toList),
  ("2.16.840.1.101.3.4.1.48".toList, "aes256_wrap_pad".toList),
  ("1.2.840.113549.1.5.13".toList, "pbes2".toList),
  ("1.2.840.113549.1.5.1".toList, "pbes1_md2_des".toList),
  ("1.2.840.113549.1.5.3".toList, "pbes1_md5_des".toList),
  ("1.2.840.113549.1.5.4".toList, "pbes1_md2_rc2".toList),
  ("1.2.840.113549.1.5.6".toList, "pbes1_md5_rc2".toList),
  ("1.2.840.113549.1.5.10".toList, "pbes1_sha1_des".toList),
  ("1.2.840.113549.1.5.11".toList, "pbes1_sha1_rc2".toList),
  ("1.2.840.113549.1.12.1.1".toList, "pkcs12_sha1_rc4_128".toList),
  ("1.2.840.113549.1.12.1.2".toList, "pkcs12_sha1_rc4_40".toList),
  ("1.2.840.113549.1.12.1.3".toList, "pkcs12_sha1_tripledes_3key".toList),
  ("1.2.840.113549.1.12.1.4".toList, "pkcs12_sha1_tripledes_2key".toList),
  ("1.2.840.113549.1.12.1.5".toList, "pkcs12_sha1_rc2_128".toList),
  ("1.2.840.113549.1.12.1.6".toList, "pkcs12_sha1_rc2_40".toList),
  ("1.2.840.113549.1.1.1".toList, "rsaes_pkcs1v15".toList),
  ("1.2.840.113549.1.1.7".toList, "rsaes_oaep".toList)]

/-- the key length of the AES names in `EncryptionAlgorithm.key_length` (algos.py:1023-1027) -/
def aesLengths : List (Str × Int) := [
  ("aes128_".toList, 16),
  ("aes192_".toList, 24),
  ("aes256_".toList, 32)]

/-- `cipher_lengths` in `EncryptionAlgorithm.key_length` (algos.py:1029-1032) -/
def cipherLengths : List (Str × Int) := [
  ("des".toList, 8),
  ("tripledes_3key".toList, 24)]

/-- `encoded_key_bits_map` in `EncryptionAlgorithm.key_length` (algos.py:1042-1046) -/
def rc2Lengths : List (Int × Int) := [(160, 5), (120, 8), (58, 16)]

/-- the key lengths of the PBES1 and PKCS#12 names in `EncryptionAlgorithm.key_length` (algos.py:1077-1090) -/
def pbeLengths : List (Str × Int) := [
  ("pbes1_md2_des".toList, 8),
  ("pbes1_md5_des".toList, 8),
  ("pbes1_md2_rc2".toList, 8),
  ("pbes1_md5_rc2".toList, 8),
  ("pbes1_sha1_des".toList, 8),
  ("pbes1_sha1_rc2".toList, 8),
  ("pkcs12_sha1_rc4_128".toList, 16),
  ("pkcs12_sha1_rc4_40".toList, 5),
  ("pkcs12_sha1_tripledes_3key".toList, 24),
  ("pkcs12_sha1_tripledes_2key".toList, 16),
  ("pkcs12_sha1_rc2_128".toList, 16),
  ("pkcs12_sha1_rc2_40".toList, 5)]

/-- the ciphers of the PBES1 and PKCS#12 names in `EncryptionAlgorithm.encryption_cipher` (algos.py:1160-1173) -/
def pbeCiphers : StrMap := [
  ("pbes1_md2_des".toList, "des".toList),
  ("pbes1_md5_des".toList, "des".toList),
  ("pbes1_md2_rc2".toList, "rc2".toList),
  ("pbes1_md5_rc2".toList, "rc2".toList),
  ("pbes1_sha1_des".toList, "des".toList),
  ("pbes1_sha1_rc2".toList, "rc2".toList),
  ("pkcs12_sha1_rc4_128".toList, "rc4".toList),
  ("pkcs12_sha1_rc4_40".toList, "rc4".toList),
  ("pkcs12_sha1_tripledes_3key".toList, "tripledes".toList),
  ("pkcs12_sha1_tripledes_2key".toList, "tripledes".toList),
  ("pkcs12_sha1_rc2_128".toList, "rc2".toList),
  ("pkcs12_sha1_rc2_40".toList, "rc2".toList)]

/-- `cipher_map` in `EncryptionAlgorithm.encryption_block_size` (algos.py:1196-1200) -/
def blockSizes : List (Str × Int) := [
  ("des".toList, 8),
  ("tripledes_3key".toList, 8),
  ("rc2".toList, 8)]

/-- the block sizes of the PBES1 and PKCS#12 names in `EncryptionAlgorithm.encryption_block_size` (algos.py:1211-1224) -/
def pbeBlockSizes : List (Str × Int) := [
  ("pbes1_md2_des".toList, 8),
  ("pbes1_md5_des".toList, 8),
  ("pbes1_md2_rc2".toList, 8),
  ("pbes1_md5_rc2".toList, 8),
  ("pbes1_sha1_des".toList, 8),
  ("pbes1_sha1_rc2".toList, 8),
  ("pkcs12_sha1_rc4_128".toList, 0),
  ("pkcs12_sha1_rc4_40".toList, 0),
  ("pkcs12_sha1_tripledes_3key".toList, 8),
  ("pkcs12_sha1_tripledes_2key".toList, 8),
  ("pkcs12_sha1_rc2_128".toList, 8),
  ("pkcs12_sha1_rc2_40".toList, 8)]

/-- `_ForceNullParameters._null_algos` (algos.py:61-72) -/
def nullAlgos : List Str := [
  "1.2.840.113549.1.1.1".toList,
  "1.2.840.113549.1.1.11".toList,
  "1.2.840.113549.1.1.12".toList,
  "1.2.840.113549.1.1.13".toList,
  "1.2.840.113549.1.1.14".toList,
  "1.3.14.3.2.26".toList,
  "2.16.840.1.101.3.4.2.4".toList,
  "2.16.840.1.101.3.4.2.1".toList,
  "2.16.840.1.101.3.4.2.2".toList,
  "2.16.840.1.101.3.4.2.3".toList]

/-- `octet_string_iv_oids` in `EncryptionAlgorithm.encryption_iv` (algos.py:1250-1259) -/
def octetIvAlgos : List Str := [
  "des".toList,
  "tripledes_3key".toList,
  "aes128_cbc".toList,
  "aes192_cbc".toList,
  "aes256_cbc".toList,
  "aes128_ofb".toList,
  "aes192_ofb".toList,
  "aes256_ofb".toList]

end Asn1.Algos
