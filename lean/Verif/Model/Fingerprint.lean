import Verif.Model.Core
import Verif.Model.Iri

/-! # Fingerprints: `sha1`, `sha256` and their text -/

namespace Asn1

/-- A value with `_sha1` (or `_sha256`), `none` until it has been asked for (x509.py:984-985, 2199-2200, crl.py:304-305, keys.py:1109-1110). -/
structure Digested where
  value : Val
  digest : Option Bytes

/-- `sha1` and `sha256` of certificates, names and lists of revoked certificates (x509.py:1163-1182, 2852-2860, 2873-2882, crl.py:516-535). `H` is
`hashlib.sha1(…).digest()` or that of SHA-256. -/
def fingerprint (r : Ops) (H : Bytes → Bytes) (s : Digested) : Py (Bytes × Digested) :=
  match s.digest with
  | some d => .ok (d, s)
  | none => do
    let (b, v) ← r.dump s.value false
    .ok (H b, ⟨v, some (H b)⟩)

/-- `byte_cls(value)` of the classes the key can have (core.py:2409-2424, 2811-2821). What reading caches is not kept. -/
def keyOctets (E : Env) (v : Val) : Py Bytes :=
  match v with
  | .parsable c o _ _ => do
    let (b, _) ← parsableBytes (parsableProto E c).2 (parsableProto E c).1 o
    .ok b
  | .leaf _ (.octetBits o) => do
    let (b, _) ← OctetBitString.native o
    .ok (b.getD [])
  | _ => .error .typeError

/-- `sha1` and `sha256` of `PublicKeyInfo` (keys.py:1276-1295); `public_key` is the second field. -/
def keyFingerprint (E : Env) (r : Ops) (H : Bytes → Bytes) (s : Digested) : Py (Bytes × Digested) :=
  match s.digest with
  | some d => .ok (d, s)
  | none => do
    let (k, v) ← getItem E r s.value 1
    let b ← keyOctets E k
    .ok (H b, ⟨v, some (H b)⟩)

/-- `'%02X' % c` -/
def hexPair (b : UInt8) : Str := [Char.ofNat (Iri.upperHex (b.toNat / 16)), Char.ofNat (Iri.upperHex (b.toNat % 16))]

/-- `' '.join(…)` -/
def spaced : List Str → Str
  | [] => []
  | [s] => s
  | s :: t :: ts => s ++ [' '] ++ spaced (t :: ts)

/-- `sha1_fingerprint`, `sha256_fingerprint` of the digest (x509.py:2863-2871, 2885-2894) -/
def fingerprintText (d : Bytes) : Str := spaced (d.map hexPair)

end Asn1
