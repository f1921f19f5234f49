import Verif.Model.Py

/-! # Attributes of keys: `keys.py` `PrivateKeyInfo`, `PublicKeyInfo`

The fields of a key are what `Model/Core.lean` reads from its encoding; here only the native values that the attributes look at occur.
-/

namespace Asn1.KeyInfo
open Asn1

/-- What the attributes raise: `UnboundLocalError` besides the exceptions of `PyErr`. -/
inductive Raised where
  | unboundLocal
  | py (e : PyErr)
  deriving DecidableEq, Repr

/-- The fields of a private key the attributes read (keys.py:713-718): the algorithm name decides what the other fields hold.
`other` is an algorithm for which the library has no size: x25519, x448, ed25519 and ed448. -/
inductive Priv where
  | rsa (modulus : Int)
  | rsassaPss (modulus : Int)
  | dsa (p q : Int)
  | ec (privateKey : Nat)
  | other (name : String)
  deriving DecidableEq, Repr

/-- `self['private_key_algorithm']['algorithm'].native` -/
def Priv.name : Priv → String
  | .rsa _ => "rsa"
  | .rsassaPss _ => "rsassa_pss"
  | .dsa _ _ => "dsa"
  | .ec _ => "ec"
  | .other n => n

/-- `self['private_key'].parsed['modulus'].native`: other keys have no such field (`KeyError`), or are no SEQUENCE (`TypeError`). -/
def Priv.modulus : Priv → Except Raised Int
  | .rsa n => .ok n
  | .rsassaPss n => .ok n
  | .ec _ => .error (.py .keyError)
  | _ => .error (.py .typeError)

/-- `self['private_key_algorithm']['parameters']['p'].native`: other keys have NULL or absent parameters (`TypeError`), or a CHOICE,
which has no items (`TypeError`). Parameters of RSASSA-PSS have other fields (`KeyError`). -/
def Priv.prime : Priv → Except Raised Int
  | .dsa p _ => .ok p
  | .rsassaPss _ => .error (.py .keyError)
  | _ => .error (.py .typeError)

/-- `self['private_key_algorithm']['parameters']['q'].native` -/
def Priv.order : Priv → Except Raised Int
  | .dsa _ q => .ok q
  | .rsassaPss _ => .error (.py .keyError)
  | _ => .error (.py .typeError)

/-- `self['private_key'].parsed['private_key'].native`. RSA keys have no such field; the key of DSA is an INTEGER. -/
def Priv.private : Priv → Except Raised Int
  | .ec d => .ok d
  | .rsa _ => .error (.py .keyError)
  | .rsassaPss _ => .error (.py .keyError)
  | _ => .error (.py .typeError)

/-- A `PrivateKeyInfo` with its caches `_algorithm` and `_bit_size` (keys.py:739-740). -/
structure PrivInfo where
  key : Priv
  algorithmCache : Option String := none
  bitSizeCache : Option Nat := none
  deriving DecidableEq, Repr

/-- The floating point logarithms: `ceil n` is `int(math.ceil(math.log(n, 2)))` and `sha1 n` is `math.log(n, 2) / 8 <= 20`, for `n > 0`.
`math.log` raises `ValueError` for other integers. -/
structure Logs where
  ceil : Nat → Nat
  sha1 : Nat → Bool

/-- `int(math.ceil(math.log(prime, 2)))`, then up to a multiple of 8 (keys.py:929-932). -/
def keyBits (L : Logs) (prime : Int) : Except Raised Nat :=
  if prime ≤ 0 then .error (.py .valueError)
  else
    let size := L.ceil prime.toNat
    let modulus := size % 8
    .ok (if modulus ≠ 0 then size + (8 - modulus) else size)

/-- `PrivateKeyInfo.algorithm` (keys.py:905-913) -/
def PrivInfo.algorithm (k : PrivInfo) : String × PrivInfo :=
  match k.algorithmCache with
  | some a => (a, k)
  | none => (k.key.name, { k with algorithmCache := some k.key.name })

/-- `PrivateKeyInfo.bit_size` (keys.py:915-933). For an algorithm that none of the branches names `prime` is unbound. -/
def PrivInfo.bitSize (L : Logs) (k : PrivInfo) : Except Raised (Nat × PrivInfo) :=
  match k.bitSizeCache with
  | some n => .ok (n, k)
  | none =>
    let (a, k) := k.algorithm
    let prime : Except Raised Int :=
      if a = "rsa" ∨ a = "rsassa_pss" then k.key.modulus
      else if a = "dsa" then k.key.prime
      else if a = "ec" then k.key.private
      else .error .unboundLocal
    match prime with
    | .error e => .error e
    | .ok p =>
      match keyBits L p with
      | .error e => .error e
      | .ok n => .ok (n, { k with bitSizeCache := some n })

/-- `int(math.ceil(n / 8))` for a non-negative integer (exact below 2 ** 53). -/
def ceilEighth (n : Nat) : Nat := (n + 7) / 8

/-- `PrivateKeyInfo.byte_size` (keys.py:935-942) -/
def PrivInfo.byteSize (L : Logs) (k : PrivInfo) : Except Raised (Nat × PrivInfo) :=
  match k.bitSize L with
  | .error e => .error e
  | .ok (n, k) => .ok (ceilEighth n, k)

/-- `PrivateKeyInfo.hash_algo` (keys.py:878-902) -/
def PrivInfo.hashAlgo (L : Logs) (k : PrivInfo) : Except Raised (String × PrivInfo) :=
  let (a, k) := k.algorithm
  if a ≠ "dsa" then .error (.py .valueError)
  else
    match k.key.order with
    | .error e => .error e
    | .ok q =>
      if q ≤ 0 then .error (.py .valueError)
      else .ok (if L.sha1 q.toNat then "sha1" else "sha2", k)

/-- Assigning fields of a key, or changing them in place (keys.py:814-829 and core.py `Sequence.__setitem__`): the caches stay. -/
def PrivInfo.assign (k : PrivInfo) (new : Priv) : PrivInfo := { k with key := new }

/-- The fields of a public key the attributes read (keys.py:1078-1081). `dsa none`: the parameters are absent (inherited from the issuer).
`ec` has the octets of the point. -/
inductive Pub where
  | rsa (modulus : Int)
  | rsassaPss (modulus : Int)
  | dsa (params : Option (Int × Int))
  | ec (point : Bytes)
  | other (name : String)
  deriving DecidableEq, Repr

/-- `self['algorithm']['algorithm'].native` -/
def Pub.name : Pub → String
  | .rsa _ => "rsa"
  | .rsassaPss _ => "rsassa_pss"
  | .dsa _ => "dsa"
  | .ec _ => "ec"
  | .other n => n

/-- A new or loaded `PublicKeyInfo`. The caches `_algorithm` and `_bit_size` work as those of `PrivateKeyInfo` and are left out.

`PublicKeyInfo.bit_size` (keys.py:1244-1264); an EC key is measured by its point: `int(((len(point) - 1) / 2) * 8)`, where the halves are exact.
An empty point has length -1 after the subtraction. Absent parameters are VOID, which has no items. -/
def Pub.bitSize (L : Logs) : Pub → Except Raised Int
  | .ec point => .ok (((point.length : Int) - 1) * 4)
  | .rsa n => (keyBits L n).map Int.ofNat
  | .rsassaPss n => (keyBits L n).map Int.ofNat
  | .dsa (some (p, _)) => (keyBits L p).map Int.ofNat
  | .dsa none => .error (.py .typeError)
  | .other _ => .error .unboundLocal

/-- `PublicKeyInfo.byte_size` (keys.py:1266-1273): `int(math.ceil(self.bit_size / 8))` -/
def Pub.byteSize (L : Logs) (k : Pub) : Except Raised Int := (k.bitSize L).map (fun n => (n + 7) / 8)

/-- `PublicKeyInfo.hash_algo` (keys.py:1202-1231) -/
def Pub.hashAlgo (L : Logs) : Pub → Except Raised (Option String)
  | .dsa none => .ok none
  | .dsa (some (_, q)) => if q ≤ 0 then .error (.py .valueError) else .ok (some (if L.sha1 q.toNat then "sha1" else "sha2"))
  | _ => .error (.py .valueError)

/-- `DSAParams.q_byte_size` (keys.py:631-641), on the contents octets of `q`. -/
def qByteSize (contents : Bytes) : Nat :=
  let contents := if slice contents 0 1 = [0] then slice contents 1 contents.length else contents
  contents.length

end Asn1.KeyInfo
