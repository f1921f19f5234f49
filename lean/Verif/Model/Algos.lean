import Verif.Model.AlgoTables

/-! # Algorithm identifiers: `algos.py` -/

namespace Asn1.Algos
open Asn1

/-- `d.get(k)` for the tables. -/
def look {α β : Type} [BEq α] (m : List (α × β)) (k : α) : Option β := (m.find? (fun e => e.1 == k)).map Prod.snd

/-! ### `SignedDigestAlgorithm` -/

/-- `SignedDigestAlgorithmId` (algos.py:232-336), a class with both dicts given. -/
def signedDigestId : OidClass := ⟨some signedDigestMap, some signedDigestRev, false⟩

/-- The `parameters` field as `hash_algo` reads it: absent, RSASSA-PSS parameters with the name of their hash
algorithm, or a value of another type that cannot be subscripted. -/
inductive SigParams where
  | void
  | pss (hash : Str)
  | other
  deriving DecidableEq, Repr

/-- `self['parameters']['hash_algorithm']['algorithm'].native` -/
def SigParams.hash : SigParams → Py Str
  | .pss h => .ok h
  | .void => .error .typeError
  | .other => .error .typeError

/-- `SignedDigestAlgorithm`: `algorithm` is the native value of the field (algos.py:339-348). -/
structure SignedDigest where
  algorithm : Str
  parameters : SigParams
  deriving DecidableEq, Repr

/-- `signature_algo` (algos.py:391-455) -/
def SignedDigest.signatureAlgo (a : SignedDigest) : Py Str :=
  match look signatureAlgoMap a.algorithm with
  | some r => .ok r
  | none => .error .valueError

/-- `hash_algo` (algos.py:457-487) -/
def SignedDigest.hashAlgo (a : SignedDigest) : Py Str :=
  match look algoMap a.algorithm with
  | some r => .ok r
  | none =>
    if a.algorithm = "rsassa_pss".toList then a.parameters.hash
    else if a.algorithm = "ed25519".toList ∨ a.algorithm = "ed448".toList then .error .valueError
    else .error .valueError

/-- `cms_hash_algo` (algos.py:489-520) -/
def SignedDigest.cmsHashAlgo (a : SignedDigest) : Py Str :=
  match look algoMap a.algorithm with
  | some r => .ok r
  | none =>
    if a.algorithm = "rsassa_pss".toList then a.parameters.hash
    else
      match look cmsAlgoMap a.algorithm with
      | some r => .ok r
      | none => .error .valueError

/-! ### `EncryptionAlgorithm` -/

/-- `EncryptionAlgorithmId` (algos.py:750-800). -/
def encryptionId : OidClass := ⟨some encryptionMap, none, false⟩

/-- `Pbkdf2Salt` (algos.py:522-526) -/
inductive Salt where
  | specified (b : Bytes)
  | otherSource
  deriving DecidableEq, Repr

/-- The `parameters` field of a `KdfAlgorithm` (algos.py:529-567): native values of the fields. `other` is an
absent field or a value that cannot be subscripted. -/
inductive KdfParams where
  | pbkdf2 (salt : Salt) (iterations : Int) (keyLength : Option Int) (prf : Str)
  | scrypt (salt : Bytes) (cost block parallel : Int) (keyLength : Option Int)
  | other
  deriving DecidableEq, Repr

/-- `KdfAlgorithm` (algos.py:558-567) -/
structure Kdf where
  algorithm : Str
  parameters : KdfParams
  deriving DecidableEq, Repr

/-- The `parameters` field of an `EncryptionAlgorithm` (algos.py:809-841, 1276-1280, 1307), by the type of the value; native
values of the fields that the properties read. `void` is the absent field and `other` any value that is neither a
SEQUENCE nor an OCTET STRING. `oaep` is `RSAESOAEPParams`. -/
inductive EncParams where
  | void
  | other
  | octets (b : Bytes)
  | rc2 (version : Option Int) (iv : Bytes)
  | rc5 (blockBits : Int) (iv : Option Bytes)
  | ccm
  | oaep
  | pbes1 (salt : Bytes) (iterations : Int)
  | pbes2 (kdf : Kdf) (scheme : Str) (schemeParams : EncParams)
  deriving DecidableEq, Repr

/-- The exception of subscripting `self['parameters']` with a field name that it does not have: `TypeError`
for a value without fields, `KeyError` for a SEQUENCE. -/
def EncParams.noField : EncParams → PyErr
  | .void | .other | .octets _ => .typeError
  | _ => .keyError

/-- `self['parameters']['key_derivation_func']` -/
def EncParams.kdfFunc : EncParams → Py Kdf
  | .pbes2 k _ _ => .ok k
  | p => .error p.noField

/-- `s.find('.') == -1` -/
def noDot (s : Str) : Bool := !s.contains '.'

/-- `kdf` (algos.py:843-882) -/
def kdf (algo : Str) (p : EncParams) : Py Str :=
  if algo = "pbes2".toList then
    match p.kdfFunc with
    | .error e => .error e
    | .ok k => .ok k.algorithm
  else if noDot algo then
    if algo.contains '_' then
      let first := algo.takeWhile (· ≠ '_')
      if first = "pbes1".toList then .ok "pbkdf1".toList
      else if first = "pkcs12".toList then .ok "pkcs12_kdf".toList
      else .error .valueError
    else .error .valueError
  else .error .valueError

/-- `_, hmac_algo, _ = encryption_algo.split('_', 2)`: a `ValueError` unless there are two underscores. -/
def secondPart (algo : Str) : Py Str :=
  match pySplit '_' algo with
  | _ :: h :: _ :: _ => .ok h
  | _ => .error .valueError

/-- `kdf_hmac` (algos.py:884-922) -/
def kdfHmac (algo : Str) (p : EncParams) : Py (Option Str) :=
  if algo = "pbes2".toList then
    match kdf algo p with
    | .error e => .error e
    | .ok k =>
      if k = "scrypt".toList then .ok none
      else
        match p.kdfFunc with
        | .error e => .error e
        | .ok f =>
          match f.parameters with
          | .pbkdf2 _ _ _ prf => .ok (some prf)
          | .scrypt .. => .error .keyError
          | .other => .error .typeError
  else if noDot algo then
    if algo.contains '_' then
      match secondPart algo with
      | .error e => .error e
      | .ok h => .ok (some h)
    else .error .valueError
  else .error .valueError

/-- `kdf_salt` (algos.py:924-966). `salt.name` exists only for the CHOICE of PBKDF2: for scrypt it is an
`AttributeError`. -/
def kdfSalt (algo : Str) (p : EncParams) : Py Bytes :=
  if algo = "pbes2".toList then
    match p.kdfFunc with
    | .error e => .error e
    | .ok f =>
      match f.parameters with
      | .pbkdf2 .otherSource _ _ _ => .error .valueError
      | .pbkdf2 (.specified b) _ _ _ => .ok b
      | .scrypt .. => .error .attributeError
      | .other => .error .typeError
  else if noDot algo then
    if algo.contains '_' then
      match p with
      | .pbes1 salt _ => .ok salt
      | p => .error p.noField
    else .error .valueError
  else .error .valueError

/-- `kdf_iterations` (algos.py:968-1003) -/
def kdfIterations (algo : Str) (p : EncParams) : Py (Option Int) :=
  if algo = "pbes2".toList then
    match kdf algo p with
    | .error e => .error e
    | .ok k =>
      if k = "scrypt".toList then .ok none
      else
        match p.kdfFunc with
        | .error e => .error e
        | .ok f =>
          match f.parameters with
          | .pbkdf2 _ n _ _ => .ok (some n)
          | .scrypt .. => .error .keyError
          | .other => .error .typeError
  else if noDot algo then
    if algo.contains '_' then
      match p with
      | .pbes1 _ n => .ok (some n)
      | p => .error p.noField
    else .error .valueError
  else .error .valueError

/-- The RC2 branch of `key_length` (algos.py:1037-1062): `None >= 256` is a `TypeError` in Python 3, so that the
test for `None` after it is not reached. -/
def rc2KeyLength : Option Int → Py Int
  | none => .error .typeError
  | some v =>
    match look rc2Lengths v with
    | some n => .ok n
    | none => if v ≥ 256 then .ok v else .error .valueError

/-- `d[k]` for the tables: a `KeyError` if absent. -/
def item {β : Type} (m : List (Str × β)) (k : Str) : Py β :=
  match look m k with
  | some v => .ok v
  | none => .error .keyError

/-- `key_length` (algos.py:1005-1097) -/
def keyLength (algo : Str) (p : EncParams) : Py Int :=
  if algo.take 3 = "aes".toList then item aesLengths (algo.take 7)
  else
    match look cipherLengths algo with
    | some n => .ok n
    | none =>
      if algo = "rc2".toList then
        match p with
        | .rc2 v _ => rc2KeyLength v
        | p => .error p.noField
      else if algo = "pbes2".toList then
        match p with
        | .pbes2 k s q =>
          match k.parameters with
          | .other => .error .typeError
          | .pbkdf2 _ _ (some n) _ => .ok n
          | .scrypt _ _ _ _ (some n) => .ok n
          | .pbkdf2 _ _ none _ => keyLength s q
          | .scrypt _ _ _ _ none => keyLength s q
        | p => .error p.noField
      else if noDot algo then item pbeLengths algo
      else .error .valueError

/-- `encryption_algo[0:7] in set(['aes128_', 'aes192_', 'aes256_'])` -/
def isAes (algo : Str) : Bool := ["aes128_".toList, "aes192_".toList, "aes256_".toList].contains (algo.take 7)

/-- `encryption_mode` (algos.py:1099-1133) -/
def encryptionMode (algo : Str) (p : EncParams) : Py Str :=
  if isAes algo then .ok (algo.drop 7)
  else if algo.take 6 = "pbes1_".toList then .ok "cbc".toList
  else if algo.take 7 = "pkcs12_".toList then .ok "cbc".toList
  else if ["des".toList, "tripledes_3key".toList, "rc2".toList, "rc5".toList].contains algo then .ok "cbc".toList
  else if algo = "pbes2".toList then
    match p with
    | .pbes2 _ s q => encryptionMode s q
    | p => .error p.noField
  else .error .valueError

/-- `encryption_cipher` (algos.py:1135-1180) -/
def encryptionCipher (algo : Str) (p : EncParams) : Py Str :=
  if isAes algo then .ok "aes".toList
  else if ["des".toList, "rc2".toList, "rc5".toList].contains algo then .ok algo
  else if algo = "tripledes_3key".toList then .ok "tripledes".toList
  else if algo = "pbes2".toList then
    match p with
    | .pbes2 _ s q => encryptionCipher s q
    | p => .error p.noField
  else if noDot algo then item pbeCiphers algo
  else .error .valueError

/-- `encryption_block_size` (algos.py:1182-1231); `//` is floor division. -/
def encryptionBlockSize (algo : Str) (p : EncParams) : Py Int :=
  if isAes algo then .ok 16
  else
    match look blockSizes algo with
    | some n => .ok n
    | none =>
      if algo = "rc5".toList then
        match p with
        | .rc5 bits _ => .ok (bits / 8)
        | p => .error p.noField
      else if algo = "pbes2".toList then
        match p with
        | .pbes2 _ s q => encryptionBlockSize s q
        | p => .error p.noField
      else if noDot algo then item pbeBlockSizes algo
      else .error .valueError

/-- An IV: `None`, a byte string, or the native value of parameters of another type. -/
inductive Iv where
  | none
  | bytes (b : Bytes)
  | native (p : EncParams)
  deriving DecidableEq, Repr

/-- `self['parameters'].native` -/
def EncParams.ivNative : EncParams → Iv
  | .octets b => .bytes b
  | .void => .none
  | p => .native p

/-- `encryption_iv` (algos.py:1233-1280) -/
def encryptionIv (algo : Str) (p : EncParams) : Py Iv :=
  if ["rc2".toList, "rc5".toList].contains algo then
    match p with
    | .rc2 _ iv => .ok (.bytes iv)
    | .rc5 _ (some iv) => .ok (.bytes iv)
    | .rc5 _ none => .ok .none
    | p => .error p.noField
  else if octetIvAlgos.contains algo then .ok p.ivNative
  else if algo = "pbes2".toList then
    match p with
    | .pbes2 _ s q => encryptionIv s q
    | p => .error p.noField
  else if noDot algo then .ok .none
  else .error .valueError

/-! ### `_ForceNullParameters` -/

/-- The `parameters` field: absent, a value, or encoded bytes that are decoded when read (with the result of
decoding them). -/
inductive Slot (P : Type) where
  | void
  | val (v : P)
  | unread (r : Py P)

/-- A `Sequence` with the mixin `_ForceNullParameters` (algos.py:50-104): the dotted OID of `algorithm` (`none`
if not set) and `parameters`. -/
structure AlgId (P : Type) where
  algorithm : Option Str
  parameters : Slot P

namespace AlgId
variable {P : Type}

/-- `cls()` -/
def new : AlgId P := ⟨none, .void⟩

/-- What `_make_value` gives for the assigned value: an exception, `VOID` (for `None`), or a value. -/
abbrev Given (P : Type) := Py (Option P)

/-- `Sequence.__setitem__` of `parameters` (core.py:3568-3619), with `_parameters_spec` (algos.py:74-83): while
`algorithm` is not set, `VOID.dotted` is an `AttributeError`. -/
def setParameters (o : AlgId P) (v : Given P) : AlgId P × Option PyErr :=
  match o.algorithm with
  | none => (o, some .attributeError)
  | some _ =>
    match v with
    | .error e => (o, some e)
    | .ok none => ({ o with parameters := .void }, none)
    | .ok (some p) => ({ o with parameters := .val p }, none)

/-- `del o['parameters']` (core.py:3621-3658) -/
def delParameters (o : AlgId P) : AlgId P × Option PyErr := ({ o with parameters := .void }, none)

/-- `o[0] = value` (core.py:3568-3619): the assigned value is an exception or a dotted OID. -/
def setAlgorithmByIndex (o : AlgId P) (v : Py Str) : AlgId P × Option PyErr :=
  match v with
  | .error e => (o, some e)
  | .ok oid => ({ o with algorithm := some oid }, none)

/-- `o['parameters']`, which decodes and keeps an unread value. -/
def readParameters (o : AlgId P) : AlgId P × Py (Option P) :=
  match o.parameters with
  | .void => (o, .ok none)
  | .val v => (o, .ok (some v))
  | .unread (.ok v) => ({ o with parameters := .val v }, .ok (some v))
  | .unread (.error e) => (o, .error e)

/-- `o['algorithm'] = value` (algos.py:95-104); `null` is `Null()`. -/
def setAlgorithm (null : P) (o : AlgId P) (v : Py Str) : AlgId P × Option PyErr :=
  match o.setAlgorithmByIndex v with
  | (o, some e) => (o, some e)
  | (o, none) =>
    match o.algorithm with
    | none => (o, some .attributeError)
    | some oid =>
      if ¬ nullAlgos.contains oid then (o, none)
      else
        match o.readParameters with
        | (o, .error e) => (o, some e)
        | (o, .ok (some _)) => (o, none)
        | (o, .ok none) => o.setParameters (.ok (some null))

/-- The ways to change or read an algorithm identifier. -/
inductive Op (P : Type) where
  | algorithm (v : Py Str)
  | parameters (v : Given P)
  | delete
  | read

/-- One step; an exception is caught by the caller. -/
def step (null : P) (o : AlgId P) : Op P → AlgId P × Option PyErr
  | .algorithm v => o.setAlgorithm null v
  | .parameters v => o.setParameters v
  | .delete => o.delParameters
  | .read =>
    match o.readParameters with
    | (o, .error e) => (o, some e)
    | (o, .ok _) => (o, none)

/-- A history of steps. -/
def run (null : P) (o : AlgId P) : List (Op P) → AlgId P
  | [] => o
  | op :: ops => (o.step null op).1.run null ops

/-- `cls({'algorithm': a, 'parameters': p})` or without `parameters` (core.py:3406-3429): the fields are set in order
of definition, and the first exception is raised. -/
def create (null : P) (a : Py Str) (p : Option (Given P)) : Py (AlgId P) :=
  match setAlgorithm null new a with
  | (_, some e) => .error e
  | (o, none) =>
    match p with
    | none => .ok o
    | some p =>
      match o.setParameters p with
      | (_, some e) => .error e
      | (o, none) => .ok o

end AlgId

end Asn1.Algos
