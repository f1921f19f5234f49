import Verif.Model.Strings

/-! # EC private keys: `keys.py` `NamedCurve`, `ECDomainParameters.key_size`, `ECPrivateKey`

The SEQUENCE machinery (children, tagging, encoding of the other fields) is in `Model/Core.lean`. Here an `ECPrivateKey` is its
`private_key` and `parameters` children, its `_key_size`, its `_mutated` flag and the private key octets that are inside the
contents it computed last. An exception leaves the changes made before it in place, so an operation gives the new state
together with the exception, if any. -/

namespace Asn1.EcKey
open Asn1

/-- `NamedCurve._map` (keys.py:329-406), generated from the source. -/
def curveNames : List (String × String) := [
  ("1.2.840.10045.3.0.1", "c2pnb163v1"),
  ("1.2.840.10045.3.0.2", "c2pnb163v2"),
  ("1.2.840.10045.3.0.3", "c2pnb163v3"),
  ("1.2.840.10045.3.0.4", "c2pnb176w1"),
  ("1.2.840.10045.3.0.5", "c2tnb191v1"),
  ("1.2.840.10045.3.0.6", "c2tnb191v2"),
  ("1.2.840.10045.3.0.7", "c2tnb191v3"),
  ("1.2.840.10045.3.0.8", "c2onb191v4"),
  ("1.2.840.10045.3.0.9", "c2onb191v5"),
  ("1.2.840.10045.3.0.10", "c2pnb208w1"),
  ("1.2.840.10045.3.0.11", "c2tnb239v1"),
  ("1.2.840.10045.3.0.12", "c2tnb239v2"),
  ("1.2.840.10045.3.0.13", "c2tnb239v3"),
  ("1.2.840.10045.3.0.14", "c2onb239v4"),
  ("1.2.840.10045.3.0.15", "c2onb239v5"),
  ("1.2.840.10045.3.0.16", "c2pnb272w1"),
  ("1.2.840.10045.3.0.17", "c2pnb304w1"),
  ("1.2.840.10045.3.0.18", "c2tnb359v1"),
  ("1.2.840.10045.3.0.19", "c2pnb368w1"),
  ("1.2.840.10045.3.0.20", "c2tnb431r1"),
  ("1.2.840.10045.3.1.2", "prime192v2"),
  ("1.2.840.10045.3.1.3", "prime192v3"),
  ("1.2.840.10045.3.1.4", "prime239v1"),
  ("1.2.840.10045.3.1.5", "prime239v2"),
  ("1.2.840.10045.3.1.6", "prime239v3"),
  ("1.2.840.10045.3.1.1", "secp192r1"),
  ("1.2.840.10045.3.1.7", "secp256r1"),
  ("1.3.132.0.1", "sect163k1"),
  ("1.3.132.0.2", "sect163r1"),
  ("1.3.132.0.3", "sect239k1"),
  ("1.3.132.0.4", "sect113r1"),
  ("1.3.132.0.5", "sect113r2"),
  ("1.3.132.0.6", "secp112r1"),
  ("1.3.132.0.7", "secp112r2"),
  ("1.3.132.0.8", "secp160r1"),
  ("1.3.132.0.9", "secp160k1"),
  ("1.3.132.0.10", "secp256k1"),
  ("1.3.132.0.15", "sect163r2"),
  ("1.3.132.0.16", "sect283k1"),
  ("1.3.132.0.17", "sect283r1"),
  ("1.3.132.0.22", "sect131r1"),
  ("1.3.132.0.23", "sect131r2"),
  ("1.3.132.0.24", "sect193r1"),
  ("1.3.132.0.25", "sect193r2"),
  ("1.3.132.0.26", "sect233k1"),
  ("1.3.132.0.27", "sect233r1"),
  ("1.3.132.0.28", "secp128r1"),
  ("1.3.132.0.29", "secp128r2"),
  ("1.3.132.0.30", "secp160r2"),
  ("1.3.132.0.31", "secp192k1"),
  ("1.3.132.0.32", "secp224k1"),
  ("1.3.132.0.33", "secp224r1"),
  ("1.3.132.0.34", "secp384r1"),
  ("1.3.132.0.35", "secp521r1"),
  ("1.3.132.0.36", "sect409k1"),
  ("1.3.132.0.37", "sect409r1"),
  ("1.3.132.0.38", "sect571k1"),
  ("1.3.132.0.39", "sect571r1"),
  ("1.3.36.3.3.2.8.1.1.1", "brainpoolp160r1"),
  ("1.3.36.3.3.2.8.1.1.2", "brainpoolp160t1"),
  ("1.3.36.3.3.2.8.1.1.3", "brainpoolp192r1"),
  ("1.3.36.3.3.2.8.1.1.4", "brainpoolp192t1"),
  ("1.3.36.3.3.2.8.1.1.5", "brainpoolp224r1"),
  ("1.3.36.3.3.2.8.1.1.6", "brainpoolp224t1"),
  ("1.3.36.3.3.2.8.1.1.7", "brainpoolp256r1"),
  ("1.3.36.3.3.2.8.1.1.8", "brainpoolp256t1"),
  ("1.3.36.3.3.2.8.1.1.9", "brainpoolp320r1"),
  ("1.3.36.3.3.2.8.1.1.10", "brainpoolp320t1"),
  ("1.3.36.3.3.2.8.1.1.11", "brainpoolp384r1"),
  ("1.3.36.3.3.2.8.1.1.12", "brainpoolp384t1"),
  ("1.3.36.3.3.2.8.1.1.13", "brainpoolp512r1"),
  ("1.3.36.3.3.2.8.1.1.14", "brainpoolp512t1")]

/-- `NamedCurve._key_sizes` (keys.py:408-489), generated from the source. -/
def curveSizes : List (String × Nat) := [
  ("1.2.840.10045.3.0.1", 21),
  ("1.2.840.10045.3.0.2", 21),
  ("1.2.840.10045.3.0.3", 21),
  ("1.2.840.10045.3.0.4", 21),
  ("1.2.840.10045.3.0.5", 24),
  ("1.2.840.10045.3.0.6", 24),
  ("1.2.840.10045.3.0.7", 24),
  ("1.2.840.10045.3.0.8", 24),
  ("1.2.840.10045.3.0.9", 24),
  ("1.2.840.10045.3.0.10", 25),
  ("1.2.840.10045.3.0.11", 30),
  ("1.2.840.10045.3.0.12", 30),
  ("1.2.840.10045.3.0.13", 30),
  ("1.2.840.10045.3.0.14", 30),
  ("1.2.840.10045.3.0.15", 30),
  ("1.2.840.10045.3.0.16", 33),
  ("1.2.840.10045.3.0.17", 37),
  ("1.2.840.10045.3.0.18", 45),
  ("1.2.840.10045.3.0.19", 45),
  ("1.2.840.10045.3.0.20", 53),
  ("1.2.840.10045.3.1.2", 24),
  ("1.2.840.10045.3.1.3", 24),
  ("1.2.840.10045.3.1.4", 30),
  ("1.2.840.10045.3.1.5", 30),
  ("1.2.840.10045.3.1.6", 30),
  ("1.2.840.10045.3.1.1", 24),
  ("1.2.840.10045.3.1.7", 32),
  ("1.3.132.0.1", 21),
  ("1.3.132.0.2", 21),
  ("1.3.132.0.3", 30),
  ("1.3.132.0.4", 15),
  ("1.3.132.0.5", 15),
  ("1.3.132.0.6", 14),
  ("1.3.132.0.7", 14),
  ("1.3.132.0.8", 21),
  ("1.3.132.0.9", 21),
  ("1.3.132.0.10", 32),
  ("1.3.132.0.15", 21),
  ("1.3.132.0.16", 36),
  ("1.3.132.0.17", 36),
  ("1.3.132.0.22", 17),
  ("1.3.132.0.23", 17),
  ("1.3.132.0.24", 25),
  ("1.3.132.0.25", 25),
  ("1.3.132.0.26", 29),
  ("1.3.132.0.27", 30),
  ("1.3.132.0.28", 16),
  ("1.3.132.0.29", 16),
  ("1.3.132.0.30", 21),
  ("1.3.132.0.31", 24),
  ("1.3.132.0.32", 29),
  ("1.3.132.0.33", 28),
  ("1.3.132.0.34", 48),
  ("1.3.132.0.35", 66),
  ("1.3.132.0.36", 51),
  ("1.3.132.0.37", 52),
  ("1.3.132.0.38", 72),
  ("1.3.132.0.39", 72),
  ("1.3.36.3.3.2.8.1.1.1", 20),
  ("1.3.36.3.3.2.8.1.1.2", 20),
  ("1.3.36.3.3.2.8.1.1.3", 24),
  ("1.3.36.3.3.2.8.1.1.4", 24),
  ("1.3.36.3.3.2.8.1.1.5", 28),
  ("1.3.36.3.3.2.8.1.1.6", 28),
  ("1.3.36.3.3.2.8.1.1.7", 32),
  ("1.3.36.3.3.2.8.1.1.8", 32),
  ("1.3.36.3.3.2.8.1.1.9", 40),
  ("1.3.36.3.3.2.8.1.1.10", 40),
  ("1.3.36.3.3.2.8.1.1.11", 48),
  ("1.3.36.3.3.2.8.1.1.12", 48),
  ("1.3.36.3.3.2.8.1.1.13", 64),
  ("1.3.36.3.3.2.8.1.1.14", 64)]

/-- `NamedCurve._key_sizes` as a dict; an assignment is put in front. -/
abbrev Sizes := List (String × Nat)

/-- `_key_sizes[oid]`, if it is there. -/
def Sizes.get (t : Sizes) (oid : String) : Option Nat := (t.find? (fun e => e.1 == oid)).map Prod.snd

/-- The effect of `NamedCurve.register(name, oid, key_size)` on `_key_sizes` (keys.py:511). The name tables are in
`Model/Oid.lean`. -/
def Sizes.register (t : Sizes) (oid : String) (size : Nat) : Sizes := (oid, size) :: t

/-- An `ECDomainParameters` value (keys.py:514-523): the alternative and the part of it that `key_size` reads. -/
inductive Params where
  /-- `specified`, with the native value of `order` -/
  | specified (order : Int)
  /-- `named`, with the dotted identifier -/
  | named (oid : String)
  /-- `implicit_ca` -/
  | implicitCa
deriving DecidableEq, Repr

/-- `ECDomainParameters.key_size` (keys.py:525-549). `w n` stands for `math.ceil(math.log(n, 2.0) / 8.0)` at `n ≥ 1`, which is
computed in floating point; `math.log` raises `ValueError` for `n ≤ 0`. -/
def Params.keySize (w : Nat → Nat) (t : Sizes) : Params → Py Nat
  | .implicitCa => .error .valueError
  | .specified order => if order ≤ 0 then .error .valueError else .ok (w order.toNat)
  | .named oid => match t.get oid with
    | some n => .ok n
    | none => .error .valueError

/-- An `ECPrivateKey` (keys.py:562-577). `none` for a child is VOID. `octets` are the private key octets inside `_contents`. -/
structure Key where
  keySize : Option Nat := none
  priv : Option IntOctObj := none
  params : Option Params := none
  mutated : Bool := false
  octets : Option Bytes := none
deriving DecidableEq, Repr

/-- What can be assigned to `private_key`: a number, or an `IntegerOctetString` (the instance itself becomes the child; sharing
it with the caller is not modelled). -/
inductive Value where
  | int (n : Int)
  | obj (o : IntOctObj)
deriving DecidableEq, Repr

/-- `_make_value` for the field `private_key` with the check of `Sequence.__setitem__` (core.py:3593-3611). -/
def makeValue : Value → Py IntOctObj
  | .int n => IntegerOctetString.set IntegerOctetString.new n
  | .obj o => match o.contents with
    | none => .error .valueError
    | some _ => .ok o

/-- `set_encoded_width` on the child, with what is left of the child when it raises: the width is already stored. -/
def widen (o : IntOctObj) (w : Nat) : IntOctObj × Option PyErr :=
  match IntegerOctetString.setEncodedWidth o w with
  | .ok o' => (o', none)
  | .error e => ({ o with width := some w }, some e)

/-- `ECPrivateKey._update_key_size` (keys.py:609-615) -/
def updateKeySize (k : Key) : Key × Option PyErr :=
  match k.keySize with
  | none => (k, none)
  | some w => match k.priv with
    | none => (k, none)
    | some o => ({ k with priv := some (widen o w).1 }, (widen o w).2)

/-- `ECPrivateKey.set_key_size` (keys.py:598-607) -/
def setKeySize (k : Key) (w : Nat) : Key × Option PyErr := updateKeySize { k with keySize := some w }

/-- `ECPrivateKey.__setitem__` for `private_key` (keys.py:580-591, core.py:3566-3616). `byName` says whether the key is the
field name or the field's index; the code compares it with the name only. -/
def assignPriv (k : Key) (byName : Bool) (v : Value) : Key × Option PyErr :=
  match makeValue v with
  | .error e => (k, some e)
  | .ok o =>
    let k := { k with priv := some o, mutated := true }
    if byName then
      match k.keySize with
      | none => match o.contents with
        | some c => if c.length > 1 then setKeySize k c.length else (k, none)
        | none => (k, none)
      | some _ => updateKeySize k
    else (k, none)

/-- `ECPrivateKey.__setitem__` for `parameters` (keys.py:592-596); `none` is `None`, which stores VOID. -/
def assignParams (w : Nat → Nat) (t : Sizes) (k : Key) (byName : Bool) (p : Option Params) : Key × Option PyErr :=
  let k := { k with params := p, mutated := true }
  if byName then
    match p with
    | none => (k, none)
    | some .implicitCa => (k, none)
    | some q => match q.keySize w t with
      | .error e => (k, some e)
      | .ok n => setKeySize k n
  else (k, none)

/-- `Sequence.dump()` (core.py:4127-4163) and the `contents` property it reads (core.py:3456-3470) as far as the private key
octets go: they are computed again only if the value was mutated or has no contents yet; a missing `private_key` raises
`ValueError` (`TypeError` on a key that was never touched; not distinguished). The other fields are taken to be there. The forced path (indefinite length, or a stored length octet `80`) is
not modelled. -/
def dump (k : Key) : Key × Option PyErr :=
  if k.mutated || k.octets.isNone then
    match k.priv with
    | none => (k, some .valueError)
    | some o => ({ k with octets := o.contents, mutated := false }, none)
  else (k, none)

/-- `ECPrivateKey.load(...)`: the children that were read, nothing assigned through `__setitem__`. -/
def loaded (o : IntOctObj) (p : Option Params) : Key := { priv := some o, params := p, octets := o.contents }

/-- The operations of a program on one key and on the registry of curves. -/
inductive Op where
  /-- `key['private_key'] = v` (or `key[1] = v`) -/
  | priv (byName : Bool) (v : Value)
  /-- `key['parameters'] = p` (or `key[2] = p`) -/
  | params (byName : Bool) (p : Option Params)
  /-- `del key['parameters']` (core.py:3618-3659) -/
  | delParams
  /-- `key.set_key_size(w)` -/
  | setKeySize (w : Nat)
  /-- `NamedCurve.register(name, oid, w)` -/
  | register (oid : String) (w : Nat)
  /-- `key.dump()` -/
  | dump
deriving DecidableEq, Repr

/-- The registry and the key. -/
structure World where
  sizes : Sizes := curveSizes
  key : Key := {}
deriving DecidableEq, Repr

/-- One operation. -/
def step (w : Nat → Nat) (s : World) : Op → World × Option PyErr
  | .priv b v => let r := assignPriv s.key b v; ({ s with key := r.1 }, r.2)
  | .params b p => let r := assignParams w s.sizes s.key b p; ({ s with key := r.1 }, r.2)
  | .delParams => ({ s with key := { s.key with params := none, mutated := true } }, none)
  | .setKeySize n => let r := setKeySize s.key n; ({ s with key := r.1 }, r.2)
  | .register oid n => ({ s with sizes := s.sizes.register oid n }, none)
  | .dump => let r := dump s.key; ({ s with key := r.1 }, r.2)

/-- A history of operations none of which raises. -/
def run (w : Nat → Nat) (s : World) : List Op → Option World
  | [] => some s
  | op :: ops => match step w s op with
    | (s', none) => run w s' ops
    | (_, some _) => none

/-- A history of operations whose exceptions are caught. -/
def runCaught (w : Nat → Nat) (s : World) : List Op → World
  | [] => s
  | op :: ops => runCaught w (step w s op).1 ops

end Asn1.EcKey
