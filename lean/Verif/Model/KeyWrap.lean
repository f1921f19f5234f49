import Verif.Model.Package
import Verif.Model.EcKey

/-!
# `PublicKeyInfo.wrap` for RSA keys and `PrivateKeyInfo.wrap` (keys.py:744-829, 1112-1153)

The classes are those of `Pkg.env`. Not modelled: the `TypeError` for a key that is neither bytes nor an instance, and the attribute `_algorithm` set on the container (see C54).
-/

namespace Asn1
open Pkg

/-- What is given as key: bytes or an instance. -/
inductive KeyGiven where
  | bytes (b : Bytes)
  | value (v : Val)

/-- `self['algorithm'].dotted in self._null_algos` for names: the name that the first of `_null_algos` has in the classes for keys
(algos.py:61-72, keys.py:664, 1026); the other ones have no names there. -/
def nullName (E : Env) (r : Ops) (v : Val) : Py (Bool × Val) := do
  let (a, v) ← Asn1.getItem E r v 0
  let (n, _) ← r.native a
  match n with
  | .scalar (.str s) => .ok (decide (s = "rsa".toList), v)
  | _ => .ok (false, v)

/-- `_ForceNullParameters.__setitem__('algorithm', x)` (algos.py:95-104) -/
def setAlgorithm (E : Env) (r : Ops) (v : Val) (x : PyVal) : Py Val := do
  let v ← setField E r v 0 x
  let (yes, v) ← nullName E r v
  if yes then do
    let (q, v) ← Asn1.getItem E r v 1
    match q with
    | .void => do
      let null ← r.construct Id.core.Null {} (.scalar .none)
      setField E r v 1 (.asn1 null)
    | _ => .ok v
  else .ok v

/-- The algorithm identifier made by both (keys.py:793-795, 1140-1142). -/
def wrapAlgorithm (E : Env) (r : Ops) (cls ids : ClassId) (algorithm : String) : Py Val := do
  let algo ← r.construct cls {} (.scalar .none)
  let name ← r.construct ids {} (.scalar (.str algorithm.toList))
  let algo ← setAlgorithm E r algo (.asn1 name)
  let null ← r.construct Id.core.Null {} (.scalar .none)
  setField E r algo 1 (.asn1 null)

/-- `PublicKeyInfo.wrap(public_key, algorithm)` (keys.py:1112-1153) -/
def wrapPublic (E : Env) (r : Ops) (key : KeyGiven) (algorithm : String) : Py Val :=
  if algorithm ≠ "rsa" ∧ algorithm ≠ "rsassa_pss" then .error .valueError
  else do
    let algo ← wrapAlgorithm E r Id.keys.PublicKeyAlgorithm Id.keys.PublicKeyAlgorithmId algorithm
    let container ← r.construct Id.keys.PublicKeyInfo {} (.scalar .none)
    let container ← setField E r container 0 (.asn1 algo)
    let data ← match key with
      | .bytes b => .ok b
      | .value v => do
        let v ← untag E r v
        let (b, _) ← r.dump v false
        .ok b
    let string ← r.construct Id.core.ParsableOctetBitString {} (.scalar (.bytes data))
    setField E r container 1 (.asn1 string)

/-- What `PrivateKeyInfo.__setitem__` looks at for the keys `'private_key_algorithm'` and `'private_key'` (keys.py:816-829): only for the algorithm
`'ec'` the encoding of the key is changed, see `EcKey`. -/
def ecSelected (E : Env) (r : Ops) (v : Val) : Py (Bool × Val) := do
  let (a, v) ← Asn1.getItem E r v 1
  let (i, _) ← Asn1.getItem E r a 0
  let (n, _) ← r.native i
  match n with
  | .scalar (.str s) => .ok (decide (s = "ec".toList), v)
  | _ => .ok (false, v)

/-- `container[..] = x` (keys.py:814-829) for algorithms other than `'ec'`; see `setPrivateEc`. -/
def setPrivate (E : Env) (r : Ops) (v : Val) (idx : Nat) (x : PyVal) : Py Val := do
  let v ← setField E r v idx x
  if idx = 1 ∨ idx = 2 then do
    let (_, v) ← ecSelected E r v
    .ok v
  else do
    let (_, v) ← Asn1.getItem E r v 1
    .ok v

/-- `PrivateKeyInfo.wrap(private_key, algorithm)` for the algorithms of RSA keys (keys.py:744-812) -/
def wrapPrivateRsa (E : Env) (r : Ops) (key : KeyGiven) (algorithm : String) : Py Val := do
  let k ← match key with
    | .bytes b => loadVal E r Id.keys.RSAPrivateKey {} b
    | .value v => if v.classOf = some Id.keys.RSAPrivateKey then .ok v else .error .typeError
  let algo ← wrapAlgorithm E r Id.keys.PrivateKeyAlgorithm Id.keys.PrivateKeyAlgorithmId algorithm
  let container ← r.construct Id.keys.PrivateKeyInfo {} (.scalar .none)
  let version ← r.construct Id.core.Integer {} (.scalar (.int 0))
  let container ← setPrivate E r container 0 (.asn1 version)
  let container ← setPrivate E r container 1 (.asn1 algo)
  setPrivate E r container 2 (.asn1 k)

/-- The parameters of a DSA key, the value kept as `_public_key` and the private key (keys.py:772-777) -/
def dsaParts (E : Env) (r : Ops) (k : Val) : Py (Val × Val × Val) := do
  let params ← r.construct Id.keys.DSAParams {} (.scalar .none)
  let (p, k) ← Asn1.getItem E r k 1
  let params ← setField E r params 0 (.asn1 p)
  let (q, k) ← Asn1.getItem E r k 2
  let params ← setField E r params 1 (.asn1 q)
  let (g, k) ← Asn1.getItem E r k 3
  let params ← setField E r params 2 (.asn1 g)
  let (y, k) ← Asn1.getItem E r k 4
  let (x, _) ← Asn1.getItem E r k 5
  .ok (params, y, x)

/-- The algorithm identifier with the parameters of a DSA key (keys.py:793-795) -/
def dsaAlgorithm (E : Env) (r : Ops) (params : Val) : Py Val := do
  let algo ← r.construct Id.keys.PrivateKeyAlgorithm {} (.scalar .none)
  let name ← r.construct Id.keys.PrivateKeyAlgorithmId {} (.scalar (.str "dsa".toList))
  let algo ← setAlgorithm E r algo (.asn1 name)
  setField E r algo 1 (.asn1 params)

/-- `PrivateKeyInfo.wrap(private_key, 'dsa')` (keys.py:744-812): the container and its `_public_key`. -/
def wrapPrivateDsa (E : Env) (r : Ops) (key : KeyGiven) : Py (Val × Val) := do
  let k ← match key with
    | .bytes b => loadVal E r Id.keys.DSAPrivateKey {} b
    | .value v => if v.classOf = some Id.keys.DSAPrivateKey then .ok v else .error .typeError
  let (params, y, x) ← dsaParts E r k
  let algo ← dsaAlgorithm E r params
  let container ← r.construct Id.keys.PrivateKeyInfo {} (.scalar .none)
  let version ← r.construct Id.core.Integer {} (.scalar (.int 0))
  let container ← setPrivate E r container 0 (.asn1 version)
  let container ← setPrivate E r container 1 (.asn1 algo)
  let container ← setPrivate E r container 2 (.asn1 x)
  .ok (container, y)

/-- `self.chosen.dotted` or `self.chosen['order'].native` of an `ECDomainParameters` (keys.py:535-539), as far as `EcKey.Params` goes. What
is cached by reading is not kept. -/
def domainParams (E : Env) (r : Ops) (v : Val) : Py EcKey.Params :=
  match v with
  | .choice c o (some 0) parsed => do
    let x ← choiceParse E r c o (some 0) parsed
    let (i, _) ← Asn1.getItem E r x 4
    let (n, _) ← r.native i
    match n with
    | .scalar (.int n) => .ok (.specified n)
    | _ => .error .typeError
  | .choice c o (some 1) parsed => do
    let x ← choiceParse E r c o (some 1) parsed
    match x with
    | .leaf _ (.oid _ o) => do
      let (d, _) ← Oid.dotted o
      .ok (.named (String.ofList d))
    | _ => .error .attributeError
  | _ => .ok .implicitCa

/-- `name` of a Choice (core.py:1193-1201), as the position of the alternative -/
def choiceName : Val → Option Nat
  | .choice _ _ alt _ => alt
  | _ => none

/-- `key.set_key_size(size)` (keys.py:598-615) on an instance of `ECPrivateKey`; the attribute `_key_size` is in `EcKey`. The instance in the
field is changed in place, which does not mark the key as changed. -/
def widenKey (E : Env) (r : Ops) (k : Val) (size : Nat) : Py Val := do
  let (p, k) ← Asn1.getItem E r k 1
  match p, k with
  | .leaf pc (.intOctets x), .node c o (some cs) m => do
    let x ← IntegerOctetString.setEncodedWidth x size
    .ok (.node c o (some (cs.set 1 (.val (.leaf pc (.intOctets x))))) m)
  | _, k => .ok k

/-- What `PrivateKeyInfo.__setitem__` does after the assignment when the algorithm is `'ec'` (keys.py:822-827): the size of the key that is held as
`.parsed` of the string is set. `w` and `sizes` as in `EcKey`. -/
def widenHeld (w : Nat → Nat) (sizes : EcKey.Sizes) (E : Env) (r : Ops) (v : Val) : Py Val := do
  let (a, v) ← Asn1.getItem E r v 1
  let (q, _) ← Asn1.getItem E r a 1
  if q.classOf = some Id.keys.ECDomainParameters ∧ choiceName q ≠ some 2 then do
    let (s, v) ← Asn1.getItem E r v 2
    match s, v with
    | .parsable _ _ _ _, .node vc vo (some cs) m => do
      let (k, s) ← parsedOf E r s
      if k.classOf = some Id.keys.ECPrivateKey then do
        let d ← domainParams E r q
        let n ← d.keySize w sizes
        let k ← widenKey E r k n
        match s with
        | .parsable sc so _ spec => .ok (.node vc vo (some (cs.set 2 (.val (.parsable sc so (some k) spec)))) m)
        | _ => .ok v
      else .ok v
    | _, v => .ok v
  else .ok v

/-- `container[..] = x` (keys.py:814-829) -/
def setPrivateEc (w : Nat → Nat) (sizes : EcKey.Sizes) (E : Env) (r : Ops) (v : Val) (idx : Nat) (x : PyVal) : Py Val := do
  let v ← setField E r v idx x
  if idx = 1 ∨ idx = 2 then do
    let (yes, v) ← ecSelected E r v
    if yes then widenHeld w sizes E r v else .ok v
  else do
    let (_, v) ← Asn1.getItem E r v 1
    .ok v

/-- The algorithm identifier with the parameters of an EC key (keys.py:793-795) -/
def ecAlgorithm (E : Env) (r : Ops) (params : Val) : Py Val := do
  let algo ← r.construct Id.keys.PrivateKeyAlgorithm {} (.scalar .none)
  let name ← r.construct Id.keys.PrivateKeyAlgorithmId {} (.scalar (.str "ec".toList))
  let algo ← setAlgorithm E r algo (.asn1 name)
  setField E r algo 1 (.asn1 params)

/-- `PrivateKeyInfo.wrap(private_key, 'ec')` (keys.py:744-812). An instance is copied. -/
def wrapPrivateEc (w : Nat → Nat) (sizes : EcKey.Sizes) (E : Env) (r : Ops) (key : KeyGiven) : Py Val := do
  let k ← match key with
    | .bytes b => loadVal E r Id.keys.ECPrivateKey {} b
    | .value v => if v.classOf = some Id.keys.ECPrivateKey then copyVal r v else .error .typeError
  let (params, k) ← Asn1.getItem E r k 2
  let k ← delField E r k 2
  let algo ← ecAlgorithm E r params
  let container ← r.construct Id.keys.PrivateKeyInfo {} (.scalar .none)
  let version ← r.construct Id.core.Integer {} (.scalar (.int 0))
  let container ← setPrivateEc w sizes E r container 0 (.asn1 version)
  let container ← setPrivateEc w sizes E r container 1 (.asn1 algo)
  setPrivateEc w sizes E r container 2 (.asn1 k)

end Asn1
