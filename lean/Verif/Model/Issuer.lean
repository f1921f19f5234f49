import Verif.Model.Cert

/-!
# `Certificate.issuer_serial` and `Certificate.authority_issuer_serial` (`x509.py`)

The hash function is a parameter `H`. What is read of the decoded structure is given, each read as a value or an exception (see Model/Cert.lean).
-/

namespace Asn1.Cert
open Asn1

variable {V : Type}

/-- What the code reads of the issuer and the serial number of a certificate: `issuer.dump()` and `serial_number.native`. -/
structure Identity where
  issuer : Py Bytes
  serial : Py Int

/-- The first general name of `authority_cert_issuer`, `chosen.untag()`: a `Name` with its `dump()`, or an object of another class, which has no attribute
`sha256`. -/
inductive FirstName where
  | directory (dump : Py Bytes)
  | other

/-- What the code reads of the value of the authority key identifier extension: the elements of `authority_cert_issuer` that its `native` has (`none` if the
field is absent), each as the result of `chosen.untag()`, and `authority_cert_serial_number.native`. -/
structure AuthorityReads (V : Type) where
  issuers : V → Py (Option (List (Py FirstName)))
  serial : V → Py (Option Int)

/-- The cache attributes of the two properties: `_issuer_serial` is `None` or the bytes, `_authority_issuer_serial` is `False`, `None` or the bytes
(x509.py:2192-2193). -/
structure SerialState where
  own : Option Bytes := none
  authority : Option (Option Bytes) := none

/-- `text.encode('ascii')` of ASCII text -/
def asciiBytes (s : Str) : Bytes := s.map fun c => UInt8.ofNat c.toNat

/-- `str_cls(serial)` -/
def serialText : Option Int → Str
  | some n => pyStrInt n
  | none => "None".toList

/-- `hash + b':' + str_cls(serial).encode('ascii')` (x509.py:2609, x509.py:2659) -/
def identifier (H : Bytes → Bytes) (issuer : Bytes) (serial : Option Int) : Bytes := H issuer ++ [58] ++ asciiBytes (serialText serial)

/-- `Certificate.issuer_serial` (x509.py:2598-2610) -/
def issuerSerial (H : Bytes → Bytes) (c : Identity) (st : SerialState) : Py Bytes × SerialState :=
  match st.own with
  | some b => (.ok b, st)
  | none =>
    match c.issuer with
    | .error x => (.error x, st)
    | .ok i =>
      match c.serial with
      | .error x => (.error x, st)
      | .ok n => (.ok (identifier H i (some n)), { st with own := some (identifier H i (some n)) })

/-- The part of `authority_issuer_serial` that reads the extension value (x509.py:2653-2661) -/
def authorityOf (H : Bytes → Bytes) (R : AuthorityReads V) (v : V) : Py (Option Bytes) := do
  match ← R.issuers v with
  | none => .ok none
  | some [] => .ok none
  | some (g :: _) =>
    match ← g with
    | .other => .error .attributeError
    | .directory dump => do
      let n ← R.serial v
      let i ← dump
      .ok (some (identifier H i n))

/-- `Certificate.authority_issuer_serial` (x509.py:2640-2662). A `SEQUENCE` with declared fields is true in a condition. The order of the reads of serial number
and issuer only matters for which exception is raised. -/
def authorityIssuerSerial (H : Bytes → Bytes) (R : AuthorityReads V) (c : Source V) (st : State V × SerialState) : Py (Option Bytes) × (State V × SerialState) :=
  match st.2.authority with
  | some r => (.ok r, st)
  | none =>
    match value c "authority_key_identifier" st.1 with
    | (.error x, s) => (.error x, (s, st.2))
    | (.ok none, s) => (.ok none, (s, { st.2 with authority := some none }))
    | (.ok (some v), s) =>
      match authorityOf H R v with
      | .error x => (.error x, (s, st.2))
      | .ok r => (.ok r, (s, { st.2 with authority := some r }))

end Asn1.Cert
