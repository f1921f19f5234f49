import Verif.Model.Strings
import Verif.Model.Name
import Verif.Model.Host
import Verif.Model.Url

/-!
# E-mail addresses, DNS names, URIs and general names (x509.py:71-292, 411-424, 1432-1481)

Conversion of text to contents octets and back, and comparison. The marker of indefinite length is reset by `set` here, see Model/Package.lean.
-/

namespace Asn1.GenName
open Asn1 Url

/-- What is not modelled: what `Url` leaves out, and the Unicode tables for the comparison of distinguished names. -/
structure Lib extends Url.Lib where
  tables : Names.Tables

/-! ### The classes -/

/-- The conversions of `DNSName` (x509.py:95-121; core.py:1820-1831) -/
def dns (L : Lib) : Codec where
  decode := idnaDecode L.toLib
  encode
    | '.' :: s => (idnaEncode L.toLib s).map (0x2e :: ·)
    | s => idnaEncode L.toLib s

/-- The conversions of `EmailAddress` (x509.py:210-255) -/
def mail (L : Lib) : Codec where
  decode b :=
    match rsplit 0x40 b with
    | none => Names.cp1252 b
    | some (m, h) => do
      let s ← Names.cp1252 m
      let t ← idnaDecode L.toLib h
      .ok (s ++ '@' :: t)
  encode s :=
    match rsplit '@' s with
    | some (m, h) => do
      let a ← asciiEncode m
      let b ← idnaEncode L.toLib h
      .ok (a ++ 0x40 :: b)
    | none => asciiEncode s

/-- The conversions of `URI` (x509.py:126-147, 166-178) -/
def uri (L : Lib) : Codec where
  decode := uriToIri L.toLib
  encode s := iriToUri L.toLib s false

/-- A class without value; they are all IA5Strings. -/
def new : Obj Str := { cls := 0, method := 0, tag := 22 }

/-- The text of an instance, and the instance with the cached text. -/
def read (k : Codec) (o : Obj Str) : Py (Option Str × Obj Str) := AbstractString.native k new o

/-! ### Comparison -/

/-- `DNSName.__eq__` (x509.py:79-93): `__unicode__` of an instance without contents is `''`. -/
def dnsEq (L : Lib) (a b : Obj Str) : Py (Bool × Obj Str × Obj Str) := do
  let (s, a) ← read (dns L) a
  let (t, b) ← read (dns L) b
  .ok (decide (lower L.toLib (s.getD []) = lower L.toLib (t.getD [])), a, b)

/-- `URI.__eq__` (x509.py:152-166): `iri_to_uri(None)` is a `TypeError` (_iri.py:54-60). -/
def uriEq (L : Lib) (a b : Obj Str) : Py (Bool × Obj Str × Obj Str) := do
  let (s, a) ← read (uri L) a
  let u ← match s with
    | some s => iriToUri L.toLib s true
    | none => .error .typeError
  let (t, b) ← read (uri L) b
  let v ← match t with
    | some t => iriToUri L.toLib t true
    | none => .error .typeError
  .ok (decide (u = v), a, b)

/-- `self.set(self.native)` -/
def normalize (L : Lib) (o : Obj Str) : Py (Obj Str) := do
  let (s, o) ← read (mail L) o
  match s with
  | some s => AbstractString.set (mail L) o s
  | none => .error .typeError

/-- `b.lower()` of a byte string -/
def lowerBytes (b : Bytes) : Bytes := b.map fun x => if 65 ≤ x.toNat ∧ x.toNat ≤ 90 then x + 32 else x

/-- The rest of `EmailAddress.__eq__` (x509.py:279-292) -/
def mailCompare (c d : Bytes) : Bool :=
  match rsplit 0x40 c, rsplit 0x40 d with
  | some (m, h), some (m', h') => decide (m = m') && decide (lowerBytes h = lowerBytes h')
  | _, _ => decide (c = d)

/-- `EmailAddress.__eq__` (x509.py:260-292). `_normalized` is always `False`: `set` sets it to `True`, but then assigns `contents`, which sets it
to `False` (x509.py:190-208, 231-233). -/
def mailEq (L : Lib) (a b : Obj Str) : Py (Bool × Obj Str × Obj Str) := do
  let a ← normalize L a
  let b ← normalize L b
  .ok (mailCompare (a.contents.getD []) (b.contents.getD []), a, b)

/-- `IPAddress.__eq__` (x509.py:412-424) -/
def ipEq (a b : Obj Bytes) : Py (Bool × Obj Bytes × Obj Bytes) := do
  let (s, a) ← OctetString.native a
  let (t, b) ← OctetString.native b
  .ok (decide (s.getD [] = t.getD []), a, b)

/-- The chosen alternative of a GeneralName (x509.py:1432-1443). What cannot be compared is left out; a registered id is its contents octets. -/
inductive Chosen where
  | other
  | mail (o : Obj Str)
  | dns (o : Obj Str)
  | x400
  | directory (n : List (List Names.Attr))
  | ediParty
  | uri (o : Obj Str)
  | ip (o : Obj Bytes)
  | registered (contents : Option Bytes)

/-- `.name` (x509.py:1433-1443) -/
def Chosen.name : Chosen → String
  | other => "other_name"
  | mail _ => "rfc822_name"
  | dns _ => "dns_name"
  | x400 => "x400_address"
  | directory _ => "directory_name"
  | ediParty => "edi_party_name"
  | uri _ => "uniform_resource_identifier"
  | ip _ => "ip_address"
  | registered _ => "registered_id"

/-- The names that cannot be compared (x509.py:1459, 1468) -/
def refused : List String := ["other_name", "x400_address", "edi_party_name"]

/-- `self.chosen == other.chosen` for the same alternative. Two registered ids are of the same class, so `Primitive.__eq__` compares their contents
(core.py:1743-1765). -/
def chosenEq (L : Lib) : Chosen → Chosen → Py (Bool × Chosen × Chosen)
  | .mail a, .mail b => (mailEq L a b).map fun r => (r.1, .mail r.2.1, .mail r.2.2)
  | .dns a, .dns b => (dnsEq L a b).map fun r => (r.1, .dns r.2.1, .dns r.2.2)
  | .directory a, .directory b => (Names.nameEq L.tables a b).map fun r => (r, .directory a, .directory b)
  | .uri a, .uri b => (uriEq L a b).map fun r => (r.1, .uri r.2.1, .uri r.2.2)
  | .ip a, .ip b => (ipEq a b).map fun r => (r.1, .ip r.2.1, .ip r.2.2)
  | .registered a, .registered b => .ok (decide (a = b), .registered a, .registered b)
  | a, b => .ok (false, a, b)

/-- `GeneralName.__eq__` (x509.py:1448-1477) -/
def nameEq (L : Lib) (a b : Chosen) : Py (Bool × Chosen × Chosen) :=
  if a.name ∈ refused then .error .valueError
  else if b.name ∈ refused then .error .valueError
  else if a.name ≠ b.name then .ok (false, a, b)
  else chosenEq L a b

end Asn1.GenName
