import Verif.Model.Host

/-!
# Extension summary and the decisions derived from it (`x509.py` `Certificate`, `crl.py`, `ocsp.py`)

What the code reads of the decoded structure is given, each read as a value or an exception: reading an element of a decoded
structure is lazy, so every read can raise. What the code writes - the private cache attributes - is the state, which is kept
when a property raises. Values of type `V` are the parsed extension values.
-/

namespace Asn1.Cert
open Asn1

/-- One extension as the loop sees it: `extn_id.native`, `critical.native` and `extn_value.parsed`. -/
structure Ext (V : Type) where
  name : Py Str
  critical : Py Bool
  parsed : Py V

/-- `_processed_extensions`, `_critical_extensions` and the attributes `_<name>_value` of the class
(x509.py:2169-2190, crl.py:170-174, crl.py:293-301, ocsp.py:91-93, ocsp.py:221-225, ocsp.py:441-447, ocsp.py:618-621). -/
structure ExtState (V : Type) where
  processed : Bool := false
  critical : Option (List Str) := none
  attrs : List (Str × Option V)

variable {V : Type}

/-- The class attributes of a new instance: every `_<name>_value` is `None`. -/
def ExtState.new (names : List Str) : ExtState V := { attrs := names.map fun n => (n, none) }

/-- `hasattr(self, '_%s_value' % name)` (x509.py:2213) -/
def hasAttr (st : ExtState V) (name : Str) : Bool := st.attrs.any fun a => a.1 == name

/-- `setattr(self, '_%s_value' % name, v)` (x509.py:2214) -/
def setAttr (st : ExtState V) (name : Str) (v : V) : ExtState V :=
  { st with attrs := st.attrs.map fun a => if a.1 = name then (a.1, some v) else a }

/-- `getattr(self, '_%s_value' % name)` -/
def getAttr (st : ExtState V) (name : Str) : Option V := ((st.attrs.find? fun a => a.1 == name).map Prod.snd).join

/-- `self._critical_extensions.add(name)` (x509.py:2216); the set is a list without duplicates. -/
def addCritical (st : ExtState V) (name : Str) : ExtState V :=
  { st with critical := st.critical.map fun s => if name ∈ s then s else s ++ [name] }

/-- The loop of `_set_extensions` (x509.py:2210-2216) -/
def extLoop : List (Ext V) → ExtState V → Py Unit × ExtState V
  | [], st => (.ok (), st)
  | e :: es, st =>
    match e.name with
    | .error x => (.error x, st)
    | .ok name =>
      match (if hasAttr st name then
          match e.parsed with
          | .error x => (.error x, st)
          | .ok v => (.ok (), setAttr st name v)
        else (.ok (), st) : Py Unit × ExtState V) with
      | (.error x, st) => (.error x, st)
      | (.ok _, st) =>
        match e.critical with
        | .error x => (.error x, st)
        | .ok c => extLoop es (if c then addCritical st name else st)

/-- `_set_extensions` (x509.py:2202-2218, crl.py:177-193, crl.py:307-323, ocsp.py:95-111, ocsp.py:227-243, ocsp.py:449-465,
ocsp.py:623-639). `exts` is the list of extensions, empty if the field is absent. -/
def setExtensions (exts : Py (List (Ext V))) (st : ExtState V) : Py Unit × ExtState V :=
  let st := { st with critical := some [] }
  match exts with
  | .error x => (.error x, st)
  | .ok es =>
    match extLoop es st with
    | (.error x, st) => (.error x, st)
    | (.ok _, st) => (.ok (), { st with processed := true })

/-- `critical_extensions` (x509.py:2220-2232, crl.py:195-207, crl.py:325-337, ocsp.py:113-125, ocsp.py:245-257, ocsp.py:467-479,
ocsp.py:641-653) -/
def criticalExtensions (exts : Py (List (Ext V))) (st : ExtState V) : Py (Option (List Str)) × ExtState V :=
  if st.processed then (.ok st.critical, st)
  else
    match setExtensions exts st with
    | (.error x, st) => (.error x, st)
    | (.ok _, st) => (.ok st.critical, st)

/-- The property `<name>_value` (x509.py:2234-2519, crl.py:209-251, crl.py:339-435, ocsp.py:127-139, ocsp.py:259-302,
ocsp.py:481-549, ocsp.py:655-681) -/
def extValue (exts : Py (List (Ext V))) (name : Str) (st : ExtState V) : Py (Option V) × ExtState V :=
  if st.processed then (.ok (getAttr st name), st)
  else
    match setExtensions exts st with
    | (.error x, st) => (.error x, st)
    | (.ok _, st) => (.ok (getAttr st name), st)

/-- The extension attributes of `Certificate` (x509.py:2171-2190) -/
def certificateAttrs : List Str := [
  "subject_directory_attributes", "key_identifier", "key_usage", "subject_alt_name", "issuer_alt_name", "basic_constraints",
  "name_constraints", "crl_distribution_points", "certificate_policies", "policy_mappings", "authority_key_identifier",
  "policy_constraints", "freshest_crl", "inhibit_any_policy", "extended_key_usage", "authority_information_access",
  "subject_information_access", "private_key_usage_period", "tls_feature", "ocsp_no_check"].map String.toList

/-- The extension attributes of `RevokedCertificate` (crl.py:172-174) -/
def revokedAttrs : List Str := ["crl_reason", "invalidity_date", "certificate_issuer"].map String.toList

/-- The extension attributes of `CertificateList` (crl.py:295-301) -/
def crlAttrs : List Str := [
  "issuer_alt_name", "crl_number", "delta_crl_indicator", "issuing_distribution_point", "authority_key_identifier",
  "freshest_crl", "authority_information_access"].map String.toList

/-- The extension attributes of `Request` (ocsp.py:93) -/
def requestAttrs : List Str := ["service_locator"].map String.toList

/-- The extension attributes of `OCSPRequest` (ocsp.py:223-225) -/
def ocspRequestAttrs : List Str :=
  ["nonce", "acceptable_responses", "preferred_signature_algorithms"].map String.toList

/-- The extension attributes of `SingleResponse` (ocsp.py:443-447) -/
def singleResponseAttrs : List Str :=
  ["crl", "archive_cutoff", "crl_reason", "invalidity_date", "certificate_issuer"].map String.toList

/-- The extension attributes of `OCSPResponse` (ocsp.py:620-621) -/
def ocspResponseAttrs : List Str := ["nonce", "extended_revoke"].map String.toList

/-- An entry of an `authority_information_access` value: `access_method.native`, `access_location.name`,
`access_location.native`. -/
structure Access where
  method : Py Str
  location : Py Str
  url : Py Str

/-- A distribution point: `distribution_point` is absent (`VOID`) or a choice with the given name and the names of the general
names in it. `id` stands for the rest of the object. -/
structure Point where
  id : Nat
  name : Py (Option (Str × Py (List (Py Str))))

/-- What the code reads of a parsed extension value. `native` is the byte string of an octet string, `keyId` is
`value['key_identifier'].native`, `accesses` and `points` are the elements of a `SEQUENCE OF`. A value of a class
without `__len__` and a `SEQUENCE` with at least one declared field are true in a condition; a `SEQUENCE OF` is true if it is
not empty. -/
structure Reads (V : Type) where
  native : V → Py (Option Bytes)
  keyId : V → Py (Option Bytes)
  accesses : V → Py (List Access)
  points : V → Py (List Point)

/-- What the code reads of a certificate: its extensions and whether `subject == issuer`. -/
structure Source (V : Type) where
  exts : Py (List (Ext V))
  sameName : Py Bool

/-- The cache attributes of a `Certificate` (x509.py:2162-2200) that the modelled properties use. -/
structure State (V : Type) extends ExtState V where
  selfIssued : Option Bool := none
  selfSigned : Option Str := none
  crlPoints : Option (List Point) := none
  deltaPoints : Option (List Point) := none

/-- A new certificate object. -/
def State.new : State V := { toExtState := ExtState.new certificateAttrs }

/-- `Certificate.self_issued` (x509.py:2813-2823) -/
def selfIssued (c : Source V) (st : State V) : Py Bool × State V :=
  match st.selfIssued with
  | some b => (.ok b, st)
  | none =>
    match c.sameName with
    | .error x => (.error x, st)
    | .ok b => (.ok b, { st with selfIssued := some b })

/-- The property `<name>_value` of a certificate. -/
def value (c : Source V) (name : String) (st : State V) : Py (Option V) × State V :=
  match extValue c.exts name.toList st.toExtState with
  | (r, e) => (r, { st with toExtState := e })

/-- `Certificate.critical_extensions` -/
def critical (c : Source V) (st : State V) : Py (Option (List Str)) × State V :=
  match criticalExtensions c.exts st.toExtState with
  | (r, e) => (r, { st with toExtState := e })

/-- `Certificate.key_identifier` (x509.py:2585-2596) -/
def keyIdentifier (R : Reads V) (c : Source V) (st : State V) : Py (Option Bytes) × State V :=
  match value c "key_identifier" st with
  | (.error x, st) => (.error x, st)
  | (.ok none, st) => (.ok none, st)
  | (.ok (some v), st) => (R.native v, st)

/-- `Certificate.authority_key_identifier` (x509.py:2627-2638) -/
def authorityKeyIdentifier (R : Reads V) (c : Source V) (st : State V) : Py (Option Bytes) × State V :=
  match value c "authority_key_identifier" st with
  | (.error x, st) => (.error x, st)
  | (.ok none, st) => (.ok none, st)
  | (.ok (some v), st) => (R.keyId v, st)

/-- Truth of `None` or a byte string. -/
def truthy : Option Bytes → Bool
  | some (_ :: _) => true
  | _ => false

/-- `'no'` -/
def no : Str := "no".toList
/-- `'maybe'` -/
def maybe : Str := "maybe".toList

/-- `Certificate.self_signed` (x509.py:2825-2849). The cache holds `'no'` from the beginning, so that is what later reads
return if this one raises. -/
def selfSigned (R : Reads V) (c : Source V) (st : State V) : Py Str × State V :=
  match st.selfSigned with
  | some s => (.ok s, st)
  | none =>
    match selfIssued c { st with selfSigned := some no } with
    | (.error x, st) => (.error x, st)
    | (.ok false, st) => (.ok no, st)
    | (.ok true, st) =>
      match keyIdentifier R c st with
      | (.error x, st) => (.error x, st)
      | (.ok k, st) =>
        if truthy k then
          match authorityKeyIdentifier R c st with
          | (.error x, st) => (.error x, st)
          | (.ok a, st) =>
            if truthy a then
              if a = k then (.ok maybe, { st with selfSigned := some maybe }) else (.ok no, st)
            else (.ok maybe, { st with selfSigned := some maybe })
        else (.ok maybe, { st with selfSigned := some maybe })

/-- `'uniform_resource_identifier'` -/
def uri : Str := "uniform_resource_identifier".toList

/-- `url.lower().startswith(('http://', 'https://', 'ldap://', 'ldaps://'))` (x509.py:2737). No character outside ASCII has a
lower case form that begins with one of these letters. -/
def schemeTest (url : Str) : Bool :=
  ["http://", "https://", "ldap://", "ldaps://"].any fun p => p.toList.isPrefixOf (Host.lower url)

/-- The loop of `ocsp_urls` (x509.py:2731-2738) -/
def ocspLoop : List Access → List Str → Py (List Str)
  | [], out => .ok out
  | e :: es, out => do
    let m ← e.method
    if m = "ocsp".toList then
      let l ← e.location
      if l ≠ uri then ocspLoop es out
      else
        let url ← e.url
        ocspLoop es (if schemeTest url then out ++ [url] else out)
    else ocspLoop es out

/-- `Certificate.ocsp_urls` (x509.py:2719-2739) -/
def ocspUrls (R : Reads V) (c : Source V) (st : State V) : Py (List Str) × State V :=
  match value c "authority_information_access" st with
  | (.error x, st) => (.error x, st)
  | (.ok none, st) => (.ok [], st)
  | (.ok (some v), st) => (R.accesses v >>= fun es => ocspLoop es [], st)

/-- The loop over the general names of a distribution point (x509.py:2713-2715) -/
def nameLoop (p : Point) : List (Py Str) → List Point → Py (List Point)
  | [], out => .ok out
  | n :: ns, out => do
    let n ← n
    nameLoop p ns (if n = uri then out ++ [p] else out)

/-- The loop of `_get_http_crl_distribution_points` (x509.py:2705-2715) -/
def pointLoop : List Point → List Point → Py (List Point)
  | [], out => .ok out
  | p :: ps, out => do
    match ← p.name with
    | none => pointLoop ps out
    | some (name, names) =>
      if name = "name_relative_to_crl_issuer".toList then pointLoop ps out
      else
        let ns ← names
        let out ← nameLoop p ns out
        pointLoop ps out

/-- `Certificate._get_http_crl_distribution_points` (x509.py:2688-2717) -/
def httpPoints (R : Reads V) : Option V → Py (List Point)
  | none => .ok []
  | some v => R.points v >>= fun ps => pointLoop ps []

/-- `Certificate.crl_distribution_points` (x509.py:2662-2673) -/
def crlDistributionPoints (R : Reads V) (c : Source V) (st : State V) : Py (List Point) × State V :=
  match st.crlPoints with
  | some ps => (.ok ps, st)
  | none =>
    match value c "crl_distribution_points" st with
    | (.error x, st) => (.error x, st)
    | (.ok v, st) =>
      match httpPoints R v with
      | .error x => (.error x, st)
      | .ok ps => (.ok ps, { st with crlPoints := some ps })

/-- `Certificate.delta_crl_distribution_points` (x509.py:2675-2686) -/
def deltaCrlDistributionPoints (R : Reads V) (c : Source V) (st : State V) : Py (List Point) × State V :=
  match st.deltaPoints with
  | some ps => (.ok ps, st)
  | none =>
    match value c "freshest_crl" st with
    | (.error x, st) => (.error x, st)
    | (.ok v, st) =>
      match httpPoints R v with
      | .error x => (.error x, st)
      | .ok ps => (.ok ps, { st with deltaPoints := some ps })

/-- The cache attributes of a `CertificateList` (crl.py:293-305) that the modelled properties use. -/
structure CrlState (V : Type) extends ExtState V where
  issuerUrls : Option (List Str) := none
  deltaPoints : Option (List Point) := none

/-- A new CRL object. -/
def CrlState.new : CrlState V := { toExtState := ExtState.new crlAttrs }

/-- The property `<name>_value` of a CRL. -/
def crlValue (exts : Py (List (Ext V))) (name : String) (st : CrlState V) : Py (Option V) × CrlState V :=
  match extValue exts name.toList st.toExtState with
  | (r, e) => (r, { st with toExtState := e })

/-- The loop of `issuer_cert_urls` (crl.py:471-478), which appends to the cached list: the list so far and the exception that
ended the loop, if any. -/
def issuerLoop : List Access → List Str → List Str × Option PyErr
  | [], out => (out, none)
  | e :: es, out =>
    match e.method with
    | .error x => (out, some x)
    | .ok m =>
      if m = "ca_issuers".toList then
        match e.location with
        | .error x => (out, some x)
        | .ok l =>
          if l ≠ uri then issuerLoop es out
          else
            match e.url with
            | .error x => (out, some x)
            | .ok url => issuerLoop es (if (Host.lower url).take 7 = "http://".toList then out ++ [url] else out)
      else issuerLoop es out

/-- `CertificateList.issuer_cert_urls` (crl.py:459-479) -/
def issuerCertUrls (R : Reads V) (exts : Py (List (Ext V))) (st : CrlState V) : Py (List Str) × CrlState V :=
  match st.issuerUrls with
  | some us => (.ok us, st)
  | none =>
    match crlValue exts "authority_information_access" { st with issuerUrls := some [] } with
    | (.error x, st) => (.error x, st)
    | (.ok none, st) => (.ok [], st)
    | (.ok (some v), st) =>
      match R.accesses v with
      | .error x => (.error x, st)
      | .ok es =>
        match issuerLoop es [] with
        | (us, none) => (.ok us, { st with issuerUrls := some us })
        | (us, some x) => (.error x, { st with issuerUrls := some us })

/-- The loop over the general names of a distribution point (crl.py:500-502), which appends to the cached list. -/
def crlNameLoop (p : Point) : List (Py Str) → List Point → List Point × Option PyErr
  | [], out => (out, none)
  | .error x :: _, out => (out, some x)
  | .ok n :: ns, out => crlNameLoop p ns (if n = uri then out ++ [p] else out)

/-- The loop of `delta_crl_distribution_points` of a CRL (crl.py:494-502). `VOID` has no attribute `name`. -/
def crlPointLoop : List Point → List Point → List Point × Option PyErr
  | [], out => (out, none)
  | p :: ps, out =>
    match p.name with
    | .error x => (out, some x)
    | .ok none => (out, some .attributeError)
    | .ok (some (name, names)) =>
      if name = "name_relative_to_crl_issuer".toList then crlPointLoop ps out
      else
        match names with
        | .error x => (out, some x)
        | .ok ns =>
          match crlNameLoop p ns out with
          | (out, some x) => (out, some x)
          | (out, none) => crlPointLoop ps out

/-- `CertificateList.delta_crl_distribution_points` (crl.py:481-504) -/
def crlDeltaPoints (R : Reads V) (exts : Py (List (Ext V))) (st : CrlState V) : Py (List Point) × CrlState V :=
  match st.deltaPoints with
  | some ps => (.ok ps, st)
  | none =>
    match crlValue exts "freshest_crl" { st with deltaPoints := some [] } with
    | (.error x, st) => (.error x, st)
    | (.ok none, st) => (.ok [], st)
    | (.ok (some v), st) =>
      match R.points v with
      | .error x => (.error x, st)
      | .ok ps =>
        match crlPointLoop ps [] with
        | (out, none) => (.ok out, { st with deltaPoints := some out })
        | (out, some x) => (.error x, { st with deltaPoints := some out })

end Asn1.Cert
