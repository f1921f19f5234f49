import Verif.Model.Cert
import Verif.Model.Host

/-!
# `valid_domains`, `valid_ips`, `ca`, `max_path_length` of certificates and `issuer_name` of entries of revocation lists

What is read of the decoded structure is given, each read as a value or an exception (see Model/Cert.lean). The caches are the state, which is kept when a
read raises.
-/

namespace Asn1.Cert
open Asn1

variable {V N : Type}

/-- A general name in `subject_alt_name_value`: `general_name.name` and `general_name.native`. -/
structure AltName where
  name : Py Str
  native : Py Str

/-- An attribute of the subject: `name_type_value['type'].native` and `name_type_value['value'].native`. -/
structure NameAttr where
  type : Py Str
  value : Py Str

/-- What the code reads of extension values and of the subject: the general names of the alternative names, the attributes of the subject in their order, and
`basic_constraints_value['ca'].native`, `basic_constraints_value['path_len_constraint'].native`. -/
structure NameReads (V : Type) where
  alts : V → Py (List AltName)
  subject : Py (List NameAttr)
  ca : V → Py Bool
  path : V → Py (Option Int)

/-- The caches: those of Model/Cert.lean, `_valid_domains` and `_valid_ips` (x509.py:2195-2196). -/
structure NamesState (V : Type) where
  cert : State V := State.new
  domains : Option (List Str) := none
  ips : Option (List Str) := none

/-- The loop over the general names (x509.py:2756-2758): the list at the end, or when a read raises. -/
def altDomains : List AltName → List Str → List Str × Option PyErr
  | [], acc => (acc, none)
  | n :: ns, acc =>
    match n.name with
    | .error x => (acc, some x)
    | .ok k =>
      if k ≠ "dns_name".toList then altDomains ns acc
      else
        match n.native with
        | .error x => (acc, some x)
        | .ok s => if s ∈ acc then altDomains ns acc else altDomains ns (acc ++ [s])

/-- The loop over the attributes of the subject (x509.py:2767-2772) -/
def subjectDomains : List NameAttr → List Str → List Str × Option PyErr
  | [], acc => (acc, none)
  | a :: as, acc =>
    match a.type with
    | .error x => (acc, some x)
    | .ok t =>
      if t ≠ "common_name".toList then subjectDomains as acc
      else
        match a.value with
        | .error x => (acc, some x)
        | .ok s => if Host.cnPattern s then subjectDomains as (acc ++ [s]) else subjectDomains as acc

/-- What fills `_valid_domains` (x509.py:2755-2772). An empty list of alternative names is false in the condition. -/
def fillDomains (R : NameReads V) (v : Option V) : List Str × Option PyErr :=
  match (match v with | some v => R.alts v | none => .ok []) with
  | .error x => ([], some x)
  | .ok [] =>
    match R.subject with
    | .error x => ([], some x)
    | .ok as => subjectDomains as []
  | .ok (n :: ns) => altDomains (n :: ns) []

/-- `Certificate.valid_domains` (x509.py:2741-2774). The second read of `subject_alt_name_value` has the result of the first. -/
def validDomains (R : NameReads V) (c : Source V) (st : NamesState V) : Py (List Str) × NamesState V :=
  match st.domains with
  | some l => (.ok l, st)
  | none =>
    match value c "subject_alt_name" st.cert with
    | (.error x, s) => (.error x, { st with cert := s, domains := some [] })
    | (.ok v, s) =>
      match fillDomains R v with
      | (l, none) => (.ok l, { st with cert := s, domains := some l })
      | (l, some x) => (.error x, { st with cert := s, domains := some l })

/-- The loop over the general names (x509.py:2787-2789) -/
def altIps : List AltName → List Str → List Str × Option PyErr
  | [], acc => (acc, none)
  | n :: ns, acc =>
    match n.name with
    | .error x => (acc, some x)
    | .ok k =>
      if k ≠ "ip_address".toList then altIps ns acc
      else
        match n.native with
        | .error x => (acc, some x)
        | .ok s => altIps ns (acc ++ [s])

/-- What fills `_valid_ips` (x509.py:2786-2789) -/
def fillIps (R : NameReads V) (v : Option V) : List Str × Option PyErr :=
  match v with
  | none => ([], none)
  | some v =>
    match R.alts v with
    | .error x => ([], some x)
    | .ok ns => altIps ns []

/-- `Certificate.valid_ips` (x509.py:2776-2791) -/
def validIps (R : NameReads V) (c : Source V) (st : NamesState V) : Py (List Str) × NamesState V :=
  match st.ips with
  | some l => (.ok l, st)
  | none =>
    match value c "subject_alt_name" st.cert with
    | (.error x, s) => (.error x, { st with cert := s, ips := some [] })
    | (.ok v, s) =>
      match fillIps R v with
      | (l, none) => (.ok l, { st with cert := s, ips := some l })
      | (l, some x) => (.error x, { st with cert := s, ips := some l })

/-- `Certificate.ca` (x509.py:2793-2800). Without the extension it is `None`. A `SEQUENCE` with declared fields is true in a condition. -/
def ca (R : NameReads V) (c : Source V) (st : State V) : Py (Option Bool) × State V :=
  match value c "basic_constraints" st with
  | (.error x, s) => (.error x, s)
  | (.ok none, s) => (.ok none, s)
  | (.ok (some v), s) => ((R.ca v).map some, s)

/-- `Certificate.max_path_length` (x509.py:2802-2811). If `ca` is true there is a value to read. -/
def maxPathLength (R : NameReads V) (c : Source V) (st : State V) : Py (Option Int) × State V :=
  match ca R c st with
  | (.error x, s) => (.error x, s)
  | (.ok (some true), s) =>
    match value c "basic_constraints" s with
    | (.error x, s) => (.error x, s)
    | (.ok none, s) => (.error .typeError, s)
    | (.ok (some v), s) => (R.path v, s)
  | (.ok _, s) => (.ok none, s)

/-- A general name in `certificate_issuer_value`: `general_name.name` and `general_name.chosen`. -/
structure IssuerName (N : Type) where
  name : Py Str
  chosen : Py N

/-- The caches of a `RevokedCertificate` (crl.py:170-175): `_issuer_name` is `False` (`none`), `None` or a name. -/
structure RevokedState (V N : Type) where
  ext : ExtState V := ExtState.new revokedAttrs
  issuer : Option (Option N) := none

/-- The loop over the general names, which ends at the first directory name (crl.py:263-266). -/
def directoryLoop : List (IssuerName N) → Py (Option N)
  | [] => .ok none
  | g :: gs =>
    match g.name with
    | .error x => .error x
    | .ok k => if k = "directory_name".toList then g.chosen.map some else directoryLoop gs

/-- `RevokedCertificate.issuer_name` (crl.py:253-267) -/
def issuerName (names : V → Py (List (IssuerName N))) (exts : Py (List (Ext V))) (st : RevokedState V N) : Py (Option N) × RevokedState V N :=
  match st.issuer with
  | some n => (.ok n, st)
  | none =>
    match extValue exts "certificate_issuer".toList st.ext with
    | (.error x, e) => (.error x, ⟨e, some none⟩)
    | (.ok none, e) => (.ok none, ⟨e, some none⟩)
    | (.ok (some v), e) =>
      match (do directoryLoop (← names v)) with
      | .error x => (.error x, ⟨e, some none⟩)
      | .ok n => (.ok n, ⟨e, some n⟩)

end Asn1.Cert
