import Verif.Model.Package

/-! # Attributes that are short for reading field after field: PKCS#12 files, OCSP responses, compressed messages, reasons of revocations -/

namespace Asn1.Pkg
open Asn1

/-- `value[name]` (core.py:3518-3562): the child and the value afterwards. VOID and primitive values have no fields. -/
def getNamed (E : Env) (r : Ops) (v : Val) (name : String) : Py (Val × Val) :=
  match v with
  | .node c o children _ =>
    match E.cls c with
    | .seq _ _ _ fields _ => do
      let _ ← ensureChildren E r c o children
      match fieldIndex fields name with
      | none => .error .keyError
      | some k => getItem E r v k
    | _ => .error .typeError
  | _ => .error .typeError

/-- The value `v` after something has been done to its child with this name, which is now `x`. -/
def putNamed (E : Env) (v : Val) (name : String) (x : Val) : Val :=
  match v with
  | .node c o (some cs) m =>
    match E.cls c with
    | .seq _ _ _ fields _ => match fieldIndex fields name with
      | some k => .node c o (some (cs.set k (.val x))) m
      | none => v
    | _ => v
  | _ => v

/-- `f` of `value[name]…[name]`. -/
def onPath {α : Type} (E : Env) (r : Ops) (f : Val → Py (α × Val)) : List String → Val → Py (α × Val)
  | [], v => f v
  | n :: ns, v => do
    let (x, v) ← getNamed E r v n
    let (a, x) ← onPath E r f ns x
    .ok (a, putNamed E v n x)

/-- A value with a cache (`_authenticated_safe`, `_decompressed`), `none` until it has been asked for. -/
structure Cached (α : Type) where
  value : Val
  cache : Option α

/-- The octets that `.native` gives to `load` or to `zlib.decompress`, which refuse everything else with `TypeError`. -/
def nativeOctets (r : Ops) (v : Val) : Py (Bytes × Val) := do
  let (n, v) ← r.native v
  match n with
  | .scalar (.bytes b) => .ok (b, v)
  | _ => .error .typeError

/-- The content of a PKCS#12 file (pkcs12.py:117-119) -/
def safeOctets (E : Env) (r : Ops) (content : Val) : Py (Bytes × Val) :=
  if content.classOf = some Id.cms.SignedData then onPath E r (nativeOctets r) ["content_info", "content"] content
  else nativeOctets r content

/-- `Pfx.authenticated_safe` (pkcs12.py:113-121) -/
def authenticatedSafe (E : Env) (r : Ops) (s : Cached Val) : Py (Val × Cached Val) :=
  match s.cache with
  | some a => .ok (a, s)
  | none => do
    let (b, v) ← onPath E r (safeOctets E r) ["auth_safe", "content"] s.value
    let a ← loadVal E r Id.pkcs12.AuthenticatedSafe {} b
    .ok (a, ⟨v, some a⟩)

/-- `CompressedData.decompressed` (cms.py:929-935); `inflate` is `zlib.decompress`. -/
def decompressed (E : Env) (r : Ops) (inflate : Bytes → Py Bytes) (s : Cached Bytes) : Py (Bytes × Cached Bytes) :=
  match s.cache with
  | some a => .ok (a, s)
  | none => do
    let (b, v) ← onPath E r (nativeOctets r) ["encap_content_info", "content"] s.value
    let a ← inflate b
    .ok (a, ⟨v, some a⟩)

/-- `OCSPResponse.basic_ocsp_response` (ocsp.py:683-692) -/
def basicResponse (E : Env) (r : Ops) (v : Val) : Py (Val × Val) :=
  onPath E r (parsedOf E r) ["response_bytes", "response"] v

/-- `OCSPResponse.response_data` (ocsp.py:694-703). What reading the parsed response does to it is not kept. -/
def responseData (E : Env) (r : Ops) (v : Val) : Py (Val × Val) := do
  let (x, v) ← basicResponse E r v
  let (y, _) ← getNamed E r x "tbs_response_data"
  .ok (y, v)

/-- The dict of `CRLReason.human_friendly` (crl.py:120-131) -/
def reasonTexts : List (Str × Str) := [
  ("unspecified".toList, "an unspecified reason".toList),
  ("key_compromise".toList, "a compromised key".toList),
  ("ca_compromise".toList, "the CA being compromised".toList),
  ("affiliation_changed".toList, "an affiliation change".toList),
  ("superseded".toList, "certificate supersession".toList),
  ("cessation_of_operation".toList, "a cessation of operation".toList),
  ("certificate_hold".toList, "a certificate hold".toList),
  ("remove_from_crl".toList, "removal from the CRL".toList),
  ("privilege_withdrawn".toList, "privilege withdrawl".toList),
  ("aa_compromise".toList, "the AA being compromised".toList)]

/-- `CRLReason.human_friendly` (crl.py:110-131) -/
def humanFriendly (r : Ops) (v : Val) : Py (Str × Val) := do
  let (n, v) ← r.native v
  match n with
  | .scalar (.str s) => match reasonTexts.lookup s with
    | some t => .ok (t, v)
    | none => .error .keyError
  | _ => .error .keyError

end Asn1.Pkg
