import Verif.Model.Inet

/-!
# Host names and IP addresses of a certificate (`asn1crypto/x509.py`, `Certificate`)

The fields of the certificate that the code reads are given: the alternative names and the common names. The `idna` codec is
modelled for ASCII text; for other text it is the parameter `ext`. The regular expression built from a wildcard label is
modelled for labels without regular expression metacharacters; for others `re` is the parameter `rx`.
-/

namespace Asn1.Host
open Asn1

/-- A general name: the alternative and its `native` value. -/
inductive GeneralName where
  | dns (s : Str)
  | ip (s : Str)
  | other
  deriving DecidableEq, Repr

/-- What the code reads of a certificate: `subject_alt_name_value` and the common names of the subject. -/
structure Cert where
  altNames : Option (List GeneralName)
  commonNames : List Str

/-- Python `s.lower()` of ASCII text. -/
def lower (s : Str) : Str := s.map fun c => if 65 ≤ c.toNat ∧ c.toNat ≤ 90 then Char.ofNat (c.toNat + 32) else c

/-- Python `s.encode('idna').decode('ascii')`: the fast path of `encodings/idna.py` for ASCII text, `UnicodeError` for a label
that is empty (except the last one) or longer than 63; otherwise `ext`. -/
def idna (ext : Str → Py Str) (s : Str) : Py Str :=
  if s.all (fun c => c.toNat < 128) then
    let labels := pySplit '.' s
    if labels.dropLast.all (fun l => 0 < l.length && l.length < 64) && (labels.getLastD []).length < 64 then .ok s
    else .error .unicodeError
  else ext s

/-- `[a-zA-Z]` -/
def isAlpha (c : Char) : Bool := ('a' ≤ c && c ≤ 'z') || ('A' ≤ c && c ≤ 'Z')
/-- `[a-zA-Z0-9]` -/
def isAlnum (c : Char) : Bool := isAlpha c || ('0' ≤ c && c ≤ '9')

/-- `[a-zA-Z0-9](?:[a-zA-Z0-9\\-]*[a-zA-Z0-9])?` -/
def hostLabel (l : Str) : Bool :=
  l.all (fun c => isAlnum c || c == '-') && (l.head?.any isAlnum) && (l.getLast?.any isAlnum)

/-- `(?:label\\.)+[a-zA-Z]{2,}` -/
def hostLabels (ls : List Str) : Bool :=
  2 ≤ ls.length && ls.dropLast.all hostLabel && 2 ≤ (ls.getLastD []).length && (ls.getLastD []).all isAlpha

/-- The end of a text for `$`: the text itself or the text without a final line feed. -/
def dollar (s : Str) : List Str := if s.getLast? = some '\n' then [s, s.dropLast] else [s]

/-- The pattern for common names that look like a domain (x509.py:2766). -/
def cnPattern (s : Str) : Bool :=
  (dollar s).any fun s => hostLabels (pySplit '.' (if ['*', '.'].isPrefixOf s then s.drop 2 else s))

/-- Append DNS names that are not in the list yet (x509.py:2756-2758). -/
def collectDns (acc : List Str) : List GeneralName → List Str
  | [] => acc
  | .dns s :: r => if s ∈ acc then collectDns acc r else collectDns (acc ++ [s]) r
  | _ :: r => collectDns acc r

/-- `Certificate.valid_domains` (x509.py:2741-2774). An empty extension value is false. -/
def validDomains (c : Cert) : List Str :=
  match c.altNames with
  | some (n :: ns) => collectDns [] (n :: ns)
  | _ => c.commonNames.filter cnPattern

/-- `Certificate.valid_ips` (x509.py:2776-2791) -/
def validIps (c : Cert) : List Str :=
  match c.altNames with
  | some ns => ns.filterMap fun
    | .ip s => some s
    | _ => none
  | none => []

/-- Characters with a meaning in a regular expression. -/
def isMeta (c : Char) : Bool := "\\.^$*+?{}[]|()".toList.contains c

/-- `re.match('^' + pre + '.*' + post + '$', label)` for `pre`, `post` without metacharacters. -/
def starMatch (pre post label : Str) : Bool :=
  (dollar label).any fun l =>
    pre.isPrefixOf l && post.isSuffixOf l && pre.length + post.length ≤ l.length &&
      (slice l pre.length (l.length - post.length)).all (· ≠ '\n')

/-- `re.compile('^' + label.replace('*', '.*') + '$').match(s)` (x509.py:3024-3025) -/
def labelRegex (rx : Str → Str → Py Bool) (label s : Str) : Py Bool :=
  let pre := label.takeWhile (· ≠ '*')
  let post := (label.dropWhile (· ≠ '*')).drop 1
  if pre.any isMeta || post.any isMeta then rx label s else .ok (starMatch pre post s)

/-- `Certificate._is_wildcard_domain` (x509.py:2960-2991) -/
def isWildcardDomain (domain : Str) : Bool :=
  if domain.count '*' ≠ 1 then false
  else
    let labels := pySplit '.' (lower domain)
    if labels = [] then false
    else if ¬ (labels.headD []).contains '*' then false
    else if (labels.headD []).take 4 = "xn--".toList then false
    else true

/-- `Certificate._is_wildcard_match` (x509.py:2993-3028). Both lists come from `str.split` and are not empty. -/
def isWildcardMatch (rx : Str → Str → Py Bool) (labels valid : List Str) : Py Bool :=
  if labels.drop 1 ≠ valid.drop 1 then .ok false
  else if valid.headD [] = ['*'] then .ok true
  else labelRegex rx (valid.headD []) (labels.headD [])

/-- The loop over the valid domains (x509.py:2925-2940). -/
def domainLoop (ext : Str → Py Str) (rx : Str → Str → Py Bool) (labels : List Str) : List Str → Py Bool
  | [] => .ok false
  | d :: ds => do
    let e ← idna ext d
    let valid := pySplit '.' (lower e)
    if valid.length ≠ labels.length then domainLoop ext rx labels ds
    else if valid = labels then .ok true
    else if isWildcardDomain (lower e) then
      match isWildcardMatch rx labels valid with
      | .error e => .error e
      | .ok true => .ok true
      | .ok false => domainLoop ext rx labels ds
    else domainLoop ext rx labels ds

/-- The loop over the valid addresses (x509.py:2951-2956). -/
def ipLoop (inet : Inet) (normalized : Bytes) : List Str → Py Bool
  | [] => .ok false
  | ip :: ips => do
    let n ← inet.pton (if ip.contains '.' then .inet else .inet6) ip
    if n = normalized then .ok true else ipLoop inet normalized ips

/-- `^\\d+\\.\\d+\\.\\d+\\.\\d+$` on ASCII text (x509.py:2917) -/
def looksIpv4 (s : Str) : Bool :=
  (dollar s).any fun s => (pySplit '.' s).length = 4 && (pySplit '.' s).all (fun l => l ≠ [] && l.all Char.isDigit)

/-- `Certificate.is_valid_domain_ip` (x509.py:2894-2958) -/
def isValidDomainIp (ext : Str → Py Str) (rx : Str → Str → Py Bool) (inet : Inet) (c : Cert) (host : Str) : Py Bool := do
  let e ← idna ext host
  let h := lower e
  let isV6 := h.contains ':'
  let isV4 := !isV6 && looksIpv4 h
  if !isV6 && !isV4 then
    if validDomains c = [] then .ok false else domainLoop ext rx (pySplit '.' h) (validDomains c)
  else if validIps c = [] then .ok false
  else do
    let n ← inet.pton (if isV4 then .inet else .inet6) h
    ipLoop inet n (validIps c)

end Asn1.Host
