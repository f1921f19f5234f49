import Verif.Model.Iri

/-!
# `iri_to_uri` and `uri_to_iri` (_iri.py:37-169)

With `urlsplit` and `urlunsplit` of the standard library (urllib/parse.py of Python 3.11) and its IDNA codec for ASCII text
(encodings/idna.py:146-168, 181-197). For other text, and for octets that are not ASCII or have the prefix `xn--`, the codec is a parameter, as
are the lower case and the normal form of text that is not ASCII, and the test of an address in brackets (urllib/parse.py:441-451).
-/

namespace Asn1.Url
open Asn1

/-- What is not modelled. -/
structure Lib where
  /-- `s.encode('idna')` of text that is not ASCII -/
  toAscii : Str → Py Bytes
  /-- `b.decode('idna')` of octets that are not ASCII or have `xn--` -/
  toUnicode : Bytes → Py Str
  /-- `s.lower()` of text that is not ASCII -/
  lower : Str → Str
  /-- `unicodedata.normalize('NFKC', s)` -/
  nfkc : Str → Str
  /-- `_check_bracketed_host(hostname)` raises no exception -/
  bracketed : Str → Bool

/-- Is ASCII text. -/
def isAscii (s : Str) : Bool := s.all fun c => c.toNat < 128

/-- Octets of ASCII text. -/
def octets (s : Str) : Bytes := s.map fun c => UInt8.ofNat c.toNat

/-- Text of ASCII octets. -/
def text (b : Bytes) : Str := b.map fun x => Char.ofNat x.toNat

/-- Python `s.encode('ascii')` -/
def asciiEncode (s : Str) : Py Bytes := if isAscii s then .ok (octets s) else .error .unicodeError

/-- Python `s.encode('idna')` -/
def idnaEncode (L : Lib) (s : Str) : Py Bytes :=
  if s = [] then .ok []
  else if isAscii s then
    let labels := pySplit '.' s
    if labels.dropLast.all (fun l => 0 < l.length && l.length < 64) && (labels.getLastD []).length < 64 then .ok (octets s)
    else .error .unicodeError
  else L.toAscii s

/-- `b'xn--' in b` -/
def hasPrefix : Bytes → Bool
  | [] => false
  | a :: r => [0x78, 0x6e, 0x2d, 0x2d].isPrefixOf (a :: r) || hasPrefix r

/-- Python `b.decode('idna')` -/
def idnaDecode (L : Lib) (b : Bytes) : Py Str :=
  if !hasPrefix b && b.all (fun x => x.toNat < 128) then .ok (text b) else L.toUnicode b

/-- Python `s.rsplit(x, 1)`; `none` if `x` is not there. -/
def rsplit {α : Type} [DecidableEq α] (x : α) : List α → Option (List α × List α)
  | [] => none
  | a :: l =>
    match rsplit x l with
    | some (m, h) => some (a :: m, h)
    | none => if a = x then some ([], l) else none

/-- Python `s.lower()` -/
def lower (L : Lib) (s : Str) : Str := if isAscii s then s.map Char.toLower else L.lower s

/-- Python `s.partition(x)`; `none` if `x` is not there. -/
def partition (x : Char) : Str → Option (Str × Str)
  | [] => none
  | a :: l => if a = x then some ([], l) else (partition x l).map fun p => (a :: p.1, p.2)

/-! ### `urlsplit` -/

/-- `SplitResult` -/
structure Split where
  scheme : Str
  netloc : Str
  path : Str
  query : Str
  fragment : Str
  deriving DecidableEq

/-- `scheme_chars` (urllib/parse.py:83-86) -/
def schemeChar (c : Char) : Bool := c.isAlphanum || c == '+' || c == '-' || c == '.'

/-- The scheme and the rest (urllib/parse.py:486-492) -/
def splitScheme (url : Str) : Str × Str :=
  match partition ':' url with
  | some (a :: r, rest) => if a.isAlpha && (a :: r).all schemeChar then ((a :: r).map Char.toLower, rest) else ([], url)
  | _ => ([], url)

/-- `_splitnetloc(url, 2)` for a text that begins with `//` (urllib/parse.py:413-419, 493-494) -/
def splitNetloc (url : Str) : Str × Str :=
  match url with
  | '/' :: '/' :: r => (r.takeWhile fun c => !['/', '?', '#'].contains c, r.dropWhile fun c => !['/', '?', '#'].contains c)
  | _ => ([], url)

/-- The tests of brackets (urllib/parse.py:495-500) -/
def checkBrackets (L : Lib) (netloc : Str) : Py Unit :=
  if netloc.contains '[' && !netloc.contains ']' || netloc.contains ']' && !netloc.contains '[' then .error .valueError
  else if netloc.contains '[' && netloc.contains ']' then
    let inner := ((partition '[' netloc).getD ([], [])).2
    let host := match partition ']' inner with
      | some (h, _) => h
      | none => inner
    if L.bracketed host then .ok () else .error .valueError
  else .ok ()

/-- `_checknetloc` (urllib/parse.py:421-437) -/
def checkNetloc (L : Lib) (netloc : Str) : Py Unit :=
  if netloc = [] || isAscii netloc then .ok ()
  else
    let n := netloc.filter fun c => !['@', ':', '#', '?'].contains c
    let n2 := L.nfkc n
    if n = n2 then .ok () else if ['/', '?', '#', '@', ':'].any n2.contains then .error .valueError else .ok ()

/-- `urlsplit(url)` (urllib/parse.py:453-507). The scheme argument is `''`. -/
def urlsplit (L : Lib) (url : Str) : Py Split := do
  let url := url.dropWhile fun c => c.toNat ≤ 32
  let url := url.filter fun c => !['\t', '\r', '\n'].contains c
  let (scheme, url) := splitScheme url
  let (netloc, url) := splitNetloc url
  checkBrackets L netloc
  let (url, fragment) := (partition '#' url).getD (url, [])
  let (url, query) := (partition '?' url).getD (url, [])
  checkNetloc L netloc
  .ok ⟨scheme, netloc, url, query, fragment⟩

/-- `_userinfo` (urllib/parse.py:200-209): user name and password -/
def userinfo (netloc : Str) : Option Str × Option Str :=
  match rsplit '@' netloc with
  | none => (none, none)
  | some (u, _) =>
    match partition ':' u with
    | some (n, p) => (some n, some p)
    | none => (some u, none)

/-- The part after the last `@` (urllib/parse.py:214) -/
def hostPart (netloc : Str) : Str :=
  match rsplit '@' netloc with
  | some (_, h) => h
  | none => netloc

/-- `_hostinfo` (urllib/parse.py:211-223): host name and text of the port -/
def hostinfo (netloc : Str) : Str × Str :=
  match partition '[' (hostPart netloc) with
  | some (_, bracketed) =>
    match partition ']' bracketed with
    | some (h, r) => (h, ((partition ':' r).getD ([], [])).2)
    | none => (bracketed, [])
  | none => (partition ':' (hostPart netloc)).getD (hostPart netloc, [])

/-- `hostname` (urllib/parse.py:164-172) -/
def hostname (L : Lib) (netloc : Str) : Option Str :=
  let h := (hostinfo netloc).1
  if h = [] then none
  else
    match partition '%' h with
    | some (a, z) => some (lower L a ++ '%' :: z)
    | none => some (lower L h)

/-- Value of decimal digits. -/
def decimal (s : Str) : Nat := s.foldl (fun n c => 10 * n + (c.toNat - 48)) 0

/-- `port` (urllib/parse.py:175-184) -/
def port (netloc : Str) : Py (Option Nat) :=
  let p := (hostinfo netloc).2
  if p = [] then .ok none
  else if p.all fun c => c.isDigit then
    if decimal p ≤ 65535 then .ok (some (decimal p)) else .error .valueError
  else .error .valueError

/-! ### `urlunsplit` -/

/-- `uses_netloc` (urllib/parse.py:57-62) -/
def usesNetloc : List String :=
  ["", "ftp", "http", "gopher", "nntp", "telnet", "imap", "wais", "file", "mms", "https", "shttp", "snews", "prospero", "rtsp", "rtsps", "rtspu",
    "rsync", "svn", "svn+ssh", "sftp", "nfs", "git", "git+ssh", "ws", "wss"]

/-- `urlunsplit` (urllib/parse.py:520-537) -/
def urlunsplit (s : Split) : Str :=
  let url :=
    if s.netloc ≠ [] ∨ (s.scheme ≠ [] ∧ s.scheme ∈ usesNetloc.map String.toList) ∨ s.path.take 2 = ['/', '/'] then
      '/' :: '/' :: s.netloc ++ (if s.path ≠ [] ∧ s.path.take 1 ≠ ['/'] then '/' :: s.path else s.path)
    else s.path
  let url := if s.scheme ≠ [] then s.scheme ++ ':' :: url else url
  let url := if s.query ≠ [] then url ++ '?' :: s.query else url
  if s.fragment ≠ [] then url ++ '#' :: s.fragment else url

/-- `x.decode('ascii') if x else ''` (urllib/parse.py:115-117) -/
def asciiText (b : Option Bytes) : Py Str :=
  let b := b.getD []
  if b.all fun x => x.toNat < 128 then .ok (text b) else .error .unicodeError

/-! ### The functions of `_iri.py` -/

/-- `_urlquote` of a string or `None` -/
def quoteOpt (s : Option Str) (safe : Str) : Py (Option Bytes) :=
  match s with
  | none => .ok none
  | some s => Iri.urlquote s safe

/-- The user name and the password of the URI (_iri.py:87-91). -/
def userBytes (username password : Option Bytes) : Bytes :=
  match username with
  | none => []
  | some u =>
    u ++ (match password with
      | none => []
      | some p => if p = [] then [] else 0x3a :: p) ++ [0x40]

/-- The port of the URI (_iri.py:94-98). -/
def portBytes (scheme : Option Bytes) (port : Option Nat) (normalize : Bool) : Bytes :=
  match port with
  | none => []
  | some n =>
    let defaultHttp := scheme = some (octets "http".toList) ∧ n = 80
    let defaultHttps := scheme = some (octets "https".toList) ∧ n = 443
    if normalize = false ∨ (¬ defaultHttp ∧ ¬ defaultHttps) then 0x3a :: octets (pyStrNat n) else []

/-- `iri_to_uri` (_iri.py:37-118) for Python 3 -/
def iriToUri (L : Lib) (value : Str) (normalize : Bool) : Py Bytes := do
  let parsed ← urlsplit L value
  let scheme ← Iri.urlquote parsed.scheme []
  let host ← match hostname L parsed.netloc with
    | some h => (idnaEncode L h).map some
    | none => .ok none
  let username ← quoteOpt (userinfo parsed.netloc).1 Iri.safeUser
  let password ← quoteOpt (userinfo parsed.netloc).2 Iri.safeUser
  let port ← port parsed.netloc
  let netloc := userBytes username password ++ host.getD [] ++ portBytes scheme port normalize
  let path ← Iri.urlquote parsed.path Iri.safePath
  let query ← Iri.urlquote parsed.query Iri.safeQuery
  let fragment ← Iri.urlquote parsed.fragment Iri.safeQuery
  let path := if normalize ∧ query = none ∧ fragment = none ∧ path = some [0x2f] then none else path
  let out := urlunsplit ⟨← asciiText scheme, ← asciiText netloc, ← asciiText path, ← asciiText query, ← asciiText fragment⟩
  .ok (octets out)

/-- The user name and the password of the IRI (_iri.py:155-159). -/
def userString (username password : Option Str) : Str :=
  match username with
  | none => []
  | some u =>
    u ++ (match password with
      | none => []
      | some p => if p = [] then [] else ':' :: p) ++ ['@']

/-- The port of the IRI (_iri.py:162-163). -/
def portString (port : Option Nat) : Str :=
  match port with
  | none => []
  | some n => ':' :: pyStrNat n

/-- `uri_to_iri` (_iri.py:121-169). `urlsplit` decodes the bytes as ASCII and encodes the parts again. -/
def uriToIri (L : Lib) (value : Bytes) : Py Str := do
  let url ← asciiText value
  let parsed ← urlsplit L url
  let username ← match (userinfo parsed.netloc).1 with
    | some u => (Iri.unquoteUser (octets u)).map some
    | none => .ok none
  let password ← match (userinfo parsed.netloc).2 with
    | some p => (Iri.unquoteUser (octets p)).map some
    | none => .ok none
  let host ← match hostname L parsed.netloc with
    | some h => idnaDecode L (octets h)
    | none => .ok []
  let port ← port parsed.netloc
  let path ← Iri.unquotePath (octets parsed.path)
  let query ← Iri.unquoteQuery (octets parsed.query)
  let fragment ← Iri.unquoteFragment (octets parsed.fragment)
  .ok (urlunsplit ⟨parsed.scheme, userString username password ++ host ++ portString port, path, query, fragment⟩)

end Asn1.Url
