import Verif.Model.PyStr

/-!
# The percent-encoding layer of `asn1crypto/_iri.py`

`_urlquote` and `_urlunquote`, which convert one component of an IRI to the same component of a URI and back.
`urlsplit`, `urlunsplit` and the IDNA codec of the standard library, and with them `iri_to_uri` and `uri_to_iri`
themselves, are not modelled. Strings have no surrogate code points.
-/

namespace Asn1.Iri
open Asn1

/-! ### Built-ins -/

/-- `c.encode('utf-8')` of one character -/
def utf8 (c : Char) : Bytes :=
  let n := c.toNat
  if n < 128 then [UInt8.ofNat n]
  else if n < 2048 then [UInt8.ofNat (192 + n / 64), UInt8.ofNat (128 + n % 64)]
  else if n < 65536 then
    [UInt8.ofNat (224 + n / 4096), UInt8.ofNat (128 + n / 64 % 64), UInt8.ofNat (128 + n % 64)]
  else
    [UInt8.ofNat (240 + n / 262144), UInt8.ofNat (128 + n / 4096 % 64), UInt8.ofNat (128 + n / 64 % 64),
      UInt8.ofNat (128 + n % 64)]

/-- Python `s.encode('utf-8')` -/
def encodeUtf8 (s : Str) : Bytes := s.flatMap utf8

/-- Payload of a UTF-8 continuation byte. -/
def cont (b : UInt8) : Option Nat := if 128 ≤ b.toNat ∧ b.toNat < 192 then some (b.toNat - 128) else none

/-- The character of a code point from `lo` on that is not a surrogate. -/
def scalar (lo n : Nat) : Option Char :=
  if lo ≤ n ∧ (n < 55296 ∨ 57344 ≤ n ∧ n < 1114112) then some (Char.ofNat n) else none

/-- The first character of a byte string in UTF-8 and the bytes after it; `none` if the string does not start with the
shortest form of a code point other than a surrogate. -/
def decodeOne : Bytes → Option (Char × Bytes)
  | [] => none
  | a :: r =>
    if a.toNat < 128 then some (Char.ofNat a.toNat, r)
    else if a.toNat < 192 then none
    else if a.toNat < 224 then
      match r with
      | b :: r => do
        let y ← cont b
        let c ← scalar 128 ((a.toNat - 192) * 64 + y)
        pure (c, r)
      | _ => none
    else if a.toNat < 240 then
      match r with
      | b :: d :: r => do
        let y ← cont b
        let z ← cont d
        let c ← scalar 2048 ((a.toNat - 224) * 4096 + y * 64 + z)
        pure (c, r)
      | _ => none
    else if a.toNat < 248 then
      match r with
      | b :: d :: e :: r => do
        let y ← cont b
        let z ← cont d
        let w ← cont e
        let c ← scalar 65536 ((a.toNat - 240) * 262144 + y * 4096 + z * 64 + w)
        pure (c, r)
      | _ => none
    else none

/-- Value of an ASCII hexadecimal digit. -/
def hexVal (n : Nat) : Option Nat :=
  if 48 ≤ n ∧ n ≤ 57 then some (n - 48)
  else if 97 ≤ n ∧ n ≤ 102 then some (n - 87)
  else if 65 ≤ n ∧ n ≤ 70 then some (n - 55)
  else none

/-- The byte of two hexadecimal digits. -/
def hexPair (a b : Nat) : Option UInt8 := do
  let x ← hexVal a
  let y ← hexVal b
  pure (UInt8.ofNat (x * 16 + y))

/-- Digit of `'%02x'`. -/
def lowerHex (d : Nat) : Nat := if d < 10 then 48 + d else 87 + d

/-- Digit of `'%02X'`. -/
def upperHex (d : Nat) : Nat := if d < 10 then 48 + d else 55 + d

/-- Python `'%%%02x' % num` -/
def pctLower (b : UInt8) : Str := ['%', Char.ofNat (lowerHex (b.toNat / 16)), Char.ofNat (lowerHex (b.toNat % 16))]

/-- `'%{:02X}'.format(b)` of `urllib.parse.quote` -/
def pctUpper (b : UInt8) : Bytes := [37, UInt8.ofNat (upperHex (b.toNat / 16)), UInt8.ofNat (upperHex (b.toNat % 16))]

/-- Python `b.decode('utf-8', 'iriutf8')` with the handler `_iri_utf8_errors_handler` (_iri.py:172-187). CPython passes the
handler a maximal ill-formed part of the input and goes on after it; here it is passed one byte at a time, which gives the
same text because the bytes after the first one of such a part do not start a character either. The first argument is
fuel, the length of the input is enough. -/
def decodeGo : Nat → Bytes → Str
  | 0, _ => []
  | _, [] => []
  | fuel + 1, a :: r =>
    match decodeOne (a :: r) with
    | some (c, rest) => c :: decodeGo fuel rest
    | none => pctLower a ++ decodeGo fuel r

def decodeIri (b : Bytes) : Str := decodeGo b.length b

/-- Python `s.replace(x, to)` for one character `x`. -/
def replace {α : Type} [DecidableEq α] (x : α) (to s : List α) : List α := s.flatMap fun c => if c = x then to else [c]

/-- The characters that `urllib.parse.quote` never quotes. -/
def alwaysSafe (b : UInt8) : Bool :=
  let n := b.toNat
  (65 ≤ n && n ≤ 90) || (97 ≤ n && n ≤ 122) || (48 ≤ n && n ≤ 57) || n == 95 || n == 46 || n == 45 || n == 126

/-- `urllib.parse.quote` of one byte; `safe` are characters. -/
def quoteByte (safe : Str) (b : UInt8) : Bytes :=
  if alwaysSafe b || (safe.any fun c => c.toNat < 128 && c.toNat == b.toNat) then [b] else pctUpper b

/-- Python `urllib.parse.quote(bs, safe=safe.encode('utf-8'))` -/
def quoteBytes (safe : Str) (bs : Bytes) : Bytes := bs.flatMap (quoteByte safe)

/-- Python `urllib.parse.unquote_to_bytes(bs)` -/
def unquoteBytes : Bytes → Bytes
  | [] => []
  | [a] => [a]
  | [a, b] => [a, b]
  | a :: b :: c :: r =>
    if a = 37 then
      match hexPair b.toNat c.toNat with
      | some v => v :: unquoteBytes r
      | none => 37 :: unquoteBytes (b :: c :: r)
    else a :: unquoteBytes (b :: c :: r)

/-! ### `_urlquote` -/

/-- `re.search('%[0-9a-fA-F]{2}', string)` (_iri.py:213) -/
def hasEscape : Str → Bool
  | [] => false
  | [_] => false
  | [_, _] => false
  | a :: b :: c :: r => (a == '%' && (hexPair b.toNat c.toNat).isSome) || hasEscape (b :: c :: r)

/-- `_try_unescape` (_iri.py:217-222) for a run of escapes of these bytes. -/
def unescape (safe : Str) (run : Bytes) : Str :=
  safe.foldl (fun s c => replace c (pctLower (UInt8.ofNat c.toNat)) s) (decodeIri run)

/-- `re.sub('(?:%[0-9a-fA-F]{2})+', _try_unescape, string)` (_iri.py:223); `run` are the bytes of the escapes that end
where the rest of the string starts. -/
def unescapeRuns (safe : Str) : Bytes → Str → Str
  | run, [] => if run = [] then [] else unescape safe run
  | run, [a] => (if run = [] then [] else unescape safe run) ++ [a]
  | run, [a, b] => (if run = [] then [] else unescape safe run) ++ [a, b]
  | run, a :: b :: c :: r =>
    match (if a = '%' then hexPair b.toNat c.toNat else none) with
    | some v => unescapeRuns safe (run ++ [v]) r
    | none => (if run = [] then [] else unescape safe run) ++ a :: unescapeRuns safe [] (b :: c :: r)

/-- `re.sub('%[0-9a-fA-F]{2}', _extract_escape, string)` (_iri.py:227-230): the escapes and the string with NUL in place of
each one of them. -/
def extractEscapes : Str → List Bytes × Str
  | [] => ([], [])
  | [a] => ([], [a])
  | [a, b] => ([], [a, b])
  | a :: b :: c :: r =>
    if a = '%' ∧ (hexPair b.toNat c.toNat).isSome then
      let t := extractEscapes r
      ([37, UInt8.ofNat b.toNat, UInt8.ofNat c.toNat] :: t.1, Char.ofNat 0 :: t.2)
    else
      let t := extractEscapes (b :: c :: r)
      (t.1, a :: t.2)

/-- `re.sub(b'%00', _return_escape, output)` (_iri.py:238-240): `pop(0)` from an empty list is an `IndexError`. -/
def restoreEscapes : List Bytes → Bytes → Py Bytes
  | _, [] => .ok []
  | _, [a] => .ok [a]
  | _, [a, b] => .ok [a, b]
  | es, a :: b :: c :: r =>
    if a = 37 ∧ b = 48 ∧ c = 48 then
      match es with
      | [] => .error .indexError
      | e :: es => do
        let t ← restoreEscapes es r
        pure (e ++ t)
    else do
      let t ← restoreEscapes es (b :: c :: r)
      pure (a :: t)

/-- `_urlquote` (_iri.py:193-242) of a string; the result for `None` is `None`. -/
def urlquote (string safe : Str) : Py (Option Bytes) :=
  if string = [] then .ok none
  else
    let t := if hasEscape string then extractEscapes (unescapeRuns safe [] string) else ([], string)
    let output := quoteBytes safe (encodeUtf8 t.2)
    if t.1 = [] then .ok (some output)
    else do
      let out ← restoreEscapes t.1 output
      pure (some out)

/-! ### `_urlunquote` -/

/-- `replacements` (_iri.py:272) -/
def replacements : List Nat := [26, 28, 29, 30, 31]

/-- The loop of _iri.py:274-277: each character of `remap` becomes the next one of the replacements; `pop(0)` from an empty
list is an `IndexError`. Also returns `preserve_unmap`. -/
def preserveChars : Str → List Nat → Bytes → Py (List (Nat × Char) × Bytes)
  | [], _, b => .ok ([], b)
  | _ :: _, [], _ => .error .indexError
  | c :: cs, r :: rs, b => do
    let t ← preserveChars cs rs (replace (UInt8.ofNat c.toNat) [UInt8.ofNat r] b)
    pure ((r, c) :: t.1, t.2)

/-- `_urlunquote` (_iri.py:245-291) of a byte string; the result for `None` is `None`. The characters of `remap` are
ASCII, and distinct, as they are in all calls. -/
def urlunquote (byteString : Bytes) (remap : Str) (preserve : Bool) : Py Str :=
  if byteString = [] then .ok []
  else do
    let p ← if preserve then preserveChars remap replacements byteString else .ok ([], byteString)
    let raw := unquoteBytes p.2
    let mapped := remap.foldl (fun b c =>
      replace (UInt8.ofNat c.toNat) ((pctLower (UInt8.ofNat c.toNat)).map fun h => UInt8.ofNat h.toNat) b) raw
    let output := decodeIri mapped
    pure (p.1.foldl (fun s rc => replace (Char.ofNat rc.1) [rc.2] s) output)

/-! ### The components of a URI -/

/-- Characters that stay as they are in the user name and password (_iri.py:80-81). -/
def safeUser : Str := "!$&'()*+,;=".toList

/-- Characters that stay as they are in the path (_iri.py:101). -/
def safePath : Str := "/!$&'()*+,;=@:".toList

/-- Characters that stay as they are in the query and in the fragment (_iri.py:103, 105). -/
def safeQuery : Str := "/?!$&'()*+,;=@:".toList

/-- `_urlunquote(parsed.username, remap=[':', '@'])` (_iri.py:145-146) -/
def unquoteUser (b : Bytes) : Py Str := urlunquote b [':', '@'] false

/-- `_urlunquote(parsed.path, remap=['/'], preserve=True)` (_iri.py:165) -/
def unquotePath (b : Bytes) : Py Str := urlunquote b ['/'] true

/-- `_urlunquote(parsed.query, remap=['&', '='], preserve=True)` (_iri.py:166) -/
def unquoteQuery (b : Bytes) : Py Str := urlunquote b ['&', '='] true

/-- `_urlunquote(parsed.fragment)` (_iri.py:167) -/
def unquoteFragment (b : Bytes) : Py Str := urlunquote b [] false

end Asn1.Iri
