import Verif.Model.PyStr

/-!
# `asn1crypto/pem.py`

Python 3.7 or later. Arguments of a wrong type (a `TypeError`) are not modelled.
-/

namespace Asn1.Pem
open Asn1

/-- ASCII bytes of a literal. -/
def lit (s : String) : Bytes := s.toList.map fun c => UInt8.ofNat c.toNat

/-! ### Built-ins -/

/-- Python `bytes.splitlines(False)`: lines end at LF, CR or CRLF; `cur` is the current line so far. -/
def splitlinesGo (cur : Bytes) : Bytes → List Bytes
  | [] => if cur = [] then [] else [cur]
  | [c] => if c = 10 ∨ c = 13 then [cur] else [cur ++ [c]]
  | c :: d :: r =>
    if c = 10 then cur :: splitlinesGo [] (d :: r)
    else if c = 13 then
      if d = 10 then cur :: splitlinesGo [] r else cur :: splitlinesGo [] (d :: r)
    else splitlinesGo (cur ++ [c]) (d :: r)

def splitlines (b : Bytes) : List Bytes := splitlinesGo [] b

/-- Python `s.find(sub) != -1`. -/
def contains (sub : Bytes) : Bytes → Bool
  | [] => sub.isPrefixOf []
  | c :: cs => sub.isPrefixOf (c :: cs) || contains sub cs

/-- Python `s.encode('ascii')`: `UnicodeEncodeError` for other characters. -/
def encodeAscii (s : Str) : Py Bytes :=
  if s.all (fun c => c.toNat < 128) then .ok (s.map fun c => UInt8.ofNat c.toNat) else .error .unicodeError

/-- Python `b.decode('ascii')` -/
def decodeAscii (b : Bytes) : Py Str :=
  if b.all (fun c => c < 128) then .ok (b.map fun c => Char.ofNat c.toNat) else .error .unicodeError

/-- Python `s.upper()`, for ASCII. Other characters are kept; the few of them with an ASCII upper case are not modelled. -/
def upper (s : Str) : Str := s.map fun c => if 97 ≤ c.toNat ∧ c.toNat ≤ 122 then Char.ofNat (c.toNat - 32) else c

/-- The base64 character of `n < 64`. -/
def b64Char (n : Nat) : UInt8 :=
  if n < 26 then UInt8.ofNat (65 + n)
  else if n < 52 then UInt8.ofNat (71 + n)
  else if n < 62 then UInt8.ofNat (n - 4)
  else if n = 62 then 43 else 47

/-- Value of a base64 character. -/
def b64Val (c : UInt8) : Option Nat :=
  let n := c.toNat
  if 65 ≤ n ∧ n ≤ 90 then some (n - 65)
  else if 97 ≤ n ∧ n ≤ 122 then some (n - 71)
  else if 48 ≤ n ∧ n ≤ 57 then some (n + 4)
  else if n = 43 then some 62
  else if n = 47 then some 63
  else none

/-- Python `base64.b64encode`. -/
def b64encode : Bytes → Bytes
  | [] => []
  | [a] => [b64Char (a.toNat / 4), b64Char (a.toNat % 4 * 16), 61, 61]
  | [a, b] => [b64Char (a.toNat / 4), b64Char (a.toNat % 4 * 16 + b.toNat / 16), b64Char (b.toNat % 16 * 4), 61]
  | a :: b :: c :: r =>
    b64Char (a.toNat / 4) :: b64Char (a.toNat % 4 * 16 + b.toNat / 16) :: b64Char (b.toNat % 16 * 4 + c.toNat / 64) ::
      b64Char (c.toNat % 64) :: b64encode r

/-- The loop of `binascii.a2b_base64` in its default, lenient mode: `quad` is the position in the group of four, `left` the
bits not yet written, `pads` the number of `=` just seen. Characters outside the alphabet are skipped; a complete
padding ends the data. A wrong length is a `binascii.Error`, which is a `ValueError`. -/
def b64Loop (quad left pads : Nat) (out : Bytes) : Bytes → Py Bytes
  | [] => if quad = 0 then .ok out else .error .valueError
  | c :: cs =>
    if c = 61 then
      if quad ≥ 2 then
        if quad + (pads + 1) ≥ 4 then .ok out else b64Loop quad left (pads + 1) out cs
      else b64Loop quad left pads out cs
    else
      match b64Val c with
      | none => b64Loop quad left pads out cs
      | some v =>
        if quad = 0 then b64Loop 1 v 0 out cs
        else if quad = 1 then b64Loop 2 (v % 16) 0 (out ++ [UInt8.ofNat (left * 4 + v / 16)]) cs
        else if quad = 2 then b64Loop 3 (v % 4) 0 (out ++ [UInt8.ofNat (left * 16 + v / 4)]) cs
        else b64Loop 0 0 0 (out ++ [UInt8.ofNat (left * 64 + v)]) cs

/-- Python `base64.b64decode(data)`. -/
def b64decode (b : Bytes) : Py Bytes := b64Loop 0 0 0 [] b

/-- Assignment to a key of an insertion-ordered dict. -/
def dictSet (d : List (Str × Str)) (k v : Str) : List (Str × Str) :=
  if d.any (fun e => e.1 == k) then d.map (fun e => if e.1 == k then (k, v) else e) else d ++ [(k, v)]

/-! ### Functions -/

/-- `detect` (pem.py:27-47) -/
def detect (b : Bytes) : Bool := contains (lit "-----BEGIN") b || contains (lit "---- BEGIN") b

/-- The `while` loop of `armor` (pem.py:100-104); `fuel` bounds the number of rounds. -/
def bodyLoop (b64 : Bytes) : Nat → Nat → Bytes → Py Bytes
  | 0, _, _ => .error .nonTermination
  | fuel + 1, i, out =>
    if i < b64.length then bodyLoop b64 fuel (i + 64) (out ++ slice b64 i (i + 64) ++ [10]) else .ok out

/-- The header lines (pem.py:92-96). -/
def headerLines : List (Str × Str) → Py Bytes
  | [] => .ok []
  | (k, v) :: r => do
    let k ← encodeAscii k
    let v ← encodeAscii v
    let r ← headerLines r
    .ok (k ++ lit ": " ++ v ++ [10] ++ r)

/-- The header block, if there are headers (pem.py:91-97). -/
def headerBlock (headers : List (Str × Str)) : Py Bytes :=
  if headers.isEmpty then .ok [] else do
    let h ← headerLines headers
    .ok (h ++ [10])

/-- `armor` (pem.py:50-109) -/
def armor (typeName : Str) (der : Bytes) (headers : List (Str × Str) := []) : Py Bytes := do
  let name ← encodeAscii (upper typeName)
  let hs ← headerBlock headers
  let b64 := b64encode der
  let body ← bodyLoop b64 (b64.length + 1) 0 []
  .ok (lit "-----BEGIN " ++ name ++ lit "-----" ++ [10] ++ hs ++ body ++ lit "-----END " ++ name ++ lit "-----" ++ [10])

/-- `[A-Z0-9 ]` -/
def nameChar (c : UInt8) : Bool := (65 ≤ c && c ≤ 90) || (48 ≤ c && c ≤ 57) || c == 32

/-- The group and the end of the regular expression: the longest of the first `k` characters, at least one, that is
followed by one of the two endings. -/
def matchName (rest : Bytes) : Nat → Option Bytes
  | 0 => none
  | k + 1 =>
    if (lit " ----").isPrefixOf (rest.drop (k + 1)) || (lit "-----").isPrefixOf (rest.drop (k + 1)) then some (rest.take (k + 1))
    else matchName rest k

/-- `re.match(b'^(?:---- |-----)BEGIN ([A-Z0-9 ]+)(?: ----|-----)', line)` (pem.py:154): the group. -/
def matchBegin (line : Bytes) : Option Bytes :=
  if (lit "---- BEGIN ").isPrefixOf line || (lit "-----BEGIN ").isPrefixOf line then
    let rest := line.drop 11
    matchName rest (rest.takeWhile nameChar).length
  else none

/-- What `_unarmor` yields: object type, headers, bytes. -/
abbrev Item := Str × List (Str × Str) × Bytes

inductive PemState where
  | trash
  | headers
  | body
  deriving DecidableEq, Repr

/-- Local variables of `_unarmor` (pem.py:138-145). -/
structure Locals where
  state : PemState := .trash
  headers : List (Str × Str) := []
  data : Bytes := []
  objectType : Str := []
  foundStart : Bool := false
  foundEnd : Bool := false

/-- The part of the loop for `state == 'body'` (pem.py:172-189). -/
def bodyLine (l : Locals) (line : Bytes) : Py (Option Item × Locals) :=
  if line.take 5 = lit "-----" ∨ line.take 5 = lit "---- " then do
    let der ← b64decode l.data
    .ok (some (l.objectType, l.headers, der),
      { l with state := .trash, headers := [], data := [], objectType := [], foundEnd := true })
  else .ok (none, { l with state := .body, data := l.data ++ line })

/-- One round of the loop (pem.py:147-189). -/
def lineStep (l : Locals) (line : Bytes) : Py (Option Item × Locals) :=
  if line = [] then .ok (none, l)
  else
    match l.state with
    | .trash =>
      match matchBegin line with
      | none => .ok (none, l)
      | some name => do
        let t ← decodeAscii name
        .ok (none, { l with objectType := t, foundStart := true, state := .headers })
    | .headers =>
      if line.contains 58 then do
        let s ← decodeAscii line
        let name := s.takeWhile (· ≠ ':')
        let value := (s.dropWhile (· ≠ ':')).drop 1
        .ok (none, { l with headers := dictSet l.headers name (pyStrip value) })
      else bodyLine l line
    | .body => bodyLine l line

/-- What the generator yields and how it ends. -/
structure Gen where
  items : List Item
  result : Py Unit

/-- The loop and the final check (pem.py:147-197). -/
def lineLoop (l : Locals) : List Bytes → Gen
  | [] => ⟨[], if l.foundStart && l.foundEnd then .ok () else .error .valueError⟩
  | line :: lines =>
    match lineStep l line with
    | .error e => ⟨[], .error e⟩
    | .ok (none, l) => lineLoop l lines
    | .ok (some it, l) =>
      let g := lineLoop l lines
      ⟨it :: g.items, g.result⟩

/-- `_unarmor` (pem.py:112-197), `unarmor(pem_bytes, multiple=True)` -/
def unarmorAll (pem : Bytes) : Gen := lineLoop {} (splitlines pem)

/-- `unarmor(pem_bytes)` (pem.py:200-226): `next(generator)`. -/
def unarmor (pem : Bytes) : Py Item :=
  match (unarmorAll pem).items with
  | it :: _ => .ok it
  | [] => match (unarmorAll pem).result with
    | .error e => .error e
    | .ok () => .error .stopIteration

end Asn1.Pem
