import Verif.Model.PyStr
import Verif.Model.Util
import Verif.Model.Strings

/-!
# `asn1crypto/_inet.py` and `x509.IPAddress`

`_inet.py` is used on Windows; elsewhere the functions of the same name come from `socket` and are not modelled.
-/

namespace Asn1

/-- Puts a character in front of the first part. -/
def consHead (c : Char) : List Str → List Str
  | [] => [[c]]
  | p :: ps => (c :: p) :: ps

/-- Worker of `pySplitStr`: `skip` characters of a separator are still to be passed over. -/
def pySplitStrGo (sep : Str) : Nat → Str → List Str
  | _, [] => [[]]
  | skip + 1, _ :: cs => pySplitStrGo sep skip cs
  | 0, c :: cs => if sep.isPrefixOf (c :: cs) then [] :: pySplitStrGo sep (sep.length - 1) cs else consHead c (pySplitStrGo sep 0 cs)

/-- Python `s.split(sep)` for a non-empty separator. -/
def pySplitStr (sep s : Str) : List Str := pySplitStrGo sep 0 s

/-- Python `s.count(sep)`: non-overlapping occurrences, from the left. -/
def pyCount (sep s : Str) : Nat := (pySplitStr sep s).length - 1

/-- The hexadecimal digit of `d < 16`. -/
def hexChar (d : Nat) : Char := if d < 10 then Char.ofNat (48 + d) else Char.ofNat (87 + d)

/-- Python `hex(n)[2:]` of a non-negative integer. -/
def pyHexNat (n : Nat) : Str :=
  if n < 16 then [hexChar n] else pyHexNat (n / 16) ++ [hexChar (n % 16)]
termination_by n
decreasing_by omega

/-- Value of a hexadecimal digit. -/
def hexVal (c : Char) : Option Nat :=
  let n := c.toNat
  if 48 ≤ n ∧ n ≤ 57 then some (n - 48)
  else if 97 ≤ n ∧ n ≤ 102 then some (n - 87)
  else if 65 ≤ n ∧ n ≤ 70 then some (n - 55)
  else none

/-- Hexadecimal digits after the first one: `(_?digit)*`. -/
def hexGo : Nat → Str → Option Nat
  | acc, [] => some acc
  | acc, c :: cs =>
    if c = '_' then
      match cs with
      | [] => none
      | d :: ds => match hexVal d with
        | some v => hexGo (acc * 16 + v) ds
        | none => none
    else match hexVal c with
      | some v => hexGo (acc * 16 + v) cs
      | none => none

/-- `digit(_?digit)*` -/
def hexDigits : Str → Option Nat
  | [] => none
  | c :: cs => match hexVal c with
    | some v => hexGo v cs
    | none => none

/-- The part of `int(s, 16)` after the sign: an optional `0x` or `0x_`. -/
def hexUnsigned (s : Str) : Option Nat :=
  match s with
  | '0' :: 'x' :: '_' :: r => hexDigits r
  | '0' :: 'X' :: '_' :: r => hexDigits r
  | '0' :: 'x' :: r => hexDigits r
  | '0' :: 'X' :: r => hexDigits r
  | r => hexDigits r

/-- Python `int(s, 16)`; only ASCII digits are modelled. -/
def pyIntHex (s : Str) : Py Int :=
  match pyStrip s with
  | '-' :: r => match hexUnsigned r with
    | some n => .ok (-(n : Int))
    | none => .error .valueError
  | '+' :: r => match hexUnsigned r with
    | some n => .ok n
    | none => .error .valueError
  | r => match hexUnsigned r with
    | some n => .ok n
    | none => .error .valueError

/-- `socket.AF_INET` and `socket.AF_INET6`; other families (a `ValueError`) are not modelled. -/
inductive Family where
  | inet
  | inet6
  deriving DecidableEq, Repr

/-- `struct.unpack('!HH…', bytes)` -/
def unpackH : Bytes → List Nat
  | a :: b :: r => (a.toNat * 256 + b.toNat) :: unpackH r
  | _ => []

/-- `struct.pack('!HH…', *ints)` of integers below 65536. -/
def packH : List Nat → Bytes
  | [] => []
  | n :: r => UInt8.ofNat (n / 256) :: UInt8.ofNat (n % 256) :: packH r

/-- Loop state of `inet_ntop`: first start of a run of each length, longest run, start of the current run. -/
structure RunSt where
  runs : List (Nat × Nat)
  longest : Nat
  zero : Option Nat
  deriving DecidableEq, Repr

/-- One round of the loop (_inet.py:63-71) for a group that is (not) zero. -/
def runStep (st : RunSt) (i : Nat) (isZero : Bool) : RunSt :=
  if isZero then
    match st.zero with
    | none => { st with zero := some i }
    | some _ => st
  else
    match st.zero with
    | none => st
    | some z =>
      let length := i - z
      { runs := if st.runs.any (fun e => e.1 == length) then st.runs else st.runs ++ [(length, z)],
        longest := max st.longest length, zero := none }

/-- The loop (_inet.py:59-71); the extra element `-1` is not zero. -/
def runLoop : Nat → List Bool → RunSt → RunSt
  | i, [], st => runStep st i false
  | i, z :: zs, st => runLoop (i + 1) zs (runStep st i z)

/-- `runs_of_zero`, `longest_run` at the end of the loop. -/
def zeroRuns (zs : List Bool) : RunSt := runLoop 0 zs { runs := [], longest := 0, zero := none }

/-- `inet_ntop` (_inet.py:11-81) -/
def inetNtop (f : Family) (packed : Bytes) : Py Str :=
  let required := match f with
    | .inet => 4
    | .inet6 => 16
  if packed.length ≠ required then .error .valueError
  else
    match f with
    | .inet => .ok (pyJoin ['.'] (packed.map fun b => pyStrNat b.toNat))
    | .inet6 =>
      let groups := unpackH packed
      let st := zeroRuns (groups.map (· == 0))
      let hexed := groups.map pyHexNat
      if st.longest < 2 then .ok (pyJoin [':'] hexed)
      else
        match st.runs.find? (fun e => e.1 == st.longest) with
        | none => .error .keyError
        | some e =>
          let start := e.2
          .ok (pyJoin [':'] (hexed.take start) ++ [':', ':'] ++ pyJoin [':'] (hexed.drop (start + st.longest)))

/-- The loop over the parts (_inet.py:121-127, 155-161): integers up to the first one out of range, and `error`. -/
def partsLoop (conv : Str → Py Int) (limit : Int) : List Str → List Nat → Py (List Nat × Bool)
  | [], ints => .ok (ints, false)
  | o :: os, ints => do
    let n ← conv o
    if n > limit ∨ n < 0 then .ok (ints, true)
    else partsLoop conv limit os (ints ++ [n.toNat])

/-- `inet_pton` (_inet.py:84-170); `['0'] * missing` is empty for a negative `missing`. `error` set in the IPv6 loop is not
looked at again. -/
def inetPton (f : Family) (s : Str) : Py Bytes :=
  match f with
  | .inet =>
    let octets := pySplit '.' s
    if octets.length ≠ 4 then .error .valueError
    else do
      let (ints, error) ← partsLoop pyInt 255 octets []
      if error then .error .valueError else .ok (ints.map UInt8.ofNat)
  | .inet6 =>
    let omitted := pyCount [':', ':'] s
    let octets : Option (List Str) :=
      if omitted > 1 then none
      else if omitted = 0 then
        let octets := pySplit ':' s
        if octets.length ≠ 8 then none else some octets
      else
        match pySplitStr [':', ':'] s with
        | [b, e] =>
          let begins := pySplit ':' b
          let ends := pySplit ':' e
          some (begins ++ List.replicate (8 - begins.length - ends.length) ['0'] ++ ends)
        | _ => none
    match octets with
    | none => .error .valueError
    | some octets => do
      let (ints, _) ← partsLoop pyIntHex 65535 octets []
      if ints.length = 8 then .ok (packH ints) else .error .structError

/-! ### `x509.IPAddress` -/

/-- The network functions used by `IPAddress`. -/
structure Inet where
  ntop : Family → Bytes → Py Str
  pton : Family → Str → Py Bytes

/-- Those of `_inet.py`. -/
def shimInet : Inet where
  ntop := inetNtop
  pton := inetPton

/-- `value.split('/', 1)` when there is a slash. -/
def splitSlash (s : Str) : Str × Str := (s.takeWhile (· ≠ '/'), (s.dropWhile (· ≠ '/')).drop 1)

/-- `int(mask, 2)` -/
def bitsVal (bits : List Bool) : Nat := bits.foldl (fun acc b => acc * 2 + (if b then 1 else 0)) 0

/-- The mask bytes (x509.py:363-368). -/
def cidrBytes (size cidr : Nat) : Py Bytes := do
  let b ← intToBytes (bitsVal (List.replicate cidr true ++ List.replicate (size - cidr) false)) false
  .ok (List.replicate (size / 8 - b.length) 0 ++ b)

/-- Address family and size by the presence of a colon (x509.py:340-361). -/
def ipFamily (addr : Str) : Family × Nat := if addr.contains ':' then (.inet6, 128) else (.inet, 32)

/-- `IPAddress.set` (x509.py:306-375); `_indefinite` and `method` are not reset. -/
def ipSet (net : Inet) (o : Obj Str) (value : Str) : Py (Obj Str) := do
  let hasCidr := value.contains '/'
  let (addr, cidr) ←
    if hasCidr then do
      let c ← pyInt (splitSlash value).2
      if c < 0 then .error .valueError else .ok ((splitSlash value).1, c.toNat)
    else .ok (value, 0)
  if cidr > (ipFamily addr).2 then .error .valueError
  else do
    let mask ← if hasCidr then cidrBytes (ipFamily addr).2 cidr else .ok []
    let a ← net.pton (ipFamily addr).1 addr
    .ok { o with native := some value, contents := some (a ++ mask), header := none, trailer := [] }

/-- `'{0:b}'.format(n)` -/
def pyBin (n : Nat) : List Bool :=
  if n < 2 then [n == 1] else pyBin (n / 2) ++ [n % 2 == 1]
termination_by n
decreasing_by omega

/-- `len(cidr_bits.rstrip('0'))` -/
def cidrLen (mask : Bytes) : Nat := ((pyBin (pyFromBytesU mask)).reverse.dropWhile (fun b => !b)).length

/-- The native value of address bytes (x509.py:390-405); `None` for other lengths. -/
def ipText (net : Inet) (b : Bytes) : Py (Option Str) :=
  if b.length = 32 ∨ b.length = 16 then do
    let t ← net.ntop .inet6 (b.take 16)
    .ok (some (if b.length > 16 then t ++ '/' :: pyStrNat (cidrLen (b.drop 16)) else t))
  else if b.length = 8 ∨ b.length = 4 then do
    let t ← net.ntop .inet (b.take 4)
    .ok (some (if b.length > 4 then t ++ '/' :: pyStrNat (cidrLen (b.drop 4)) else t))
  else .ok none

/-- `IPAddress.native` (x509.py:377-407); `__bytes__` of an OctetString whose contents are in one piece is its contents
(the chunked form is modelled in `OctetString`). -/
def ipNative (net : Inet) (o : Obj Str) : Py (Option Str × Obj Str) :=
  match o.contents with
  | none => .ok (none, o)
  | some b =>
    match o.native with
    | some t => .ok (some t, o)
    | none => do
      let t ← ipText net b
      .ok (t, { o with native := t })

end Asn1
