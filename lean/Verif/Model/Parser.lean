import Verif.Model.Util

/-! # `asn1crypto/parser.py` -/

namespace Asn1

/-- `_MAX_DEPTH` (parser.py:23). -/
def maxDepth : Nat := 10

/-- The 6-tuple returned by `parse` (parser.py:94-101). -/
structure Info where
  cls : Nat
  method : Nat
  tag : Nat
  header : Bytes
  contents : Bytes
  trailer : Bytes
  deriving DecidableEq, Repr

/-- What `_parse` has computed when it reaches its `return` (parser.py:227-243): everything from
which both the full tuple and the `lengths_only` result are built. `hdrEnd` is the Python variable
`pointer`, `contentsEnd` is `contents_end`. -/
structure Raw where
  cls : Nat
  constructed : Nat
  tag : Nat
  start : Nat
  hdrEnd : Nat
  contentsEnd : Nat
  trailer : Bytes
  deriving DecidableEq, Repr

/-- The `while True` loop reading a high tag number (parser.py:183-193), entered with the current
`pointer` and accumulated `tag`. Returns the tag and the new pointer. -/
def tagLoop (data : Bytes) (dataLen : Nat) (pointer tag : Nat) : Py (Nat × Nat) :=
  if _h : dataLen < pointer + 1 then .error .valueError
  else
    match data[pointer]? with
    | none => .error .indexError
    | some num =>
      let num := num.toNat
      if num = 0x80 ∧ tag = 0 then .error .valueError
      else
        let tag' := tag * 128 + (num &&& 127)
        if num >>> 7 = 0 then .ok (tag', pointer + 1)
        else tagLoop data dataLen (pointer + 1) tag'
termination_by dataLen - pointer

/-- Identifier octets (parser.py:172-195): returns (first octet, tag, pointer). -/
def parseIdent (data : Bytes) (dataLen : Nat) (pointer : Nat) : Py (Nat × Nat × Nat) :=
  if dataLen < pointer + 1 then .error .valueError
  else
    match data[pointer]? with
    | none => .error .indexError
    | some firstOctet =>
      let first := firstOctet.toNat
      let pointer := pointer + 1
      let tag := first &&& 31
      if tag = 31 then do
        let (tag, pointer) ← tagLoop data dataLen pointer 0
        if tag < 31 then .error .valueError else .ok (first, tag, pointer)
      else .ok (first, tag, pointer)

/-- The `while` loop that skips the children of an indefinite-length value (parser.py:221-223).
`step` is the recursive call `_parse(..., contents_end, lengths_only=True, depth+1)[1]`.
The fuel is only there to make the definition structural; running out of it is reported as
`nonTermination`, which is proved impossible for the fuel supplied by `parseAt`. -/
def eocLoop (data : Bytes) (dataLen : Nat) (step : Nat → Py Nat) : Nat → Nat → Py Nat
  | 0, _ => .error .nonTermination
  | fuel + 1, contentsEnd =>
    if dataLen < contentsEnd + 2 ∨ slice data contentsEnd (contentsEnd + 2) ≠ [0, 0] then do
      let e ← step contentsEnd
      eocLoop data dataLen step fuel e
    else .ok contentsEnd

/-- Length octets (parser.py:197-225): returns `(pointer, contents_end, trailer)`. `step` is the
recursive `_parse` call used to scan an indefinite-length value. -/
def parseLength (data : Bytes) (dataLen : Nat) (constructed : Nat) (step : Nat → Py Nat)
    (pointer : Nat) : Py (Nat × Nat × Bytes) :=
  if dataLen < pointer + 1 then .error .valueError
  else
    match data[pointer]? with
    | none => .error .indexError
    | some lengthOctet =>
      let lengthOctet := lengthOctet.toNat
      let pointer := pointer + 1
      if lengthOctet >>> 7 = 0 then .ok (pointer, pointer + (lengthOctet &&& 127), [])
      else
        let lengthOctets := lengthOctet &&& 127
        if lengthOctets ≠ 0 then
          if dataLen < pointer + lengthOctets then .error .valueError
          else
            let pointer := pointer + lengthOctets
            .ok (pointer,
              pointer + (intFromBytes (slice data (pointer - lengthOctets) pointer)).toNat, [])
        else if constructed = 0 then .error .valueError
        else do
          let e ← eocLoop data dataLen step (dataLen + 1 - pointer) pointer
          pure (pointer, e + 2, [0, 0])

/-- `_parse(encoded_data, data_len, pointer, lengths_only, depth)` (parser.py:140-243).
The first `Nat` is `_MAX_DEPTH + 1 - depth`: the remaining recursion budget, so `0` is the test
`depth > _MAX_DEPTH`. -/
def parseAt (data : Bytes) (dataLen : Nat) : Nat → Nat → Py Raw
  | 0, _ => .error .valueError
  | budget + 1, start => do
    let (first, tag, pointer) ← parseIdent data dataLen start
    let constructed := (first >>> 5) &&& 1
    let (pointer, contentsEnd, trailer) ← parseLength data dataLen constructed
      (fun p => do let r ← parseAt data dataLen budget p; pure r.contentsEnd) pointer
    if contentsEnd > dataLen then .error .valueError
    else
      .ok { cls := first >>> 6, constructed, tag, start, hdrEnd := pointer, contentsEnd, trailer }

/-- The tuple built at the end of `_parse` (parser.py:233-243). -/
def Raw.info (data : Bytes) (r : Raw) : Info :=
  { cls := r.cls, method := r.constructed, tag := r.tag,
    header := slice data r.start r.hdrEnd,
    contents := slice data r.hdrEnd (r.contentsEnd - r.trailer.length),
    trailer := r.trailer }

/-- `_parse(contents, data_len, pointer=p)` as called from outside: info and end pointer. -/
def parseFrom (data : Bytes) (dataLen pointer : Nat) : Py (Info × Nat) := do
  let r ← parseAt data dataLen (maxDepth + 1) pointer
  pure (r.info data, r.contentsEnd)

/-- `parse(contents, strict=False)` (parser.py:75-111); the argument is a byte string by typing. -/
def parse (contents : Bytes) (strict : Bool := false) : Py Info := do
  let (info, consumed) ← parseFrom contents contents.length 0
  if strict ∧ consumed ≠ contents.length then .error .valueError
  else pure info

/-- `peek(contents)` (parser.py:114-137). -/
def peek (contents : Bytes) : Py Nat := do
  let (_, consumed) ← parseFrom contents contents.length 0
  pure consumed

/-- The `while tag > 0` loop of `_dump_header` (parser.py:275-279). -/
def dumpTagLoop (tag contBit : Nat) (header : Bytes) : Py Bytes :=
  if _h : tag > 0 then do
    let c ← chrCls (contBit ||| (tag &&& 0x7f))
    dumpTagLoop (tag >>> 7) 0x80 (c ++ header)
  else .ok header
termination_by tag
decreasing_by simp [Nat.shiftRight_eq_div_pow]; omega

/-- Identifier octets part of `_dump_header` (parser.py:267-282). -/
def dumpIdent (cls method tag : Nat) : Py Bytes :=
  let idNum := (cls <<< 6) ||| (method <<< 5)
  if tag ≥ 31 then do
    let h ← dumpTagLoop tag 0 []
    let c ← chrCls (idNum ||| 31)
    pure (c ++ h)
  else chrCls (idNum ||| tag)

/-- Length octets part of `_dump_header` (parser.py:284-290). The second test is not in the code: a byte string of that length
cannot exist (`len` is at most `sys.maxsize`), the operation that would make it raises. -/
def dumpLength (length : Nat) : Py Bytes :=
  if length ≤ 127 then chrCls length
  else if 256 ^ 127 ≤ length then .error .overflowError
  else do
    let lengthBytes ← intToBytes length
    let l ← chrCls (0x80 ||| lengthBytes.length)
    pure (l ++ lengthBytes)

/-- `_dump_header(class_, method, tag, contents)` (parser.py:246-292); only `len(contents)` is used.
(`if not cont_bit: cont_bit = 0x80` sets `0x80` in every case.) -/
def dumpHeader (cls method tag : Nat) (contents : Bytes) : Py Bytes := do
  let ident ← dumpIdent cls method tag
  let len ← dumpLength contents.length
  pure (ident ++ len)

/-- `emit(class_, method, tag, contents)` (parser.py:26-72). Arguments are integers and a byte
string by typing (the `TypeError` checks are not modelled). -/
def emit (cls method tag : Int) (contents : Bytes) : Py Bytes :=
  if cls < 0 ∨ cls > 3 then .error .valueError
  else if method < 0 ∨ method > 1 then .error .valueError
  else if tag < 0 then .error .valueError
  else do
    let h ← dumpHeader cls.toNat method.toNat tag.toNat contents
    pure (h ++ contents)

end Asn1
