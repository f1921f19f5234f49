import Verif.Model.Integer

/-!
# Constructable string types (core.py:737-815, 1781-1860, 1996-2726)

`_native` / `_bytes` / `_unicode` caches are the `native` field of `Obj`.
-/

namespace Asn1

/-- The `while pointer < contents_len` loop of `Constructable._merge_chunks` (core.py:761-768): `step` builds the
sub-value and merges it. Running out of fuel is reported as `nonTermination` (proved impossible for the fuel used). -/
def chunkLoop {β : Type} (step : Info → Py (List β)) (data : Bytes) : Nat → Nat → Option (List β) → Py (Option (List β))
  | 0, _, _ => .error .nonTermination
  | fuel + 1, pointer, output =>
    if pointer < data.length then do
      let r ← parseFrom data data.length pointer
      let v ← step r.1
      chunkLoop step data fuel r.2 (some (match output with
        | none => v
        | some out => out ++ v))
    else .ok output

/-- `Constructable._merge_chunks` (core.py:747-771). `asChunk` is the class's `_as_chunk` (given `_indefinite` and
`contents`), `cproto` is `self.__class__()`. -/
def mergeChunks {β ν : Type} (asChunk : Bool → Bytes → Py (List β)) (cproto : Obj ν) : Nat → Bool → Bytes → Py (List β)
  | _, false, contents => asChunk false contents
  | 0, true, _ => .error .nonTermination
  | fuel + 1, true, contents => do
    let out ← chunkLoop (fun i => do
        let o ← buildObj true [] cproto i
        match o.contents with
        | none => .error .typeError
        | some c => mergeChunks asChunk cproto fuel o.indefinite c)
      contents (contents.length + 1) 0 none
    match out with
    | none => asChunk true contents
    | some v => .ok v

/-- `self._merge_chunks()` -/
def mergeObj {β ν : Type} (asChunk : Bool → Bytes → Py (List β)) (cproto : Obj ν) (indefinite : Bool) (contents : Bytes) :
    Py (List β) :=
  mergeChunks asChunk cproto (contents.length + 1) indefinite contents

/-- Common tail of the `set` methods of string classes (e.g. core.py:2597-2604): cache, contents, and reset of
header, trailer and the indefinite-length marker. -/
def strPut {ν : Type} (o : Obj ν) (v : ν) (c : Bytes) : Obj ν :=
  { o with native := some v, contents := some c, header := none, trailer := [], indefinite := false,
           method := if o.indefinite then 0 else o.method }

namespace OctetString

/-- `OctetString()` -/
def new : Obj Bytes := { cls := 0, method := 0, tag := 4 }

/-- `_as_chunk` (core.py:773-783) -/
def asChunk (_ : Bool) (contents : Bytes) : Py Bytes := .ok contents

/-- `OctetString.set` (core.py:2580-2604) -/
def set (o : Obj Bytes) (value : Bytes) : Py (Obj Bytes) := .ok (strPut o value value)

/-- `OctetString.native` (core.py:2606-2645) -/
def native (o : Obj Bytes) : Py (Option Bytes × Obj Bytes) :=
  match o.contents with
  | none => .ok (none, o)
  | some c =>
    match o.native with
    | some b => .ok (some b, o)
    | none => do
      let b ← mergeObj asChunk new o.indefinite c
      pure (some b, { o with native := some b })

/-- `OctetString.load` -/
def load (proto : Obj Bytes) (data : Bytes) (strict : Bool := false) : Py (Obj Bytes) := loadObj true [] proto data strict

/-- `OctetString.dump` -/
def dump (o : Obj Bytes) (force : Bool := false) : Py (Bytes × Obj Bytes) :=
  primDump true native set (fun _ => .error .typeError) o force

end OctetString

/-- A Python codec: `bytes.decode(encoding)` and `str.encode(encoding)`. -/
structure Codec where
  decode : Bytes → Py Str
  encode : Str → Py Bytes

namespace AbstractString

/-- `AbstractString.set` (core.py:1794-1818) -/
def set (k : Codec) (o : Obj Str) (value : Str) : Py (Obj Str) := do
  let c ← k.encode value
  pure (strPut o value c)

/-- `AbstractString.native` (core.py:1820-1859): chunks are merged as bytes, then decoded. `cproto` is the class
instance without value. -/
def native (k : Codec) (cproto : Obj Str) (o : Obj Str) : Py (Option Str × Obj Str) :=
  match o.contents with
  | none => .ok (none, o)
  | some c =>
    match o.native with
    | some s => .ok (some s, o)
    | none => do
      let b ← mergeObj OctetString.asChunk cproto o.indefinite c
      let s ← k.decode b
      pure (some s, { o with native := some s })

/-- `load` of a string class -/
def load (proto : Obj Str) (data : Bytes) (strict : Bool := false) : Py (Obj Str) := loadObj true [] proto data strict

/-- `dump` of a string class; `set(None)` is a `TypeError`. -/
def dump (k : Codec) (cproto : Obj Str) (o : Obj Str) (force : Bool := false) : Py (Bytes × Obj Str) :=
  primDump true (native k cproto) (set k) (fun _ => .error .typeError) o force

end AbstractString

/-- An `IntegerOctetString` instance with its `_encoded_width`. -/
structure IntOctObj extends Obj Nat where
  width : Option Nat := none
  deriving DecidableEq, Repr

namespace IntegerOctetString

/-- `IntegerOctetString()` -/
def new : IntOctObj := { cls := 0, method := 0, tag := 4 }

/-- `IntegerOctetString.set` (core.py:2661-2697). An `OverflowError` from `int_to_bytes` leaves `_native` updated;
that partial update is not modelled (the failing call's object state is dropped). -/
def set (o : IntOctObj) (value : Int) : Py IntOctObj :=
  if value < 0 then .error .valueError
  else do
    let c ← intToBytes value false o.width
    pure { o with toObj := strPut o.toObj value.toNat c }

/-- `IntegerOctetString.native` (core.py:2699-2713) -/
def native (o : IntOctObj) : Py (Option Nat × IntOctObj) :=
  match o.contents with
  | none => .ok (none, o)
  | some c =>
    match o.native with
    | some n => .ok (some n, o)
    | none => do
      let b ← mergeObj OctetString.asChunk new.toObj o.indefinite c
      let n := (intFromBytes b).toNat
      pure (some n, { o with native := some n })

/-- `set_encoded_width` (core.py:2715-2726) -/
def setEncodedWidth (o : IntOctObj) (width : Nat) : Py IntOctObj :=
  let o := { o with width := some width }
  match o.contents with
  | some c =>
    if c.length ≠ width then do
      let (n, o) ← native o
      match n with
      | some n => set o n
      | none => .error .typeError
    else .ok o
  | none => .ok o

/-- `IntegerOctetString.load` -/
def load (proto : Obj Nat) (data : Bytes) (strict : Bool := false) : Py IntOctObj := do
  let o ← loadObj true [] proto data strict
  pure { o with }

/-- `IntegerOctetString.dump` (core.py:1717-1738) -/
def dump (o : IntOctObj) (force : Bool := false) : Py (Bytes × IntOctObj) :=
  if force || headerEnds80 o.header then do
    let (n, o) ← native o
    let o := { o with contents := none }
    match n with
    | none => .error .typeError
    | some n => do
      let o ← set o n
      let (b, o') ← asn1Dump true o.toObj
      pure (b, { o with toObj := o' })
  else do
    let (b, o') ← asn1Dump true o.toObj
    pure (b, { o with toObj := o' })

end IntegerOctetString

/-- Value of a string of binary digits: `int(value, 2)`. -/
def natOfBits (bits : List Bool) : Nat := bits.foldl (fun acc b => 2 * acc + b.toNat) 0

/-- Binary digits of a natural number, at least one. -/
def binDigits (n : Nat) : List Bool :=
  if n < 2 then [n == 1] else binDigits (n / 2) ++ [n % 2 == 1]
termination_by n
decreasing_by omega

/-- `_int_to_bit_tuple(value, bits)` (core.py:5382-5403); `format` pads on the left with zeros. -/
def intToBitTuple (value bits : Nat) : Py (List Bool) :=
  if value = 0 ∧ bits = 0 then .ok []
  else
    let ds := binDigits value
    let result := List.replicate (bits - ds.length) false ++ ds
    if result.length ≠ bits then .error .valueError else .ok result

/-- One chunk of an integer bit string: (value, bits, unused_bits). -/
abbrev BitChunk := Nat × Nat × List Bool

/-- `_IntegerBitString._as_chunk` (core.py:2004-2041) -/
def intBitsChunk (indefinite : Bool) (contents : Bytes) : Py (List BitChunk) :=
  if indefinite then .ok []
  else
    match contents with
    | [] => .error .indexError
    | unusedLen :: rest =>
      let value := (intFromBytes rest).toNat
      let bits := rest.length * 8
      if unusedLen.toNat = 0 then .ok [(value, bits, [])]
      else if rest.length = 0 then .error .valueError
      else if unusedLen.toNat > 7 then .error .valueError
      else do
        let unused ← intToBitTuple (value &&& ((1 <<< unusedLen.toNat) - 1)) unusedLen.toNat
        pure [(value >>> unusedLen.toNat, bits - unusedLen.toNat, unused)]

/-- The loop of `_chunks_to_int` (core.py:2066-2072). -/
def foldBitChunks : List BitChunk → Nat → Nat → List Bool → Py (Nat × Nat × List Bool)
  | [], value, total, unused => .ok (value, total, unused)
  | (chunk, bits, unused') :: cs, value, total, _ =>
    if total &&& 7 ≠ 0 then .error .valueError
    else foldBitChunks cs ((value <<< bits) ||| chunk) (total + bits) unused'

/-- `_chunks_to_int` (core.py:2043-2072) -/
def chunksToInt {ν : Type} (cproto : Obj ν) (indefinite : Bool) (contents : Bytes) : Py (Nat × Nat × List Bool) :=
  if indefinite = false then do
    match ← intBitsChunk false contents with
    | [] => .error .indexError
    | c :: _ => .ok c
  else do
    let cs ← mergeObj intBitsChunk cproto true contents
    foldBitChunks cs 0 0 []

/-- A bit string instance with its `_unused_bits` (core.py:2002). -/
structure BitObj (ν : Type) extends Obj ν where
  unused : List Bool := []
  deriving DecidableEq, Repr

/-- `int_to_bytes(extra_bits)` or `b'\x00'` (core.py:2202-2205) -/
def extraByte (extra : Nat) : Py Bytes := if extra ≠ 0 then intToBytes extra else .ok [0]

/-- `int_to_bytes(int(value, 2))` or `b''` (core.py:2207-2210) -/
def valueBytes (value : List Bool) : Py Bytes := if value = [] then .ok [] else intToBytes (natOfBits value)

/-- Padding and conversion part of `BitString.set` (core.py:2190-2213); returns the contents and the number of
padding bits. `math.ceil(size / 8)` is the exact quotient here. -/
def bitsContents (bits : List Bool) : Py (Bytes × Nat) := do
  let size := bits.length
  let sizeMod := size % 8
  let extra := if sizeMod ≠ 0 then 8 - sizeMod else 0
  let value := bits ++ List.replicate extra false
  let sizeInBytes := (size + 7) / 8
  let eb ← extraByte extra
  let vb ← valueBytes value
  let vb := if vb.length ≠ sizeInBytes then List.replicate (sizeInBytes - vb.length) 0 ++ vb else vb
  pure (eb ++ vb, extra)

/-- Key of a named bit list: a name, or a bit number that has no name. -/
inductive BitKey where
  | name (s : String)
  | index (n : Nat)
  deriving DecidableEq, Repr

/-- `_map` of a named bit string: bit number to name; numbers are distinct. -/
abbrev BitMap := List (Nat × String)

/-- `_map.get(index)` -/
def BitMap.get (m : BitMap) (n : Nat) : Option String := (m.find? (fun e => e.1 == n)).map Prod.snd

/-- `_map.get(index, index)` -/
def BitMap.key (m : BitMap) (n : Nat) : BitKey := match m.get n with
  | some s => .name s
  | none => .index n

/-- `_size = max(_map.keys()) + 1` (core.py:2122); maps are non-empty. -/
def BitMap.size (m : BitMap) : Nat := (m.map Prod.fst).foldl max 0 + 1

/-- Names of the set bits of a list (core.py:2160-2164 and 2349-2353), starting at bit number `i`. The Python `set`
is a duplicate-free list here. -/
def bitNames (m : BitMap) : Nat → List Bool → List BitKey → List BitKey
  | _, [], acc => acc
  | i, b :: bs, acc => bitNames m (i + 1) bs (if b then (if m.key i ∈ acc then acc else acc ++ [m.key i]) else acc)

/-- `value.rstrip('0')` -/
def rstrip0 (bits : List Bool) : List Bool := (bits.reverse.dropWhile (· == false)).reverse

/-- Common tail of `BitString.set` (core.py:2214-2221). -/
def bitPut {ν : Type} (o : BitObj ν) (v : ν) (c : Bytes) (extra : Nat) : BitObj ν :=
  { toObj := strPut o.toObj v c, unused := List.replicate extra false }

namespace BitString

/-- `BitString()` without a map -/
def new : BitObj (List Bool) := { cls := 0, method := 0, tag := 3 }

/-- `BitString.set(tuple)` without a map (core.py:2124-2221); tuple elements are 0/1. -/
def set (o : BitObj (List Bool)) (value : List Bool) : Py (BitObj (List Bool)) := do
  let (c, extra) ← bitsContents value
  pure (bitPut o value c extra)

/-- `BitString.native` without a map (core.py:2327-2356). -/
def native (o : BitObj (List Bool)) : Py (List Bool × BitObj (List Bool)) := do
  let o ← match o.contents with
    | none => set o []
    | some _ => pure o
  match o.native with
  | some v => pure (v, o)
  | none =>
    let (value, count, unused) ← chunksToInt new.toObj o.indefinite (o.contents.getD [])
    let bits ← intToBitTuple value count
    pure (bits, { o with native := some bits, unused := unused })

/-- `BitString.__getitem__(int)` without a map (core.py:2223-2268); negative keys are not modelled. -/
def getItem (o : BitObj (List Bool)) (key : Nat) : Py (Bool × BitObj (List Bool)) := do
  let (v, o) ← native o
  pure (if v.length ≥ key + 1 then v.getD key false else false, o)

/-- `BitString.__setitem__(int, bool)` without a map (core.py:2270-2325). -/
def setItem (o : BitObj (List Bool)) (key : Nat) (value : Bool) : Py (BitObj (List Bool)) := do
  let (v, o) ← native o
  let v := if key + 1 > v.length then v ++ List.replicate (key + 1 - v.length) false else v
  set o (v.set key value)

/-- `BitString.load` -/
def load (proto : Obj (List Bool)) (data : Bytes) (strict : Bool := false) : Py (BitObj (List Bool)) := do
  let o ← loadObj true [] proto data strict
  pure { o with }

/-- `BitString.dump` (core.py:1717-1738) -/
def dump (o : BitObj (List Bool)) (force : Bool := false) : Py (Bytes × BitObj (List Bool)) := do
  let o ← if force || headerEnds80 o.header then do
      let (n, o) ← native o
      set { o with contents := none } n
    else pure o
  let (b, o') ← asn1Dump true o.toObj
  pure (b, { o with toObj := o' })

end BitString

namespace NamedBits

/-- `cls()` -/
def new : BitObj (List BitKey) := { cls := 0, method := 0, tag := 3 }

/-- The bits for a set of names (core.py:2145-2152): names not in the map, and bare numbers, are ignored. -/
def bitsOfNames (m : BitMap) (value : List BitKey) : List Bool :=
  (List.range m.size).map (fun i => match m.get i with
    | none => false
    | some s => decide (BitKey.name s ∈ value))

/-- The part of `BitString.set` after the bits are known (core.py:2177-2221). -/
def setBits (m : BitMap) (o : BitObj (List BitKey)) (nat : List BitKey) (bits : List Bool) : Py (BitObj (List BitKey)) :=
  if bits.length > m.size then .error .valueError
  else do
    let (c, extra) ← bitsContents (rstrip0 bits)
    pure (bitPut o nat c extra)

/-- `BitString.set(set)` (core.py:2135-2154) -/
def set (m : BitMap) (o : BitObj (List BitKey)) (value : List BitKey) : Py (BitObj (List BitKey)) :=
  setBits m o value (bitsOfNames m value)

/-- `BitString.set(tuple)` with a map (core.py:2156-2165). A failing call's partial update is not modelled. -/
def setTuple (m : BitMap) (o : BitObj (List BitKey)) (value : List Bool) : Py (BitObj (List BitKey)) :=
  setBits m o (bitNames m 0 value []) value

/-- `BitString.native` with a map (core.py:2327-2356) -/
def native (m : BitMap) (o : BitObj (List BitKey)) : Py (List BitKey × BitObj (List BitKey)) := do
  let o ← match o.contents with
    | none => set m o []
    | some _ => pure o
  match o.native with
  | some v => pure (v, o)
  | none =>
    let (value, count, unused) ← chunksToInt new.toObj o.indefinite (o.contents.getD [])
    let bits ← intToBitTuple value count
    let v := bitNames m 0 bits []
    pure (v, { o with native := some v, unused := unused })

/-- The checks on a key (core.py:2237-2256): a name must be in the map. A bit number is translated to its name. -/
def resolve (m : BitMap) : BitKey → Py BitKey
  | .name s => if s ∈ m.map Prod.snd then .ok (.name s) else .error .valueError
  | .index n => .ok (m.key n)

/-- `BitString.__getitem__` with a map (core.py:2223-2268) -/
def getItem (m : BitMap) (o : BitObj (List BitKey)) (key : BitKey) : Py (Bool × BitObj (List BitKey)) := do
  let k ← resolve m key
  let (v, o) ← native m o
  pure (decide (k ∈ v), o)

/-- `BitString.__setitem__` with a map (core.py:2270-2325). -/
def setItem (m : BitMap) (o : BitObj (List BitKey)) (key : BitKey) (value : Bool) : Py (BitObj (List BitKey)) := do
  let k ← resolve m key
  let (v, o) ← native m o
  let v := if value then (if k ∈ v then v else v ++ [k]) else v.filter (· ≠ k)
  set m o v

/-- `load` -/
def load (proto : Obj (List BitKey)) (data : Bytes) (strict : Bool := false) : Py (BitObj (List BitKey)) := do
  let o ← loadObj true [] proto data strict
  pure { o with }

/-- `dump` (core.py:1717-1738) -/
def dump (m : BitMap) (o : BitObj (List BitKey)) (force : Bool := false) : Py (Bytes × BitObj (List BitKey)) := do
  let o ← if force || headerEnds80 o.header then do
      let (n, o) ← native m o
      set m { o with contents := none } n
    else pure o
  let (b, o') ← asn1Dump true o.toObj
  pure (b, { o with toObj := o' })

end NamedBits

namespace OctetBitString

/-- `OctetBitString()` -/
def new : BitObj Bytes := { cls := 0, method := 0, tag := 3 }

/-- `OctetBitString.set` (core.py:2372-2401) -/
def set (o : BitObj Bytes) (value : Bytes) : Py (BitObj Bytes) := .ok (bitPut o value (0 :: value) 0)

/-- `OctetBitString._as_chunk` (core.py:2442-2474); the `_indefinite` flag is not looked at. -/
def asChunk (_ : Bool) (contents : Bytes) : Py (List (Bytes × List Bool)) :=
  match contents with
  | [] => .error .indexError
  | unusedLen :: rest =>
    if unusedLen.toNat = 0 then .ok [(rest, [])]
    else if rest.length = 0 then .error .valueError
    else if unusedLen.toNat > 7 then .error .valueError
    else do
      let mask := (1 <<< unusedLen.toNat) - 1
      let last := (rest.getLastD 0).toNat
      let unused ← intToBitTuple (last &&& mask) unusedLen.toNat
      pure [(rest.dropLast ++ [UInt8.ofNat (last - (last &&& mask))], unused)]

/-- The loop over the merged chunks (core.py:2415-2422). -/
def foldChunks : List (Bytes × List Bool) → Bytes → List Bool → Py (Bytes × List Bool)
  | [], acc, unused => .ok (acc, unused)
  | (b, u) :: cs, acc, unused => if unused ≠ [] then .error .valueError else foldChunks cs (acc ++ b) u

/-- `OctetBitString.__bytes__` without cache (core.py:2409-2424) -/
def readBytes (indefinite : Bool) (contents : Bytes) : Py (Bytes × List Bool) :=
  if indefinite = false then do
    match ← asChunk false contents with
    | [] => .error .indexError
    | c :: _ => .ok c
  else do
    let cs ← mergeObj asChunk new.toObj true contents
    foldChunks cs [] []

/-- `OctetBitString.native` (core.py:2476-2488) -/
def native (o : BitObj Bytes) : Py (Option Bytes × BitObj Bytes) :=
  match o.contents with
  | none => .ok (none, o)
  | some c =>
    match o.native with
    | some b => .ok (some b, o)
    | none => do
      let (b, u) ← readBytes o.indefinite c
      pure (some b, { o with native := some b, unused := u })

/-- `OctetBitString.load` -/
def load (proto : Obj Bytes) (data : Bytes) (strict : Bool := false) : Py (BitObj Bytes) := do
  let o ← loadObj true [] proto data strict
  pure { o with }

/-- `OctetBitString.dump` (core.py:1717-1738) -/
def dump (o : BitObj Bytes) (force : Bool := false) : Py (Bytes × BitObj Bytes) := do
  let o ← if force || headerEnds80 o.header then do
      let (n, o) ← native o
      match n with
      | none => .error .typeError
      | some n => set { o with contents := none } n
    else pure o
  let (b, o') ← asn1Dump true o.toObj
  pure (b, { o with toObj := o' })

end OctetBitString

namespace IntegerBitString

/-- `IntegerBitString()` -/
def new : BitObj Nat := { cls := 0, method := 0, tag := 3 }

/-- `IntegerBitString.set` (core.py:2512-2549) -/
def set (o : BitObj Nat) (value : Int) : Py (BitObj Nat) :=
  if value < 0 then .error .valueError
  else do
    let c ← intToBytes value true
    pure (bitPut o value.toNat (0 :: c) 0)

/-- `IntegerBitString.native` (core.py:2552-2567) -/
def native (o : BitObj Nat) : Py (Option Nat × BitObj Nat) :=
  match o.contents with
  | none => .ok (none, o)
  | some c =>
    match o.native with
    | some n => .ok (some n, o)
    | none => do
      let (n, _, u) ← chunksToInt new.toObj o.indefinite c
      pure (some n, { o with native := some n, unused := u })

/-- `IntegerBitString.load` -/
def load (proto : Obj Nat) (data : Bytes) (strict : Bool := false) : Py (BitObj Nat) := do
  let o ← loadObj true [] proto data strict
  pure { o with }

/-- `IntegerBitString.dump` (core.py:1717-1738) -/
def dump (o : BitObj Nat) (force : Bool := false) : Py (Bytes × BitObj Nat) := do
  let o ← if force || headerEnds80 o.header then do
      let (n, o) ← native o
      match n with
      | none => .error .typeError
      | some n => set { o with contents := none } n
    else pure o
  let (b, o') ← asn1Dump true o.toObj
  pure (b, { o with toObj := o' })

end IntegerBitString

end Asn1
