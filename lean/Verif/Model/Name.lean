import Verif.Model.NameTables
import Verif.Model.PyStr

/-!
# Distinguished names (`x509.py`: `NameTypeAndValue`, `RelativeDistinguishedName`, `RDNSequence`, `Name`)

The attributes of a name are given as decoded pairs of type and native value. The Unicode tables of `stringprep` and
`unicodedata.normalize('NFKC', …)` are parameters.
-/

namespace Asn1.Names
open Asn1

/-- The Unicode functions that `_ldap_string_prep` uses: `stringprep.map_table_b2`, `unicodedata.normalize('NFKC', …)` and
`stringprep.in_table_…`. -/
structure Tables where
  b2 : Char → Str
  nfkc : Str → Str
  a1 : Char → Bool
  c3 : Char → Bool
  c4 : Char → Bool
  c5 : Char → Bool
  c8 : Char → Bool
  d1 : Char → Bool
  d2 : Char → Bool

/-- A character in a range of code points. -/
def within (c : Char) (lo hi : Nat) : Bool := lo ≤ c.toNat && c.toNat ≤ hi

/-- The characters removed by the first substitution (x509.py:755). -/
def removed (c : Char) : Bool :=
  (c.toNat == 0xad || c.toNat == 0x1806 || c.toNat == 0x34f || within c 0x180b 0x180d || within c 0xfe0f 0xff00 ||
    c.toNat == 0xfffc)

/-- The characters mapped to a space by the second substitution (x509.py:756). -/
def spaced (c : Char) : Bool := within c 9 13 || c.toNat == 0x85

/-- The characters removed by the third substitution on Python 3 (x509.py:763). -/
def removed3 (c : Char) : Bool := within c 0x1d173 0x1d17a || within c 0xe0020 0xe007f || c.toNat == 0xe0001

/-- The characters removed by the fourth substitution (x509.py:764-769) -/
def removed4 (c : Char) : Bool :=
  within c 0 8 || within c 0xe 0x1f || within c 0x7f 0x84 || within c 0x86 0x9f || c.toNat == 0x6dd || c.toNat == 0x70f ||
    c.toNat == 0x180e || within c 0x200c 0x200f || within c 0x202a 0x202e || within c 0x2060 0x2063 ||
    within c 0x206a 0x206f || c.toNat == 0xfeff || within c 0xfff9 0xfffb

/-- The characters mapped to a space by the last substitution (x509.py:771). -/
def spaced6 (c : Char) : Bool :=
  c.toNat == 0xa0 || c.toNat == 0x1680 || within c 0x2000 0x200a || within c 0x2028 0x2029 || c.toNat == 0x202f ||
    c.toNat == 0x205f || c.toNat == 0x3000

/-- The map step (x509.py:754-773) -/
def mapStep (T : Tables) (s : Str) : Str :=
  let s := s.filter fun c => !removed c
  let s := s.map fun c => if spaced c then ' ' else c
  let s := s.filter fun c => !removed3 c
  let s := s.filter fun c => !removed4 c
  let s := s.filter fun c => c.toNat != 0x200b
  let s := s.map fun c => if spaced6 c then ' ' else c
  s.flatMap T.b2

/-- The prohibit step (x509.py:778-821). Every case is a `ValueError`. -/
def prohibited (T : Tables) (s : Str) : Bool :=
  s.any fun c => T.a1 c || T.c8 c || T.c3 c || T.c4 c || T.c5 c || c.toNat == 0xfffd

/-- The bidirectional step (x509.py:823-843): whether it raises. A string with an R or AL character is not empty. -/
def badBidi (T : Tables) (s : Str) : Bool :=
  let r := s.any T.d1
  let l := s.any fun c => !T.d1 c && T.d2 c
  r && (l || !(s.head?.any T.d1) || !(s.getLast?.any T.d1))

/-- `re.sub(' +', '  ', s)` (x509.py:846) -/
def collapse : Str → Str
  | [] => []
  | c :: cs =>
    if c = ' ' then
      (if cs.head? = some ' ' then collapse cs else ' ' :: ' ' :: collapse cs)
    else c :: collapse cs

/-- `NameTypeAndValue._ldap_string_prep` (x509.py:742-848) -/
def ldapStringPrep (T : Tables) (s : Str) : Py Str :=
  let s := T.nfkc (mapStep T s)
  if prohibited T s then .error .valueError
  else if badBidi T s then .error .valueError
  else .ok ([' '] ++ pyStrip (collapse s) ++ [' '])

/-- The native value of an attribute. Only these kinds are modelled: an attribute of a type that has no specification can
have any other native value. -/
inductive Native where
  | str (s : Str)
  | bytes (b : Bytes)
  | int (i : Int)
  | bool (b : Bool)
  | none
  deriving DecidableEq, Repr

/-- One attribute: `type.native` and `value.native`. -/
structure Attr where
  type : Str
  value : Native
  deriving DecidableEq, Repr

/-- Code points of the bytes 0x80-0x9f in cp1252; 0 stands for the five bytes that are not assigned. -/
def cp1252High : List Nat := [
  0x20ac, 0, 0x201a, 0x192, 0x201e, 0x2026, 0x2020, 0x2021, 0x2c6, 0x2030, 0x160, 0x2039, 0x152, 0, 0x17d, 0,
  0, 0x2018, 0x2019, 0x201c, 0x201d, 0x2022, 0x2013, 0x2014, 0x2dc, 0x2122, 0x161, 0x203a, 0x153, 0, 0x17e, 0x178]

/-- One byte in cp1252. -/
def cp1252Byte (b : UInt8) : Py Char :=
  if 0x80 ≤ b.toNat ∧ b.toNat ≤ 0x9f then
    let n := cp1252High.getD (b.toNat - 0x80) 0
    if n = 0 then .error .unicodeError else .ok (Char.ofNat n)
  else .ok (Char.ofNat b.toNat)

/-- `bytes.decode('cp1252')` -/
def cp1252 (b : Bytes) : Py Str := b.mapM cp1252Byte

/-- A prepared value: a string, or the native value if that is neither a string nor a byte string. -/
inductive Prepped where
  | str (s : Str)
  | int (i : Int)
  | bool (b : Bool)
  | none
  deriving DecidableEq, Repr

/-- `NameTypeAndValue.prepped_value` (x509.py:700-718). The cache is not modelled: the value does not change. -/
def prepped (T : Tables) : Native → Py Prepped
  | .str s => .str <$> ldapStringPrep T s
  | .bytes b => do
    let s ← cp1252 b
    .ok (.str ([' '] ++ s ++ [' ']))
  | .int i => .ok (.int i)
  | .bool b => .ok (.bool b)
  | .none => .ok .none

/-- Python `a == b` of prepared values; `True == 1`. -/
def Prepped.eq : Prepped → Prepped → Bool
  | .str a, .str b => a == b
  | .int a, .int b => a == b
  | .bool a, .bool b => a == b
  | .int a, .bool b => a == if b then 1 else 0
  | .bool a, .int b => (if a then 1 else 0) == b
  | .none, .none => true
  | _, _ => false

/-- Python `'%s' % v` -/
def Prepped.text : Prepped → Str
  | .str s => s
  | .int i => pyStrInt i
  | .bool true => "True".toList
  | .bool false => "False".toList
  | .none => "None".toList

/-- `d[k] = v` on a dict. -/
def put {β : Type} (d : List (Str × β)) (k : Str) (v : β) : List (Str × β) :=
  if d.any (fun e => e.1 == k) then d.map (fun e => if e.1 == k then (k, v) else e) else d ++ [(k, v)]

/-- `d.get(k)` -/
def look {β : Type} (d : List (Str × β)) (k : Str) : Option β := (d.find? fun e => e.1 == k).map Prod.snd

/-- `RelativeDistinguishedName._get_values` (x509.py:919-933) -/
def getValues (T : Tables) : List Attr → List (Str × Prepped) → Py (List (Str × Prepped))
  | [], d => .ok d
  | a :: as, d => do
    let v ← prepped T a.value
    getValues T as (put d a.type v)

/-- `RelativeDistinguishedName._get_types` (x509.py:905-917), as a list -/
def getTypes (as : List Attr) : List Str := as.map Attr.type

/-- Comparison of strings by code points. -/
def strLe : Str → Str → Bool
  | [], _ => true
  | _ :: _, [] => false
  | a :: as, b :: bs => if a.toNat < b.toNat then true else if a.toNat = b.toNat then strLe as bs else false

/-- `RelativeDistinguishedName.hashable` (x509.py:854-868). A key of the dict has a value. -/
def rdnHashable (T : Tables) (as : List Attr) : Py Str := do
  let values ← getValues T as []
  let keys := (values.map Prod.fst).mergeSort strLe
  .ok (pyJoin [Char.ofNat 0x1f] (keys.map fun k => k ++ [':', ' '] ++ ((look values k).getD .none).text))

/-- `RelativeDistinguishedName.__eq__` (x509.py:873-903) -/
def rdnEq (T : Tables) (a b : List Attr) : Py Bool :=
  if a.length ≠ b.length then .ok false
  else if ¬ ((getTypes a).all (getTypes b).contains ∧ (getTypes b).all (getTypes a).contains) then .ok false
  else do
    let va ← getValues T a []
    let vb ← getValues T b []
    .ok ((getTypes a).all fun t => ((look va t).getD .none).eq ((look vb t).getD .none))

/-- `RDNSequence.hashable` (x509.py:939-949), `Name.hashable` (x509.py:1060-1067) -/
def hashable (T : Tables) (n : List (List Attr)) : Py Str := do
  let hs ← n.mapM (rdnHashable T)
  .ok (pyJoin [Char.ofNat 0x1e] hs)

/-- The loop of `RDNSequence.__eq__` (x509.py:971-973) for names of the same length: `other[index] != self_rdn`. -/
def eqLoop (T : Tables) : List (List Attr) → List (List Attr) → Py Bool
  | a :: as, b :: bs => do
    let e ← rdnEq T b a
    if e then eqLoop T as bs else .ok false
  | _, _ => .ok true

/-- `RDNSequence.__eq__` (x509.py:954-975), `Name.__eq__` (x509.py:1075-1088) -/
def nameEq (T : Tables) (a b : List (List Attr)) : Py Bool :=
  if a.length ≠ b.length then .ok false else eqLoop T a b

/-- `NameType.map` (core.py:3001-3033) -/
def mapName (n : Str) : Str := (nameMap.get n).getD n

/-- `NameType.preferred_ordinal` (x509.py:587-605) -/
def preferredOrdinal (n : Str) : Nat × Str :=
  let n := mapName n
  (if n ∈ preferredOrder then preferredOrder.idxOf n else preferredOrder.length, n)

/-- Comparison of the tuples. -/
def ordinalLe (a b : Nat × Str) : Bool := if a.1 < b.1 then true else if a.1 = b.1 then strLe a.2 b.2 else false

/-- `sorted(name_dict.items(), key=…)` (x509.py:1014-1020) -/
def sortItems {X : Type} (d : List (Str × X)) : List (Str × X) :=
  d.mergeSort fun a b => ordinalLe (preferredOrdinal a.1) (preferredOrdinal b.1)

/-- What `Name.build` does with the given values (of type `X`), producing ASN.1 values (of type `W`): the instance test, the
value itself if it is an instance, the constructors of the classes, and `DirectoryString(name=…, value=…)`. -/
structure Maker (X W : Type) where
  isInstance : ValueClass → X → Bool
  asIs : X → W
  make : ValueClass → X → Py W
  directory : ValueClass → X → Py W

/-- The value for an attribute (x509.py:1023-1049) -/
def buildValue {X W : Type} (M : Maker X W) (printable : Bool) (name : Str) (x : X) : Py W :=
  match look valueSpecs name with
  | none => .error .valueError
  | some cls =>
    if M.isInstance cls x then .ok (M.asIs x)
    else if cls ≠ .directoryString then M.make cls x
    else if name ∈ ["dn_qualifier".toList, "country_name".toList, "serial_number".toList] then M.directory .printableString x
    else M.directory (if printable then .printableString else .utf8String) x

/-- The loop of `Name.build` (x509.py:1022-1056): one RDN with one attribute per item. -/
def buildLoop {X W : Type} (M : Maker X W) (printable : Bool) : List (Str × X) → Py (List (List (Str × W)))
  | [] => .ok []
  | (n, x) :: items => do
    let w ← buildValue M printable (mapName n) x
    let rest ← buildLoop M printable items
    .ok ([(mapName n, w)] :: rest)

/-- `Name.build` (x509.py:987-1058). The keys of the dict are distinct. -/
def build {X W : Type} (M : Maker X W) (printable : Bool) (d : List (Str × X)) : Py (List (List (Str × W))) :=
  buildLoop M printable (sortItems d)

/-- A value in the native form of a name: the native value of the only attribute of this type, or a list. -/
inductive Entry (N : Type) where
  | one (n : N)
  | many (l : List N)
  deriving DecidableEq, Repr

/-- One attribute (x509.py:1096-1103). Native values that are themselves lists are not modelled. -/
def nativeStep {N : Type} (d : List (Str × Entry N)) (a : Str × N) : List (Str × Entry N) :=
  match look d a.1 with
  | some (.one x) => put d a.1 (.many [x, a.2])
  | some (.many l) => put d a.1 (.many (l ++ [a.2]))
  | none => put d a.1 (.one a.2)

/-- `Name.native` (x509.py:1090-1104): the value and the cache. `rdns` is `self.chosen.native`, which is read after the cache
was set to an empty dict. -/
def native {N : Type} (rdns : Py (List (List (Str × N)))) (cache : Option (List (Str × Entry N))) :
    Py (List (Str × Entry N)) × Option (List (Str × Entry N)) :=
  match cache with
  | some d => (.ok d, some d)
  | none =>
    match rdns with
    | .error e => (.error e, some [])
    | .ok l =>
      let d := l.flatten.foldl nativeStep []
      (.ok d, some d)

end Asn1.Names
