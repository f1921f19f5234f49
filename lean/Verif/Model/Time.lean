import Verif.Model.PyStr

/-!
# Times: `UTCTime`, `GeneralizedTime` (core.py) and `extended_date`, `extended_datetime`, `create_timezone` (util.py)

Python's `datetime` module is transcribed from CPython's `datetime.py`. Time zones are fixed offsets (`datetime.timezone` and
`utc_with_dst`); other `tzinfo` classes and `fold` are not modelled. A `timedelta` is a number of microseconds; its own
range (999999999 days) is not modelled. Operands of a wrong type (a `TypeError`) are not modelled.
-/

namespace Asn1.Time
open Asn1

/-! ### `datetime` -/

/-- `datetime._is_leap` -/
def isLeap (y : Nat) : Bool := y % 4 = 0 && (y % 100 ≠ 0 || y % 400 = 0)

/-- `datetime._days_before_year` -/
def daysBeforeYear (y : Nat) : Nat := (y - 1) * 365 + (y - 1) / 4 - (y - 1) / 100 + (y - 1) / 400

/-- `datetime._DAYS_IN_MONTH` -/
def daysInMonthTable : List Nat := [0, 31, 28, 31, 30, 31, 30, 31, 31, 30, 31, 30, 31]

/-- `datetime._DAYS_BEFORE_MONTH` -/
def daysBeforeMonthTable : List Nat := [0, 0, 31, 59, 90, 120, 151, 181, 212, 243, 273, 304, 334]

/-- `datetime._days_in_month` -/
def daysInMonth (y m : Nat) : Nat := if m = 2 && isLeap y then 29 else daysInMonthTable.getD m 0

/-- `datetime._days_before_month` -/
def daysBeforeMonth (y m : Nat) : Nat := daysBeforeMonthTable.getD m 0 + (if m > 2 && isLeap y then 1 else 0)

/-- `datetime._ymd2ord` -/
def ymd2ord (y m d : Nat) : Nat := daysBeforeYear y + daysBeforeMonth y m + d

/-- The month and day of the `n`-th day (from 0) of a year, as at the end of `datetime._ord2ymd`. -/
def monthDay (leap : Bool) (n : Nat) : Nat × Nat :=
  let month := (n + 50) / 32
  let preceding := daysBeforeMonthTable.getD month 0 + (if month > 2 && leap then 1 else 0)
  if preceding > n then
    let month := month - 1
    let preceding := preceding - (daysInMonthTable.getD month 0 + (if month = 2 && leap then 1 else 0))
    (month, n - preceding + 1)
  else (month, n - preceding + 1)

/-- `datetime._ord2ymd` -/
def ord2ymd (n : Nat) : Nat × Nat × Nat :=
  let n := n - 1
  let n400 := n / 146097
  let n := n % 146097
  let n100 := n / 36524
  let n := n % 36524
  let n4 := n / 1461
  let n := n % 1461
  let n1 := n / 365
  let n := n % 365
  let year := n400 * 400 + 1 + n100 * 100 + n4 * 4 + n1
  if n1 = 4 ∨ n100 = 4 then (year - 1, 12, 31)
  else
    let md := monthDay (n1 = 3 && (n4 ≠ 24 || n100 = 3)) n
    (year, md.1, md.2)

/-- A `datetime.datetime`; `tz` is the offset of its `tzinfo` in microseconds. -/
structure DateTime where
  year : Nat
  month : Nat
  day : Nat
  hour : Nat
  minute : Nat
  second : Nat
  micro : Nat
  tz : Option Int
  deriving DecidableEq, Repr

/-- The checks of `datetime.__new__`. -/
def DateTime.Valid (t : DateTime) : Prop :=
  1 ≤ t.year ∧ t.year ≤ 9999 ∧ 1 ≤ t.month ∧ t.month ≤ 12 ∧ 1 ≤ t.day ∧ t.day ≤ daysInMonth t.year t.month ∧
    t.hour ≤ 23 ∧ t.minute ≤ 59 ∧ t.second ≤ 59 ∧ t.micro ≤ 999999

instance (t : DateTime) : Decidable t.Valid := by unfold DateTime.Valid; infer_instance

/-- `datetime(year, month, day, ...)` -/
def mkDateTime (t : DateTime) : Py DateTime := if t.Valid then .ok t else .error .valueError

def usDay : Int := 86400000000

/-- Microseconds since the day of ordinal 0, without the offset. -/
def DateTime.naive (t : DateTime) : Int :=
  (ymd2ord t.year t.month t.day : Int) * usDay + t.hour * 3600000000 + t.minute * 60000000 + t.second * 1000000 + t.micro

/-- The end of `datetime.__add__`: the datetime of so many microseconds, `OverflowError` outside of 0001-9999. -/
def ofNaive (us : Int) (tz : Option Int) : Py DateTime :=
  let days := us / usDay
  let rem := (us % usDay).toNat
  if 0 < days ∧ days ≤ 3652059 then
    let ymd := ord2ymd days.toNat
    .ok ⟨ymd.1, ymd.2.1, ymd.2.2, rem / 3600000000, rem / 60000000 % 60, rem / 1000000 % 60, rem % 1000000, tz⟩
  else .error .overflowError

/-- `datetime + timedelta` -/
def DateTime.add (t : DateTime) (delta : Int) : Py DateTime := ofNaive (t.naive + delta) t.tz

/-- `datetime - datetime`: `TypeError` if only one of them is aware. -/
def DateTime.sub (a b : DateTime) : Py Int :=
  match a.tz, b.tz with
  | none, none => .ok (a.naive - b.naive)
  | some x, some y => .ok (a.naive - b.naive + y - x)
  | _, _ => .error .typeError

/-- `datetime.astimezone(tz)` of an aware datetime. -/
def DateTime.astimezone (t : DateTime) (off tz : Int) : Py DateTime := do
  let utc ← ofNaive (t.naive - off) (some tz)
  ofNaive (utc.naive + tz) (some tz)

/-- Python `'%0wd' % n` -/
def pad (w n : Nat) : Str := List.replicate (w - (pyStrNat n).length) '0' ++ pyStrNat n

/-- `strftime` for the directives of this package, `%j` and `%y`; other characters are copied. The result of `%Y` for years
before 1000 depends on the platform: without leading zeros with glibc, with leading zeros elsewhere. -/
def strftime (glibc : Bool) (t : DateTime) : Str → Str
  | [] => []
  | '%' :: 'Y' :: r => (if glibc then pyStrNat t.year else pad 4 t.year) ++ strftime glibc t r
  | '%' :: 'y' :: r => pad 2 (t.year % 100) ++ strftime glibc t r
  | '%' :: 'm' :: r => pad 2 t.month ++ strftime glibc t r
  | '%' :: 'd' :: r => pad 2 t.day ++ strftime glibc t r
  | '%' :: 'H' :: r => pad 2 t.hour ++ strftime glibc t r
  | '%' :: 'M' :: r => pad 2 t.minute ++ strftime glibc t r
  | '%' :: 'S' :: r => pad 2 t.second ++ strftime glibc t r
  | '%' :: 'j' :: r => pad 3 (daysBeforeMonth t.year t.month + t.day) ++ strftime glibc t r
  | c :: r => c :: strftime glibc t r

/-! ### `util.py` -/

/-- `_format_offset` (util.py:262-271) for an offset in microseconds. -/
def formatOffset : Option Int → Str
  | none => []
  | some off =>
    let days := off / usDay
    let seconds := off % usDay / 1000000
    let mins := days * 24 * 60 + seconds / 60
    (if mins < 0 then '-' else '+') :: (pad 2 (mins.natAbs / 60) ++ [':'] ++ pad 2 (mins.natAbs % 60))

/-- A `datetime` or an `extended_datetime` with its `_y2k`. -/
inductive T where
  | dt (t : DateTime)
  | ext (y2k : DateTime)
  deriving DecidableEq, Repr

/-- `extended_datetime(year, ...)` (util.py:520-535) -/
def mkExt (year : Int) (t : DateTime) : Py T :=
  if year ≠ 0 then .error .valueError
  else do
    let y ← mkDateTime { t with year := 2000 }
    .ok (.ext y)

/-- `extended_datetime.from_y2k` (util.py:851-878) -/
def fromY2k (v : DateTime) : Py T :=
  let year : Int := (v.year : Int) - 2000
  if year > 0 then do
    let t ← mkDateTime { v with year := year.toNat }
    .ok (.dt t)
  else mkExt year v

def T.tz : T → Option Int
  | .dt t => t.tz
  | .ext t => t.tz

/-- `a + timedelta`: `datetime`'s, or `extended_datetime.__add__` (util.py:812-823). -/
def T.add : T → Int → Py T
  | .dt t, d => do
    let r ← t.add d
    .ok (.dt r)
  | .ext y, d => do
    let r ← y.add d
    fromY2k r

/-- `DAYS_IN_2000_YEARS` (util.py:517-518) -/
def daysIn2000Years : Int := 5 * (400 * 365 + 97)

/-- `extended_datetime.__sub__` with a time (util.py:825-846) -/
def extSub (y : DateTime) : T → Py Int
  | .ext o => y.sub o
  | .dt o => do
    let d ← y.sub o
    .ok (d - daysIn2000Years * usDay)

/-- `a - b` for two times: `datetime`'s, `extended_datetime.__sub__`, or `__rsub__` (util.py:848-849). -/
def T.sub : T → T → Py Int
  | .dt a, .dt b => a.sub b
  | .ext a, b => extSub a b
  | .dt a, .ext b => do
    let d ← extSub b (.dt a)
    .ok (-d)

/-- `extended_datetime.__cmp__` (util.py:775-798) -/
def extCmp (y : DateTime) (o : T) : Py Int :=
  if y.tz.isNone ≠ o.tz.isNone then .error .typeError
  else do
    let diff ← extSub y o
    if diff < 0 then .ok (-1) else if diff > 0 then .ok 1 else .ok 0

/-- `extended_datetime.__eq__` (util.py:723-742) -/
def extEq (y : DateTime) (o : T) : Py Bool :=
  if y.tz.isNone ≠ o.tz.isNone then .ok false
  else do
    let c ← extCmp y o
    .ok (c = 0)

/-- `extended_datetime.astimezone` (util.py:692-703), `datetime.astimezone`, of an aware time with offset `off`. -/
def T.astimezone (t : T) (off tz : Int) : Py T :=
  match t with
  | .dt t => do
    let r ← t.astimezone off tz
    .ok (.dt r)
  | .ext y => do
    let r ← y.astimezone off tz
    fromY2k r

/-- The loop of `extended_datetime.strftime`: where one text has `2` and the other `4`, write `0`. -/
def zipYears (a b : Str) : Str := List.zipWith (fun c2 c4 => if c2 = '2' ∧ c4 = '4' then '0' else c2) a b

/-- `extended_datetime.strftime` (util.py:633-648), `extended_date.strftime` (util.py:367-383) -/
def extStrftime (glibc : Bool) (y : DateTime) (f : Str) : Str :=
  zipYears (strftime glibc y f) (strftime glibc { y with year := 4000 } f)

/-- `extended_datetime.isoformat` (util.py:650-667) -/
def extIsoformat (y : DateTime) (sep : Char := 'T') : Str :=
  "0000-".toList ++ pad 2 y.month ++ ['-'] ++ pad 2 y.day ++ [sep] ++ pad 2 y.hour ++ [':'] ++ pad 2 y.minute ++ [':'] ++
    pad 2 y.second ++ (if y.micro ≠ 0 then '.' :: pad 6 y.micro else []) ++ formatOffset y.tz

/-- The arguments of `replace` other than the year; `tz` is `tzinfo`, which may be `None`. -/
structure Changes where
  month : Option Nat := none
  day : Option Nat := none
  hour : Option Nat := none
  minute : Option Nat := none
  second : Option Nat := none
  micro : Option Nat := none
  tz : Option (Option Int) := none

/-- `datetime.replace(year, …)` -/
def DateTime.replace (t : DateTime) (year : Nat) (c : Changes) : Py DateTime :=
  mkDateTime ⟨year, c.month.getD t.month, c.day.getD t.day, c.hour.getD t.hour, c.minute.getD t.minute, c.second.getD t.second,
    c.micro.getD t.micro, c.tz.getD t.tz⟩

/-- `extended_datetime.replace` (util.py:669-690). A year given as 0 is kept. -/
def extReplace (y : DateTime) (year : Option Nat) (c : Changes) : Py T :=
  match year with
  | some (n + 1) => do
    let t ← y.replace (n + 1) c
    .ok (.dt t)
  | _ => do
    let t ← y.replace 2000 c
    fromY2k t

/-- `extended_datetime.timestamp` (util.py:705-713) of a time with the offset `off`, in microseconds. Not modelled: the rounding of floats, and times
without offset, for which the timezone of the system is used. -/
def extTimestamp (y : DateTime) (off : Int) : Int :=
  y.naive - off - DateTime.naive ⟨1970, 1, 1, 0, 0, 0, 0, none⟩ - 5 * 146097 * usDay

/-- A `datetime.date` or an `extended_date` with its `_y2k`. -/
inductive D where
  | date (y m d : Nat)
  | ext (m d : Nat)
  deriving DecidableEq, Repr

/-- `date(y, m, d)`, `extended_date(year, month, day)` (util.py:323-338) -/
def mkDate (ext : Bool) (y m d : Nat) : Py D :=
  if ext then
    if y ≠ 0 then .error .valueError
    else if 1 ≤ m ∧ m ≤ 12 ∧ 1 ≤ d ∧ d ≤ daysInMonth 2000 m then .ok (.ext m d) else .error .valueError
  else if 1 ≤ y ∧ y ≤ 9999 ∧ 1 ≤ m ∧ m ≤ 12 ∧ 1 ≤ d ∧ d ≤ daysInMonth y m then .ok (.date y m d) else .error .valueError

/-- `extended_date.__cmp__` (util.py:469-491) -/
def dateCmp (m d : Nat) : D → Int
  | .date _ _ _ => -1
  | .ext m' d' =>
    if ymd2ord 2000 m d < ymd2ord 2000 m' d' then -1 else if ymd2ord 2000 m d > ymd2ord 2000 m' d' then 1 else 0

/-- `extended_date.__eq__` (util.py:431-445): false for a `date`. -/
def dateEq (m d : Nat) : D → Bool
  | .date _ _ _ => false
  | o => dateCmp m d o = 0

/-- `extended_date.replace` (util.py:396-421) -/
def dateReplace (m d : Nat) (year month day : Option Nat) : Py D :=
  let y := year.getD 0
  mkDate (¬ y > 0) y (month.getD m) (day.getD d)

/-! ### `create_timezone` -/

/-- The timezone objects made so far: object `i` has the offset `made[i]`; `cache` is `_timezone_cache` (util.py:291). -/
structure TzState where
  cache : List (Int × Nat)
  made : List Int

/-- `datetime.timezone(offset)`: `ValueError` unless the offset is strictly between -24 and 24 hours. -/
def mkTimezone (s : TzState) (off : Int) : Py (Nat × TzState) :=
  if -usDay < off ∧ off < usDay then .ok (s.made.length, { s with made := s.made ++ [off] }) else .error .valueError

/-- `create_timezone` (util.py:294-310) -/
def createTimezone (s : TzState) (off : Int) : Py (Nat × TzState) :=
  match s.cache.lookup off with
  | some i => .ok (i, s)
  | none => do
    let (i, s) ← mkTimezone s off
    .ok (i, { s with cache := s.cache ++ [(off, i)] })

/-! ### `AbstractTime` -/

/-- The groups of a matched time string. -/
structure Groups where
  year : Str
  month : Str
  day : Str
  hour : Str
  minute : Option Str
  second : Option Str
  fraction : Option Str
  zulu : Bool
  sign : Option Char
  dhour : Str
  dminute : Option Str

/-- `\\d` for the characters of Latin-1. -/
def isDig (c : Char) : Bool := '0' ≤ c && c ≤ '9'

/-- `int` of a text of digits. -/
def num (s : Str) : Nat := s.foldl (fun a c => a * 10 + (c.toNat - 48)) 0

/-- The end of both patterns: `Z` or an offset; `mins` says whether the minutes of the offset may be missing, `noTz` whether the zone
may be missing. -/
def tzGroups (noTz mins : Bool) (s : Str) : Option (Bool × Option Char × Str × Option Str) :=
  match s with
  | [] => if noTz then some (false, none, [], none) else none
  | 'Z' :: r => if r = [] then some (true, none, [], none) else none
  | c :: r =>
    if (c = '+' ∨ c = '-') ∧ r.all isDig then
      if r.length = 4 then some (false, some c, r.take 2, some (r.drop 2))
      else if mins ∧ r.length = 2 then some (false, some c, r, none)
      else none
    else none

/-- The optional fraction of `GeneralizedTime`: the digits and the rest. -/
def fractionGroup (s : Str) : Option (Option Str × Str) :=
  match s with
  | c :: r =>
    if c = '.' ∨ c = ',' then
      if r.takeWhile isDig = [] then none else some (some (r.takeWhile isDig), r.dropWhile isDig)
    else some (none, s)
  | [] => some (none, [])

/-- `UTCTime._TIMESTRING_RE` (core.py:5001-5027) without the `$`. -/
def utcMatch (s : Str) : Option Groups :=
  let ds := s.takeWhile isDig
  let r := s.dropWhile isDig
  if ds.length = 10 ∨ ds.length = 12 then
    match tzGroups false false r with
    | none => none
    | some (z, sg, dh, dm) =>
      some ⟨slice ds 0 2, slice ds 2 4, slice ds 4 6, slice ds 6 8, some (slice ds 8 10),
        if ds.length = 12 then some (slice ds 10 12) else none, some [], z, sg, dh, dm⟩
  else none

/-- `GeneralizedTime._TIMESTRING_RE` (core.py:5088-5123) without the `$`. -/
def genMatch (s : Str) : Option Groups :=
  let ds := s.takeWhile isDig
  let r := s.dropWhile isDig
  if ds.length = 10 ∨ ds.length = 12 ∨ ds.length = 14 then
    match fractionGroup r with
    | none => none
    | some (fr, r) =>
      match tzGroups true true r with
      | none => none
      | some (z, sg, dh, dm) =>
        some ⟨slice ds 0 4, slice ds 4 6, slice ds 6 8, slice ds 8 10,
          if 12 ≤ ds.length then some (slice ds 10 12) else none,
          if ds.length = 14 then some (slice ds 12 14) else none, fr, z, sg, dh, dm⟩
  else none

/-- `$` matches at the end and before a final line feed. -/
def atEnd (m : Str → Option Groups) (s : Str) : Option Groups :=
  match m s with
  | some g => some g
  | none => if s.getLast? = some '\n' then m s.dropLast else none

/-- `Fraction(n, d).limit_denominator(1)`: the nearest integer, the smaller one of two. -/
def nearest (n d : Nat) : Nat := (2 * n + d - 1) / (2 * d)

/-- The fraction in microseconds (core.py:4936-4951). -/
def fractionUs (g : Groups) : Nat :=
  match g.fraction with
  | none => 0
  | some [] => 0
  | some f =>
    let unit := if g.minute = none then 3600 else if g.second = none then 60 else 1
    nearest (num f * 1000000 * unit) (10 ^ f.length)

/-- The time zone (core.py:4926-4934). -/
def groupsTz (g : Groups) : Py (Option Int) :=
  if g.zulu then .ok (some 0)
  else
    match g.sign with
    | none => .ok none
    | some sg =>
      let off : Int := (if sg = '+' then 1 else -1) * (num g.dhour * 3600000000 + num (g.dminute.getD ['0']) * 60000000)
      if -usDay < off ∧ off < usDay then .ok (some off) else .error .valueError

/-- `AbstractTime._parsed_time` (core.py:4900-4962): the fields and the fraction. -/
def parsedTime (m : Str → Option Groups) (s : Str) : Py (DateTime × Nat) :=
  match atEnd m s with
  | none => .error .valueError
  | some g => do
    let tz ← groupsTz g
    .ok (⟨num g.year, num g.month, num g.day, num g.hour, num (g.minute.getD ['0']), num (g.second.getD ['0']), 0, tz⟩, fractionUs g)

/-- `UTCTime._get_datetime` (core.py:5059-5076) -/
def utcDatetime (p : DateTime) : Py T := do
  let t ← mkDateTime { p with year := if p.year < 50 then p.year + 2000 else p.year + 1900 }
  .ok (.dt t)

/-- `GeneralizedTime._get_datetime` (core.py:5158-5171) -/
def genDatetime (p : DateTime) : Py T :=
  if p.year = 0 then mkExt 0 p
  else do
    let t ← mkDateTime p
    .ok (.dt t)

/-- `AbstractTime.native` (core.py:4964-4990) of the text of a value. -/
def timeNative (m : Str → Option Groups) (get : DateTime → Py T) (s : Str) : Py T := do
  let (p, us) ← parsedTime m s
  let v ← get p
  if us ≠ 0 then v.add us else .ok v

def utcNative : Str → Py T := timeNative utcMatch utcDatetime
def genNative : Str → Py T := timeNative genMatch genDatetime

/-- `UTCTime.set` with a `datetime` (core.py:5029-5057): the text. -/
def utcSet (glibc : Bool) (t : DateTime) : Py Str :=
  match t.tz with
  | none => .error .valueError
  | some off => do
    let v ← t.astimezone off 0
    if ¬ (1950 ≤ v.year ∧ v.year ≤ 2049) then .error .valueError
    else .ok (strftime glibc v "%y%m%d%H%M%SZ".toList)

/-- Python `s.rstrip('0')` -/
def rstrip0 (s : Str) : Str := (s.reverse.dropWhile (· = '0')).reverse

def T.fields : T → DateTime
  | .dt t => t
  | .ext y => y

/-- The `strftime` of a `datetime` or an `extended_datetime`. -/
def T.strftime (glibc : Bool) : T → Str → Str
  | .dt t, f => Time.strftime glibc t f
  | .ext y, f => extStrftime glibc y f

/-- The fraction that `GeneralizedTime.set` writes (core.py:5144-5147). -/
def genFraction (us : Nat) : Str := if us ≠ 0 then '.' :: rstrip0 (pad 6 us) else []

/-- `GeneralizedTime.set` with a `datetime` or an `extended_datetime` (core.py:5125-5156): the text. -/
def genSet (glibc : Bool) (t : T) : Py Str :=
  match t.tz with
  | none => .error .valueError
  | some off => do
    let v ← t.astimezone off 0
    .ok (v.strftime glibc "%Y%m%d%H%M%S".toList ++ genFraction v.fields.micro ++ ['Z'])

end Asn1.Time
