import Verif.Model.Time

/-! # The proleptic Gregorian calendar -/

namespace Asn1.Spec
open Asn1 Asn1.Time

/-- A leap year; year 0 is one. -/
def Leap (y : Nat) : Prop := 4 ∣ y ∧ (¬ 100 ∣ y ∨ 400 ∣ y)

instance (y : Nat) : Decidable (Leap y) := by unfold Leap; infer_instance

def yearLength (y : Nat) : Nat := if Leap y then 366 else 365

def monthLength (y m : Nat) : Nat :=
  if m = 2 then (if Leap y then 29 else 28) else if m ∈ [4, 6, 9, 11] then 30 else 31

def sumBelow (f : Nat → Nat) : Nat → Nat
  | 0 => 0
  | n + 1 => sumBelow f n + f n

/-- A day of the calendar. -/
def IsDate (y m d : Nat) : Prop := 1 ≤ m ∧ m ≤ 12 ∧ 1 ≤ d ∧ d ≤ monthLength y m

/-- Number of days from 0000-01-01. -/
def dayCount (y m d : Nat) : Nat := sumBelow yearLength y + sumBelow (fun k => monthLength y (k + 1)) (m - 1) + (d - 1)

/-- Microseconds from 0000-01-01 00:00, by the local clock. -/
def clock (y m d h mi s us : Nat) : Int := (((dayCount y m d * 24 + h) * 60 + mi) * 60 + s) * 1000000 + us

def DateTime.clock (y : Nat) (t : DateTime) : Int := Spec.clock y t.month t.day t.hour t.minute t.second t.micro

/-- The year of a time; an `extended_datetime` is in year 0. -/
def T.year : T → Nat
  | .dt t => t.year
  | .ext _ => 0

/-- Local time in microseconds. -/
def T.local (t : T) : Int := DateTime.clock (T.year t) t.fields

/-- The instant in microseconds UTC; for a naive time the local time. -/
def T.instant (t : T) : Int := T.local t - t.tz.getD 0

/-- A time as the classes can hold it: a day of the calendar and a time of day. -/
def T.Valid (t : T) : Prop :=
  (match t with
    | .dt t => 1 ≤ t.year ∧ t.year ≤ 9999
    | .ext y => y.year = 2000) ∧
  IsDate (T.year t) t.fields.month t.fields.day ∧ t.fields.hour ≤ 23 ∧ t.fields.minute ≤ 59 ∧ t.fields.second ≤ 59 ∧
    t.fields.micro ≤ 999999

/-! ### Texts of X.680: UTCTime, GeneralizedTime -/

/-- The number that decimal digits spell. -/
def decimal : Str → Nat
  | [] => 0
  | c :: r => (c.toNat - 48) * 10 ^ r.length + decimal r

/-- `s` consists of `w` digits that spell `n`. -/
def Digits (w : Nat) (s : Str) (n : Nat) : Prop := s.length = w ∧ (∀ c ∈ s, '0' ≤ c ∧ c ≤ '9') ∧ decimal s = n

/-- Two digits, or nothing. -/
def OptDigits (s : Str) : Option Nat → Prop
  | none => s = []
  | some n => Digits 2 s n

/-- One minute in microseconds. -/
def usMinute : Int := 60000000

/-- `Z`, or a sign, hours and minutes: the offset from UTC in microseconds. -/
inductive Zone : Str → Int → Prop
  | zulu : Zone ['Z'] 0
  | plus {a b : Str} {h m : Nat} : Digits 2 a h → Digits 2 b m → Zone ('+' :: (a ++ b)) ((h * 60 + m) * usMinute)
  | minus {a b : Str} {h m : Nat} : Digits 2 a h → Digits 2 b m → Zone ('-' :: (a ++ b)) (-((h * 60 + m) * usMinute))

/-- Zones of GeneralizedTime: also none at all, and an offset without minutes. -/
inductive GenZone : Str → Option Int → Prop
  | none : GenZone [] none
  | zone {s : Str} {off : Int} : Zone s off → GenZone s (some off)
  | plusHours {a : Str} {h : Nat} : Digits 2 a h → GenZone ('+' :: a) (some (h * 60 * usMinute))
  | minusHours {a : Str} {h : Nat} : Digits 2 a h → GenZone ('-' :: a) (some (-(h * 60 * usMinute)))

/-- A decimal fraction `n / 10 ^ k` after a point or a comma, or none. -/
inductive FractionText : Str → Nat → Nat → Prop
  | none : FractionText [] 0 0
  | some {c : Char} {a : Str} {k n : Nat} : c = '.' ∨ c = ',' → 0 < k → Digits k a n → FractionText (c :: a) n k

/-- `YYMMDDhhmm[ss]` and a zone; one line feed may follow. -/
def UtcText (s : Str) (yy mo d h mi : Nat) (se : Option Nat) (off : Int) : Prop :=
  ∃ a b c e f g z nl, s = a ++ b ++ c ++ e ++ f ++ g ++ z ++ nl ∧ Digits 2 a yy ∧ Digits 2 b mo ∧ Digits 2 c d ∧ Digits 2 e h ∧
    Digits 2 f mi ∧ OptDigits g se ∧ Zone z off ∧ (nl = [] ∨ nl = ['\n'])

/-- `YYYYMMDDhh[mm[ss]][.f]` and a zone; one line feed may follow. -/
def GenText (s : Str) (y mo d h : Nat) (mi se : Option Nat) (n k : Nat) (off : Option Int) : Prop :=
  ∃ a b c e f g fr z nl, s = a ++ b ++ c ++ e ++ f ++ g ++ fr ++ z ++ nl ∧ Digits 4 a y ∧ Digits 2 b mo ∧ Digits 2 c d ∧
    Digits 2 e h ∧ OptDigits f mi ∧ OptDigits g se ∧ (mi = none → se = none) ∧ FractionText fr n k ∧ GenZone z off ∧
    (nl = [] ∨ nl = ['\n'])

/-- The microseconds of what the fraction is a fraction of: the last unit that is given. -/
def fractionUnit (mi se : Option Nat) : Nat := if mi = none then 3600000000 else if se = none then 60000000 else 1000000

/-- `us` is an integer nearest to `n / 10 ^ k` units. -/
def Nearest (us n k unit : Nat) : Prop := 2 * (us * 10 ^ k) ≤ 2 * (n * unit) + 10 ^ k ∧ 2 * (n * unit) ≤ 2 * (us * 10 ^ k) + 10 ^ k

end Asn1.Spec
