import Verif.Model.Name


/-!
# The text of a name for people (`Name.human_friendly`)

Simplifications: the values of the attributes are an abstract type `V`, `read` stands for their `native`. A native value that is not text is known by the text
that `'%s' % value` makes of it.
-/

namespace Asn1.Names
open Asn1

/-- The dict in `NameType.human_friendly` (x509.py:614-649) -/
def humanMap : StrMap := [
  ("common_name".toList, "Common Name".toList),
  ("surname".toList, "Surname".toList),
  ("serial_number".toList, "Serial Number".toList),
  ("country_name".toList, "Country".toList),
  ("locality_name".toList, "Locality".toList),
  ("state_or_province_name".toList, "State/Province".toList),
  ("street_address".toList, "Street Address".toList),
  ("organization_name".toList, "Organization".toList),
  ("organizational_unit_name".toList, "Organizational Unit".toList),
  ("title".toList, "Title".toList),
  ("business_category".toList, "Business Category".toList),
  ("postal_code".toList, "Postal Code".toList),
  ("telephone_number".toList, "Telephone Number".toList),
  ("name".toList, "Name".toList),
  ("given_name".toList, "Given Name".toList),
  ("initials".toList, "Initials".toList),
  ("generation_qualifier".toList, "Generation Qualifier".toList),
  ("unique_identifier".toList, "Unique Identifier".toList),
  ("dn_qualifier".toList, "DN Qualifier".toList),
  ("pseudonym".toList, "Pseudonym".toList),
  ("email_address".toList, "Email Address".toList),
  ("incorporation_locality".toList, "Incorporation Locality".toList),
  ("incorporation_state_or_province".toList, "Incorporation State/Province".toList),
  ("incorporation_country".toList, "Incorporation Country".toList),
  ("domain_component".toList, "Domain Component".toList),
  ("name_distinguisher".toList, "Name Distinguisher".toList),
  ("organization_identifier".toList, "Organization Identifier".toList),
  ("tpm_manufacturer".toList, "TPM Manufacturer".toList),
  ("tpm_model".toList, "TPM Model".toList),
  ("tpm_version".toList, "TPM Version".toList),
  ("platform_manufacturer".toList, "Platform Manufacturer".toList),
  ("platform_model".toList, "Platform Model".toList),
  ("platform_version".toList, "Platform Version".toList),
  ("user_id".toList, "User ID".toList)]

/-- `NameType.human_friendly` (x509.py:607-649), of the native value of the type -/
def humanLabel (t : Str) : Str := (humanMap.get t).getD t

/-- A native value: text, or something else that `'%s' % value` (x509.py:1133) shows as this text. -/
inductive Shown where
  | text (s : Str)
  | other (s : Str)
  deriving DecidableEq

/-- `'%s' % value` -/
def Shown.str : Shown → Str
  | .text s => s
  | .other s => s

/-- What `data` holds for a label (x509.py:1121-1125): a value, or the list of what it held before and one more value. -/
inductive Group (V : Type) where
  | one (v : V)
  | pair (g : Group V) (v : V)

/-- One attribute of the loop (x509.py:1118-1125): `data` and `last_field` -/
def humanStep {V : Type} (d : List (Str × Group V) × Option Str) (a : Str × V) : List (Str × Group V) × Option Str :=
  let label := humanLabel a.1
  match look d.1 label with
  | some g => (put d.1 label (.pair g a.2), some label)
  | none => (put d.1 label (.one a.2), some label)

/-- `Name._recursive_humanize` (x509.py:1145-1160): `', '.join` raises TypeError for members that are not text. -/
def humanize {V : Type} (read : V → Py Shown) : Group V → Py Shown
  | .one v => read v
  | .pair g v => do
    let a ← humanize read g
    let b ← read v
    match a, b with
    | .text a, .text b => .ok (.text (pyJoin ", ".toList [b, a]))
    | _, _ => .error .typeError

/-- The loop over the keys (x509.py:1130-1133) -/
def humanEntries {V : Type} (read : V → Py Shown) : List (Str × Group V) → Py (List Str)
  | [] => .ok []
  | (k, g) :: d => do
    let s ← humanize read g
    let r ← humanEntries read d
    .ok ((k ++ ": ".toList ++ s.str) :: r)

/-- The search for a comma and the join (x509.py:1135-1142) -/
def humanJoin (l : List Str) : Str :=
  pyJoin (if l.any fun e => e.contains ',' then "; ".toList else ", ".toList) l.reverse

/-- What `Name.human_friendly` computes (x509.py:1114-1141). `rdns` are the types and values of the attributes, which can not be had if the name does not
decode. -/
def humanText {V : Type} (read : V → Py Shown) (rdns : Py (List (List (Str × V)))) : Py Str := do
  let l ← rdns
  let d := l.flatten.foldl humanStep ([], none)
  let keys := if d.2 = some "Country".toList then d.1.reverse else d.1
  let es ← humanEntries read keys
  .ok (humanJoin es)

/-- `Name.human_friendly` (x509.py:1106-1143): the text and the cache afterwards -/
def humanFriendly {V : Type} (read : V → Py Shown) (rdns : Py (List (List (Str × V)))) (cache : Option Str) : Py Str × Option Str :=
  match cache with
  | some s => (.ok s, cache)
  | none =>
    match humanText read rdns with
    | .ok s => (.ok s, some s)
    | .error e => (.error e, none)

end Asn1.Names
