import Verif.Model.Name
import Mathlib.Data.List.Forall2

/-!
# Distinguished names: what comparison, `build` and `native` should do
-/

namespace Asn1.Names.Spec
open Asn1 Asn1.Names

/-- The attributes of an RDN are text (or byte strings), and `q` are their types and prepared texts. -/
def PreparedRdn (T : Tables) (r : List Attr) (q : List (Str × Str)) : Prop :=
  List.Forall₂ (fun a p => p.1 = a.type ∧ prepped T a.value = .ok (.str p.2)) r q

/-- The same for a name. -/
def Prepared (T : Tables) (n : List (List Attr)) (q : List (List (Str × Str))) : Prop := List.Forall₂ (PreparedRdn T) n q

/-- Two names agree: RDN by RDN, up to the order of the attributes in an RDN. -/
def SameName {α : Type} (p q : List (List (Str × α))) : Prop := List.Forall₂ List.Perm p q

/-- A text of printable ASCII characters and spaces. -/
def Printable (s : Str) : Prop := ∀ c ∈ s, 32 ≤ c.toNat ∧ c.toNat ≤ 126

/-- The words of a text in lower case. -/
def words (s : Str) : List Str := (pySplit ' ' (s.map Char.toLower)).filter fun w => w ≠ []

/-- All attributes are printable texts. -/
def PrintableName (n : List (List Attr)) : Prop := ∀ r ∈ n, ∀ x ∈ r, ∃ s, x.value = .str s ∧ Printable s

/-- The types and the words of the texts of a name. -/
def wordsOf (n : List (List Attr)) : List (List (Str × List Str)) :=
  n.map fun r => r.map fun x => (x.type, match x.value with | .str s => words s | _ => [])

/-- No type occurs twice in an RDN. -/
def DistinctAttrs (n : List (List Attr)) : Prop := ∀ r ∈ n, (r.map Attr.type).Nodup

/-- The facts on ASCII text that the Unicode tables have: lower case mapping, normal forms, nothing prohibited, no
right-to-left characters. -/
structure AsciiTables (T : Tables) : Prop where
  b2 : ∀ c : Char, c.toNat < 128 → T.b2 c = [c.toLower]
  nfkc : ∀ s : Str, (∀ c ∈ s, c.toNat < 128) → T.nfkc s = s
  a1 : ∀ c : Char, c.toNat < 128 → T.a1 c = false
  c3 : ∀ c : Char, c.toNat < 128 → T.c3 c = false
  c4 : ∀ c : Char, c.toNat < 128 → T.c4 c = false
  c5 : ∀ c : Char, c.toNat < 128 → T.c5 c = false
  c8 : ∀ c : Char, c.toNat < 128 → T.c8 c = false
  d1 : ∀ c : Char, c.toNat < 128 → T.d1 c = false

/-- The two separators. -/
def Separator (c : Char) : Prop := c.toNat = 0x1e ∨ c.toNat = 0x1f

/-- The Unicode tables do not produce the separators. -/
structure CleanTables (T : Tables) : Prop where
  b2 : ∀ c : Char, ¬ Separator c → ∀ d ∈ T.b2 c, ¬ Separator d
  nfkc : ∀ s : Str, (∀ c ∈ s, ¬ Separator c) → ∀ c ∈ T.nfkc s, ¬ Separator c

/-- A type as the library has them: a name or a dotted text, without colons and separators. -/
def TypeName (t : Str) : Prop := ∀ c ∈ t, c ≠ ':' ∧ ¬ Separator c

/-- The values of the attributes of a type, in order. -/
def valuesOf {α : Type} (t : Str) (l : List (Str × α)) : List α := (l.filter fun e => e.1 = t).map Prod.snd

/-- `a` comes before `b` in the preferred order: listed attributes in the order of the list, then all others by name. -/
def Before (a b : Str) : Prop :=
  match preferredOrder.idxOf? a, preferredOrder.idxOf? b with
  | some i, some j => i ≤ j
  | some _, none => True
  | none, some _ => False
  | none, none => strLe a b = true

/-- The native form of the values of one type. -/
def entryOf {N : Type} : List N → Option (Entry N)
  | [] => none
  | [x] => some (.one x)
  | l => some (.many l)

/-- The string type in which a text is written as value of an attribute, and whether it is one of the alternatives of DirectoryString (RFC 5280 appendix A.1,
RFC 4519, TCG EK profile): countryName, serialNumber and dnQualifier are PrintableString, the other DirectoryStrings have the form asked for. -/
def stringType (printable : Bool) (t : Str) : Bool × ValueClass :=
  if t = "country_name".toList ∨ t = "serial_number".toList ∨ t = "dn_qualifier".toList then (true, .printableString)
  else if t = "telephone_number".toList then (false, .printableString)
  else if t = "email_address".toList then (false, .emailAddress)
  else if t = "domain_component".toList then (false, .dnsName)
  else if t = "unique_identifier".toList then (false, .octetBitString)
  else if "tpm_".toList <+: t ∨ "platform_".toList <+: t then (false, .utf8String)
  else (true, if printable then .printableString else .utf8String)

end Asn1.Names.Spec
