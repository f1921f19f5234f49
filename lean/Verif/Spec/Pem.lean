import Verif.Model.Pem

/-! # PEM text -/

namespace Asn1.Spec
open Asn1 Asn1.Pem

/-- The ASCII bytes of a text. -/
def ascii (s : Str) : Bytes := s.map fun c => UInt8.ofNat c.toNat

/-- An object type: capital letters, digits and spaces, at least one of them. -/
def ObjectType (s : Str) : Prop :=
  s ≠ [] ∧ ∀ c ∈ s, ('A' ≤ c ∧ c ≤ 'Z') ∨ ('0' ≤ c ∧ c ≤ '9') ∨ c = ' '

/-- ASCII white space. -/
def White (c : Char) : Prop := c = ' ' ∨ (9 ≤ c.toNat ∧ c.toNat ≤ 13) ∨ (28 ≤ c.toNat ∧ c.toNat ≤ 31)

/-- A header: ASCII without line breaks; no colon in the name; the value does not begin or end with white space. -/
structure HeaderOk (h : Str × Str) : Prop where
  ascii : ∀ c ∈ h.1 ++ h.2, c.toNat < 128 ∧ c ≠ '\n' ∧ c ≠ '\r'
  colon : ':' ∉ h.1
  first : ∀ c, h.2.head? = some c → ¬ White c
  last : ∀ c, h.2.getLast? = some c → ¬ White c

/-- A PEM block: the BEGIN line, the header lines and an empty line if there are headers, the lines of the body, the END
line. -/
def PemText (name : Str) (headers : List (Str × Str)) (body : List Bytes) (pem : Bytes) : Prop :=
  pem = lit "-----BEGIN " ++ ascii name ++ lit "-----\n" ++
    (headers.flatMap fun h => ascii h.1 ++ lit ": " ++ ascii h.2 ++ lit "\n") ++ (if headers = [] then [] else lit "\n") ++
    (body.flatMap fun l => l ++ lit "\n") ++ lit "-----END " ++ ascii name ++ lit "-----\n"

/-- What is in a dict after these entries were put into it one after the other: each name where it came first, with the value that came last. -/
def LastValues (hs ds : List (Str × Str)) : Prop :=
  ds.map Prod.fst = (hs.map Prod.fst).eraseDups ∧ ∀ d ∈ ds, ∃ pre post, hs = pre ++ d :: post ∧ ∀ e ∈ post, e.1 ≠ d.1

/-- A line that opens a block. -/
def BeginLike (l : Bytes) : Prop := lit "-----BEGIN " <+: l ∨ lit "---- BEGIN " <+: l

/-- A line that closes a block. -/
def EndLike (l : Bytes) : Prop := lit "-----" <+: l ∨ lit "---- " <+: l

end Asn1.Spec
