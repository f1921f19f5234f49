import Verif.Model.PyStr
import Verif.Spec.Iri

/-!
# The parts of an IRI or URI (RFC 3986 section 3)

For those with a host.
-/

namespace Asn1.Url.Spec
open Asn1 Asn1.Spec.Iri

/-- The parts. There is no password without user name; an empty path, query or fragment is one that is not there. -/
structure Parts where
  scheme : Str
  user : Option (Str × Option Str)
  host : Str
  port : Option Nat
  path : Str
  query : Str
  fragment : Str

/-- User name and password with their delimiters. -/
def userText : Option (Str × Option Str) → Str
  | none => []
  | some (u, none) => u ++ ['@']
  | some (u, some w) => u ++ ':' :: w ++ ['@']

/-- The port with its delimiter. -/
def portText : Option Nat → Str
  | none => []
  | some n => ':' :: pyStrNat n

/-- A part with its delimiter. -/
def optText (d : Char) (s : Str) : Str := if s = [] then [] else d :: s

/-- Between `//` and the path. -/
def Parts.authority (p : Parts) : Str := userText p.user ++ p.host ++ portText p.port

/-- The text (RFC 3986 section 5.3). -/
def Parts.text (p : Parts) : Str :=
  p.scheme ++ ':' :: '/' :: '/' :: p.authority ++ p.path ++ optText '?' p.query ++ optText '#' p.fragment

/-- No tabs and line breaks, and none of these characters. -/
def Free (ds : List Char) (s : Str) : Prop := ∀ c ∈ s, c ∉ ds ∧ c ≠ '\t' ∧ c ≠ '\r' ∧ c ≠ '\n'

/-- The delimiters in and around the authority. -/
def delims : List Char := [':', '@', '/', '?', '#', '[', ']']

/-- The text can be taken apart at the delimiters. The scheme is in lower case and has no `+`. -/
structure Parts.Valid (p : Parts) : Prop where
  scheme : ∃ a r, p.scheme = a :: r ∧ a.isLower = true ∧ ∀ c ∈ r, c.isLower = true ∨ c.isDigit = true ∨ c = '-' ∨ c = '.'
  user : ∀ u w, p.user = some (u, w) → u ≠ [] ∧ Free delims u ∧ ∀ v, w = some v → v ≠ [] ∧ Free delims v
  host : p.host ≠ [] ∧ Free ('%' :: delims) p.host
  port : ∀ n, p.port = some n → n ≤ 65535
  path : Free ['?', '#'] p.path ∧ (p.path = [] ∨ ∃ r, p.path = '/' :: r)
  query : Free ['#'] p.query
  fragment : Free [] p.fragment

/-- A component with these bytes, of which the marked ones are delimiters: one without escapes, or one in which every `%` begins an escape, and none
is the escape of `NUL` or `%`. -/
inductive Means (safe : Str) : Str → List (UInt8 × Bool) → Prop
  | none : Means safe [] []
  | plain {s : Str} : NoEscape s → Means safe s ((s.map Piece.char).flatMap (Piece.marked safe))
  | escaped {s : Str} {ps : List Piece} : Escaped s ps → (0 : UInt8) ∉ ps.flatMap Piece.bytes →
      (∀ a b, .esc a b ∈ ps → 16 * hexNum a + hexNum b ≠ 37) → Means safe s (ps.flatMap (Piece.marked safe))

/-- The component `s` of an IRI and the component `t` of a URI have the same bytes and the same delimiters. -/
def SameMeaning (safe s t : Str) : Prop := ∃ d, Means safe s d ∧ Denotes safe (t.map asc) d

/-- The same for user name and password. -/
inductive SameUser (safe : Str) : Option (Str × Option Str) → Option (Str × Option Str) → Prop
  | none : SameUser safe none none
  | name {u u' : Str} : SameMeaning safe u u' → SameUser safe (some (u, none)) (some (u', none))
  | both {u u' w w' : Str} : SameMeaning safe u u' → SameMeaning safe w w' → SameUser safe (some (u, some w)) (some (u', some w'))

/-- Without the standard port of the scheme, and without a path `/` at the end. -/
def Parts.normal (p : Parts) : Parts :=
  { p with
    port := if p.scheme = "http".toList ∧ p.port = some 80 ∨ p.scheme = "https".toList ∧ p.port = some 443 then none else p.port
    path := if p.path = ['/'] ∧ p.query = [] ∧ p.fragment = [] then [] else p.path }

/-- The parts of an IRI or URI without host, for example `mailto:` or `urn:`. -/
structure Opaque where
  scheme : Str
  path : Str
  query : Str
  fragment : Str

/-- The text. -/
def Opaque.text (p : Opaque) : Str := p.scheme ++ ':' :: p.path ++ optText '?' p.query ++ optText '#' p.fragment

/-- The text can be taken apart at the delimiters, as above. -/
structure Opaque.Valid (p : Opaque) : Prop where
  scheme : ∃ a r, p.scheme = a :: r ∧ a.isLower = true ∧ ∀ c ∈ r, c.isLower = true ∨ c.isDigit = true ∨ c = '-' ∨ c = '.'
  path : Free ['?', '#'] p.path ∧ p.path.take 2 ≠ ['/', '/']
  query : Free ['#'] p.query
  fragment : Free [] p.fragment

end Asn1.Url.Spec
