import Verif.Model.Py

/-! # Percent-encoding (RFC 3986 section 2, RFC 3987) -/

namespace Asn1.Spec.Iri
open Asn1

/-- A hexadecimal digit. -/
def isHex (c : Char) : Prop := c ∈ "0123456789abcdefABCDEF".toList

/-- The value of a hexadecimal digit. -/
def hexNum (c : Char) : Nat := if c.isDigit then c.toNat - 48 else if c.isLower then c.toNat - 87 else c.toNat - 55

/-- The text has no `%` followed by two hexadecimal digits. -/
def NoEscape (s : List Char) : Prop := ¬ ∃ pre a b post, s = pre ++ '%' :: a :: b :: post ∧ isHex a ∧ isHex b

/-- The UTF-8 bytes of a text. -/
def utf8Bytes (s : List Char) : Bytes := s.flatMap String.utf8EncodeChar

/-- Letters, digits, `-`, `.`, `_` and `~` (RFC 3986 section 2.3). -/
def unreserved (c : Char) : Prop := c.isAlphanum = true ∨ c ∈ ['-', '.', '_', '~']

/-- The ASCII byte of a character. -/
def asc (c : Char) : UInt8 := UInt8.ofNat c.toNat

/-- URI text in which only unreserved characters and those of `safe` stand for themselves and everything else is written
as escapes, and the bytes that this text stands for. A byte is marked if it is a character of `safe` that stands for
itself: such a character can be a delimiter, which its escape never is (RFC 3986 section 2.2). -/
inductive Denotes (safe : List Char) : Bytes → List (UInt8 × Bool) → Prop
  | nil : Denotes safe [] []
  | plain {c t d} : unreserved c ∨ c ∈ safe → Denotes safe t d →
      Denotes safe (asc c :: t) ((asc c, decide (c ∈ safe)) :: d)
  | esc {a b t d} : isHex a → isHex b → Denotes safe t d →
      Denotes safe (asc '%' :: asc a :: asc b :: t) ((UInt8.ofNat (16 * hexNum a + hexNum b), false) :: d)

/-- A part of a text: a character other than `%`, or an escape. -/
inductive Piece where
  | char (c : Char)
  | esc (a b : Char)

def Piece.text : Piece → List Char
  | .char c => [c]
  | .esc a b => ['%', a, b]

/-- The bytes a part of a text stands for. -/
def Piece.bytes : Piece → Bytes
  | .char c => String.utf8EncodeChar c
  | .esc a b => [UInt8.ofNat (16 * hexNum a + hexNum b)]

/-- The bytes a part of a text stands for, marked as above. -/
def Piece.marked (safe : List Char) : Piece → List (UInt8 × Bool)
  | .char c => (String.utf8EncodeChar c).map fun b => (b, decide (c ∈ safe))
  | .esc a b => [(UInt8.ofNat (16 * hexNum a + hexNum b), false)]

def Piece.WF : Piece → Prop
  | .char c => c ≠ '%'
  | .esc a b => isHex a ∧ isHex b

/-- A text in which every `%` begins an escape. -/
def Escaped (s : List Char) (ps : List Piece) : Prop := s = ps.flatMap Piece.text ∧ ∀ p ∈ ps, p.WF

end Asn1.Spec.Iri
