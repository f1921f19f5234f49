import Verif.Model.Name

/-!
# Preparation of text for comparison (RFC 4518 section 2)
-/

namespace Asn1.Names.Spec
open Asn1 Asn1.Names

/-- A code point in one of the ranges. -/
def inRanges (l : List (Nat × Nat)) (c : Char) : Bool := l.any fun e => e.1 ≤ c.toNat && c.toNat ≤ e.2

/-- RFC 4518 section 2.2, code points that are mapped to nothing: soft hyphens, the grapheme joiner, variation selectors, the object replacement
character, other control codes and the zero width space. -/
def nothing : List (Nat × Nat) := [
  (0xad, 0xad), (0x1806, 0x1806), (0x34f, 0x34f), (0x180b, 0x180d), (0xfe00, 0xfe0f), (0xfffc, 0xfffc),
  (0x0, 0x8), (0xe, 0x1f), (0x7f, 0x84), (0x86, 0x9f), (0x6dd, 0x6dd), (0x70f, 0x70f), (0x180e, 0x180e), (0x200c, 0x200f), (0x202a, 0x202e),
  (0x2060, 0x2063), (0x206a, 0x206f), (0xfeff, 0xfeff), (0xfff9, 0xfffb), (0x1d173, 0x1d17a), (0xe0001, 0xe0001), (0xe0020, 0xe007f),
  (0x200b, 0x200b)]

/-- RFC 4518 section 2.2, code points that are mapped to a space: tabulator, line ends and separators. -/
def blank : List (Nat × Nat) := [
  (0x9, 0xd), (0x85, 0x85), (0x20, 0x20), (0xa0, 0xa0), (0x1680, 0x1680), (0x2000, 0x200a), (0x2028, 0x2029), (0x202f, 0x202f), (0x205f, 0x205f),
  (0x3000, 0x3000)]

/-- What is left of a character. -/
def mapped (c : Char) : Option Char := if inRanges nothing c then none else if inRanges blank c then some ' ' else some c

/-- The text after mapping, case folding (table B.2 of RFC 3454) and normalisation to form KC. -/
def normal (T : Tables) (s : Str) : Str := T.nfkc ((s.filterMap mapped).flatMap T.b2)

/-- RFC 4518 section 2.4: unassigned code points (table A.1 of RFC 3454), characters that change display properties or are deprecated (C.8), private
use (C.3), non-characters (C.4), surrogates (C.5) and the replacement character. -/
def Prohibited (T : Tables) (c : Char) : Prop :=
  T.a1 c = true ∨ T.c8 c = true ∨ T.c3 c = true ∨ T.c4 c = true ∨ T.c5 c = true ∨ c = '�'

/-- RFC 3454 section 6: a text with a right-to-left character (table D.1) has no left-to-right character (table D.2), and begins and ends with a
right-to-left character. -/
def OneWay (T : Tables) (t : Str) : Prop :=
  (∃ c ∈ t, T.d1 c = true) → (∀ c ∈ t, T.d2 c = true → T.d1 c = true) ∧ (∃ c, t.head? = some c ∧ T.d1 c = true) ∧
    ∃ c, t.getLast? = some c ∧ T.d1 c = true

/-- The tables produce no white space other than spaces from text without other white space. -/
structure SpaceTables (T : Tables) : Prop where
  b2 : ∀ c : Char, (pyIsSpace c = true → c = ' ') → ∀ d ∈ T.b2 c, pyIsSpace d = true → d = ' '
  nfkc : ∀ s : Str, (∀ c ∈ s, pyIsSpace c = true → c = ' ') → ∀ c ∈ T.nfkc s, pyIsSpace c = true → c = ' '

/-- RFC 4518 section 2.6.1: one space at both ends and two between words; two spaces if there are no words. -/
def spread (t : Str) : Str := [' '] ++ pyJoin [' ', ' '] ((pySplit ' ' t).filter fun w => w ≠ []) ++ [' ']

/-- The text has no character of the range that RFC 4518 writes as FF00-FE0F and means as FE00-FE0F. -/
def OutOfRange (s : Str) : Prop := ∀ c ∈ s, ¬ (0xfe00 ≤ c.toNat ∧ c.toNat ≤ 0xff00) ∨ c.toNat = 0xfeff ∨ c.toNat = 0xfe0f

/-- Bytes that code page 1252 does not define. -/
def undefined1252 : List Nat := [0x81, 0x8d, 0x8f, 0x90, 0x9d]

end Asn1.Names.Spec
