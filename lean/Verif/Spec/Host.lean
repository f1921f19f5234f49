import Verif.Model.PyStr

/-! # Host name matching (RFC 6125, section 6.4) -/

namespace Asn1.Spec
open Asn1

/-- `s` consists of these labels, separated by dots. -/
def Labels (s : Str) (ls : List Str) : Prop := ls ≠ [] ∧ (∀ l ∈ ls, '.' ∉ l) ∧ s = pyJoin ['.'] ls

/-- `w` is a text with exactly one `*`, and `l` is `w` with some text in place of the `*`. -/
def Star (w l : Str) : Prop := ∃ pre mid post, w = pre ++ '*' :: post ∧ '*' ∉ pre ++ post ∧ l = pre ++ mid ++ post

/-- The name covers the host, both in lower case: the same labels, or a wildcard in the left-most label only, which is not
a part of an A-label, and the same other labels. -/
def Covers (name host : Str) : Prop :=
  ∃ ns hs, Labels name ns ∧ Labels host hs ∧
    (ns = hs ∨ ∃ w l rest, ns = w :: rest ∧ hs = l :: rest ∧ Star w l ∧ ¬ ['x', 'n', '-', '-'] <+: w ∧ ∀ r ∈ rest, '*' ∉ r)

/-- None of the characters that have a meaning in regular expressions, except `*` and `.`. -/
def NoMeta (s : Str) : Prop := ∀ c ∈ s, c ∉ ['\\', '^', '$', '+', '?', '{', '}', '[', ']', '|', '(', ')']

/-- Letters and digits of ASCII. -/
def Letter (c : Char) : Prop := 65 ≤ c.toNat ∧ c.toNat ≤ 90 ∨ 97 ≤ c.toNat ∧ c.toNat ≤ 122
def Digit (c : Char) : Prop := 48 ≤ c.toNat ∧ c.toNat ≤ 57

/-- A label of a host name: letters, digits and hyphens, with no hyphen at either end. -/
def HostLabel (l : Str) : Prop :=
  l ≠ [] ∧ (∀ c ∈ l, Letter c ∨ Digit c ∨ c = '-') ∧ l.head? ≠ some '-' ∧ l.getLast? ≠ some '-'

/-- A host name with at least two labels, the last one of two or more letters. -/
def HostName (s : Str) : Prop :=
  ∃ ls top, ls ≠ [] ∧ Labels s (ls ++ [top]) ∧ (∀ l ∈ ls, HostLabel l) ∧ 2 ≤ top.length ∧ ∀ c ∈ top, Letter c

/-- A text that looks like a host name: one, perhaps with `*.` before it. A line feed after it is not noticed. -/
def HostLike (s : Str) : Prop :=
  ∃ h, HostName h ∧ ∃ star ∈ [[], ['*', '.']], ∃ feed ∈ [[], ['\n']], s = star ++ h ++ feed

/-- Four numbers separated by dots. -/
def DottedQuad (s : Str) : Prop := ∃ ls, Labels s ls ∧ ls.length = 4 ∧ ∀ l ∈ ls, l ≠ [] ∧ ∀ c ∈ l, Digit c

/-- The host is taken for an IP address. -/
def IpHost (h : Str) : Prop := ':' ∈ h ∨ DottedQuad h

/-- The labels have a length that the domain name system allows. -/
def Short (s : Str) : Prop :=
  ∃ ls top, Labels s (ls ++ [top]) ∧ (∀ l ∈ ls, 1 ≤ l.length ∧ l.length ≤ 63) ∧ top.length ≤ 63

end Asn1.Spec
