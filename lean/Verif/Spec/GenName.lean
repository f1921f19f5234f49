import Verif.Model.PyStr

/-!
# Which e-mail addresses and DNS names are the same (RFC 5280, 7.2 and 7.5)

For text in ASCII. The internationalised form of host names is not specified here.
-/

namespace Asn1.GenName.Spec
open Asn1

/-- The same but for upper and lower case. -/
def SameLetters (s t : Str) : Prop := s.map Char.toLower = t.map Char.toLower

/-- The text of a host name: labels of up to 63 ASCII characters with dots between, of which only the last may be empty. Labels that
begin with `xn--` are not text but its internationalised form. -/
structure Host (s : Str) : Prop where
  ascii : ∀ c ∈ s, c.toNat < 128
  labels : ∀ l ∈ (pySplit '.' s).dropLast, 0 < l.length ∧ l.length < 64
  last : ∀ l ∈ (pySplit '.' s).getLast?, l.length < 64
  plain : ¬ "xn--".toList <:+: s

/-- The text of a DNS name; in name constraints it may begin with a dot. -/
def DnsText (s : Str) : Prop := (Host s ∧ s.head? ≠ some '.') ∨ ∃ h, s = '.' :: h ∧ Host h

/-- The text of an e-mail address, or of a mailbox name without host. -/
def MailText (s : Str) : Prop :=
  (∃ m h, s = m ++ '@' :: h ∧ '@' ∉ h ∧ (∀ c ∈ m, c.toNat < 128) ∧ Host h) ∨ ('@' ∉ s ∧ ∀ c ∈ s, c.toNat < 128)

/-- Two addresses are the same: upper and lower case only matter before the last `@`. -/
def SameMail (s t : Str) : Prop :=
  s = t ∨ ∃ m h h', s = m ++ '@' :: h ∧ t = m ++ '@' :: h' ∧ '@' ∉ h ∧ '@' ∉ h' ∧ SameLetters h h'

/-- The same for octets in ASCII. -/
def SameMailOctets (c d : Bytes) : Prop :=
  c = d ∨ ∃ m h h' : Bytes, c = m ++ 0x40 :: h ∧ d = m ++ 0x40 :: h' ∧ 0x40 ∉ h ∧ 0x40 ∉ h' ∧
    h.map (fun x => if 0x41 ≤ x ∧ x ≤ 0x5a then x + 0x20 else x) = h'.map (fun x => if 0x41 ≤ x ∧ x ≤ 0x5a then x + 0x20 else x)

/-- The octets of ASCII text. -/
def Octets (s : Str) (b : Bytes) : Prop := b.map (fun x => Char.ofNat x.toNat) = s

end Asn1.GenName.Spec
