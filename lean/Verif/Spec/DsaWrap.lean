import Verif.Spec.Der
import Verif.Spec.Num

/-!
# DSA private keys

The key as OpenSSL stores it, and as `PrivateKeyInfo` of RFC 5208 (5) with the parameters of RFC 3279 (2.3.2).
-/

namespace Asn1.Spec
open Asn1

/-- An INTEGER in DER: its contents are the shortest ones for its value. -/
def IntElement (t : TLV) : Prop :=
  DerHead t ∧ t.cls = 0 ∧ t.method = 0 ∧ t.tag = 2 ∧ t.contents ≠ [] ∧ ∀ d, d ≠ [] → valS d = valS t.contents → t.contents.length ≤ d.length

/-- A SEQUENCE with a DER header that holds the elements. -/
def SequenceElement (ts : List TLV) (t : TLV) : Prop :=
  DerHead t ∧ t.cls = 0 ∧ t.method = 1 ∧ t.tag = 16 ∧ t.contents = (ts.map TLV.bytes).flatten

/-- A SEQUENCE, with a header of any form of BER, of version, p, q, g, public key and private key. -/
structure DsaKey (w v p q g y x : TLV) : Prop where
  ber : Ber 11 w
  tagged : w.cls = 0 ∧ w.method = 1 ∧ w.tag = 16
  ints : ∀ t ∈ [v, p, q, g, y, x], IntElement t
  contents : w.contents = ([v, p, q, g, y, x].map TLV.bytes).flatten

/-- INTEGER 0 -/
def zeroElement : TLV := ⟨0, 0, 2, [2, 1], [0], []⟩

/-- OBJECT IDENTIFIER 1.2.840.10040.4.1 -/
def dsaElement : TLV := ⟨0, 0, 6, [6, 7], [0x2a, 0x86, 0x48, 0xce, 0x38, 4, 1], []⟩

/-- The element is SEQUENCE { INTEGER 0, SEQUENCE { dsa, SEQUENCE { p, q, g } }, OCTET STRING containing x }. -/
def DsaInfo (p q g x t : TLV) : Prop :=
  ∃ params algo s, SequenceElement [p, q, g] params ∧ SequenceElement [dsaElement, params] algo ∧
    (DerHead s ∧ s.cls = 0 ∧ s.method = 0 ∧ s.tag = 4 ∧ s.contents = x.bytes) ∧ SequenceElement [zeroElement, algo, s] t

end Asn1.Spec
