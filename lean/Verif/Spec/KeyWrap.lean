import Verif.Spec.Der

/-!
# RSA keys in PKCS#8 and X.509 form

`SubjectPublicKeyInfo` of RFC 5280 (4.1) and `PrivateKeyInfo` of RFC 5208 (5), in DER, around an RSA key; the algorithm identifier is the one of RFC 3279 (2.3.1).
-/

namespace Asn1.Spec
open Asn1

/-- SEQUENCE { OBJECT IDENTIFIER 1.2.840.113549.1.1.1, NULL } -/
def rsaAlgorithm : List UInt8 := [0x30, 0x0d, 6, 9, 0x2a, 0x86, 0x48, 0x86, 0xf7, 0x0d, 1, 1, 1, 5, 0]

/-- The element is SEQUENCE { algorithm, BIT STRING containing the key }. -/
def PublicInfo (key : List UInt8) (t : TLV) : Prop :=
  ∃ s : TLV, (DerHead s ∧ s.cls = 0 ∧ s.method = 0 ∧ s.tag = 3 ∧ s.contents = 0 :: key) ∧
    DerHead t ∧ t.cls = 0 ∧ t.method = 1 ∧ t.tag = 16 ∧ t.contents = rsaAlgorithm ++ s.bytes

/-- The element is SEQUENCE { INTEGER 0, algorithm, OCTET STRING containing the key }. -/
def PrivateInfo (key : List UInt8) (t : TLV) : Prop :=
  ∃ s : TLV, (DerHead s ∧ s.cls = 0 ∧ s.method = 0 ∧ s.tag = 4 ∧ s.contents = key) ∧
    DerHead t ∧ t.cls = 0 ∧ t.method = 1 ∧ t.tag = 16 ∧ t.contents = [2, 1, 0] ++ rsaAlgorithm ++ s.bytes

end Asn1.Spec
