import Verif.Spec.DsaWrap
import Verif.Spec.Oid

/-!
# EC private keys

The key as `ECPrivateKey` of SEC 1 (C.4) with the curve as a parameter, and as `PrivateKeyInfo` of RFC 5208 (5) with the parameters of RFC 5480 (2.1.1).
-/

namespace Asn1.Spec
open Asn1

/-- INTEGER 1 -/
def oneElement : TLV := ⟨0, 0, 2, [2, 1], [1], []⟩

/-- OBJECT IDENTIFIER 1.2.840.10045.2.1 -/
def ecElement : TLV := ⟨0, 0, 6, [6, 7], [0x2a, 0x86, 0x48, 0xce, 0x3d, 2, 1], []⟩

/-- An element of class 0 in primitive form with a DER header. -/
def PlainElement (tag : Nat) (contents : List UInt8) (t : TLV) : Prop :=
  DerHead t ∧ t.cls = 0 ∧ t.method = 0 ∧ t.tag = tag ∧ t.contents = contents

/-- [1] EXPLICIT BIT STRING with the octets, in DER -/
def PointElement (point : List UInt8) (t : TLV) : Prop :=
  DerHead t ∧ t.cls = 2 ∧ t.method = 1 ∧ t.tag = 1 ∧ ∃ s, PlainElement 3 (0 :: point) s ∧ t.contents = s.bytes

/-- The public key of the key, if it has one. -/
def PublicElement : Option (List UInt8) → List TLV → Prop
  | none, ys => ys = []
  | some point, ys => ∃ y, ys = [y] ∧ PointElement point y

/-- A SEQUENCE of version 1, the private key, the curve and the public key if there is one. The headers of the SEQUENCE and of the curve may have any form of
BER. -/
structure EcKeyElement (w p : TLV) (priv : List UInt8) (arcs : List Nat) (curve : List UInt8) (ys : List TLV) (point : Option (List UInt8)) : Prop where
  ber : Ber 11 w
  tagged : w.cls = 0 ∧ w.method = 1 ∧ w.tag = 16
  private_key : PlainElement 4 priv p
  public_key : PublicElement point ys
  named : OidValid arcs ∧ OidContents arcs curve
  contents : ∃ c o, Ber 11 c ∧ c.cls = 2 ∧ c.method = 1 ∧ c.tag = 0 ∧ c.contents = o.bytes ∧ Ber 11 o ∧ o.cls = 0 ∧ o.method = 0 ∧ o.tag = 6 ∧
    o.contents = curve ∧ w.contents = (([oneElement, p, c] ++ ys).map TLV.bytes).flatten

/-- The element is SEQUENCE { INTEGER 0, SEQUENCE { ecPublicKey, curve }, OCTET STRING containing SEQUENCE { INTEGER 1, the private key, the public key if
there is one } }. -/
def EcInfo (p : TLV) (curve : List UInt8) (ys : List TLV) (t : TLV) : Prop :=
  ∃ o algo key s, PlainElement 6 curve o ∧ SequenceElement [ecElement, o] algo ∧ SequenceElement ([oneElement, p] ++ ys) key ∧ PlainElement 4 key.bytes s ∧
    SequenceElement [zeroElement, algo, s] t

end Asn1.Spec
