/-!
# How octets are written for people: two hexadecimal digits each, in upper case, with a space between one octet and the next
-/

namespace Asn1.Spec

/-- The sixteen digits. -/
def digits16 : List Char := ['0', '1', '2', '3', '4', '5', '6', '7', '8', '9', 'A', 'B', 'C', 'D', 'E', 'F']

/-- The text for a list of octets. -/
inductive HexText : List UInt8 → List Char → Prop
  | none : HexText [] []
  | one {b : UInt8} {x y : Char} : digits16[b.toNat / 16]? = some x → digits16[b.toNat % 16]? = some y → HexText [b] [x, y]
  | more {b b' : UInt8} {bs : List UInt8} {x y : Char} {t : List Char} : digits16[b.toNat / 16]? = some x → digits16[b.toNat % 16]? = some y →
      HexText (b' :: bs) t → HexText (b :: b' :: bs) (x :: y :: ' ' :: t)

end Asn1.Spec
