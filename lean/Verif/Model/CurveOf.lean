import Verif.Model.Shortcuts

/-! # The attribute `curve` of public and private keys -/

namespace Asn1.Pkg
open Asn1

/-- `PublicKeyInfo.algorithm` (keys.py:1233-1242, `field` is `algorithm`) and `PrivateKeyInfo.algorithm` (keys.py:904-913, `private_key_algorithm`). The native
value of an OID without contents is `None`, which is asked for `upper` (keys.py:860-866). -/
def algorithmOf (E : Env) (r : Ops) (field : String) (s : Cached Str) : Py (Str × Cached Str) :=
  match s.cache with
  | some a => .ok (a, s)
  | none => do
    let (n, v) ← onPath E r r.native [field, "algorithm"] s.value
    match n with
    | .scalar (.str a) => .ok (a, ⟨v, some a⟩)
    | _ => .error .attributeError

/-- `choice.name` (core.py:1187-1197) -/
def altName (E : Env) (c : ClassId) (alt : Option Nat) : Option String :=
  match E.cls c with
  | .choice _ _ alts => alt.bind fun k => alts[k]?.map Field.name
  | _ => none

/-- The name and the native value of parameters (keys.py:868-876, 1188-1196). VOID has no attribute `chosen`. -/
def nameAndValue (E : Env) (r : Ops) (v : Val) : Py ((Option String × PyVal) × Val) :=
  match v with
  | .choice c o alt parsed => do
    let x ← choiceParse E r c o alt parsed
    let name := altName E c alt
    if name = some "implicit_ca" then .ok ((name, .scalar .none), .choice c o alt (some x))
    else do
      let (n, x) ← r.native x
      .ok ((name, n), .choice c o alt (some x))
  | _ => .error .attributeError

/-- `PrivateKeyInfo.curve` (keys.py:843-876) and `PublicKeyInfo.curve` (keys.py:1166-1196) -/
def curve (E : Env) (r : Ops) (field : String) (s : Cached Str) : Py ((Option String × PyVal) × Cached Str) := do
  let (a, s) ← algorithmOf E r field s
  if a ≠ "ec".toList then .error .valueError
  else do
    let (x, v) ← onPath E r (nameAndValue E r) [field, "parameters"] s.value
    .ok (x, ⟨v, s.cache⟩)

end Asn1.Pkg
