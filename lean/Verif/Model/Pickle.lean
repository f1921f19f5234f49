import Verif.Model.Core

/-!
# Pickling (`asn1crypto/core.py`, `Asn1Value.__reduce__`)

What `pickle` stores is the pair that `__reduce__` returns, and unpickling calls the function with it. How `pickle` writes classes and byte strings is not
modelled.
-/

namespace Asn1

/-- `Asn1Value.__reduce__` (core.py:493-497): the class of the value, `none` for `Void`, and the bytes of `dump()`. The value afterwards is returned too. -/
def pickle (r : Ops) (v : Val) : Py ((Option ClassId × Bytes) × Val) := do
  let (b, v') ← r.dump v false
  .ok ((v.classOf, b), v')

/-- `unpickle_helper` (core.py:169-175): `cls.load(der_bytes)`. The parser of `Void.load` comes first; an element for it would be refused, as `Void` has no tag
(core.py:5445-5453). -/
def unpickle (E : Env) (r : Ops) (p : Option ClassId × Bytes) : Py Val :=
  match p.1 with
  | some c => loadVal E r c {} p.2
  | none => do
    let _ ← parse p.2
    .error .valueError

end Asn1
