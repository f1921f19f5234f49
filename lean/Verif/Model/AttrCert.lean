import Verif.Model.Package

/-!
# `CertificateChoices` (cms.py:482-514)

The CHOICE with a `validate` of its own. The other classes of the package with methods of their own are not part of `Model/Package.lean` either.
-/

namespace Asn1.Pkg
open Asn1

/-- `AttCertVersion.load(Sequence.load(contents)[0].dump()).native` (cms.py:512) -/
def certVersion (E : Env) (r : Ops) (contents : Bytes) : Py PyVal := do
  let s ← loadVal E r Id.core.Sequence {} contents
  let (x, _) ← r.item s 0
  let (b, _) ← r.dump x false
  let v ← loadVal E r Id.cms.AttCertVersion {} b
  let (n, _) ← r.native v
  .ok n

/-- `n == 'v2'` -/
def isV2 : PyVal → Bool
  | .scalar (.str s) => s == "v2".toList
  | _ => false

/-- `CertificateChoices.validate` (cms.py:491-514): the index of the alternative. -/
def certValidate (E : Env) (r : Ops) (tagged : Option (Nat × Nat)) (alts : List Field) (cls tag : Nat) (contents : Bytes) : Py Nat := do
  let k ← choiceValidate E [] tagged alts cls tag contents
  if k = 2 then do
    let n ← certVersion E r contents
    .ok (if isV2 n then 3 else 2)
  else .ok k

/-- `_build` of a CertificateChoices without further tags (core.py:5557-5567) -/
def buildCertificateChoices (E : Env) (r : Ops) (i : Info) : Py Val :=
  match E.cls Id.cms.CertificateChoices with
  | .choice _ tagged alts => do
    let k ← certValidate E r tagged alts i.cls i.tag i.contents
    match alts[k]? with
    | none => .error .indexError
    | some f => do
      let v ← parseBuild r (i.header ++ i.contents) (some f.spec) f.params
      .ok (.choice Id.cms.CertificateChoices
        { cls := 0, method := 0, tag := 0, header := some [], contents := some (i.header ++ i.contents), trailer := i.trailer } (some k) (some v))
  | _ => .error .attributeError

/-- `CertificateChoices.load(data, strict)` (core.py:1060-1080) -/
def loadCertificateChoices (E : Env) (r : Ops) (data : Bytes) (strict : Bool := false) : Py Val := do
  let i ← parse data strict
  buildCertificateChoices E r i

end Asn1.Pkg
