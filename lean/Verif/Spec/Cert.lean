import Verif.Model.Cert

/-!
# What the extension summary and the decisions derived from it should say

The reads of the decoded structure are as in the model (`Ext`, `Access`, `Point`); everything else is stated anew.
-/

namespace Asn1.Cert.Spec
open Asn1 Asn1.Cert

/-- An extension as it should be read by an object whose accessors are named `names`: its name, its value if there is an
accessor for it, and its critical flag; the first failing read is the failure. -/
def readExt {V : Type} (names : List Str) (e : Ext V) : Py (Str × Option V × Bool) := do
  let name ← e.name
  let v ← if name ∈ names then some <$> e.parsed else .ok none
  let c ← e.critical
  .ok (name, v, c)

/-- All extensions. -/
def readAll {V : Type} (names : List Str) (exts : Py (List (Ext V))) : Py (List (Str × Option V × Bool)) :=
  exts >>= List.mapM (readExt names)

/-- The value of the last extension with the given name. -/
def lastValue {V : Type} (name : Str) (l : List (Str × Option V × Bool)) : Option V :=
  match (l.filter fun e => e.1 = name).getLast? with
  | some e => e.2.1
  | none => none

/-- `s` is the set of the names of the critical extensions, each once. -/
def CriticalSet {V : Type} (l : List (Str × Option V × Bool)) (s : List Str) : Prop :=
  s.Nodup ∧ ∀ n, n ∈ s ↔ ∃ e ∈ l, e.1 = n ∧ e.2.2 = true

/-- The subject key identifier of a certificate. -/
def subjectId {V : Type} (R : Reads V) (c : Source V) : Py (Option Bytes) := do
  match lastValue "key_identifier".toList (← readAll certificateAttrs c.exts) with
  | none => .ok none
  | some v => R.native v

/-- The authority key identifier of a certificate. -/
def authorityId {V : Type} (R : Reads V) (c : Source V) : Py (Option Bytes) := do
  match lastValue "authority_key_identifier".toList (← readAll certificateAttrs c.exts) with
  | none => .ok none
  | some v => R.keyId v

/-- An identifier that is not there, or empty. -/
def Missing : Option Bytes → Prop
  | none => True
  | some b => b = []

/-- The `self_signed` decision. -/
def Maybe (same : Bool) (subject authority : Option Bytes) : Prop :=
  same = true ∧ (Missing subject ∨ Missing authority ∨ subject = authority)

/-- The URL has the given scheme, in any letter case. -/
def HasScheme (scheme : String) (url : Str) : Prop :=
  ∃ pre rest, url = pre ++ [':', '/', '/'] ++ rest ∧ pre.map Char.toLower = scheme.toList

/-- The entry is the URL `u` for the given access method. -/
def Serves (method : String) (e : Access) (u : Str) : Prop :=
  e.method = .ok method.toList ∧ e.location = .ok "uniform_resource_identifier".toList ∧ e.url = .ok u

/-- `us` are the accepted URLs for an access method, in order. -/
inductive Urls (method : String) (schemes : List String) : List Access → List Str → Prop
  | nil : Urls method schemes [] []
  | take {e es u us} : Serves method e u → (∃ s ∈ schemes, HasScheme s u) → Urls method schemes es us →
      Urls method schemes (e :: es) (u :: us)
  | skip {e es us} : (∀ u, Serves method e u → ¬ ∃ s ∈ schemes, HasScheme s u) → Urls method schemes es us →
      Urls method schemes (e :: es) us

/-- Nothing the code has to read of the entry raises. -/
def Legible (method : String) (e : Access) : Prop :=
  ∃ m, e.method = .ok m ∧ (m = method.toList → ∃ l, e.location = .ok l ∧
    (l = "uniform_resource_identifier".toList → ∃ u, e.url = .ok u))

/-- Nothing the code has to read of a distribution point raises: the general names are `names`, if the point has a full
name. -/
inductive PointNames : Point → List Str → Prop
  | absent {p} : p.name = .ok none → PointNames p []
  | relative {p ns} : p.name = .ok (some ("name_relative_to_crl_issuer".toList, ns)) → PointNames p []
  | full {p k names} : p.name = .ok (some (k, .ok (names.map .ok))) → k ≠ "name_relative_to_crl_issuer".toList →
      PointNames p names

/-- The points that have a URL among their names, each as often as it has one. -/
inductive UrlPoints : List Point → List Point → Prop
  | nil : UrlPoints [] []
  | cons {p ps names out} : PointNames p names → UrlPoints ps out →
      UrlPoints (p :: ps) (List.replicate (names.count "uniform_resource_identifier".toList) p ++ out)

end Asn1.Cert.Spec
