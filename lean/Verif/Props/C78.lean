import Verif.Model.CurveOf
import Verif.Props.C76

/-!
# C78 — The curve of a key

`Pkg.curve` (Model/CurveOf.lean) is the attribute `curve` of `PublicKeyInfo` and `PrivateKeyInfo`; `field` is the field with the algorithm. The cache is that of
the attribute `algorithm`.
-/

namespace Asn1.Props
open Asn1 Pkg

/-- What the parameters `p` say: the alternative, and the native value of what is in it unless that is left to the CA. -/
inductive ParamsSay (K : Codecs) (r : Ops) : Val → String → PyVal → Prop
  | specified {o : Obj Unit} {parsed : Option Val} {x x' : Val} {n : PyVal} : choiceParse (env K) r Id.keys.ECDomainParameters o (some 0) parsed = .ok x →
      r.native x = .ok (n, x') → ParamsSay K r (.choice Id.keys.ECDomainParameters o (some 0) parsed) "specified" n
  | named {o : Obj Unit} {parsed : Option Val} {x x' : Val} {n : PyVal} : choiceParse (env K) r Id.keys.ECDomainParameters o (some 1) parsed = .ok x →
      r.native x = .ok (n, x') → ParamsSay K r (.choice Id.keys.ECDomainParameters o (some 1) parsed) "named" n
  | implicitCa {o : Obj Unit} {parsed : Option Val} {x : Val} : choiceParse (env K) r Id.keys.ECDomainParameters o (some 2) parsed = .ok x →
      ParamsSay K r (.choice Id.keys.ECDomainParameters o (some 2) parsed) "implicit_ca" (.scalar .none)

theorem ParamsSay.nameAndValue {K : Codecs} {r : Ops} {p : Val} {s : String} {n : PyVal} (h : ParamsSay K r p s n) :
    ∃ p', Pkg.nameAndValue (env K) r p = .ok ((some s, n), p') := by
  have e0 : altName (env K) Id.keys.ECDomainParameters (some 0) = some "specified" := by kernel_rfl
  have e1 : altName (env K) Id.keys.ECDomainParameters (some 1) = some "named" := by kernel_rfl
  have e2 : altName (env K) Id.keys.ECDomainParameters (some 2) = some "implicit_ca" := by kernel_rfl
  cases h with
  | @specified o parsed x x' n h1 h2 =>
    refine ⟨.choice Id.keys.ECDomainParameters o (some 0) (some x'), ?_⟩
    simp only [Pkg.nameAndValue, h1, e0, h2, bind, Except.bind]
    rfl
  | @named o parsed x x' n h1 h2 =>
    refine ⟨.choice Id.keys.ECDomainParameters o (some 1) (some x'), ?_⟩
    simp only [Pkg.nameAndValue, h1, e1, h2, bind, Except.bind]
    rfl
  | @implicitCa o parsed x h1 =>
    refine ⟨.choice Id.keys.ECDomainParameters o (some 2) (some x), ?_⟩
    simp only [Pkg.nameAndValue, h1, e2, bind, Except.bind, if_true]

/-- The algorithm of a key is what reading the fields gives, the first time and again. -/
theorem C78_algorithm {E : Env} {r : Ops} {field : String} {v x x' : Val} {a : Str} (h : Reached E r v [field, "algorithm"] x)
    (hn : r.native x = .ok (.scalar (.str a), x')) :
    ∃ v', algorithmOf E r field ⟨v, none⟩ = .ok (a, ⟨v', some a⟩) ∧ ∀ r', algorithmOf E r' field ⟨v', some a⟩ = .ok (a, ⟨v', some a⟩) := by
  obtain ⟨v', h1⟩ := h.path (f := r.native) hn
  exact ⟨v', by simp only [algorithmOf, h1, bind, Except.bind], fun _ => rfl⟩

/-- The curve of an EC key is what its parameters say. Missing from the property: keys whose algorithm has been assigned after it had been read, and keys without
parameters, see `C78_stale_fails` and `C78_absent_fails`. -/
theorem C78_curve_partial (K : Codecs) {r : Ops} {field : String} {s s' : Cached Str} {p : Val} {name : String} {n : PyVal}
    (ha : algorithmOf (env K) r field s = .ok ("ec".toList, s')) (hp : Reached (env K) r s'.value [field, "parameters"] p) (hs : ParamsSay K r p name n) :
    ∃ v, curve (env K) r field s = .ok ((some name, n), ⟨v, s'.cache⟩) := by
  obtain ⟨p', h1⟩ := hs.nameAndValue
  obtain ⟨v, h2⟩ := hp.path (f := Pkg.nameAndValue (env K) r) h1
  exact ⟨v, by simp only [curve, ha, h2, bind, Except.bind]; rfl⟩

/-- Keys of other algorithms are refused with `ValueError`. -/
theorem C78_refused {E : Env} {r : Ops} {field : String} {s s' : Cached Str} {a : Str} (ha : algorithmOf E r field s = .ok (a, s')) (h : a ≠ "ec".toList) :
    curve E r field s = .error .valueError := by
  simp only [curve, ha, bind, Except.bind]
  rw [if_pos h]

theorem algorithmOf_access {E : Env} {n : Nat} {field : String} {s s' : Cached Str} {a : Str} {top : Bool} (h : algorithmOf E (ops E n) field s = .ok (a, s')) :
    Access E top s.value s'.value := by
  unfold algorithmOf at h
  split at h
  · cases h; exact .refl
  · obtain ⟨⟨b, v⟩, h1, h⟩ := py_bind.mp h
    simp only at h
    split at h
    · cases h
      exact onPath_access (fun top v a v' h => .native h) _ _ _ _ _ h1
    · cases h

/-- Asking is reading: it leaves the encoding as it is (`C15`). -/
theorem C78_reads {E : Env} {n : Nat} {field : String} {s s' : Cached Str} {a : Option String × PyVal} {top : Bool}
    (h : curve E (ops E n) field s = .ok (a, s')) : Access E top s.value s'.value := by
  obtain ⟨⟨b, w⟩, h1, h⟩ := py_bind.mp h
  simp only at h
  split at h
  · cases h
  · obtain ⟨⟨x, v⟩, h2, h⟩ := py_bind.mp h
    cases h
    refine .trans (algorithmOf_access h1) (onPath_access (fun top v a v' h => ?_) _ _ _ _ _ h2)
    unfold Pkg.nameAndValue at h
    split at h
    · obtain ⟨y, h3, h⟩ := py_bind.mp h
      simp only at h
      split at h
      · cases h; exact .chosen h3
      · obtain ⟨⟨m, z⟩, h4, h⟩ := py_bind.mp h
        cases h
        exact .trans (.chosen h3) (.alternative (.native h4))
    · cases h

/-- **The property fails for EC keys without parameters**: `AttributeError`, where the documentation has no error for EC keys. -/
theorem C78_absent_fails {E : Env} {r : Ops} {field : String} {s s' : Cached Str} (ha : algorithmOf E r field s = .ok ("ec".toList, s'))
    (hp : Reached E r s'.value [field, "parameters"] .void) : curve E r field s = .error .attributeError := by
  have h := hp.path_error (f := Pkg.nameAndValue E r) (e := .attributeError) rfl
  simp only [curve, ha, h, bind, Except.bind]
  rfl

/-- The key with this algorithm identifier and an empty point. -/
def curveKeyBytes (algorithm : Bytes) : Bytes := [0x30, UInt8.ofNat (algorithm.length + 5), 0x30, UInt8.ofNat algorithm.length] ++ algorithm ++ [3, 1, 0]

/-- `1.2.840.10045.2.1` -/
def ecOidBytes : Bytes := [6, 7, 0x2a, 0x86, 0x48, 0xce, 0x3d, 2, 1]

/-- The curve of an encoded public key. -/
def curveOfBytes (K : Codecs) (b : Bytes) : Py (Option String × PyVal) := do
  let r := ops (env K) 9
  let v ← loadVal (env K) r Id.keys.PublicKeyInfo {} b
  let (a, _) ← curve (env K) r "algorithm" ⟨v, none⟩
  .ok a

/-- Non-vacuity: a key on P-256, one whose curve is left to the CA, one without parameters and an RSA key. -/
example (K : Codecs) : curveOfBytes K (curveKeyBytes (ecOidBytes ++ [6, 8, 0x2a, 0x86, 0x48, 0xce, 0x3d, 3, 1, 7])) =
    .ok (some "named", .scalar (.str "secp256r1".toList)) := by kernel_rfl
example (K : Codecs) : curveOfBytes K (curveKeyBytes (ecOidBytes ++ [5, 0])) = .ok (some "implicit_ca", .scalar .none) := by kernel_rfl
example (K : Codecs) : curveOfBytes K (curveKeyBytes ecOidBytes) = .error .attributeError := by kernel_rfl
example (K : Codecs) : curveOfBytes K (curveKeyBytes [6, 9, 0x2a, 0x86, 0x48, 0x86, 0xf7, 0x0d, 1, 1, 1, 5, 0]) = .error .valueError := by kernel_rfl

/-- The algorithm of an encoded RSA key is asked for, its algorithm field is assigned to that of a key on P-256, and the curve is asked for. -/
def askStale (K : Codecs) (ask : Bool) : Py (Option String × PyVal) := do
  let r := ops (env K) 9
  let v ← loadVal (env K) r Id.keys.PublicKeyInfo {} (curveKeyBytes [6, 9, 0x2a, 0x86, 0x48, 0x86, 0xf7, 0x0d, 1, 1, 1, 5, 0])
  let s ← if ask then (algorithmOf (env K) r "algorithm" ⟨v, none⟩).map Prod.snd else .ok ⟨v, none⟩
  let a ← loadVal (env K) r Id.keys.PublicKeyAlgorithm {} ([0x30, 19] ++ ecOidBytes ++ [6, 8, 0x2a, 0x86, 0x48, 0xce, 0x3d, 3, 1, 7])
  let (_, v) ← getItem (env K) r s.value 0
  let (a, _) ← curve (env K) r "algorithm" ⟨putNamed (env K) v "algorithm" a, s.cache⟩
  .ok a

/-- **It fails for keys whose algorithm is assigned after it has been read**: the algorithm read first decides, and what is now a key on P-256 is refused. -/
theorem C78_stale_fails (K : Codecs) : askStale K true = .error .valueError ∧ askStale K false = .ok (some "named", .scalar (.str "secp256r1".toList)) :=
  ⟨by kernel_rfl, by kernel_rfl⟩

end Asn1.Props
