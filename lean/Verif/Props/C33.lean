import Verif.Lemmas.CertState

/-!
# C33: `self_issued` and `self_signed`

The object is new, then any properties of it are read, in any order, and `self_issued` or `self_signed` is read at last.
-/

namespace Asn1.Cert
open Asn1 Spec
variable {V : Type}

/-- `self_issued` tells whether the subject equals the issuer; it raises whenever the comparison raises. -/
theorem C33_issued (R : Reads V) (c : Source V) (ops : List CertOp) :
    (selfIssued c (ops.foldl (CertOp.run R c) State.new)).1 = c.sameName :=
  (selfIssued_sound (certOps_sound R c ops).1).1

/-- `key_identifier` and `authority_key_identifier` -/
theorem C33_identifiers (R : Reads V) (c : Source V) (ops : List CertOp) :
    (keyIdentifier R c (ops.foldl (CertOp.run R c) State.new)).1 = subjectId R c ∧
    (authorityKeyIdentifier R c (ops.foldl (CertOp.run R c) State.new)).1 = authorityId R c :=
  ⟨(keyIdentifier_sound (certOps_sound R c ops).1).1, (authorityKeyIdentifier_sound (certOps_sound R c ops).1).1⟩

theorem truthy_iff (k : Option Bytes) : truthy k = true ↔ ¬ Missing k := by
  cases k with
  | none => simp [truthy, Missing]
  | some b => cases b <;> simp [truthy, Missing]

/-- `self_signed` is `'maybe'` exactly if the certificate is self-issued and the identifiers match or one of them is missing,
and `'no'` otherwise. Missing: certificates for which the names or the identifiers cannot be read; there the property does not
hold (`C33_raise_fails`). -/
theorem C33_signed_partial (R : Reads V) (c : Source V) (ops : List CertOp) (same : Bool) (k a : Option Bytes)
    (hsame : c.sameName = .ok same) (hk : same = true → subjectId R c = .ok k)
    (ha : same = true → ¬ Missing k → authorityId R c = .ok a) :
    (selfSigned R c (ops.foldl (CertOp.run R c) State.new)).1 = .ok "maybe".toList ∧ Maybe same k a ∨
    (selfSigned R c (ops.foldl (CertOp.run R c) State.new)).1 = .ok "no".toList ∧ ¬ Maybe same k a := by
  obtain ⟨hcore, hs⟩ := certOps_sound R c ops
  have key := (selfSigned_sound hcore hs).1
  cases same with
  | false =>
    right
    exact ⟨key _ (by simp [answer, hsame, bind, Except.bind, no]), fun h => by cases h.1⟩
  | true =>
    have hk := hk rfl
    have ha := ha rfl
    by_cases hm : Missing k
    · left
      have ht : truthy k = false := by
        cases h : truthy k with
        | false => rfl
        | true => exact absurd hm ((truthy_iff k).1 h)
      exact ⟨key _ (by simp [answer, hsame, hk, ht, bind, Except.bind, maybe]), rfl, Or.inl hm⟩
    · have ha := ha hm
      have ht := (truthy_iff k).2 hm
      by_cases hma : Missing a
      · left
        have hta : truthy a = false := by
          cases h : truthy a with
          | false => rfl
          | true => exact absurd hma ((truthy_iff a).1 h)
        exact ⟨key _ (by simp [answer, hsame, hk, ht, ha, hta, bind, Except.bind, maybe]), rfl, Or.inr (Or.inl hma)⟩
      · have hta := (truthy_iff a).2 hma
        by_cases he : a = k
        · left
          exact ⟨key _ (by simp [answer, hsame, hk, ht, ha, he, bind, Except.bind, maybe]), rfl, Or.inr (Or.inr he.symm)⟩
        · right
          refine ⟨key _ (by simp [answer, hsame, hk, ht, ha, hta, he, bind, Except.bind, no]), ?_⟩
          rintro ⟨-, h | h | h⟩
          · exact hm h
          · exact hma h
          · exact he h.symm

/-- Extension values are the identifiers themselves. -/
def sampleReads : Reads Bytes :=
  { native := fun v => .ok (some v), keyId := fun v => .ok (some v), accesses := fun _ => .ok [], points := fun _ => .ok [] }

/-- A self-issued certificate with the given identifiers. -/
def sampleCert (k a : Bytes) : Source Bytes :=
  { exts := .ok [⟨.ok "key_identifier".toList, .ok false, .ok k⟩, ⟨.ok "authority_key_identifier".toList, .ok false, .ok a⟩]
    sameName := .ok true }

example : subjectId sampleReads (sampleCert [1] [2]) = .ok (some [1]) ∧
    authorityId sampleReads (sampleCert [1] [2]) = .ok (some [2]) ∧
    (selfSigned sampleReads (sampleCert [1] [2]) State.new).1 = .ok "no".toList ∧
    (selfSigned sampleReads (sampleCert [1] [1]) State.new).1 = .ok "maybe".toList := by
  decide +kernel

/-- A violation: if the names cannot be compared, the first read of `self_signed` raises, and later reads return `'no'`,
because `'no'` was cached before the comparison (x509.py:2840). -/
theorem C33_raise_fails (R : Reads V) (exts : Py (List (Ext V))) (x : PyErr) :
    let c : Source V := { exts := exts, sameName := .error x }
    (selfSigned R c State.new).1 = .error x ∧
    (selfSigned R c (CertOp.run R c State.new .selfSigned)).1 = .ok "no".toList :=
  ⟨rfl, rfl⟩

end Asn1.Cert
