import Verif.Lemmas.Cert

/-!
# C34: the extension summary is exact

`names` are the accessors of the class: `certificateAttrs`, `revokedAttrs`, `crlAttrs`, `requestAttrs`, `ocspRequestAttrs`,
`singleResponseAttrs` or `ocspResponseAttrs`. The object is new, then any properties are read, in any order.
-/

namespace Asn1.Cert
open Asn1 Spec
variable {V : Type}

/-- A read of `critical_extensions` or of the accessor `<name>_value`. -/
inductive ExtOp where
  | critical
  | value (name : Str)

/-- The state after a read, whether it raises or not. -/
def ExtOp.run (exts : Py (List (Ext V))) (st : ExtState V) : ExtOp → ExtState V
  | .critical => (criticalExtensions exts st).2
  | .value n => (extValue exts n st).2

theorem extOps_sound (names : List Str) (exts : Py (List (Ext V))) (ops : List ExtOp) :
    Sound names exts (ops.foldl (ExtOp.run exts) (ExtState.new names)) := by
  generalize hst : (ExtState.new names : ExtState V) = st
  have h : Sound names exts st := hst ▸ sound_new names exts
  clear hst
  induction ops generalizing st with
  | nil => exact h
  | cons o os ih =>
    refine ih _ ?_
    cases o with
    | critical => exact (critical_sound h).2.2
    | value n => exact extValue_state h n

/-- Whatever was read before, an accessor returns the parsed value of the last extension with its name, or `None` if there is
none. If reading one of the extensions raises, every accessor raises this exception, every time. -/
theorem C34_value (names : List Str) (exts : Py (List (Ext V))) (ops : List ExtOp) (n : Str) (hn : n ∈ names) :
    (extValue exts n (ops.foldl (ExtOp.run exts) (ExtState.new names))).1 = (readAll names exts).map (lastValue n) :=
  (extValue_sound (extOps_sound names exts ops) hn).1

/-- Whatever was read before, `critical_extensions` is the set of the names of the critical extensions. -/
theorem C34_critical (names : List Str) (exts : Py (List (Ext V))) (ops : List ExtOp) :
    match readAll names exts with
    | .ok l => ∃ s, (criticalExtensions exts (ops.foldl (ExtOp.run exts) (ExtState.new names))).1 = .ok (some s) ∧
        CriticalSet l s
    | .error x => (criticalExtensions exts (ops.foldl (ExtOp.run exts) (ExtState.new names))).1 = .error x := by
  have key := critical_sound (extOps_sound names exts ops)
  split
  · next l hl => exact key.1 l hl
  · next x hx => exact key.2.1 x hx

/-- Two `key_usage` extensions, an unknown critical one whose value is not ASN.1, and no others. -/
def sampleExts : List (Ext Nat) := [
  ⟨.ok "key_usage".toList, .ok true, .ok 1⟩,
  ⟨.ok "1.2.3".toList, .ok true, .error .valueError⟩,
  ⟨.ok "key_usage".toList, .ok false, .ok 2⟩]

example : readAll certificateAttrs (.ok sampleExts) =
    .ok [("key_usage".toList, some 1, true), ("1.2.3".toList, none, true), ("key_usage".toList, some 2, false)] := by
  decide +kernel

example : (extValue (.ok sampleExts) "key_usage".toList (ExtState.new certificateAttrs)).1 = .ok (some 2) ∧
    (extValue (.ok sampleExts) "tls_feature".toList (ExtState.new certificateAttrs)).1 = .ok none ∧
    (criticalExtensions (.ok sampleExts) (ExtState.new certificateAttrs)).1 =
      .ok (some ["key_usage".toList, "1.2.3".toList]) := by
  decide +kernel

end Asn1.Cert
