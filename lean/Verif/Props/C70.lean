import Verif.Model.Fingerprint
import Verif.Spec.Fingerprint
import Verif.Props.C15Package

/-!
# C70 — Fingerprints are the digests of the encoding

`H` is the hash function.
-/

namespace Asn1.Props
open Asn1 Asn1.Spec

/-- Reading: accesses to the value, and asking for the fingerprint, in any order. -/
inductive Consulted (E : Env) (S : Nat → Ops) (H : Bytes → Bytes) : Digested → Digested → Prop
  | refl {s : Digested} : Consulted E S H s s
  | access {s : Digested} {v v' : Val} {d : Option Bytes} : Consulted E S H s ⟨v, d⟩ → AccessBy E S true v v' → Consulted E S H s ⟨v', d⟩
  | digest {s s' s'' : Digested} {n : Nat} {d : Bytes} : Consulted E S H s s' → fingerprint (S n) H s' = .ok (d, s'') → Consulted E S H s s''

/-- The fingerprint of a loaded value is the digest of the bytes it was loaded from, whatever has been read of it before, and however often it was asked for.
Missing: accesses and encodings for which `dump()` gives other bytes (C15), changes (`C70_stale_fails`). -/
theorem C70_loaded_partial (K : Pkg.Codecs) (H : Bytes → Bytes) {n : Nat} {c : ClassId} {p : Params} (hp : p.default = none) (hc : HasTag ((Pkg.env K).cls c))
    {data : Bytes} {strict : Bool} {v : Val} (hl : loadVal (Pkg.env K) (ops (Pkg.env K) n) c p data strict = .ok v)
    (ht : ∀ w rest, data = w.bytes ++ rest → Ber 11 w → Tight (explicitOf (Pkg.env K) c p).reverse w) {s : Digested}
    (ha : Consulted (Pkg.env K) (wary (Pkg.env K)) H ⟨v, none⟩ s) :
    ∃ b rest, data = b ++ rest ∧ (strict = true → rest = []) ∧ ∀ m, 1 ≤ m → ∃ s', fingerprint (ops (Pkg.env K) m) H s = .ok (H b, s') := by
  obtain ⟨w, rest, h1, h2, h3, _⟩ := C15_package_tagged_partial K hp hc hl ht .refl
  have key : ∀ {v'}, AccessBy (Pkg.env K) (wary (Pkg.env K)) true v v' → ∀ m, 1 ≤ m → ∃ v'', (ops (Pkg.env K) m).dump v' false = .ok (w.bytes, v'') := by
    intro v' ha m hm
    obtain ⟨w', rest', g1, g2, _, g4⟩ := C15_package_tagged_partial K hp hc hl ht ha
    have : w = w' := (Ber_unique h2 g2 (h1.symm.trans g1)).1
    rw [this]
    exact g4 m hm
  have inv : ∀ {s0 s}, Consulted (Pkg.env K) (wary (Pkg.env K)) H s0 s → s0 = ⟨v, none⟩ →
      AccessBy (Pkg.env K) (wary (Pkg.env K)) true v s.value ∧ (s.digest = none ∨ s.digest = some (H w.bytes)) := by
    intro s0 s ha
    induction ha with
    | refl => rintro rfl; exact ⟨.refl, .inl rfl⟩
    | access _ h ih =>
      intro e
      obtain ⟨i1, i2⟩ := ih e
      exact ⟨.trans i1 h, i2⟩
    | @digest s' s'' k d _ h ih =>
      intro e
      obtain ⟨i1, i2⟩ := ih e
      obtain ⟨v', d'⟩ := s'
      unfold fingerprint at h
      cases d' with
      | some d' => cases h; exact ⟨i1, i2⟩
      | none =>
        obtain ⟨⟨b, u⟩, h4, h5⟩ := py_bind.mp h
        cases h5
        refine ⟨.trans i1 (.dump h4), .inr ?_⟩
        have h6 := ((wary_le (Pkg.env K) k).dump v' false).of _ h4
        cases k with
        | zero => cases h6
        | succ k =>
          obtain ⟨u', h7⟩ := key i1 (k + 1) (by omega)
          have h6 : (ops (Pkg.env K) (k + 1)).dump v' false = .ok (b, u) := h6
          rw [h6] at h7
          cases h7
          rfl
  refine ⟨w.bytes, rest, h1, h3, fun m hm => ?_⟩
  obtain ⟨i1, i2⟩ := inv ha rfl
  unfold fingerprint
  rcases i2 with i2 | i2
  · obtain ⟨u, h4⟩ := key i1 m hm
    rw [i2]
    simp only [h4, bind, Except.bind]
    exact ⟨_, rfl⟩
  · rw [i2]
    exact ⟨_, rfl⟩

/-! ### The text -/

theorem digits_upper : ∀ d, d < 16 → digits16[d]? = some (Char.ofNat (Iri.upperHex d)) := by decide

/-- The text is the digest in hexadecimal. -/
theorem C70_text : ∀ d : List UInt8, HexText d (fingerprintText d)
  | [] => .none
  | [b] => .one (digits_upper _ (by have := b.toNat_lt; omega)) (digits_upper _ (by omega))
  | b :: b' :: bs => .more (digits_upper _ (by have := b.toNat_lt; omega)) (digits_upper _ (by omega)) (C70_text (b' :: bs))

theorem digits_inj : ∀ (i j : Nat) (x : Char), digits16[i]? = some x → digits16[j]? = some x → i = j := by
  intro i j x hi hj
  have h : digits16.Nodup := by decide
  obtain ⟨h1, e1⟩ := List.getElem?_eq_some_iff.mp hi
  obtain ⟨h2, e2⟩ := List.getElem?_eq_some_iff.mp hj
  exact (List.Nodup.getElem_inj_iff h).mp (e1.trans e2.symm)

theorem octet_digits {b b' : UInt8} {x y : Char} (h1 : digits16[b.toNat / 16]? = some x) (h2 : digits16[b.toNat % 16]? = some y)
    (h3 : digits16[b'.toNat / 16]? = some x) (h4 : digits16[b'.toNat % 16]? = some y) : b = b' := by
  have e1 := digits_inj _ _ _ h1 h3
  have e2 := digits_inj _ _ _ h2 h4
  apply UInt8.toNat_inj.mp
  omega

theorem hexText_inj : ∀ {d d' : List UInt8} {t : List Char}, HexText d t → HexText d' t → d = d' := by
  intro d d' t h
  induction h generalizing d' with
  | none => intro h'; cases h'; rfl
  | one h1 h2 =>
    intro h'
    cases h' with
    | one g1 g2 => rw [octet_digits h1 h2 g1 g2]
  | more h1 h2 _ ih =>
    intro h'
    cases h' with
    | more g1 g2 g3 => rw [octet_digits h1 h2 g1 g2, ih g3]

/-- Two digests with the same text are the same. -/
theorem C70_text_injective {d d' : List UInt8} (h : fingerprintText d = fingerprintText d') : d = d' :=
  hexText_inj (C70_text d) (h ▸ C70_text d')

example : String.ofList (fingerprintText [0, 0x0f, 0xa5]) = "00 0F A5" := by decide +kernel

/-! ### Public keys -/

/-- What the fingerprint of a public key is the digest of: the octets of the key, without the algorithm. -/
theorem C70_key {E : Env} {r : Ops} (H : Bytes → Bytes) {v v' : Val} {c : ClassId} {o : Obj Bytes} {pv : Option Val} {ps : Option ClassId} {proto : Obj Bytes}
    {b : Bytes} (hi : getItem E r v 1 = .ok (.parsable c o pv ps, v')) (hc : E.cls c = .parsable proto true) (ho : o.contents = some (0 :: b))
    (hn : o.native = none) (hd : o.indefinite = false) :
    keyFingerprint E r H ⟨v, none⟩ = .ok (H b, ⟨v', some (H b)⟩) := by
  have : parsableProto E c = (proto, true) := by unfold parsableProto; rw [hc]
  have hm : mergeObj (parsableChunk true) proto false (0 :: b) = .ok b := by
    rw [mergeObj_false]
    rfl
  unfold keyFingerprint keyOctets parsableBytes
  simp only [hi, this, ho, hn, hd, hm, bind, Except.bind]

/-! ### Where the code does not have the property -/

/-- A certificate whose signature is replaced after `sha1` was read: `dump()` gives the new encoding, `sha1` the digest of the old one. -/
theorem C70_stale_fails (K : Pkg.Codecs) (H : Bytes → Bytes) :
    (do let v ← loadVal (Pkg.env K) (ops (Pkg.env K) 20) Pkg.Id.x509.Certificate {} [0x30, 8, 0x30, 0, 0x30, 0, 3, 2, 0, 1]
        let (_, s) ← fingerprint (ops (Pkg.env K) 20) H ⟨v, none⟩
        let v ← setField (Pkg.env K) (ops (Pkg.env K) 20) s.value 2 (.scalar (.bytes [7]))
        let (d, s) ← fingerprint (ops (Pkg.env K) 20) H ⟨v, s.digest⟩
        let (b, _) ← (ops (Pkg.env K) 20).dump s.value false
        .ok (d, b)) = (.ok (H [0x30, 8, 0x30, 0, 0x30, 0, 3, 2, 0, 1], [0x30, 8, 0x30, 0, 0x30, 0, 3, 2, 0, 7]) : Py (Bytes × Bytes)) := by kernel_rfl

/-- Loads a public key and gives its fingerprint and its encoding. -/
def keyPrint (K : Pkg.Codecs) (H : Bytes → Bytes) (data : Bytes) : Py (Bytes × Bytes) := do
  let v ← loadVal (Pkg.env K) (ops (Pkg.env K) 20) Pkg.Id.keys.PublicKeyInfo {} data
  let (d, _) ← keyFingerprint (Pkg.env K) (ops (Pkg.env K) 20) H ⟨v, none⟩
  let (b, _) ← (ops (Pkg.env K) 20).dump v false
  .ok (d, b)

/-- The fingerprint of a public key is documented as the digest of the encoded key with its algorithm, but is that of the octets of the key: an Ed25519 key
and an X25519 key with the same octets have the same fingerprint. -/
theorem C70_key_fails (K : Pkg.Codecs) (H : Bytes → Bytes) :
    keyPrint K H [0x30, 11, 0x30, 5, 6, 3, 0x2b, 0x65, 0x70, 3, 2, 0, 9] = .ok (H [9], [0x30, 11, 0x30, 5, 6, 3, 0x2b, 0x65, 0x70, 3, 2, 0, 9]) ∧
    keyPrint K H [0x30, 11, 0x30, 5, 6, 3, 0x2b, 0x65, 0x6e, 3, 2, 0, 9] = .ok (H [9], [0x30, 11, 0x30, 5, 6, 3, 0x2b, 0x65, 0x6e, 3, 2, 0, 9]) :=
  ⟨by kernel_rfl, by kernel_rfl⟩

/-- The hypotheses of `C70_loaded_partial` are met by a certificate of which nothing has been read. -/
example (K : Pkg.Codecs) (H : Bytes → Bytes) : ∃ v s', loadVal (Pkg.env K) (ops (Pkg.env K) 20) Pkg.Id.x509.Certificate {} [0x30, 8, 0x30, 0, 0x30, 0, 3, 2, 0, 1] true = .ok v ∧
    fingerprint (ops (Pkg.env K) 20) H ⟨v, none⟩ = .ok (H [0x30, 8, 0x30, 0, 0x30, 0, 3, 2, 0, 1], s') := by
  have hb : Ber 11 ⟨0, 1, 16, [0x30, 8], [0x30, 0, 0x30, 0, 3, 2, 0, 1], []⟩ :=
    ((parse_strict_ok_iff [0x30, 8, 0x30, 0, 0x30, 0, 3, 2, 0, 1] ⟨0, 1, 16, [0x30, 8], [0x30, 0, 0x30, 0, 3, 2, 0, 1], []⟩).mp (by decide +kernel)).2
  obtain ⟨v, hv⟩ : ∃ v, loadVal (Pkg.env K) (ops (Pkg.env K) 20) Pkg.Id.x509.Certificate {} [0x30, 8, 0x30, 0, 0x30, 0, 3, 2, 0, 1] true = .ok v := ⟨_, rfl⟩
  obtain ⟨b, rest, h1, h2, h3⟩ := C70_loaded_partial K H rfl (c := Pkg.Id.x509.Certificate) trivial hv
    (fun w rest hw hb' => by
      have := (Ber_unique (r := []) hb hb' hw).1
      subst this
      show PlainLength _
      simp [PlainLength]) .refl
  rw [h2 rfl, List.append_nil] at h1
  obtain ⟨s', h4⟩ := h3 20 (by omega)
  exact ⟨v, s', hv, h1 ▸ h4⟩

end Asn1.Props
