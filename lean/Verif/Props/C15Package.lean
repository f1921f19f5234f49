import Verif.Lemmas.Wary
import Verif.Lemmas.PkgRegular
import Verif.Lemmas.ClassOf
import Verif.Props.C15
import Verif.Props.C45
import Verif.Props.C67

/-!
# C15, C45 and C67 for the classes of the package

In the package four classes (RSASSAPSSParams, RSAESOAEPParams, Pbkdf2Params and ESSCertIDv2) have fields with a DEFAULT of constructed type, for which the
property does not hold (`C15_default_sequence_fails`, `C15_pss_fails`). It is shown for values of all classes, and for accesses that do not come across such
a DEFAULT (`wary`, Spec/Wary.lean).
-/

namespace Asn1.Props
open Asn1 Asn1.Spec

/-- An access that does not come across a DEFAULT of constructed type is an access. -/
theorem wary_access {E : Env} {top : Bool} {v v' : Val} (h : AccessBy E (wary E) top v v') : Access E top v v' := by
  induction h with
  | refl => exact .refl
  | trans _ _ ih1 ih2 => exact .trans ih1 ih2
  | @native _ n _ _ _ h => exact .native (((wary_le E n).native _).of _ h)
  | @dump _ n _ _ _ h => exact .dump (((wary_le E n).dump _ _).of _ h)
  | @contents _ n _ _ _ h => exact .contents (((wary_le E n).contents _).of _ h)
  | @item _ n _ _ _ _ h => exact .item ((getItem_le (wary_le E n) _ _).of _ h)
  | @len _ n _ _ _ h => exact .len ((lenOf_le (wary_le E n) _).of _ h)
  | child hi _ ih => exact .child hi ih
  | @chosen _ n _ _ _ _ _ h => exact .chosen ((choiceParse_le (wary_le E n) _ _ _ _).of _ h)
  | alternative _ ih => exact .alternative ih
  | @anyParsed _ n _ _ _ _ _ h => exact .anyParsed ((anyParse_le (wary_le E n) _ _ _ _ _).of _ h)
  | @anyParse _ n _ _ _ _ _ _ _ h hc => exact .anyParse ((anyParse_le (wary_le E n) _ _ _ _ _).of _ h) hc
  | inAny _ ih => exact .inAny ih
  | @strParse _ n _ _ _ _ _ _ _ h => exact .strParse ((parsableParse_le (wary_le E n) _ _ _ _ _).of _ h)
  | strBytes h => exact .strBytes h
  | payload _ ih => exact .payload ih

/-- Loading a value of any class of the package and then dumping it, with read-only accesses in between that do not come across a DEFAULT of constructed
type, gives the bytes of the first element of the data (all of the data if `strict`), and `dump()` does return them unless the value is an `Any` not parsed
yet. Missing from the property: elements that are not `Tidy` (Spec/Faithful.lean) and the other accesses. -/
theorem C15_package_partial (K : Pkg.Codecs) {n : Nat} {c : ClassId} {p : Params} (hp : p.default = none) {data : Bytes} {strict : Bool} {v v' : Val}
    (hl : loadVal (Pkg.env K) (ops (Pkg.env K) n) c p data strict = .ok v)
    (ht : ∀ w rest, data = w.bytes ++ rest → Ber 11 w → Tidy (Pkg.env K) (loadSpec (Pkg.env K) c) p w)
    (ha : AccessBy (Pkg.env K) (wary (Pkg.env K)) true v v') :
    ∃ w rest, data = w.bytes ++ rest ∧ Ber 11 w ∧ (strict = true → rest = []) ∧
      (∀ m b v'', (ops (Pkg.env K) m).dump v' false = .ok (b, v'') → b = w.bytes) ∧
      (unparsedAny v' = false → ∃ m₀, ∀ m, m₀ ≤ m → ∃ v'', (ops (Pkg.env K) m).dump v' false = .ok (w.bytes, v'')) := by
  have hE := Pkg.pkg_regular K
  obtain ⟨w, rest, h1, h2, h3, h4⟩ := load_reads hE (wary_reader hE) (wary_suits _) hp hl ht ha
  exact ⟨w, rest, h1, h2, h3, fun m b v'' hd => (keeper hE _ m h4 hd).1, keeps_returns h4⟩

/-- The case of a class with a tag of its own: `dump()` always returns the bytes. -/
theorem C15_package_tagged_partial (K : Pkg.Codecs) {n : Nat} {c : ClassId} {p : Params} (hp : p.default = none) (hc : HasTag ((Pkg.env K).cls c))
    {data : Bytes} {strict : Bool} {v v' : Val} (hl : loadVal (Pkg.env K) (ops (Pkg.env K) n) c p data strict = .ok v)
    (ht : ∀ w rest, data = w.bytes ++ rest → Ber 11 w → Tight (explicitOf (Pkg.env K) c p).reverse w)
    (ha : AccessBy (Pkg.env K) (wary (Pkg.env K)) true v v') :
    ∃ w rest, data = w.bytes ++ rest ∧ Ber 11 w ∧ (strict = true → rest = []) ∧
      ∀ m, 1 ≤ m → ∃ v'', (ops (Pkg.env K) m).dump v' false = .ok (w.bytes, v'') := by
  have hE := Pkg.pkg_regular K
  have hspec : loadSpec (Pkg.env K) c = some c := by
    unfold loadSpec
    split
    · next h => rw [h] at hc; exact hc.elim
    · rfl
  obtain ⟨w, rest, h1, h2, h3, h4⟩ := load_reads hE (wary_reader hE) (wary_suits _) hp hl
    (fun w rest hw hb => by rw [hspec]; exact Tidy.base hc (ht w rest hw hb)) ha
  have hsolid : solid v = true := by
    simp only [loadVal, py_bind] at hl
    obtain ⟨i, hi, hb⟩ := hl
    split at hb
    · next h => rw [h] at hc; exact hc.elim
    · exact solid_build hp hc hb
  refine ⟨w, rest, h1, h2, h3, fun m hm => ?_⟩
  obtain ⟨k, rfl⟩ : ∃ k, m = k + 1 := ⟨m - 1, by omega⟩
  exact solid_returns h4 (solid_access (wary_access ha) hsolid) k

/-- A value of a class of the package that was loaded, and read since without coming across a DEFAULT of constructed type, is pickled as its class and the
bytes it was loaded from. Unpickling gives the value as it was when it was loaded. -/
theorem C67_package_partial (K : Pkg.Codecs) {n : Nat} {c : ClassId} (hc : HasTag ((Pkg.env K).cls c)) {data : Bytes} {strict : Bool} {v v' : Val}
    (hl : loadVal (Pkg.env K) (ops (Pkg.env K) n) c {} data strict = .ok v)
    (ht : ∀ w rest, data = w.bytes ++ rest → Ber 11 w → Tight (explicitOf (Pkg.env K) c {}).reverse w)
    (ha : AccessBy (Pkg.env K) (wary (Pkg.env K)) true v v') :
    ∃ b rest, data = b ++ rest ∧ (strict = true → rest = []) ∧ (∀ m, 1 ≤ m → ∃ w, pickle (ops (Pkg.env K) m) v' = .ok ((some c, b), w)) ∧
      unpickle (Pkg.env K) (ops (Pkg.env K) n) (some c, b) = .ok v := by
  obtain ⟨w, rest, h1, h2, h3, h4⟩ := C15_package_tagged_partial K rfl hc hl ht ha
  refine ⟨w.bytes, rest, h1, h3, fun m hm => ?_, load_front hl h1 h2⟩
  obtain ⟨u, hu⟩ := h4 m hm
  exact ⟨u, pickle_ok hu (by rw [class_access (wary_access ha), class_load rfl (notAny_of_hasTag hc) hl])⟩

/-! ### Where the code does not have the property -/

/-- The parameters of RSASSA-PSS, with a length that is not minimal, and nothing but a salt length: `dump()` gives the bytes back, but not any more when the
salt length has been read. -/
theorem C15_pss_fails (K : Pkg.Codecs) :
    (do let v ← loadVal (Pkg.env K) (ops (Pkg.env K) 20) Pkg.Id.algos.RSASSAPSSParams {} [0x30, 0x81, 5, 0xa2, 3, 2, 1, 32]
        let (b, _) ← (ops (Pkg.env K) 20).dump v false
        let (_, v) ← getItem (Pkg.env K) (ops (Pkg.env K) 20) v 2
        let (b', _) ← (ops (Pkg.env K) 20).dump v false
        .ok (b, b')) = (.ok ([0x30, 0x81, 5, 0xa2, 3, 2, 1, 32], [0x30, 5, 0xa2, 3, 2, 1, 32]) : Py (Bytes × Bytes)) := by kernel_rfl

/-! ### A trusted certificate -/

/-- A `TrustedCertificate` (x509.py:3053-3054), which is a certificate followed by auxiliary data, dumps to the bytes it was loaded from. -/
theorem C45_trusted_partial (K : Pkg.Codecs) (n m : Nat) (data : Bytes) (cert aux : Info) (hd : Elements data [cert.tlv, aux.tlv])
    (h1 : PlainLength cert.tlv) (h2 : PlainLength aux.tlv) (strict : Bool) (vs : List Val)
    (h : concatLoad (ops (Pkg.env K) n) [Pkg.Id.x509.Certificate, Pkg.Id.x509.CertificateAux] data strict = .ok vs) :
    ∃ vs', concatDump (ops (Pkg.env K) (m + 1)) false vs = .ok (data, vs') := by
  refine C45_dump_partial (Pkg.pkg_regular K) n m _ data [cert, aux] hd rfl strict vs ?_ ?_ h
  · intro c hc
    simp only [List.mem_cons, List.not_mem_nil, or_false] at hc
    rcases hc with rfl | rfl <;> trivial
  · exact .cons (.base trivial h1) (.cons (.base trivial h2) .nil)

/-! ### Non-vacuity -/

/-- An algorithm identifier: RSASSA-PSS with SHA-256, where a length is not minimal. -/
def pssBytes : Bytes :=
  [48, 67, 6, 9, 42, 134, 72, 134, 247, 13, 1, 1, 10, 48, 130, 0, 52, 160, 15, 48, 13, 6, 9, 96, 134, 72, 1, 101, 3, 4, 2, 1, 5, 0, 161, 28, 48, 26,
   6, 9, 42, 134, 72, 134, 247, 13, 1, 1, 8, 48, 13, 6, 9, 96, 134, 72, 1, 101, 3, 4, 2, 1, 5, 0, 162, 3, 2, 1, 32]

/-- A certificate, with a length that is not minimal. -/
def certBytes : Bytes :=
  [48, 130, 0, 217, 48, 129, 141, 160, 3, 2, 1, 2, 2, 1, 7, 48, 67, 6, 9, 42, 134, 72, 134, 247, 13, 1, 1, 10, 48, 130, 0, 52, 160, 15, 48, 13, 6, 9,
   96, 134, 72, 1, 101, 3, 4, 2, 1, 5, 0, 161, 28, 48, 26, 6, 9, 42, 134, 72, 134, 247, 13, 1, 1, 8, 48, 13, 6, 9, 96, 134, 72, 1, 101, 3, 4, 2, 1, 5,
   0, 162, 3, 2, 1, 32, 48, 0, 48, 30, 23, 13, 53, 48, 48, 49, 48, 49, 48, 48, 48, 48, 48, 48, 90, 23, 13, 53, 48, 48, 49, 48, 49, 48, 48, 48, 48, 48,
   48, 90, 48, 0, 48, 26, 48, 13, 6, 9, 42, 134, 72, 134, 247, 13, 1, 1, 1, 5, 0, 3, 9, 0, 48, 6, 2, 1, 15, 2, 1, 3, 48, 67, 6, 9, 42, 134, 72, 134,
   247, 13, 1, 1, 10, 48, 130, 0, 52, 160, 15, 48, 13, 6, 9, 96, 134, 72, 1, 101, 3, 4, 2, 1, 5, 0, 161, 28, 48, 26, 6, 9, 42, 134, 72, 134, 247, 13,
   1, 1, 8, 48, 13, 6, 9, 96, 134, 72, 1, 101, 3, 4, 2, 1, 5, 0, 162, 3, 2, 1, 32, 3, 2, 0, 1]

theorem front_tight {E : Env} {c : ClassId} {data : Bytes} {i : Info} (he : explicitOf E c {} = []) (h : parse data = .ok i)
    (hh : i.header.getLast? ≠ some 0x80) : ∀ w rest, data = w.bytes ++ rest → Ber 11 w → Tight (explicitOf E c {}).reverse w := by
  intro w rest hw hb
  obtain ⟨rest', h1, h2⟩ := (parse_ok_iff _ _).mp h
  obtain ⟨rfl, _⟩ := Ber_unique hb h2 (hw.symm.trans h1)
  rw [he]
  exact hh

/-- All of the algorithm identifier can be read. -/
example (K : Pkg.Codecs) : ∃ v v' x, HasTag ((Pkg.env K).cls Pkg.Id.algos.SignedDigestAlgorithm) ∧
    loadVal (Pkg.env K) (ops (Pkg.env K) 20) Pkg.Id.algos.SignedDigestAlgorithm {} pssBytes true = .ok v ∧
    (∀ w rest, pssBytes = w.bytes ++ rest → Ber 11 w → Tight (explicitOf (Pkg.env K) Pkg.Id.algos.SignedDigestAlgorithm {}).reverse w) ∧
    (wary (Pkg.env K) 20).native v = .ok (x, v') ∧ AccessBy (Pkg.env K) (wary (Pkg.env K)) true v v' := by
  have h : (loadVal (Pkg.env K) (ops (Pkg.env K) 20) Pkg.Id.algos.SignedDigestAlgorithm {} pssBytes true >>= fun v =>
      (wary (Pkg.env K) 20).native v >>= fun _ => .ok ()) = (.ok () : Py Unit) := by kernel_rfl
  obtain ⟨v, h1, h⟩ := py_bind.mp h
  obtain ⟨⟨x, v'⟩, h2, _⟩ := py_bind.mp h
  exact ⟨v, v', x, trivial, h1, front_tight (i := ⟨0, 1, 16, pssBytes.take 2, pssBytes.drop 2, []⟩) rfl (by decide +kernel) (by decide +kernel), h2, .native h2⟩

/-- Fields of the certificate can be read. -/
example (K : Pkg.Codecs) : ∃ v v' v'' x y, HasTag ((Pkg.env K).cls Pkg.Id.x509.Certificate) ∧
    loadVal (Pkg.env K) (ops (Pkg.env K) 20) Pkg.Id.x509.Certificate {} certBytes true = .ok v ∧
    (∀ w rest, certBytes = w.bytes ++ rest → Ber 11 w → Tight (explicitOf (Pkg.env K) Pkg.Id.x509.Certificate {}).reverse w) ∧
    getItem (Pkg.env K) (wary (Pkg.env K) 20) v 0 = .ok (x, v') ∧ getItem (Pkg.env K) (wary (Pkg.env K) 20) v' 2 = .ok (y, v'') ∧
    AccessBy (Pkg.env K) (wary (Pkg.env K)) true v v'' := by
  have h : (loadVal (Pkg.env K) (ops (Pkg.env K) 20) Pkg.Id.x509.Certificate {} certBytes true >>= fun v =>
      getItem (Pkg.env K) (wary (Pkg.env K) 20) v 0 >>= fun p => getItem (Pkg.env K) (wary (Pkg.env K) 20) p.2 2 >>= fun _ => .ok ()) =
      (.ok () : Py Unit) := by kernel_rfl
  obtain ⟨v, h1, h⟩ := py_bind.mp h
  obtain ⟨⟨x, v'⟩, h2, h⟩ := py_bind.mp h
  obtain ⟨⟨y, v''⟩, h3, _⟩ := py_bind.mp h
  exact ⟨v, v', v'', x, y, trivial, h1,
    front_tight (i := ⟨0, 1, 16, certBytes.take 4, certBytes.drop 4, []⟩) rfl (by decide +kernel) (by decide +kernel), h2, h3, .trans (.item h2) (.item h3)⟩

/-- A certificate followed by empty auxiliary data, whose length is not minimal. -/
example (K : Pkg.Codecs) : ∃ vs, concatLoad (ops (Pkg.env K) 20) [Pkg.Id.x509.Certificate, Pkg.Id.x509.CertificateAux]
    (certBytes ++ [0x30, 0x82, 0, 0]) true = .ok vs := by
  have h : (concatLoad (ops (Pkg.env K) 20) [Pkg.Id.x509.Certificate, Pkg.Id.x509.CertificateAux] (certBytes ++ [0x30, 0x82, 0, 0]) true >>= fun _ => .ok ()) =
      (.ok () : Py Unit) := by kernel_rfl
  obtain ⟨vs, h1, _⟩ := py_bind.mp h
  exact ⟨vs, h1⟩

end Asn1.Props
