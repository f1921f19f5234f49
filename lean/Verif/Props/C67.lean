import Verif.Model.Pickle
import Verif.Lemmas.ClassOf
import Verif.Props.C53

/-!
# C67: pickling

`pickle` is what `pickle.dumps` stores of a value, and `unpickle` what `pickle.loads` makes of it (Model/Pickle.lean).
-/

namespace Asn1.Props
open Asn1 Spec

theorem pickle_ok {r : Ops} {v w : Val} {c : ClassId} {b : Bytes} (h : r.dump v false = .ok (b, w)) (hc : v.classOf = some c) :
    pickle r v = .ok ((some c, b), w) := by
  simp only [pickle, h, hc, bind, Except.bind]

theorem notAny_of_hasTag {sh : Shape} (h : HasTag sh) : sh ≠ .any := by rintro rfl; exact h

theorem load_front {E : Env} {r : Ops} {c : ClassId} {p : Params} {data : Bytes} {strict : Bool} {v : Val} (h : loadVal E r c p data strict = .ok v)
    {w : TLV} {rest : Bytes} (hd : data = w.bytes ++ rest) (hb : Ber 11 w) : loadVal E r c p w.bytes = .ok v := by
  unfold loadVal at h ⊢
  obtain ⟨i, hi, h⟩ := py_bind.mp h
  have hi' : parse data = .ok i := by
    cases strict with
    | false => exact hi
    | true =>
      obtain ⟨h1, h2⟩ := (parse_strict_ok_iff _ _).mp hi
      exact (parse_ok_iff _ _).mpr ⟨[], by simpa using h1, h2⟩
  obtain ⟨rest', h1, h2⟩ := (parse_ok_iff _ _).mp hi'
  have hw : i.tlv = w := (Ber_unique h2 hb (by rw [← h1, hd])).1
  exact py_bind.mpr ⟨i, (parse_ok_iff _ _).mpr ⟨[], by rw [hw, List.append_nil], h2⟩, h⟩

/-- A value that was loaded, and read in whatever way since, is pickled as its class and the bytes it was loaded from. Unpickling gives the value as it was when
it was loaded. (The conditions are those of C15.) -/
theorem C67_loaded_partial {E : Env} (hE : PlainSchema E) {n : Nat} {c : ClassId} (hc : HasTag (E.cls c)) {data : Bytes} {strict : Bool} {v v' : Val}
    (hl : loadVal E (ops E n) c {} data strict = .ok v)
    (ht : ∀ w rest, data = w.bytes ++ rest → Ber 11 w → Tight (explicitOf E c {}).reverse w) (ha : Access E true v v') :
    ∃ b rest, data = b ++ rest ∧ (strict = true → rest = []) ∧ (∀ m, 1 ≤ m → ∃ w, pickle (ops E m) v' = .ok ((some c, b), w)) ∧
      unpickle E (ops E n) (some c, b) = .ok v := by
  obtain ⟨w, rest, h1, h2, h3, h4⟩ := C15_tagged_partial hE rfl hc hl ht ha
  refine ⟨w.bytes, rest, h1, h3, fun m hm => ?_, load_front hl h1 h2⟩
  obtain ⟨u, hu⟩ := h4 m hm
  exact ⟨u, pickle_ok hu (by rw [class_access ha, class_load rfl (notAny_of_hasTag hc) hl])⟩

/-- The same for a CHOICE, if no ANY in it that was not read is all there is of it. -/
theorem C67_choice_partial {E : Env} (hE : PlainSchema E) {n : Nat} {c : ClassId} (hc : E.cls c ≠ .any) {data : Bytes} {strict : Bool} {v v' : Val}
    (hl : loadVal E (ops E n) c {} data strict = .ok v) (ht : ∀ w rest, data = w.bytes ++ rest → Ber 11 w → Tidy E (some c) {} w) (ha : Access E true v v')
    (hu : unparsedAny v' = false) :
    ∃ b rest, data = b ++ rest ∧ (strict = true → rest = []) ∧ (∃ m₀, ∀ m, m₀ ≤ m → ∃ w, pickle (ops E m) v' = .ok ((some c, b), w)) ∧
      unpickle E (ops E n) (some c, b) = .ok v := by
  have hs : loadSpec E c = some c := by
    unfold loadSpec
    split
    · next h => exact absurd h hc
    · rfl
  obtain ⟨w, rest, h1, h2, h3, _, h4⟩ := C15_load_dump_partial hE rfl hl (by rw [hs]; exact ht) ha
  obtain ⟨m₀, h5⟩ := h4 hu
  refine ⟨w.bytes, rest, h1, h3, ⟨m₀, fun m hm => ?_⟩, load_front hl h1 h2⟩
  obtain ⟨u, hu⟩ := h5 m hm
  exact ⟨u, pickle_ok hu (by rw [class_access ha, class_load rfl hc hl])⟩

/-- A value of a class of the package, built from a native value, is pickled as its class and its DER encoding. Unpickling gives a value with the same native
value. (The conditions are those of C53.) -/
theorem C67_built_partial (K : Pkg.Codecs) {c : ClassId} {x : PyVal} {b : Piece} {t : TLV} {n : PyVal} (hc : c < Pkg.size)
    (h : Gives (Pkg.env K) (· < Pkg.size) c x b n) (hd : DerElement (Pkg.env K) c {} b t) :
    ∃ N, ∀ j ≥ N, ∃ v w u z, (ops (Pkg.env K) j).construct c {} x = .ok v ∧ pickle (ops (Pkg.env K) j) v = .ok ((some c, t.bytes), w) ∧
      unpickle (Pkg.env K) (ops (Pkg.env K) j) (some c, t.bytes) = .ok u ∧ u.classOf = some c ∧ (ops (Pkg.env K) j).native u = .ok (n, z) := by
  have hu : Usable (Pkg.env K) (· < Pkg.size) c {} := usableB_sound (D := []) (fun e he => by cases he) (by simp [usableB, goodTagsB, hc])
  obtain ⟨N, h1⟩ := C53_package_partial K hc h hd
  have hm := gives_makes (Pkg.pkg_types K) (Pkg.pkg_makable K) h hu.mem
  obtain ⟨v, m1, _, m3, _⟩ := hm.made {} hu.tags hu.untagged (fun _ => rfl)
  obtain ⟨M, h2⟩ := m1
  refine ⟨max N M, fun j hj => ?_⟩
  obtain ⟨v', w, bytes, u, z, a1, a2, a3, a4, a5⟩ := h1 j (by omega)
  rw [h2 j (by omega)] at a1
  cases a1
  subst a3
  exact ⟨v, w, u, z, h2 j (by omega), pickle_ok a2 (by rw [classOf_mark, m3]), a4, class_load rfl hm.notAny a4, a5⟩

/-! ### Where the code does not have the property -/

/-- The field tags of a value are not pickled: a value loaded with tags, as those of fields are, whose outermost tag is not that of its class can be pickled,
but what is stored is always refused when it is unpickled. -/
theorem C67_tagged_fails {E : Env} (hE : PlainSchema E) {n : Nat} {c : ClassId} (hc : HasTag (E.cls c)) (he : (E.cls c).tagging.2.2.2 = []) {p : Params}
    (hp : p.default = none) (hn : p.noExplicit = false) {data : Bytes} {v v' : Val} (hl : loadVal E (ops E (n + 1)) c p data = .ok v)
    (ht : ∀ w rest, data = w.bytes ++ rest → Ber 11 w → Tight (explicitOf E c p).reverse w) (ha : Access E true v v')
    (hne : (outermost ((E.cls c).tagging.1, (E.cls c).tagging.2.1) p).1 ≠ (E.cls c).tagging.1) :
    ∃ b, (∀ m, 1 ≤ m → ∃ w, pickle (ops E m) v' = .ok ((some c, b), w)) ∧ ∀ m, 1 ≤ m → unpickle E (ops E m) (some c, b) = .error .valueError := by
  obtain ⟨w, rest, h1, h2, h3, h4⟩ := C15_tagged_partial hE hp hc hl ht ha
  refine ⟨w.bytes, fun m hm => ?_, fun m hm => ?_⟩
  · obtain ⟨u, hu⟩ := h4 m hm
    exact ⟨u, pickle_ok hu (by rw [class_access ha, class_load hp (notAny_of_hasTag hc) hl])⟩
  · obtain ⟨k, rfl⟩ : ∃ k, m = k + 1 := ⟨m - 1, by omega⟩
    obtain ⟨ν, kc, q, f, q1, _, q3⟩ := load_obj E n c hc he p hp hn
    obtain ⟨ν', kc', q', f', r1, r2, r3⟩ := load_obj E k c hc he {} rfl rfl
    have hq := r2 rfl
    rw [hq] at r1
    have hw : w.cls ≠ q'.cls := by
      rw [q3, h1] at hl
      cases ho : loadObj kc (Shape.otherTags (E.cls c)) q (w.bytes ++ rest) with
      | error e => rw [ho] at hl; cases hl
      | ok o =>
        rw [(loadObj_outer h2 ho).1, q1]
        rw [show q'.cls = (E.cls c).tagging.1 from congrArg Prod.fst r1]
        exact hne
    show loadVal E (ops E (k + 1)) c {} w.bytes = _
    have := loadObj_refused (k := kc') (bad := Shape.otherTags (E.cls c)) hq h2 (.inl hw) []
    rw [List.append_nil] at this
    rw [r3, this]
    rfl

/-- An absent optional field can be pickled, but not unpickled. -/
theorem C67_absent_fails (E : Env) (n : Nat) :
    pickle (ops E (n + 1)) .void = .ok ((none, []), .void) ∧ unpickle E (ops E (n + 1)) (none, []) = .error .valueError := ⟨rfl, rfl⟩

/-! ### Non-vacuity -/

/-- Loads, reads the contents, pickles and unpickles, and writes the result. -/
def throughPickle (c : ClassId) (p : Params) (data : Bytes) : Py (Option ClassId × Bytes × Bytes) := do
  let v ← loadVal plainEnv (ops plainEnv 9) c p data
  let (_, v) ← (ops plainEnv 9).contents v
  let (q, _) ← pickle (ops plainEnv 9) v
  let u ← unpickle plainEnv (ops plainEnv 9) q
  let (b, _) ← (ops plainEnv 9).dump u false
  .ok (q.1, q.2, b)

example : throughPickle 7 {} keepBytes = .ok (some 7, keepBytes, keepBytes) := by decide +kernel
example : throughPickle 2 {} [2, 2, 0, 5] = .ok (some 2, [2, 2, 0, 5], [2, 2, 0, 5]) := by decide +kernel
example : throughPickle 0 { implicit := some (2, 1) } [0x81, 1, 7] = .error .valueError := by decide +kernel

example : ∃ v, loadVal plainEnv (ops plainEnv 9) 0 { explicit := [(2, 1)] } [0xa1, 3, 2, 1, 7] = .ok v ∧ HasTag (plainEnv.cls 0) ∧
    (plainEnv.cls 0).tagging.2.2.2 = [] ∧
    (outermost ((plainEnv.cls 0).tagging.1, (plainEnv.cls 0).tagging.2.1) { explicit := [(2, 1)] }).1 ≠ (plainEnv.cls 0).tagging.1 :=
  ⟨_, rfl, trivial, rfl, by decide⟩

end Asn1.Props
