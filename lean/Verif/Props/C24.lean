import Verif.Lemmas.Der
import Verif.Lemmas.ForceMain
import Verif.Lemmas.ForceSame
import Verif.Props.C20
import Verif.Props.C44
import Verif.Props.C51
import Verif.Props.C53

/-!
# C24 — forced re-encoding

`Dec E c p t a`: the element `t` is a BER encoding of the value `a` (Spec/Schema.lean). `Der E c p t a`: it is the DER encoding
(Spec/Der.lean). `Made E U q c p v a`: the instance `v` was loaded, constructed or changed so that it is `a` (Spec/History.lean).
`Works`: the only error possible is that there are 256 ^ 127 bytes or more to write.

The second part is about all kinds of types (Spec/Forced.lean). `Forced E U (some c) none p t n t' n'`: the element `t` is an encoding of the value `n`, and
`t'` is the element that should be written for it, which has the value `n'`. `Forceable E N v n b`: the instance can be read and written by force, in any order
and any number of times; the value is always `n` and the bytes always `b`. `Shuffled`: values are the same up to the order in lists. `Types`,
`Usable`: as for C50.
-/

namespace Asn1.Props
open Asn1 Spec

section
variable {E : Env} {U : ClassId → Prop} {c : ClassId} {p : Params}

/-- `dump(force=True)` gives the DER encoding of the value. It is loaded, strictly or not, as the same native value, which is also what
is read from the instance afterwards. Forcing a second time gives the same bytes. Missing: NULL, which keeps its header
(`C24_null_kept`, `C24_null_cut`), named bits (`C24_named_lost`), SET OF, which is sorted (`C20_sorted`), SET, ANY, parsable strings, and elements
after those of the last field of a SEQUENCE (`C24_extra_dropped`). -/
theorem C24_forced_partial (hU : Universe E U) (hN : NoNull E U) {q : Bool} {v v' : Val} {a : AVal} (hv : Made E U q c p v a) {n : Nat} {b : Bytes}
    (hd : (ops E n).dump v true = .ok (b, v')) :
    (∃ t : TLV, t.bytes = b ∧ Der E c p t a) ∧
    (∀ strict m, a.depth + 3 ≤ m → ∃ w w', loadVal E (ops E m) c p b strict = .ok w ∧ (ops E m).native w = .ok (a.native E c, w')) ∧
    (∀ m x v'', (ops E m).native v' = .ok (x, v'') → x = a.native E c) ∧
    ∀ m b' v'', (ops E m).dump v' true = .ok (b', v'') → b' = b := by
  obtain ⟨hg, hr⟩ := made_rep hU hv
  obtain ⟨t, rfl, ht⟩ := (canon_ops hU hN n).dump hg hr hd
  obtain ⟨hr', t', ht', hdec, _⟩ := (sim_ops hU n).dump hg hr hd
  refine ⟨⟨t, rfl, ht⟩, fun strict m hm => ?_, fun m x v'' hx => ((sim_ops hU m).native hg hr' hx).1, fun m b' v'' hb' => ?_⟩
  · obtain ⟨w, w', h1, _, h3⟩ := load_total (n := m) (strict := strict) hU hg hdec hm
    exact ⟨w, w', by rw [← ht']; exact h1, h3⟩
  · obtain ⟨t2, rfl, ht2⟩ := (canon_ops hU hN m).dump hg hr' hb'
    rw [der_unique hU hg.mem ht2 ht]

/-- The case of the property's wording: `t` is any BER encoding of the value, loaded, with or without bytes after it. Forcing works
if the values in it have encodings of their own (`Ready`), and gives what the theorem before says. -/
theorem C24_loaded_partial (hU : Universe E U) (hN : NoNull E U) (hg : GoodUse E U c p) {t : TLV} {a : AVal} (ht : Dec E c p t a) (hr : Ready E c a)
    {rest : Bytes} {strict : Bool} {n : Nat} {v : Val} (hv : loadVal E (ops E n) c p (t.bytes ++ rest) strict = .ok v) (hn : a.depth + 3 ≤ n) :
    Works ((ops E n).dump v true) ∧
    ∀ b v', (ops E n).dump v true = .ok (b, v') →
      (∃ t' : TLV, t'.bytes = b ∧ Der E c p t' a) ∧
      (∃ w w', loadVal E (ops E n) c p b true = .ok w ∧ (ops E n).native w = .ok (a.native E c, w')) ∧
      (∃ w, (ops E n).native v = .ok (a.native E c, w)) ∧
      ∀ b' v'', (ops E n).dump v' true = .ok (b', v'') → b' = b := by
  have hm : Made E U false c p v a := ⟨1, .loaded (rest := rest) (n := n) (strict := strict) hg ht (fun h => by cases h) hv⟩
  have hr' := (made_rep hU hm).2
  obtain ⟨i, rfl, h1⟩ := load_build hU hg.mem (dec_ber ht) hv
  obtain ⟨v2, h2, h3⟩ := build_total (n := n) hU hg ht (by omega)
  rw [h1] at h2
  cases h2
  obtain ⟨⟨x, w⟩, hx⟩ := native_total hU _ (Nat.le_refl _) hg h3 hn
  have h4 := ((sim_ops hU n).native hg hr' hx).1
  subst h4
  refine ⟨(working_ops hU (N := a.depth + 1) (by omega)).dump true hg hr' hr (dec_whole ht) (by omega), fun b v' hb => ?_⟩
  obtain ⟨k1, k2, _, k4⟩ := C24_forced_partial hU hN hm hb
  exact ⟨k1, k2 true n hn, ⟨w, hx⟩, k4 n⟩

/-- All instances with the same value, however they were encoded or made, are forced to the same bytes. -/
theorem C24_canonical_partial (hU : Universe E U) (hN : NoNull E U) {q q' : Bool} {v w v' w' : Val} {a : AVal} (hv : Made E U q c p v a)
    (hw : Made E U q' c p w a) {n m : Nat} {b b' : Bytes} (hb : (ops E n).dump v true = .ok (b, v')) (hb' : (ops E m).dump w true = .ok (b', w')) :
    b = b' := by
  obtain ⟨hg, hr⟩ := made_rep hU hv
  obtain ⟨_, hr'⟩ := made_rep hU hw
  obtain ⟨t, rfl, ht⟩ := (canon_ops hU hN n).dump hg hr hb
  obtain ⟨t2, rfl, ht2⟩ := (canon_ops hU hN m).dump hg hr' hb'
  rw [der_unique hU hg.mem ht2 ht]

/-- What is DER already is not changed. -/
theorem C24_der_unchanged_partial (hU : Universe E U) (hN : NoNull E U) {q : Bool} {v v' : Val} {t : TLV} {a : AVal} (hv : Made E U q c p v a)
    (ht : Der E c p t a) {n : Nat} {b : Bytes} (hb : (ops E n).dump v true = .ok (b, v')) : b = t.bytes := by
  obtain ⟨hg, hr⟩ := made_rep hU hv
  obtain ⟨t2, rfl, ht2⟩ := (canon_ops hU hN n).dump hg hr hb
  rw [der_unique hU hg.mem ht2 ht]

end

/-! ### All kinds of types -/

section
variable {E : Env} {U : ClassId → Prop}

/-- Any encoding loads, with whatever behind it unless loading is strict, and what is loaded is encoded by force as told by `Forced`, also
after it has been read as a whole or in parts, and any number of times. Missing are SETs, which fail (`C24_set_fails`), and
values of primitive types that do not have an encoding of their own. NULL, SEQUENCEs of no particular class and what is inside strings keep their
encoding, see Spec/Forced.lean and `C24_null_kept`, `C24_open_kept`, `C24_inner_kept`. -/
theorem C24_kinds_partial (hU : Types E U) {c : ClassId} {p : Params} {t t' : TLV} {n n' : PyVal} (hc : E.cls c ≠ .any) (hg : Usable E U c p)
    (h : Forced E U (some c) none p t n t' n') :
    ∃ N, ∀ j ≥ N, ∀ strict rest, (strict = true → rest = []) →
      ∃ v, loadVal E (ops E j) c p (t.bytes ++ rest) strict = .ok v ∧ Forceable E N v n t'.bytes :=
  forced_load hU hc hg h

/-- The same without a class. -/
theorem C24_kinds_any_partial (hU : Types E U) {c : ClassId} {t t' : TLV} {n n' : PyVal} (hc : E.cls c = .any) (h : Forced E U none none {} t n t' n') :
    ∃ N, ∀ j ≥ N, ∀ strict rest, (strict = true → rest = []) →
      ∃ v, loadVal E (ops E j) c {} (t.bytes ++ rest) strict = .ok v ∧ Forceable E N v n t'.bytes :=
  forced_load_free hU hc h

/-- What is written is an encoding of the same value, up to the order of the elements of SET OFs. It loads strictly, as that value, and
forcing what is loaded gives the same bytes. -/
theorem C24_kinds_again_partial (hU : Types E U) {c : ClassId} {p : Params} {t t' : TLV} {n n' : PyVal} (hc : E.cls c ≠ .any) (hg : Usable E U c p)
    (h : Forced E U (some c) none p t n t' n') :
    Enc E U (some c) none p t n ∧ Enc E U (some c) none p t' n' ∧ Shuffled n n' ∧
    ∃ N, ∀ j ≥ N, ∃ w, loadVal E (ops E j) c p t'.bytes true = .ok w ∧ Forceable E N w n' t'.bytes := by
  obtain ⟨h1, h2, h3, _⟩ := forced_enc h
  refine ⟨h1, h2, forced_shuffled h, ?_⟩
  obtain ⟨N, hN⟩ := forced_load hU hc hg h3
  refine ⟨N, fun j hj => ?_⟩
  have := hN j hj true [] (fun _ => rfl)
  rwa [List.append_nil] at this

/-- In short: load, force, load again, read and force. -/
theorem C24_kinds_bytes_partial (hU : Types E U) {c : ClassId} {p : Params} {t t' : TLV} {n n' : PyVal} (hc : E.cls c ≠ .any) (hg : Usable E U c p)
    (h : Forced E U (some c) none p t n t' n') :
    ∃ N, ∀ j ≥ N, ∃ v v' v'' w w' w'', loadVal E (ops E j) c p t.bytes true = .ok v ∧ (ops E j).dump v true = .ok (t'.bytes, v') ∧
      (ops E j).native v' = .ok (n, v'') ∧ loadVal E (ops E j) c p t'.bytes true = .ok w ∧ (ops E j).native w = .ok (n', w') ∧
      (ops E j).dump w' true = .ok (t'.bytes, w'') := by
  obtain ⟨N, hN⟩ := C24_kinds_partial hU hc hg h
  obtain ⟨_, _, _, M, hM⟩ := C24_kinds_again_partial hU hc hg h
  refine ⟨max N M, fun j hj => ?_⟩
  obtain ⟨v, k1, k2⟩ := hN j (by omega) true [] (fun _ => rfl)
  obtain ⟨w, l1, l2⟩ := hM j (by omega)
  rw [List.append_nil] at k1
  obtain ⟨v', k3, k4, _⟩ := (renewing_forceable E N).force k2 j (by omega)
  obtain ⟨v'', k5, _, _⟩ := (renewing_forceable E N).native k4 j (by omega)
  obtain ⟨w', l3, l4, _⟩ := (renewing_forceable E M).native l2 j (by omega)
  obtain ⟨w'', l5, _, _⟩ := (renewing_forceable E M).force l4 j (by omega)
  exact ⟨v, v', v'', w, w', w'', k1, k3, k5, l1, l3, l5⟩

/-- The classes of the package. -/
theorem C24_package_partial (K : Pkg.Codecs) {c : ClassId} (hs : c < Pkg.size) (hc : (Pkg.env K).cls c ≠ .any) {t t' : TLV} {n n' : PyVal}
    (h : Forced (Pkg.env K) (· < Pkg.size) (some c) none {} t n t' n') :
    ∃ N, ∀ j ≥ N, ∃ v v' v'' w w' w'', loadVal (Pkg.env K) (ops (Pkg.env K) j) c {} t.bytes true = .ok v ∧
      (ops (Pkg.env K) j).dump v true = .ok (t'.bytes, v') ∧ (ops (Pkg.env K) j).native v' = .ok (n, v'') ∧
      loadVal (Pkg.env K) (ops (Pkg.env K) j) c {} t'.bytes true = .ok w ∧ (ops (Pkg.env K) j).native w = .ok (n', w') ∧
      (ops (Pkg.env K) j).dump w' true = .ok (t'.bytes, w'') :=
  C24_kinds_bytes_partial (Pkg.pkg_types K) hc (usableB_sound (D := []) (fun e he => by cases he) (by simp [usableB, goodTagsB, hs])) h

end

/-! ### Where the library does not do what the property says -/

/-- NULL, a BIT STRING with the names `{0: 'a'}`, a SET, SEQUENCE itself and an OCTET STRING that can have something inside. -/
def forcedEnv : Env where
  cls
    | 1 => .leaf (.null { cls := 0, method := 0, tag := 5, contents := some [] }) []
    | 2 => .leaf (.named [(0, "a")] { cls := 0, method := 0, tag := 3 }) []
    | 3 => .seq { cls := 0, method := 1, tag := 17 } [] true [⟨"a", 0, {}⟩] none
    | 4 => .seq { cls := 0, method := 1, tag := 16 } [] false [] none
    | 5 => .parsable { cls := 0, method := 0, tag := 4 } false
    | _ => .leaf intLeaf []
  universal tag := if tag = 2 then some 0 else none

/-- `Null.load(b'\x05\x81\x00').dump(force=True)` is not DER. -/
theorem C24_null_kept : ∃ v v', loadVal forcedEnv (ops forcedEnv 2) 1 {} [5, 0x81, 0] true = .ok v ∧
    (ops forcedEnv 2).dump v true = .ok ([5, 0x81, 0], v') :=
  ⟨_, _, rfl, rfl⟩

/-- `Null.load(b'\x05\x01\x00')` is accepted, and `dump(force=True)` writes only the header, which cannot be loaded. -/
theorem C24_null_cut : (∃ v v', loadVal forcedEnv (ops forcedEnv 2) 1 {} [5, 1, 0] true = .ok v ∧
    (ops forcedEnv 2).dump v true = .ok ([5, 1], v')) ∧ loadVal forcedEnv (ops forcedEnv 2) 1 {} [5, 1] true = .error .valueError :=
  ⟨⟨_, _, rfl, rfl⟩, rfl⟩

/-- Bits without name are lost: the bits 0 (`a`) and 1 are loaded, only `a` is written. -/
theorem C24_named_lost : ((do
      let v ← loadVal forcedEnv (ops forcedEnv 2) 2 {} [3, 2, 6, 0xc0] true
      let (x, _) ← (ops forcedEnv 2).native v
      match x with
      | .scalar s => .ok s
      | _ => .error .typeError) = .ok (.keys [.name "a", .index 1])) ∧
    (do
      let v ← loadVal forcedEnv (ops forcedEnv 2) 2 {} [3, 2, 6, 0xc0] true
      (ops forcedEnv 2).dump v true).map Prod.fst = .ok [3, 2, 7, 0x80] := by
  decide +kernel

/-- `Inner.load(...)` with an element after the last field, which `native` has (`C17_extra_accepted`): it is not written. -/
theorem C24_extra_dropped : (do
    let v ← loadVal schemaEnv (ops schemaEnv 8) 4 {} [0x30, 6, 2, 1, 7, 2, 1, 8] true
    (ops schemaEnv 8).dump v true).map Prod.fst = .ok [0x30, 3, 2, 1, 7] := by
  decide +kernel

/-- A SET that was loaded cannot be encoded by force: `AttributeError`. Reading it first helps. With an indefinite length even `dump()` fails. -/
theorem C24_set_fails : (do
      let v ← loadVal forcedEnv (ops forcedEnv 8) 3 {} [0x31, 3, 2, 1, 7] true
      (ops forcedEnv 8).dump v true).map Prod.fst = .error .attributeError ∧
    (do
      let v ← loadVal forcedEnv (ops forcedEnv 8) 3 {} [0x31, 3, 2, 1, 7] true
      let (_, v) ← (ops forcedEnv 8).native v
      (ops forcedEnv 8).dump v true).map Prod.fst = .ok [0x31, 3, 2, 1, 7] ∧
    (do
      let v ← loadVal forcedEnv (ops forcedEnv 8) 3 {} [0x31, 0x80, 2, 1, 7, 0, 0] true
      (ops forcedEnv 8).dump v false).map Prod.fst = .error .attributeError := by
  decide +kernel

/-- `Sequence.load(b'\x30\x04\x02\x81\x01\x07').dump(force=True)` is not DER. -/
theorem C24_open_kept : (do
      let v ← loadVal forcedEnv (ops forcedEnv 8) 4 {} [0x30, 4, 2, 0x81, 1, 7] true
      let (_, v) ← (ops forcedEnv 8).native v
      (ops forcedEnv 8).dump v true).map Prod.fst = .ok [0x30, 4, 2, 0x81, 1, 7] := by
  decide +kernel

/-- What is inside a string is encoded again only if it has been looked at before: the bytes written depend on what was read. -/
theorem C24_inner_kept : (do
      let v ← loadVal forcedEnv (ops forcedEnv 8) 5 {} [4, 4, 2, 0x81, 1, 7] true
      (ops forcedEnv 8).dump v true).map Prod.fst = .ok [4, 4, 2, 0x81, 1, 7] ∧
    (do
      let v ← loadVal forcedEnv (ops forcedEnv 8) 5 {} [4, 4, 2, 0x81, 1, 7] true
      let (_, v) ← parsedOf forcedEnv (ops forcedEnv 8) v
      (ops forcedEnv 8).dump v true).map Prod.fst = .ok [4, 3, 2, 1, 7] := by
  decide +kernel

/-- BIT STRINGs read as octets and as a number. -/
def bitKindsEnv : Env where
  cls
    | 1 => .leaf (.octetBits { cls := 0, method := 0, tag := 3 }) []
    | 2 => .leaf (.intBits { cls := 0, method := 0, tag := 3 }) []
    | _ => .leaf intLeaf []
  universal _ := none

/-- A BIT STRING of four bits that is read as octets or as a number is written with eight bits: `OctetBitString.load(b'\x03\x02\x04\xf0').dump(force=True)`, and the
same with `IntegerBitString`, where the bits are even other ones. Leading bits that are zero are kept only in whole octets. -/
theorem C24_bits_fails : (do
      let v ← loadVal bitKindsEnv (ops bitKindsEnv 2) 1 {} [3, 2, 4, 0xf0] true
      (ops bitKindsEnv 2).dump v true).map Prod.fst = .ok [3, 2, 0, 0xf0] ∧
    (do
      let v ← loadVal bitKindsEnv (ops bitKindsEnv 2) 2 {} [3, 2, 4, 0xf0] true
      (ops bitKindsEnv 2).dump v true).map Prod.fst = .ok [3, 2, 0, 0x0f] ∧
    (do
      let v ← loadVal bitKindsEnv (ops bitKindsEnv 2) 2 {} [3, 1, 0] true
      (ops bitKindsEnv 2).dump v true).map Prod.fst = .ok [3, 2, 0, 0] := by
  decide +kernel

/-! ### Cases that meet the hypotheses -/

theorem schema_noNull : NoNull schemaEnv (fun _ => True) := by
  intro c o bad _ h
  match c, h with
  | 0, h | 1, h | 2, h | 3, h | 4, h | 5, h | 6, h | n + 7, h => cases h

/-- The list `[1, 2]` in the constructed form with an indefinite length, and a length of two octets inside. -/
def looseList : Bytes := [0x30, 0x80, 2, 0x81, 1, 1, 2, 1, 2, 0, 0]

/-- It is an encoding of the list, -/
theorem looseList_dec : ∃ t : TLV, t.bytes = looseList ∧ Dec schemaEnv 2 {} t (.list [.prim (.int 1), .prim (.int 2)]) := by
  have b1 : ∀ n, Ber (n + 1) ⟨0, 0, 2, [2, 0x81, 1], [1], []⟩ := fun n =>
    .definite (id := [2]) (len := [0x81, 1]) ⟨by decide, by decide, .inl ⟨by decide, rfl⟩⟩ (.inr ⟨[1], by simp, by simp, rfl, rfl⟩)
  have b2 : ∀ n, Ber (n + 1) ⟨0, 0, 2, [2, 1], [2], []⟩ := fun n => ber_short (cs := [2]) (by omega) (by omega) (by omega) (by simp)
  have d1 : Dec schemaEnv 0 {} ⟨0, 0, 2, [2, 0x81, 1], [1], []⟩ (.prim (.int 1)) :=
    .leaf rfl ⟨b1 10, .nil, rfl⟩ (.inl ⟨rfl, fun o h => (by cases h), _, by rfl, by rfl⟩)
  have d2 : Dec schemaEnv 0 {} ⟨0, 0, 2, [2, 1], [2], []⟩ (.prim (.int 2)) :=
    .leaf rfl ⟨b2 10, .nil, rfl⟩ (.inl ⟨rfl, fun o h => (by cases h), _, by rfl, by rfl⟩)
  refine ⟨⟨0, 1, 16, [0x30] ++ [0x80], ([⟨0, 0, 2, [2, 0x81, 1], [1], []⟩, ⟨0, 0, 2, [2, 1], [2], []⟩].map TLV.bytes).flatten, [0, 0]⟩, rfl,
    .seqOf (ch := 0) rfl ⟨.indefinite _ ⟨by decide, by decide, .inl ⟨by decide, rfl⟩⟩ ?_ ?_, .nil, rfl⟩ rfl (.cons d1 (.cons d2 .nil))⟩
  · intro v hv
    simp only [List.mem_cons, List.not_mem_nil, or_false] at hv
    rcases hv with rfl | rfl
    · exact b1 9
    · exact b2 9
  · decide

/-- so it is forced to DER by `C24_loaded_partial`. -/
example : ∃ v, loadVal schemaEnv (ops schemaEnv 8) 2 {} looseList true = .ok v ∧ Works ((ops schemaEnv 8).dump v true) := by
  obtain ⟨t, h1, h2⟩ := looseList_dec
  obtain ⟨v, _, hv, _⟩ := load_total (n := 8) (strict := true) schema_universe (goodUse_plain trivial) h2 (by decide)
  refine ⟨v, by rw [← h1]; exact hv, ?_⟩
  exact (C24_loaded_partial schema_universe schema_noNull (goodUse_plain trivial) h2 (ints_ready (ns := [1, 2]) (by decide)) (rest := []) (strict := true)
    (by rw [List.append_nil]; exact hv) (by decide)).1

/-- What is written. -/
example : (do
    let v ← loadVal schemaEnv (ops schemaEnv 8) 2 {} looseList true
    let (b, v) ← (ops schemaEnv 8).dump v true
    let (b', _) ← (ops schemaEnv 8).dump v true
    .ok (b, b')) = .ok ([0x30, 6, 2, 1, 1, 2, 1, 2], [0x30, 6, 2, 1, 1, 2, 1, 2]) := by
  decide +kernel

/-- The RSA public key of C51 with lengths in more octets than needed, one of them indefinite, and a modulus in two octets. -/
def looseSpki : Bytes :=
  [0x30, 0x81, 0x1d, 0x30, 0x0d, 6, 9, 0x2a, 0x86, 0x48, 0x86, 0xf7, 0x0d, 1, 1, 1, 5, 0, 3, 0x0c, 0, 0x30, 0x80, 2, 2, 0, 0x0f, 2, 1, 3, 0, 0]

theorem looseSpki_forced (K : Pkg.Codecs) : ∃ t t' : TLV, t.bytes = looseSpki ∧ t'.bytes = spkiBytes ∧
    Forced (Pkg.env K) (· < Pkg.size) (some Pkg.Id.keys.PublicKeyInfo) none {} t spkiValue t' spkiValue := by
  have d1 : DerHead ⟨0, 0, 6, [6, 9], [0x2a, 0x86, 0x48, 0x86, 0xf7, 0x0d, 1, 1, 1], []⟩ := der_short (cs := [0x2a, 0x86, 0x48, 0x86, 0xf7, 0x0d, 1, 1, 1]) (by omega) (by omega) (by omega) (by simp)
  have d3 : DerHead ⟨0, 1, 16, [0x30, 0x0d], [6, 9, 0x2a, 0x86, 0x48, 0x86, 0xf7, 0x0d, 1, 1, 1, 5, 0], []⟩ := der_short (cs := [6, 9, 0x2a, 0x86, 0x48, 0x86, 0xf7, 0x0d, 1, 1, 1, 5, 0]) (by omega) (by omega) (by omega) (by simp)
  have d4 : DerHead ⟨0, 0, 2, [2, 1], [0x0f], []⟩ := der_short (cs := [0x0f]) (by omega) (by omega) (by omega) (by simp)
  have d5 : DerHead ⟨0, 0, 2, [2, 1], [3], []⟩ := der_short (cs := [3]) (by omega) (by omega) (by omega) (by simp)
  have d6 : DerHead ⟨0, 1, 16, [0x30, 6], [2, 1, 0x0f, 2, 1, 3], []⟩ := der_short (cs := [2, 1, 0x0f, 2, 1, 3]) (by omega) (by omega) (by omega) (by simp)
  have d7 : DerHead ⟨0, 0, 3, [3, 9], [0, 0x30, 6, 2, 1, 0x0f, 2, 1, 3], []⟩ := der_short (cs := [0, 0x30, 6, 2, 1, 0x0f, 2, 1, 3]) (by omega) (by omega) (by omega) (by simp)
  have d8 : DerHead ⟨0, 1, 16, [0x30, 0x1a], spkiBytes.drop 2, []⟩ := der_short (cs := spkiBytes.drop 2) (by omega) (by omega) (by omega) (by decide)
  have b2 : Ber 11 ⟨0, 0, 5, [5, 0], [], []⟩ := ber_short (cs := []) (by omega) (by omega) (by omega) (by simp)
  have b4 : ∀ n, Ber (n + 1) ⟨0, 0, 2, [2, 2], [0, 0x0f], []⟩ := fun n => ber_short (cs := [0, 0x0f]) (by omega) (by omega) (by omega) (by simp)
  have b5 : ∀ n, Ber (n + 1) ⟨0, 0, 2, [2, 1], [3], []⟩ := fun n => ber_short (cs := [3]) (by omega) (by omega) (by omega) (by simp)
  have b6 : Ber 11 ⟨0, 1, 16, [0x30] ++ [0x80], ([⟨0, 0, 2, [2, 2], [0, 0x0f], []⟩, ⟨0, 0, 2, [2, 1], [3], []⟩].map TLV.bytes).flatten, [0, 0]⟩ := by
    refine .indefinite _ ⟨by decide, by decide, .inl ⟨by decide, rfl⟩⟩ ?_ (by decide)
    intro v hv
    simp only [List.mem_cons, List.not_mem_nil, or_false] at hv
    rcases hv with rfl | rfl
    · exact b4 9
    · exact b5 9
  have b7 : Ber 11 ⟨0, 0, 3, [3, 0x0c], [0, 0x30, 0x80, 2, 2, 0, 0x0f, 2, 1, 3, 0, 0], []⟩ := ber_short (cs := [0, 0x30, 0x80, 2, 2, 0, 0x0f, 2, 1, 3, 0, 0]) (by omega) (by omega) (by omega) (by simp)
  have b8 : Ber 11 ⟨0, 1, 16, [0x30] ++ [0x81, 0x1d], looseSpki.drop 3, []⟩ :=
    .definite (id := [0x30]) (len := [0x81, 0x1d]) ⟨by decide, by decide, .inl ⟨by decide, rfl⟩⟩ (.inr ⟨[0x1d], by simp, by simp, rfl, rfl⟩)
  have e1 : Forced (Pkg.env K) (· < Pkg.size) (some Pkg.Id.keys.PublicKeyAlgorithmId) none {} ⟨0, 0, 6, [6, 9], [0x2a, 0x86, 0x48, 0x86, 0xf7, 0x0d, 1, 1, 1], []⟩
      (.scalar (.str "rsa".toList)) ⟨0, 0, 6, [6, 9], [0x2a, 0x86, 0x48, 0x86, 0xf7, 0x0d, 1, 1, 1], []⟩ (.scalar (.str "rsa".toList)) :=
    .leaf rfl (fun o h => by cases h) ⟨derHead_ber d1, .nil, rfl⟩ (.inl ⟨rfl, readsB_sound (by decide +kernel)⟩) ⟨.nil d1, rfl⟩ rfl (writtenB_sound (by kernel_rfl))
  have e2 : Forced (Pkg.env K) (· < Pkg.size) (some Pkg.Id.core.Null) none { optional := true } ⟨0, 0, 5, [5, 0], [], []⟩ (.scalar .none)
      ⟨0, 0, 5, [5, 0], [], []⟩ (.scalar .none) := .null rfl ⟨b2, .nil, rfl⟩ rfl rfl (.inl ⟨by decide, rfl⟩)
  have e3 : Forced (Pkg.env K) (· < Pkg.size) (some Pkg.Id.keys.PublicKeyAlgorithm) none {}
      ⟨0, 1, 16, [0x30, 0x0d], [6, 9, 0x2a, 0x86, 0x48, 0x86, 0xf7, 0x0d, 1, 1, 1, 5, 0], []⟩ spkiAlgorithm
      ⟨0, 1, 16, [0x30, 0x0d], [6, 9, 0x2a, 0x86, 0x48, 0x86, 0xf7, 0x0d, 1, 1, 1, 5, 0], []⟩ spkiAlgorithm := by
    refine .seq (p := {}) (fields := shapeFields Pkg.keys.PublicKeyAlgorithm) (ns := [.scalar (.str "rsa".toList), .scalar .none])
      (ns' := [.scalar (.str "rsa".toList), .scalar .none]) rfl (by intro h; cases h) ⟨derHead_ber d3, .nil, rfl⟩ rfl ?_ ⟨.nil d3, rfl⟩ rfl
    refine .present (pick := .same) (t := ⟨0, 0, 6, [6, 9], [0x2a, 0x86, 0x48, 0x86, 0xf7, 0x0d, 1, 1, 1], []⟩)
      (t' := ⟨0, 0, 6, [6, 9], [0x2a, 0x86, 0x48, 0x86, 0xf7, 0x0d, 1, 1, 1], []⟩) (b := [5, 0]) (b' := [5, 0]) ?_ ?_ e1 rfl ?_
    · simp [Decides]
    · simp [Decides]
    · refine .present (pick := .value Pkg.Id.core.Null) (t := ⟨0, 0, 5, [5, 0], [], []⟩) (t' := ⟨0, 0, 5, [5, 0], [], []⟩) (b := []) (b' := []) ?_ ?_ e2 rfl .nil
      · exact ⟨_, _, rfl, rfl, by kernel_rfl⟩
      · exact ⟨_, _, rfl, rfl, by kernel_rfl⟩
  have e4 : Forced (Pkg.env K) (· < Pkg.size) (some Pkg.Id.core.Integer) none {} ⟨0, 0, 2, [2, 2], [0, 0x0f], []⟩ (.scalar (.int 15))
      ⟨0, 0, 2, [2, 1], [0x0f], []⟩ (.scalar (.int 15)) :=
    .leaf rfl (fun o h => by cases h) ⟨b4 10, .nil, rfl⟩ (.inl ⟨rfl, readsB_sound (by decide +kernel)⟩) ⟨.nil d4, rfl⟩ rfl (writtenB_sound (by kernel_rfl))
  have e5 : Forced (Pkg.env K) (· < Pkg.size) (some Pkg.Id.core.Integer) none {} ⟨0, 0, 2, [2, 1], [3], []⟩ (.scalar (.int 3))
      ⟨0, 0, 2, [2, 1], [3], []⟩ (.scalar (.int 3)) :=
    .leaf rfl (fun o h => by cases h) ⟨b5 10, .nil, rfl⟩ (.inl ⟨rfl, readsB_sound (by decide +kernel)⟩) ⟨.nil d5, rfl⟩ rfl (writtenB_sound (by kernel_rfl))
  have e6 : Forced (Pkg.env K) (· < Pkg.size) (some Pkg.Id.keys.RSAPublicKey) none {}
      ⟨0, 1, 16, [0x30, 0x80], [2, 2, 0, 0x0f, 2, 1, 3], [0, 0]⟩ (.dict [("modulus", .scalar (.int 15)), ("public_exponent", .scalar (.int 3))])
      ⟨0, 1, 16, [0x30, 6], [2, 1, 0x0f, 2, 1, 3], []⟩ (.dict [("modulus", .scalar (.int 15)), ("public_exponent", .scalar (.int 3))]) := by
    refine .seq (p := {}) (fields := shapeFields Pkg.keys.RSAPublicKey) (ns := [.scalar (.int 15), .scalar (.int 3)]) (ns' := [.scalar (.int 15), .scalar (.int 3)])
      rfl (by intro h; cases h) ⟨b6, .nil, rfl⟩ rfl ?_ ⟨.nil d6, rfl⟩ rfl
    refine .present (pick := .same) (t := ⟨0, 0, 2, [2, 2], [0, 0x0f], []⟩) (t' := ⟨0, 0, 2, [2, 1], [0x0f], []⟩) (b := [2, 1, 3]) (b' := [2, 1, 3]) rfl rfl e4 rfl ?_
    exact .present (pick := .same) (t := ⟨0, 0, 2, [2, 1], [3], []⟩) (t' := ⟨0, 0, 2, [2, 1], [3], []⟩) (b := []) (b' := []) rfl rfl e5 rfl .nil
  have e7 : Forced (Pkg.env K) (· < Pkg.size) (some Pkg.Id.core.ParsableOctetBitString) (some Pkg.Id.keys.RSAPublicKey) {}
      ⟨0, 0, 3, [3, 0x0c], [0, 0x30, 0x80, 2, 2, 0, 0x0f, 2, 1, 3, 0, 0], []⟩ (.dict [("modulus", .scalar (.int 15)), ("public_exponent", .scalar (.int 3))])
      ⟨0, 0, 3, [3, 9], [0, 0x30, 6, 2, 1, 0x0f, 2, 1, 3], []⟩ (.dict [("modulus", .scalar (.int 15)), ("public_exponent", .scalar (.int 3))]) :=
    .payload rfl ⟨b7, .nil, rfl⟩ rfl rfl e6 ⟨.nil d7, rfl⟩ rfl rfl
  refine ⟨⟨0, 1, 16, [0x30] ++ [0x81, 0x1d], looseSpki.drop 3, []⟩, ⟨0, 1, 16, [0x30, 0x1a], spkiBytes.drop 2, []⟩, rfl, rfl, ?_⟩
  refine .seq (p := {}) (fields := shapeFields Pkg.keys.PublicKeyInfo) (ns := [spkiAlgorithm, .dict [("modulus", .scalar (.int 15)), ("public_exponent", .scalar (.int 3))]])
    (ns' := [spkiAlgorithm, .dict [("modulus", .scalar (.int 15)), ("public_exponent", .scalar (.int 3))]]) rfl (by intro h; cases h) ⟨b8, .nil, rfl⟩ rfl ?_ ⟨.nil d8, rfl⟩ rfl
  refine .present (f := ⟨"algorithm", Pkg.Id.keys.PublicKeyAlgorithm, {}⟩) (pick := .same) ?_ ?_ e3 rfl ?_
  · simp [Decides]
  · simp [Decides]
  refine .present (f := ⟨"public_key", Pkg.Id.core.ParsableOctetBitString, {}⟩) (pick := .value Pkg.Id.keys.RSAPublicKey) (b := []) (b' := []) ?_ ?_ e7 rfl .nil
  · exact ⟨_, _, rfl, ⟨_, _, rfl, rfl⟩, by kernel_rfl⟩
  · exact ⟨_, _, rfl, ⟨_, _, rfl, rfl⟩, by kernel_rfl⟩

/-- `PublicKeyInfo.load(looseSpki).dump(force=True)` is DER, and reading comes after it. -/
example (K : Pkg.Codecs) : ∃ N, ∀ j ≥ N, ∃ v v' v'', loadVal (Pkg.env K) (ops (Pkg.env K) j) Pkg.Id.keys.PublicKeyInfo {} looseSpki true = .ok v ∧
    (ops (Pkg.env K) j).dump v true = .ok (spkiBytes, v') ∧ (ops (Pkg.env K) j).native v' = .ok (spkiValue, v'') := by
  obtain ⟨t, t', h1, h2, h⟩ := looseSpki_forced K
  obtain ⟨N, hN⟩ := C24_package_partial K (by decide) (by intro h; cases h) h
  refine ⟨N, fun j hj => ?_⟩
  obtain ⟨v, v', v'', _, _, _, k1, k2, k3, _⟩ := hN j hj
  rw [h1] at k1
  rw [h2] at k2
  exact ⟨v, v', v'', k1, k2, k3⟩

end Asn1.Props
