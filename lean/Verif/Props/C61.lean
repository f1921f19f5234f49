import Verif.Lemmas.PatchEdit
import Verif.Props.C53

/-!
# C61 — Changing parts of a loaded structure

`DocEdits` and `DocBytes` (Spec/Patch.lean) say what changes do and what is to be written; sound definitions (`Types`, `Usable`) are in Spec/Enc.lean,
values that can be assigned (`FieldGiven`, `ListGiven`) in Spec/Give.lean, item access (`Edit`, `runEdit`) in Spec/History.lean.
-/

namespace Asn1.Props
open Asn1 Spec

section
variable {E : Env} {U : ClassId → Prop} (hT : Types E U) (hM : Makable E U)
include hT hM

/-- Something is loaded; then fields and elements are assigned, deleted and appended, at any depth and any number of times; what is written then has the
assigned values where something was assigned, and every other part is as it was, octet for octet. -/
theorem C61_edits_partial {c : ClassId} {p : Params} {t : TLV} {es : List Edit} {d : Doc} {b : List UInt8} (hne : es ≠ [])
    (h : DocEdits E U p (.loaded c none t) es d) (hb : DocBytes E p d b) :
    ∃ N, ∀ j ≥ N, ∀ strict rest, (strict = true → rest = []) → ∃ v w x, loadVal E (ops E j) c p (t.bytes ++ rest) strict = .ok v ∧
      runEdits E (ops E j) es v = .ok w ∧ (ops E j).dump w false = .ok (b, x) := by
  obtain ⟨M, hM'⟩ := edits_stand hT hM h
  -- what is loaded is a container
  obtain ⟨hber, hany, v0, hv0⟩ : Ber 11 t ∧ E.cls c ≠ .any ∧
      ∃ v0 : Info → Val, ∀ i : Info, i.tlv = t → ∀ j, (ops E (j + 1)).build i (some c) p none = .ok (v0 i) := by
    have seq : ∀ {c' ds}, OpensTo E U p (.loaded c none t) c' ds → Ber 11 t ∧ E.cls c ≠ .any := by
      intro c' ds h
      cases h with
      | loaded g1 g2 g3 g4 g5 => exact ⟨g5.1, by rw [g3]; simp⟩
    have list : ∀ {c' ds}, ListOpens E U p (.loaded c none t) c' ds → Ber 11 t ∧ E.cls c ≠ .any := by
      intro c' ds h
      cases h with
      | loaded g1 g2 g3 g5 => exact ⟨g5.1, by rw [g3]; simp⟩
    cases h with
    | nil => exact absurd rfl hne
    | cons h1 _ =>
      have hk : Ber 11 t ∧ E.cls c ≠ .any := by
        cases h1 with
        | set h => exact seq h
        | delOptional h => exact seq h
        | delDefault h => exact seq h
        | inside h => exact seq h
        | setElement h => exact list h
        | setEnd h => exact list h
        | append h => exact list h
        | delElement h => exact list h
        | insideElement h => exact list h
      refine ⟨hk.1, hk.2, ?_⟩
      obtain ⟨h2 | ⟨c', t', h2, h3⟩, _⟩ := docEdit_opens hT h1
      · cases h2
      · cases h2
        classical
        exact ⟨fun i => if hi : i.tlv = t then (h3 i hi).choose else .void, fun i hi j => by simp only [hi, dif_pos]; exact (h3 i hi).choose_spec j⟩
  have hplain : d.plain = none := by
    have : ∀ {d0 es d}, DocEdits E U p d0 es d → es ≠ [] → d.plain = none := by
      intro d0 es d h
      induction h with
      | nil => exact fun h => absurd rfl h
      | @cons d d1 d2 e es h1 h2 ih =>
        intro _
        cases h2 with
        | nil => exact (docEdit_opens hT h1).2
        | cons _ _ => exact ih (by simp)
    exact this h hne
  -- the instance is the same whatever follows
  have hinfo : ∀ i : Info, i.tlv = t → i = ⟨t.cls, t.method, t.tag, t.header, t.contents, t.trailer⟩ := by
    rintro i rfl
    rfl
  let i0 : Info := ⟨t.cls, t.method, t.tag, t.header, t.contents, t.trailer⟩
  have hst : Stands E (M + 1) p (v0 i0) (.loaded c none t) := .fresh (i := i0) rfl (fun j hj => by
    obtain ⟨j, rfl⟩ : ∃ k, j = k + 1 := ⟨j - 1, by omega⟩
    exact hv0 i0 rfl j)
  obtain ⟨K, hK⟩ := dump_stands hb (M + 1)
  refine ⟨max K (M + 1), fun j hj strict rest hs => ?_⟩
  obtain ⟨i, hi, hp⟩ := parse_front (rest := rest) hber strict hs
  obtain ⟨w, k1, k3⟩ := hM' (M + 1) (by omega) (v0 i0) hst j (by omega)
  obtain ⟨x, k2⟩ := hK w hplain k3 j (by omega)
  refine ⟨v0 i0, w, x, ?_, k1, k2⟩
  obtain ⟨j, rfl⟩ : ∃ k, j = k + 1 := ⟨j - 1, by omega⟩
  have := hv0 i hi j
  rw [hinfo i hi] at this
  simp only [loadVal, hp, bind, Except.bind]
  rw [hinfo i hi]
  cases hc : E.cls c <;> first | exact absurd hc hany | exact this

/-- If what is to be written encodes a value, that is what is read back. -/
theorem C61_reload_partial {c : ClassId} {p : Params} {t t' : TLV} {es : List Edit} {d : Doc} {n : PyVal} (hu : Usable E U c p) (hne : es ≠ [])
    (h : DocEdits E U p (.loaded c none t) es d) (hb : DocBytes E p d t'.bytes) (he : Enc E U (some c) none p t' n) (ha : E.cls c ≠ .any) :
    ∃ N, ∀ j ≥ N, ∃ v w x bytes u z, loadVal E (ops E j) c p t.bytes = .ok v ∧ runEdits E (ops E j) es v = .ok w ∧ (ops E j).dump w false = .ok (bytes, x) ∧
      loadVal E (ops E j) c p bytes = .ok u ∧ (ops E j).native u = .ok (n, z) := by
  obtain ⟨N, hN⟩ := C61_edits_partial hT hM hne h hb
  obtain ⟨M, hM'⟩ := C50_native_partial hT ha hu he
  refine ⟨max N M, fun j hj => ?_⟩
  obtain ⟨v, w, x, k1, k2, k3⟩ := hN j (by omega) false [] (fun h => by cases h)
  rw [List.append_nil] at k1
  obtain ⟨u, z, k4, k5⟩ := hM' j (by omega)
  exact ⟨v, w, x, _, u, z, k1, k2, k3, k4, k5⟩

end

/-- For the classes of the package (`Pkg.size` as for C51). -/
theorem C61_package_partial (K : Pkg.Codecs) {c : ClassId} {t : TLV} {es : List Edit} {d : Doc} {b : List UInt8} (hne : es ≠ [])
    (h : DocEdits (Pkg.env K) (· < Pkg.size) {} (.loaded c none t) es d) (hb : DocBytes (Pkg.env K) {} d b) :
    ∃ N, ∀ j ≥ N, ∃ v w x, loadVal (Pkg.env K) (ops (Pkg.env K) j) c {} t.bytes = .ok v ∧
      runEdits (Pkg.env K) (ops (Pkg.env K) j) es v = .ok w ∧ (ops (Pkg.env K) j).dump w false = .ok (b, x) := by
  obtain ⟨N, hN⟩ := C61_edits_partial (Pkg.pkg_types K) (Pkg.pkg_makable K) hne h hb
  refine ⟨N, fun j hj => ?_⟩
  obtain ⟨v, w, x, k1, k2, k3⟩ := hN j hj false [] (fun h => by cases h)
  rw [List.append_nil] at k1
  exact ⟨v, w, x, k1, k2, k3⟩

/-! ### Cases that meet the hypotheses -/

/-- `Path`: a number, optional, a SEQUENCE OF points and a default value; `Point`: two numbers, the second with a default value. -/
def patchEnv : Env where
  cls := fun c => match c with
    | 0 => .leaf (.integer none { cls := 0, method := 0, tag := 2 }) []
    | 1 => .seq { cls := 0, method := 1, tag := 16 } [] false [⟨"x", 0, {}⟩, ⟨"y", 0, { implicit := some (2, 0), default := some (.scalar (.int 1)) }⟩] none
    | 2 => .seqOf { cls := 0, method := 1, tag := 16 } [] false (some 1)
    | 3 => .seq { cls := 0, method := 1, tag := 16 } [] false [⟨"id", 0, { optional := true }⟩, ⟨"points", 2, { explicit := [(2, 1)] }⟩] none
    | _ => .any
  universal := fun _ => none

theorem patchEnv_types : Types patchEnv (· < 4) :=
  typesB_sound (D := []) (fun e he => by cases he) (fun tag c h => by cases h) (by decide +kernel)

theorem patchEnv_makable : Makable patchEnv (· < 4) := makableB_sound (by decide +kernel)

/-- `{'id': 5, 'points': [{'x': 1}, {'x': 2, 'y': 3}]}`, the first point with a length that is not the shortest one. -/
def patchBytes : Bytes := [0x30, 0x15, 2, 1, 5, 0xa1, 0x10, 0x30, 0x0e, 0x30, 0x81, 3, 2, 1, 1, 0x30, 6, 2, 1, 2, 0x80, 1, 3]

/-- `del path['id']`, `path['points'][1]['y'] = 1`, `path['points'].append({'x': 7})` -/
def patchEdits : List Edit := [.delField 0, .at 1 (.at 1 (.setField 1 (.scalar (.int 1)))), .at 1 (.append (.dict [("x", .scalar (.int 7))]))]

/-- The first point is as it was, the second has lost its `y`, and there is a third one. -/
def patchedBytes : Bytes := [0x30, 0x14, 0xa1, 0x12, 0x30, 0x10, 0x30, 0x81, 3, 2, 1, 1, 0x30, 3, 2, 1, 2, 0x30, 3, 2, 1, 7]

/-- The points before. -/
def patchPoints : TLV := ⟨2, 1, 1, [0xa1, 0x10], [0x30, 0x0e, 0x30, 0x81, 3, 2, 1, 1, 0x30, 6, 2, 1, 2, 0x80, 1, 3], []⟩

theorem patch_edits : DocEdits patchEnv (· < 4) {} (.loaded 3 none ⟨0, 1, 16, [0x30, 0x15], patchBytes.drop 2, []⟩) patchEdits
    (.seq 3 [.out, .list 2 [.loaded 1 none ⟨0, 1, 16, [0x30, 0x81, 3], [2, 1, 1], []⟩, .seq 1 [.loaded 0 none ⟨0, 0, 2, [2, 1], [2], []⟩, .out],
      .given ⟨0, 1, 16, [0x30, 3], [2, 1, 7], []⟩]]) := by
  have d1 : ∀ x : UInt8, DerHead ⟨0, 0, 2, [2, 1], [x], []⟩ := fun x => der_short (cs := [x]) (by omega) (by omega) (by omega) (by simp)
  have d2 : ∀ x : UInt8, DerHead ⟨2, 0, 0, [0x80, 1], [x], []⟩ := fun x => der_short (cs := [x]) (by omega) (by omega) (by omega) (by simp)
  have d3 : DerHead ⟨0, 1, 16, [0x30, 3], [2, 1, 7], []⟩ := der_short (cs := [2, 1, 7]) (by omega) (by omega) (by omega) (by simp)
  have b1 : ∀ x : UInt8, Ber 11 ⟨0, 0, 2, [2, 1], [x], []⟩ := fun x => ber_short (cs := [x]) (by omega) (by omega) (by omega) (by simp)
  have b2 : Ber 11 ⟨2, 0, 0, [0x80, 1], [3], []⟩ := ber_short (cs := [3]) (by omega) (by omega) (by omega) (by simp)
  have b3 : Ber 11 ⟨0, 1, 16, [0x30, 6], [2, 1, 2, 0x80, 1, 3], []⟩ := ber_short (cs := [2, 1, 2, 0x80, 1, 3]) (by omega) (by omega) (by omega) (by simp)
  have b4 : Ber 11 ⟨0, 1, 16, [0x30, 0x81, 3], [2, 1, 1], []⟩ :=
    .definite (id := [0x30]) (len := [0x81, 3]) ⟨by omega, by omega, .inl ⟨by omega, rfl⟩⟩ (.inr ⟨[3], by simp, by simp, rfl, rfl⟩)
  have b5 : Ber 11 ⟨0, 1, 16, [0x30, 0x0e], [0x30, 0x81, 3, 2, 1, 1, 0x30, 6, 2, 1, 2, 0x80, 1, 3], []⟩ :=
    ber_short (cs := [0x30, 0x81, 3, 2, 1, 1, 0x30, 6, 2, 1, 2, 0x80, 1, 3]) (by omega) (by omega) (by omega) (by simp)
  have b6 : Ber 11 patchPoints :=
    ber_short (cs := [0x30, 0x0e, 0x30, 0x81, 3, 2, 1, 1, 0x30, 6, 2, 1, 2, 0x80, 1, 3]) (by omega) (by omega) (by omega) (by simp)
  have b7 : Ber 11 ⟨0, 1, 16, [0x30, 0x15], patchBytes.drop 2, []⟩ := ber_short (cs := patchBytes.drop 2) (by omega) (by omega) (by omega) (by simp [patchBytes])
  have i1 : Gives patchEnv (· < 4) 0 (.scalar (.int 1)) (.octets 0 [1]) (.scalar (.int 1)) :=
    .leaf rfl (fun o h => by cases h) (fun h => by cases h) (writtenB_sound (by decide +kernel))
  have i7 : Gives patchEnv (· < 4) 0 (.scalar (.int 7)) (.octets 0 [7]) (.scalar (.int 7)) :=
    .leaf rfl (fun o h => by cases h) (fun h => by cases h) (writtenB_sound (by decide +kernel))
  have el : ∀ x : UInt8, DerElement patchEnv 0 {} (.octets 0 [x]) ⟨0, 0, 2, [2, 1], [x], []⟩ := fun x => ⟨(0, 2), _, rfl, ⟨.nil (d1 x), rfl⟩, rfl, rfl⟩
  have ey : DerElement patchEnv 0 { implicit := some (2, 0), default := some (.scalar (.int 1)) } (.octets 0 [1]) ⟨2, 0, 0, [0x80, 1], [1], []⟩ :=
    ⟨(0, 2), _, rfl, ⟨.nil (d2 1), rfl⟩, rfl, rfl⟩
  have hdef : DefaultValue patchEnv 0 { implicit := some (2, 0), default := some (.scalar (.int 1)) } (.scalar (.int 1)) :=
    leafDefault_sound rfl rfl (by decide +kernel)
  have e1 : Enc patchEnv (· < 4) (some 0) none {} ⟨0, 0, 2, [2, 1], [1], []⟩ (.scalar (.int 1)) :=
    .leaf rfl ⟨b1 1, .nil, rfl⟩ (.inl ⟨rfl, readsB_sound (by decide +kernel)⟩)
  have e2 : Enc patchEnv (· < 4) (some 0) none {} ⟨0, 0, 2, [2, 1], [2], []⟩ (.scalar (.int 2)) :=
    .leaf rfl ⟨b1 2, .nil, rfl⟩ (.inl ⟨rfl, readsB_sound (by decide +kernel)⟩)
  have e5 : Enc patchEnv (· < 4) (some 0) none { optional := true } ⟨0, 0, 2, [2, 1], [5], []⟩ (.scalar (.int 5)) :=
    .leaf rfl ⟨b1 5, .nil, rfl⟩ (.inl ⟨rfl, readsB_sound (by decide +kernel)⟩)
  have e3 : Enc patchEnv (· < 4) (some 0) none { implicit := some (2, 0), default := some (.scalar (.int 1)) } ⟨2, 0, 0, [0x80, 1], [3], []⟩ (.scalar (.int 3)) :=
    .leaf rfl ⟨b2, .nil, rfl⟩ (.inl ⟨rfl, readsB_sound (by decide +kernel)⟩)
  have p1 : Enc patchEnv (· < 4) (some 1) none {} ⟨0, 1, 16, [0x30, 0x81, 3], [2, 1, 1], []⟩ (.dict [("x", .scalar (.int 1)), ("y", .scalar (.int 1))]) := by
    refine .seq (fields := [⟨"x", 0, {}⟩, ⟨"y", 0, { implicit := some (2, 0), default := some (.scalar (.int 1)) }⟩]) (oid := none)
      (ns := [.scalar (.int 1), .scalar (.int 1)]) rfl (by simp) ⟨b4, .nil, rfl⟩ rfl ?_
    exact .present (pick := .same) (t := ⟨0, 0, 2, [2, 1], [1], []⟩) (b := []) rfl e1 (.default rfl hdef .nil)
  have p2 : Enc patchEnv (· < 4) (some 1) none {} ⟨0, 1, 16, [0x30, 6], [2, 1, 2, 0x80, 1, 3], []⟩ (.dict [("x", .scalar (.int 2)), ("y", .scalar (.int 3))]) := by
    refine .seq (fields := [⟨"x", 0, {}⟩, ⟨"y", 0, { implicit := some (2, 0), default := some (.scalar (.int 1)) }⟩]) (oid := none)
      (ns := [.scalar (.int 2), .scalar (.int 3)]) rfl (by simp) ⟨b3, .nil, rfl⟩ rfl ?_
    exact .present (pick := .same) (t := ⟨0, 0, 2, [2, 1], [2], []⟩) (b := [0x80, 1, 3]) rfl e2
      (.present (f := ⟨"y", 0, { implicit := some (2, 0), default := some (.scalar (.int 1)) }⟩) (pick := .same) (t := ⟨2, 0, 0, [0x80, 1], [3], []⟩) (b := []) rfl e3 .nil)
  have hfr : Framed (0, 16) { explicit := [(2, 1)] } patchPoints ⟨0, 1, 16, [0x30, 0x0e], [0x30, 0x81, 3, 2, 1, 1, 0x30, 6, 2, 1, 2, 0x80, 1, 3], []⟩ :=
    ⟨b6, .cons (v := patchPoints) rfl rfl b5 .nil, rfl⟩
  have hpts : Enc patchEnv (· < 4) (some 2) none { explicit := [(2, 1)] } patchPoints
      (.list [.dict [("x", .scalar (.int 1)), ("y", .scalar (.int 1))], .dict [("x", .scalar (.int 2)), ("y", .scalar (.int 3))]]) :=
    .list (ch := some 1) rfl hfr rfl (.cons (t := ⟨0, 1, 16, [0x30, 0x81, 3], [2, 1, 1], []⟩) (b := [0x30, 6, 2, 1, 2, 0x80, 1, 3]) p1
      (.cons (t := ⟨0, 1, 16, [0x30, 6], [2, 1, 2, 0x80, 1, 3], []⟩) (b := []) p2 .nil))
  have hno : ∀ k, ¬ Decider none k := fun k ⟨q, h, _⟩ => by cases h
  have hnd : ∀ k, ¬ Decided none k := fun k ⟨q, h, _⟩ => by cases h
  have us : ∀ c p, usableB patchEnv 4 [] c p = true → Usable patchEnv (· < 4) c p := fun c p h => usableB_sound (D := []) (fun e he => by cases he) h
  refine .cons (d1 := .seq 3 [.out, .loaded 2 none patchPoints]) ?_ (.cons (d1 := .seq 3 [.out, .list 2 [.loaded 1 none ⟨0, 1, 16, [0x30, 0x81, 3], [2, 1, 1], []⟩,
    .seq 1 [.loaded 0 none ⟨0, 0, 2, [2, 1], [2], []⟩, .out]]]) ?_ (.cons ?_ .nil))
  · refine .delOptional (ds := [.loaded 0 none ⟨0, 0, 2, [2, 1], [5], []⟩, .loaded 2 none patchPoints]) (k := 0) (f := ⟨"id", 0, { optional := true }⟩)
      (fields := [⟨"id", 0, { optional := true }⟩, ⟨"points", 2, { explicit := [(2, 1)] }⟩]) (oid := none) ?_ (by decide) rfl rfl rfl rfl
    refine .loaded (u := ⟨0, 1, 16, [0x30, 0x15], patchBytes.drop 2, []⟩) (oid := none) (fields := [⟨"id", 0, { optional := true }⟩, ⟨"points", 2, { explicit := [(2, 1)] }⟩])
      (us _ _ (by decide +kernel)) rfl rfl (by simp) ⟨b7, .nil, rfl⟩ rfl (by simp) ?_
    exact .present (pick := .same) (t := ⟨0, 0, 2, [2, 1], [5], []⟩) (b := patchPoints.bytes) rfl e5 rfl (fun h => absurd h (hno _))
      (.present (f := ⟨"points", 2, { explicit := [(2, 1)] }⟩) (pick := .same) (t := patchPoints) (b := []) rfl hpts rfl (fun h => absurd h (hno _)) .nil)
  · refine .inside (ds := [.out, .loaded 2 none patchPoints]) (k := 1) (f := ⟨"points", 2, { explicit := [(2, 1)] }⟩) (d1 := .loaded 2 none patchPoints)
      (fields := [⟨"id", 0, { optional := true }⟩, ⟨"points", 2, { explicit := [(2, 1)] }⟩]) (oid := none) .seq (by decide) rfl rfl rfl (hno _) rfl ?_
    refine .insideElement (ch := 1) (k := 1) (ds := [.loaded 1 none ⟨0, 1, 16, [0x30, 0x81, 3], [2, 1, 1], []⟩, .loaded 1 none ⟨0, 1, 16, [0x30, 6], [2, 1, 2, 0x80, 1, 3], []⟩])
      (d2 := .seq 1 [.loaded 0 none ⟨0, 0, 2, [2, 1], [2], []⟩, .out]) ?_ (by decide) rfl rfl ?_
    · refine .loaded (ch := 1) (us _ _ (by decide +kernel)) rfl rfl hfr rfl (by simp) ?_
      exact .cons (t := ⟨0, 1, 16, [0x30, 0x81, 3], [2, 1, 1], []⟩) (b := [0x30, 6, 2, 1, 2, 0x80, 1, 3]) p1 ⟨(0, 16), _, rfl, ⟨b4, .nil, rfl⟩, by simp⟩
        (.cons (t := ⟨0, 1, 16, [0x30, 6], [2, 1, 2, 0x80, 1, 3], []⟩) (b := []) p2 ⟨(0, 16), _, rfl, ⟨b3, .nil, rfl⟩, by simp⟩ .nil)
    · refine .set (k := 1) (ds := [.loaded 0 none ⟨0, 0, 2, [2, 1], [2], []⟩, .loaded 0 none ⟨2, 0, 0, [0x80, 1], [3], []⟩]) (d' := .out)
        (f := ⟨"y", 0, { implicit := some (2, 0), default := some (.scalar (.int 1)) }⟩)
        (fields := [⟨"x", 0, {}⟩, ⟨"y", 0, { implicit := some (2, 0), default := some (.scalar (.int 1)) }⟩]) (oid := none) ?_ (by decide) rfl rfl (hnd _)
        (.same (y := .scalar (.int 1)) (e := .octets 0 [1]) (.plain (pick := .same) (fun h => by cases h) rfl i1 ey) rfl rfl (fun h => by cases h) i1 ey rfl)
      refine .loaded (u := ⟨0, 1, 16, [0x30, 6], [2, 1, 2, 0x80, 1, 3], []⟩) (oid := none)
        (fields := [⟨"x", 0, {}⟩, ⟨"y", 0, { implicit := some (2, 0), default := some (.scalar (.int 1)) }⟩])
        (us _ _ (by decide +kernel)) rfl rfl (by simp) ⟨b3, .nil, rfl⟩ rfl (by simp) ?_
      exact .present (pick := .same) (t := ⟨0, 0, 2, [2, 1], [2], []⟩) (b := [0x80, 1, 3]) rfl e2 rfl (fun h => absurd h (hno _))
        (.other (f := ⟨"y", 0, { implicit := some (2, 0), default := some (.scalar (.int 1)) }⟩) (t := ⟨2, 0, 0, [0x80, 1], [3], []⟩) (b := []) (hno _) (hnd _) e3 rfl rfl
          (fun h => by cases h) i1 ey (by simp [TLV.bytes]) .nil)
  · refine .inside (ds := [.out, .list 2 [.loaded 1 none ⟨0, 1, 16, [0x30, 0x81, 3], [2, 1, 1], []⟩, .seq 1 [.loaded 0 none ⟨0, 0, 2, [2, 1], [2], []⟩, .out]]]) (k := 1)
      (f := ⟨"points", 2, { explicit := [(2, 1)] }⟩) (fields := [⟨"id", 0, { optional := true }⟩, ⟨"points", 2, { explicit := [(2, 1)] }⟩]) (oid := none)
      .seq (by decide) rfl rfl rfl (hno _) rfl
      (.append (ch := 1) (x := .dict [("x", .scalar (.int 7))]) (t := ⟨0, 1, 16, [0x30, 3], [2, 1, 7], []⟩) (n := .dict [("x", .scalar (.int 7)), ("y", .scalar (.int 1))])
        .list (by decide) rfl ?_)
    refine .plain (b := .octets 1 [2, 1, 7]) trivial ?_ ⟨(0, 16), _, rfl, ⟨.nil d3, rfl⟩, rfl, rfl⟩ .nil
    refine .seq (fields := [⟨"x", 0, {}⟩, ⟨"y", 0, { implicit := some (2, 0), default := some (.scalar (.int 1)) }⟩]) (oid := none)
      (ns := [.scalar (.int 7), .scalar (.int 1)]) rfl ?_ ⟨⟨"x", 0, {}⟩, by simp, by decide⟩ (by
        intro e he
        simp only [List.mem_cons, List.not_mem_nil, or_false] at he
        subst he
        exact ⟨⟨"x", 0, {}⟩, by simp, rfl⟩)
    exact .given (f := ⟨"x", 0, {}⟩) (pick := .same) (t := ⟨0, 0, 2, [2, 1], [7], []⟩) (b := []) (x := .scalar (.int 7)) (by rfl) rfl
      (.plain (pick := .same) (fun h => by cases h) rfl i7 (el 7)) rfl
      (.default (f := ⟨"y", 0, { implicit := some (2, 0), default := some (.scalar (.int 1)) }⟩) (y := .scalar (.int 1)) (e := .octets 0 [1])
        (fun x h => by cases h) rfl rfl (fun h => by cases h) i1 ey hdef .nil)

/-- Loading, changing and writing gives those octets. -/
example : ∃ N, ∀ j ≥ N, ∃ v w x, loadVal patchEnv (ops patchEnv j) 3 {} patchBytes = .ok v ∧ runEdits patchEnv (ops patchEnv j) patchEdits v = .ok w ∧
    (ops patchEnv j).dump w false = .ok (patchedBytes, x) := by
  have d0 : DerHead ⟨0, 1, 16, [0x30, 0x14], patchedBytes.drop 2, []⟩ := der_short (cs := patchedBytes.drop 2) (by omega) (by omega) (by omega) (by simp [patchedBytes])
  have d1 : DerHead ⟨2, 1, 1, [0xa1, 0x12], patchedBytes.drop 4, []⟩ := der_short (cs := patchedBytes.drop 4) (by omega) (by omega) (by omega) (by simp [patchedBytes])
  have d2 : DerHead ⟨0, 1, 16, [0x30, 0x10], patchedBytes.drop 6, []⟩ := der_short (cs := patchedBytes.drop 6) (by omega) (by omega) (by omega) (by simp [patchedBytes])
  have d3 : DerHead ⟨0, 1, 16, [0x30, 3], [2, 1, 2], []⟩ := der_short (cs := [2, 1, 2]) (by omega) (by omega) (by omega) (by simp)
  have h : DocBytes patchEnv {} (.seq 3 [.out, .list 2 [.loaded 1 none ⟨0, 1, 16, [0x30, 0x81, 3], [2, 1, 1], []⟩,
      .seq 1 [.loaded 0 none ⟨0, 0, 2, [2, 1], [2], []⟩, .out], .given ⟨0, 1, 16, [0x30, 3], [2, 1, 7], []⟩]]) patchedBytes := by
    refine .seq (t := ⟨0, 1, 16, [0x30, 0x14], patchedBytes.drop 2, []⟩) (u := ⟨0, 1, 16, [0x30, 0x14], patchedBytes.drop 2, []⟩)
      (fields := [⟨"id", 0, { optional := true }⟩, ⟨"points", 2, { explicit := [(2, 1)] }⟩]) (oid := none) rfl ⟨.nil d0, rfl⟩ rfl ?_
    refine .cons (b := []) (bs := patchedBytes.drop 2) (.plain rfl) (.cons (b := patchedBytes.drop 2) (bs := []) ?_ .nil)
    refine .list (t := ⟨2, 1, 1, [0xa1, 0x12], patchedBytes.drop 4, []⟩) (u := ⟨0, 1, 16, [0x30, 0x10], patchedBytes.drop 6, []⟩) (ch := 1)
      (bs := [[0x30, 0x81, 3, 2, 1, 1], [0x30, 3, 2, 1, 2], [0x30, 3, 2, 1, 7]]) rfl ⟨.cons (es := []) (v := ⟨2, 1, 1, [0xa1, 0x12], patchedBytes.drop 4, []⟩) d1 rfl rfl (.nil d2), rfl⟩ rfl
      ?_ rfl
    refine .cons (.plain rfl) (.cons ?_ (.cons (.plain rfl) .nil))
    refine .seq (t := ⟨0, 1, 16, [0x30, 3], [2, 1, 2], []⟩) (u := ⟨0, 1, 16, [0x30, 3], [2, 1, 2], []⟩)
      (fields := [⟨"x", 0, {}⟩, ⟨"y", 0, { implicit := some (2, 0), default := some (.scalar (.int 1)) }⟩]) (oid := none) rfl ⟨.nil d3, rfl⟩ rfl ?_
    exact .cons (b := [2, 1, 2]) (bs := []) (.plain rfl) (.cons (b := []) (bs := []) (.plain rfl) .nil)
  obtain ⟨N, hN⟩ := C61_edits_partial patchEnv_types patchEnv_makable (by simp [patchEdits]) patch_edits h
  refine ⟨N, fun j hj => ?_⟩
  obtain ⟨v, w, x, k1, k2, k3⟩ := hN j hj false [] (fun h => by cases h)
  rw [List.append_nil] at k1
  exact ⟨v, w, x, k1, k2, k3⟩

/-- The octets of `cls.load(data)`, changed, as written. -/
def patched (c : ClassId) (data : Bytes) (es : List Edit) : Py Bytes := do
  let v ← loadVal patchEnv (ops patchEnv 9) c {} data
  let v ← runEdits patchEnv (ops patchEnv 9) es v
  let (b, _) ← (ops patchEnv 9).dump v false
  .ok b

/-- The parts that were not changed are not always kept: in a SEQUENCE whose length, in the long form, ends in `0x80` (128 octets here), changing `x`
changes the encoding of `y`, which has a leading zero octet. In a shorter SEQUENCE it is kept. -/
theorem C61_length_128_fails :
    patched 1 ([0x30, 0x81, 0x80, 2, 0x7a] ++ List.replicate 122 1 ++ [0x80, 2, 0, 3]) [.setField 0 (.scalar (.int 7))] = .ok [0x30, 6, 2, 1, 7, 0x80, 1, 3] ∧
    patched 1 ([0x30, 0x7f, 2, 0x79] ++ List.replicate 121 1 ++ [0x80, 2, 0, 3]) [.setField 0 (.scalar (.int 7))] = .ok [0x30, 7, 2, 1, 7, 0x80, 2, 0, 3] := by
  decide +kernel

end Asn1.Props
