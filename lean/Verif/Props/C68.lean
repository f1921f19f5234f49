import Verif.Model.Cast
import Verif.Spec.Cast
import Verif.Props.C13
import Verif.Lemmas.Keep

/-!
# C68 — `cast` gives the same encoding another reading

`StringClass E c k tag es`: `c` is a string class that reads its octets as `k` says (Spec/Cast.lean).
-/

namespace Asn1.Props
open Asn1 Spec

theorem castSource_val (k : StringKind) (c : ClassId) (o : Obj Unit) : castSource (k.val c o) = some (c, unread o) := by
  cases k <;> rfl

/-- What `cast` gives. -/
theorem cast_eq {E : Env} {v : Val} {c d : ClassId} {o : Obj Unit} {k k' : StringKind} {tag : Nat} {es es' : List (Nat × Nat)}
    (hs : castSource v = some (c, o)) (hc : StringClass E c k tag es) (hd : StringClass E d k' tag es') :
    castVal E v d = .ok (k'.val d { o with tag := tag }) := by
  unfold StringClass at hc hd
  have ht : (E.cls c).tagging.2.1 = tag := by rw [hc]; cases k <;> rfl
  unfold castVal
  rw [hs]
  simp only [hd, ht]
  cases k' <;> simp only [StringKind.shape, LeafSt.base, Obj.erase, unread, ne_eq, not_true_eq_false, if_false] <;> rfl

theorem buildBase_tag {o w : Obj Unit} {i : Info} (h : buildBase true [] o i = .ok w) : w.tag = o.tag ∧ unread w = w := by
  unfold buildBase at h
  simp only [bind, Except.bind] at h
  repeat' split at h
  all_goals first
    | (cases h; done)
    | (cases h; exact ⟨rfl, rfl⟩)
    | skip
  all_goals
    next x hx _ =>
      cases h
      refine ⟨?_, rfl⟩
      show x.tag = o.tag
      repeat' split at hx
      all_goals cases hx
      all_goals rfl

/-- An instance that is built has the tag of its class or of the implicit tag. -/
theorem buildObj_tag {o w : Obj Unit} {i : Info} (h : buildObj true [] o i = .ok w) : w.tag = o.tag ∧ unread w = w := by
  unfold buildObj at h
  split at h
  · exact buildBase_tag h
  · obtain ⟨⟨i', h', t'⟩, _, h⟩ := py_bind.mp h
    obtain ⟨x, h1, h⟩ := py_bind.mp h
    cases h
    obtain ⟨a1, a2⟩ := buildBase_tag h1
    refine ⟨a1, ?_⟩
    rw [← a2]
    rfl

theorem buildBase_unread {ν : Type} (o : Obj Unit) (i : Info) :
    buildBase true [] (unread o : Obj ν) i = (buildBase true [] o i).map unread := by
  unfold buildBase
  simp only [unread, bind, Except.bind]
  repeat' split
  all_goals first | rfl | skip
  all_goals simp_all
  all_goals rfl

theorem buildObj_unread {ν : Type} (o : Obj Unit) (i : Info) :
    buildObj true [] (unread o : Obj ν) i = (buildObj true [] o i).map unread := by
  unfold buildObj
  show (match o.explicit with | [] => _ | es => _) = _
  cases h : o.explicit with
  | nil => exact buildBase_unread o i
  | cons e es =>
    simp only [bind, Except.bind]
    cases explicitLoop (e :: es).reverse i i.header i.trailer with
    | error x => rfl
    | ok q =>
      obtain ⟨i', h', t'⟩ := q
      have := buildBase_unread (ν := ν) { o with explicit := [] } i'
      simp only at this ⊢
      rw [show ({ (unread o : Obj ν) with explicit := [] } : Obj ν) = unread { o with explicit := [] } from rfl, this]
      cases buildBase true [] { o with explicit := [] } i' with
      | error x => rfl
      | ok w => rfl

theorem init_unread {ν : Type} (o : Obj Unit) (p : TagParams) : initTagging (unread o : Obj ν) p = unread (initTagging o p) := by
  unfold initTagging
  cases p.implicit with
  | none => simp only; split <;> split <;> rfl
  | some q => simp only; split <;> split <;> rfl

/-- Loading a string class: what is built is the same for all kinds. -/
theorem load_string {E : Env} {r : Ops} {c : ClassId} {k : StringKind} {tag : Nat} {es : List (Nat × Nat)} (hc : StringClass E c k tag es) {n : Nat}
    (hr : r = ops E (n + 1)) {p : Params} (hp : p.default = none) (data : Bytes) (strict : Bool) :
    loadVal E r c p data strict =
      (parse data strict).bind (fun i => (buildObj true [] (initTagging { cls := 0, method := 0, tag := tag, explicit := es } (p.buildTags es)) i).map (k.val c)) := by
  subst hr
  unfold StringClass at hc
  unfold loadVal
  simp only [hc, bind]
  congr 1
  funext i
  have key : buildStep E (ops E n) i (some c) p none =
      (buildObj true [] (initTagging { cls := 0, method := 0, tag := tag, explicit := es } (p.buildTags es)) i).map (k.val c) := by
    have hdc : ∀ x, defaultCheck E (ops E n) c p x = .ok () := by
      intro x
      unfold defaultCheck
      rw [if_neg (by rw [hp]; simp)]
    have hx1 : ∀ {ν : Type}, (unread { cls := 0, method := 0, tag := tag, explicit := es } : Obj ν).erase.explicit = es := rfl
    have hx2 : ∀ {ν : Type}, (unread { cls := 0, method := 0, tag := tag, explicit := es } : Obj ν).explicit = es := rfl
    unfold buildStep buildPlain
    simp only [hc, bind, Except.bind]
    cases k <;> simp only [StringKind.shape, hdc, LeafSt.build, LeafSt.init, LeafSt.map, LeafSt.mapObj, LeafSt.base, LeafSt.constructable, hx1, hx2, init_unread,
      buildObj_unread, bind, Except.bind, pure, Except.pure] <;>
      cases buildObj true [] (initTagging { cls := 0, method := 0, tag := tag, explicit := es } (p.buildTags es)) i <;> rfl
  cases k <;> exact key

/-- Another class for the same kind of string: what was loaded as `c` and is cast to `d` is what the same bytes are loaded as with `d`, with the same tags. So
all that is read and written afterwards is as if the bytes had been loaded as `d`. -/
theorem C68_load {E : Env} {n : Nat} {c d : ClassId} {k k' : StringKind} {tag : Nat} {es : List (Nat × Nat)} (hc : StringClass E c k tag es)
    (hd : StringClass E d k' tag es) {p : Params} (hp : p.default = none) (hi : p.implicit = none) {data : Bytes} {strict : Bool} {v : Val}
    (hv : loadVal E (ops E (n + 1)) c p data strict = .ok v) : castVal E v d = loadVal E (ops E (n + 1)) d p data strict := by
  rw [load_string hc rfl hp] at hv
  rw [load_string hd rfl hp]
  obtain ⟨i, h1, h2⟩ := py_bind.mp hv
  rw [h1]
  show _ = (buildObj _ _ _ _).map _
  cases h3 : buildObj true [] (initTagging { cls := 0, method := 0, tag := tag, explicit := es } (p.buildTags es)) i with
  | error e => rw [h3] at h2; cases h2
  | ok o =>
    rw [h3] at h2
    cases h2
    obtain ⟨a1, a2⟩ := buildObj_tag h3
    rw [cast_eq (castSource_val k c o) hc hd, a2]
    have ht : (initTagging ({ cls := 0, method := 0, tag := tag, explicit := es } : Obj Unit) (p.buildTags es)).tag = tag := by
      have : (p.buildTags es).implicit = none := by
        unfold Params.buildTags Params.tags
        split <;> first | rfl | exact hi
      unfold initTagging
      rw [this]
      simp only
      split <;> split <;> rfl
    rw [ht] at a1
    rw [show ({ o with tag := tag } : Obj Unit) = o from by rw [← a1]]
    rfl

/-- Bytes that are dumped without being encoded anew depend on the attributes only. -/
theorem dump_source {E : Env} {r : Ops} {v : Val} {c : ClassId} {o : Obj Unit} (hs : castSource v = some (c, o)) (h80 : headerEnds80 o.header = false)
    (hi : o.indefinite = false) : (dumpStep E r v false).map Prod.fst = (asn1Dump true o).map Prod.fst := by
  have key : ∀ {ν : Type} (x : Obj ν), x.erase = o → (asn1Dump true x).map Prod.fst = (asn1Dump true o).map Prod.fst := by
    intro ν x hx
    subst hx
    obtain ⟨cl, me, tg, im, ex, hd, co, tr, na, ind⟩ := x
    unfold asn1Dump
    simp only [Obj.erase]
    cases co with
    | none => rfl
    | some b =>
      simp only [Obj.erase] at h80 hi
      subst hi
      cases hd with
      | some h => simp only [Bool.false_or, h80]; rfl
      | none =>
        simp only [bind, Except.bind, Bool.and_false, Bool.false_eq_true, if_false]
        cases dumpHeader cl me tg b with
        | error e => rfl
        | ok h1 =>
          simp only
          cases wrapExplicit ex h1 b <;> rfl
  cases v with
  | leaf d s =>
    simp only [castSource] at hs
    split at hs
    · next hcs =>
      cases hs
      cases s with
      | octets x =>
        have hx : headerEnds80 x.header = false := h80
        rw [← key x rfl]
        simp only [dumpStep, LeafSt.dump, OctetString.dump, primDump, hx, Bool.or_false, Bool.false_eq_true, if_false, bind, Except.bind, pure, Except.pure]
        cases asn1Dump true x <;> rfl
      | intOctets x =>
        have hx : headerEnds80 x.header = false := h80
        rw [← key x.toObj rfl]
        simp only [dumpStep, LeafSt.dump, IntegerOctetString.dump, hx, Bool.or_false, Bool.false_eq_true, if_false, bind, Except.bind, pure, Except.pure]
        cases asn1Dump true x.toObj <;> rfl
      | bits x =>
        have hx : headerEnds80 x.header = false := h80
        rw [← key x.toObj rfl]
        simp only [dumpStep, LeafSt.dump, BitString.dump, hx, Bool.or_false, Bool.false_eq_true, if_false, bind, Except.bind, pure, Except.pure]
        cases asn1Dump true x.toObj <;> rfl
      | named m x =>
        have hx : headerEnds80 x.header = false := h80
        rw [← key x.toObj rfl]
        simp only [dumpStep, LeafSt.dump, NamedBits.dump, hx, Bool.or_false, Bool.false_eq_true, if_false, bind, Except.bind, pure, Except.pure]
        cases asn1Dump true x.toObj <;> rfl
      | octetBits x =>
        have hx : headerEnds80 x.header = false := h80
        rw [← key x.toObj rfl]
        simp only [dumpStep, LeafSt.dump, OctetBitString.dump, hx, Bool.or_false, Bool.false_eq_true, if_false, bind, Except.bind, pure, Except.pure]
        cases asn1Dump true x.toObj <;> rfl
      | intBits x =>
        have hx : headerEnds80 x.header = false := h80
        rw [← key x.toObj rfl]
        simp only [dumpStep, LeafSt.dump, IntegerBitString.dump, hx, Bool.or_false, Bool.false_eq_true, if_false, bind, Except.bind, pure, Except.pure]
        cases asn1Dump true x.toObj <;> rfl
      | _ => cases hcs
    · cases hs
  | parsable d x p s =>
    cases hs
    have hx : x.indefinite = false := hi
    rw [← key x rfl]
    simp only [dumpStep, parsableDump, hx, Bool.or_false, Bool.false_eq_true, if_false, bind, Except.bind]
    cases asn1Dump true x <;> rfl
  | _ => cases hs

/-- Whatever the history of a string is, casting it does not change what `dump()` writes: a string that has bytes from loading or from an earlier
`dump()`, or that has no implicit tag. Excluded are strings of indefinite length, which `dump()` encodes anew from their value. -/
theorem C68_dump_partial {E : Env} {n : Nat} {v : Val} {c d : ClassId} {o : Obj Unit} {k k' : StringKind} {tag : Nat} {es es' : List (Nat × Nat)}
    (hs : castSource v = some (c, o)) (hc : StringClass E c k tag es) (hd : StringClass E d k' tag es') (h80 : headerEnds80 o.header = false)
    (hi : o.indefinite = false) (ht : o.header ≠ none ∨ o.tag = tag) :
    ∃ w, castVal E v d = .ok w ∧ ((ops E (n + 1)).dump w false).map Prod.fst = ((ops E (n + 1)).dump v false).map Prod.fst := by
  refine ⟨_, cast_eq hs hc hd, ?_⟩
  show (dumpStep E (ops E n) _ false).map Prod.fst = (dumpStep E (ops E n) _ false).map Prod.fst
  rw [dump_source hs h80 hi, dump_source (castSource_val k' d { o with tag := tag }) h80 hi]
  obtain ⟨cl, me, tg, im, ex, hd', co, tr, na, ind⟩ := o
  simp only at h80 hi ht
  subst hi
  unfold asn1Dump
  simp only [unread]
  cases co with
  | none => rfl
  | some b =>
    cases hd' with
    | some h => simp only [Bool.false_or, h80]; rfl
    | none =>
      rcases ht with ht | ht
      · exact absurd rfl ht
      · subst ht
        simp only [bind, Except.bind, Bool.and_false, Bool.false_eq_true, if_false]
        cases dumpHeader cl me tg b with
        | error e => rfl
        | ok h1 =>
          simp only
          cases wrapExplicit ex h1 b <;> rfl

/-- Casting what was loaded and casting it back gives the instance that was loaded. -/
theorem C68_back {E : Env} {n : Nat} {c d : ClassId} {k k' : StringKind} {tag : Nat} {es : List (Nat × Nat)} (hc : StringClass E c k tag es)
    (hd : StringClass E d k' tag es) {p : Params} (hp : p.default = none) (hi : p.implicit = none) {data : Bytes} {strict : Bool} {v : Val}
    (hv : loadVal E (ops E (n + 1)) c p data strict = .ok v) : ∃ w, castVal E v d = .ok w ∧ castVal E w c = .ok v := by
  have h := C68_load hc hd hp hi hv
  have hw : ∃ w, castVal E v d = .ok w := by
    rw [load_string hc rfl hp] at hv
    obtain ⟨i, h1, h2⟩ := py_bind.mp hv
    cases h3 : buildObj true [] (initTagging { cls := 0, method := 0, tag := tag, explicit := es } (p.buildTags es)) i with
    | error e => rw [h3] at h2; cases h2
    | ok o =>
      rw [h3] at h2
      cases h2
      exact ⟨_, cast_eq (castSource_val k c o) hc hd⟩
  obtain ⟨w, hw⟩ := hw
  refine ⟨w, hw, ?_⟩
  rw [hw] at h
  rw [C68_load hd hc hp hi h.symm]
  exact hv

/-- The octets of an OCTET STRING that was loaded, in one piece or in segments, are after the cast those of a number in big-endian order, whatever the
tags are. -/
theorem C68_number {E : Env} {r : Ops} {c d : ClassId} {tag : Nat} {es es' : List (Nat × Nat)} (hc : StringClass E c .octets tag es)
    (hd : StringClass E d .octetsAsNumber tag es') (o : Obj Unit) {b : Bytes} {v' : Val}
    (hv : nativeStep E r (StringKind.octets.val c o) = .ok (.scalar (.bytes b), v')) :
    ∃ w w', castVal E (StringKind.octets.val c o) d = .ok w ∧ nativeStep E r w = .ok (.scalar (.int (valU b)), w') := by
  suffices h : ∃ w', nativeStep E r (StringKind.octetsAsNumber.val d { (unread o : Obj Unit) with tag := tag }) = .ok (.scalar (.int (valU b)), w') by
    obtain ⟨w', h⟩ := h
    exact ⟨_, w', cast_eq (castSource_val _ c o) hc hd, h⟩
  obtain ⟨cl, me, tg, im, ex, hh, co, tr, na, ind⟩ := o
  simp only [nativeStep, StringKind.val, LeafSt.native, OctetString.native, IntegerOctetString.native, unread, bind, Except.bind, pure, Except.pure] at hv ⊢
  cases co with
  | none => cases hv
  | some x =>
    have key : ∀ {y : Bytes}, mergeObj OctetString.asChunk OctetString.new ind x = .ok y →
        mergeObj OctetString.asChunk IntegerOctetString.new.toObj ind x = .ok y := by
      intro y hy
      cases ind with
      | false => rw [mergeObj_false] at hy ⊢; exact hy
      | true => exact (mergeObj_octets plain_intoct x y).mpr ((mergeObj_octets plain_octets x y).mp hy)
    simp only at hv ⊢
    cases hm : mergeObj OctetString.asChunk OctetString.new ind x with
    | error e => rw [hm] at hv; cases hv
    | ok y =>
      rw [hm] at hv
      cases hv
      rw [key hm]
      simp only [intFromBytes_unsigned, Int.toNat_natCast]
      exact ⟨_, rfl⟩

/-- What is read does not depend on the tag. -/
theorem native_tag {E : Env} {r : Ops} (k : StringKind) (c : ClassId) (o : Obj Unit) (tag : Nat) :
    (nativeStep E r (k.val c { o with tag := tag })).map Prod.fst = (nativeStep E r (k.val c o)).map Prod.fst := by
  obtain ⟨cl, me, tg, im, ex, hh, co, tr, na, ind⟩ := o
  cases k with
  | octets =>
    cases co with
    | none => rfl
    | some x =>
      simp only [nativeStep, StringKind.val, LeafSt.native, OctetString.native, unread, bind, Except.bind, pure, Except.pure]
      cases mergeObj OctetString.asChunk OctetString.new ind x <;> rfl
  | octetsAsNumber =>
    cases co with
    | none => rfl
    | some x =>
      simp only [nativeStep, StringKind.val, LeafSt.native, IntegerOctetString.native, unread, bind, Except.bind, pure, Except.pure]
      cases mergeObj OctetString.asChunk IntegerOctetString.new.toObj ind x <;> rfl
  | bits =>
    cases co with
    | none => rfl
    | some x =>
      simp only [nativeStep, StringKind.val, LeafSt.native, BitString.native, unread, bind, Except.bind, pure, Except.pure, Option.getD]
      cases chunksToInt BitString.new.toObj ind x with
      | error e => rfl
      | ok q => cases h : intToBitTuple q.1 q.2.1 <;> simp only [h] <;> rfl
  | names m =>
    cases co with
    | none =>
      simp only [nativeStep, StringKind.val, LeafSt.native, NamedBits.native, NamedBits.set, NamedBits.setBits, unread, bind, Except.bind, pure, Except.pure]
      by_cases h : (NamedBits.bitsOfNames m []).length > m.size
      · simp only [if_pos h]
      · simp only [if_neg h]
        cases bitsContents (rstrip0 (NamedBits.bitsOfNames m [])) <;> rfl
    | some x =>
      simp only [nativeStep, StringKind.val, LeafSt.native, NamedBits.native, unread, bind, Except.bind, pure, Except.pure, Option.getD]
      cases chunksToInt NamedBits.new.toObj ind x with
      | error e => rfl
      | ok q => cases h : intToBitTuple q.1 q.2.1 <;> simp only [h] <;> rfl
  | bitsAsOctets =>
    cases co with
    | none => rfl
    | some x =>
      simp only [nativeStep, StringKind.val, LeafSt.native, OctetBitString.native, unread, bind, Except.bind, pure, Except.pure]
      cases OctetBitString.readBytes ind x <;> rfl
  | bitsAsNumber =>
    cases co with
    | none => rfl
    | some x =>
      simp only [nativeStep, StringKind.val, LeafSt.native, IntegerBitString.native, unread, bind, Except.bind, pure, Except.pure]
      cases chunksToInt IntegerBitString.new.toObj ind x <;> rfl
  | encoded isBit =>
    cases co with
    | none => rfl
    | some x =>
      simp only [nativeStep, StringKind.val, parsableBytes, unread, bind, Except.bind]
      cases mergeObj (parsableChunk (parsableProto E c).2) (parsableProto E c).1 ind x <;> rfl

/-- With any tags, also an implicit one, what is read after the cast is what is read when the same bytes are loaded as `d`. -/
theorem C68_read {E : Env} {n : Nat} {r : Ops} {c d : ClassId} {k k' : StringKind} {tag : Nat} {es : List (Nat × Nat)} (hc : StringClass E c k tag es)
    (hd : StringClass E d k' tag es) {p : Params} (hp : p.default = none) {data : Bytes} {strict : Bool} {v : Val}
    (hv : loadVal E (ops E (n + 1)) c p data strict = .ok v) :
    ∃ w w', castVal E v d = .ok w ∧ loadVal E (ops E (n + 1)) d p data strict = .ok w' ∧ (nativeStep E r w).map Prod.fst = (nativeStep E r w').map Prod.fst := by
  rw [load_string hc rfl hp] at hv
  rw [load_string hd rfl hp]
  obtain ⟨i, h1, h2⟩ := py_bind.mp hv
  cases h3 : buildObj true [] (initTagging { cls := 0, method := 0, tag := tag, explicit := es } (p.buildTags es)) i with
  | error e => rw [h3] at h2; cases h2
  | ok o =>
    rw [h3] at h2
    cases h2
    refine ⟨_, k'.val d o, cast_eq (castSource_val k c o) hc hd, ?_, ?_⟩
    · rw [h1]
      show (buildObj _ _ _ _).map _ = _
      rw [h3]
      rfl
    · rw [(buildObj_tag h3).2]
      exact native_tag k' d o tag

/-- A class with another tag is refused. -/
theorem C68_refused {E : Env} {v : Val} {c d : ClassId} {o : Obj Unit} {k k' : StringKind} {tag tag' : Nat} {es es' : List (Nat × Nat)}
    (hs : castSource v = some (c, o)) (hc : StringClass E c k tag es) (hd : StringClass E d k' tag' es') (hne : tag ≠ tag') :
    castVal E v d = .error .typeError := by
  unfold StringClass at hc hd
  have ht : (E.cls c).tagging.2.1 = tag := by rw [hc]; cases k <;> rfl
  unfold castVal
  rw [hs]
  simp only [hd, ht]
  cases k' <;> simp only [StringKind.shape, LeafSt.base, Obj.erase, unread, ne_eq, hne.symm, not_false_eq_true, if_true]

/-! ### Where the code does not have the property -/

/-- Class 0 is `OctetString`, 1 `IntegerOctetString`, 2 `ParsableOctetString`, 3 `BitString`, 4 `OctetBitString`, 5 `IntegerBitString`. -/
def castEnv : Env where
  cls
    | 0 => StringKind.octets.shape { cls := 0, method := 0, tag := 4 }
    | 1 => StringKind.octetsAsNumber.shape { cls := 0, method := 0, tag := 4 }
    | 2 => (StringKind.encoded false).shape { cls := 0, method := 0, tag := 4 }
    | 3 => StringKind.bits.shape { cls := 0, method := 0, tag := 3 }
    | 4 => StringKind.bitsAsOctets.shape { cls := 0, method := 0, tag := 3 }
    | _ => StringKind.bitsAsNumber.shape { cls := 0, method := 0, tag := 3 }
  universal _ := none

/-- `cls(x, **params).dump()` and `cls(x, **params).cast(other).dump()` -/
def castBuilt (c d : ClassId) (p : Params) (x : Scalar) : Py (Bytes × Bytes) := do
  let v ← (ops castEnv 4).construct c p (.scalar x)
  let (b, _) ← (ops castEnv 4).dump v false
  let w ← castVal castEnv v d
  let (b', _) ← (ops castEnv 4).dump w false
  .ok (b, b')

/-- `cls.load(data, **params).dump(force)` and `cls.load(data, **params).cast(other).dump(force)` -/
def castLoaded (c d : ClassId) (p : Params) (data : Bytes) (force : Bool) : Py (Bytes × Bytes) := do
  let v ← loadVal castEnv (ops castEnv 4) c p data
  let (b, _) ← (ops castEnv 4).dump v force
  let w ← castVal castEnv v d
  let (b', _) ← (ops castEnv 4).dump w force
  .ok (b, b')

/-- An implicit tag is lost, although its class is kept: a string that was built with the implicit tag [5] is written with the tag [4] after a cast to another
OCTET STRING class, and so is one that was loaded, when it is encoded anew, with `force` or because of its indefinite length. -/
theorem C68_implicit_fails :
    castBuilt 0 1 { implicit := some (2, 5) } (.bytes [1, 2]) = .ok ([0x85, 2, 1, 2], [0x84, 2, 1, 2]) ∧
    castLoaded 0 2 { implicit := some (2, 5) } [0x85, 2, 1, 2] true = .ok ([0x85, 2, 1, 2], [0x84, 2, 1, 2]) ∧
    castLoaded 0 1 { implicit := some (2, 5) } [0xa5, 0x80, 4, 1, 1, 4, 1, 2, 0, 0] false = .ok ([0x85, 2, 1, 2], [0x84, 2, 1, 2]) := by
  decide +kernel

/-! ### Non-vacuity -/

example : StringClass castEnv 0 .octets 4 [] ∧ StringClass castEnv 1 .octetsAsNumber 4 [] ∧ StringClass castEnv 2 (.encoded false) 4 [] ∧
    StringClass castEnv 3 .bits 3 [] ∧ StringClass castEnv 4 .bitsAsOctets 3 [] ∧ StringClass castEnv 5 .bitsAsNumber 3 [] :=
  ⟨rfl, rfl, rfl, rfl, rfl, rfl⟩

/-- Definite length, with an explicit tag, and segments. -/
example : castLoaded 0 1 {} [4, 2, 1, 2] false = .ok ([4, 2, 1, 2], [4, 2, 1, 2]) ∧
    castLoaded 3 4 { explicit := [(2, 1)] } [0xa1, 4, 3, 2, 4, 0xf0] false = .ok ([0xa1, 4, 3, 2, 4, 0xf0], [0xa1, 4, 3, 2, 4, 0xf0]) ∧
    castLoaded 0 1 {} [0x24, 0x80, 4, 1, 1, 4, 1, 2, 0, 0] false = .ok ([4, 2, 1, 2], [4, 2, 1, 2]) ∧
    castBuilt 4 3 { explicit := [(2, 1)] } (.bytes [0xf0]) = .ok ([0xa1, 4, 3, 2, 0, 0xf0], [0xa1, 4, 3, 2, 0, 0xf0]) ∧
    (castBuilt 0 3 {} (.bytes [1])) = .error .typeError := by decide +kernel

end Asn1.Props
