import Verif.Lemmas.KeepBuild
import Verif.Lemmas.Tag

/-! # Instances of primitive classes: what `set`, `native` and `dump` depend on -/

namespace Asn1
open Spec

/-- The class of an instance: its class-level attributes with an empty instance state. -/
def LeafSt.kind : LeafSt → LeafSt
  | boolean _ => boolean Boolean.new
  | integer m _ => integer m Integer.new
  | enumerated m _ => enumerated m Enumerated.new
  | null _ => null Null.new
  | oid c _ => oid c Oid.new
  | octets _ => octets OctetString.new
  | chars k u _ => chars k u (charsNew u)
  | bits _ => bits BitString.new
  | named m _ => named m NamedBits.new
  | octetBits _ => octetBits OctetBitString.new
  | intBits _ => intBits IntegerBitString.new
  | intOctets o => intOctets { IntegerOctetString.new with width := o.width }

/-- Whether a native value is cached. -/
def LeafSt.cached : LeafSt → Bool
  | boolean o => o.native.isSome
  | integer _ o => o.native.isSome
  | enumerated _ o => o.native.isSome
  | null o => o.native.isSome
  | oid _ o => o.native.isSome
  | octets o => o.native.isSome
  | chars _ _ o => o.native.isSome
  | bits o => o.native.isSome
  | named _ o => o.native.isSome
  | octetBits o => o.native.isSome
  | intBits o => o.native.isSome
  | intOctets o => o.native.isSome

/-- Not a NULL. -/
def LeafSt.notNull : LeafSt → Bool
  | null _ => false
  | _ => true

theorem LeafSt.kind_map (f : {ν : Type} → Obj ν → Obj ν) (s : LeafSt) : (s.map f).kind = s.kind := by cases s <;> rfl

theorem LeafSt.kind_notNull {s t : LeafSt} (h : s.kind = t.kind) : s.notNull = t.notNull := by
  cases s <;> cases t <;> first | rfl | cases h

theorem LeafSt.kind_constructable {s t : LeafSt} (h : s.kind = t.kind) : s.constructable = t.constructable := by
  cases s <;> cases t <;> first | rfl | cases h

theorem LeafSt.map_map (f g : {ν : Type} → Obj ν → Obj ν) (s : LeafSt) : (s.map f).map g = s.map (fun o => g (f o)) := by
  cases s <;> rfl

/-- Reading a value that has contents fills caches only. -/
theorem LeafSt.native_kind {s s' : LeafSt} {x : Scalar} {d : Bytes} (hc : s.base.contents = some d) (h : s.native = .ok (x, s')) :
    s'.kind = s.kind := by
  cases s with
  | boolean o =>
    simp only [LeafSt.native, bind, Except.bind] at h
    split at h
    · cases h
    · injection h with h; injection h with _ h; subst h; rfl
  | integer m o =>
    simp only [LeafSt.native, bind, Except.bind] at h
    split at h
    · cases h
    · injection h with h; injection h with _ h; subst h; rfl
  | enumerated m o =>
    simp only [LeafSt.native, bind, Except.bind] at h
    split at h
    · cases h
    · injection h with h; injection h with _ h; subst h; rfl
  | null o => injection h with h; injection h with _ h; subst h; rfl
  | oid k o =>
    simp only [LeafSt.native, bind, Except.bind] at h
    split at h
    · cases h
    · injection h with h; injection h with _ h; subst h; rfl
  | octets o =>
    simp only [LeafSt.native, bind, Except.bind] at h
    split at h
    · cases h
    · injection h with h; injection h with _ h; subst h; rfl
  | chars k u o =>
    simp only [LeafSt.native, bind, Except.bind] at h
    split at h
    · cases h
    · injection h with h; injection h with _ h; subst h; rfl
  | bits o =>
    simp only [LeafSt.native, bind, Except.bind] at h
    split at h
    · cases h
    · injection h with h; injection h with _ h; subst h; rfl
  | named m o =>
    simp only [LeafSt.native, bind, Except.bind] at h
    split at h
    · cases h
    · injection h with h; injection h with _ h; subst h; rfl
  | octetBits o =>
    simp only [LeafSt.native, bind, Except.bind] at h
    split at h
    · cases h
    · injection h with h; injection h with _ h; subst h; rfl
  | intBits o =>
    simp only [LeafSt.native, bind, Except.bind] at h
    split at h
    · cases h
    · injection h with h; injection h with _ h; subst h; rfl
  | intOctets o =>
    obtain ⟨⟨_, _, _, _, _, _, co, _, na, ind⟩, w⟩ := o
    cases co with
    | none => cases hc
    | some co =>
      simp only [LeafSt.native, IntegerOctetString.native, bind, Except.bind] at h
      cases na with
      | some n => injection h with h; injection h with _ h; subst h; rfl
      | none =>
        simp only at h
        cases hm : mergeObj OctetString.asChunk IntegerOctetString.new.toObj ind co with
        | error e => rw [hm] at h; cases h
        | ok b => rw [hm] at h; injection h with h; injection h with _ h; subst h; rfl

/-- The shared attributes after `set`. -/
def Obj.afterSet (k : Bool) (c : Bytes) (o : Obj Unit) : Obj Unit :=
  { o with header := none, trailer := [], contents := some c, indefinite := !k && o.indefinite,
           method := if k && o.indefinite then 0 else o.method }

theorem strPut_afterSet {ν : Type} (o : Obj ν) (v : ν) (c : Bytes) : (strPut o v c).erase = o.erase.afterSet true c := by
  simp [strPut, Obj.erase, Obj.afterSet]

theorem Integer.setInt_inv {m : Option IntMap} {o o' : Obj IntNative} {n : Int} (h : Integer.setInt m o n = .ok o') :
    ∃ c v, intToBytes n true = .ok c ∧ o' = { o with native := some v, contents := some c, header := none, trailer := [] } := by
  unfold Integer.setInt at h
  simp only [bind, Except.bind] at h
  split at h
  · cases h
  · next hc => injection h with h; subst h; exact ⟨_, _, hc, rfl⟩

theorem Integer.set_inv {m : Option IntMap} {o o' : Obj IntNative} {n : IntNative} (h : Integer.set m o n = .ok o') :
    ∃ k, Integer.setInt m o k = .ok o' ∧ ∀ o2, Integer.set m o2 n = Integer.setInt m o2 k := by
  unfold Integer.set at h
  cases n with
  | int n => exact ⟨n, h, fun _ => rfl⟩
  | name s =>
    cases m with
    | none => cases h
    | some m =>
      simp only at h
      cases hr : m.rev s with
      | none => rw [hr] at h; cases h
      | some k => rw [hr] at h; exact ⟨k, h, fun o2 => by simp only [Integer.set, hr]⟩

theorem Enumerated.set_inv {m : Option IntMap} {o o' : Obj IntNative} {n : IntNative} (h : Enumerated.set m o n = .ok o') :
    ∃ k, Integer.setInt m o k = .ok o' ∧ ∀ o2, Enumerated.set m o2 n = Integer.setInt m o2 k := by
  unfold Enumerated.set at h
  cases m with
  | none => cases h
  | some m =>
    cases n with
    | int n =>
      simp only at h
      cases hr : m.get n with
      | none => rw [hr] at h; cases h
      | some k => rw [hr] at h; exact ⟨n, h, fun o2 => by simp only [Enumerated.set, hr]; rfl⟩
    | name s =>
      simp only at h
      cases hr : m.rev s with
      | none => rw [hr] at h; cases h
      | some k => rw [hr] at h; exact ⟨k, h, fun o2 => by simp only [Enumerated.set, hr]; rfl⟩

/-- What `set` does to an instance, and that the new contents and the new value depend on the class and the given value
only. -/
theorem LeafSt.set_spec {s s' : LeafSt} {x : Scalar} (hn : s.notNull = true) (h : s.set x = .ok s') :
    ∃ c, s'.base = s.base.afterSet s.constructable c ∧ s'.kind = s.kind ∧ s'.cached = true ∧
      ∀ t : LeafSt, t.kind = s.kind → ∃ t', t.set x = .ok t' ∧ t'.base.contents = some c ∧
        ∀ v, s'.native = .ok (v, s') → t'.native = .ok (v, t') := by
  cases s with
  | boolean o =>
    cases x <;>
    · injection h with h; subst h
      refine ⟨_, rfl, rfl, rfl, ?_⟩
      intro t ht
      cases t <;> try (cases ht; done)
      refine ⟨_, rfl, rfl, ?_⟩
      intro v hv
      injection hv with hv; injection hv with hv; subst hv; rfl
  | integer m o =>
    cases x <;> try (cases h; done)
    all_goals
      simp only [LeafSt.set, py_bind] at h
      obtain ⟨o', h1, h2⟩ := h
      cases h2
      obtain ⟨k, h3, h4⟩ := Integer.set_inv h1
      obtain ⟨c, v, h5, rfl⟩ := Integer.setInt_inv h3
      refine ⟨c, by simp [LeafSt.base, Obj.erase, Obj.afterSet, LeafSt.constructable], rfl, rfl, ?_⟩
      intro t ht
      cases t <;> try (cases ht; done)
      rename_i m' o2
      simp only [LeafSt.kind, LeafSt.integer.injEq, and_true] at ht
      subst ht
      refine ⟨.integer m' { o2 with native := some v, contents := some c, header := none, trailer := [] }, ?_, rfl, ?_⟩
      · simp only [LeafSt.set, h4]
        have h6 : Integer.setInt m' o2 k = .ok { o2 with native := some v, contents := some c, header := none, trailer := [] } := by
          unfold Integer.setInt at h3 ⊢
          simp only [h5, bind, Except.bind] at h3 ⊢
          injection h3 with h3
          injection h3 with _ _ _ _ _ _ _ _ h3 _
          rw [h3]
        rw [h6]; rfl
      · intro w hw
        injection hw with hw; injection hw with hw; subst hw; rfl
  | enumerated m o =>
    cases x <;> try (cases h; done)
    all_goals
      simp only [LeafSt.set, py_bind] at h
      obtain ⟨o', h1, h2⟩ := h
      cases h2
      obtain ⟨k, h3, h4⟩ := Enumerated.set_inv h1
      obtain ⟨c, v, h5, rfl⟩ := Integer.setInt_inv h3
      refine ⟨c, by simp [LeafSt.base, Obj.erase, Obj.afterSet, LeafSt.constructable], rfl, rfl, ?_⟩
      intro t ht
      cases t <;> try (cases ht; done)
      rename_i m' o2
      simp only [LeafSt.kind, LeafSt.enumerated.injEq, and_true] at ht
      subst ht
      refine ⟨.enumerated m' { o2 with native := some v, contents := some c, header := none, trailer := [] }, ?_, rfl, ?_⟩
      · simp only [LeafSt.set, h4]
        have h6 : Integer.setInt m' o2 k = .ok { o2 with native := some v, contents := some c, header := none, trailer := [] } := by
          unfold Integer.setInt at h3 ⊢
          simp only [h5, bind, Except.bind] at h3 ⊢
          injection h3 with h3
          injection h3 with _ _ _ _ _ _ _ _ h3 _
          rw [h3]
        rw [h6]; rfl
      · intro w hw
        injection hw with hw; injection hw with hw; subst hw; rfl
  | null o => cases hn
  | oid k o =>
    cases x <;> try (cases h; done)
    rename_i n
    simp only [LeafSt.set, Oid.set] at h
    cases hd : k.resolve n with
    | error e => rw [hd] at h; cases h
    | ok d => ?_
    rw [hd] at h
    simp only at h
    generalize hq : oidLoop 0 0 _ [] = q at h
    obtain ⟨a, b⟩ := q
    cases b with
    | some e => cases h
    | none =>
      injection h with h; subst h
      refine ⟨a, by simp [LeafSt.base, Obj.erase, Obj.afterSet, LeafSt.constructable], rfl, rfl, ?_⟩
      intro t ht
      cases t <;> try (cases ht; done)
      rename_i k' o2
      simp only [LeafSt.kind, LeafSt.oid.injEq, and_true] at ht
      subst ht
      refine ⟨.oid k' { o2 with native := some n, contents := some a, header := none, trailer := [] }, ?_, rfl, ?_⟩
      · simp only [LeafSt.set, Oid.set, hd]
        rw [hq]
      · intro v hv
        simp only [LeafSt.native, Oid.native, bind, Except.bind, pure, Except.pure, Except.ok.injEq, Prod.mk.injEq,
          LeafSt.oid.injEq, OidObj.mk.injEq, Obj.mk.injEq, true_and, and_true] at hv ⊢
        exact hv
  | octets o =>
    cases x <;> try (cases h; done)
    injection h with h; subst h
    refine ⟨_, strPut_afterSet _ _ _, rfl, rfl, ?_⟩
    intro t ht
    cases t <;> try (cases ht; done)
    refine ⟨_, rfl, rfl, ?_⟩
    intro v hv
    injection hv with hv; injection hv with hv; subst hv; rfl
  | chars k u o =>
    cases x <;> try (cases h; done)
    rename_i n
    simp only [LeafSt.set, AbstractString.set, py_bind] at h
    obtain ⟨o', ⟨c, hc, h1⟩, h2⟩ := h
    cases h1; cases h2
    refine ⟨_, strPut_afterSet _ _ _, rfl, rfl, ?_⟩
    intro t ht
    cases t <;> try (cases ht; done)
    rename_i k' u' o2
    simp only [LeafSt.kind, LeafSt.chars.injEq] at ht
    obtain ⟨rfl, rfl, _⟩ := ht
    refine ⟨.chars k' u' (strPut o2 n c), ?_, rfl, ?_⟩
    · simp only [LeafSt.set, AbstractString.set, hc]; rfl
    intro v hv
    injection hv with hv; injection hv with hv; subst hv; rfl
  | bits o =>
    cases x <;> try (cases h; done)
    rename_i n
    simp only [LeafSt.set, BitString.set, py_bind] at h
    obtain ⟨o', ⟨⟨c, e⟩, hc, h1⟩, h2⟩ := h
    cases h1; cases h2
    refine ⟨_, strPut_afterSet _ _ _, rfl, rfl, ?_⟩
    intro t ht
    cases t <;> try (cases ht; done)
    rename_i o2
    refine ⟨.bits (bitPut o2 n c e), ?_, rfl, ?_⟩
    · simp only [LeafSt.set, BitString.set, hc]; rfl
    intro v hv
    injection hv with hv; injection hv with hv; subst hv; rfl
  | named m o =>
    have aux : ∀ (y : Scalar) (nat : List BitKey) (bits : List Bool),
        (∀ o : BitObj (List BitKey), (LeafSt.named m o).set y = (NamedBits.setBits m o nat bits).bind (fun o => .ok (.named m o))) →
        (LeafSt.named m o).set y = .ok s' →
        ∃ c, s'.base = (LeafSt.named m o).base.afterSet true c ∧ s'.kind = (LeafSt.named m o).kind ∧ s'.cached = true ∧
          ∀ t : LeafSt, t.kind = (LeafSt.named m o).kind → ∃ t', t.set y = .ok t' ∧ t'.base.contents = some c ∧
            ∀ v, s'.native = .ok (v, s') → t'.native = .ok (v, t') := by
      intro y nat bits hy h
      rw [hy] at h
      unfold NamedBits.setBits at h
      by_cases hl : bits.length > m.size
      · rw [if_pos hl] at h; cases h
      rw [if_neg hl] at h
      cases hc : bitsContents (rstrip0 bits) with
      | error e => rw [hc] at h; cases h
      | ok ce =>
        rw [hc] at h
        injection h with h; subst h
        refine ⟨_, strPut_afterSet _ _ _, rfl, rfl, ?_⟩
        intro t ht
        cases t <;> try (cases ht; done)
        rename_i m' o2
        simp only [LeafSt.kind, LeafSt.named.injEq, and_true] at ht
        subst ht
        refine ⟨.named m' (bitPut o2 nat ce.1 ce.2), ?_, rfl, ?_⟩
        · rw [hy]
          simp only [NamedBits.setBits, if_neg hl, hc]; rfl
        intro v hv
        injection hv with hv; injection hv with hv; subst hv; rfl
    cases x <;> try (cases h; done)
    · exact aux _ _ _ (fun _ => rfl) h
    · exact aux _ _ _ (fun _ => rfl) h
  | octetBits o =>
    cases x <;> try (cases h; done)
    injection h with h; subst h
    refine ⟨_, strPut_afterSet _ _ _, rfl, rfl, ?_⟩
    intro t ht
    cases t <;> try (cases ht; done)
    refine ⟨_, rfl, rfl, ?_⟩
    intro v hv
    injection hv with hv; injection hv with hv; subst hv; rfl
  | intBits o =>
    cases x <;> try (cases h; done)
    rename_i n
    simp only [LeafSt.set, IntegerBitString.set, py_bind] at h
    obtain ⟨o', h1, h2⟩ := h
    cases h2
    split at h1
    · cases h1
    next hl =>
    simp only [py_bind] at h1
    obtain ⟨c, hc, h1⟩ := h1
    cases h1
    refine ⟨_, strPut_afterSet _ _ _, rfl, rfl, ?_⟩
    intro t ht
    cases t <;> try (cases ht; done)
    rename_i o2
    refine ⟨.intBits (bitPut o2 n.toNat (0 :: c) 0), ?_, rfl, ?_⟩
    · simp only [LeafSt.set, IntegerBitString.set, if_neg hl, hc]; rfl
    intro v hv
    injection hv with hv; injection hv with hv; subst hv; rfl
  | intOctets o =>
    cases x <;> try (cases h; done)
    rename_i n
    simp only [LeafSt.set, IntegerOctetString.set, py_bind] at h
    obtain ⟨o', h1, h2⟩ := h
    cases h2
    split at h1
    · cases h1
    next hl =>
    simp only [py_bind] at h1
    obtain ⟨c, hc, h1⟩ := h1
    cases h1
    refine ⟨_, strPut_afterSet _ _ _, rfl, rfl, ?_⟩
    intro t ht
    cases t <;> try (cases ht; done)
    rename_i o2
    simp only [LeafSt.kind, LeafSt.intOctets.injEq, IntOctObj.mk.injEq, true_and] at ht
    refine ⟨.intOctets { o2 with toObj := strPut o2.toObj n.toNat c }, ?_, rfl, ?_⟩
    · simp only [LeafSt.set, IntegerOctetString.set, if_neg hl, ht, hc]; rfl
    intro v hv
    injection hv with hv; injection hv with hv; subst hv; rfl

/-- The instance after its header has been computed. -/
def LeafSt.headed (h : Bytes) (s : LeafSt) : LeafSt := s.map (fun o => { o with header := some h, trailer := [] })

theorem asn1Dump_keep {ν : Type} {k : Bool} {o : Obj ν} {h c : Bytes} (hh : o.header = some h) (he : headerEnds80 (some h) = false)
    (hc : o.contents = some c) : asn1Dump k o = .ok (h ++ c ++ o.trailer, o) := by
  unfold asn1Dump
  rw [hc, hh]
  simp only [he, Bool.or_false]

/-- `dump()` of an instance whose header is kept. -/
theorem LeafSt.dump_kept {s : LeafSt} {h c : Bytes} (hh : s.base.header = some h) (he : headerEnds80 (some h) = false)
    (hc : s.base.contents = some c) : s.dump false = .ok (h ++ c ++ s.base.trailer, s) := by
  have prim : ∀ {ν : Type} {k : Bool} {nat : Obj ν → Py (Option ν × Obj ν)} {st : Obj ν → ν → Py (Obj ν)}
      {sn : Obj ν → Py (Obj ν)} {o : Obj ν}, o.header = some h → primDump k nat st sn o false = asn1Dump k o := by
    intro ν k nat st sn o h
    unfold primDump
    rw [h, he]; rfl
  cases s <;> rename_i o <;> have hh' : o.header = some h := hh <;> have hc' : o.contents = some c := hc
  case boolean => simp only [LeafSt.dump, Boolean.dump, prim hh', asn1Dump_keep hh' he hc']; rfl
  case integer => simp only [LeafSt.dump, Integer.dump, prim hh', asn1Dump_keep hh' he hc']; rfl
  case enumerated => simp only [LeafSt.dump, Enumerated.dump, prim hh', asn1Dump_keep hh' he hc']; rfl
  case null => simp only [LeafSt.dump, Null.dump, prim hh', asn1Dump_keep hh' he hc']; rfl
  case oid => simp only [LeafSt.dump, Oid.dump, hh', he, Bool.or_false, Bool.false_eq_true, if_false, asn1Dump_keep hh' he hc']; rfl
  case octets => simp only [LeafSt.dump, OctetString.dump, prim hh', asn1Dump_keep hh' he hc']; rfl
  case chars => simp only [LeafSt.dump, AbstractString.dump, prim hh', asn1Dump_keep hh' he hc']; rfl
  case bits =>
    simp only [LeafSt.dump, BitString.dump, hh', he, Bool.or_false, Bool.false_eq_true, if_false, bind, Except.bind, pure, Except.pure,
      asn1Dump_keep hh' he hc']
    rfl
  case named =>
    simp only [LeafSt.dump, NamedBits.dump, hh', he, Bool.or_false, Bool.false_eq_true, if_false, bind, Except.bind, pure, Except.pure,
      asn1Dump_keep hh' he hc']
    rfl
  case octetBits =>
    simp only [LeafSt.dump, OctetBitString.dump, hh', he, Bool.or_false, Bool.false_eq_true, if_false, bind, Except.bind, pure, Except.pure,
      asn1Dump_keep hh' he hc']
    rfl
  case intBits =>
    simp only [LeafSt.dump, IntegerBitString.dump, hh', he, Bool.or_false, Bool.false_eq_true, if_false, bind, Except.bind, pure, Except.pure,
      asn1Dump_keep hh' he hc']
    rfl
  case intOctets => simp only [LeafSt.dump, IntegerOctetString.dump, hh', he, Bool.or_false, Bool.false_eq_true, if_false, asn1Dump_keep hh' he hc']; rfl

/-- `dump()` of an instance without header. -/
theorem LeafSt.dump_new {s : LeafSt} {c : Bytes} (hh : s.base.header = none) (hi : s.base.indefinite = false)
    (hc : s.base.contents = some c) :
    s.dump false = (dumpHeader s.base.cls s.base.method s.base.tag c).bind (fun h0 =>
      (wrapExplicit s.base.explicit h0 c).bind (fun h => .ok (h ++ c, s.headed h))) := by
  have aux : ∀ {ν : Type} {k : Bool} {o : Obj ν} (f : Obj ν → LeafSt), o.header = none → o.indefinite = false → o.contents = some c →
      (asn1Dump k o).bind (fun r => (.ok (r.1, f r.2) : Py (Bytes × LeafSt))) = (dumpHeader o.cls o.method o.tag c).bind (fun h0 =>
      (wrapExplicit o.explicit h0 c).bind (fun h => .ok (h ++ c, f { o with header := some h, trailer := [] }))) := by
    intro ν k o f h1 h2 h3
    rw [asn1Dump_fresh h3 h1 h2]
    cases dumpHeader o.cls o.method o.tag c with
    | error e => rfl
    | ok h0 => simp only [Except.bind]; cases wrapExplicit o.explicit h0 c <;> rfl
  cases s <;> rename_i o <;> have hh' : o.header = none := hh <;> have hc' : o.contents = some c := hc <;>
    have hi' : o.indefinite = false := hi
  case boolean => simp only [LeafSt.dump, Boolean.dump, primDump_fresh hh']; exact aux _ hh' hi' hc'
  case integer => simp only [LeafSt.dump, Integer.dump, primDump_fresh hh']; exact aux _ hh' hi' hc'
  case enumerated => simp only [LeafSt.dump, Enumerated.dump, primDump_fresh hh']; exact aux _ hh' hi' hc'
  case null => simp only [LeafSt.dump, Null.dump, primDump_fresh hh']; exact aux _ hh' hi' hc'
  case oid k =>
    simp only [LeafSt.dump, Oid.dump, hh', headerEnds80, Bool.or_false, Bool.false_eq_true, if_false]
    refine Eq.trans ?_ (aux (k := false) (fun x => .oid k { o with toObj := x }) hh' hi' hc')
    cases asn1Dump false o.toObj <;> rfl
  case octets => simp only [LeafSt.dump, OctetString.dump, primDump_fresh hh']; exact aux _ hh' hi' hc'
  case chars => simp only [LeafSt.dump, AbstractString.dump, primDump_fresh hh']; exact aux _ hh' hi' hc'
  case bits =>
    simp only [LeafSt.dump, BitString.dump, hh', headerEnds80, Bool.or_false, Bool.false_eq_true, if_false, bind, Except.bind, pure, Except.pure]
    refine Eq.trans ?_ (aux (k := true) (fun x => .bits { o with toObj := x }) hh' hi' hc')
    cases asn1Dump true o.toObj <;> rfl
  case named m =>
    simp only [LeafSt.dump, NamedBits.dump, hh', headerEnds80, Bool.or_false, Bool.false_eq_true, if_false, bind, Except.bind, pure, Except.pure]
    refine Eq.trans ?_ (aux (k := true) (fun x => .named m { o with toObj := x }) hh' hi' hc')
    cases asn1Dump true o.toObj <;> rfl
  case octetBits =>
    simp only [LeafSt.dump, OctetBitString.dump, hh', headerEnds80, Bool.or_false, Bool.false_eq_true, if_false, bind, Except.bind, pure, Except.pure]
    refine Eq.trans ?_ (aux (k := true) (fun x => .octetBits { o with toObj := x }) hh' hi' hc')
    cases asn1Dump true o.toObj <;> rfl
  case intBits =>
    simp only [LeafSt.dump, IntegerBitString.dump, hh', headerEnds80, Bool.or_false, Bool.false_eq_true, if_false, bind, Except.bind, pure, Except.pure]
    refine Eq.trans ?_ (aux (k := true) (fun x => .intBits { o with toObj := x }) hh' hi' hc')
    cases asn1Dump true o.toObj <;> rfl
  case intOctets =>
    simp only [LeafSt.dump, IntegerOctetString.dump, hh', headerEnds80, Bool.or_false, Bool.false_eq_true, if_false]
    refine Eq.trans ?_ (aux (k := true) (fun x => .intOctets { o with toObj := x }) hh' hi' hc')
    cases asn1Dump true o.toObj <;> rfl

/-- A re-encoding `dump` sets the value that has been read and encodes. -/
theorem LeafSt.dump_forced {s s1 : LeafSt} {force : Bool} {x : Scalar} {c : Bytes} (hn : s.notNull = true)
    (hf : (force || headerEnds80 s.base.header) = true) (hc : s.base.contents = some c) (h : s.native = .ok (x, s1)) :
    s.dump force = ((s1.map (fun o => { o with contents := none })).set x).bind (fun s2 => s2.dump false) := by
  have prim : ∀ {ν : Type} {k : Bool} {nat : Obj ν → Py (Option ν × Obj ν)} {st : Obj ν → ν → Py (Obj ν)}
      {sn : Obj ν → Py (Obj ν)} {o o1 : Obj ν} {n : ν} {f : Obj ν → LeafSt}, (force || headerEnds80 o.header) = true →
      nat o = .ok (some n, o1) → (∀ o2, st { o1 with contents := none } n = .ok o2 → o2.header = none) →
      (primDump k nat st sn o force).bind (fun r => (.ok (r.1, f r.2) : Py (Bytes × LeafSt))) =
        (st { o1 with contents := none } n).bind (fun o2 => (primDump k nat st sn o2 false).bind (fun r => .ok (r.1, f r.2))) := by
    intro ν k nat st sn o o1 n f h1 h2 h3
    unfold primDump
    rw [h1, h2]
    simp only [bind, Except.bind, if_true]
    cases hs : st { o1 with contents := none } n with
    | error e => rfl
    | ok o2 => simp only [h3 o2 hs, headerEnds80, Bool.or_false, Bool.false_eq_true, if_false]
  have hI : ∀ {m : Option IntMap} {o o2 : Obj IntNative} {n : Int}, Integer.setInt m o n = .ok o2 → o2.header = none := by
    intro m o o2 n h
    obtain ⟨_, _, _, rfl⟩ := Integer.setInt_inv h
    rfl
  cases s with
  | boolean o =>
    obtain ⟨_, _, _, _, _, hd, co, _, na, ind⟩ := o
    cases co with
    | none => cases hc
    | some co =>
    cases na <;>
    · cases h
      refine (prim (f := .boolean) hf rfl ?_).trans rfl
      intro o2 h2; cases h2; rfl
  | integer m o =>
    obtain ⟨_, _, _, _, _, hd, co, _, na, ind⟩ := o
    cases co with
    | none => cases hc
    | some co =>
    simp only [LeafSt.native, py_bind] at h
    obtain ⟨⟨n, o'⟩, h1, h2⟩ := h
    cases h2
    have hn' : ∃ n', n = some n' := by
      cases na <;> (simp only [Integer.native] at h1; cases h1; exact ⟨_, rfl⟩)
    obtain ⟨n, rfl⟩ := hn'
    refine (prim (f := .integer m) hf h1 (fun o2 h2 => ?_)).trans ?_
    · obtain ⟨k, hk, _⟩ := Integer.set_inv h2
      exact hI hk
    · cases n with
      | int n =>
        simp only [LeafSt.map, LeafSt.set, LeafSt.optScalar, LeafSt.ofIntNative, bind, Except.bind]
        cases Integer.set m _ _ <;> rfl
      | name n =>
        simp only [LeafSt.map, LeafSt.set, LeafSt.optScalar, LeafSt.ofIntNative, bind, Except.bind, String.ofList_toList]
        cases Integer.set m _ _ <;> rfl
  | enumerated m o =>
    obtain ⟨_, _, _, _, _, hd, co, _, na, ind⟩ := o
    cases co with
    | none => cases hc
    | some co =>
    simp only [LeafSt.native, py_bind] at h
    obtain ⟨⟨n, o'⟩, h1, h2⟩ := h
    cases h2
    have hn' : ∃ n', n = some n' := by
      cases na with
      | some n => simp only [Enumerated.native] at h1; cases h1; exact ⟨_, rfl⟩
      | none =>
        cases m with
        | none => cases h1
        | some m =>
          simp only [Enumerated.native] at h1
          split at h1
          · cases h1; exact ⟨_, rfl⟩
          · cases h1
    obtain ⟨n, rfl⟩ := hn'
    refine (prim (f := .enumerated m) hf h1 (fun o2 h2 => ?_)).trans ?_
    · obtain ⟨k, hk, _⟩ := Enumerated.set_inv h2
      exact hI hk
    · cases n with
      | int n =>
        simp only [LeafSt.map, LeafSt.set, LeafSt.optScalar, LeafSt.ofIntNative, bind, Except.bind]
        cases Enumerated.set m _ _ <;> rfl
      | name n =>
        simp only [LeafSt.map, LeafSt.set, LeafSt.optScalar, LeafSt.ofIntNative, bind, Except.bind, String.ofList_toList]
        cases Enumerated.set m _ _ <;> rfl
  | null o => cases hn
  | oid k o =>
    simp only [LeafSt.native, py_bind] at h
    obtain ⟨⟨n, o'⟩, h1, h2⟩ := h
    cases h2
    have hn' : ∃ n', n = some n' := by
      unfold Oid.native at h1
      rw [show o.contents = some c from hc] at h1
      cases hna : o.native with
      | some n' => rw [hna] at h1; cases h1; exact ⟨_, rfl⟩
      | none =>
        rw [hna] at h1
        simp only [bind, Except.bind] at h1
        cases hd : Oid.dotted o with
        | error e => rw [hd] at h1; cases h1
        | ok d => rw [hd] at h1; cases h1; exact ⟨_, rfl⟩
    obtain ⟨n, rfl⟩ := hn'
    have hf' : (force || headerEnds80 o.header) = true := hf
    simp only [LeafSt.dump, Oid.dump, hf', if_true, h1, bind, Except.bind, LeafSt.map, LeafSt.optScalar, LeafSt.set]
    simp only [Oid.set]
    cases k.resolve _ with
    | error e => rfl
    | ok d => ?_
    simp only
    generalize oidLoop 0 0 _ [] = q
    obtain ⟨a, b⟩ := q
    cases b with
    | some e => rfl
    | none =>
      simp only [headerEnds80, Bool.or_false, Bool.false_eq_true, if_false]
  | octets o =>
    simp only [LeafSt.native, py_bind] at h
    obtain ⟨⟨n, o'⟩, h1, h2⟩ := h
    cases h2
    have hn' : ∃ n', n = some n' := by
      unfold OctetString.native at h1
      rw [show o.contents = some c from hc] at h1
      simp only at h1
      split at h1
      · cases h1; exact ⟨_, rfl⟩
      · simp only [py_bind] at h1
        obtain ⟨_, _, h1⟩ := h1
        cases h1
        exact ⟨_, rfl⟩
    obtain ⟨n, rfl⟩ := hn'
    refine (prim (f := .octets) hf h1 (fun o2 h2 => ?_)).trans ?_
    · cases h2; rfl
    · rfl
  | chars k u o =>
    simp only [LeafSt.native, py_bind] at h
    obtain ⟨⟨n, o'⟩, h1, h2⟩ := h
    cases h2
    have hn' : ∃ n', n = some n' := by
      unfold AbstractString.native at h1
      rw [show o.contents = some c from hc] at h1
      simp only at h1
      split at h1
      · cases h1; exact ⟨_, rfl⟩
      · simp only [py_bind] at h1
        obtain ⟨_, _, _, _, h1⟩ := h1
        cases h1
        exact ⟨_, rfl⟩
    obtain ⟨n, rfl⟩ := hn'
    refine (prim (f := .chars k u) hf h1 (fun o2 h2 => ?_)).trans ?_
    · simp only [AbstractString.set, py_bind] at h2
      obtain ⟨_, _, h2⟩ := h2
      cases h2; rfl
    · simp only [LeafSt.map, LeafSt.set, LeafSt.optScalar, bind, Except.bind]
      cases AbstractString.set k _ _ <;> rfl
  | bits o =>
    simp only [LeafSt.native, py_bind] at h
    obtain ⟨⟨n, o'⟩, h1, h2⟩ := h
    cases h2
    have hf' : (force || headerEnds80 o.header) = true := hf
    simp only [LeafSt.dump, BitString.dump, hf', if_true, h1, bind, Except.bind, LeafSt.map, LeafSt.set]
    simp only [BitString.set, bind, Except.bind, pure, Except.pure]
    cases bitsContents n with
    | error e => rfl
    | ok ce => simp only [bitPut, strPut, headerEnds80, Bool.or_false, Bool.false_eq_true, if_false]
  | named m o =>
    simp only [LeafSt.native, py_bind] at h
    obtain ⟨⟨n, o'⟩, h1, h2⟩ := h
    cases h2
    have hf' : (force || headerEnds80 o.header) = true := hf
    show (NamedBits.dump m o force).bind (fun r => (.ok (r.1, .named m r.2) : Py (Bytes × LeafSt))) =
      ((NamedBits.set m { o' with contents := none } n).bind (fun o => (.ok (.named m o) : Py LeafSt))).bind (fun s2 => s2.dump false)
    cases hs : NamedBits.set m { o' with contents := none } n with
    | error e =>
      unfold NamedBits.dump
      simp only [hf', if_true, h1, bind, Except.bind, hs]
    | ok o2 =>
      have hh2 : o2.header = none := by
        simp only [NamedBits.set, NamedBits.setBits] at hs
        split at hs
        · cases hs
        · simp only [py_bind] at hs
          obtain ⟨⟨_, _⟩, _, hs⟩ := hs
          cases hs; rfl
      show _ = (NamedBits.dump m o2 false).bind (fun r => (.ok (r.1, .named m r.2) : Py (Bytes × LeafSt)))
      unfold NamedBits.dump
      simp only [hf', if_true, h1, bind, Except.bind, pure, Except.pure, hs, hh2, show headerEnds80 none = false from rfl, Bool.or_false, Bool.false_eq_true, if_false]
  | octetBits o =>
    simp only [LeafSt.native, py_bind] at h
    obtain ⟨⟨n, o'⟩, h1, h2⟩ := h
    cases h2
    have hn' : ∃ n', n = some n' := by
      unfold OctetBitString.native at h1
      rw [show o.contents = some c from hc] at h1
      simp only at h1
      split at h1
      · cases h1; exact ⟨_, rfl⟩
      · simp only [py_bind] at h1
        obtain ⟨_, _, h1⟩ := h1
        cases h1
        exact ⟨_, rfl⟩
    obtain ⟨n, rfl⟩ := hn'
    have hf' : (force || headerEnds80 o.header) = true := hf
    simp only [LeafSt.dump, OctetBitString.dump, hf', if_true, h1, bind, Except.bind, LeafSt.map, LeafSt.set, LeafSt.optScalar]
    simp only [OctetBitString.set, bind, Except.bind, pure, Except.pure, bitPut, strPut, headerEnds80, Bool.or_false, Bool.false_eq_true, if_false]
  | intBits o =>
    simp only [LeafSt.native, py_bind] at h
    obtain ⟨⟨n, o'⟩, h1, h2⟩ := h
    cases h2
    have hn' : ∃ n', n = some n' := by
      unfold IntegerBitString.native at h1
      rw [show o.contents = some c from hc] at h1
      simp only at h1
      split at h1
      · cases h1; exact ⟨_, rfl⟩
      · simp only [py_bind] at h1
        obtain ⟨_, _, h1⟩ := h1
        cases h1
        exact ⟨_, rfl⟩
    obtain ⟨n, rfl⟩ := hn'
    have hf' : (force || headerEnds80 o.header) = true := hf
    show (IntegerBitString.dump o force).bind (fun r => (.ok (r.1, .intBits r.2) : Py (Bytes × LeafSt))) =
      ((IntegerBitString.set { o' with contents := none } n).bind (fun o => (.ok (.intBits o) : Py LeafSt))).bind (fun s2 => s2.dump false)
    cases hs : IntegerBitString.set { o' with contents := none } n with
    | error e =>
      unfold IntegerBitString.dump
      simp only [hf', if_true, h1, bind, Except.bind, hs]
    | ok o2 =>
      have hh2 : o2.header = none := by
        simp only [IntegerBitString.set] at hs
        split at hs
        · cases hs
        · simp only [py_bind] at hs
          obtain ⟨_, _, hs⟩ := hs
          cases hs; rfl
      show _ = (IntegerBitString.dump o2 false).bind (fun r => (.ok (r.1, .intBits r.2) : Py (Bytes × LeafSt)))
      unfold IntegerBitString.dump
      simp only [hf', if_true, h1, bind, Except.bind, pure, Except.pure, hs, hh2, show headerEnds80 none = false from rfl, Bool.or_false, Bool.false_eq_true, if_false]
  | intOctets o =>
    simp only [LeafSt.native, py_bind] at h
    obtain ⟨⟨n, o'⟩, h1, h2⟩ := h
    cases h2
    have hn' : ∃ n', n = some n' := by
      unfold IntegerOctetString.native at h1
      rw [show o.contents = some c from hc] at h1
      simp only at h1
      split at h1
      · cases h1; exact ⟨_, rfl⟩
      · simp only [py_bind] at h1
        obtain ⟨_, _, h1⟩ := h1
        cases h1
        exact ⟨_, rfl⟩
    obtain ⟨n, rfl⟩ := hn'
    have hf' : (force || headerEnds80 o.header) = true := hf
    show (IntegerOctetString.dump o force).bind (fun r => (.ok (r.1, .intOctets r.2) : Py (Bytes × LeafSt))) =
      ((IntegerOctetString.set { o' with contents := none } n).bind (fun o => (.ok (.intOctets o) : Py LeafSt))).bind (fun s2 => s2.dump false)
    cases hs : IntegerOctetString.set { o' with contents := none } n with
    | error e =>
      unfold IntegerOctetString.dump
      simp only [hf', if_true, h1, bind, Except.bind, hs]
    | ok o2 =>
      have hh2 : o2.header = none := by
        simp only [IntegerOctetString.set] at hs
        split at hs
        · cases hs
        · simp only [py_bind] at hs
          obtain ⟨_, _, hs⟩ := hs
          cases hs; rfl
      show _ = (IntegerOctetString.dump o2 false).bind (fun r => (.ok (r.1, .intOctets r.2) : Py (Bytes × LeafSt)))
      unfold IntegerOctetString.dump
      simp only [hf', if_true, h1, bind, Except.bind, pure, Except.pure, hs, hh2, show headerEnds80 none = false from rfl, Bool.or_false, Bool.false_eq_true, if_false]

end Asn1
