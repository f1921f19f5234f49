import Verif.Model.Leaf
import Verif.Lemmas.Obj
import Verif.Lemmas.Integer
import Verif.Lemmas.StrRead

/-! # `LeafSt` operations in terms of the shared attributes -/

namespace Asn1

/-- Replaces the tagging of an instance. -/
def Obj.retag {ν : Type} (c t : Nat) (i : Bool) (es : List (Nat × Nat)) (o : Obj ν) : Obj ν :=
  { o with cls := c, tag := t, implicit := i, explicit := es }

theorem LeafSt.base_map (f : {ν : Type} → Obj ν → Obj ν) (hf : ∀ {ν : Type} (o : Obj ν), (f o).erase = f o.erase) (s : LeafSt) :
    (s.map f).base = f s.base := by
  cases s <;> exact hf _

theorem Obj.erase_retag {ν : Type} (c t : Nat) (i : Bool) (es : List (Nat × Nat)) (o : Obj ν) :
    (o.retag c t i es).erase = o.erase.retag c t i es := rfl

theorem LeafSt.base_retag (c t : Nat) (i : Bool) (es : List (Nat × Nat)) (s : LeafSt) :
    (s.map (Obj.retag c t i es)).base = s.base.retag c t i es := LeafSt.base_map _ (fun _ => rfl) s

/-- `Asn1Value.__init__` only replaces the tagging. -/
theorem initTagging_eq {ν : Type} (o : Obj ν) (p : TagParams) :
    initTagging o p = o.retag (initTagging o p).cls (initTagging o p).tag (initTagging o p).implicit (initTagging o p).explicit := by
  unfold initTagging Obj.retag
  cases o
  simp only
  split <;> split <;> (try split) <;> rfl

theorem initTagging_erase {ν : Type} (o : Obj ν) (p : TagParams) : (initTagging o p).erase = initTagging o.erase p := by
  unfold initTagging Obj.erase
  cases o
  simp only
  split <;> split <;> (try split) <;> rfl

theorem LeafSt.map_congr {f g : {ν : Type} → Obj ν → Obj ν} (s : LeafSt) (h : ∀ {ν : Type} (o : Obj ν), o.erase = s.base → f o = g o) :
    s.map f = s.map g := by
  cases s <;> simp only [LeafSt.map] <;> rw [h _ rfl]

theorem LeafSt.base_init (s : LeafSt) (p : TagParams) : (s.init p).base = initTagging s.base p :=
  LeafSt.base_map _ (fun o => initTagging_erase o p) s

theorem LeafSt.init_eq (s : LeafSt) (p : TagParams) :
    s.init p = s.map (Obj.retag (initTagging s.base p).cls (initTagging s.base p).tag (initTagging s.base p).implicit
      (initTagging s.base p).explicit) := by
  unfold LeafSt.init
  apply LeafSt.map_congr
  intro ν o h
  conv_lhs => rw [initTagging_eq]
  rw [← h, ← initTagging_erase]
  rfl

theorem Integer.setInt_retag (m : Option IntMap) (o : Obj IntNative) (n : Int) (c t : Nat) (i : Bool) (es : List (Nat × Nat)) :
    Integer.setInt m (o.retag c t i es) n = (Integer.setInt m o n).map (Obj.retag c t i es) := by
  unfold Integer.setInt
  simp only [bind, Except.bind]
  cases intToBytes n true <;> rfl

theorem Integer.set_retag (m : Option IntMap) (o : Obj IntNative) (n : IntNative) (c t : Nat) (i : Bool) (es : List (Nat × Nat)) :
    Integer.set m (o.retag c t i es) n = (Integer.set m o n).map (Obj.retag c t i es) := by
  unfold Integer.set
  cases n with
  | int n => exact Integer.setInt_retag ..
  | name s =>
    cases m with
    | none => rfl
    | some m =>
      simp only
      cases m.rev s with
      | none => rfl
      | some n => exact Integer.setInt_retag ..

theorem Enumerated.set_retag (m : Option IntMap) (o : Obj IntNative) (n : IntNative) (c t : Nat) (i : Bool) (es : List (Nat × Nat)) :
    Enumerated.set m (o.retag c t i es) n = (Enumerated.set m o n).map (Obj.retag c t i es) := by
  unfold Enumerated.set
  cases m with
  | none => rfl
  | some m =>
    cases n with
    | int n =>
      simp only
      cases m.get n with
      | none => rfl
      | some _ => exact Integer.set_retag ..
    | name s =>
      simp only
      cases m.rev s with
      | none => rfl
      | some _ => exact Integer.set_retag ..

theorem NamedBits.setBits_retag (m : BitMap) (o : BitObj (List BitKey)) (n : List BitKey) (b : List Bool) (c t : Nat) (i : Bool)
    (es : List (Nat × Nat)) :
    NamedBits.setBits m { o with toObj := o.toObj.retag c t i es } n b =
      (NamedBits.setBits m o n b).map (fun o => { o with toObj := o.toObj.retag c t i es }) := by
  unfold NamedBits.setBits
  split
  · rfl
  · simp only [bind, Except.bind]
    cases bitsContents _ <;> rfl

/-- `set` does not look at the tagging. -/
theorem LeafSt.set_retag (s : LeafSt) (v : Scalar) (c t : Nat) (i : Bool) (es : List (Nat × Nat)) :
    (s.map (Obj.retag c t i es)).set v = (s.set v).map (LeafSt.map (Obj.retag c t i es)) := by
  cases s with
  | boolean o => rfl
  | integer m o =>
    cases v <;> try rfl
    · simp only [LeafSt.map, LeafSt.set, Integer.set_retag, bind, Except.bind]
      cases Integer.set m o _ <;> rfl
    · simp only [LeafSt.map, LeafSt.set, Integer.set_retag, bind, Except.bind]
      cases Integer.set m o _ <;> rfl
  | enumerated m o =>
    cases v <;> try rfl
    · simp only [LeafSt.map, LeafSt.set, Enumerated.set_retag, bind, Except.bind]
      cases Enumerated.set m o _ <;> rfl
    · simp only [LeafSt.map, LeafSt.set, Enumerated.set_retag, bind, Except.bind]
      cases Enumerated.set m o _ <;> rfl
  | null o => cases v <;> rfl
  | oid k o =>
    cases v <;> try rfl
    rename_i n
    simp only [LeafSt.map, LeafSt.set, Oid.set]
    cases k.resolve n with
    | error e => rfl
    | ok d => ?_
    simp only
    generalize oidLoop 0 0 _ [] = q
    obtain ⟨a, b⟩ := q
    cases b <;> rfl
  | octets o => cases v <;> rfl
  | chars k u o =>
    cases v <;> try rfl
    simp only [LeafSt.map, LeafSt.set, AbstractString.set, bind, Except.bind]
    cases k.encode _ <;> rfl
  | bits o =>
    cases v <;> try rfl
    simp only [LeafSt.map, LeafSt.set, BitString.set, bind, Except.bind]
    cases bitsContents _ <;> rfl
  | named m o =>
    cases v <;> try rfl
    · simp only [LeafSt.map, LeafSt.set, NamedBits.setTuple, NamedBits.setBits_retag, bind, Except.bind]
      cases NamedBits.setBits m o _ _ <;> rfl
    · simp only [LeafSt.map, LeafSt.set, NamedBits.set, NamedBits.setBits_retag, bind, Except.bind]
      cases NamedBits.setBits m o _ _ <;> rfl
  | octetBits o => cases v <;> rfl
  | intBits o =>
    cases v <;> try rfl
    rename_i n
    simp only [LeafSt.map, LeafSt.set, IntegerBitString.set, bind, Except.bind]
    by_cases hn : n < 0
    · simp only [if_pos hn]; rfl
    · simp only [if_neg hn]
      cases intToBytes _ true <;> rfl
  | intOctets o =>
    cases v <;> try rfl
    rename_i n
    simp only [LeafSt.map, LeafSt.set, IntegerOctetString.set, bind, Except.bind]
    by_cases hn : n < 0
    · simp only [if_pos hn]; rfl
    · simp only [if_neg hn]
      cases intToBytes _ false _ <;> rfl

/-- Instances that have never been loaded: no header, trailer or indefinite-length marker. -/
structure Fresh (o : Obj Unit) : Prop where
  header : o.header = none
  trailer : o.trailer = []
  indefinite : o.indefinite = false

theorem strPut_erase {ν : Type} {o : Obj ν} (h : Fresh o.erase) (v : ν) (c : Bytes) :
    (strPut o v c).erase = { o.erase with contents := some c } := by
  obtain ⟨h1, h2, h3⟩ := h
  have h1 : o.header = none := h1
  have h2 : o.trailer = [] := h2
  have h3 : o.indefinite = false := h3
  simp [strPut, Obj.erase, h1, h2, h3]

/-- `set` on a fresh instance only changes the contents and caches. -/
theorem LeafSt.set_base {s s' : LeafSt} {v : Scalar} (hs : Fresh s.base) (h : s.set v = .ok s') :
    ∃ c, s'.base = { s.base with contents := some c } := by
  have hI : ∀ (m : Option IntMap) (o o' : Obj IntNative) (n : Int), Fresh o.erase → Integer.setInt m o n = .ok o' →
      ∃ c, o'.erase = { o.erase with contents := some c } := by
    rintro m o o' n ⟨h1, h2, _⟩ h
    have h1 : o.header = none := h1
    have h2 : o.trailer = [] := h2
    unfold Integer.setInt at h
    simp only [bind, Except.bind] at h
    split at h
    · cases h
    · injection h with h; subst h; exact ⟨_, by simp [Obj.erase, h1, h2]; rfl⟩
  have hI2 : ∀ (m : Option IntMap) (o o' : Obj IntNative) (n : IntNative), Fresh o.erase → Integer.set m o n = .ok o' →
      ∃ c, o'.erase = { o.erase with contents := some c } := by
    intro m o o' n hf h
    unfold Integer.set at h
    repeat' split at h
    all_goals first | (cases h; done) | exact hI _ _ _ _ hf h
  have hE : ∀ (m : Option IntMap) (o o' : Obj IntNative) (n : IntNative), Fresh o.erase → Enumerated.set m o n = .ok o' →
      ∃ c, o'.erase = { o.erase with contents := some c } := by
    intro m o o' n hf h
    unfold Enumerated.set at h
    repeat' split at h
    all_goals first | (cases h; done) | exact hI2 _ _ _ _ hf h
  have hB : ∀ {x : Py (Bytes × Nat)} {s' : LeafSt} {ν : Type} {mk : BitObj ν → LeafSt} {o : BitObj ν} {w : ν},
      Fresh o.toObj.erase → (∀ o, (mk o).base = o.toObj.erase) →
      (do let o ← (do let (c, extra) ← x; pure (bitPut o w c extra)); pure (mk o) : Py LeafSt) = .ok s' →
      ∃ c, s'.base = { o.toObj.erase with contents := some c } := by
    intro x s' ν mk o w hf hmk h
    cases x with
    | error e => cases h
    | ok a =>
      injection h with h
      subst h
      rw [hmk]
      exact ⟨a.1, strPut_erase hf _ _⟩
  cases s with
  | boolean o =>
    obtain ⟨h1, h2, _⟩ := hs
    have h1 : o.header = none := h1
    have h2 : o.trailer = [] := h2
    cases v <;> (injection h with h; subst h; exact ⟨_, by simp [LeafSt.base, Obj.erase, h1, h2]; rfl⟩)
  | integer m o =>
    cases v <;> try (cases h; done)
    all_goals
      simp only [LeafSt.set, bind, Except.bind] at h
      split at h
      · cases h
      · next h1 => injection h with h; subst h; exact hI2 _ _ _ _ hs h1
  | enumerated m o =>
    cases v <;> try (cases h; done)
    all_goals
      simp only [LeafSt.set, bind, Except.bind] at h
      split at h
      · cases h
      · next h1 => injection h with h; subst h; exact hE _ _ _ _ hs h1
  | null o => cases v <;> (injection h with h; subst h; exact ⟨_, rfl⟩)
  | oid k o =>
    obtain ⟨h1, h2, _⟩ := hs
    have h1 : o.header = none := h1
    have h2 : o.trailer = [] := h2
    cases v <;> try (cases h; done)
    rename_i n
    simp only [LeafSt.set, Oid.set] at h
    cases hd : k.resolve n with
    | error e => rw [hd] at h; cases h
    | ok d => ?_
    rw [hd] at h
    simp only at h
    generalize oidLoop 0 0 _ [] = q at h
    obtain ⟨a, b⟩ := q
    cases b with
    | some e => cases h
    | none => injection h with h; subst h; exact ⟨_, by simp [LeafSt.base, Obj.erase, h1, h2]; rfl⟩
  | octets o =>
    cases v <;> try (cases h; done)
    injection h with h; subst h; exact ⟨_, strPut_erase hs _ _⟩
  | chars k u o =>
    cases v <;> try (cases h; done)
    simp only [LeafSt.set, AbstractString.set, bind, Except.bind] at h
    cases hk : k.encode _ with
    | error e => rw [hk] at h; cases h
    | ok c => rw [hk] at h; injection h with h; subst h; exact ⟨_, strPut_erase hs _ _⟩
  | bits o =>
    cases v <;> try (cases h; done)
    exact hB hs (fun _ => rfl) h
  | named m o =>
    cases v <;> try (cases h; done)
    all_goals
      simp only [LeafSt.set, NamedBits.setTuple, NamedBits.set, NamedBits.setBits] at h
      split at h
      · cases h
      · exact hB hs (fun _ => rfl) h
  | octetBits o =>
    cases v <;> try (cases h; done)
    injection h with h; subst h; exact ⟨_, strPut_erase hs _ _⟩
  | intBits o =>
    cases v <;> try (cases h; done)
    simp only [LeafSt.set, IntegerBitString.set] at h
    split at h
    · cases h
    · cases hk : intToBytes _ true with
      | error e => rw [hk] at h; cases h
      | ok c => rw [hk] at h; injection h with h; subst h; exact ⟨_, strPut_erase hs _ _⟩
  | intOctets o =>
    cases v <;> try (cases h; done)
    simp only [LeafSt.set, IntegerOctetString.set] at h
    split at h
    · cases h
    · cases hk : intToBytes _ false o.width with
      | error e => rw [hk] at h; cases h
      | ok c => rw [hk] at h; injection h with h; subst h; exact ⟨_, strPut_erase hs _ _⟩

theorem asn1Dump_erase {ν : Type} (k : Bool) (o : Obj ν) (force : Bool) :
    asn1Dump k o.erase force = (asn1Dump k o force).map (fun r => (r.1, r.2.erase)) := by
  unfold asn1Dump
  cases o with
  | mk cls method tag implicit explicit header contents trailer native indefinite =>
  simp only [Obj.erase]
  cases contents with
  | none => rfl
  | some c =>
    have aux : ∀ (m : Nat) (hd : Option Bytes), (do
          let h ← dumpHeader cls m tag c
          let h ← wrapExplicit explicit h c
          Except.ok (h ++ c ++ [], ({ cls := cls, method := m, tag := tag, implicit := implicit, explicit := explicit, header := some h, contents := some c, trailer := [], indefinite := indefinite } : Obj Unit)) : Py (Bytes × Obj Unit)) =
        (do
          let h ← dumpHeader cls m tag c
          let h ← wrapExplicit explicit h c
          Except.ok (h ++ c ++ [], ({ cls := cls, method := m, tag := tag, implicit := implicit, explicit := explicit, header := some h, contents := some c, trailer := [], native := native, indefinite := indefinite } : Obj ν)) : Py (Bytes × Obj ν)).map (fun r => (r.1, r.2.erase)) := by
      intro m hd
      cases dumpHeader cls m tag c with
      | error e => rfl
      | ok h => simp only [bind, Except.bind]; cases wrapExplicit explicit h c <;> rfl
    cases header with
    | none => cases k <;> cases indefinite <;> exact aux _ none
    | some h =>
      cases force <;> cases hb : headerEnds80 (some h)
      · rfl
      all_goals cases k <;> cases indefinite <;> exact aux _ none

/-- Unforced `dump` of an instance whose header does not call for re-encoding. -/
theorem LeafSt.dump_base {s : LeafSt} (hh : headerEnds80 s.base.header = false) :
    (s.dump false).map (fun r => (r.1, r.2.base)) = asn1Dump s.constructable s.base := by
  have prim : ∀ {ν : Type} {k : Bool} {nat : Obj ν → Py (Option ν × Obj ν)} {st : Obj ν → ν → Py (Obj ν)}
      {sn : Obj ν → Py (Obj ν)} {o : Obj ν}, headerEnds80 o.header = false → primDump k nat st sn o false = asn1Dump k o := by
    intro ν k nat st sn o h
    unfold primDump
    rw [h]; rfl
  cases s <;> rename_i o <;> have hh' : headerEnds80 o.header = false := hh
  case boolean => simp only [LeafSt.dump, Boolean.dump, prim hh', LeafSt.base, LeafSt.constructable, asn1Dump_erase]; cases asn1Dump false o <;> rfl
  case integer => simp only [LeafSt.dump, Integer.dump, prim hh', LeafSt.base, LeafSt.constructable, asn1Dump_erase]; cases asn1Dump false o <;> rfl
  case enumerated => simp only [LeafSt.dump, Enumerated.dump, prim hh', LeafSt.base, LeafSt.constructable, asn1Dump_erase]; cases asn1Dump false o <;> rfl
  case null => simp only [LeafSt.dump, Null.dump, prim hh', LeafSt.base, LeafSt.constructable, asn1Dump_erase]; cases asn1Dump false o <;> rfl
  case oid => simp only [LeafSt.dump, Oid.dump, hh', Bool.false_or, Bool.false_eq_true, if_false, LeafSt.base, LeafSt.constructable, asn1Dump_erase]; cases asn1Dump false o.toObj <;> rfl
  case octets => simp only [LeafSt.dump, OctetString.dump, prim hh', LeafSt.base, LeafSt.constructable, asn1Dump_erase]; cases asn1Dump true o <;> rfl
  case chars => simp only [LeafSt.dump, AbstractString.dump, prim hh', LeafSt.base, LeafSt.constructable, asn1Dump_erase]; cases asn1Dump true o <;> rfl
  case bits =>
    have hd : BitString.dump o false = (asn1Dump true o.toObj).bind (fun r => .ok (r.1, { o with toObj := r.2 })) := by
      unfold BitString.dump
      simp only [hh']
      rfl
    simp only [LeafSt.dump, hd, LeafSt.base, LeafSt.constructable, asn1Dump_erase]
    cases asn1Dump true o.toObj <;> rfl
  case named =>
    have hd : ∀ m, NamedBits.dump m o false = (asn1Dump true o.toObj).bind (fun r => .ok (r.1, { o with toObj := r.2 })) := by
      intro m; unfold NamedBits.dump
      simp only [hh']
      rfl
    simp only [LeafSt.dump, hd, LeafSt.base, LeafSt.constructable, asn1Dump_erase]
    cases asn1Dump true o.toObj <;> rfl
  case octetBits =>
    have hd : OctetBitString.dump o false = (asn1Dump true o.toObj).bind (fun r => .ok (r.1, { o with toObj := r.2 })) := by
      unfold OctetBitString.dump
      simp only [hh']
      rfl
    simp only [LeafSt.dump, hd, LeafSt.base, LeafSt.constructable, asn1Dump_erase]
    cases asn1Dump true o.toObj <;> rfl
  case intBits =>
    have hd : IntegerBitString.dump o false = (asn1Dump true o.toObj).bind (fun r => .ok (r.1, { o with toObj := r.2 })) := by
      unfold IntegerBitString.dump
      simp only [hh']
      rfl
    simp only [LeafSt.dump, hd, LeafSt.base, LeafSt.constructable, asn1Dump_erase]
    cases asn1Dump true o.toObj <;> rfl
  case intOctets => simp only [LeafSt.dump, IntegerOctetString.dump, hh', Bool.false_or, Bool.false_eq_true, if_false, LeafSt.base, LeafSt.constructable, asn1Dump_erase]; cases asn1Dump true o.toObj <;> rfl

/-- An instance with the shared attributes of `b` and empty caches. -/
def Obj.over {ν : Type} (b : Obj Unit) (_ : Obj ν) : Obj ν :=
  { cls := b.cls, method := b.method, tag := b.tag, implicit := b.implicit, explicit := b.explicit,
    header := b.header, contents := b.contents, trailer := b.trailer, indefinite := b.indefinite }

theorem Obj.erase_over {ν : Type} (b : Obj Unit) (o : Obj ν) : (Obj.over b o).erase = b.erase := rfl

theorem buildBase_over {ν : Type} (k : Bool) (bad : List Nat) (p : Obj ν) (i : Info) :
    buildBase k bad p i = (buildBase k bad p.erase i).map (fun b => Obj.over b p) := by
  cases h : buildBase k bad p i with
  | error e =>
    cases h' : buildBase k bad p.erase i with
    | error e' => rw [buildBase_error h, buildBase_error h']; rfl
    | ok o' =>
      obtain ⟨h1, h2, ⟨h3, _⟩ | ⟨h3, h4, h5, h6, _⟩⟩ := buildBase_ok.mp h'
      · rw [(buildBase_ok (k := k) (bad := bad) (p := p) (i := i)).mpr ⟨h1, h2, .inl ⟨h3, rfl⟩⟩] at h; cases h
      · rw [(buildBase_ok (k := k) (bad := bad) (p := p) (i := i)).mpr ⟨h1, h2, .inr ⟨h3, h4, h5, h6, rfl⟩⟩] at h; cases h
  | ok o =>
    obtain ⟨h1, h2, ⟨h3, rfl⟩ | ⟨h3, h4, h5, h6, rfl⟩⟩ := buildBase_ok.mp h
    · rw [(buildBase_ok (k := k) (bad := bad) (p := p.erase) (i := i)).mpr ⟨h1, h2, .inl ⟨h3, rfl⟩⟩]; rfl
    · rw [(buildBase_ok (k := k) (bad := bad) (p := p.erase) (i := i)).mpr ⟨h1, h2, .inr ⟨h3, h4, h5, h6, rfl⟩⟩]; rfl

theorem buildObj_over {ν : Type} (k : Bool) (bad : List Nat) (p : Obj ν) (i : Info) :
    buildObj k bad p i = (buildObj k bad p.erase i).map (fun b => Obj.over b p) := by
  rw [buildObj_eq, buildObj_eq, show p.erase.explicit = p.explicit from rfl]
  cases explicitLoop p.explicit.reverse i i.header i.trailer with
  | error e => rfl
  | ok r =>
    simp only [Except.bind]
    rw [buildBase_over]
    have : ({ p with explicit := [] } : Obj ν).erase = { p.erase with explicit := [] } := rfl
    rw [this]
    cases buildBase k bad { p.erase with explicit := [] } r.1 <;> rfl

/-- `_build` in terms of the shared attributes. -/
theorem LeafSt.build_eq (bad : List Nat) (p : LeafSt) (i : Info) :
    LeafSt.build bad p i = (buildObj p.constructable bad p.base i).map (fun b => p.map (Obj.over b)) := by
  unfold LeafSt.build
  cases p <;> simp only [LeafSt.mapObj, LeafSt.base] <;> rw [buildObj_over] <;>
    (cases buildObj _ bad _ i <;> rfl)

theorem LeafSt.base_over (b : Obj Unit) (p : LeafSt) : (p.map (Obj.over b)).base = b.erase :=
  LeafSt.base_map (Obj.over b) (fun _ => rfl) p |>.trans rfl

theorem Obj.erase_unit (b : Obj Unit) (h : b.native = none) : b.erase = b := by
  cases b; simp_all [Obj.erase]

/-- Replaces everything that `native` does not look at. -/
def Obj.frame {ν : Type} (c t : Nat) (i : Bool) (es : List (Nat × Nat)) (h : Option Bytes) (tr : Bytes) (o : Obj ν) : Obj ν :=
  { o with cls := c, tag := t, implicit := i, explicit := es, header := h, trailer := tr }

/-- `native` only looks at contents, caches and the indefinite-length marker. -/
theorem LeafSt.native_frame (s : LeafSt) {d : Bytes} (hc : s.base.contents = some d) (c t : Nat) (i : Bool) (es : List (Nat × Nat))
    (h : Option Bytes) (tr : Bytes) :
    (s.map (Obj.frame c t i es h tr)).native = s.native.map (fun r => (r.1, r.2.map (Obj.frame c t i es h tr))) := by
  cases s with
  | boolean o =>
    obtain ⟨_, _, _, _, _, _, co, _, na, ind⟩ := o
    cases co <;> cases na <;> first | rfl | cases hc
  | integer m o =>
    obtain ⟨_, _, _, _, _, _, co, _, na, ind⟩ := o
    cases co <;> cases na <;> first | rfl | cases hc
  | enumerated m o =>
    obtain ⟨_, _, _, _, _, _, co, _, na, ind⟩ := o
    cases co
    · cases hc
    cases na
    · cases m with
      | none => rfl
      | some m =>
        simp only [LeafSt.map, LeafSt.native, Enumerated.native, Obj.frame]
        cases IntMap.get m _ <;> rfl
    · rfl
  | null o => rfl
  | oid k o =>
    obtain ⟨⟨_, _, _, _, _, _, co, _, na, ind⟩, dt⟩ := o
    cases co <;> cases na <;> cases dt <;> first | rfl | cases hc
  | octets o =>
    obtain ⟨_, _, _, _, _, _, co, _, na, ind⟩ := o
    cases co
    · cases hc
    cases na
    · simp only [LeafSt.map, LeafSt.native, OctetString.native, Obj.frame]
      cases mergeObj OctetString.asChunk OctetString.new _ _ <;> rfl
    · rfl
  | chars k u o =>
    obtain ⟨_, _, _, _, _, _, co, _, na, ind⟩ := o
    cases co
    · cases hc
    cases na
    · simp only [LeafSt.map, LeafSt.native, AbstractString.native, Obj.frame]
      cases mergeObj OctetString.asChunk _ _ _ with
      | error e => rfl
      | ok b => simp only [bind, Except.bind]; cases k.decode b <;> rfl
    · rfl
  | bits o =>
    obtain ⟨⟨_, _, _, _, _, _, co, _, na, ind⟩, un⟩ := o
    cases co
    · cases hc
    cases na
    · simp only [LeafSt.map, LeafSt.native, BitString.native, Obj.frame, bind, pure, Except.bind, Except.pure, Option.getD_some]
      cases chunksToInt BitString.new.toObj _ _ with
      | error e => rfl
      | ok b => simp only []; cases intToBitTuple _ _ <;> rfl
    · rfl
  | named m o =>
    obtain ⟨⟨_, _, _, _, _, _, co, _, na, ind⟩, un⟩ := o
    cases co
    · cases hc
    cases na
    · simp only [LeafSt.map, LeafSt.native, NamedBits.native, Obj.frame, bind, pure, Except.bind, Except.pure, Option.getD_some]
      cases chunksToInt NamedBits.new.toObj _ _ with
      | error e => rfl
      | ok b => simp only []; cases intToBitTuple _ _ <;> rfl
    · rfl
  | octetBits o =>
    obtain ⟨⟨_, _, _, _, _, _, co, _, na, ind⟩, un⟩ := o
    cases co
    · cases hc
    cases na
    · simp only [LeafSt.map, LeafSt.native, OctetBitString.native, Obj.frame]
      cases OctetBitString.readBytes _ _ <;> rfl
    · rfl
  | intBits o =>
    obtain ⟨⟨_, _, _, _, _, _, co, _, na, ind⟩, un⟩ := o
    cases co
    · cases hc
    cases na
    · simp only [LeafSt.map, LeafSt.native, IntegerBitString.native, Obj.frame]
      cases chunksToInt IntegerBitString.new.toObj _ _ <;> rfl
    · rfl
  | intOctets o =>
    obtain ⟨⟨_, _, _, _, _, _, co, _, na, ind⟩, w⟩ := o
    cases co
    · cases hc
    cases na
    · simp only [LeafSt.map, LeafSt.native, IntegerOctetString.native, Obj.frame]
      cases mergeObj OctetString.asChunk IntegerOctetString.new.toObj _ _ <;> rfl
    · rfl

end Asn1
