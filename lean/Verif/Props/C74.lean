import Verif.Model.SpecOf
import Verif.Lemmas.Parts
import Verif.Lemmas.KernelRfl
import Verif.Props.C22
import Verif.Props.C15
import Verif.Model.Package

/-!
# C74 — The class of a field as `spec()` answers it

`specOf` (Model/SpecOf.lean) is `value.spec(name)`. The class of a field is the declared one, unless another field decides it: then it is what the table of the
class (`OidPair`) has for the value of that field.
-/

namespace Asn1.Props
open Asn1

/-- `TableHas p n pick`: `pick` is what the table has for the value `n` of the deciding field: the first entry for it if it is a name with one, what is said
about all others otherwise. -/
def TableHas (p : OidPair) (n : PyVal) (pick : Pick) : Prop :=
  (∃ s before after, n = .scalar (.str s) ∧ p.specs = before ++ (s, pick) :: after ∧ ∀ e ∈ before, e.1 ≠ s) ∨
  ((∀ s, n = .scalar (.str s) → ∀ e ∈ p.specs, e.1 ≠ s) ∧ p.other = .ok pick)

theorem TableHas.choose {p : OidPair} {n : PyVal} {pick : Pick} (h : TableHas p n pick) : p.choose n = .ok pick := by
  rcases h with ⟨s, before, after, rfl, h2, h3⟩ | ⟨h1, h2⟩
  · have hb : before.find? (fun e => e.1 == s) = none := by
      rw [List.find?_eq_none]
      intro e he
      simpa using h3 e he
    simp [OidPair.choose, h2, List.find?_append, hb]
  · unfold OidPair.choose
    split
    · next s =>
      have hb : p.specs.find? (fun e => e.1 == s) = none := by
        rw [List.find?_eq_none]
        intro e he
        simpa using h1 s rfl e he
      rw [hb]
      exact h2
    · exact h2

/-- `Decisive E n p v m`: reading the deciding field of `v`, and in it the part that counts, gives the native value `m`; `v'` is `v` with that field read. -/
def Decisive (E : Env) (n : Nat) (p : OidPair) (v : Val) (m : PyVal) : Prop :=
  ∃ x v', getItem E (ops E (n + 1)) v p.oid = .ok (x, v') ∧
    match p.sub with
    | none => ∃ x', (ops E (n + 1)).native x = .ok (m, x')
    | some k => ∃ y x' y', getItem E (ops E n) x k = .ok (y, x') ∧ (ops E (n + 1)).native y = .ok (m, y')

/-- A field that no other field decides: the class declared for it, and the value stays as it is. -/
theorem C74_declared {E : Env} {r : Ops} {c : ClassId} {o : Obj Unit} {ch : Option (List Child)} {mu cb : Bool} {proto : Obj Unit} {bad : List Nat}
    {isSet : Bool} {fields : List Field} {oid : Option OidPair} (hE : E.cls c = .seq proto bad isSet fields oid) (hn : DistinctNames fields) {k : Nat}
    {f : Field} (hk : fields[k]? = some f) (ho : ∀ p, oid = some p → p.value ≠ k) :
    specOf E r cb (.node c o ch mu) f.name = .ok (f.spec, .node c o ch mu) := by
  simp only [specOf, hE, fieldIndex_name hn hk, hk]
  cases oid with
  | none => rfl
  | some p => simp only [ho p rfl, if_false]

/-- A name that no field has is refused with `KeyError`. -/
theorem C74_unknown {E : Env} {r : Ops} {c : ClassId} {o : Obj Unit} {ch : Option (List Child)} {mu cb : Bool} {proto : Obj Unit} {bad : List Nat}
    {isSet : Bool} {fields : List Field} {oid : Option OidPair} (hE : E.cls c = .seq proto bad isSet fields oid) {name : String}
    (hn : ∀ f ∈ fields, f.name ≠ name) : specOf E r cb (.node c o ch mu) name = .error .keyError := by
  have : fieldIndex fields name = none := by
    unfold fieldIndex
    rw [Option.map_eq_none_iff, List.find?_eq_none]
    intro q hq
    rw [List.mem_reverse, List.mem_zipIdx_iff_getElem?] at hq
    simpa using hn q.1 (List.mem_of_getElem? hq)
  simp only [specOf, hE, this]

/-- A field that another field decides: what the table has for the value of that field. Missing from the property: values that have been loaded and not been
read, when the class is found by `_oid_pair`, see `C74_unread_fails`. -/
theorem C74_decided_partial {E : Env} {n : Nat} {c : ClassId} {o : Obj Unit} {ch : Option (List Child)} {mu cb : Bool} {proto : Obj Unit} {bad : List Nat}
    {isSet : Bool} {fields : List Field} {p : OidPair} (hE : E.cls c = .seq proto bad isSet fields (some p)) (hn : DistinctNames fields)
    {f : Field} (hk : fields[p.value]? = some f) (hr : cb = true ∨ ch.isSome = true) {m : PyVal} (hd : Decisive E n p (.node c o ch mu) m) {pick : Pick}
    (ht : TableHas p m pick) : ∃ v', specOf E (ops E (n + 1)) cb (.node c o ch mu) f.name = .ok (pick.valueSpec f.spec, v') := by
  obtain ⟨x, v', h1, h2⟩ := hd
  simp only [getItem, hE, py_bind] at h1
  obtain ⟨cs, h3, h1⟩ := h1
  have h4 : specChildren E (ops E (n + 1)) cb c o ch = .ok cs := by
    unfold specChildren
    cases ch with
    | some l => cases cb <;> simpa [ensureChildren] using h3
    | none =>
      rcases hr with rfl | hr
      · simpa using h3
      · cases hr
  cases hc : cs[p.oid]? with
  | none => simp [hc] at h1
  | some y =>
    simp only [hc, py_bind] at h1
    obtain ⟨x', h5, h1⟩ := h1
    injection h1 with h1
    injection h1 with h1 h6
    subst h1
    have h7 : ∃ w, decisive (ops E (n + 1)) p.sub x' = .ok (m, w) := by
      cases hs : p.sub with
      | none =>
        rw [hs] at h2
        exact h2
      | some k =>
        rw [hs] at h2
        obtain ⟨y, w, y', g1, g2⟩ := h2
        refine ⟨w, ?_⟩
        have g1 : (ops E (n + 1)).item x' k = .ok (y, w) := g1
        simp [decisive, g1, g2, bind, Except.bind]
    obtain ⟨w, h7⟩ := h7
    refine ⟨.node c o (some (cs.set p.oid (.val w))) mu, ?_⟩
    simp only [specOf, hE, fieldIndex_name hn hk, hk, if_true, h4, oidOverride, hc, h5, h7, ht.choose, bind, Except.bind]

/-- The answer changes nothing: what it does to the value are read accesses. So it leaves the encoding as it is (`C15`). -/
theorem C74_reads {E : Env} {n : Nat} {cb top : Bool} {v v' : Val} {name : String} {c : ClassId} (h : specOf E (ops E n) cb v name = .ok (c, v')) :
    Access E top v v' := by
  unfold specOf at h
  split at h
  case h_2 => cases h
  next c o ch mu =>
  split at h
  case h_2 => cases h
  next proto bad isSet fields oid hE =>
  split at h
  case h_1 => cases h
  next idx hi =>
  split at h
  case h_1 => cases h
  next f hf =>
  split at h
  case h_1 => cases h; exact .refl
  next p =>
  split at h
  case isFalse => cases h; exact .refl
  next hp =>
  obtain ⟨cs, h1, h⟩ := py_bind.mp h
  obtain ⟨q, h2, h⟩ := py_bind.mp h
  cases h
  have h1 : ensureChildren E (ops E n) c o ch = .ok cs := by
    unfold specChildren at h1
    cases ch with
    | some l => cases cb <;> simpa [ensureChildren] using h1
    | none =>
      cases cb with
      | true => simpa using h1
      | false => cases h1
  unfold oidOverride at h2
  simp only [hp, if_true] at h2
  split at h2
  · cases h2
  next y hy =>
  obtain ⟨x, h3, h2⟩ := py_bind.mp h2
  obtain ⟨⟨m, w⟩, h4, h2⟩ := py_bind.mp h2
  obtain ⟨pick, h5, h2⟩ := py_bind.mp h2
  cases h2
  have hlt : p.oid < cs.length := (List.getElem?_eq_some_iff.mp hy).1
  have hget : getItem E (ops E n) (.node c o ch mu) p.oid = .ok (x, .node c o (some (cs.set p.oid (.val x))) mu) := by
    simp only [getItem, h1, hy, hE, bind, Except.bind, h3]
  refine .trans (.item hget) ?_
  have hset : cs.set p.oid (.val w) = (cs.set p.oid (.val x)).set p.oid (.val w) := by rw [List.set_set]
  simp only [hset]
  refine .child (x := x) (by rw [List.getElem?_set_self hlt]) ?_
  cases hs : p.sub with
  | none =>
    rw [hs] at h4
    exact .native h4
  | some k =>
    rw [hs] at h4
    simp only [decisive, py_bind] at h4
    obtain ⟨⟨z, w'⟩, h6, ⟨m', z'⟩, h7, h4⟩ := h4
    cases h4
    cases n with
    | zero => cases h6
    | succ n => exact .item h6

/-- The answer is what assignments go by: a value of a class that is neither the one answered nor the declared one is refused. -/
theorem C74_refused {E : Env} {r : Ops} {c : ClassId} {o : Obj Unit} {ch : Option (List Child)} {mu cb : Bool} {proto : Obj Unit} {bad : List Nat}
    {isSet : Bool} {fields : List Field} {oid : Option OidPair} (hE : E.cls c = .seq proto bad isSet fields oid) (hn : DistinctNames fields)
    {k : Nat} {f : Field} (hk : fields[k]? = some f) {s : ClassId} {v' : Val} (hs : specOf E r cb (.node c o ch mu) f.name = .ok (s, v'))
    (hr : ∃ cs, ensureChildren E r c o ch = .ok cs) (h1 : ∀ a b l, E.cls s ≠ .choice a b l) (h2 : E.cls s ≠ .any) {x : Val} (hx : x.classOf ≠ some s)
    (hx' : x.classOf ≠ some f.spec) : setField E r (.node c o ch mu) k (.asn1 x) = .error .typeError := by
  have hmake : ∀ field p, x.classOf ≠ some field → (field = s → E.cls field ≠ .any) → makeValue E r field s p (.asn1 x) = .error .typeError := by
    intro field p hf ha
    have : makeRaw E r field s p (.asn1 x) = .error .typeError := by
      have hd : ∀ sh, E.cls field = sh → (match sh, decide (field = s) with
          | .any, true => r.construct s p (.asn1 x)
          | _, _ => .error .typeError : Py Val) = .error .typeError := by
        intro sh hsh
        split
        · next h => exact absurd hsh (ha (by simpa using h))
        · rfl
      have hd := hd _ rfl
      cases hes : E.cls s with
      | choice a b l => exact absurd hes (h1 a b l)
      | any => exact absurd hes h2
      | leaf _ _ => simp only [makeRaw, hes, if_neg hf, if_neg hx]; exact hd
      | seq _ _ _ _ _ => simp only [makeRaw, hes, if_neg hf, if_neg hx]; exact hd
      | seqOf _ _ _ _ => simp only [makeRaw, hes, if_neg hf, if_neg hx]; exact hd
      | parsable _ _ => simp only [makeRaw, hes, if_neg hf, if_neg hx]; exact hd
    simp only [makeValue, this, bind, Except.bind]
  obtain ⟨cs, hcs⟩ := hr
  simp only [specOf, hE, fieldIndex_name hn hk, hk] at hs
  simp only [setField, hE, hcs, hk, bind, Except.bind]
  by_cases ho : ∃ p, oid = some p ∧ p.value = k
  · obtain ⟨p, rfl, hp⟩ := ho
    simp only [hp, if_true] at hs
    obtain ⟨cs', g1, hs⟩ := py_bind.mp hs
    obtain ⟨q, g2, hs⟩ := py_bind.mp hs
    obtain ⟨pick, cs''⟩ := q
    have hcc : cs' = cs := by
      unfold specChildren at g1
      cases ch with
      | some l => cases cb <;> (simp only [ensureChildren] at hcs g1; simp_all)
      | none =>
        cases cb with
        | true => simp only [if_true, hcs] at g1; injection g1 with g1; exact g1.symm
        | false => cases g1
    subst hcc
    injection hs with hs
    injection hs with hs _
    rw [g2]
    simp only
    cases pick with
    | same =>
      have hs : f.spec = s := hs
      simp only [Pick.fieldSpec, Pick.valueSpec]
      have := hmake f.spec f.params hx' (fun h => by rw [h]; exact h2)
      rw [← hs] at this
      rw [this]
    | value c' =>
      have hs : c' = s := hs
      subst hs
      simp only [Pick.fieldSpec, Pick.valueSpec]
      rw [hmake f.spec f.params hx' (fun h => by rw [h]; exact h2)]
    | field c' =>
      have hs : c' = s := hs
      subst hs
      simp only [Pick.fieldSpec, Pick.valueSpec]
      rw [hmake c' f.params hx (fun h => by rw [h]; exact h2)]
  · have ho : ∀ p, oid = some p → p.value ≠ k := fun p hp hv => ho ⟨p, hp, hv⟩
    have hs' : f.spec = s := by
      cases oid with
      | none =>
        injection hs with hs
        injection hs with hs _
      | some p =>
        simp only [ho p rfl, if_false] at hs
        injection hs with hs
        injection hs with hs _
    rw [oidOverride_other ho]
    simp only [Pick.fieldSpec, Pick.valueSpec]
    have := hmake f.spec f.params hx' (fun h => by rw [h]; exact h2)
    rw [← hs'] at this
    rw [this]

/-- **The property fails for values that have been loaded and not been read.** When the class of the field is found by `_oid_pair`, `spec()` raises `TypeError`,
whatever the value is. -/
theorem C74_unread_fails {E : Env} {r : Ops} {c : ClassId} {o : Obj Unit} {mu : Bool} {proto : Obj Unit} {bad : List Nat}
    {isSet : Bool} {fields : List Field} {p : OidPair} (hE : E.cls c = .seq proto bad isSet fields (some p)) (hn : DistinctNames fields)
    {f : Field} (hk : fields[p.value]? = some f) : specOf E r false (.node c o none mu) f.name = .error .typeError := by
  simp only [specOf, hE, fieldIndex_name hn hk, hk, if_true, specChildren, bind, Except.bind, Bool.false_eq_true, if_false]

/-- An extension of a certificate: the key identifier. -/
def keyIdBytes : Bytes := [0x30, 0xb, 6, 3, 0x55, 0x1d, 0x0e, 4, 4, 4, 2, 1, 2]

/-- Loading, perhaps reading the first field, and asking for the class of `extn_value`. -/
def askExtension (K : Pkg.Codecs) (read : Bool) : Py ClassId := do
  let v ← loadVal (Pkg.env K) (ops (Pkg.env K) 5) Pkg.Id.x509.Extension {} keyIdBytes
  let v ← if read then (getItem (Pkg.env K) (ops (Pkg.env K) 5) v 0).map Prod.snd else .ok v
  (specOf (Pkg.env K) (ops (Pkg.env K) 5) false v "extn_value").map Prod.fst

/-- The key identifier is an octet string, but only after something has been read. -/
theorem C74_extension_fails (K : Pkg.Codecs) : askExtension K false = .error .typeError ∧ askExtension K true = .ok Pkg.Id.core.OctetString :=
  ⟨by kernel_rfl, by kernel_rfl⟩

/-- Non-vacuity: the deciding field of that extension, once read, has the native value `key_identifier`; the fields of the class have different names, and the
table of the class has an entry for this value. -/
example (K : Pkg.Codecs) : (do
    let v ← loadVal (Pkg.env K) (ops (Pkg.env K) 5) Pkg.Id.x509.Extension {} keyIdBytes
    let (_, v) ← getItem (Pkg.env K) (ops (Pkg.env K) 5) v 0
    let (x, _) ← getItem (Pkg.env K) (ops (Pkg.env K) 5) v 0
    let (n, _) ← (ops (Pkg.env K) 5).native x
    .ok n : Py PyVal) = .ok (.scalar (.str "key_identifier".toList)) := by kernel_rfl

example (K : Pkg.Codecs) : ∃ proto bad isSet a b c p, (Pkg.env K).cls Pkg.Id.x509.Extension = .seq proto bad isSet [a, b, c] (some p) ∧
    a.name = "extn_id" ∧ b.name = "critical" ∧ c.name = "extn_value" ∧ p.oid = 0 ∧ p.value = 2 ∧ p.sub = none ∧
    p.choose (.scalar (.str "key_identifier".toList)) = .ok (.value Pkg.Id.core.OctetString) :=
  ⟨_, _, _, _, _, _, _, rfl, rfl, rfl, rfl, rfl, rfl, rfl, by kernel_rfl⟩

end Asn1.Props
