import Verif.Lemmas.TypesCheck

/-! # Instances all parts of which have been built, and constructed default values -/

namespace Asn1
open Spec Props

/-- A container with fields whose children have been built. -/
theorem readable_built {E : Env} {N : Nat} {c : ClassId} {o proto : Obj Unit} {bad : List Nat} {isSet : Bool} {fields : List Field} {oid : Option OidPair}
    {data : Bytes} {ns : List PyVal} (hE : E.cls c = .seq proto bad isSet fields oid) (ho : o.contents = some data) {cs : List Child}
    (h : KidList E N True fields (fun _ => none) cs ns) : Readable E (N + 1) (.node c o (some cs) false) (.dict (named fields 0 ns)) := by
  refine readable_of (P := fun v n => n = .dict (named fields 0 ns) ∧ ∃ cs, v = .node c o (some cs) false ∧
    KidList E N True fields (fun _ => none) cs ns) ?_ ?_ ?_ ?_ ⟨rfl, cs, rfl, h⟩
  · rintro v n ⟨rfl, cs, rfl, h⟩
    exact h.calm c o
  · rintro v n ⟨rfl, cs, rfl, h⟩ j hj
    obtain ⟨j, rfl⟩ : ∃ k, j = k + 1 := ⟨j - 1, by omega⟩
    have hj' : N ≤ j := by omega
    obtain ⟨cs', g1, g2, g3⟩ := nativeFields_kids hj' fields cs ns 0 h.1 (fun k ch n a b => by rw [Nat.zero_add]; exact h.2 k ch n a b)
    refine ⟨.node c o (some cs') false, ?_, .inl ⟨rfl, cs', rfl, g2, fun k ch n a b => by have := g3 k ch n a b; rwa [Nat.zero_add] at this⟩, rfl⟩
    rw [ops_native]
    simp only [nativeStep, nodeNative, nodeContents, h.calm c o, Bool.false_eq_true, if_false, bind, Except.bind, ho, ensureChildren, hE, g1]
  · rintro v ns' c' proto' bad' isSet' fields' oid' k name m ⟨hn, cs, rfl, h⟩ hf hc hq hk j hj
    obtain ⟨j, rfl⟩ : ∃ k, j = k + 1 := ⟨j - 1, by omega⟩
    have hj' : N ≤ j := by omega
    cases hn
    cases hf
    rw [hE] at hc
    cases hc
    have hm := named_getElem? _ _ _ _ _ _ hk
    have hlt : k < ns.length := by
      rcases Nat.lt_or_ge k ns.length with h | h
      · exact h
      · rw [List.getElem?_eq_none h] at hm; cases hm
    obtain ⟨chk, hch⟩ : ∃ chk, cs[k]? = some chk := ⟨_, List.getElem?_eq_getElem (h := by rw [h.1]; exact hlt)⟩
    obtain ⟨x, b1, b2, b3, b4⟩ := (h.2 k _ m hch hm).build hj' (.inl trivial)
    refine ⟨x, .node c o (some (cs.set k (.val x))) false, ?_, .inr (b2.mono (Nat.le_succ N)), .inl ⟨rfl, _, rfl, h.set ?_⟩, rfl⟩
    · rw [ops_item]
      simp only [getItem, bind, Except.bind, ensureChildren, hch, hE, b1]
    · intro n' hn'
      rw [hm] at hn'
      cases hn'
      exact kid_val b2 b3 b4
  · rintro v ns' c' proto' bad' isSet' ch' k m ⟨hn, h⟩ hf hc hk j hj
    cases hn

/-- An instance that is nothing. -/
def isVoid : Val → Bool
  | .void => true
  | _ => false

mutual
/-- The value of an instance all parts of which have been built and read. -/
def fullValue (E : Env) : Nat → Val → Option PyVal
  | 0, _ => none
  | n + 1, v => match v with
    | .void => some (.scalar .none)
    | .leaf _ st => (settled st).map .scalar
    | .choice _ _ _ (some v) => fullValue E n v
    | .any _ _ (some v) _ => fullValue E n v
    | .node c o (some cs) false => match E.cls c with
      | .seq _ _ _ fields _ => if o.contents.isSome then (fullKids E n fields 0 cs).map (fun ns => .dict (named fields 0 ns)) else none
      | _ => none
    | _ => none
/-- Of its fields. -/
def fullKids (E : Env) : Nat → List Field → Nat → List Child → Option (List PyVal)
  | 0, _, _, _ => none
  | n + 1, fields, k, cs => match cs with
    | [] => some []
    | .val v :: cs =>
      if !isVoid v || (paramsAt fields k).optional || (paramsAt fields k).default.isSome then
        (fullValue E n v).bind (fun m => (fullKids E n fields (k + 1) cs).map (m :: ·))
      else none
    | _ => none
end

theorem isVoid_iff (v : Val) : isVoid v = true ↔ formOf v = .void := by
  cases v <;> simp [isVoid, formOf]

theorem full_sound (E : Env) : ∀ (n : Nat), (∀ {v m}, fullValue E n v = some m → Readable E n v m) ∧
    ∀ {fields k cs ns}, fullKids E n fields k cs = some ns → cs.length = ns.length ∧
      ∀ i ch m, cs[i]? = some ch → ns[i]? = some m → Kid E n True (paramsAt fields (k + i)) none m ch
  | 0 => ⟨fun h => (by rw [fullValue] at h; cases h), fun h => (by rw [fullKids] at h; cases h)⟩
  | n + 1 => by
    obtain ⟨ih1, ih2⟩ := full_sound E n
    refine ⟨fun {v m} h => ?_, fun {fields k cs ns} h => ?_⟩
    · unfold fullValue at h
      split at h
      · cases h; exact (readable_void E).mono (by omega)
      · obtain ⟨s, hs, rfl⟩ := Option.map_eq_some_iff.mp h
        exact (readable_leaf E (settled_sound hs) (settled_sound hs)).mono (by omega)
      · exact readable_choice (ih1 h)
      · exact readable_any (ih1 h)
      · next c o cs =>
        split at h
        · next hE =>
          split at h
          · next ho =>
            obtain ⟨data, ho⟩ := Option.isSome_iff_exists.mp ho
            obtain ⟨ns, hns, rfl⟩ := Option.map_eq_some_iff.mp h
            obtain ⟨h1, h2⟩ := ih2 hns
            exact readable_built hE ho ⟨h1, fun k ch m a b => by have := h2 k ch m a b; rwa [Nat.zero_add] at this⟩
          · cases h
        · cases h
      · cases h
    · unfold fullKids at h
      split at h
      · cases h; exact ⟨rfl, fun i ch m h => by simp at h⟩
      · next v cs =>
        split at h
        · next hv =>
          obtain ⟨m, hm, h⟩ := Option.bind_eq_some_iff.mp h
          obtain ⟨ns', hns, rfl⟩ := Option.map_eq_some_iff.mp h
          obtain ⟨h1, h2⟩ := ih2 hns
          refine ⟨by simp [h1], fun i ch m' a b => ?_⟩
          cases i with
          | zero =>
            cases a; cases b
            refine kid_val ((ih1 hm).mono (by omega)) (fun hf => ?_) (fun c hc => by cases hc)
            simp only [(isVoid_iff v).mpr hf, Bool.not_true, Bool.false_or, Bool.or_eq_true] at hv
            exact hv
          | succ i =>
            have := h2 i ch m' a b
            rw [show k + (i + 1) = k + 1 + i by omega]
            exact this.mono (by omega)
        · cases h
      · cases h

theorem default_full {E : Env} {c : ClassId} {p : Params} {n : PyVal} {N : Nat} {v w : Val}
    (h1 : ∀ j, (ops E (j + N)).construct c p (.scalar .none) = .ok v) (h2 : ∀ j, (ops E (j + N)).native v = .ok (n, w))
    (h3 : fullValue E N w = some n) (h4 : isVoid v = false) (h5 : formOf w = formOf v) : DefaultValue E c p n := by
  refine ⟨N, v, w, fun j hj => ?_, fun j hj => ?_, (full_sound E N).1 h3, fun h => ?_, h5⟩
  · obtain ⟨k, rfl⟩ : ∃ k, j = k + N := ⟨j - N, by omega⟩
    exact h1 k
  · obtain ⟨k, rfl⟩ : ∃ k, j = k + N := ⟨j - N, by omega⟩
    exact h2 k
  · rw [(isVoid_iff v).mpr h] at h4; cases h4

end Asn1
