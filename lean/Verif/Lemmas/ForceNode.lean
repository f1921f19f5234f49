import Verif.Lemmas.ForceRead

/-! # Containers that can be encoded again by force -/

namespace Asn1
open Spec Props

/-- A child that can be read and encoded again. -/
def FKid (E : Env) (N : Nat) (p : Params) (must : Option ClassId) (n : PyVal) (b : Bytes) : Child → Prop
  | .lazy i spec nested => ∀ j ≥ N, ∃ v, (ops E j).build i spec p nested = .ok v ∧ Forceable E N v n b ∧ formOf v ≠ .void ∧ FormIs must v
  | .val v => Forceable E N v n b ∧ (formOf v = .void → p.optional = true ∨ p.default.isSome = true) ∧ FormIs must v

/-- The children of a container. -/
def FKids (E : Env) (N : Nat) (g : Nat → Params) (must : Nat → Option ClassId) (cs : List Child) (ps : List (PyVal × Bytes)) : Prop :=
  cs.length = ps.length ∧ ∀ k ch n b, cs[k]? = some ch → ps[k]? = some (n, b) → FKid E N (g k) (must k) n b ch

theorem FKid.mono {E : Env} {N M : Nat} {p : Params} {must : Option ClassId} {n : PyVal} {b : Bytes} {ch : Child} (h : FKid E N p must n b ch)
    (hM : N ≤ M) : FKid E M p must n b ch := by
  cases ch with
  | «lazy» i spec nested =>
    intro j hj
    obtain ⟨v, h1, h2, h3⟩ := h j (Nat.le_trans hM hj)
    exact ⟨v, h1, h2.mono hM, h3⟩
  | val v => exact ⟨h.1.mono hM, h.2⟩

theorem FKid.forget {E : Env} {N : Nat} {p : Params} {must : Option ClassId} {n : PyVal} {b : Bytes} {ch : Child} (h : FKid E N p must n b ch) :
    FKid E N p none n b ch := by
  cases ch with
  | «lazy» i spec nested =>
    intro j hj
    obtain ⟨v, h1, h2, h3, _⟩ := h j hj
    exact ⟨v, h1, h2, h3, fun c hc => by cases hc⟩
  | val v =>
    obtain ⟨h1, h2, _⟩ := h
    exact ⟨h1, h2, fun c hc => by cases hc⟩

theorem FKids.mono {E : Env} {N M : Nat} {g : Nat → Params} {must : Nat → Option ClassId} {cs : List Child} {ps : List (PyVal × Bytes)}
    (h : FKids E N g must cs ps) (hM : N ≤ M) : FKids E M g must cs ps :=
  ⟨h.1, fun k ch n b h1 h2 => (h.2 k ch n b h1 h2).mono hM⟩

theorem FKids.forget {E : Env} {N : Nat} {g : Nat → Params} {must : Nat → Option ClassId} {cs : List Child} {ps : List (PyVal × Bytes)}
    (h : FKids E N g must cs ps) : FKids E N g (fun _ => none) cs ps :=
  ⟨h.1, fun k ch n b h1 h2 => (h.2 k ch n b h1 h2).forget⟩

theorem FKid.build {E : Env} {N : Nat} {p : Params} {must : Option ClassId} {n : PyVal} {b : Bytes} {ch : Child} (h : FKid E N p must n b ch) {j : Nat}
    (hj : N ≤ j) : ∃ v, buildChild (ops E j) p ch = .ok v ∧ FKid E N p must n b (.val v) := by
  cases ch with
  | «lazy» i spec nested =>
    obtain ⟨v, h1, h2, h3, h4⟩ := h j hj
    exact ⟨v, h1, h2, fun h => absurd h h3, h4⟩
  | val v => exact ⟨v, rfl, h⟩

/-- A child that is used stays a child. -/
theorem FKid.step {E : Env} {N : Nat} {p : Params} {must : Option ClassId} {n : PyVal} {b : Bytes} {v w : Val} (h : FKid E N p must n b (.val v))
    (hw : Forceable E N w n b) (hf : formOf w = formOf v) : FKid E N p must n b (.val w) :=
  ⟨hw, fun he => h.2.1 (hf.symm.trans he), fun c hc => by rw [hf]; exact h.2.2 c hc⟩

theorem FKid.read {E : Env} {N : Nat} {p : Params} {must : Option ClassId} {n : PyVal} {b : Bytes} {ch : Child} (h : FKid E N p must n b ch) {j : Nat}
    (hj : N ≤ j) : ∃ v w, buildChild (ops E j) p ch = .ok v ∧ (ops E j).native v = .ok (n, w) ∧ FKid E N p must n b (.val w) := by
  obtain ⟨v, h1, h2⟩ := h.build hj
  obtain ⟨w, k1, k2, k3⟩ := (renewing_forceable E N).native h2.1 j hj
  exact ⟨v, w, h1, k1, h2.step k2 k3⟩

theorem FKid.force {E : Env} {N : Nat} {p : Params} {must : Option ClassId} {n : PyVal} {b : Bytes} {ch : Child} (h : FKid E N p must n b ch) {j : Nat}
    (hj : N ≤ j) : ∃ v w, buildChild (ops E j) p ch = .ok v ∧ (ops E j).dump v true = .ok (b, w) ∧ FKid E N p must n b (.val w) := by
  obtain ⟨v, h1, h2⟩ := h.build hj
  obtain ⟨w, k1, k2, k3⟩ := (renewing_forceable E N).force h2.1 j hj
  exact ⟨v, w, h1, k1, h2.step k2 k3⟩

theorem fkids_nil {E : Env} {N : Nat} {g : Nat → Params} {must : Nat → Option ClassId} : FKids E N g must [] [] :=
  ⟨rfl, fun k ch n b h => by simp at h⟩

theorem FKids.head {E : Env} {N : Nat} {g : Nat → Params} {must : Nat → Option ClassId} {ch : Child} {cs : List Child} {p : PyVal × Bytes}
    {ps : List (PyVal × Bytes)} (h : FKids E N g must (ch :: cs) (p :: ps)) : FKid E N (g 0) (must 0) p.1 p.2 ch := h.2 0 ch p.1 p.2 rfl rfl

theorem FKids.tail {E : Env} {N : Nat} {g : Nat → Params} {must : Nat → Option ClassId} {ch : Child} {cs : List Child} {p : PyVal × Bytes}
    {ps : List (PyVal × Bytes)} (h : FKids E N g must (ch :: cs) (p :: ps)) : FKids E N (fun k => g (k + 1)) (fun k => must (k + 1)) cs ps :=
  ⟨by simpa using h.1, fun k ch n b h1 h2 => h.2 (k + 1) ch n b h1 h2⟩

theorem FKids.cons {E : Env} {N : Nat} {g : Nat → Params} {must : Nat → Option ClassId} {ch : Child} {cs : List Child} {p : PyVal × Bytes}
    {ps : List (PyVal × Bytes)} (h1 : FKid E N (g 0) (must 0) p.1 p.2 ch) (h2 : FKids E N (fun k => g (k + 1)) (fun k => must (k + 1)) cs ps) :
    FKids E N g must (ch :: cs) (p :: ps) := by
  refine ⟨by simp [h2.1], fun k ch' n b a1 a2 => ?_⟩
  cases k with
  | zero => cases a1; cases a2; exact h1
  | succ k => exact h2.2 k ch' n b a1 a2

theorem FKids.set {E : Env} {N : Nat} {g : Nat → Params} {must : Nat → Option ClassId} {cs : List Child} {ps : List (PyVal × Bytes)}
    (h : FKids E N g must cs ps) {k : Nat} {ch : Child} (hk : ∀ n b, ps[k]? = some (n, b) → FKid E N (g k) (must k) n b ch) :
    FKids E N g must (cs.set k ch) ps := by
  refine ⟨by simp [h.1], fun k' ch' n b h1 h2 => ?_⟩
  rw [List.getElem?_set] at h1
  split at h1
  · next he =>
    subst he
    split at h1
    · cases h1; exact hk n b h2
    · cases h1
  · exact h.2 k' ch' n b h1 h2

theorem FKids.snoc {E : Env} {N : Nat} {g : Nat → Params} {must : Nat → Option ClassId} {cs : List Child} {ps : List (PyVal × Bytes)}
    (h : FKids E N g must cs ps) {ch : Child} {n : PyVal} {b : Bytes} (hk : FKid E N (g ps.length) (must ps.length) n b ch) :
    FKids E N g must (cs ++ [ch]) (ps ++ [(n, b)]) := by
  refine ⟨by simp [h.1], fun k ch' n' b' h1 h2 => ?_⟩
  rcases Nat.lt_trichotomy k ps.length with hlt | heq | hgt
  · rw [List.getElem?_append_left (by rw [h.1]; exact hlt)] at h1
    rw [List.getElem?_append_left hlt] at h2
    exact h.2 k ch' n' b' h1 h2
  · subst heq
    rw [List.getElem?_append_right (by rw [h.1]), h.1, Nat.sub_self] at h1
    rw [List.getElem?_append_right (Nat.le_refl _), Nat.sub_self] at h2
    cases h1; cases h2
    exact hk
  · rw [List.getElem?_eq_none (by simp; omega)] at h2
    cases h2

theorem FKids.calm {E : Env} {N : Nat} : ∀ {cs : List Child} {ps : List (PyVal × Bytes)} {g : Nat → Params} {must : Nat → Option ClassId},
    FKids E N g must cs ps → childrenMutated cs = false
  | [], [], _, _, _ => by simp [childrenMutated]
  | [], _ :: _, _, _, h => by have := h.1; simp at this
  | _ :: _, [], _, _, h => by have := h.1; simp at this
  | ch :: cs, p :: ps, g, must, h => by
    have ih := h.tail.calm
    cases ch with
    | «lazy» i spec nested => rw [childrenMutated]; exact ih
    | val v =>
      rw [childrenMutated, ih, Bool.or_false]
      exact (renewing_forceable E N).calm h.head.1

theorem FKids.node_calm {E : Env} {N : Nat} {cs : List Child} {ps : List (PyVal × Bytes)} {g : Nat → Params} {must : Nat → Option ClassId}
    (h : FKids E N g must cs ps) (c : ClassId) (o : Obj Unit) : (Val.node c o (some cs) false).isMutated = false := by
  rw [Val.isMutated, h.calm]; rfl

theorem nativeFields_fkids {E : Env} {N : Nat} {j : Nat} (hj : N ≤ j) (all : List Field) : ∀ (cs : List Child) (ps : List (PyVal × Bytes)) (idx : Nat),
    FKids E N (fun k => paramsAt all (idx + k)) (fun _ => none) cs ps →
    ∃ cs', nativeFields (ops E j) all idx cs = .ok (named all idx (ps.map Prod.fst), cs') ∧ FKids E N (fun k => paramsAt all (idx + k)) (fun _ => none) cs' ps
  | [], [], idx, _ => ⟨[], rfl, fkids_nil⟩
  | [], _ :: _, _, h => by have := h.1; simp at this
  | _ :: _, [], _, h => by have := h.1; simp at this
  | ch :: cs, p :: ps, idx, h => by
    obtain ⟨v, w, k1, k2, k3⟩ := h.head.read hj
    have hg : (fun k => paramsAt all (idx + (k + 1))) = (fun k => paramsAt all (idx + 1 + k)) :=
      funext fun k => congrArg (paramsAt all) (by omega)
    have ht := h.tail
    rw [hg] at ht
    obtain ⟨cs', g1, g2⟩ := nativeFields_fkids hj all cs ps (idx + 1) ht
    refine ⟨.val w :: cs', ?_, FKids.cons k3 ?_⟩
    · simp only [nativeFields, bind, Except.bind]
      rw [Nat.add_zero] at k1
      simp only [k1, k2, g1, named, List.map_cons]
    · rw [hg]
      exact g2

theorem nativeElements_fkids {E : Env} {N : Nat} {j : Nat} (hj : N ≤ j) : ∀ (cs : List Child) (ps : List (PyVal × Bytes)),
    FKids E N (fun _ => {}) (fun _ => none) cs ps →
    ∃ cs', nativeElements (ops E j) cs = .ok (ps.map Prod.fst, cs') ∧ FKids E N (fun _ => {}) (fun _ => none) cs' ps
  | [], [], _ => ⟨[], rfl, fkids_nil⟩
  | [], _ :: _, h => by have := h.1; simp at this
  | _ :: _, [], h => by have := h.1; simp at this
  | ch :: cs, p :: ps, h => by
    obtain ⟨v, w, k1, k2, k3⟩ := h.head.read hj
    obtain ⟨cs', g1, g2⟩ := nativeElements_fkids hj cs ps h.tail
    refine ⟨.val w :: cs', ?_, FKids.cons k3 g2⟩
    simp only [nativeElements, bind, Except.bind, k1, k2, g1, List.map_cons]

theorem encodeElements_fkids {E : Env} {N : Nat} {j : Nat} (hj : N ≤ j) : ∀ (cs : List Child) (ps : List (PyVal × Bytes)),
    FKids E N (fun _ => {}) (fun _ => none) cs ps →
    ∃ cs', encodeElements (ops E j) true cs = .ok (ps.map Prod.snd, cs') ∧ FKids E N (fun _ => {}) (fun _ => none) cs' ps
  | [], [], _ => ⟨[], rfl, fkids_nil⟩
  | [], _ :: _, h => by have := h.1; simp at this
  | _ :: _, [], h => by have := h.1; simp at this
  | ch :: cs, p :: ps, h => by
    obtain ⟨v, w, k1, k2, k3⟩ := h.head.force hj
    obtain ⟨cs', g1, g2⟩ := encodeElements_fkids hj cs ps h.tail
    refine ⟨.val w :: cs', ?_, FKids.cons k3 g2⟩
    simp only [encodeElements, bind, Except.bind, k1, k2, g1, List.map_cons]

/-- What a field contributes to the contents when its encoding is `b`. -/
def FieldWrites (E : Env) (N : Nat) (f : Field) (b x : Bytes) : Prop :=
  (f.params.default = none ∧ x = b) ∨ (f.params.default.isSome = true ∧ ∃ db, x = (if db = b then [] else b) ∧
    ∀ j ≥ N, ∃ d d', (ops E j).construct f.spec f.params (.scalar .none) = .ok d ∧ (ops E j).dump d false = .ok (db, d'))

/-- What the fields contribute together. -/
inductive Writes (E : Env) (N : Nat) : List Field → List (PyVal × Bytes) → Bytes → Prop
  | nil : Writes E N [] [] []
  | cons {f : Field} {fs : List Field} {n : PyVal} {b : Bytes} {ps : List (PyVal × Bytes)} {x w : Bytes} :
      FieldWrites E N f b x → Writes E N fs ps w → Writes E N (f :: fs) ((n, b) :: ps) (x ++ w)

theorem Writes.mono {E : Env} {N M : Nat} {fs : List Field} {ps : List (PyVal × Bytes)} {w : Bytes} (h : Writes E N fs ps w) (hM : N ≤ M) : Writes E M fs ps w := by
  induction h with
  | nil => exact .nil
  | cons h1 _ ih =>
    refine .cons ?_ ih
    rcases h1 with h1 | ⟨h1, db, h2, h3⟩
    · exact .inl h1
    · exact .inr ⟨h1, db, h2, fun j hj => h3 j (Nat.le_trans hM hj)⟩

theorem encodeFields_fkids {E : Env} {N : Nat} {j : Nat} (hj : N ≤ j) {fs : List Field} {ps : List (PyVal × Bytes)} {body : Bytes} (hw : Writes E N fs ps body) :
    ∀ (cs : List Child) (g : Nat → Params), (∀ (k : Nat) f, fs[k]? = some f → g k = f.params) → FKids E N g (fun _ => none) cs ps →
    ∃ cs', encodeFields (ops E j) true fs cs = .ok (body, cs') ∧ FKids E N g (fun _ => none) cs' ps ∧ requiredPresent fs cs' = .ok () := by
  induction hw with
  | nil =>
    intro cs g hg h
    have : cs = [] := List.length_eq_zero_iff.mp h.1
    subst this
    exact ⟨[], rfl, fkids_nil, rfl⟩
  | @cons f fs n b ps x w h1 _ ih =>
    intro cs g hg h
    cases cs with
    | nil => have := h.1; simp at this
    | cons ch cs =>
      have hf := hg 0 f rfl
      obtain ⟨v, w', k1, k2, k3⟩ := h.head.force hj
      obtain ⟨cs', g1, g2, g3⟩ := ih cs (fun k => g (k + 1)) (fun k f hk => hg (k + 1) f hk) h.tail
      have he : fieldEncoding (ops E j) true f ch = .ok (x, .val w') := by
        rw [hf] at k1
        have hfirst : fieldEncoding (ops E j) true f ch = (match f.params.default with
            | none => .ok (b, .val w')
            | some _ => do
              let d ← (ops E j).construct f.spec f.params (.scalar .none)
              let (db, _) ← (ops E j).dump d false
              .ok (if db = b then [] else b, .val w')) := by
          cases ch with
          | «lazy» i spec nested =>
            simp only [buildChild] at k1
            simp only [fieldEncoding, k1, bind, Except.bind, k2]
            cases f.params.default <;> rfl
          | val v' =>
            simp only [buildChild] at k1
            cases k1
            simp only [fieldEncoding, bind, Except.bind, k2]
            cases f.params.default <;> rfl
        rw [hfirst]
        rcases h1 with ⟨hd, rfl⟩ | ⟨hd, db, rfl, h3⟩
        · simp only [hd]
        · obtain ⟨d, hd⟩ := Option.isSome_iff_exists.mp hd
          obtain ⟨y, y', c1, c2⟩ := h3 j hj
          simp only [hd, c1, c2, bind, Except.bind]
      refine ⟨.val w' :: cs', ?_, FKids.cons k3 g2, ?_⟩
      · simp only [encodeFields, bind, Except.bind, he, g1]
      · by_cases hv : w' = .void
        · subst hv
          have := k3.2.1 rfl
          rw [hf] at this
          simp only [requiredPresent]
          rw [if_pos, g3]
          rw [Bool.or_eq_true]
          exact this.symm
        · cases w' <;> first | exact absurd rfl hv | simpa only [requiredPresent] using g3

/-- The tags of a container, with contents. -/
structure NodeObj (cl tg : Nat) (es : List (Nat × Nat)) (o : Obj Unit) : Prop where
  cls : o.cls = cl
  tag : o.tag = tg
  explicit : o.explicit = es
  method : o.method = 1
  ind : o.indefinite = false
  contents : ∃ d, o.contents = some d

theorem NodeObj.write {cl tg : Nat} {es : List (Nat × Nat)} {o : Obj Unit} (h : NodeObj cl tg es o) {b : Bytes} {t u : TLV}
    (hi : DerInside es.reverse t u) (hc : u.cls = cl) (hm : u.method = 1) (ht : u.tag = tg) (hb : u.contents = b) :
    ∃ o', asn1Dump false { o with contents := some b, header := none, trailer := [] } = .ok (t.bytes, o') ∧ NodeObj cl tg es o' := by
  have hu := (derInside_head hi).2
  have hd := derHead_dumpHeader hu
  rw [hc, hm, ht] at hd
  subst hb
  obtain ⟨h1, w1, w2⟩ := derInside_wrap es (h := u.header) (c := u.contents) hi (by rw [TLV.bytes, derHead_trailer hu, List.append_nil])
  refine ⟨{ o with contents := some u.contents, header := some h1, trailer := [] }, ?_, ⟨h.cls, h.tag, h.explicit, h.method, h.ind, _, rfl⟩⟩
  rw [asn1Dump_fresh (o := { o with contents := some u.contents, header := none, trailer := [] }) rfl rfl h.ind]
  simp only [h.cls, h.method, h.tag, h.explicit, hd, w1, Except.bind, w2]

/-- States of a container with fields. `S` holds of the attributes at all times. -/
theorem forceable_fields {E : Env} {N : Nat} {c : ClassId} {o proto : Obj Unit} {bad : List Nat} {isSet : Bool} {fields : List Field} {oid : Option OidPair}
    {data b : Bytes} {ps : List (PyVal × Bytes)} (hE : E.cls c = .seq proto bad isSet fields oid) (S : Obj Unit → Prop) (hSc : ∀ o, S o → ∃ d, o.contents = some d)
    (hp : ∀ j ≥ N, ∃ cs, parseChildren E (ops E j) c (some data) = .ok cs ∧ FKids E N (paramsAt fields) (fun _ => none) cs ps)
    (hf : ∀ j ≥ N, ∀ o cs, S o → (cs = none → o.contents = some data) → (∀ cs', cs = some cs' → FKids E N (paramsAt fields) (fun _ => none) cs' ps) →
      ∃ o' cs', nodeDump E (ops E j) c o cs false true = .ok (b, .node c o' cs' false) ∧ S o' ∧ (cs' = none → o'.contents = some data) ∧
        ∀ cs'', cs' = some cs'' → FKids E N (paramsAt fields) (fun _ => none) cs'' ps)
    (hS : S o) : (o.contents = some data → Forceable E (N + 1) (.node c o none false) (.dict (named fields 0 (ps.map Prod.fst))) b) ∧
    ∀ cs, FKids E N (paramsAt fields) (fun _ => none) cs ps → Forceable E (N + 1) (.node c o (some cs) false) (.dict (named fields 0 (ps.map Prod.fst))) b := by
  let P : Val → PyVal → Bytes → Prop := fun v n b' => n = .dict (named fields 0 (ps.map Prod.fst)) ∧ b' = b ∧ ∃ o cs, v = .node c o cs false ∧ S o ∧
    (cs = none → o.contents = some data) ∧ (∀ cs', cs = some cs' → FKids E N (paramsAt fields) (fun _ => none) cs' ps)
  have ensure : ∀ {j o cs}, N ≤ j → (cs = none → o.contents = some data) → (∀ cs', cs = some cs' → FKids E N (paramsAt fields) (fun _ => none) cs' ps) →
      ∃ cs', ensureChildren E (ops E j) c o cs = .ok cs' ∧ FKids E N (paramsAt fields) (fun _ => none) cs' ps := by
    intro j o cs hj h1 h2
    cases cs with
    | none =>
      obtain ⟨cs, k1, k2⟩ := hp j hj
      exact ⟨cs, by simp only [ensureChildren, h1 rfl, k1], k2⟩
    | some cs => exact ⟨cs, rfl, h2 cs rfl⟩
  have calm : ∀ {o cs}, (∀ cs', cs = some cs' → FKids E N (paramsAt fields) (fun _ => none) cs' ps) → (Val.node c o cs false).isMutated = false := by
    intro o cs h
    cases cs with
    | none => simp [Val.isMutated]
    | some cs => exact (h cs rfl).node_calm c o
  have main : ∀ {v n b'}, P v n b' → Forceable E (N + 1) v n b' := by
    intro v n b' h
    refine forceable_of (P := P) ?_ ?_ ?_ ?_ ?_ h
    · rintro v n b' ⟨rfl, rfl, o, cs, rfl, _, _, h⟩
      exact calm h
    · rintro v n b' ⟨rfl, rfl, o, cs, rfl, h1, h2, h3⟩ j hj
      obtain ⟨j, rfl⟩ : ∃ k, j = k + 1 := ⟨j - 1, by omega⟩
      have hj' : N ≤ j := by omega
      obtain ⟨d, hd⟩ := hSc o h1
      obtain ⟨cs1, e1, e2⟩ := ensure hj' h2 h3
      obtain ⟨cs', g1, g2⟩ := nativeFields_fkids hj' fields cs1 ps 0 (by simp only [Nat.zero_add]; exact e2)
      simp only [Nat.zero_add] at g2
      refine ⟨.node c o (some cs') false, ?_, .inl ⟨rfl, rfl, o, some cs', rfl, h1, fun h => (by cases h), fun _ h => (by cases h; exact g2)⟩, rfl⟩
      rw [ops_native]
      simp only [nativeStep, nodeNative, nodeContents_rest (calm h3), bind, Except.bind, hd, e1, hE, g1]
    · rintro v ns' b' c' proto' bad' isSet' fields' oid' k name m ⟨hn, rfl, o, cs, rfl, h1, h2, h3⟩ hf' hc hk j hj
      obtain ⟨j, rfl⟩ : ∃ k, j = k + 1 := ⟨j - 1, by omega⟩
      have hj' : N ≤ j := by omega
      cases hn
      cases hf'
      rw [hE] at hc
      cases hc
      have hm := named_getElem? _ _ _ _ _ _ hk
      rw [List.getElem?_map] at hm
      obtain ⟨p, hpk, rfl⟩ := Option.map_eq_some_iff.mp hm
      obtain ⟨cs1, e1, e2⟩ := ensure hj' h2 h3
      have hlt : k < ps.length := by
        rcases Nat.lt_or_ge k ps.length with h | h
        · exact h
        · rw [List.getElem?_eq_none h] at hpk; cases hpk
      obtain ⟨chk, hch⟩ : ∃ chk, cs1[k]? = some chk := ⟨_, List.getElem?_eq_getElem (h := by rw [e2.1]; exact hlt)⟩
      obtain ⟨x, b1, b2⟩ := (e2.2 k _ p.1 p.2 hch hpk).build hj'
      refine ⟨x, .node c o (some (cs1.set k (.val x))) false, p.2, ?_, .inr (b2.1.mono (Nat.le_succ N)),
        .inl ⟨rfl, rfl, o, _, rfl, h1, fun h => (by cases h), fun _ h => (by cases h; exact e2.set (fun n' b' hn' => by rw [hpk] at hn'; cases hn'; exact b2))⟩, rfl⟩
      rw [ops_item]
      simp only [getItem, bind, Except.bind, e1, hch, hE, b1]
    · rintro v ns' b' c' proto' bad' isSet' ch' k m ⟨hn, h⟩
      cases hn
    · rintro v n b' ⟨rfl, rfl, o, cs, rfl, h1, h2, h3⟩ j hj
      obtain ⟨j, rfl⟩ : ∃ k, j = k + 1 := ⟨j - 1, by omega⟩
      have hj' : N ≤ j := by omega
      obtain ⟨o', cs', k1, k2, k3, k4⟩ := hf j hj' o cs h1 h2 h3
      refine ⟨.node c o' cs' false, ?_, .inl ⟨rfl, rfl, o', cs', rfl, k2, k3, k4⟩, rfl⟩
      rw [ops_dump]
      exact k1
  exact ⟨fun h => main ⟨rfl, rfl, o, none, rfl, hS, fun _ => h, fun _ h => by cases h⟩,
    fun cs h => main ⟨rfl, rfl, o, some cs, rfl, hS, fun h => (by cases h), fun _ h' => (by cases h'; exact h)⟩⟩

/-- A SEQUENCE with fields. -/
theorem forceable_seq {E : Env} {N : Nat} {c : ClassId} {o proto : Obj Unit} {bad : List Nat} {fields : List Field} {oid : Option OidPair}
    {data : Bytes} {ps : List (PyVal × Bytes)} (hE : E.cls c = .seq proto bad false fields oid) (hne : fields ≠ []) {cl tg : Nat} {es : List (Nat × Nat)}
    (ho : NodeObj cl tg es o)
    (hp : ∀ j ≥ N, ∃ cs, parseChildren E (ops E j) c (some data) = .ok cs ∧ FKids E N (paramsAt fields) (fun _ => none) cs ps)
    {body : Bytes} (hw : Writes E N fields ps body) {t u : TLV}
    (hi : DerInside es.reverse t u) (hc : u.cls = cl) (hm : u.method = 1) (ht : u.tag = tg) (hb : u.contents = body) :
    (o.contents = some data → Forceable E (N + 1) (.node c o none false) (.dict (named fields 0 (ps.map Prod.fst))) t.bytes) ∧
    ∀ cs, FKids E N (paramsAt fields) (fun _ => none) cs ps → Forceable E (N + 1) (.node c o (some cs) false) (.dict (named fields 0 (ps.map Prod.fst))) t.bytes := by
  refine forceable_fields hE (NodeObj cl tg es) (fun o h => h.contents) hp ?_ ho
  intro j hj o cs h1 h2 h3
  have : ∃ cs1, ensureChildren E (ops E j) c o cs = .ok cs1 ∧ FKids E N (paramsAt fields) (fun _ => none) cs1 ps := by
    cases cs with
    | none =>
      obtain ⟨cs, k1, k2⟩ := hp j hj
      exact ⟨cs, by simp only [ensureChildren, h2 rfl, k1], k2⟩
    | some cs => exact ⟨cs, rfl, h3 cs rfl⟩
  obtain ⟨cs1, e1, e2⟩ := this
  obtain ⟨cs', g1, g2, g3⟩ := encodeFields_fkids hj hw cs1 (paramsAt fields) (fun k f hk => by simp [paramsAt, hk]) e2
  obtain ⟨o', w1, w2⟩ := h1.write hi hc hm ht hb
  refine ⟨o', some cs', ?_, w2, fun h => (by cases h), fun _ h => (by cases h; exact g2)⟩
  have hpl : isPlainSequence E c = false := by
    unfold isPlainSequence
    rw [hE]
    cases fields with
    | nil => exact absurd rfl hne
    | cons f fs => rfl
  simp only [nodeDump, hpl, Bool.true_or, Bool.not_false, Bool.and_true, if_true, bind, Except.bind, setContents, e1, encodeChildren, hE, g1, checkRequired, g3,
    nodeContents_rest (g2.node_calm c _), w1]

/-- A SEQUENCE of no particular class. -/
theorem forceable_open {E : Env} {N : Nat} {c : ClassId} {o proto : Obj Unit} {bad : List Nat} {oid : Option OidPair}
    {data : Bytes} {ps : List (PyVal × Bytes)} (hE : E.cls c = .seq proto bad false [] oid) {b : Bytes} (ho : KeptObj data b o)
    (hp : ∀ j ≥ N, ∃ cs, parseChildren E (ops E j) c (some data) = .ok cs ∧ FKids E N (paramsAt []) (fun _ => none) cs ps) :
    Forceable E (N + 1) (.node c o none false) (.dict (named [] 0 (ps.map Prod.fst))) b ∧
    ∀ cs, FKids E N (paramsAt []) (fun _ => none) cs ps → Forceable E (N + 1) (.node c o (some cs) false) (.dict (named [] 0 (ps.map Prod.fst))) b := by
  have := forceable_fields hE (KeptObj data b) (fun o h => ⟨_, h.contents⟩) hp (b := b) ?_ ho
  · exact ⟨this.1 ho.contents, this.2⟩
  intro j hj o cs h1 h2 h3
  obtain ⟨o', w1, w2⟩ := h1.dump
  have hpl : isPlainSequence E c = true := by
    unfold isPlainSequence
    rw [hE]
  have hcalm : (Val.node c o cs false).isMutated = false := by
    cases cs with
    | none => simp [Val.isMutated]
    | some cs => exact (h3 cs rfl).node_calm c o
  have hreq : checkRequired E c cs = .ok () := by
    unfold checkRequired
    rw [hE]
    cases cs <;> rfl
  refine ⟨o', cs, ?_, w2, fun _ => w2.contents, h3⟩
  simp only [nodeDump, hpl, Bool.true_or, Bool.not_true, Bool.and_false, Bool.false_eq_true, if_false, bind, Except.bind, hreq, nodeContents_rest hcalm, w1]

/-- A SEQUENCE OF or SET OF. -/
theorem forceable_list {E : Env} {N : Nat} {c : ClassId} {o proto : Obj Unit} {bad : List Nat} {isSet : Bool} {ch : Option ClassId}
    {data : Bytes} {ps : List (PyVal × Bytes)} {cs0 : List Child} (hE : E.cls c = .seqOf proto bad isSet ch) {cl tg : Nat} {es : List (Nat × Nat)}
    (ho : NodeObj cl tg es o) (hd : o.contents = some data) (hp : parseSeqOf ch (some data) = .ok cs0) (hk0 : FKids E N (fun _ => {}) (fun _ => none) cs0 ps)
    {t u : TLV} (hi : DerInside es.reverse t u) (hc : u.cls = cl) (hm : u.method = 1) (ht : u.tag = tg)
    (hb : u.contents = if isSet then ((ps.map Prod.snd).mergeSort bytesLe).flatten else (ps.map Prod.snd).flatten) :
    Forceable E (N + 1) (.node c o none false) (.list (ps.map Prod.fst)) t.bytes := by
  have hpc : ∀ r, parseChildren E r c (some data) = .ok cs0 := by
    intro r
    simp only [parseChildren, hE, hp]
  let P : Val → PyVal → Bytes → Prop := fun v n b' => n = .list (ps.map Prod.fst) ∧ b' = t.bytes ∧ ∃ o cs, v = .node c o cs false ∧ NodeObj cl tg es o ∧
    (cs = none → o.contents = some data) ∧ (∀ cs', cs = some cs' → FKids E N (fun _ => {}) (fun _ => none) cs' ps)
  have ensure : ∀ {j o cs}, (cs = none → o.contents = some data) → (∀ cs', cs = some cs' → FKids E N (fun _ => {}) (fun _ => none) cs' ps) →
      ∃ cs', ensureChildren E (ops E j) c o cs = .ok cs' ∧ FKids E N (fun _ => {}) (fun _ => none) cs' ps := by
    intro j o cs h1 h2
    cases cs with
    | none => exact ⟨cs0, by simp only [ensureChildren, h1 rfl, hpc], hk0⟩
    | some cs => exact ⟨cs, rfl, h2 cs rfl⟩
  have calm : ∀ {o cs}, (∀ cs', cs = some cs' → FKids E N (fun _ => {}) (fun _ => none) cs' ps) → (Val.node c o cs false).isMutated = false := by
    intro o cs h
    cases cs with
    | none => simp [Val.isMutated]
    | some cs => exact (h cs rfl).node_calm c o
  refine forceable_of (P := P) ?_ ?_ ?_ ?_ ?_ ⟨rfl, rfl, o, none, rfl, ho, fun _ => hd, fun _ h => (by cases h)⟩
  · rintro v n b' ⟨rfl, rfl, o, cs, rfl, _, _, h⟩
    exact calm h
  · rintro v n b' ⟨rfl, rfl, o, cs, rfl, h1, h2, h3⟩ j hj
    obtain ⟨j, rfl⟩ : ∃ k, j = k + 1 := ⟨j - 1, by omega⟩
    have hj' : N ≤ j := by omega
    obtain ⟨d, hd⟩ := h1.contents
    obtain ⟨cs1, e1, e2⟩ := ensure (j := j) h2 h3
    obtain ⟨cs', g1, g2⟩ := nativeElements_fkids hj' cs1 ps e2
    refine ⟨.node c o (some cs') false, ?_, .inl ⟨rfl, rfl, o, some cs', rfl, h1, fun h => (by cases h), fun _ h => (by cases h; exact g2)⟩, rfl⟩
    rw [ops_native]
    simp only [nativeStep, nodeNative, nodeContents_rest (calm h3), bind, Except.bind, hd, e1, hE, g1]
  · rintro v ns' b' c' proto' bad' isSet' fields' oid' k name m ⟨hn, h⟩
    cases hn
  · rintro v ns' b' c' proto' bad' isSet' ch' k m ⟨hn, rfl, o, cs, rfl, h1, h2, h3⟩ hf' hc hm j hj
    obtain ⟨j, rfl⟩ : ∃ k, j = k + 1 := ⟨j - 1, by omega⟩
    have hj' : N ≤ j := by omega
    cases hn
    rw [List.getElem?_map] at hm
    obtain ⟨p, hpk, rfl⟩ := Option.map_eq_some_iff.mp hm
    obtain ⟨cs1, e1, e2⟩ := ensure (j := j) h2 h3
    have hlt : k < ps.length := by
      rcases Nat.lt_or_ge k ps.length with h | h
      · exact h
      · rw [List.getElem?_eq_none h] at hpk; cases hpk
    obtain ⟨chk, hch⟩ : ∃ chk, cs1[k]? = some chk := ⟨_, List.getElem?_eq_getElem (h := by rw [e2.1]; exact hlt)⟩
    obtain ⟨x, b1, b2⟩ := (e2.2 k _ p.1 p.2 hch hpk).build hj'
    refine ⟨x, .node c o (some (cs1.set k (.val x))) false, p.2, ?_, .inr (b2.1.mono (Nat.le_succ N)),
      .inl ⟨rfl, rfl, o, _, rfl, h1, fun h => (by cases h), fun _ h => (by cases h; exact e2.set (fun n' b' hn' => by rw [hpk] at hn'; cases hn'; exact b2))⟩, rfl⟩
    rw [ops_item]
    simp only [getItem, bind, Except.bind, e1, hch, hE, b1]
  · rintro v n b' ⟨rfl, rfl, o, cs, rfl, h1, h2, h3⟩ j hj
    obtain ⟨j, rfl⟩ : ∃ k, j = k + 1 := ⟨j - 1, by omega⟩
    have hj' : N ≤ j := by omega
    obtain ⟨cs1, e1, e2⟩ := ensure (j := j) h2 h3
    obtain ⟨cs', g1, g2⟩ := encodeElements_fkids hj' cs1 ps e2
    obtain ⟨o', w1, w2⟩ := h1.write hi hc hm ht hb
    refine ⟨.node c o' (some cs') false, ?_, .inl ⟨rfl, rfl, o', some cs', rfl, w2, fun h => (by cases h), fun _ h => (by cases h; exact g2)⟩, rfl⟩
    have hpl : isPlainSequence E c = false := by
      unfold isPlainSequence
      rw [hE]
    rw [ops_dump]
    cases isSet <;>
    · simp only [if_true, Bool.false_eq_true, if_false] at w1
      simp only [dumpStep, nodeDump, hpl, Bool.true_or, Bool.not_false, Bool.and_true, if_true, bind, Except.bind, setContents, e1, encodeChildren, hE, g1, checkRequired,
        nodeContents_rest (g2.node_calm c _), w1]

end Asn1
