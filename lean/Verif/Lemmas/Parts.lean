import Verif.Spec.Parts
import Verif.Lemmas.Der
import Verif.Props.C20

/-! # The parts of the encoding of a SEQUENCE -/

namespace Asn1
open Spec Props

theorem fieldEncoding_parts {r : Ops} {f : Field} {ch ch' : Child} {w : Bytes} (h : fieldEncoding r false f ch = .ok (w, ch')) :
    ∃ b, ChildBytes r ch b ∧ ((DefaultBytes r f b ∧ w = []) ∨ (¬ DefaultBytes r f b ∧ w = b)) := by
  have out : ∀ {b0 : Bytes} {ch0 : Child},
      (match f.params.default with
        | none => (.ok (b0, ch0) : Py (Bytes × Child))
        | some _ => do
          let d ← r.construct f.spec f.params (.scalar .none)
          let (db, _) ← r.dump d false
          .ok (if db = b0 then [] else b0, ch0)) = .ok (w, ch') →
      (DefaultBytes r f b0 ∧ w = []) ∨ (¬ DefaultBytes r f b0 ∧ w = b0) := by
    intro b0 ch0 h
    cases hdf : f.params.default with
    | none => rw [hdf] at h; cases h; exact .inr ⟨fun h => h.1 hdf, rfl⟩
    | some dv =>
      rw [hdf] at h
      simp only [bind, Except.bind] at h
      cases hc : r.construct f.spec f.params (.scalar .none) with
      | error e => rw [hc] at h; cases h
      | ok d =>
        rw [hc] at h
        simp only at h
        cases hdd : r.dump d false with
        | error e => rw [hdd] at h; cases h
        | ok x =>
          obtain ⟨db, d'⟩ := x
          rw [hdd] at h
          simp only at h
          by_cases he : db = b0
          · rw [if_pos he] at h
            cases h
            subst he
            exact .inl ⟨⟨by rw [hdf]; simp, d, d', hc, hdd⟩, rfl⟩
          · rw [if_neg he] at h
            cases h
            refine .inr ⟨?_, rfl⟩
            rintro ⟨_, d2, d2', k1, k2⟩
            rw [hc] at k1
            cases k1
            rw [hdd] at k2
            cases k2
            exact he rfl
  unfold fieldEncoding at h
  cases ch with
  | lazy i s n =>
    simp only [bind, Except.bind] at h
    exact ⟨_, .loaded, out h⟩
  | val v =>
    simp only [bind, Except.bind] at h
    cases hd : r.dump v false with
    | error e => rw [hd] at h; cases h
    | ok x =>
      obtain ⟨b, v'⟩ := x
      rw [hd] at h
      exact ⟨b, .value hd, out h⟩

theorem encodeFields_parts {r : Ops} : ∀ {fs : List Field} {cs cs' : List Child} {b : Bytes}, encodeFields r false fs cs = .ok (b, cs') →
    ∃ cs1 cs2 ws, cs = cs1 ++ cs2 ∧ Parts r fs cs1 ws ∧ b = ws.flatten
  | [], cs, cs', b, h => by
    cases h
    exact ⟨[], cs, [], rfl, .nil, rfl⟩
  | f :: fs, [], cs', b, h => by cases h
  | f :: fs, ch :: cs, cs', b, h => by
    simp only [encodeFields, bind, Except.bind] at h
    cases h1 : fieldEncoding r false f ch with
    | error e => rw [h1] at h; cases h
    | ok x =>
      obtain ⟨b1, ch1⟩ := x
      rw [h1] at h
      simp only at h
      cases h2 : encodeFields r false fs cs with
      | error e => rw [h2] at h; cases h
      | ok y =>
        obtain ⟨b2, cs2⟩ := y
        rw [h2] at h
        cases h
        obtain ⟨c1, c2, ws, rfl, k2, rfl⟩ := encodeFields_parts h2
        obtain ⟨b0, k3, k4⟩ := fieldEncoding_parts h1
        rcases k4 with ⟨k4, rfl⟩ | ⟨k4, rfl⟩
        · exact ⟨ch :: c1, c2, [] :: ws, rfl, .omitted k3 k4 k2, by simp⟩
        · exact ⟨ch :: c1, c2, b1 :: ws, rfl, .included k3 k4 k2, by simp⟩

theorem dump_parts {E : Env} {n : Nat} {c : ClassId} {proto : Obj Unit} {bad : List Nat} {fields : List Field} {oid : Option OidPair}
    (hE : E.cls c = .seq proto bad false fields oid) {o : Obj Unit} (ho : ClassObj (bare o) 1) (h80 : headerEnds80 o.header = false) {cs : List Child}
    {m : Bool} (hm : (Val.node c o (some cs) m).isMutated = true) {b : Bytes} {v' : Val} (hd : (ops E (n + 1)).dump (.node c o (some cs) m) false = .ok (b, v'))
    (hf : Fits b) : ∃ cs1 cs2 ws, cs = cs1 ++ cs2 ∧ Parts (ops E n) fields cs1 ws ∧ Encoded o.explicit o.cls 1 o.tag ws.flatten b := by
  have hd : nodeDump E (ops E n) c o (some cs) m false = .ok (b, v') := hd
  unfold nodeDump at hd
  simp only [h80, Bool.or_false, Bool.false_and, Bool.false_eq_true, if_false, bind, Except.bind, nodeContents, hm, if_true] at hd
  cases h1 : checkRequired E c (some cs) with
  | error e => rw [h1] at hd; cases hd
  | ok u =>
    rw [h1] at hd
    simp only [setContents, ensureChildren, encodeChildren, hE, bind, Except.bind] at hd
    cases h2 : encodeFields (ops E n) false fields cs with
    | error e => rw [h2] at hd; cases hd
    | ok x =>
      obtain ⟨data, cs'⟩ := x
      rw [h2] at hd
      simp only at hd
      cases h3 : asn1Dump false { o with contents := some data, header := none, trailer := [] } with
      | error e => rw [h3] at hd; cases hd
      | ok y =>
        obtain ⟨b', o'⟩ := y
        rw [h3] at hd
        cases hd
        obtain ⟨c1, c2, ws, rfl, k2, rfl⟩ := encodeFields_parts h2
        have henc := (asn1Dump_encoded (o := { o with contents := some ws.flatten, header := none, trailer := [] }) (c := ws.flatten) rfl rfl
          ho.fresh.indefinite ho.cls (by show o.method < 2; rw [show o.method = 1 from ho.method]; decide) ho.explicit h3 hf).1
        simp only [show o.method = 1 from ho.method] at henc
        exact ⟨c1, c2, ws, rfl, k2, henc⟩

theorem encodeSetFields_parts {r : Ops} : ∀ {fs : List Field} {cs cs' : List Child} {es : List (Option Nat × Bytes)},
    encodeSetFields r false fs cs = .ok (es, cs') → SetParts r fs cs es
  | _, [], cs', es, h => by
    simp only [encodeSetFields] at h
    cases h
    exact .nil
  | [], _ :: _, _, _, h => by cases h
  | _ :: _, .lazy _ _ _ :: _, _, _, h => by cases h
  | f :: fs, .val v :: chs, cs', es, h => by
    unfold encodeSetFields at h
    obtain ⟨⟨b, v'⟩, h1, h⟩ := py_bind.mp h
    have fin : ∀ {skip : Bool}, (skip = true ↔ DefaultBytes r f b) →
        (encodeSetFields r false fs chs >>= fun x => (.ok (if skip = true then x.1 else (v'.tagging.2.1, b) :: x.1, Child.val v' :: x.2) : Py _)) = .ok (es, cs') →
        SetParts r (f :: fs) (.val v :: chs) es := by
      intro skip key h
      obtain ⟨⟨es', chs'⟩, h3, h⟩ := py_bind.mp h
      have ih := encodeSetFields_parts h3
      cases h
      by_cases hs : skip = true
      · rw [if_pos hs]
        exact .omitted h1 (key.mp hs) ih
      · rw [if_neg hs]
        exact .included h1 (fun h => hs (key.mpr h)) ih
    dsimp only at h
    cases hdf : f.params.default with
    | none =>
      rw [hdf] at h
      exact fin (skip := false) ⟨fun h => (by cases h), fun h => absurd hdf h.1⟩ h
    | some dv =>
      rw [hdf] at h
      obtain ⟨d, k1, h⟩ := py_bind.mp h
      obtain ⟨⟨db, d'⟩, k2, h⟩ := py_bind.mp h
      refine fin (skip := decide (db = b)) ?_ h
      rw [decide_eq_true_iff]
      constructor
      · rintro rfl
        exact ⟨by rw [hdf]; simp, d, d', k1, k2⟩
      · rintro ⟨_, e, e', l1, l2⟩
        rw [k1] at l1
        cases l1
        rw [k2] at l2
        cases l2
        rfl

theorem sortByTag_perm {es : List (Option Nat × Bytes)} {bs : List Bytes} (h : sortByTag es = .ok bs) :
    ∃ es', es'.Perm es ∧ ByTag es' ∧ bs = es'.map Prod.snd := by
  unfold sortByTag at h
  split at h
  · cases h
  · next hn =>
    cases h
    refine ⟨_, List.mergeSort_perm es _, ?_, rfl⟩
    by_cases hl : es.length ≤ 1
    · exact .inl (by rw [List.length_mergeSort]; exact hl)
    · right
      have hall : ∀ e ∈ es, e.1 ≠ none := by
        intro e he hne
        refine hn ⟨by omega, List.any_eq_true.mpr ⟨e, he, by rw [hne]; rfl⟩⟩
      have hp := List.pairwise_mergeSort (le := fun a b : Option Nat × Bytes => decide (a.1.getD 0 ≤ b.1.getD 0))
        (fun a b c h1 h2 => by simp only [decide_eq_true_eq] at *; omega) (fun a b => by simp only [Bool.or_eq_true, decide_eq_true_eq]; omega) es
      refine ⟨(es.mergeSort (fun a b => decide (a.1.getD 0 ≤ b.1.getD 0))).map (fun e => (e.1.getD 0, e.2)), ?_, ?_⟩
      · rw [List.map_map]
        conv => lhs; rw [← List.map_id (es.mergeSort _)]
        refine List.map_congr_left (fun e he => ?_)
        have := hall e ((List.mergeSort_perm es _).mem_iff.mp he)
        obtain ⟨x, y⟩ := e
        cases x with
        | none => exact absurd rfl this
        | some x => rfl
      · rw [List.pairwise_map]
        exact hp.imp (fun h => by simpa using h)

theorem dump_set_parts {E : Env} {n : Nat} {c : ClassId} {proto : Obj Unit} {bad : List Nat} {fields : List Field} {oid : Option OidPair}
    (hE : E.cls c = .seq proto bad true fields oid) {o : Obj Unit} (ho : ClassObj (bare o) 1) (h80 : headerEnds80 o.header = false) {cs : List Child}
    {m : Bool} (hm : (Val.node c o (some cs) m).isMutated = true) {b : Bytes} {v' : Val} (hd : (ops E (n + 1)).dump (.node c o (some cs) m) false = .ok (b, v'))
    (hf : Fits b) : ∃ es es', SetParts (ops E n) fields cs es ∧ es'.Perm es ∧ ByTag es' ∧ Encoded o.explicit o.cls 1 o.tag (es'.map Prod.snd).flatten b := by
  have hd : nodeDump E (ops E n) c o (some cs) m false = .ok (b, v') := hd
  unfold nodeDump at hd
  simp only [h80, Bool.or_false, Bool.false_and, Bool.false_eq_true, if_false, bind, Except.bind, nodeContents, hm, if_true] at hd
  cases h1 : checkRequired E c (some cs) with
  | error e => rw [h1] at hd; cases hd
  | ok u =>
    rw [h1] at hd
    simp only [setContents, ensureChildren, encodeChildren, hE, bind, Except.bind] at hd
    cases h2 : encodeSetFields (ops E n) false fields cs with
    | error e => rw [h2] at hd; cases hd
    | ok x =>
      obtain ⟨es, cs'⟩ := x
      rw [h2] at hd
      simp only at hd
      cases h4 : sortByTag es with
      | error e => rw [h4] at hd; cases hd
      | ok bs =>
      rw [h4] at hd
      simp only at hd
      obtain ⟨es', k1, k2, rfl⟩ := sortByTag_perm h4
      cases h3 : asn1Dump false { o with contents := some (es'.map Prod.snd).flatten, header := none, trailer := [] } with
      | error e => rw [h3] at hd; cases hd
      | ok y =>
        obtain ⟨b', o'⟩ := y
        rw [h3] at hd
        cases hd
        have henc := (asn1Dump_encoded (o := { o with contents := some (es'.map Prod.snd).flatten, header := none, trailer := [] })
          (c := (es'.map Prod.snd).flatten) rfl rfl
          ho.fresh.indefinite ho.cls (by show o.method < 2; rw [show o.method = 1 from ho.method]; decide) ho.explicit h3 hf).1
        simp only [show o.method = 1 from ho.method] at henc
        exact ⟨es, es', encodeSetFields_parts h2, k1, k2, henc⟩

theorem dump_set_ok {E : Env} {n : Nat} {c : ClassId} {proto : Obj Unit} {bad : List Nat} {fields : List Field} {oid : Option OidPair}
    (hE : E.cls c = .seq proto bad true fields oid) {o : Obj Unit} (h80 : headerEnds80 o.header = false) {cs cs' : List Child}
    {m : Bool} (hm : (Val.node c o (some cs) m).isMutated = true) {es : List (Option Nat × Bytes)} {bs : List Bytes} {b : Bytes} {o' : Obj Unit}
    (h1 : checkRequired E c (some cs) = .ok ()) (h2 : encodeSetFields (ops E n) false fields cs = .ok (es, cs')) (h3 : sortByTag es = .ok bs)
    (h4 : asn1Dump false { o with contents := some bs.flatten, header := none, trailer := [] } = .ok (b, o')) :
    ∃ v', (ops E (n + 1)).dump (.node c o (some cs) m) false = .ok (b, v') := by
  refine ⟨.node c o' (some cs') false, ?_⟩
  show nodeDump E (ops E n) c o (some cs) m false = _
  unfold nodeDump
  simp only [h80, Bool.or_false, Bool.false_and, Bool.false_eq_true, if_false, bind, Except.bind, nodeContents, hm, if_true, h1, setContents, ensureChildren,
    encodeChildren, hE, h2, h3, h4]

/-! ### Assignments -/

theorem oidOverride_other {r : Ops} {fields : List Field} {oid : Option OidPair} {k : Nat} {cs : List Child} (h : ∀ p, oid = some p → p.value ≠ k) :
    oidOverride r fields oid k cs = .ok (.same, cs) := by
  unfold oidOverride
  cases oid with
  | none => rfl
  | some p => simp only [h p rfl, if_false]

theorem setField_iff {E : Env} {r : Ops} {w : Val} {k : Nat} {x : PyVal} {c : ClassId} {o : Obj Unit} {ch : Option (List Child)} {m : Bool}
    {proto : Obj Unit} {bad : List Nat} {isSet : Bool} {fields : List Field} {oid : Option OidPair} (hE : E.cls c = .seq proto bad isSet fields oid)
    (ho : ∀ p, oid = some p → p.value ≠ k) :
    setField E r (.node c o ch m) k x = .ok w ↔ ∃ cs f nv b nv', ensureChildren E r c o ch = .ok cs ∧ fields[k]? = some f ∧
      makeValue E r f.spec f.spec f.params x = .ok nv ∧ assignedContents E r nv = .ok (some b, nv') ∧ k < cs.length ∧
      w = .node c o (some (cs.set k (.val nv'))) true := by
  constructor
  · intro h
    simp only [setField, hE, bind, Except.bind] at h
    cases h1 : ensureChildren E r c o ch with
    | error e => rw [h1] at h; cases h
    | ok cs =>
      rw [h1] at h
      simp only at h
      cases h2 : fields[k]? with
      | none => rw [h2] at h; cases h
      | some f =>
        rw [h2] at h
        simp only [oidOverride_other ho, Pick.fieldSpec, Pick.valueSpec] at h
        cases h3 : makeValue E r f.spec f.spec f.params x with
        | error e => rw [h3] at h; cases h
        | ok nv =>
          rw [h3] at h
          simp only at h
          cases h4 : assignedContents E r nv with
          | error e => rw [h4] at h; cases h
          | ok y =>
            obtain ⟨b, nv'⟩ := y
            rw [h4] at h
            simp only at h
            cases b with
            | none => cases h
            | some b =>
              simp only at h
              by_cases hk : k < cs.length
              · rw [if_pos hk] at h
                cases h
                exact ⟨cs, f, nv, b, nv', rfl, rfl, h3, h4, hk, rfl⟩
              · rw [if_neg hk] at h
                cases h
  · rintro ⟨cs, f, nv, b, nv', h1, h2, h3, h4, h5, rfl⟩
    simp only [setField, hE, bind, Except.bind, h1, h2, oidOverride_other ho, Pick.fieldSpec, Pick.valueSpec, h3, h4, h5, if_true]

/-- Assignments to two fields can be made in either order. -/
theorem setField_comm {E : Env} {r : Ops} {v v1 v2 : Val} {j k : Nat} {x y : PyVal} {c : ClassId} {o : Obj Unit} {ch : Option (List Child)} {m : Bool}
    {proto : Obj Unit} {bad : List Nat} {isSet : Bool} {fields : List Field} {oid : Option OidPair} (hE : E.cls c = .seq proto bad isSet fields oid)
    (hj : ∀ p, oid = some p → p.value ≠ j) (hk : ∀ p, oid = some p → p.value ≠ k) (hne : j ≠ k) (hv : v = .node c o ch m)
    (h1 : setField E r v j x = .ok v1) (h2 : setField E r v1 k y = .ok v2) :
    ∃ w, setField E r v k y = .ok w ∧ setField E r w j x = .ok v2 := by
  subst hv
  obtain ⟨cs, f, nv, b, nv', a1, a2, a3, a4, a5, rfl⟩ := (setField_iff hE hj).mp h1
  obtain ⟨cs', f', mv, b', mv', b1, b2, b3, b4, b5, rfl⟩ := (setField_iff hE hk).mp h2
  cases b1
  refine ⟨_, (setField_iff hE hk).mpr ⟨cs, f', mv, b', mv', a1, b2, b3, b4, by simpa using b5, rfl⟩, (setField_iff hE hj).mpr ⟨_, f, nv, b, nv', rfl, a2, a3, a4,
    by simpa using a5, ?_⟩⟩
  rw [List.set_comm _ _ hne]

theorem setField_changed {E : Env} {r : Ops} {v w : Val} {k : Nat} {x : PyVal} (h : setField E r v k x = .ok w) :
    ∃ c o ch m proto bad isSet fields oid cs, v = .node c o ch m ∧ E.cls c = .seq proto bad isSet fields oid ∧ w = .node c o (some cs) true := by
  unfold setField at h
  split at h
  · next c o ch m =>
    split at h
    · next proto bad isSet fields oid hE =>
      simp only [bind, Except.bind] at h
      cases h1 : ensureChildren E r c o ch with
      | error e => rw [h1] at h; cases h
      | ok cs =>
        rw [h1] at h
        simp only at h
        cases h2 : fields[k]? with
        | none => rw [h2] at h; cases h
        | some f =>
          rw [h2] at h
          simp only at h
          cases h3 : oidOverride r fields oid k cs with
          | error e => rw [h3] at h; cases h
          | ok y =>
            obtain ⟨ov, cs1⟩ := y
            rw [h3] at h
            simp only at h
            cases h4 : makeValue E r (ov.fieldSpec f.spec) (ov.valueSpec f.spec) f.params x with
            | error e => rw [h4] at h; cases h
            | ok nv =>
              rw [h4] at h
              simp only at h
              cases h5 : assignedContents E r nv with
              | error e => rw [h5] at h; cases h
              | ok z =>
                obtain ⟨b, nv'⟩ := z
                rw [h5] at h
                simp only at h
                cases b with
                | none => cases h
                | some b =>
                  simp only at h
                  by_cases hk : k < cs1.length
                  · rw [if_pos hk] at h
                    cases h
                    exact ⟨_, _, _, _, _, _, _, _, _, _, rfl, hE, rfl⟩
                  · rw [if_neg hk] at h
                    cases h
    · cases h
  · cases h

theorem assignAll_perm {E : Env} {r : Ops} {c : ClassId} {proto : Obj Unit} {bad : List Nat} {isSet : Bool} {fields : List Field} {oid : Option OidPair}
    (hE : E.cls c = .seq proto bad isSet fields oid) {es es' : List (Nat × PyVal)} (hp : es.Perm es') :
    ∀ {v w : Val} {o : Obj Unit} {ch : Option (List Child)} {m : Bool}, (es.map Prod.fst).Nodup → (∀ p, oid = some p → p.value ∉ es.map Prod.fst) →
      v = .node c o ch m → assignAll E r es v = .ok w → assignAll E r es' v = .ok w := by
  induction hp with
  | nil => intro v w o ch m _ _ _ h; exact h
  | @cons e l l' _ ih =>
    intro v w o ch m hnd ho hv h
    simp only [assignAll, bind, Except.bind] at h ⊢
    cases h1 : setField E r v e.1 e.2 with
    | error e => rw [h1] at h; cases h
    | ok v1 =>
      rw [h1] at h
      simp only at h ⊢
      subst hv
      obtain ⟨c2, _, _, _, _, _, _, _, _, cs, hv, _, rfl⟩ := setField_changed h1
      cases hv
      simp only [List.map_cons, List.nodup_cons] at hnd
      exact ih hnd.2 (fun p hp hm => ho p hp (by simp only [List.map_cons, List.mem_cons]; exact .inr hm)) rfl h
  | swap a b l =>
    intro v w o ch m hnd ho hv h
    simp only [assignAll, bind, Except.bind] at h ⊢
    cases h1 : setField E r v b.1 b.2 with
    | error e => rw [h1] at h; cases h
    | ok v1 =>
      rw [h1] at h
      simp only at h
      cases h2 : setField E r v1 a.1 a.2 with
      | error e => rw [h2] at h; cases h
      | ok v2 =>
        rw [h2] at h
        simp only at h
        simp only [List.map_cons, List.nodup_cons, List.mem_cons, not_or] at hnd
        obtain ⟨u, k1, k2⟩ := setField_comm hE (fun p hp he => ho p hp (by simp [he])) (fun p hp he => ho p hp (by simp [he])) hnd.1.1 hv h1 h2
        rw [k1]
        simp only [k2]
        exact h
  | trans h1 _ ih1 ih2 =>
    intro v w o ch m hnd ho hv h
    refine ih2 ?_ ?_ hv (ih1 hnd ho hv h)
    · exact (h1.map Prod.fst).nodup_iff.mp hnd
    · intro p hp hm
      exact ho p hp ((h1.map Prod.fst).mem_iff.mpr hm)

theorem find_perm {d d' : List (String × PyVal)} (hp : d.Perm d') (hn : (d.map Prod.fst).Nodup) (k : String) :
    d.find? (fun e => e.1 == k) = d'.find? (fun e => e.1 == k) := by
  have hn' := (hp.map Prod.fst).nodup_iff.mp hn
  have key : ∀ {l : List (String × PyVal)} {e : String × PyVal}, (l.map Prod.fst).Nodup →
      (l.find? (fun e => e.1 == k) = some e ↔ e ∈ l ∧ e.1 = k) := by
    intro l e hl
    induction l with
    | nil => simp
    | cons a l ih =>
      simp only [List.map_cons, List.nodup_cons] at hl
      rw [List.find?_cons]
      by_cases ha : a.1 = k
      · simp only [ha, beq_self_eq_true, List.mem_cons]
        constructor
        · intro h; cases h; exact ⟨.inl rfl, ha⟩
        · rintro ⟨rfl | h, he⟩
          · rfl
          · exact absurd (List.mem_map.mpr ⟨e, h, he.trans ha.symm⟩) hl.1
      · simp only [show (a.1 == k) = false from by simpa using ha, ih hl.2, List.mem_cons]
        constructor
        · rintro ⟨h, he⟩; exact ⟨.inr h, he⟩
        · rintro ⟨rfl | h, he⟩
          · exact absurd he ha
          · exact ⟨h, he⟩
  cases h1 : d.find? (fun e => e.1 == k) with
  | some e => exact ((key hn').mpr ⟨hp.mem_iff.mp ((key hn).mp h1).1, ((key hn).mp h1).2⟩).symm
  | none =>
    cases h2 : d'.find? (fun e => e.1 == k) with
    | none => rfl
    | some e =>
      rw [(key hn).mpr ⟨hp.mem_iff.mpr ((key hn').mp h2).1, ((key hn').mp h2).2⟩] at h1
      cases h1

theorem setFromDict_perm {E : Env} {r : Ops} {d d' : List (String × PyVal)} {sk : Bool} (h : ∀ k, d.find? (fun e => e.1 == k) = d'.find? (fun e => e.1 == k)) :
    ∀ (fs : List Field) (i : Nat) (v : Val), setFromDict E r d sk fs i v = setFromDict E r d' sk fs i v
  | [], _, _ => rfl
  | f :: fs, i, v => by
    simp only [setFromDict, h f.name, setFromDict_perm h fs]

theorem construct_perm {E : Env} {n : Nat} {c : ClassId} {p : Params} {d d' : List (String × PyVal)} (hp : d.Perm d') (hn : (d.map Prod.fst).Nodup)
    {proto : Obj Unit} {bad : List Nat} {isSet : Bool} {fields : List Field} {oid : Option OidPair} (hE : E.cls c = .seq proto bad isSet fields oid) :
    (ops E n).construct c p (.dict d) = (ops E n).construct c p (.dict d') := by
  cases n with
  | zero => rfl
  | succ n =>
    show constructStep E (ops E n) c p (.dict d) = constructStep E (ops E n) c p (.dict d')
    have hall : d.all (fun e => fields.any (fun f => f.name == e.1)) = d'.all (fun e => fields.any (fun f => f.name == e.1)) := by
      rw [Bool.eq_iff_iff, List.all_eq_true, List.all_eq_true]
      exact ⟨fun h e he => h e (hp.mem_iff.mpr he), fun h e he => h e (hp.mem_iff.mp he)⟩
    simp only [constructStep, hE, givenValue, seqInit, setFromDict_perm (find_perm hp hn), hall]

/-! ### Changed instances -/

theorem delField_changed {E : Env} {r : Ops} {v w : Val} {k : Nat} (h : delField E r v k = .ok w) : ∃ c o cs, w = .node c o (some cs) true := by
  unfold delField at h
  split at h
  · next c o ch m =>
    split at h
    · next proto bad isSet fields oid hE =>
      simp only [bind, Except.bind] at h
      cases h1 : ensureChildren E r c o ch with
      | error e => rw [h1] at h; cases h
      | ok cs =>
        rw [h1] at h
        simp only at h
        cases h2 : fields[k]? with
        | none => rw [h2] at h; cases h
        | some f =>
          rw [h2] at h
          simp only at h
          by_cases ho : f.params.optional = true
          · rw [if_pos ho] at h
            by_cases hk : k < cs.length
            · rw [if_pos hk] at h
              cases h
              exact ⟨_, _, _, rfl⟩
            · rw [if_neg hk] at h; cases h
          · rw [if_neg ho] at h
            by_cases hd : f.params.default.isSome = true
            · rw [if_pos hd] at h
              obtain ⟨_, _, _, _, _, _, _, _, _, _, _, _, rfl⟩ := setField_changed h
              exact ⟨_, _, _, rfl⟩
            · rw [if_neg hd] at h; cases h
    · cases h
  · cases h

theorem node_mutated {c : ClassId} {o : Obj Unit} {cs : List Child} : (Val.node c o (some cs) true).isMutated = true := by
  rw [isMutated_node]; rfl

theorem setFromDict_mutated {E : Env} {r : Ops} {d : List (String × PyVal)} : ∀ {fs : List Field} {i : Nat} {v w : Val},
    setFromDict E r d false fs i v = .ok w → ((∃ f ∈ fs, d.find? (fun e => e.1 == f.name) ≠ none) ∨ v.isMutated = true) → w.isMutated = true
  | [], i, v, w, h, hm => by
    cases h
    rcases hm with ⟨_, hf, _⟩ | hm
    · cases hf
    · exact hm
  | f :: fs, i, v, w, h, hm => by
    simp only [setFromDict, Bool.false_and, Bool.false_eq_true, if_false] at h
    cases h1 : d.find? (fun e => e.1 == f.name) with
    | none =>
      rw [h1] at h
      refine setFromDict_mutated h ?_
      rcases hm with ⟨g, hg, hm⟩ | hm
      · rcases List.mem_cons.mp hg with rfl | hg
        · exact absurd h1 hm
        · exact .inl ⟨g, hg, hm⟩
      · exact .inr hm
    | some e =>
      rw [h1] at h
      simp only [bind, Except.bind] at h
      cases h2 : setField E r v i e.2 with
      | error e => rw [h2] at h; cases h
      | ok v1 =>
        rw [h2] at h
        obtain ⟨_, _, _, _, _, _, _, _, _, _, _, _, rfl⟩ := setField_changed h2
        exact setFromDict_mutated h (.inr node_mutated)

theorem setFromDict_same {E : Env} {r : Ops} {d : List (String × PyVal)} {c : ClassId} {o : Obj Unit} : ∀ {fs : List Field} {i : Nat}
    {ch : Option (List Child)} {m : Bool} {w : Val}, (ch = none → m = false) → setFromDict E r d false fs i (.node c o ch m) = .ok w →
    ∃ ch' m', w = .node c o ch' m' ∧ (ch' = none → m' = false)
  | [], i, ch, m, w, hm, h => by
    cases h
    exact ⟨_, _, rfl, hm⟩
  | f :: fs, i, ch, m, w, hm, h => by
    simp only [setFromDict, Bool.false_and, Bool.false_eq_true, if_false] at h
    cases h1 : d.find? (fun e => e.1 == f.name) with
    | none => rw [h1] at h; exact setFromDict_same hm h
    | some e =>
      rw [h1] at h
      simp only [bind, Except.bind] at h
      cases h2 : setField E r (.node c o ch m) i e.2 with
      | error e => rw [h2] at h; cases h
      | ok v1 =>
        rw [h2] at h
        obtain ⟨_, _, _, _, _, _, _, _, _, _, hv, _, rfl⟩ := setField_changed h2
        cases hv
        exact setFromDict_same (fun h => by cases h) h

/-- An instance made from a dict with an entry for some field is re-encoded when it is dumped. -/
theorem construct_changed {E : Env} {n : Nat} {c : ClassId} {p : Params} {d : List (String × PyVal)} {proto : Obj Unit} {bad : List Nat} {isSet : Bool}
    {fields : List Field} {oid : Option OidPair} (hE : E.cls c = .seq proto bad isSet fields oid) (hd : ∃ f ∈ fields, ∃ e ∈ d, e.1 = f.name) {v : Val}
    (h : (ops E n).construct c p (.dict d) = .ok v) : ∃ cs m, v = .node c (initTagging proto p.tags) (some cs) m ∧ v.isMutated = true := by
  cases n with
  | zero => cases h
  | succ n =>
    have h : constructStep E (ops E n) c p (.dict d) = .ok v := h
    simp only [constructStep, hE, givenValue, seqInit, bind, Except.bind] at h
    cases h1 : setFromDict E (ops E n) d false fields 0 (.node c (initTagging proto p.tags) none false) with
    | error e => rw [h1] at h; cases h
    | ok w =>
      rw [h1] at h
      simp only at h
      split at h
      · cases h
        obtain ⟨ch', m', rfl, hn⟩ := setFromDict_same (fun _ => rfl) h1
        have hm := setFromDict_mutated h1 (.inl (by
          obtain ⟨f, hf, e, he, hn⟩ := hd
          refine ⟨f, hf, fun hx => ?_⟩
          have := List.find?_eq_none.mp hx e he
          simp [hn] at this))
        cases ch' with
        | none => rw [hn rfl, Val.isMutated] at hm; cases hm
        | some cs => exact ⟨cs, m', rfl, hm⟩
      · cases h

end Asn1
