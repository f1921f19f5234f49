import Verif.Lemmas.PatchList

/-! # Changing a loaded structure -/

namespace Asn1
open Spec Props

mutual
/-- The instance is in the state described. -/
inductive Stands (E : Env) (N : Nat) : Params → Val → Doc → Prop
  | fresh {p : Params} {c : ClassId} {t : TLV} {i : Info} {v : Val} :
      i.tlv = t → (∀ j ≥ N, (ops E j).build i (some c) p none = .ok v) → Stands E N p v (.loaded c none t)
  | opened {p : Params} {c : ClassId} {o : Obj Unit} {cs : List Child} {m : Bool} {ds : List Doc} {proto : Obj Unit} {bad : List Nat}
      {fields : List Field} {oid : Option OidPair} :
      E.cls c = .seq proto bad false fields oid → NodeObj (effTag (proto.cls, proto.tag) p).1 (effTag (proto.cls, proto.tag) p).2 p.explicit o →
      headerEnds80 o.header = false → (Val.node c o (some cs) m).isMutated = true → cs.length = fields.length → ds.length = fields.length →
      (∀ k f ch d, fields[k]? = some f → cs[k]? = some ch → ds[k]? = some d → Stood E N (Decider oid k) f ch d) →
      Stands E N p (.node c o (some cs) m) (.seq c ds)
  | listed {p : Params} {c : ClassId} {o : Obj Unit} {cs : List Child} {m : Bool} {ds : List Doc} {proto : Obj Unit} {bad : List Nat} {isSet : Bool}
      {ch : ClassId} :
      E.cls c = .seqOf proto bad isSet (some ch) →
      NodeObj (effTag (proto.cls, proto.tag) p).1 (effTag (proto.cls, proto.tag) p).2 p.explicit o →
      headerEnds80 o.header = false → (Val.node c o (some cs) m).isMutated = true → cs.length = ds.length →
      (∀ (k : Nat) kid d, cs[k]? = some kid → ds[k]? = some d → StoodAll E N kid d) → Stands E N p (.node c o (some cs) m) (.list c ds)
/-- The child is in the state described. -/
inductive Stood (E : Env) (N : Nat) : Prop → Field → Child → Doc → Prop
  | settled {read : Prop} {f : Field} {ch : Child} {d : Doc} {b : Bytes} : Settled E N read f ch d b → Stood E N read f ch d
  | opened {read : Prop} {f : Field} {v : Val} {d : Doc} : f.params.default = none → d.plain = none → Stands E N f.params v d → Stood E N read f (.val v) d
/-- The element is in the state described. -/
inductive StoodAll (E : Env) (N : Nat) : Child → Doc → Prop
  | settled {ch : Child} {d : Doc} {b : Bytes} : SettledItem E N ch d b → StoodAll E N ch d
  | opened {v : Val} {d : Doc} : d.plain = none → Stands E N {} v d → StoodAll E N (.val v) d
end

theorem Stands.changed {E : Env} {N : Nat} {p : Params} {v : Val} {d : Doc} (h : Stands E N p v d) (hd : d.plain = none) :
    v.isMutated = true ∧ ∃ c o cs m, v = .node c o cs m := by
  cases h with
  | fresh => cases hd
  | opened h1 h2 h3 h4 => exact ⟨h4, _, _, _, _, rfl⟩
  | listed h1 h2 h3 h4 => exact ⟨h4, _, _, _, _, rfl⟩

/-! ### Assigned values -/

theorem field_given_makes {E : Env} {U : ClassId → Prop} (hT : Types E U) (hM : Makable E U) {f : Field} {x : PyVal} {t : TLV} {n : PyVal}
    (h : FieldGiven E U f .same x t n) (hu : Usable E U f.spec f.params) : FieldMakes E f .same x t n := by
  have hp : PickOk E U f .same := trivial
  cases h with
  | plain h1 h2 h3 h4 => exact field_plain hT h1 h2 (gives_makes hT hM h3 hu.mem) h4 hu hp
  | entry h2 h3 h4 => exact field_entry hT h2 (gives_makes hT hM h3 hu.mem) h4 hu hp
  | inst h1 h2 h3 h4 => exact field_inst hT h1 h2 (gives_makes hT hM h3 hu.mem) h4 hu hp
  | alternative h1 h2 h3 h4 h5 h6 h7 => exact field_alternative hT h1 h2 h4 (gives_makes hT hM h5 h3) h6 h7 hu hp
  | any h1 h2 h3 h4 h5 h6 h7 h8 h9 => exact field_any h1 h2 h4 h6 (gives_makes hT hM h7 (hT.universal _ _ h3)) h8 h9 hu

/-- What is put into the field. -/
def Sets (E : Env) (f : Field) (x : PyVal) (d : Doc) : Prop :=
  ∃ M v0 nv cs, ∀ j ≥ M, makeValue E (ops E j) f.spec f.spec f.params x = .ok v0 ∧ assignedContents E (ops E j) v0 = .ok (some cs, nv) ∧
    ∀ read, ∃ b, Settled E M read f (.val nv) d b

theorem sets_seat {E : Env} {f : Field} {free : Prop} {x : PyVal} {d : Doc} {v0 nv w : Val} {cs b : Bytes} {n : PyVal} (hd : d.plain = some b)
    (hl : ∀ c nested t, d ≠ .loaded c nested t) (h1 : Ev (fun j => makeValue E (ops E j) f.spec f.spec f.params x = .ok v0))
    (h2 : Ev (fun j => assignedContents E (ops E j) v0 = .ok (some cs, nv))) (h3 : Seat E f free nv b n w) : Sets E f x d := by
  obtain ⟨M, hM⟩ := (h1.and h2).and h3.enc
  refine ⟨M, v0, nv, cs, fun j hj => ⟨(hM j hj).1.1, (hM j hj).1.2, fun read => ⟨b, hd, fun j hj => ⟨_, (hM j hj).2⟩, fun h => ?_,
    fun c nested t h => absurd h (hl c nested t)⟩⟩⟩
  exact h3.void (.inl (by cases nv <;> first | rfl | cases h))

theorem decides_nothing : Decides none [] .same := rfl

theorem assigns_sets {E : Env} {U : ClassId → Prop} (hT : Types E U) (hM : Makable E U) {f : Field} {x : PyVal} {d : Doc}
    (h : Assigns E U f x d) (hu : Usable E U f.spec f.params) : Sets E f x d := by
  cases h with
  | given h1 h2 =>
    obtain ⟨v, nv, w, cs, m1, m2, m3, m4⟩ := field_given_makes hT hM h1 hu
    exact sets_seat rfl (fun _ _ _ h => by cases h) m1 m2 (seat_given h2 decides_nothing m3 m4)
  | other h1 h2 h3 h4 h5 h6 h7 =>
    obtain ⟨v, nv, w, cs, m1, m2, m3, m4⟩ := field_given_makes hT hM h1 hu
    obtain ⟨dv, _, _, w0, _, _, _, d1, d2, _⟩ := made_default hT hu h2 h3 h4 (gives_makes hT hM h5 hu.mem) h6
    exact sets_seat rfl (fun _ _ _ h => by cases h) m1 m2 (seat_default (free := True) h2 m3 d1 d2 (by rw [if_neg h7]))
  | same h1 h2 h3 h4 h5 h6 h7 =>
    obtain ⟨v, nv, w, cs, m1, m2, m3, m4⟩ := field_given_makes hT hM h1 hu
    obtain ⟨dv, _, _, w0, _, _, _, d1, d2, _⟩ := made_default hT hu h2 h3 h4 (gives_makes hT hM h5 hu.mem) h6
    exact sets_seat rfl (fun _ _ _ h => by cases h) m1 m2 (seat_default (free := True) h2 m3 d1 d2 (by rw [if_pos h7]))
  | reset h2 h3 h4 h5 h6 =>
    obtain ⟨dv, v1, nv, w0, w1, w, cs, d1, d2, d3, d4, d5, d6⟩ := made_default hT hu h2 h3 h4 (gives_makes hT hM h5 hu.mem) h6
    exact sets_seat rfl (fun _ _ _ h => by cases h) d3 d4 (seat_default (free := True) h2 d6 d1 d2 (by rw [if_pos rfl]))
  | none h1 h2 =>
    refine ⟨1, .void, .void, [], fun j hj => ?_⟩
    obtain ⟨j, rfl⟩ : ∃ k, j = k + 1 := ⟨j - 1, by omega⟩
    refine ⟨by unfold makeValue; rw [h1], rfl, fun read => ⟨[], rfl, fun j hj => ⟨.val .void, ?_⟩, fun _ => by simp [h1], fun c nested t h => by cases h⟩⟩
    obtain ⟨j, rfl⟩ : ∃ k, j = k + 1 := ⟨j - 1, by omega⟩
    have : (ops E (j + 1)).dump .void false = .ok ([], .void) := rfl
    unfold fieldEncoding
    simp only [this, h2, bind, Except.bind]

/-! ### Opening -/

/-- The structure can be looked into. -/
structure Open (E : Env) (N j : Nat) (p : Params) (v : Val) (c : ClassId) (proto : Obj Unit) (fields : List Field) (oid : Option OidPair) (ds : List Doc)
    (o : Obj Unit) (ch : Option (List Child)) (m : Bool) (cs : List Child) : Prop where
  node : v = .node c o ch m
  ensure : ensureChildren E (ops E j) c o ch = .ok cs
  obj : NodeObj (effTag (proto.cls, proto.tag) p).1 (effTag (proto.cls, proto.tag) p).2 p.explicit o
  h80 : headerEnds80 o.header = false
  len : cs.length = fields.length
  docs : ds.length = fields.length
  rows : ∀ k f ch d, fields[k]? = some f → cs[k]? = some ch → ds[k]? = some d → Stood E N (Decider oid k) f ch d

theorem opens_to {E : Env} {U : ClassId → Prop} (hT : Types E U) (hM : Makable E U) {p : Params} {d : Doc} {c : ClassId} {ds : List Doc}
    {proto : Obj Unit} {bad : List Nat} {fields : List Field} {oid : Option OidPair} (hc : E.cls c = .seq proto bad false fields oid)
    (h : OpensTo E U p d c ds) :
    ∃ N0, ∀ N ≥ N0, ∀ v, Stands E N p v d → ∀ j ≥ N, ∃ o ch m cs, Open E N j p v c proto fields oid ds o ch m cs := by
  cases h with
  | seq =>
    refine ⟨0, fun N _ v hs j hj => ?_⟩
    cases hs with
    | @opened _ _ o cs m _ proto' bad' fields' oid' h1 h2 h3 h4 h5 h6 h7 =>
      rw [hc] at h1
      injection h1 with e1 e2 _ e3 e4
      subst e1; subst e2; subst e3; subst e4
      exact ⟨o, some cs, m, cs, rfl, rfl, h2, h3, h5, h6, h7⟩
  | @loaded _ t u _ proto' bad' fields' oid' g1 g2 g3 g4 g5 g6 g7 g8 =>
    rw [hc] at g3
    injection g3 with e1 e2 _ e3 e4
    subst e1; subst e2; subst e3; subst e4
    obtain ⟨hlen, N0, hN0⟩ := parse_opened hT hM g1.mem hc g8
    refine ⟨N0 + 1, fun N hN v hs j hj => ?_⟩
    cases hs with
    | @fresh _ _ _ i _ h1 h2 =>
      obtain ⟨pre, post, o, o1, o2, o3, o4, o5, o6⟩ := build_seq_framed hT g1 g2 hc g5 g6 h1
      have hv : v = .node c o none false := by
        have e1 := h2 N (Nat.le_refl N)
        obtain ⟨M, rfl⟩ : ∃ k, N = k + 1 := ⟨N - 1, by omega⟩
        rw [o2 M] at e1
        injection e1 with e1
        exact e1.symm
      obtain ⟨cs, c1, c2⟩ := hN0 N (by omega) j hj
      refine ⟨o, none, false, cs, hv, ?_, o3, by rw [o4]; exact ends80_ok (framed_ber g5) g7 pre, by rw [c2.1, hlen], hlen, fun k f ch d h1 h2 h3 => ?_⟩
      · simp only [ensureChildren, parseChildren, hc, o5, c1]
      · obtain ⟨b, hb⟩ := c2.2 k f ch d h1 h2 h3
        exact .settled hb

/-- The list can be looked into. -/
structure OpenList (E : Env) (N j : Nat) (p : Params) (v : Val) (c : ClassId) (proto : Obj Unit) (ds : List Doc)
    (o : Obj Unit) (ch : Option (List Child)) (m : Bool) (cs : List Child) : Prop where
  node : v = .node c o ch m
  ensure : ensureChildren E (ops E j) c o ch = .ok cs
  obj : NodeObj (effTag (proto.cls, proto.tag) p).1 (effTag (proto.cls, proto.tag) p).2 p.explicit o
  h80 : headerEnds80 o.header = false
  len : cs.length = ds.length
  rows : ∀ (k : Nat) kid d, cs[k]? = some kid → ds[k]? = some d → StoodAll E N kid d

theorem list_opens {E : Env} {U : ClassId → Prop} (hT : Types E U) {p : Params} {d : Doc} {c ch : ClassId} {ds : List Doc}
    {proto : Obj Unit} {bad : List Nat} {isSet : Bool} (hc : E.cls c = .seqOf proto bad isSet (some ch)) (h : ListOpens E U p d c ds) :
    ∀ N ≥ 1, ∀ v, Stands E N p v d → ∀ j ≥ N, ∃ o kids m cs, OpenList E N j p v c proto ds o kids m cs := by
  cases h with
  | list =>
    intro N _ v hs j hj
    cases hs with
    | @listed _ _ o cs m _ proto' bad' isSet' ch' h1 h2 h3 h4 h5 h6 =>
      rw [hc] at h1
      injection h1 with e1 e2 e3 e4
      subst e1; subst e2; subst e3; cases e4
      exact ⟨o, some cs, m, cs, rfl, rfl, h2, h3, h5, h6⟩
  | @loaded _ ch' t u _ proto' bad' isSet' g1 g2 g3 g5 g6 g7 g8 =>
    rw [hc] at g3
    injection g3 with e1 e2 e3 e4
    subst e1; subst e2; subst e3; cases e4
    intro N hN v hs j hj
    cases hs with
    | @fresh _ _ _ i _ h1 h2 =>
      obtain ⟨pre, post, o, o1, o2, o3, o4, o5, o6⟩ := build_list_framed hT g1 g2 hc g5 g6 h1
      have hv : v = .node c o none false := by
        have e1 := h2 N (Nat.le_refl N)
        obtain ⟨M, rfl⟩ : ∃ k, N = k + 1 := ⟨N - 1, by omega⟩
        rw [o2 M] at e1
        injection e1 with e1
        exact e1.symm
      obtain ⟨cs, c1, c2, c3⟩ := list_opened hT ((hT.seqOf _ _ _ _ _ g1.mem hc).2 ch rfl) g8
      refine ⟨o, none, false, cs, hv, ?_, o3, by rw [o4]; exact ends80_ok (framed_ber g5) g7 pre, c2, fun k kid d h1 h2 => ?_⟩
      · simp only [ensureChildren, parseChildren, hc, o5, c1]
      · obtain ⟨b, hb⟩ := c3 k kid d h1 h2
        exact .settled (hb.mono hN)

/-- What is opened from a loaded element is a container. -/
theorem docEdit_opens {E : Env} {U : ClassId → Prop} (hT : Types E U) {p : Params} {d d' : Doc} {e : Edit} (h : DocEdit E U p d e d') :
    (d.plain = none ∨ ∃ c t, d = .loaded c none t ∧ ∀ i : Info, i.tlv = t → ∃ v, ∀ j, (ops E (j + 1)).build i (some c) p none = .ok v) ∧ d'.plain = none := by
  have seq : ∀ {p d c ds}, OpensTo E U p d c ds →
      (d.plain = none ∨ ∃ c t, d = .loaded c none t ∧ ∀ i : Info, i.tlv = t → ∃ v, ∀ j, (ops E (j + 1)).build i (some c) p none = .ok v) := by
    intro p d c ds h
    cases h with
    | seq => exact .inl rfl
    | loaded g1 g2 g3 g4 g5 g6 g7 g8 =>
      refine .inr ⟨_, _, rfl, fun i hi => ?_⟩
      obtain ⟨pre, post, o', _, b2, _⟩ := build_seq_framed hT g1 g2 g3 g5 g6 hi
      exact ⟨_, b2⟩
  have list : ∀ {p d c ds}, ListOpens E U p d c ds →
      (d.plain = none ∨ ∃ c t, d = .loaded c none t ∧ ∀ i : Info, i.tlv = t → ∃ v, ∀ j, (ops E (j + 1)).build i (some c) p none = .ok v) := by
    intro p d c ds h
    cases h with
    | list => exact .inl rfl
    | loaded g1 g2 g3 g5 g6 g7 g8 =>
      refine .inr ⟨_, _, rfl, fun i hi => ?_⟩
      obtain ⟨pre, post, o', _, b2, _⟩ := build_list_framed hT g1 g2 g3 g5 g6 hi
      exact ⟨_, b2⟩
  cases h with
  | set h => exact ⟨seq h, rfl⟩
  | delOptional h => exact ⟨seq h, rfl⟩
  | delDefault h => exact ⟨seq h, rfl⟩
  | inside h => exact ⟨seq h, rfl⟩
  | setElement h => exact ⟨list h, rfl⟩
  | setEnd h => exact ⟨list h, rfl⟩
  | append h => exact ⟨list h, rfl⟩
  | delElement h => exact ⟨list h, rfl⟩
  | insideElement h => exact ⟨list h, rfl⟩

/-! ### Changes -/

/-- Another child at a position. -/
theorem Open.set {E : Env} {N j : Nat} {p : Params} {v : Val} {c : ClassId} {proto : Obj Unit} {bad : List Nat} {fields : List Field} {oid : Option OidPair}
    {ds : List Doc} {o : Obj Unit} {ch : Option (List Child)} {m : Bool} {cs : List Child} (hc : E.cls c = .seq proto bad false fields oid)
    (h : Open E N j p v c proto fields oid ds o ch m cs) {k : Nat} {f : Field} (hf : fields[k]? = some f) {nv : Val} {d : Doc}
    (hk : Stood E N (Decider oid k) f (.val nv) d) {m' : Bool} (hm : (Val.node c o (some (cs.set k (.val nv))) m').isMutated = true) :
    Stands E N p (.node c o (some (cs.set k (.val nv))) m') (.seq c (ds.set k d)) := by
  refine .opened hc h.obj h.h80 hm (by simp [h.len]) (by simp [h.docs]) (fun k' f' ch' d' h1 h2 h3 => ?_)
  rw [List.getElem?_set] at h2 h3
  by_cases hkk : k = k'
  · subst hkk
    have hlt : k < fields.length := (List.getElem?_eq_some_iff.mp hf).1
    rw [if_pos rfl, if_pos (by rw [h.len]; exact hlt)] at h2
    rw [if_pos rfl, if_pos (by rw [h.docs]; exact hlt)] at h3
    rw [hf] at h1
    cases h1; cases h2; cases h3
    exact hk
  · rw [if_neg hkk] at h2 h3
    exact h.rows k' f' ch' d' h1 h2 h3

/-- Other children of a list. -/
theorem OpenList.change {E : Env} {N j : Nat} {p : Params} {v : Val} {c ch : ClassId} {proto : Obj Unit} {bad : List Nat} {isSet : Bool}
    {ds ds' : List Doc} {o : Obj Unit} {kids : Option (List Child)} {m m' : Bool} {cs cs' : List Child} (hc : E.cls c = .seqOf proto bad isSet (some ch))
    (h : OpenList E N j p v c proto ds o kids m cs) (hm : (Val.node c o (some cs') m').isMutated = true) (hl : cs'.length = ds'.length)
    (hk : ∀ (k : Nat) kid d, cs'[k]? = some kid → ds'[k]? = some d → StoodAll E N kid d) : Stands E N p (.node c o (some cs') m') (.list c ds') :=
  .listed hc h.obj h.h80 hm hl hk

theorem held_set {E : Env} {N : Nat} {cs : List Child} {ds : List Doc} (hl : cs.length = ds.length)
    (h : ∀ (k : Nat) kid d, cs[k]? = some kid → ds[k]? = some d → StoodAll E N kid d) {k : Nat} {kid : Child} {d : Doc} (hk : StoodAll E N kid d) :
    ∀ (k' : Nat) kid' d', (cs.set k kid)[k']? = some kid' → (ds.set k d)[k']? = some d' → StoodAll E N kid' d' := by
  intro k' kid' d' h2 h3
  rw [List.getElem?_set] at h2 h3
  by_cases hkk : k = k'
  · subst hkk
    rw [if_pos rfl] at h2 h3
    split at h2
    · split at h3
      · cases h2; cases h3; exact hk
      · cases h3
    · cases h2
  · rw [if_neg hkk] at h2 h3
    exact h k' kid' d' h2 h3

theorem held_append {E : Env} {N : Nat} {cs : List Child} {ds : List Doc} (hl : cs.length = ds.length)
    (h : ∀ (k : Nat) kid d, cs[k]? = some kid → ds[k]? = some d → StoodAll E N kid d) {kid : Child} {d : Doc} (hk : StoodAll E N kid d) :
    ∀ (k' : Nat) kid' d', (cs ++ [kid])[k']? = some kid' → (ds ++ [d])[k']? = some d' → StoodAll E N kid' d' := by
  intro k' kid' d' h2 h3
  by_cases hlt : k' < cs.length
  · rw [List.getElem?_append_left hlt] at h2
    rw [List.getElem?_append_left (by omega)] at h3
    exact h k' kid' d' h2 h3
  · rw [List.getElem?_append_right (by omega)] at h2
    rw [List.getElem?_append_right (by omega), ← hl] at h3
    cases hi : k' - cs.length with
    | zero =>
      rw [hi] at h2 h3
      cases h2; cases h3; exact hk
    | succ i => rw [hi] at h2; simp at h2

theorem held_erase {E : Env} {N : Nat} {cs : List Child} {ds : List Doc}
    (h : ∀ (k : Nat) kid d, cs[k]? = some kid → ds[k]? = some d → StoodAll E N kid d) (k : Nat) :
    ∀ (k' : Nat) kid' d', (cs.eraseIdx k)[k']? = some kid' → (ds.eraseIdx k)[k']? = some d' → StoodAll E N kid' d' := by
  intro k' kid' d' h2 h3
  rw [List.getElem?_eraseIdx] at h2 h3
  split at h2
  · rw [if_pos ‹_›] at h3
    exact h _ _ _ h2 h3
  · rw [if_neg ‹_›] at h3
    exact h _ _ _ h2 h3

theorem edit_stands {E : Env} {U : ClassId → Prop} (hT : Types E U) (hM : Makable E U) {p : Params} {d d' : Doc} {e : Edit} (h : DocEdit E U p d e d') :
    ∃ M, ∀ N ≥ M, ∀ v, Stands E N p v d → ∀ j ≥ N, ∃ v', runEdit E (ops E j) e v = .ok v' ∧ Stands E N p v' d' := by
  have setting : ∀ {p c d ds k x f d' proto bad fields oid}, OpensTo E U p d c ds → U c → E.cls c = .seq proto bad false fields oid → fields[k]? = some f →
      ¬ Decided oid k → Assigns E U f x d' → ∃ M, ∀ N ≥ M, ∀ v, Stands E N p v d → ∀ j ≥ N, ∃ v', setField E (ops E j) v k x = .ok v' ∧
        Stands E N p v' (.seq c (ds.set k d')) := by
    intro p c d ds k x f d' proto bad fields oid h1 h2 h3 h4 h5 h6
    obtain ⟨N0, hN0⟩ := opens_to hT hM h3 h1
    have hu := (hT.seq _ _ _ _ _ _ h2 h3).2.1 f (List.mem_of_getElem? h4)
    obtain ⟨M, v0, nv, cs', hM'⟩ := assigns_sets hT hM h6 hu
    refine ⟨max N0 M, fun N hN v hs j hj => ?_⟩
    obtain ⟨o, ch, m, cs, hop⟩ := hN0 N (by omega) v hs j hj
    obtain ⟨k1, k2, k3⟩ := hM' j (by omega)
    obtain ⟨b, hb⟩ := k3 (Decider oid k)
    have hfree : Free oid k := fun q hq he => h5 ⟨q, hq, he⟩
    refine ⟨.node c o (some (cs.set k (.val nv))) true, ?_, hop.set h3 h4 (.settled (hb.mono (by omega) id)) (by rw [isMutated_node]; rfl)⟩
    rw [hop.node]
    unfold setField
    simp only [h3, hop.ensure, h4, oidOverride_free hfree, Pick.fieldSpec, Pick.valueSpec, k1, k2, bind, Except.bind]
    rw [if_pos (by rw [hop.len]; exact (List.getElem?_eq_some_iff.mp h4).1)]
  induction h with
  | set h1 h2 h3 h4 h5 h6 => exact setting h1 h2 h3 h4 h5 h6
  | @delOptional p c d ds k f proto bad fields oid h1 h2 h3 h4 h5 h6 =>
    obtain ⟨N0, hN0⟩ := opens_to hT hM h3 h1
    refine ⟨max N0 1, fun N hN v hs j hj => ?_⟩
    obtain ⟨o, ch, m, cs, hop⟩ := hN0 N (by omega) v hs j hj
    refine ⟨.node c o (some (cs.set k (.val .void))) true, ?_, hop.set h3 h4 (.settled (b := []) ⟨rfl, fun j hj => ⟨.val .void, ?_⟩, fun _ => by simp [h5],
      fun c nested t h => by cases h⟩) (by rw [isMutated_node]; rfl)⟩
    · rw [hop.node]
      simp only [runEdit, delField, h3, hop.ensure, h4, h5, bind, Except.bind, if_true]
      rw [if_pos (by rw [hop.len]; exact (List.getElem?_eq_some_iff.mp h4).1)]
    · obtain ⟨j, rfl⟩ : ∃ k, j = k + 1 := ⟨j - 1, by omega⟩
      have : (ops E (j + 1)).dump .void false = .ok ([], .void) := rfl
      unfold fieldEncoding
      simp only [this, h6, bind, Except.bind]
  | @delDefault p c d d' ds k f proto bad fields oid h1 h2 h3 h4 h5 h6 h7 =>
    have hnd : ¬ Decided oid k := by
      rintro ⟨q, rfl, rfl⟩
      have := (hM.pair _ _ _ _ _ _ h2 h3).1 f h4
      rw [this] at h6; cases h6
    obtain ⟨M, hM'⟩ := setting h1 h2 h3 h4 hnd h7
    obtain ⟨N0, hN0⟩ := opens_to hT hM h3 h1
    refine ⟨max M N0, fun N hN v hs j hj => ?_⟩
    obtain ⟨v', k1, k2⟩ := hM' N (by omega) v hs j hj
    obtain ⟨o, ch, m, cs, hop⟩ := hN0 N (by omega) v hs j hj
    refine ⟨v', ?_, k2⟩
    rw [hop.node] at k1 ⊢
    simp only [runEdit, delField, h3, hop.ensure, h4, h5, h6, bind, Except.bind, if_true, Bool.false_eq_true, if_false]
    exact k1
  | @inside p c d d1 d2 ds k e f proto bad fields oid h1 h2 h3 h4 h5 h6 h7 h8 ih =>
    obtain ⟨N0, hN0⟩ := opens_to hT hM h3 h1
    obtain ⟨M, hM'⟩ := ih
    obtain ⟨hop1, hd2⟩ := docEdit_opens hT h8
    refine ⟨max (max N0 M) 1, fun N hN v hs j hj => ?_⟩
    obtain ⟨o, ch, m, cs, hop⟩ := hN0 N (by omega) v hs j hj
    have hlt : k < fields.length := (List.getElem?_eq_some_iff.mp h4).1
    obtain ⟨kid, hkid⟩ : ∃ kid, cs[k]? = some kid := ⟨_, List.getElem?_eq_getElem (h := by rw [hop.len]; exact hlt)⟩
    have hst := hop.rows k f kid d1 h4 hkid h7
    -- the child
    obtain ⟨x, x1, x2⟩ : ∃ x, buildChild (ops E j) f.params kid = .ok x ∧ Stands E N f.params x d1 := by
      cases hst with
      | settled h =>
        rcases hop1 with hop1 | ⟨c1, t, rfl, hb⟩
        · have := h.plain; rw [hop1] at this; cases this
        · obtain ⟨i, hi, rfl⟩ := h.pending _ _ _ rfl h6
          obtain ⟨x, hx⟩ := hb i hi
          have hb : ∀ j ≥ N, (ops E j).build i (some c1) f.params none = .ok x := by
            intro j hj
            obtain ⟨j, rfl⟩ : ∃ k, j = k + 1 := ⟨j - 1, by omega⟩
            exact hx j
          exact ⟨_, hb j hj, .fresh hi hb⟩
      | opened g1 g2 g3 => exact ⟨_, rfl, g3⟩
    obtain ⟨x', y1, y2⟩ := hM' N (by omega) x x2 j hj
    obtain ⟨y3, _⟩ := y2.changed hd2
    have hget : getItem E (ops E j) v k = .ok (x, .node c o (some (cs.set k (.val x))) m) := by
      rw [hop.node]
      have hpar : paramsAt fields k = f.params := by simp [paramsAt, h4]
      simp only [Asn1.getItem, hop.ensure, hkid, h3, hpar, x1, bind, Except.bind]
    refine ⟨.node c o (some (cs.set k (.val x'))) m, ?_, hop.set h3 h4 (.opened h5 hd2 y2) ?_⟩
    · simp only [runEdit, hget, y1, bind, Except.bind, putChild, List.set_set]
    · rw [isMutated_node, childrenMutated_set_val (by rw [hop.len]; exact hlt) y3, Bool.or_true]
  | @setElement p c ch d ds k x n t proto bad isSet h1 h2 h3 h4 h5 =>
    obtain ⟨M, u, hM'⟩ := element_given hT hM ((hT.seqOf _ _ _ _ _ h2 h3).2 ch rfl).mem h5
    refine ⟨max M 1, fun N hN v hs j hj => ?_⟩
    obtain ⟨o, kids, m, cs, hop⟩ := list_opens hT h3 h1 N (by omega) v hs j hj
    obtain ⟨k1, k2⟩ := hM' j (by omega)
    refine ⟨.node c o (some (cs.set k (.val u))) true, ?_, hop.change h3 (by rw [isMutated_node]; rfl) (by simp [hop.len])
      (held_set hop.len hop.rows (.settled (k2.mono (by omega))))⟩
    rw [hop.node]
    simp only [runEdit, Asn1.setElement, h3, hop.ensure, k1, bind, Except.bind]
    rw [if_neg (by rw [hop.len]; omega), if_pos (by rw [hop.len]; omega)]
  | @setEnd p c ch d ds x n t proto bad isSet h1 h2 h3 h5 =>
    obtain ⟨M, u, hM'⟩ := element_given hT hM ((hT.seqOf _ _ _ _ _ h2 h3).2 ch rfl).mem h5
    refine ⟨max M 1, fun N hN v hs j hj => ?_⟩
    obtain ⟨o, kids, m, cs, hop⟩ := list_opens hT h3 h1 N (by omega) v hs j hj
    obtain ⟨k1, k2⟩ := hM' j (by omega)
    refine ⟨.node c o (some (cs ++ [.val u])) true, ?_, hop.change h3 (by rw [isMutated_node]; rfl) (by simp [hop.len])
      (held_append hop.len hop.rows (.settled (k2.mono (by omega))))⟩
    rw [hop.node]
    simp only [runEdit, Asn1.setElement, h3, hop.ensure, k1, bind, Except.bind]
    rw [if_pos hop.len.symm]
  | @append p c ch d ds x n t proto bad isSet h1 h2 h3 h5 =>
    obtain ⟨M, u, hM'⟩ := element_given hT hM ((hT.seqOf _ _ _ _ _ h2 h3).2 ch rfl).mem h5
    refine ⟨max M 1, fun N hN v hs j hj => ?_⟩
    obtain ⟨o, kids, m, cs, hop⟩ := list_opens hT h3 h1 N (by omega) v hs j hj
    obtain ⟨k1, k2⟩ := hM' j (by omega)
    refine ⟨.node c o (some (cs ++ [.val u])) true, ?_, hop.change h3 (by rw [isMutated_node]; rfl) (by simp [hop.len])
      (held_append hop.len hop.rows (.settled (k2.mono (by omega))))⟩
    rw [hop.node]
    simp only [runEdit, appendItem, h3, hop.ensure, k1, bind, Except.bind]
  | @delElement p c ch d ds k proto bad isSet h1 h2 h3 h4 =>
    refine ⟨1, fun N hN v hs j hj => ?_⟩
    obtain ⟨o, kids, m, cs, hop⟩ := list_opens hT h3 h1 N (by omega) v hs j hj
    refine ⟨.node c o (some (cs.eraseIdx k)) true, ?_, hop.change h3 (by rw [isMutated_node]; rfl) (by simp [List.length_eraseIdx, hop.len])
      (held_erase hop.rows k)⟩
    rw [hop.node]
    simp only [runEdit, Asn1.delElement, h3, hop.ensure, bind, Except.bind]
    rw [if_pos (by rw [hop.len]; omega)]
  | @insideElement p c ch d d1 d2 ds k e proto bad isSet h1 h2 h3 h7 h8 ih =>
    obtain ⟨M, hM'⟩ := ih
    obtain ⟨hop1, hd2⟩ := docEdit_opens hT h8
    refine ⟨max M 1, fun N hN v hs j hj => ?_⟩
    obtain ⟨o, kids, m, cs, hop⟩ := list_opens hT h3 h1 N (by omega) v hs j hj
    have hlt : k < cs.length := by rw [hop.len]; exact (List.getElem?_eq_some_iff.mp h7).1
    obtain ⟨kid, hkid⟩ : ∃ kid, cs[k]? = some kid := ⟨_, List.getElem?_eq_getElem (h := hlt)⟩
    have hst := hop.rows k kid d1 hkid h7
    obtain ⟨x, x1, x2⟩ : ∃ x, buildChild (ops E j) {} kid = .ok x ∧ Stands E N {} x d1 := by
      cases hst with
      | settled h =>
        rcases hop1 with hop1 | ⟨c1, t, rfl, hb⟩
        · have := h.plain; rw [hop1] at this; cases this
        · obtain ⟨i, hi, rfl⟩ := h.pending _ _ _ rfl
          obtain ⟨x, hx⟩ := hb i hi
          have hb : ∀ j ≥ N, (ops E j).build i (some c1) {} none = .ok x := by
            intro j hj
            obtain ⟨j, rfl⟩ : ∃ k, j = k + 1 := ⟨j - 1, by omega⟩
            exact hx j
          exact ⟨_, hb j hj, .fresh hi hb⟩
      | opened g1 g3 => exact ⟨_, rfl, g3⟩
    obtain ⟨x', y1, y2⟩ := hM' N (by omega) x x2 j hj
    obtain ⟨y3, _⟩ := y2.changed hd2
    have hget : getItem E (ops E j) v k = .ok (x, .node c o (some (cs.set k (.val x))) m) := by
      rw [hop.node]
      simp only [Asn1.getItem, hop.ensure, hkid, h3, x1, bind, Except.bind]
    refine ⟨.node c o (some (cs.set k (.val x'))) m, ?_, hop.change h3 ?_ (by simp [hop.len]) (held_set hop.len hop.rows (.opened hd2 y2))⟩
    · simp only [runEdit, hget, y1, bind, Except.bind, putChild, List.set_set]
    · rw [isMutated_node, childrenMutated_set_val hlt y3, Bool.or_true]

theorem edits_stand {E : Env} {U : ClassId → Prop} (hT : Types E U) (hM : Makable E U) {p : Params} {d d' : Doc} {es : List Edit} (h : DocEdits E U p d es d') :
    ∃ M, ∀ N ≥ M, ∀ v, Stands E N p v d → ∀ j ≥ N, ∃ v', runEdits E (ops E j) es v = .ok v' ∧ Stands E N p v' d' := by
  induction h with
  | nil => exact ⟨0, fun N _ v hs j _ => ⟨v, rfl, hs⟩⟩
  | cons h1 _ ih =>
    obtain ⟨M1, k1⟩ := edit_stands hT hM h1
    obtain ⟨M2, k2⟩ := ih
    refine ⟨max M1 M2, fun N hN v hs j hj => ?_⟩
    obtain ⟨v1, a1, a2⟩ := k1 N (by omega) v hs j hj
    obtain ⟨v2, b1, b2⟩ := k2 N (by omega) v1 a2 j hj
    exact ⟨v2, by simp only [runEdits, a1, bind, Except.bind, b1], b2⟩

/-! ### Writing -/

theorem settled_bytes {E : Env} {p : Params} {d : Doc} {b b' : List UInt8} (h : DocBytes E p d b) (h' : d.plain = some b') : b' = b := by
  cases h with
  | plain hp => rw [hp] at h'; exact (Option.some.inj h').symm
  | seq => cases h'
  | list => cases h'
  | setOf => cases h'

theorem dump_stands {E : Env} {p : Params} {d : Doc} {b : List UInt8} (h : DocBytes E p d b) (N : Nat) :
    ∃ K, ∀ v, d.plain = none → Stands E N p v d → ∀ j ≥ K, ∃ w, (ops E j).dump v false = .ok (b, w) := by
  have node : ∀ {c : ClassId} {o : Obj Unit} {cs : List Child} {m : Bool} {d : Nat × Nat} {p : Params} {t u : TLV} {K : Nat},
      NodeObj (effTag d p).1 (effTag d p).2 p.explicit o → headerEnds80 o.header = false → (Val.node c o (some cs) m).isMutated = true →
      DerFramed d p t u → u.method = 1 → checkRequired E c (some cs) = .ok () →
      (∀ j ≥ K, ∃ cs', encodeChildren E (ops E j) c false cs = .ok (u.contents, cs')) →
      ∀ j ≥ K + 1, ∃ w, (ops E j).dump (.node c o (some cs) m) false = .ok (t.bytes, w) := by
    intro c o cs m d p t u N g2 g3 g4 h2 h3 hreq henc j hj
    obtain ⟨j, rfl⟩ : ∃ k, j = k + 1 := ⟨j - 1, by omega⟩
    obtain ⟨cs', r3⟩ := henc j (by omega)
    have hid := h2.ident
    obtain ⟨o', w1, _⟩ := g2.write (b := u.contents) h2.inside (by rw [effTag, ← hid]) h3 (by rw [effTag, ← hid]) rfl
    refine ⟨.node c o' (some cs') false, ?_⟩
    rw [ops_dump]
    simp only [dumpStep, nodeDump, g3, Bool.or_false, Bool.false_and, Bool.false_eq_true, if_false, hreq, nodeContents, g4, if_true, setContents,
      ensureChildren, r3, w1, bind, Except.bind]
  refine DocBytes.rec (E := E) (motive_1 := fun p d b _ => ∃ K, ∀ v, d.plain = none → Stands E N p v d → ∀ j ≥ K, ∃ w, (ops E j).dump v false = .ok (b, w))
    (motive_2 := fun fs ds b _ => ∃ K, ∀ (read : Nat → Prop) cs, cs.length = fs.length →
      (∀ k f ch d, fs[k]? = some f → cs[k]? = some ch → ds[k]? = some d → Stood E N (read k) f ch d) →
      requiredPresent fs cs = .ok () ∧ ∀ j ≥ K, ∃ cs', encodeFields (ops E j) false fs cs = .ok (b, cs'))
    (motive_3 := fun ds bs _ => ∃ K, ∀ cs, cs.length = ds.length → (∀ (k : Nat) ch d, cs[k]? = some ch → ds[k]? = some d → StoodAll E N ch d) →
      ∀ j ≥ K, ∃ cs', encodeElements (ops E j) false cs = .ok (bs, cs')) ?_ ?_ ?_ ?_ ?_ ?_ ?_ ?_ h
  · rintro p d b h
    refine ⟨0, fun v hd _ => ?_⟩
    rw [h] at hd; cases hd
  · rintro p c ds t u proto bad fields oid h1 h2 h3 _ ⟨K, ih⟩
    refine ⟨K + 1, fun v _ hs => ?_⟩
    cases hs with
    | @opened _ _ o cs m _ proto' bad' fields' oid' g1 g2 g3 g4 g5 g6 g7 =>
      rw [h1] at g1
      injection g1 with e1 e2 _ e3 e4
      subst e1; subst e2; subst e3; subst e4
      obtain ⟨r1, r2⟩ := ih _ cs g5 g7
      refine node g2 g3 g4 h2 h3 (by simp only [checkRequired, h1, r1]) (K := K) (fun j hj => ?_)
      obtain ⟨cs', r3⟩ := r2 j hj
      exact ⟨cs', by simp only [encodeChildren, h1, r3]⟩
  · rintro p c ch ds t u bs proto bad h1 h2 h3 _ h5 ⟨K, ih⟩
    refine ⟨K + 1, fun v _ hs => ?_⟩
    cases hs with
    | @listed _ _ o cs m _ proto' bad' isSet' ch' g1 g2 g3 g4 g5 g6 =>
      rw [h1] at g1
      injection g1 with e1 e2 e3 e4
      subst e1; subst e2; subst e3; cases e4
      refine node g2 g3 g4 h2 h3 (by simp only [checkRequired, h1]) (K := K) (fun j hj => ?_)
      obtain ⟨cs', r3⟩ := ih cs g5 g6 j hj
      exact ⟨cs', by simp only [encodeChildren, h1, r3, bind, Except.bind, h5]⟩
  · rintro p c ch ds t u bs bs' proto bad h1 h2 h3 _ h5 h6 ⟨K, ih⟩
    refine ⟨K + 1, fun v _ hs => ?_⟩
    cases hs with
    | @listed _ _ o cs m _ proto' bad' isSet' ch' g1 g2 g3 g4 g5 g6 =>
      rw [h1] at g1
      injection g1 with e1 e2 e3 e4
      subst e1; subst e2; subst e3; cases e4
      refine node g2 g3 g4 h2 h3 (by simp only [checkRequired, h1]) (K := K) (fun j hj => ?_)
      obtain ⟨cs', r3⟩ := ih cs g5 g6 j hj
      have := h5.unique (sort_ascending bs)
      exact ⟨cs', by simp only [encodeChildren, h1, r3, bind, Except.bind, h6, this]⟩
  · refine ⟨0, fun read cs hl _ => ?_⟩
    have : cs = [] := List.length_eq_zero_iff.mp hl
    subst this
    exact ⟨rfl, fun j _ => ⟨[], rfl⟩⟩
  · rintro f fs d ds b bs hdb _ ⟨K', ih1⟩ ⟨K, ih2⟩
    refine ⟨max (max K K') N, fun read cs hl hk => ?_⟩
    cases cs with
    | nil => cases hl
    | cons ch cs =>
      obtain ⟨r1, r2⟩ := ih2 (fun k => read (k + 1)) cs (by simpa using hl) (fun k f' ch' d' h1 h2 h3 => hk (k + 1) f' ch' d' h1 h2 h3)
      have hst := hk 0 f ch d rfl rfl rfl
      obtain ⟨hv, r3⟩ : (ch.isVoid = true → (f.params.default.isSome || f.params.optional) = true) ∧
          ∀ j ≥ max K' N, ∃ ch', fieldEncoding (ops E j) false f ch = .ok (b, ch') := by
        cases hst with
        | @settled _ _ _ _ b' h =>
          have hb := settled_bytes hdb h.plain
          subst hb
          exact ⟨h.void, fun j hj => h.enc j (by omega)⟩
        | @opened _ _ v d h1 h2 h3 =>
          refine ⟨fun h => ?_, fun j hj => ?_⟩
          · obtain ⟨_, _, _, _, _, rfl⟩ := h3.changed h2
            cases h
          · obtain ⟨w, hw⟩ := ih1 v h2 h3 j (by omega)
            refine ⟨.val w, ?_⟩
            unfold fieldEncoding
            simp only [hw, h1, bind, Except.bind]
      refine ⟨?_, fun j hj => ?_⟩
      · rw [requiredPresent_iff] at r1 ⊢
        refine ⟨by simpa using r1.1, fun i g ch' hg hc' hv' => ?_⟩
        cases i with
        | zero =>
          have e1 : f = g := Option.some.inj hg
          have e2 : ch = ch' := Option.some.inj hc'
          subst e1; subst e2
          exact hv hv'
        | succ i => exact r1.2 i g ch' (by simpa using hg) (by simpa using hc') hv'
      · obtain ⟨cs', a1⟩ := r2 j (by omega)
        obtain ⟨ch', a2⟩ := r3 j (by omega)
        exact ⟨ch' :: cs', by simp only [encodeFields, a1, a2, bind, Except.bind]⟩
  · refine ⟨0, fun cs hl _ j _ => ?_⟩
    have : cs = [] := List.length_eq_zero_iff.mp hl
    subst this
    exact ⟨[], rfl⟩
  · rintro d ds b bs hdb _ ⟨K', ih1⟩ ⟨K, ih2⟩
    refine ⟨max (max K K') N, fun cs hl hk j hj => ?_⟩
    cases cs with
    | nil => cases hl
    | cons ch cs =>
      have hst := hk 0 ch d rfl rfl
      obtain ⟨v, w, a2, a3⟩ : ∃ v w, buildChild (ops E j) {} ch = .ok v ∧ (ops E j).dump v false = .ok (b, w) := by
        cases hst with
        | @settled _ _ b' h =>
          have hb := settled_bytes hdb h.plain
          subst hb
          exact h.enc j (by omega)
        | @opened v d h2 h3 =>
          obtain ⟨w, hw⟩ := ih1 v h2 h3 j (by omega)
          exact ⟨v, w, rfl, hw⟩
      obtain ⟨cs', a1⟩ := ih2 cs (by simpa using hl) (fun k ch' d' h2 h3 => hk (k + 1) ch' d' h2 h3) j (by omega)
      exact ⟨.val w :: cs', by simp only [encodeElements, a1, a2, a3, bind, Except.bind]⟩

end Asn1
