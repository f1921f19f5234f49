import Verif.Lemmas.Keep

/-! # Loading without losing bytes, and reading without disturbing -/

namespace Asn1
open Spec

/-- An element inside a longer byte string is found as it is. -/
theorem ber_prefix {v w : TLV} {a rest : Bytes} (hv : Ber 11 v) (hw : Ber 11 w) (h : v.bytes = a ++ v.trailer)
    (ha : a = w.bytes ++ rest) : w = v ∧ rest = [] ∧ v.trailer = [] := by
  have := Ber_unique (r := []) (r' := rest ++ v.trailer) hv hw (by rw [List.append_nil, h, ha]; simp)
  obtain ⟨h1, h2⟩ := this
  rw [eq_comm, List.append_eq_nil_iff] at h2
  exact ⟨h1.symm, h2.1, h2.2⟩

theorem ber_whole {v w : TLV} {rest : Bytes} (hv : Ber 11 v) (hw : Ber 11 w) (h : v.bytes = w.bytes ++ rest) :
    w = v ∧ rest = [] := by
  obtain ⟨h1, h2⟩ := Ber_unique (r := []) (r' := rest) hv hw (by rw [List.append_nil, h])
  exact ⟨h1.symm, h2.symm⟩

theorem ber_header_ne {n : Nat} {v : TLV} (h : Ber n v) : v.header ≠ [] := by
  cases h with
  | definite h1 h2 => simp [Ident_ne_nil h1]
  | indefinite vs h1 _ _ => simp [Ident_ne_nil h1]

/-- Only an indefinite length has end-of-contents octets. -/
theorem plain_trailer {n : Nat} {v : TLV} (h : Ber n v) (hp : PlainLength v) : v.trailer = [] := by
  cases h with
  | definite => rfl
  | indefinite vs h1 _ _ => exact absurd (by simp [PlainLength]) hp

theorem ends80_append {a b : Bytes} (hb : b ≠ []) (h : b.getLast? ≠ some 0x80) : headerEnds80 (some (a ++ b)) = false := by
  unfold headerEnds80
  obtain ⟨x, hx⟩ : ∃ x, b.getLast? = some x := by
    cases hl : b.getLast? with
    | none => exact absurd (List.getLast?_eq_none_iff.mp hl) hb
    | some x => exact ⟨x, rfl⟩
  rw [hx] at h
  simpa [List.getLast?_append, hx] using h

theorem explicitLoop_tight : ∀ (es : List (Nat × Nat)) (i w : Info) (pre post h t : Bytes),
    explicitLoop es i (pre ++ i.header) (i.trailer ++ post) = .ok (w, h, t) → Ber 11 i.tlv → Tight es i.tlv →
    Ber 11 w.tlv ∧ PlainLength w.tlv ∧ (∃ pre', h = pre' ++ w.header) ∧
      h ++ w.contents ++ t = pre ++ i.tlv.bytes ++ post := by
  intro es
  induction es with
  | nil =>
    intro i w pre post h t hl hb ht
    cases hl
    exact ⟨hb, ht, ⟨pre, rfl⟩, by simp [Info.tlv, TLV.bytes]⟩
  | cons e es ih =>
    obtain ⟨c, tg⟩ := e
    intro i w pre post h t hl hb ht
    simp only [explicitLoop] at hl
    split at hl
    · cases hl
    next h1 =>
    split at hl
    · cases hl
    next h2 =>
    split at hl
    · cases hl
    next h3 =>
    simp only [py_bind] at hl
    obtain ⟨i', hp, hl⟩ := hl
    obtain ⟨rest, hr, hb'⟩ := (parse_ok_iff _ _).mp hp
    simp only [ne_eq, Decidable.not_not] at h1 h3
    obtain ⟨hrest, ht'⟩ := ht h1 h3 i'.tlv rest hb' hr
    subst hrest
    obtain ⟨h4, h5, h6, h7⟩ := ih i' w (pre ++ i.header) (i.trailer ++ post) h t hl hb' ht'
    refine ⟨h4, h5, h6, ?_⟩
    rw [h7]
    have : i.tlv.bytes = i.header ++ i'.tlv.bytes ++ i.trailer := by
      simp only [TLV.bytes, Info.tlv] at hr ⊢
      rw [hr]; simp
    rw [this]; simp

theorem buildObj_tight {ν : Type} {k : Bool} {bad : List Nat} {p o : Obj ν} {i : Info} (h : buildObj k bad p i = .ok o)
    (hb : Ber 11 i.tlv) (ht : Tight p.explicit.reverse i.tlv) :
    ∃ hd c, o.header = some hd ∧ headerEnds80 (some hd) = false ∧ o.contents = some c ∧ hd ++ c ++ o.trailer = i.tlv.bytes ∧
      o.indefinite = p.indefinite := by
  rw [buildObj_eq] at h
  cases he : explicitLoop p.explicit.reverse i i.header i.trailer with
  | error e => rw [he] at h; cases h
  | ok r =>
    obtain ⟨w, hd, t⟩ := r
    rw [he] at h
    simp only [Except.bind] at h
    cases hbb : buildBase k bad { p with explicit := [] } w with
    | error e => rw [hbb] at h; cases h
    | ok o0 =>
      rw [hbb] at h
      simp only [Except.ok.injEq] at h
      obtain ⟨h1, h2, ⟨pre, h3⟩, h4⟩ := explicitLoop_tight _ i w [] [] hd t (by simpa using he) hb ht
      have hends : headerEnds80 (some hd) = false := by
        rw [h3]; exact ends80_append (ber_header_ne h1) h2
      have h4' : hd ++ w.contents ++ t = i.tlv.bytes := by simpa using h4
      rcases (buildBase_ok.mp hbb).2.2 with ⟨_, rfl⟩ | ⟨_, _, htr, _, rfl⟩
      · subst h; exact ⟨hd, w.contents, rfl, hends, rfl, h4', rfl⟩
      · have := plain_trailer h1 h2
        rw [show w.tlv.trailer = w.trailer from rfl, htr] at this
        cases this

theorem buildObj_contents {ν : Type} {k : Bool} {bad : List Nat} {p o : Obj ν} {i : Info} (h : buildObj k bad p i = .ok o) :
    o.contents.isSome = true := by
  rw [buildObj_eq] at h
  cases he : explicitLoop p.explicit.reverse i i.header i.trailer with
  | error e => rw [he] at h; cases h
  | ok r =>
    rw [he] at h
    simp only [Except.bind] at h
    cases hbb : buildBase k bad { p with explicit := [] } r.1 with
    | error e => rw [hbb] at h; cases h
    | ok o0 =>
      rw [hbb] at h
      simp only [Except.ok.injEq] at h
      subst h
      rcases (buildBase_ok.mp hbb).2.2 with ⟨_, rfl⟩ | ⟨_, _, htr, _, rfl⟩ <;> rfl

theorem buildObj_explicit {ν : Type} {k : Bool} {bad : List Nat} {p o : Obj ν} {i : Info} (h : buildObj k bad p i = .ok o) :
    o.explicit = p.explicit := by
  rw [buildObj_eq] at h
  cases he : explicitLoop p.explicit.reverse i i.header i.trailer with
  | error e => rw [he] at h; cases h
  | ok r =>
    rw [he] at h
    simp only [Except.bind] at h
    cases hbb : buildBase k bad { p with explicit := [] } r.1 with
    | error e => rw [hbb] at h; cases h
    | ok o0 =>
      rw [hbb] at h
      simp only [Except.ok.injEq] at h
      subst h
      rfl

theorem initTagging_explicit {ν : Type} (o : Obj ν) (p : Params) (es : List (Nat × Nat)) :
    (initTagging o (p.buildTags es)).explicit = if p.noExplicit then [] else o.explicit ++ p.explicit := by
  have h1 : (p.buildTags es).explicit = p.explicit := by unfold Params.buildTags; split <;> rfl
  have h2 : (p.buildTags es).noExplicit = p.noExplicit := by unfold Params.buildTags; split <;> rfl
  unfold initTagging
  rw [h1, h2]
  by_cases he : p.explicit = []
  · simp only [he, ne_eq, not_true_eq_false, if_false, List.append_nil]
    cases (p.buildTags es).implicit <;> cases p.noExplicit <;> rfl
  · simp only [ne_eq, he, not_false_eq_true, if_true]
    cases p.noExplicit <;> rfl

theorem initTagging_indefinite {ν : Type} (o : Obj ν) (p : TagParams) : (initTagging o p).indefinite = o.indefinite := by
  unfold initTagging
  by_cases he : p.explicit = []
  · simp only [he, ne_eq, not_true_eq_false, if_false]
    cases p.implicit <;> cases p.noExplicit <;> rfl
  · simp only [ne_eq, he, not_false_eq_true, if_true]
    cases p.noExplicit <;> rfl

theorem LeafSt.native_base {s s' : LeafSt} {x : Scalar} {d : Bytes} (hc : s.base.contents = some d)
    (h : s.native = .ok (x, s')) : s'.base = s.base := by
  cases s with
  | boolean o =>
    obtain ⟨_, _, _, _, _, _, co, _, na, ind⟩ := o
    cases co <;> cases na <;> (cases h; rfl)
  | integer m o =>
    obtain ⟨_, _, _, _, _, _, co, _, na, ind⟩ := o
    cases co <;> cases na <;> (cases h; rfl)
  | enumerated m o =>
    obtain ⟨_, _, _, _, _, _, co, _, na, ind⟩ := o
    cases co with
    | none => cases hc
    | some c =>
    simp only [LeafSt.native, py_bind] at h
    obtain ⟨⟨n, o'⟩, h1, h2⟩ := h
    cases h2
    cases na with
    | some n => cases h1; rfl
    | none =>
      cases m with
      | none => cases h1
      | some m =>
        simp only [Enumerated.native] at h1
        split at h1
        · cases h1; rfl
        · cases h1
  | null o => cases h; rfl
  | oid k o =>
    obtain ⟨⟨_, _, _, _, _, _, co, _, na, ind⟩, dt⟩ := o
    cases co <;> cases na <;> cases dt <;> (cases h; rfl)
  | octets o =>
    obtain ⟨_, _, _, _, _, _, co, _, na, ind⟩ := o
    cases co with
    | none => cases hc
    | some c =>
    cases na with
    | some n => cases h; rfl
    | none =>
      simp only [LeafSt.native, OctetString.native, py_bind] at h
      obtain ⟨_, ⟨b, _, h1⟩, h⟩ := h
      cases h1; cases h; rfl
  | chars k u o =>
    obtain ⟨_, _, _, _, _, _, co, _, na, ind⟩ := o
    cases co with
    | none => cases hc
    | some c =>
    cases na with
    | some n => cases h; rfl
    | none =>
      simp only [LeafSt.native, AbstractString.native, py_bind] at h
      obtain ⟨_, ⟨b, _, _, _, h1⟩, h⟩ := h
      cases h1; cases h; rfl
  | bits o =>
    obtain ⟨⟨_, _, _, _, _, _, co, _, na, ind⟩, un⟩ := o
    cases co with
    | none => cases hc
    | some c =>
    cases na with
    | some n => cases h; rfl
    | none =>
      simp only [LeafSt.native, BitString.native, py_bind] at h
      obtain ⟨_, ⟨_, h0, h1⟩, h⟩ := h
      cases h0
      simp only [py_bind] at h1
      obtain ⟨_, _, _, _, h1⟩ := h1
      cases h1; cases h; rfl
  | named m o =>
    obtain ⟨⟨_, _, _, _, _, _, co, _, na, ind⟩, un⟩ := o
    cases co with
    | none => cases hc
    | some c =>
    cases na with
    | some n => cases h; rfl
    | none =>
      simp only [LeafSt.native, NamedBits.native, py_bind] at h
      obtain ⟨_, ⟨_, h0, h1⟩, h⟩ := h
      cases h0
      simp only [py_bind] at h1
      obtain ⟨_, _, _, _, h1⟩ := h1
      cases h1; cases h; rfl
  | octetBits o =>
    obtain ⟨⟨_, _, _, _, _, _, co, _, na, ind⟩, un⟩ := o
    cases co with
    | none => cases hc
    | some c =>
    cases na with
    | some n => cases h; rfl
    | none =>
      simp only [LeafSt.native, OctetBitString.native, py_bind] at h
      obtain ⟨_, ⟨b, _, h1⟩, h⟩ := h
      cases h1; cases h; rfl
  | intBits o =>
    obtain ⟨⟨_, _, _, _, _, _, co, _, na, ind⟩, un⟩ := o
    cases co with
    | none => cases hc
    | some c =>
    cases na with
    | some n => cases h; rfl
    | none =>
      simp only [LeafSt.native, IntegerBitString.native, py_bind] at h
      obtain ⟨_, ⟨b, _, h1⟩, h⟩ := h
      cases h1; cases h; rfl
  | intOctets o =>
    obtain ⟨⟨_, _, _, _, _, _, co, _, na, ind⟩, un⟩ := o
    cases co with
    | none => cases hc
    | some c =>
    cases na with
    | some n => cases h; rfl
    | none =>
      simp only [LeafSt.native, IntegerOctetString.native, py_bind] at h
      obtain ⟨_, ⟨b, _, h1⟩, h⟩ := h
      cases h1; cases h; rfl

/-! ### Building -/

theorem asn1Dump_kept {ν : Type} {k : Bool} {o o' : Obj ν} {h c b : Bytes} (hh : o.header = some h) (hc : o.contents = some c)
    (he : headerEnds80 (some h) = false) (hd : asn1Dump k o false = .ok (b, o')) : b = h ++ c ++ o.trailer ∧ o' = o := by
  unfold asn1Dump at hd
  rw [hc, hh] at hd
  simp only [he, Bool.or_self] at hd
  cases hd
  exact ⟨rfl, rfl⟩

theorem leaf_built {E : Env} {Q : Cond} {c : ClassId} {bad : List Nat} {proto s : LeafSt} {i : Info} {p : Params} {es : List (Nat × Nat)}
    (h : LeafSt.build bad (proto.init (p.buildTags es)) i = .ok s) (hb : Ber 11 i.tlv)
    (ht : Tight (if p.noExplicit then [] else proto.base.explicit ++ p.explicit).reverse i.tlv) :
    Keeps E Q (.leaf c s) i.tlv.bytes := by
  rw [LeafSt.build_eq] at h
  cases ho : buildObj (proto.init (p.buildTags es)).constructable bad (proto.init (p.buildTags es)).base i with
  | error e => rw [ho] at h; cases h
  | ok o =>
    rw [ho] at h
    simp only [Except.map, Except.ok.injEq] at h
    obtain ⟨hd, cs, h1, h2, h3, h4, _⟩ := buildObj_tight ho hb (by
      rw [LeafSt.base_init, initTagging_explicit]; exact ht)
    have hbase : s.base = o.erase := by rw [← h]; exact LeafSt.base_over _ _
    rw [← h4, show o.trailer = s.base.trailer by rw [hbase]; rfl]
    exact Keeps.leaf (by rw [hbase]; exact h1) h2 (by rw [hbase]; exact h3)

theorem node_built {E : Env} {Q : Cond} {c : ClassId} {bad : List Nat} {proto o : Obj Unit} {i : Info} {p : Params} {es : List (Nat × Nat)}
    (h : buildObj false bad (initTagging proto (p.buildTags es)) i = .ok o) (hb : Ber 11 i.tlv)
    (ht : Tight (if p.noExplicit then [] else proto.explicit ++ p.explicit).reverse i.tlv) :
    Keeps E Q (.node c o none false) i.tlv.bytes := by
  obtain ⟨hd, cs, h1, h2, h3, h4, _⟩ := buildObj_tight h hb (by rw [initTagging_explicit]; exact ht)
  rw [← h4]
  refine Keeps.node h1 h2 h3 ⟨rfl, by rw [h3]; rfl⟩ ?_
  unfold checkRequired
  split <;> first | rfl | (next hn => cases hn)

theorem parsable_built {E : Env} {Q : Cond} {c : ClassId} {proto o : Obj Bytes} {i : Info} {p : Params} {es : List (Nat × Nat)}
    (h : buildObj true [] (initTagging proto (p.buildTags es)) i = .ok o) (hb : Ber 11 i.tlv) (hi : proto.indefinite = false)
    (ht : Tight (if p.noExplicit then [] else proto.explicit ++ p.explicit).reverse i.tlv) :
    Keeps E Q (.parsable c o none none) i.tlv.bytes := by
  obtain ⟨hd, cs, h1, h2, h3, h4, h5⟩ := buildObj_tight h hb (by rw [initTagging_explicit]; exact ht)
  rw [← h4]
  exact Keeps.parsable h1 h2 h3 (by rw [h5, initTagging_indefinite, hi])

theorem buildFree_shape {E : Env} {i : Info} {v : Val} (h : buildFree E i = .ok v) :
    (∃ c s, v = .leaf c s ∧ s.base.header = some i.header ∧ s.base.contents = some i.contents ∧ s.base.trailer = i.trailer) ∨
    (∃ c o, v = .node c o none false ∧ o.header = some i.header ∧ o.contents = some i.contents ∧ o.trailer = i.trailer) := by
  unfold buildFree at h
  split at h
  · cases h
  split at h
  · cases h
    refine .inl ⟨_, _, rfl, ?_⟩
    unfold LeafSt.buildFree
    rename_i proto _ _
    cases proto <;> exact ⟨rfl, rfl, rfl⟩
  · cases h; exact .inr ⟨_, _, rfl, rfl, rfl, rfl⟩
  · cases h; exact .inr ⟨_, _, rfl, rfl, rfl, rfl⟩
  · cases h

theorem checkRequired_none (E : Env) (c : ClassId) : checkRequired E c none = .ok () := by
  unfold checkRequired
  split <;> first | rfl | (next hn => cases hn)

theorem buildFree_built {E : Env} {Q : Cond} {i : Info} {v : Val} (h : buildFree E i = .ok v) :
    v.isVoid = false ∧ calm E Q v ∧ (PlainLength i.tlv → i.header ≠ [] → Keeps E Q v i.tlv.bytes) := by
  rcases buildFree_shape h with ⟨c, s, rfl, h1, h2, h3⟩ | ⟨c, o, rfl, h1, h2, h3⟩
  · refine ⟨rfl, trivial, fun hp hn => ?_⟩
    have he : headerEnds80 (some i.header) = false := by simpa using ends80_append (a := []) hn hp
    have := Keeps.leaf (E := E) (Q := Q) (c := c) h1 he h2
    rw [h3] at this
    exact this
  · refine ⟨rfl, ⟨rfl, by rw [h2]; rfl⟩, fun hp hn => ?_⟩
    have he : headerEnds80 (some i.header) = false := by simpa using ends80_append (a := []) hn hp
    have := Keeps.node (E := E) (Q := Q) (c := c) (children := none) (m := false) h1 he h2 ⟨rfl, by rw [h2]; rfl⟩ (checkRequired_none E c)
    rw [h3] at this
    exact this

theorem buildFreeExplicit_built {E : Env} {Q : Cond} {es : List (Nat × Nat)} {i : Info} {v : Val} (h : buildFreeExplicit E es i = .ok v) :
    v.isVoid = false ∧ calm E Q v ∧ (∀ e, es = [e] →
      (∀ w rest, Ber 11 w → i.tlv.contents = w.bytes ++ rest → rest = [] ∧ PlainLength w) → Keeps E Q v i.tlv.bytes) := by
  simp only [buildFreeExplicit, py_bind] at h
  obtain ⟨inner, hin, v0, hv0, h⟩ := h
  cases h
  have hk : ∀ e, es = [e] → (∀ w rest, Ber 11 w → i.tlv.contents = w.bytes ++ rest → rest = [] ∧ PlainLength w) →
      headerEnds80 (some (i.header ++ inner.header)) = false ∧
      i.tlv.bytes = (i.header ++ inner.header) ++ inner.contents ++ (inner.trailer ++ i.trailer) := by
    rintro e rfl ht
    simp only [List.reverse_cons, List.reverse_nil, List.nil_append, List.foldlM_cons, List.foldlM_nil, py_bind] at hin
    obtain ⟨j, hj, hin⟩ := hin
    cases hin
    obtain ⟨rest, hr, hb⟩ := (parse_ok_iff _ _).mp hj
    obtain ⟨hrest, hp⟩ := ht inner.tlv rest hb hr
    subst hrest
    refine ⟨ends80_append (ber_header_ne hb) hp, ?_⟩
    simp only [TLV.bytes, Info.tlv] at hr ⊢
    rw [hr]; simp
  rcases buildFree_shape hv0 with ⟨c, s, rfl, h1, h2, h3⟩ | ⟨c, o, rfl, h1, h2, h3⟩
  · refine ⟨rfl, trivial, fun e he ht => ?_⟩
    obtain ⟨k1, k2⟩ := hk e he ht
    rw [k2]
    have hb := LeafSt.base_map (fun {ν} (o : Obj ν) => { o with
      header := some (i.header ++ o.header.getD []), trailer := o.trailer ++ i.trailer, explicit := es }) (fun _ => rfl) s
    have := Keeps.leaf (E := E) (Q := Q) (c := c) (s := s.map (fun {ν} (o : Obj ν) => { o with
      header := some (i.header ++ o.header.getD []), trailer := o.trailer ++ i.trailer, explicit := es }))
      (h := i.header ++ inner.header) (cs := inner.contents) (by rw [hb]; simp [h1]) k1 (by rw [hb]; exact h2)
    rw [hb, h3] at this
    exact this
  · refine ⟨rfl, ⟨rfl, by show o.contents.isSome = true; rw [h2]; rfl⟩, fun e he ht => ?_⟩
    obtain ⟨k1, k2⟩ := hk e he ht
    rw [k2]
    have := Keeps.node (E := E) (Q := Q) (c := c) (children := none) (m := false)
      (o := ⟨o.cls, o.method, o.tag, o.implicit, es, some (i.header ++ o.header.getD []), o.contents, o.trailer ++ i.trailer, o.native, o.indefinite⟩)
      (h := i.header ++ inner.header) (cs := inner.contents) (by simp [h1]) k1 h2 ⟨rfl, by rw [h2]; rfl⟩ (checkRequired_none E c)
    rw [← h3]
    exact this

/-- What is built without a DEFAULT keeps its bytes. -/
structure Builder (E : Env) (Q : Cond) (r : Ops) : Prop where
  of : ∀ {i spec p v}, p.default = none → r.build i spec p none = .ok v →
    v.isVoid = false ∧ calm E Q v ∧ (Ber 11 i.tlv → Tidy E spec p i.tlv → Keeps E Q v i.tlv.bytes)

section
variable {E : Env} {Q : Cond} {r : Ops} (hE : Suits E Q r) (hr : Reader E Q r)
include hr

theorem Reader.builder : Builder E Q r where
  of hp h := have := hr.build (hr.plain _ _ hp) h; ⟨this.1, this.2.1, this.2.2 rfl⟩

omit hr in
theorem Builder.parseBuild (hb : Builder E Q r) {data : Bytes} {spec : Option ClassId} {p : Params} {v : Val} (hs : p.default = none)
    (h : parseBuild r data spec p = .ok v) :
    v.isVoid = false ∧ calm E Q v ∧ ∃ w rest, Ber 11 w ∧ data = w.bytes ++ rest ∧ (Tidy E spec p w → Keeps E Q v w.bytes) := by
  simp only [Asn1.parseBuild, py_bind] at h
  obtain ⟨i, hi, h⟩ := h
  obtain ⟨rest, h1, h2⟩ := (parse_ok_iff _ _).mp hi
  obtain ⟨h3, h4, h5⟩ := hb.of hs h
  exact ⟨h3, h4, i.tlv, rest, h2, h1, fun ht => h5 h2 ht⟩

omit hr in
/-- Parsing an `Any`. -/
theorem Builder.anyParse (hu : Builder E Q r) {c : ClassId} {o : Obj Unit} {parsed : Option Val} {pspec spec : Option ClassId} {v a : Val}
    (h : anyParse r c o parsed pspec spec = .ok (v, a)) :
    (∃ o' s, a = .any c o' (some v) s) ∧ ∀ b, Keeps E Q (.any c o parsed pspec) b →
      ((parsed.isSome = true ∧ pspec = spec) ∨
        (∀ w rest, Ber 11 w → b = w.bytes ++ rest → rest = [] ∧ Tidy E spec { explicit := o.explicit } w)) →
      Keeps E Q v b ∧ Keeps E Q a b := by
  have fresh : (match o.header, o.contents with
      | some h, some cs => do
        let v ← Asn1.parseBuild r (h ++ cs ++ o.trailer) spec { explicit := o.explicit }
        .ok (v, Val.any c { o with explicit := [], implicit := false, header := some [], contents := some (h ++ cs ++ o.trailer), trailer := [] }
          (some v) spec)
      | _, _ => .error .typeError) = (Except.ok (v, a) : Py (Val × Val)) →
      (∃ o' s, a = .any c o' (some v) s) ∧ ∀ b, Keeps E Q (.any c o parsed pspec) b →
        (∀ w rest, Ber 11 w → b = w.bytes ++ rest → rest = [] ∧ Tidy E spec { explicit := o.explicit } w) →
        Keeps E Q v b ∧ Keeps E Q a b := by
    intro h
    split at h
    · next hd cs hh hc =>
      simp only [py_bind] at h
      obtain ⟨v', h1, h⟩ := h
      simp only [Except.ok.injEq, Prod.mk.injEq] at h
      obtain ⟨rfl, rfl⟩ := h
      refine ⟨⟨_, _, rfl⟩, fun b hb ht => ?_⟩
      obtain ⟨h3, h4, w, rest, h5, h6, h7⟩ := hu.parseBuild rfl h1
      have hbe : b = hd ++ cs ++ o.trailer := by
        cases hb with
        | any k1 k2 _ _ => rw [hh] at k1; rw [hc] at k2; cases k1; cases k2; rfl
      obtain ⟨hrest, htd⟩ := ht w rest h5 (hbe.trans h6)
      subst hrest
      have hw : w.bytes = b := by rw [hbe, h6]; simp
      have hkv : Keeps E Q v' b := hw ▸ h7 htd
      refine ⟨hkv, ?_⟩
      have := Keeps.any (E := E) (Q := Q) (c := c) (o := { o with explicit := [], implicit := false, header := some [], contents := some (hd ++ cs ++ o.trailer), trailer := [] })
        (parsed := some v') (pspec := spec) (h := []) (cs := hd ++ cs ++ o.trailer) rfl rfl
        (by
          intro x hx
          cases hx
          simpa [← hbe] using hkv)
        (by intro hx; cases hx)
      simpa [← hbe] using this
    · cases h
  unfold Asn1.anyParse at h
  split at h
  · next v0 hv hs =>
    simp only [Except.ok.injEq, Prod.mk.injEq] at h
    obtain ⟨rfl, rfl⟩ := h
    refine ⟨⟨_, _, rfl⟩, fun b hb _ => ⟨?_, hb⟩⟩
    cases hb with
    | any k1 k2 k3 _ => exact k3 _ rfl
  · next hno =>
    obtain ⟨h1, h2⟩ := fresh h
    refine ⟨h1, fun b hb hcond => h2 b hb ?_⟩
    rcases hcond with ⟨hs, hp⟩ | hc
    · obtain ⟨x, rfl⟩ := Option.isSome_iff_exists.mp hs
      exact absurd (by simp [hp]) (hno x rfl)
    · exact hc

/-- Parsing an `Any`. -/
theorem Reader.anyParse {c : ClassId} {o : Obj Unit} {parsed : Option Val} {pspec spec : Option ClassId} {v a : Val}
    (h : anyParse r c o parsed pspec spec = .ok (v, a)) :
    (∃ o' s, a = .any c o' (some v) s) ∧ ∀ b, Keeps E Q (.any c o parsed pspec) b →
      ((parsed.isSome = true ∧ pspec = spec) ∨
        (∀ w rest, Ber 11 w → b = w.bytes ++ rest → rest = [] ∧ Tidy E spec { explicit := o.explicit } w)) →
      Keeps E Q v b ∧ Keeps E Q a b := hr.builder.anyParse h

omit hr in
/-- Replacing the parsed value of an `Any`. -/
theorem Keeps.any_replace {c : ClassId} {o : Obj Unit} {parsed : Option Val} {s s' : Option ClassId} {v : Val} {b : Bytes}
    (h : Keeps E Q (.any c o parsed s) b) (hv : Keeps E Q v b) : Keeps E Q (.any c o (some v) s') b := by
  cases h with
  | any k1 k2 _ _ => exact Keeps.any k1 k2 (by rintro _ ⟨⟩; exact hv) (by intro hx; cases hx)

/-! ### Reading -/

omit hr in
theorem requiredPresent_voids {fs : List Field} {cs cs' : List Child} (hv : cs'.map Child.isVoid = cs.map Child.isVoid)
    (h : requiredPresent fs cs = .ok ()) : requiredPresent fs cs' = .ok () := by
  rw [requiredPresent_iff] at h ⊢
  have hl : cs'.length = cs.length := by simpa using congrArg List.length hv
  refine ⟨hl ▸ h.1, fun i f ch hf hc hvd => ?_⟩
  have hi := congrArg (fun l => l[i]?) hv
  simp only [List.getElem?_map, hc, Option.map_some] at hi
  cases hk : cs[i]? with
  | none => rw [hk] at hi; cases hi
  | some ch0 =>
    rw [hk] at hi
    simp only [Option.map_some, Option.some.injEq] at hi
    exact h.2 i f ch0 hf hk (hi ▸ hvd)

include hE in
theorem Reader.nodeNative {c : ClassId} {o : Obj Unit} {children : Option (List Child)} {m : Bool} {x : PyVal} {v : Val}
    (h : nodeNative E r c o children m = .ok (x, v)) :
    v.isVoid = false ∧ (calm E Q (.node c o children m) → ∃ cs, v = .node c o (some cs) m ∧ calm E Q v ∧
      (checkRequired E c children = .ok () → checkRequired E c (some cs) = .ok ())) := by
  constructor
  · simp only [Asn1.nodeNative, py_bind] at h
    obtain ⟨⟨o', ch', m'⟩, _, h⟩ := h
    simp only at h
    split at h
    · cases h; rfl
    · simp only [py_bind] at h
      obtain ⟨cs, _, h⟩ := h
      split at h
      · simp only [py_bind] at h
        obtain ⟨_, _, h⟩ := h
        cases h; rfl
      · simp only [py_bind] at h
        obtain ⟨_, _, h⟩ := h
        cases h; rfl
  · intro hc
    simp only [Asn1.nodeNative, nodeContents_calm c _ _ _ hc, py_bind] at h
    obtain ⟨a, ha, h⟩ := h
    cases ha
    have hsome : ∃ d, o.contents = some d := by
      cases children with
      | none => exact Option.isSome_iff_exists.mp hc.2
      | some cs => exact Option.isSome_iff_exists.mp hc.2.1
    obtain ⟨d, hd⟩ := hsome
    have hm : m = false := by cases children <;> exact hc.1
    simp only [hd, py_bind] at h
    obtain ⟨cs, hcs, h⟩ := h
    obtain ⟨h1, h2⟩ := hr.ensure hE c o children m cs hcs hc
    split at h
    · next hcls =>
      simp only [py_bind] at h
      obtain ⟨⟨ns, cs'⟩, h3, h⟩ := h
      cases h
      rename_i fields _
      have hf : fieldsOf E c = fields := by unfold fieldsOf; rw [hcls]
      rw [hf] at h1
      obtain ⟨h4, h5⟩ := hr.nativeFields _ _ _ _ _ h3 h1
      refine ⟨cs', rfl, ⟨hm, by rw [hd]; rfl, by rw [hf]; exact h4⟩, fun hq => ?_⟩
      have := h2 hq
      simp only [checkRequired, hcls] at this ⊢
      exact requiredPresent_voids h5 this
    · next hns =>
      simp only [py_bind] at h
      obtain ⟨⟨ns, cs'⟩, h3, h⟩ := h
      cases h
      have hf : fieldsOf E c = [] := by
        unfold fieldsOf
        split
        · next hcls => exact absurd hcls (hns _ _ _ _ _)
        · rfl
      rw [hf] at h1
      obtain ⟨h4, h5⟩ := hr.nativeElements _ _ _ h3 h1
      refine ⟨cs', rfl, ⟨hm, by rw [hd]; rfl, by rw [hf]; exact h4⟩, fun _ => ?_⟩
      unfold checkRequired
      split
      · next hcls _ => exact absurd hcls (hns _ _ _ _ _)
      · rfl

include hE in
theorem Reader.getItem {v x v' : Val} {idx : Nat} (h : getItem E r v idx = .ok (x, v')) : Undisturbed E Q v v' := by
  cases v with
  | node c o children m =>
    simp only [Asn1.getItem, py_bind] at h
    obtain ⟨cs, hcs, h⟩ := h
    split at h
    · cases h
    · cases h
    · next ch hidx =>
      simp only [py_bind] at h
      obtain ⟨y, hy, h⟩ := h
      simp only [Except.ok.injEq, Prod.mk.injEq] at h
      obtain ⟨rfl, rfl⟩ := h
      have hmain : calm E Q (.node c o children m) → calm E Q (.node c o (some (cs.set idx (.val y))) m) ∧
          (checkRequired E c children = .ok () → checkRequired E c (some (cs.set idx (.val y))) = .ok ()) := by
        intro hc
        obtain ⟨h1, h2⟩ := hr.ensure hE c o children m cs hcs hc
        have hch := (calmList_iff E Q _ _).mp h1 idx ch hidx
        have hy : buildChild r (paramsAt (fieldsOf E c) idx) ch = .ok y := by
          rw [← hy]
          unfold fieldsOf
          cases E.cls c <;> rfl
        obtain ⟨h3, h4⟩ := hr.child hy hch
        refine ⟨?_, fun hq => ?_⟩
        · have h5 := calmList_set E Q _ _ idx y h1 h3
          cases children with
          | none => exact ⟨hc.1, hc.2, h5⟩
          | some _ => exact ⟨hc.1, hc.2.1, h5⟩
        · have h6 := h2 hq
          unfold checkRequired at h6 ⊢
          split
          · next fields _ cs' hcls hce =>
            cases hce
            simp only [hcls] at h6
            exact requiredPresent_voids (map_isVoid_set hidx (by rw [Child.isVoid]; exact h4)) h6
          · rfl
      refine ⟨rfl, fun hc => (hmain hc).1, fun b hb => ?_⟩
      cases hb with
      | node k1 k2 k3 k4 k5 => exact Keeps.node k1 k2 k3 (hmain k4).1 ((hmain k4).2 k5)
  | _ => cases h

omit hr in
theorem parsableBytes_frame {k : Bool} {pr o o' : Obj Bytes} {b : Bytes} (h : parsableBytes k pr o = .ok (b, o')) :
    o'.header = o.header ∧ o'.contents = o.contents ∧ o'.trailer = o.trailer ∧ o'.indefinite = o.indefinite := by
  unfold parsableBytes at h
  split at h
  · cases h; exact ⟨rfl, rfl, rfl, rfl⟩
  split at h
  · cases h; exact ⟨rfl, rfl, rfl, rfl⟩
  · simp only [py_bind] at h
    obtain ⟨_, _, h⟩ := h
    cases h; exact ⟨rfl, rfl, rfl, rfl⟩

omit hr in
theorem Keeps.parsable_frame {c : ClassId} {o o' : Obj Bytes} {p p' : Option Val} {s s' : Option ClassId} {b : Bytes}
    (h : Keeps E Q (.parsable c o p s) b)
    (ho : o'.header = o.header ∧ o'.contents = o.contents ∧ o'.trailer = o.trailer ∧ o'.indefinite = o.indefinite) :
    Keeps E Q (.parsable c o' p' s') b := by
  obtain ⟨h1, h2, h3, h4⟩ := ho
  cases h with
  | parsable k1 k2 k3 k4 =>
    rw [← h3]
    exact Keeps.parsable (h1.trans k1) k2 (h2.trans k3) (h4.trans k4)

theorem Reader.choiceParse {c : ClassId} {o : Obj Unit} {alt : Option Nat} {parsed : Option Val} {v : Val}
    (h : choiceParse E r c o alt parsed = .ok v) : ∀ b, Keeps E Q (.choice c o alt parsed) b → parsed = some v := by
  intro b hb
  cases hb with
  | choice k1 k2 k3 => cases h; rfl

include hE in
theorem Reader.native_step {v v' : Val} {x : PyVal} (h : nativeStep E r v = .ok (x, v')) : Undisturbed E Q v v' := by
  cases v with
  | void => cases h; exact Undisturbed.refl E Q _
  | leaf c s =>
    simp only [nativeStep, py_bind] at h
    obtain ⟨⟨n, s'⟩, h1, h⟩ := h
    cases h
    refine ⟨rfl, fun _ => trivial, fun b hb => ?_⟩
    cases hb with
    | leaf k1 k2 k3 =>
      have hbase := LeafSt.native_base k3 h1
      rw [← hbase] at k1 k3 ⊢
      exact Keeps.leaf k1 k2 k3
  | node c o children m =>
    obtain ⟨h1, h2⟩ := hr.nodeNative hE h
    refine ⟨h1, fun hc => ?_, fun b hb => ?_⟩
    · obtain ⟨cs, _, hcs, _⟩ := h2 hc; exact hcs
    · cases hb with
      | node k1 k2 k3 k4 k5 =>
        obtain ⟨cs, rfl, hcs, hq⟩ := h2 k4
        exact Keeps.node k1 k2 k3 hcs (hq k5)
  | choice c o alt parsed =>
    simp only [nativeStep, py_bind] at h
    obtain ⟨w, h1, ⟨n, w'⟩, h2, h⟩ := h
    cases h
    refine ⟨rfl, fun _ => trivial, fun b hb => ?_⟩
    have hp := hr.choiceParse h1 b hb
    subst hp
    cases hb with
    | choice k1 k2 k3 => exact Keeps.choice k1 k2 ((hr.native h2).keeps _ k3)
  | any c o parsed pspec =>
    cases parsed with
    | some w =>
      simp only [nativeStep, py_bind] at h
      obtain ⟨_, h0, ⟨n, w'⟩, h2, h⟩ := h
      cases h0; cases h
      refine ⟨rfl, fun _ => trivial, fun b hb => ?_⟩
      refine hb.any_replace ?_
      cases hb with
      | any k1 k2 k3 k4 => exact (hr.native h2).keeps _ (k3 _ rfl)
    | none =>
      simp only [nativeStep, py_bind] at h
      obtain ⟨⟨w, a⟩, h0, ⟨n, w'⟩, h2, h⟩ := h
      obtain ⟨⟨o', s', rfl⟩, h3⟩ := hr.anyParse h0
      cases h
      refine ⟨rfl, fun _ => trivial, fun b hb => ?_⟩
      obtain ⟨h4, h5⟩ := h3 b hb (.inr (by cases hb with | any k1 k2 k3 k4 => exact k4 rfl))
      exact h5.any_replace ((hr.native h2).keeps _ h4)
  | parsable c o parsed pspec =>
    simp only [nativeStep] at h
    split at h
    · cases h; exact Undisturbed.refl E Q _
    · simp only [py_bind] at h
      obtain ⟨_, _, h⟩ := h
      cases h
      exact ⟨rfl, fun _ => trivial, fun b hb => hb.parsable_frame ⟨rfl, rfl, rfl, rfl⟩⟩
    · simp only [py_bind] at h
      obtain ⟨⟨b, o'⟩, h1, h⟩ := h
      cases h
      exact ⟨rfl, fun _ => trivial, fun b hb => hb.parsable_frame (parsableBytes_frame h1)⟩

include hE in
theorem Reader.contents_step {v v' : Val} {x : Option Bytes} (h : contentsStep E r v = .ok (x, v')) : Undisturbed E Q v v' := by
  cases v with
  | void => cases h; exact Undisturbed.refl E Q _
  | leaf c s => cases h; exact Undisturbed.refl E Q _
  | node c o children m =>
    simp only [contentsStep, py_bind] at h
    obtain ⟨⟨o', ch', m'⟩, h1, h⟩ := h
    cases h
    have hsame : calm E Q (.node c o children m) → o' = o ∧ ch' = children ∧ m' = m := by
      intro hc
      rw [nodeContents_calm c _ _ _ hc] at h1
      cases h1; exact ⟨rfl, rfl, rfl⟩
    refine ⟨rfl, fun hc => ?_, fun b hb => ?_⟩
    · obtain ⟨rfl, rfl, rfl⟩ := hsame hc; exact hc
    · obtain ⟨rfl, rfl, rfl⟩ := hsame (by cases hb with | node k1 k2 k3 k4 k5 => exact k4)
      exact hb
  | choice c o alt parsed =>
    cases parsed with
    | none => cases h; exact Undisturbed.refl E Q _
    | some p =>
      simp only [contentsStep, py_bind] at h
      obtain ⟨⟨b, p'⟩, h1, h⟩ := h
      cases h
      refine ⟨rfl, fun _ => trivial, fun b hb => ?_⟩
      cases hb with
      | choice k1 k2 k3 => exact Keeps.choice k1 k2 ((hr.contents h1).keeps _ k3)
  | any c o parsed pspec => cases h; exact Undisturbed.refl E Q _
  | parsable c o parsed pspec => cases h; exact Undisturbed.refl E Q _

include hE in
theorem Reader.dump_step {v v' : Val} {f : Bool} {b : Bytes} (h : dumpStep E r v f = .ok (b, v')) :
    v'.isVoid = v.isVoid ∧ (calm E Q v → calm E Q v') := by
  cases v with
  | void => cases h; exact ⟨rfl, id⟩
  | leaf c s =>
    simp only [dumpStep, py_bind] at h
    obtain ⟨_, _, h⟩ := h
    cases h; exact ⟨rfl, fun _ => trivial⟩
  | node c o children m =>
    refine ⟨?_, hr.nodeDump hE h⟩
    obtain ⟨_, _, _, rfl⟩ := nodeDump_node h
    rfl
  | choice c o alt parsed =>
    simp only [dumpStep, choiceDump, py_bind] at h
    obtain ⟨_, _, _, _, h⟩ := h
    split at h
    · cases h; exact ⟨rfl, fun _ => trivial⟩
    · simp only [py_bind] at h
      obtain ⟨_, _, h⟩ := h
      cases h; exact ⟨rfl, fun _ => trivial⟩
  | any c o parsed pspec =>
    cases parsed with
    | some w =>
      simp only [dumpStep, py_bind] at h
      obtain ⟨_, _, h⟩ := h
      cases h; exact ⟨rfl, fun _ => trivial⟩
    | none =>
      simp only [dumpStep, py_bind] at h
      obtain ⟨⟨w, a⟩, h0, ⟨n, w'⟩, h2, h⟩ := h
      obtain ⟨⟨o', s', rfl⟩, h3⟩ := hr.anyParse h0
      cases h; exact ⟨rfl, fun _ => trivial⟩
  | parsable c o parsed pspec =>
    simp only [dumpStep, parsableDump] at h
    split at h
    · cases parsed with
      | some w =>
        simp only [py_bind] at h
        obtain ⟨_, _, _, _, h⟩ := h
        cases h; exact ⟨rfl, fun _ => trivial⟩
      | none =>
        cases hc : o.contents with
        | none => rw [hc] at h; cases h
        | some d =>
          simp only [hc, py_bind] at h
          obtain ⟨_, _, _, _, h⟩ := h
          cases h; exact ⟨rfl, fun _ => trivial⟩
    · simp only [py_bind] at h
      obtain ⟨_, _, h⟩ := h
      cases h; exact ⟨rfl, fun _ => trivial⟩

omit hr in
theorem Builder.keep_step (hu : Builder E Q r)
    (hkeep : ∀ {v b b' v'}, Keeps E Q v b → r.dump v false = .ok (b', v') → b' = b ∧ Keeps E Q v' b) {v v' : Val} {b b' : Bytes} (hk : Keeps E Q v b) (h : dumpStep E r v false = .ok (b', v')) :
    b' = b ∧ Keeps E Q v' b := by
  cases hk with
  | @leaf c s hd cs k1 k2 k3 =>
    simp only [dumpStep, py_bind] at h
    obtain ⟨⟨b1, s1⟩, h1, h⟩ := h
    cases h
    have hb := LeafSt.dump_base (s := s) (by rw [k1]; exact k2)
    rw [h1] at hb
    obtain ⟨h3, h4⟩ := asn1Dump_kept k1 k3 k2 hb.symm
    simp only at h3 h4
    refine ⟨h3, ?_⟩
    rw [← h4] at k1 k3 ⊢
    exact Keeps.leaf k1 k2 k3
  | @node c o children m hd cs k1 k2 k3 k4 k5 =>
    simp only [dumpStep, Asn1.nodeDump, k1, k2, Bool.or_self, Bool.false_and, Bool.false_eq_true, if_false, py_bind, nodeContents_calm c _ _ _ k4] at h
    obtain ⟨_, h0, _, _, _, h1, ⟨b1, o1⟩, h2, h⟩ := h
    cases h0; rw [nodeContents_calm c _ _ _ k4] at h1; cases h1; cases h
    obtain ⟨h3, h4⟩ := asn1Dump_kept k1 k3 k2 h2
    subst h4
    exact ⟨h3, Keeps.node k1 k2 k3 k4 k5⟩
  | @choice c o alt w hd b k1 k2 k3 =>
    simp only [dumpStep, choiceDump, Asn1.choiceParse, k1, k2, Bool.or_self, py_bind] at h
    obtain ⟨_, h0, ⟨b1, w1⟩, h2, h⟩ := h
    cases h0; cases h
    obtain ⟨rfl, h4⟩ := hkeep k3 h2
    exact ⟨rfl, Keeps.choice rfl k2 h4⟩
  | @any c o parsed pspec hd cs k1 k2 k3 k4 =>
    have hk := Keeps.any (c := c) (pspec := pspec) k1 k2 k3 k4
    cases parsed with
    | some w =>
      simp only [dumpStep, py_bind] at h
      obtain ⟨⟨b1, w1⟩, h2, h⟩ := h
      cases h
      obtain ⟨rfl, h4⟩ := hkeep (k3 _ rfl) h2
      exact ⟨rfl, hk.any_replace h4⟩
    | none =>
      simp only [dumpStep, py_bind] at h
      obtain ⟨⟨w, a⟩, h0, ⟨b1, w1⟩, h2, h⟩ := h
      obtain ⟨⟨o', s', rfl⟩, h3⟩ := hu.anyParse h0
      cases h
      obtain ⟨h5, h6⟩ := h3 _ hk (.inr (k4 rfl))
      obtain ⟨rfl, h4⟩ := hkeep h5 h2
      exact ⟨rfl, h6.any_replace h4⟩
  | @parsable c o parsed pspec hd cs k1 k2 k3 k4 =>
    simp only [dumpStep, parsableDump, k4, Bool.or_self, Bool.false_eq_true, if_false, py_bind] at h
    obtain ⟨⟨b1, o1⟩, h2, h⟩ := h
    cases h
    obtain ⟨h3, h4⟩ := asn1Dump_kept k1 k3 k2 h2
    subst h4
    exact ⟨h3, Keeps.parsable k1 k2 k3 k4⟩

theorem Reader.keep_step {v v' : Val} {b b' : Bytes} (hk : Keeps E Q v b) (h : dumpStep E r v false = .ok (b', v')) :
    b' = b ∧ Keeps E Q v' b := hr.builder.keep_step hr.keep hk h

/-! ### Building, continued -/

omit hr in
theorem choiceBase {c : ClassId} {i : Info} {v : Val} (h : buildChoiceBase E r c i = .ok v)
    (hdef : ∀ e t alts, E.cls c = .choice e t alts → ∀ f ∈ alts, f.params.default = none) :
    ∃ e t alts k f w, E.cls c = .choice e t alts ∧ f ∈ alts ∧
      v = .choice c { cls := 0, method := 0, tag := 0, header := some [], contents := some (i.header ++ i.contents), trailer := i.trailer } (some k) (some w) ∧
      Asn1.parseBuild r (i.header ++ i.contents) (some f.spec) f.params = .ok w ∧ f.params.default = none := by
  unfold buildChoiceBase at h
  split at h
  · next e t alts hcls =>
    simp only [py_bind] at h
    obtain ⟨k, _, h⟩ := h
    split at h
    · cases h
    · next f hf =>
      simp only [py_bind] at h
      obtain ⟨w, h1, h⟩ := h
      cases h
      have hm := List.mem_of_getElem? hf
      exact ⟨e, t, alts, k, f, w, hcls, hm, rfl, h1, hdef e t alts hcls f hm⟩
  · cases h

omit hr in
theorem tidy_none {p : Params} {v : TLV} (h : Tidy E none p v) :
    (p.explicit = [] ∧ PlainLength v) ∨ ∃ e, p.explicit = [e] ∧
      (∀ w rest, Ber 11 w → v.contents = w.bytes ++ rest → rest = [] ∧ PlainLength w) := by
  cases h with
  | free h1 h2 => exact .inl ⟨h1, h2⟩
  | freeExplicit h1 h2 => exact .inr ⟨_, h1, h2⟩

omit hr in
theorem tidy_base {c : ClassId} {p : Params} {v : TLV} (hs : HasTag (E.cls c)) (h : Tidy E (some c) p v) :
    Tight (if p.noExplicit then [] else (E.cls c).tagging.2.2.2 ++ p.explicit).reverse v := by
  cases h with
  | base _ h => exact h
  | any h _ => rw [h] at hs; exact hs.elim
  | choice h _ _ => rw [h] at hs; exact hs.elim
  | choiceExplicit h _ _ _ _ => rw [h] at hs; exact hs.elim

omit hr in
theorem explicitLoop_one {e : Nat × Nat} {i w : Info} {h t h0 t0 : Bytes} (hl : explicitLoop [e] i h0 t0 = .ok (w, h, t)) :
    parse i.contents = .ok w ∧ h = h0 ++ w.header ∧ t = w.trailer ++ t0 := by
  obtain ⟨c, tg⟩ := e
  simp only [explicitLoop] at hl
  split at hl
  · cases hl
  split at hl
  · cases hl
  split at hl
  · cases hl
  simp only [py_bind] at hl
  obtain ⟨j, h1, h2⟩ := hl
  cases h2
  exact ⟨h1, rfl, rfl⟩

omit hr in
theorem Builder.choice_built (hR : Regular E) (hu : Builder E Q r) {c : ClassId} {e : List (Nat × Nat)} {tg : Option (Nat × Nat)} {alts : List Field} {i : Info} {v : Val}
    (hcls : E.cls c = .choice e tg alts) (h : buildChoiceBase E r c i = .ok v) :
    (∃ o k w, v = .choice c o k (some w) ∧ (Ber 11 i.tlv → (∀ f ∈ alts, Tidy E (some f.spec) f.params i.tlv) →
      o.header = some [] ∧ Keeps E Q w i.tlv.bytes)) := by
  obtain ⟨e', t', alts', k, f, w, h1, h2, rfl, h4, h5⟩ := choiceBase h (hR.alt c)
  rw [hcls] at h1
  cases h1
  refine ⟨_, _, _, rfl, fun hb ht => ⟨rfl, ?_⟩⟩
  obtain ⟨_, _, w', rest, h6, h7, h8⟩ := hu.parseBuild h5 h4
  obtain ⟨rfl, _, _⟩ := ber_prefix (a := i.header ++ i.contents) hb h6 (by simp [Info.tlv, TLV.bytes]) h7
  exact h8 (ht f h2)

omit hr in
theorem Builder.buildPlain (hR : Regular E) (hu : Builder E Q r) {i : Info} {spec : Option ClassId} {p : Params} {v : Val} (hs : SpecOk E spec p)
    (h : buildPlain E r i spec p = .ok v) :
    v.isVoid = false ∧ calm E Q v ∧ (Ber 11 i.tlv → Tidy E spec p i.tlv → Keeps E Q v i.tlv.bytes) := by
  cases spec with
  | none =>
    simp only [Asn1.buildPlain] at h
    split at h
    · next hne =>
      obtain ⟨h1, h2, h3⟩ := buildFreeExplicit_built h
      refine ⟨h1, h2, fun hb ht => ?_⟩
      rcases tidy_none ht with ⟨h4, _⟩ | ⟨e, h4, h5⟩
      · exact absurd h4 hne
      · exact h3 e h4 h5
    · next hne =>
      obtain ⟨h1, h2, h3⟩ := buildFree_built h
      refine ⟨h1, h2, fun hb ht => ?_⟩
      rcases tidy_none ht with ⟨_, h4⟩ | ⟨e, h4, _⟩
      · exact h3 h4 (ber_header_ne hb)
      · exact absurd (by rw [h4]; simp) hne
  | some c =>
    simp only [Asn1.buildPlain] at h
    split at h
    · next proto bad hcls =>
      simp only [py_bind] at h
      obtain ⟨_, _, s, h1, h⟩ := h
      cases h
      refine ⟨rfl, trivial, fun hb ht => leaf_built h1 hb ?_⟩
      have := tidy_base (by rw [hcls]; trivial) ht
      rwa [hcls] at this
    · next proto bad st fields oid hcls =>
      simp only [py_bind] at h
      obtain ⟨_, _, o, h1, h⟩ := h
      have hv : v = .node c o none false := by
        rcases hs c rfl (by rw [hcls]; trivial) with hd | hx
        · rw [hd] at h
          cases ho : o.explicit <;> rw [ho] at h <;> (cases h; rfl)
        · have ho : o.explicit ≠ [] := by
            rw [buildObj_explicit h1, initTagging_explicit]
            unfold explicitOf at hx
            rwa [hcls] at hx
          split at h
          · next h0 _ => exact absurd h0 ho
          · cases h; rfl
      subst hv
      refine ⟨rfl, ⟨rfl, buildObj_contents h1⟩, fun hb ht => node_built h1 hb ?_⟩
      have := tidy_base (by rw [hcls]; trivial) ht
      rwa [hcls] at this
    · next proto bad st el hcls =>
      simp only [py_bind] at h
      obtain ⟨_, _, o, h1, h⟩ := h
      cases h
      refine ⟨rfl, ⟨rfl, buildObj_contents h1⟩, fun hb ht => node_built h1 hb ?_⟩
      have := tidy_base (by rw [hcls]; trivial) ht
      rwa [hcls] at this
    · next e tg alts hcls =>
      split at h
      · cases h
      split at h
      · cases h
      have hex : explicitOf E c p = choiceExplicit e p := by
        unfold explicitOf choiceExplicit; rw [hcls]; rfl
      unfold buildChoice at h
      split at h
      · next hnil =>
        obtain ⟨o, k, w, rfl, h1⟩ := hu.choice_built hR hcls h
        refine ⟨rfl, trivial, fun hb ht => ?_⟩
        have htd : ∀ f ∈ alts, Tidy E (some f.spec) f.params i.tlv := by
          cases ht with
          | base h _ => rw [hcls] at h; exact h.elim
          | any h _ => rw [hcls] at h; cases h
          | choice h _ h' => rw [hcls] at h; cases h; exact h'
          | choiceExplicit h h' => rw [hex, hnil] at h'; cases h'
        obtain ⟨h2, h3⟩ := h1 hb htd
        exact Keeps.choice (h := []) h2 rfl h3
      · next hne =>
        simp only [py_bind] at h
        obtain ⟨⟨i', h', t'⟩, h1, v', h2, h⟩ := h
        cases h
        obtain ⟨o, k, w, rfl, h3⟩ := hu.choice_built hR hcls h2
        refine ⟨rfl, trivial, fun hb ht => ?_⟩
        have : ∃ x, choiceExplicit e p = [x] ∧ PlainLength i.tlv ∧
            (∀ w rest, Ber 11 w → i.tlv.contents = w.bytes ++ rest → rest = []) ∧
            (∀ w rest, Ber 11 w → i.tlv.contents = w.bytes ++ rest → ∀ f ∈ alts, Tidy E (some f.spec) f.params w) := by
          cases ht with
          | base h _ => rw [hcls] at h; exact h.elim
          | any h _ => rw [hcls] at h; cases h
          | choice _ h' _ => rw [hex] at h'; exact absurd h' hne
          | choiceExplicit h h' h4 h5 h6 => rw [hcls] at h; cases h; exact ⟨_, hex ▸ h', h4, h5, h6⟩
        obtain ⟨x, hx, h4, h5, h6⟩ := this
        rw [hx] at h1
        obtain ⟨h7, _, _⟩ := explicitLoop_one h1
        obtain ⟨rest, h8, h9⟩ := (parse_ok_iff _ _).mp h7
        obtain ⟨_, h10⟩ := h3 h9 (h6 _ rest h9 h8)
        have hrest := h5 _ rest h9 h8
        subst hrest
        have hbytes : i.tlv.bytes = i.header ++ i'.tlv.bytes := by
          have htr : i.trailer = [] := plain_trailer hb h4
          have : i.tlv.bytes = i.header ++ i.contents ++ i.trailer := rfl
          rw [this, htr, h8]; simp
        rw [hbytes]
        exact Keeps.choice (h := i.header) rfl (ends80_append (a := []) (ber_header_ne hb) h4) h10
    · next hcls =>
      have hex : explicitOf E c p = choiceExplicit [] p := by
        unfold explicitOf choiceExplicit; rw [hcls]; rfl
      have hta : Tidy E (some c) p i.tlv → Tidy E none { explicit := choiceExplicit [] p } i.tlv := by
        intro ht
        cases ht with
        | base h _ => rw [hcls] at h; exact h.elim
        | any _ h => rw [← hex]; exact h
        | choice h _ _ => rw [hcls] at h; cases h
        | choiceExplicit h _ _ _ _ => rw [hcls] at h; cases h
      split at h
      · next hnil =>
        cases h
        refine ⟨rfl, trivial, fun hb ht => ?_⟩
        refine Keeps.any (h := i.header) (cs := i.contents) rfl rfl (fun v hv => by cases hv) (fun _ w rest hw hr' => ?_)
        obtain ⟨rfl, hrest⟩ := ber_whole hb hw hr'
        exact ⟨hrest, by simpa [hnil] using hta ht⟩
      · next hne =>
        split at h
        · cases h
        simp only [py_bind] at h
        obtain ⟨⟨i', h', t'⟩, h1, h⟩ := h
        cases h
        refine ⟨rfl, trivial, fun hb ht => ?_⟩
        have htd := hta ht
        rcases tidy_none htd with ⟨h2, _⟩ | ⟨e, h2, h3⟩
        · exact absurd h2 hne
        have h2 : choiceExplicit [] p = [e] := h2
        rw [h2] at h1
        obtain ⟨h4, h5, h6⟩ := explicitLoop_one h1
        obtain ⟨rest, h8, h9⟩ := (parse_ok_iff _ _).mp h4
        obtain ⟨hrest, _⟩ := h3 _ rest h9 h8
        subst hrest
        have hbytes : i.tlv.bytes = h' ++ i'.contents ++ t' := by
          have : i.tlv.bytes = i.header ++ i.contents ++ i.trailer := rfl
          rw [this, h5, h6, h8]; simp [Info.tlv, TLV.bytes]
        have hk : ∀ w rest, Ber 11 w → h' ++ i'.contents ++ t' = w.bytes ++ rest →
            rest = [] ∧ Tidy E none { explicit := choiceExplicit [] p } w := by
          intro w rest hw hr'
          obtain ⟨rfl, hrest⟩ := ber_whole hb hw (hbytes.trans hr')
          exact ⟨hrest, htd⟩
        rw [hbytes]
        exact Keeps.any (h := h') (cs := i'.contents) rfl rfl (fun v hv => by cases hv) (fun _ => hk)
    · next proto isBit hcls =>
      simp only [py_bind] at h
      obtain ⟨_, _, o, h1, h⟩ := h
      cases h
      refine ⟨rfl, trivial, fun hb ht => parsable_built h1 hb (hR.str c proto isBit hcls) ?_⟩
      have := tidy_base (by rw [hcls]; trivial) ht
      rwa [hcls] at this

theorem Reader.parseAs {v x v' : Val} {spec : Option ClassId} (h : parseAs E r v spec = .ok (x, v')) :
    v'.isVoid = false ∧ calm E Q v' := by
  cases v with
  | any c o p s =>
    obtain ⟨⟨_, _, rfl⟩, _⟩ := hr.anyParse h
    exact ⟨rfl, trivial⟩
  | parsable c o p s =>
    simp only [Asn1.parseAs, parsableParse] at h
    split at h
    · cases h; exact ⟨rfl, trivial⟩
    · simp only [py_bind] at h
      obtain ⟨_, _, _, _, h⟩ := h
      cases h; exact ⟨rfl, trivial⟩
  | _ => cases h

theorem Reader.build_step (hR : Regular E) {i : Info} {spec nested : Option ClassId} {p : Params} {v : Val} (hs : SpecOk E spec p)
    (h : buildStep E r i spec p nested = .ok v) :
    v.isVoid = false ∧ calm E Q v ∧ (nested = none → Ber 11 i.tlv → Tidy E spec p i.tlv → Keeps E Q v i.tlv.bytes) := by
  simp only [buildStep, py_bind] at h
  obtain ⟨v0, h0, h⟩ := h
  cases nested with
  | none =>
    cases h
    obtain ⟨h1, h2, h3⟩ := hr.builder.buildPlain hR hs h0
    exact ⟨h1, h2, fun _ => h3⟩
  | some n =>
    simp only [py_bind] at h
    obtain ⟨⟨x, v1⟩, h1, h⟩ := h
    cases h
    obtain ⟨h2, h3⟩ := hr.parseAs h1
    exact ⟨h2, h3, fun hn => by cases hn⟩

omit hr in
theorem construct_prim {c : ClassId} {p : Params} {v : Val} {x : PyVal} (hc : IsPrim (E.cls c))
    (h : constructStep E r c p x = .ok v) : v.isVoid = false ∧ calm E Q v := by
  simp only [constructStep] at h
  split at h
  · split at h
    · cases h; exact ⟨rfl, trivial⟩
    · simp only [py_bind] at h
      obtain ⟨_, _, h⟩ := h
      cases h; exact ⟨rfl, trivial⟩
    · cases h
  · next hcls => rw [hcls] at hc; exact hc.elim
  · next hcls => rw [hcls] at hc; exact hc.elim
  · next hcls => rw [hcls] at hc; exact hc.elim
  · next hcls => rw [hcls] at hc; exact hc.elim
  · split at h
    · cases h; exact ⟨rfl, trivial⟩
    · cases h; exact ⟨rfl, trivial⟩
    · cases h

end

section
variable {E : Env}

/-- The spec of a field suits its params. -/
theorem specOk_field (hE : PlainSchema E) {c : ClassId} {proto : Obj Unit} {bad : List Nat} {s : Bool} {fields : List Field} {oid : Option OidPair}
    (hc : E.cls c = .seq proto bad s fields oid) {f : Field} (hf : f ∈ fields) : SpecOk E (some f.spec) f.params := by
  intro k hk hs
  cases hk
  cases hd : f.params.default with
  | none => exact .inl rfl
  | some d =>
    have := hE.field c proto bad s fields oid hc f hf (by simp [hd])
    cases hsh : E.cls f.spec <;> simp_all [IsPrim, IsSeq]

theorem prim_or_none (hE : PlainSchema E) {c : ClassId} {proto : Obj Unit} {bad : List Nat} {s : Bool} {fields : List Field} {oid : Option OidPair}
    (hc : E.cls c = .seq proto bad s fields oid) {f : Field} (hf : f ∈ fields) (hp : ¬ IsPrim (E.cls f.spec)) :
    f.params.default = none := by
  cases hd : f.params.default with
  | none => rfl
  | some d => exact absurd (hE.field c proto bad s fields oid hc f hf (by simp [hd])) hp

theorem plain_regular (hE : PlainSchema E) : Regular E := ⟨hE.alt, hE.str⟩

theorem plain_suits (hE : PlainSchema E) (r : Ops) : Suits E (SpecOk E) r where
  free _ := fun _ h => by cases h
  field c proto bad s fields oid hc f hf := specOk_field hE hc hf
  any c proto bad s fields oid hc f hf ha spec := specOk_default_none (prim_or_none hE hc hf (by rw [ha]; simp [IsPrim]))
  replaced c proto bad s fields p hc f x c' hf hch := specOk_default_none (hE.replaced c proto bad s fields p hc f x c' hf hch)
  prim c proto bad s fields oid hc f hf hd v _ := hE.field c proto bad s fields oid hc f hf hd

theorem reader (hE : PlainSchema E) : ∀ n, Reader E (SpecOk E) (ops E n)
  | 0 => Reader.zero E _ (fun _ _ h => specOk_default_none h)
  | n + 1 =>
    have hr := reader hE n
    have hS := plain_suits hE (ops E n)
    { plain := fun _ _ h => specOk_default_none h
      native := fun h => hr.native_step hS h
      contents := fun h => hr.contents_step hS h
      dump := fun h => hr.dump_step hS h
      keep := fun hk h => hr.keep_step hk h
      build := fun hs h => hr.build_step (plain_regular hE) hs h
      construct := fun hc h => construct_prim hc h
      item := fun h => hr.getItem hS h }

/-- What the library builds without a DEFAULT keeps its bytes. -/
theorem builder (hR : Regular E) (Q : Cond) : ∀ n, Builder E Q (ops E n)
  | 0 => ⟨fun _ h => by cases h⟩
  | n + 1 => by
    refine ⟨fun {i spec p v} hp h => ?_⟩
    change buildStep E (ops E n) i spec p none = .ok v at h
    simp only [buildStep, py_bind] at h
    obtain ⟨v0, h0, h⟩ := h
    cases h
    exact (builder hR Q n).buildPlain hR (specOk_default_none hp) h0

/-- The library writes what is kept. -/
theorem keeper (hR : Regular E) (Q : Cond) : ∀ n {v b b' v'}, Keeps E Q v b → (ops E n).dump v false = .ok (b', v') → b' = b ∧ Keeps E Q v' b
  | 0, _, _, _, _, _, h => by cases h
  | n + 1, _, _, _, _, hk, h => (builder hR Q n).keep_step (keeper hR Q n) hk h

end

end Asn1
