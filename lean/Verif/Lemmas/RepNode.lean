import Verif.Lemmas.RepParse

/-! # SEQUENCE and SEQUENCE OF instances: contents, `dump` and `native` -/

namespace Asn1
open Spec

/-- The class is a SEQUENCE or SEQUENCE OF with these attributes. -/
def NodeProto (E : Env) (c : ClassId) (proto : Obj Unit) : Prop :=
  (∃ bad fields, E.cls c = .seq proto bad false fields none) ∨ (∃ bad ch, E.cls c = .seqOf proto bad false (some ch))

/-- The contents octets are those of the value. -/
inductive Body (E : Env) (c : ClassId) : AVal → Bytes → Prop
  | seq {proto : Obj Unit} {bad : List Nat} {fields : List Field} {as : List AVal} {data : Bytes} :
      E.cls c = .seq proto bad false fields none → FieldsDec E fields data as → Body E c (.seq as) data
  | list {proto : Obj Unit} {bad : List Nat} {ch : ClassId} {as : List AVal} {data : Bytes} :
      E.cls c = .seqOf proto bad false (some ch) → ListDec E ch data as → Body E c (.list as) data

/-- The children are those of the value. -/
inductive Kids (E : Env) (c : ClassId) : AVal → List Child → Prop
  | seq {proto : Obj Unit} {bad : List Nat} {fields : List Field} {as : List AVal} {cs : List Child} :
      E.cls c = .seq proto bad false fields none → FieldsRep E fields cs as → Kids E c (.seq as) cs
  | list {proto : Obj Unit} {bad : List Nat} {ch : ClassId} {as : List AVal} {cs : List Child} :
      E.cls c = .seqOf proto bad false (some ch) → ListRep E ch cs as → Kids E c (.list as) cs

/-- The contents are up to date. -/
def UpToDate (E : Env) (q : Bool) (c : ClassId) (p : Params) (a : AVal) (o : Obj Unit) : Prop :=
  ∃ data, o.contents = some data ∧ (Whole E c a → Body E c a data ∧ Headed E q c p a o data)

theorem rep_ne_absent {E : Env} {q : Bool} {c : ClassId} {p : Params} {v : Val} {a : AVal} (h : Rep E q c p v a) : a ≠ .absent := by
  cases h <;> (intro h; cases h)

theorem dec_ne_absent {E : Env} {c : ClassId} {p : Params} {t : TLV} {a : AVal} (h : Dec E c p t a) : a ≠ .absent := by
  cases h <;> (intro h; cases h)

theorem default_ne_absent {E : Env} {f : Field} {a : AVal} (h : DefaultIs E f a) : a ≠ .absent := by
  obtain ⟨_, _, _, _, _, _, _, rfl, _⟩ := h
  intro h; cases h

theorem fieldsDec_complete {E : Env} : ∀ {fs : List Field} {b : Bytes} {as : List AVal}, FieldsDec E fs b as → Complete fs as
  | [], _, _, h => by cases h; exact .nil
  | f :: fs, _, _, h => by
    cases h with
    | present h1 h2 => exact .cons (fun h => absurd h (dec_ne_absent h1)) (fieldsDec_complete h2)
    | absent h1 h2 => exact .cons (fun _ => h1) (fieldsDec_complete h2)
    | default h1 h2 => exact .cons (fun h => absurd h (default_ne_absent h1)) (fieldsDec_complete h2)

theorem body_whole {E : Env} {c : ClassId} {a : AVal} {data : Bytes} (h : Body E c a data) : Whole E c a := by
  cases h with
  | seq h1 h2 =>
    intro proto bad isSet fields oid h
    rw [h1] at h
    cases h
    exact fieldsDec_complete h2
  | list h1 h2 => simp only [Whole]

theorem whole_complete {E : Env} {c : ClassId} {as : List AVal} {proto : Obj Unit} {bad : List Nat} {isSet : Bool} {fields : List Field}
    {oid : Option OidPair} (h : E.cls c = .seq proto bad isSet fields oid) : Whole E c (.seq as) ↔ Complete fields as := by
  constructor
  · intro hw
    simp only [Whole] at hw
    exact hw _ _ _ _ _ h
  · intro hc
    simp only [Whole]
    intro _ _ _ _ _ h'
    rw [h] at h'
    cases h'
    exact hc

theorem whole_list {E : Env} {c : ClassId} {as : List AVal} : Whole E c (.list as) := by simp only [Whole]

/-- What it means that a SEQUENCE or SEQUENCE OF instance stands for a value. -/
theorem rep_node {E : Env} {q : Bool} {c c' : ClassId} {p : Params} {o : Obj Unit} {ch : Option (List Child)} {m : Bool} {a : AVal} :
    Rep E q c p (.node c' o ch m) a ↔ c' = c ∧ ∃ proto, NodeProto E c proto ∧ NodeTag proto p o ∧
      ((ch = none ∧ m = false ∧ ∃ data, o.contents = some data ∧ Body E c a data ∧ Headed E q c p a o data) ∨
       (∃ cs, ch = some cs ∧ Kids E c a cs ∧ ((Val.node c o (some cs) m).isMutated = false → UpToDate E q c p a o))) := by
  constructor
  · intro h
    cases h with
    | seqRaw h1 h2 h3 h4 h5 => exact ⟨rfl, _, .inl ⟨_, _, h1⟩, h2, .inl ⟨rfl, rfl, _, h3, .seq h1 h4, h5⟩⟩
    | listRaw h1 h2 h3 h4 h5 => exact ⟨rfl, _, .inr ⟨_, _, h1⟩, h2, .inl ⟨rfl, rfl, _, h3, .list h1 h4, h5⟩⟩
    | seq h1 h2 h3 h4 =>
      refine ⟨rfl, _, .inl ⟨_, _, h1⟩, h2, .inr ⟨_, rfl, .seq h1 h3, fun hm => ?_⟩⟩
      obtain ⟨data, g1, g2⟩ := h4 hm
      exact ⟨data, g1, fun hw => ⟨.seq h1 (g2 ((whole_complete h1).mp hw)).1, (g2 ((whole_complete h1).mp hw)).2⟩⟩
    | list h1 h2 h3 h4 =>
      refine ⟨rfl, _, .inr ⟨_, _, h1⟩, h2, .inr ⟨_, rfl, .list h1 h3, fun hm => ?_⟩⟩
      obtain ⟨data, g1, g2, g3⟩ := h4 hm
      exact ⟨data, g1, fun _ => ⟨.list h1 g2, g3⟩⟩
  · rintro ⟨rfl, proto, hp, ht, h⟩
    rcases h with ⟨rfl, rfl, data, h1, h2, h3⟩ | ⟨cs, rfl, h1, h2⟩
    · cases h2 with
      | seq g1 g2 =>
        rcases hp with ⟨_, _, hp⟩ | ⟨_, _, hp⟩ <;> (rw [g1] at hp; cases hp)
        exact .seqRaw g1 ht h1 g2 h3
      | list g1 g2 =>
        rcases hp with ⟨_, _, hp⟩ | ⟨_, _, hp⟩ <;> (rw [g1] at hp; cases hp)
        exact .listRaw g1 ht h1 g2 h3
    · cases h1 with
      | seq g1 g2 =>
        rcases hp with ⟨_, _, hp⟩ | ⟨_, _, hp⟩ <;> (rw [g1] at hp; cases hp)
        refine .seq g1 ht g2 (fun hm => ?_)
        obtain ⟨data, k1, k2⟩ := h2 hm
        refine ⟨data, k1, fun hw => ?_⟩
        obtain ⟨k3, k4⟩ := k2 ((whole_complete g1).mpr hw)
        refine ⟨?_, k4⟩
        cases k3 with
        | seq k5 k6 => rw [g1] at k5; cases k5; exact k6
      | list g1 g2 =>
        rcases hp with ⟨_, _, hp⟩ | ⟨_, _, hp⟩ <;> (rw [g1] at hp; cases hp)
        refine .list g1 ht g2 (fun hm => ?_)
        obtain ⟨data, k1, k2⟩ := h2 hm
        obtain ⟨k3, k4⟩ := k2 whole_list
        refine ⟨data, k1, ?_, k4⟩
        cases k3 with
        | list k5 k6 => rw [g1] at k5; cases k5; exact k6

/-! ### Contents and encodings -/

theorem body_dec {E : Env} {c : ClassId} {p : Params} {a : AVal} {data : Bytes} {proto : Obj Unit} {t u : TLV} (hp : NodeProto E c proto)
    (h : Body E c a data) (hF : Framed (proto.cls, proto.tag) p t u) (hm : u.method = 1) (hc : u.contents = data) : Dec E c p t a := by
  subst hc
  cases h with
  | seq g1 g2 =>
    rcases hp with ⟨_, _, hp⟩ | ⟨_, _, hp⟩ <;> (rw [g1] at hp; cases hp)
    exact .seq g1 hF hm g2
  | list g1 g2 =>
    rcases hp with ⟨_, _, hp⟩ | ⟨_, _, hp⟩ <;> (rw [g1] at hp; cases hp)
    exact .seqOf g1 hF hm g2

theorem nodeProto_blank {E : Env} {U : ClassId → Prop} (hU : Universe E U) {c : ClassId} {proto : Obj Unit} (hc : U c) (h : NodeProto E c proto) :
    BlankObj proto 1 := by
  rcases h with ⟨_, _, h⟩ | ⟨_, _, h⟩
  · exact plainNode_blank (hU.seq _ _ _ _ _ _ hc h).2.2.2.1
  · exact plainNode_blank (hU.seqOf _ _ _ _ _ hc h).2.2.1

theorem nodeProto_plain {E : Env} {U : ClassId → Prop} (hU : Universe E U) {c : ClassId} {proto : Obj Unit} (hc : U c) (h : NodeProto E c proto) :
    isPlainSequence E c = false := by
  rcases h with ⟨_, fields, h⟩ | ⟨_, _, h⟩
  · have := (hU.seq _ _ _ _ _ _ hc h).2.2.2.2.1
    unfold isPlainSequence
    rw [h]
    cases fields with
    | nil => exact absurd rfl this
    | cons f fs => rfl
  · unfold isPlainSequence
    rw [h]

/-- One field is written: its encoding, or nothing if it is absent or has its default value. -/
theorem fieldEncoding_rep {E : Env} {U : ClassId → Prop} {r : Ops} (hS : Sim E U r) {force : Bool} {f : Field} {fs : List Field} {ch ch' : Child}
    {cs : List Child} {a : AVal} {as : List AVal} {b : Bytes} (hg : GoodUse E U f.spec f.params) (h : FieldsRep E (f :: fs) (ch :: cs) (a :: as))
    (he : fieldEncoding r force f ch = .ok (b, ch')) :
    (∀ cs' as', FieldsRep E fs cs' as' → FieldsRep E (f :: fs) (ch' :: cs') (a :: as')) ∧
    ((a = .absent → f.params.optional = true) → ∀ bs as', FieldsDec E fs bs as' → FieldsDec E (f :: fs) (b ++ bs) (a :: as')) := by
  -- a field with a value
  have some' : ∀ {b0 : Bytes} {t : TLV} (ch0 : Child), t.bytes = b0 → Dec E f.spec f.params t a →
      (match f.params.default with
        | none => (.ok (b0, ch0) : Py (Bytes × Child))
        | some _ => do
          let d ← r.construct f.spec f.params (.scalar .none)
          let (db, _) ← r.dump d false
          .ok (if db = b0 then [] else b0, ch0)) = .ok (b, ch') →
      ch' = ch0 ∧ ∀ bs as', FieldsDec E fs bs as' → FieldsDec E (f :: fs) (b ++ bs) (a :: as') := by
    intro b0 t ch0 hb hd h
    cases hdf : f.params.default with
    | none =>
      rw [hdf] at h
      cases h
      exact ⟨rfl, fun bs as' k => hb ▸ .present hd k⟩
    | some dv =>
      rw [hdf] at h
      simp only [bind, Except.bind] at h
      cases hc : r.construct f.spec f.params (.scalar .none) with
      | error e => rw [hc] at h; cases h
      | ok d =>
        rw [hc] at h
        simp only at h
        cases hdd : r.dump d false with
        | error e => rw [hdd] at h; cases h
        | ok x =>
          obtain ⟨db, d'⟩ := x
          rw [hdd] at h
          simp only at h
          obtain ⟨a', k1, k2⟩ := hS.default (q := false) hg (by rw [hdf]; rfl) hc
          obtain ⟨_, t', k3, k4, _⟩ := hS.dump hg k2 hdd
          cases h
          refine ⟨rfl, fun bs as' k => ?_⟩
          split
          next heq =>
            have ht : t' = t := (Ber_unique (r := []) (r' := []) (dec_ber k4) (dec_ber hd) (by rw [k3, hb, heq])).1
            subst ht
            have k1' := k1
            obtain ⟨proto, bad, _, _, k5, _⟩ := k1
            rw [dec_leaf_unique k5 hd k4]
            exact .default k1' k
          next heq => exact hb ▸ .present hd k
  unfold fieldEncoding at he
  cases h with
  | @lazy _ _ i _ _ _ h1 h2 =>
    cases force with
    | false =>
      simp only [bind, Except.bind] at he
      obtain ⟨rfl, k⟩ := some' (.lazy i (some f.spec) none) rfl h1 he
      exact ⟨fun cs' as' k' => .lazy h1 k', fun _ => k⟩
    | true =>
      simp only [bind, Except.bind] at he
      cases hb : r.build i (some f.spec) f.params none with
      | error e => rw [hb] at he; cases he
      | ok v =>
        rw [hb] at he
        simp only at he
        have k1 := hS.build (q := false) hg h1 (fun h => by cases h) hb
        cases hd : r.dump v true with
        | error e => rw [hd] at he; cases he
        | ok x =>
          obtain ⟨db, v'⟩ := x
          rw [hd] at he
          simp only at he
          obtain ⟨k2, t, k3, k4, _⟩ := hS.dump hg k1 hd
          obtain ⟨rfl, k⟩ := some' (.val v') k3 k4 he
          exact ⟨fun cs' as' k' => .val k2 k', fun _ => k⟩
  | @val _ _ v _ _ _ h1 h2 =>
    simp only [bind, Except.bind] at he
    cases hd : r.dump v force with
    | error e => rw [hd] at he; cases he
    | ok x =>
      obtain ⟨db, v'⟩ := x
      rw [hd] at he
      simp only at he
      obtain ⟨k2, t, k3, k4, _⟩ := hS.dump hg h1 hd
      obtain ⟨rfl, k⟩ := some' (.val v') k3 k4 he
      exact ⟨fun cs' as' k' => .val k2 k', fun _ => k⟩
  | void h1 h2 =>
    simp only [bind, Except.bind, h1] at he
    cases hd : r.dump .void force with
    | error e => rw [hd] at he; cases he
    | ok x =>
      obtain ⟨db, v'⟩ := x
      rw [hd] at he
      obtain ⟨rfl, rfl⟩ := hS.voidDump hd
      cases he
      exact ⟨fun cs' as' k' => .void h1 k', fun ho bs as' k => .absent (ho rfl) k⟩

theorem encodeFields_rep {E : Env} {U : ClassId → Prop} {r : Ops} (hS : Sim E U r) {force : Bool} : ∀ {fs : List Field} {cs cs' : List Child}
    {as : List AVal} {b : Bytes}, (∀ f ∈ fs, GoodUse E U f.spec f.params) → FieldsRep E fs cs as → encodeFields r force fs cs = .ok (b, cs') →
    FieldsRep E fs cs' as ∧ (Complete fs as → FieldsDec E fs b as)
  | [], cs, cs', as, b, _, h, he => by
    cases h
    cases he
    exact ⟨.nil, fun _ => .nil⟩
  | f :: fs, cs, cs', as, b, hg, h, he => by
    have : ∃ ch cs1 a as1, cs = ch :: cs1 ∧ as = a :: as1 ∧ FieldsRep E fs cs1 as1 := by
      cases h with
      | lazy _ h => exact ⟨_, _, _, _, rfl, rfl, h⟩
      | val _ h => exact ⟨_, _, _, _, rfl, rfl, h⟩
      | void _ h => exact ⟨_, _, _, _, rfl, rfl, h⟩
    obtain ⟨ch, cs1, a, as1, rfl, rfl, h'⟩ := this
    simp only [encodeFields, bind, Except.bind] at he
    cases h1 : fieldEncoding r force f ch with
    | error e => rw [h1] at he; cases he
    | ok x =>
      obtain ⟨b1, ch1⟩ := x
      rw [h1] at he
      simp only at he
      cases h2 : encodeFields r force fs cs1 with
      | error e => rw [h2] at he; cases he
      | ok y =>
        obtain ⟨b2, cs2⟩ := y
        rw [h2] at he
        cases he
        obtain ⟨k1, k2⟩ := fieldEncoding_rep hS (hg f (by simp)) h h1
        obtain ⟨k3, k4⟩ := encodeFields_rep hS (fun g hm => hg g (by simp [hm])) h' h2
        refine ⟨k1 _ _ k3, fun hw => ?_⟩
        obtain ⟨w1, w2⟩ := List.forall₂_cons.mp hw
        exact k2 w1 _ _ (k4 w2)

theorem goodUse_plain {E : Env} {U : ClassId → Prop} {c : ClassId} (h : U c) : GoodUse E U c {} :=
  ⟨h, ⟨rfl, fun e h => (by cases h), fun e h => (by cases h), .inl rfl⟩, fun _ _ _ _ => ⟨rfl, rfl⟩, fun d h => (by cases h)⟩

theorem buildChild_rep {E : Env} {U : ClassId → Prop} {r : Ops} (hS : Sim E U r) {ch : ClassId} {x : Child} {cs : List Child} {as : List AVal}
    {v : Val} (hg : U ch) (h : ListRep E ch (x :: cs) as) (hb : buildChild r {} x = .ok v) :
    ∃ a as', as = a :: as' ∧ Rep E false ch {} v a ∧ ListRep E ch cs as' := by
  cases h with
  | lazy h1 h2 => exact ⟨_, _, rfl, hS.build (goodUse_plain hg) h1 (fun h => by cases h) hb, h2⟩
  | val h1 h2 =>
    cases hb
    exact ⟨_, _, rfl, h1, h2⟩

theorem encodeElements_rep {E : Env} {U : ClassId → Prop} {r : Ops} (hS : Sim E U r) {force : Bool} {ch : ClassId} (hg : U ch) :
    ∀ {cs cs' : List Child} {as : List AVal} {bs : List Bytes}, ListRep E ch cs as → encodeElements r force cs = .ok (bs, cs') →
    ListRep E ch cs' as ∧ ListDec E ch bs.flatten as
  | [], cs', as, bs, h, he => by
    cases h
    cases he
    exact ⟨.nil, .nil⟩
  | x :: cs, cs', as, bs, h, he => by
    simp only [encodeElements, bind, Except.bind] at he
    cases h1 : buildChild r {} x with
    | error e => rw [h1] at he; cases he
    | ok v =>
      rw [h1] at he
      simp only at he
      obtain ⟨a, as1, rfl, k1, k2⟩ := buildChild_rep hS hg h h1
      cases h2 : r.dump v force with
      | error e => rw [h2] at he; cases he
      | ok y =>
        obtain ⟨b, v'⟩ := y
        rw [h2] at he
        simp only at he
        cases h3 : encodeElements r force cs with
        | error e => rw [h3] at he; cases he
        | ok z =>
          obtain ⟨b2, cs2⟩ := z
          rw [h3] at he
          cases he
          obtain ⟨k3, t, k4, k5, _⟩ := hS.dump (goodUse_plain hg) k1 h2
          obtain ⟨k6, k7⟩ := encodeElements_rep hS hg k2 h3
          refine ⟨.val k3 k6, ?_⟩
          rw [List.flatten_cons, ← k4]
          exact .cons k5 k7

theorem encode_kids {E : Env} {U : ClassId → Prop} {r : Ops} (hU : Universe E U) (hS : Sim E U r) {c : ClassId} {force : Bool} {a : AVal}
    {cs cs' : List Child} {b : Bytes} (hc : U c) (h : Kids E c a cs) (he : encodeChildren E r c force cs = .ok (b, cs')) :
    Kids E c a cs' ∧ (Whole E c a → Body E c a b) := by
  cases h with
  | seq g1 g2 =>
    unfold encodeChildren at he
    rw [g1] at he
    obtain ⟨k1, k2⟩ := encodeFields_rep hS (hU.seq _ _ _ _ _ _ hc g1).2.2.2.2.2.2 g2 he
    exact ⟨.seq g1 k1, fun hw => .seq g1 (k2 ((whole_complete g1).mp hw))⟩
  | list g1 g2 =>
    unfold encodeChildren at he
    rw [g1] at he
    simp only [bind, Except.bind] at he
    obtain ⟨_, _, _, d, k0, hd⟩ := hU.seqOf _ _ _ _ _ hc g1
    cases k0
    cases h3 : encodeElements r force cs with
    | error e => rw [h3] at he; cases he
    | ok z =>
      obtain ⟨b2, cs2⟩ := z
      rw [h3] at he
      cases he
      obtain ⟨k1, k2⟩ := encodeElements_rep hS hd g2 h3
      exact ⟨.list g1 k1, fun _ => .list g1 k2⟩

theorem parse_kids {E : Env} {U : ClassId → Prop} {r : Ops} (hU : Universe E U) (hS : Sim E U r) {c : ClassId} {a : AVal} {cs : List Child}
    {b : Bytes} (hc : U c) (h : Body E c a b) (hp : parseChildren E r c (some b) = .ok cs) : Kids E c a cs := by
  cases h with
  | seq g1 g2 =>
    unfold parseChildren at hp
    rw [g1] at hp
    obtain ⟨_, _, _, _, _, hd, hf⟩ := hU.seq _ _ _ _ _ _ hc g1
    exact .seq g1 (parseSeq_rep hU hS hf hd g2 hp)
  | list g1 g2 =>
    unfold parseChildren at hp
    rw [g1] at hp
    exact .list g1 (parseSeqOf_rep g2 hp)

/-- The children of an instance. -/
theorem ensure_kids {E : Env} {U : ClassId → Prop} {r : Ops} (hU : Universe E U) (hS : Sim E U r) {q : Bool} {c c' : ClassId} {p : Params} {a : AVal}
    {o : Obj Unit} {ch : Option (List Child)} {m : Bool} {cs : List Child} (hc : U c) (h : Rep E q c p (.node c' o ch m) a)
    (he : ensureChildren E r c o ch = .ok cs) : Kids E c a cs ∧ ((Val.node c o (some cs) m).isMutated = false → UpToDate E q c p a o) ∧
      (ch = none → m = false ∧ UpToDate E q c p a o) := by
  obtain ⟨rfl, proto, _, _, h⟩ := rep_node.mp h
  rcases h with ⟨rfl, rfl, data, h1, h2, h3⟩ | ⟨cs', rfl, h1, h2⟩
  · unfold ensureChildren at he
    simp only [h1] at he
    exact ⟨parse_kids hU hS hc h2 he, fun _ => ⟨data, h1, fun _ => ⟨h2, h3⟩⟩, fun _ => ⟨rfl, data, h1, fun _ => ⟨h2, h3⟩⟩⟩
  · cases he
    exact ⟨h1, h2, fun h => (by cases h)⟩

theorem setContents_rep {E : Env} {U : ClassId → Prop} {r : Ops} (hU : Universe E U) (hS : Sim E U r) {c : ClassId} {a : AVal}
    {o o' : Obj Unit} {ch : Option (List Child)} {cs' : List Child} {force : Bool} (hc : U c)
    (h : ∀ cs, ensureChildren E r c o ch = .ok cs → Kids E c a cs) (he : setContents E r c o ch force = .ok (o', cs')) :
    Kids E c a cs' ∧ (∀ q p, UpToDate E q c p a o') ∧ o'.header = none ∧ (∀ proto p, NodeTag proto p o → NodeTag proto p o') := by
  unfold setContents at he
  simp only [bind, Except.bind] at he
  cases h1 : ensureChildren E r c o ch with
  | error e => rw [h1] at he; cases he
  | ok cs =>
    rw [h1] at he
    simp only at he
    cases h2 : encodeChildren E r c force cs with
    | error e => rw [h2] at he; cases he
    | ok x =>
      obtain ⟨b, cs2⟩ := x
      rw [h2] at he
      cases he
      obtain ⟨k1, k2⟩ := encode_kids hU hS hc (h cs h1) h2
      exact ⟨k1, fun q p => ⟨b, rfl, fun hw => ⟨k2 hw, fun h hh => (by cases hh)⟩⟩, rfl, fun proto p ht => ⟨ht.tag, ht.method, ht.implicit, ht.explicit⟩⟩

/-- The `contents` property brings the contents up to date. -/
theorem nodeContents_rep {E : Env} {U : ClassId → Prop} {r : Ops} (hU : Universe E U) (hS : Sim E U r) {q : Bool} {c c' : ClassId} {p : Params} {a : AVal}
    {o o' : Obj Unit} {ch ch' : Option (List Child)} {m m' : Bool} (hc : U c) (h : Rep E q c p (.node c' o ch m) a)
    (he : nodeContents E r c o ch m = .ok (o', ch', m')) :
    Rep E q c p (.node c' o' ch' m') a ∧ UpToDate E q c p a o' ∧ (∃ proto, NodeProto E c proto ∧ NodeTag proto p o') ∧
      (ch' = none → Whole E c a) ∧ (ch = none → ch' = none) ∧ (headerEnds80 o.header = false → headerEnds80 o'.header = false) := by
  obtain ⟨rfl, proto, hp, ht, h'⟩ := rep_node.mp h
  rcases h' with ⟨rfl, rfl, data, h1, h2, h3⟩ | ⟨cs, rfl, h1, h2⟩
  · cases he
    exact ⟨h, ⟨data, h1, fun _ => ⟨h2, h3⟩⟩, ⟨proto, hp, ht⟩, fun _ => body_whole h2, fun _ => rfl, fun h => h⟩
  · unfold nodeContents at he
    simp only at he
    split at he
    · simp only [bind, Except.bind] at he
      cases h3 : setContents E r c' o (some cs) false with
      | error e => rw [h3] at he; cases he
      | ok x =>
        obtain ⟨o1, cs1⟩ := x
        rw [h3] at he
        cases he
        obtain ⟨k1, k2, k3, k4⟩ := setContents_rep hU hS hc (fun cs2 h => by cases h; exact h1) h3
        exact ⟨rep_node.mpr ⟨rfl, proto, hp, k4 _ _ ht, .inr ⟨cs1, rfl, k1, fun _ => k2 _ _⟩⟩, k2 _ _, ⟨proto, hp, k4 _ _ ht⟩,
          fun h => (by cases h), fun h => (by cases h), fun _ => by rw [k3]; rfl⟩
    · next hm =>
      cases he
      exact ⟨h, h2 (Bool.not_eq_true _ ▸ hm), ⟨proto, hp, ht⟩, fun h => (by cases h), fun h => (by cases h), fun h => h⟩

theorem requiredPresent_complete {E : Env} : ∀ {fs : List Field} {cs : List Child} {as : List AVal}, FieldsRep E fs cs as →
    requiredPresent fs cs = .ok () → Complete fs as
  | [], _, _, h, _ => by cases h; exact .nil
  | f :: fs, _, _, h, hr => by
    cases h with
    | lazy h1 h2 => exact .cons (fun h => absurd h (dec_ne_absent h1)) (requiredPresent_complete h2 hr)
    | @val _ _ v cs _ _ h1 h2 =>
      have hr : requiredPresent fs cs = .ok () := by
        cases h1 <;> exact hr
      exact .cons (fun h => absurd h (rep_ne_absent h1)) (requiredPresent_complete h2 hr)
    | void h1 h2 =>
      simp only [requiredPresent, h1, Option.isSome_none, Bool.false_or] at hr
      split at hr
      · next ho => exact .cons (fun _ => ho) (requiredPresent_complete h2 hr)
      · cases hr

theorem checkRequired_whole {E : Env} {c : ClassId} {a : AVal} {cs : List Child} (h : Kids E c a cs) (hr : checkRequired E c (some cs) = .ok ()) :
    Whole E c a := by
  cases h with
  | seq g1 g2 =>
    unfold checkRequired at hr
    rw [g1] at hr
    exact (whole_complete g1).mpr (requiredPresent_complete g2 hr)
  | list _ _ => exact whole_list

/-- Writing the header. -/
theorem asn1Dump_rep {E : Env} {U : ClassId → Prop} (hU : Universe E U) {q : Bool} {c : ClassId} {p : Params} {a : AVal} {o o' : Obj Unit} {b : Bytes}
    {proto : Obj Unit} (hg : GoodUse E U c p) (hp : NodeProto E c proto) (ht : NodeTag proto p o) (hk : UpToDate E q c p a o) (hw : Whole E c a)
    (he : asn1Dump false o = .ok (b, o')) :
    NodeTag proto p o' ∧ UpToDate E q c p a o' ∧ o'.contents = o.contents ∧ (∃ data, o'.contents = some data ∧ Body E c a data ∧ Headed E q c p a o' data) ∧
      ∃ t : TLV, t.bytes = b ∧ Dec E c p t a ∧ (q = true → t.trailer = []) := by
  obtain ⟨data, h1, h2⟩ := hk
  obtain ⟨h3, h4⟩ := h2 hw
  have hbl := nodeProto_blank hU hg.mem hp
  unfold asn1Dump at he
  simp only [h1, Bool.false_or, Bool.false_and, Bool.false_eq_true, if_false] at he
  have new : ∀ h0 h', dumpHeader o.cls o.method o.tag data = .ok h0 → wrapExplicit o.explicit h0 data = .ok h' →
      (h' ++ data ++ [], { o with header := some h', trailer := [] }) = (b, o') →
      NodeTag proto p o' ∧ UpToDate E q c p a o' ∧ o'.contents = some data ∧ (∃ data, o'.contents = some data ∧ Body E c a data ∧ Headed E q c p a o' data) ∧
        ∃ t : TLV, t.bytes = b ∧ Dec E c p t a ∧ (q = true → t.trailer = []) := by
    intro h0 h' e1 e2 e3
    cases e3
    rw [ht.method] at e1
    rw [ht.explicit] at e2
    obtain ⟨t, u, f1, f2, f3, f4, f5, f6⟩ := dump_framed (d := (proto.cls, proto.tag)) (goodParams hg.tags).valid hbl.cls (by decide) ht.tag e1 e2
    have hd : Dec E c p t a := body_dec hp h3 f2 f4 f5
    have hh : Headed E q c p a { o with header := some h', trailer := [] } data := by
      intro h hh
      cases hh
      exact ⟨t, by rw [f1, List.append_nil], hd, fun _ => f3⟩
    exact ⟨⟨ht.tag, ht.method, ht.implicit, ht.explicit⟩, ⟨data, h1, fun _ => ⟨h3, hh⟩⟩, h1, ⟨data, h1, h3, hh⟩, t, by rw [f1, List.append_nil], hd, fun _ => f3⟩
  split at he
  · next h hh hf =>
    cases he
    obtain ⟨t, e1, e2, e3⟩ := h4 h hh
    exact ⟨ht, ⟨data, h1, h2⟩, rfl, ⟨data, h1, h3, h4⟩, t, e1, e2, e3⟩
  · simp only [bind, Except.bind] at he
    cases e1 : dumpHeader o.cls o.method o.tag data with
    | error e => rw [e1] at he; cases he
    | ok h0 =>
      rw [e1] at he
      simp only at he
      cases e2 : wrapExplicit o.explicit h0 data with
      | error e => rw [e2] at he; cases he
      | ok h' =>
        rw [e2] at he
        simp only [Except.ok.injEq] at he
        rw [h1]
        exact new h0 h' e1 e2 (by rw [h1]; exact he)

/-- `dump` of a SEQUENCE or SEQUENCE OF. -/
theorem nodeDump_rep {E : Env} {U : ClassId → Prop} {r : Ops} (hU : Universe E U) (hS : Sim E U r) {q : Bool} {c c' : ClassId} {p : Params} {a : AVal}
    {o : Obj Unit} {ch : Option (List Child)} {m force : Bool} {b : Bytes} {v : Val} (hg : GoodUse E U c p) (h : Rep E q c p (.node c' o ch m) a)
    (he : nodeDump E r c o ch m force = .ok (b, v)) :
    Rep E q c p v a ∧ Whole E c a ∧ ∃ t : TLV, t.bytes = b ∧ Dec E c p t a ∧ (q = true → t.trailer = []) := by
  have hc := hg.mem
  -- after the forced part
  have tail : ∀ {o : Obj Unit} {ch : Option (List Child)} {m : Bool}, Rep E q c p (.node c o ch m) a →
      (do
        checkRequired E c ch
        let (o, children, mutated) ← nodeContents E r c o ch m
        let (b, o) ← asn1Dump false o
        (.ok (b, .node c o children mutated) : Py (Bytes × Val))) = .ok (b, v) →
      Rep E q c p v a ∧ Whole E c a ∧ ∃ t : TLV, t.bytes = b ∧ Dec E c p t a ∧ (q = true → t.trailer = []) := by
    intro o ch m h he
    simp only [bind, Except.bind] at he
    cases h1 : checkRequired E c ch with
    | error e => rw [h1] at he; cases he
    | ok u =>
      rw [h1] at he
      simp only at he
      cases h2 : nodeContents E r c o ch m with
      | error e => rw [h2] at he; cases he
      | ok x =>
        obtain ⟨o1, ch1, m1⟩ := x
        rw [h2] at he
        simp only at he
        cases h3 : asn1Dump false o1 with
        | error e => rw [h3] at he; cases he
        | ok y =>
          obtain ⟨b1, o2⟩ := y
          rw [h3] at he
          cases he
          obtain ⟨k1, k2, ⟨proto, k3, k4⟩, k5, k6, _⟩ := nodeContents_rep hU hS hc h h2
          have hw : Whole E c a := by
            cases ch with
            | none => exact k5 (k6 rfl)
            | some cs =>
              obtain ⟨_, _, _, _, h'⟩ := rep_node.mp h
              rcases h' with ⟨h', _⟩ | ⟨cs', h', g1, _⟩
              · cases h'
              · cases h'
                exact checkRequired_whole g1 h1
          obtain ⟨d1, d2, d3, ⟨data, d4, d5, d6⟩, d7⟩ := asn1Dump_rep hU hg k3 k4 k2 hw h3
          obtain ⟨_, proto', _, _, h'⟩ := rep_node.mp k1
          refine ⟨rep_node.mpr ⟨rfl, proto, k3, d1, ?_⟩, hw, d7⟩
          rcases h' with ⟨rfl, rfl, _⟩ | ⟨cs', rfl, g1, _⟩
          · exact .inl ⟨rfl, rfl, data, d4, d5, d6⟩
          · exact .inr ⟨cs', rfl, g1, fun _ => d2⟩
  obtain ⟨rfl, proto, hp, ht, _⟩ := rep_node.mp h
  unfold nodeDump at he
  simp only [nodeProto_plain hU hc hp, Bool.not_false, Bool.and_true] at he
  split at he
  · simp only [bind, Except.bind] at he
    cases h1 : setContents E r c' o ch true with
    | error e => rw [h1] at he; cases he
    | ok x =>
      obtain ⟨o1, cs1⟩ := x
      rw [h1] at he
      simp only at he
      obtain ⟨k1, k2, k3, k4⟩ := setContents_rep hU hS hc (fun cs2 h2 => (ensure_kids hU hS hc h h2).1) h1
      exact tail (rep_node.mpr ⟨rfl, proto, hp, k4 _ _ ht, .inr ⟨cs1, rfl, k1, fun _ => k2 _ _⟩⟩) he
  · exact tail h he

/-! ### `native` -/

theorem fieldsRep_uncons {E : Env} {f : Field} {fs : List Field} {cs : List Child} {as : List AVal} (h : FieldsRep E (f :: fs) cs as) :
    ∃ ch cs1 a as1, cs = ch :: cs1 ∧ as = a :: as1 ∧ FieldsRep E fs cs1 as1 := by
  cases h with
  | lazy _ h => exact ⟨_, _, _, _, rfl, rfl, h⟩
  | val _ h => exact ⟨_, _, _, _, rfl, rfl, h⟩
  | void _ h => exact ⟨_, _, _, _, rfl, rfl, h⟩

/-- A child of a SEQUENCE once it has been built. -/
theorem buildField_rep {E : Env} {U : ClassId → Prop} {r : Ops} (hS : Sim E U r) {f : Field} {fs : List Field} {x : Child} {cs : List Child} {a : AVal}
    {as : List AVal} {v : Val} (hg : GoodUse E U f.spec f.params) (h : FieldsRep E (f :: fs) (x :: cs) (a :: as))
    (hb : buildChild r f.params x = .ok v) :
    (Rep E false f.spec f.params v a ∨ (v = .void ∧ a = .absent ∧ f.params.default = none)) ∧ (x = .val v ∨ ∃ i s n, x = .lazy i s n) := by
  cases h with
  | lazy h1 h2 => exact ⟨.inl (hS.build hg h1 (fun h => by cases h) hb), .inr ⟨_, _, _, rfl⟩⟩
  | val h1 h2 => cases hb; exact ⟨.inl h1, .inl rfl⟩
  | void h1 h2 => cases hb; exact ⟨.inr ⟨rfl, rfl, h1⟩, .inl rfl⟩

theorem fieldsRep_cons {E : Env} {f : Field} {fs : List Field} {cs : List Child} {a : AVal} {as : List AVal} {v : Val}
    (h : Rep E false f.spec f.params v a ∨ (v = .void ∧ a = .absent ∧ f.params.default = none)) (hs : FieldsRep E fs cs as) :
    FieldsRep E (f :: fs) (.val v :: cs) (a :: as) := by
  rcases h with h | ⟨rfl, rfl, h⟩
  · exact .val h hs
  · exact .void h hs

theorem nativeFields_rep {E : Env} {U : ClassId → Prop} {r : Ops} (hS : Sim E U r) (all : List Field) : ∀ {fs : List Field} {pre : List Field}
    {cs cs' : List Child} {as : List AVal} {ns : List (String × PyVal)}, all = pre ++ fs → (∀ f ∈ fs, GoodUse E U f.spec f.params) →
    FieldsRep E fs cs as → nativeFields r all pre.length cs = .ok (ns, cs') → ns = AVal.natives E fs as ∧ FieldsRep E fs cs' as
  | [], pre, cs, cs', as, ns, _, _, h, he => by
    cases h
    cases he
    exact ⟨rfl, .nil⟩
  | f :: fs, pre, cs, cs', as, ns, ha, hg, h, he => by
    have hgf := hg f (by simp)
    obtain ⟨ch, cs1, a, as1, rfl, rfl, h'⟩ := fieldsRep_uncons h
    have hf : all[pre.length]? = some f := by rw [ha]; simp
    simp only [nativeFields, paramsAt, hf, Option.map_some, Option.getD_some, bind, Except.bind] at he
    cases h1 : buildChild r f.params ch with
    | error e => rw [h1] at he; cases he
    | ok v =>
      rw [h1] at he
      simp only at he
      cases h2 : r.native v with
      | error e => rw [h2] at he; cases he
      | ok y =>
        obtain ⟨n, v'⟩ := y
        rw [h2] at he
        simp only at he
        cases h3 : nativeFields r all (pre.length + 1) cs1 with
        | error e => rw [h3] at he; cases he
        | ok z =>
          obtain ⟨ns1, cs2⟩ := z
          rw [h3] at he
          cases he
          obtain ⟨k1, k2⟩ := nativeFields_rep hS all (pre := pre ++ [f]) (by simp [ha]) (fun g hm => hg g (by simp [hm])) h' (by simpa using h3)
          have hv : n = a.native E f.spec ∧ (Rep E false f.spec f.params v' a ∨ (v' = .void ∧ a = .absent ∧ f.params.default = none)) := by
            rcases (buildField_rep hS hgf h h1).1 with g | ⟨rfl, rfl, g⟩
            · obtain ⟨g1, g2⟩ := hS.native hgf g h2
              exact ⟨g1, .inl g2⟩
            · obtain ⟨rfl, rfl⟩ := hS.voidNative h2
              exact ⟨by simp only [AVal.native], .inr ⟨rfl, rfl, g⟩⟩
          refine ⟨?_, fieldsRep_cons hv.2 k2⟩
          rw [AVal.natives, k1, hv.1]

theorem nativeElements_rep {E : Env} {U : ClassId → Prop} {r : Ops} (hS : Sim E U r) {ch : ClassId} (hg : U ch) : ∀ {cs cs' : List Child}
    {as : List AVal} {ns : List PyVal}, ListRep E ch cs as → nativeElements r cs = .ok (ns, cs') →
    ns = AVal.elements E ch as ∧ ListRep E ch cs' as
  | [], cs', as, ns, h, he => by
    cases h
    cases he
    exact ⟨by simp only [AVal.elements], .nil⟩
  | x :: cs, cs', as, ns, h, he => by
    simp only [nativeElements, bind, Except.bind] at he
    cases h1 : buildChild r {} x with
    | error e => rw [h1] at he; cases he
    | ok v =>
      rw [h1] at he
      simp only at he
      obtain ⟨a, as1, rfl, k1, k2⟩ := buildChild_rep hS hg h h1
      cases h2 : r.native v with
      | error e => rw [h2] at he; cases he
      | ok y =>
        obtain ⟨n, v'⟩ := y
        rw [h2] at he
        simp only at he
        cases h3 : nativeElements r cs with
        | error e => rw [h3] at he; cases he
        | ok z =>
          obtain ⟨b2, cs2⟩ := z
          rw [h3] at he
          cases he
          obtain ⟨k3, k4⟩ := hS.native (goodUse_plain hg) k1 h2
          obtain ⟨k5, k6⟩ := nativeElements_rep hS hg k2 h3
          exact ⟨by rw [AVal.elements, k3, k5], .val k4 k6⟩

theorem nodeNative_rep {E : Env} {U : ClassId → Prop} {r : Ops} (hU : Universe E U) (hS : Sim E U r) {q : Bool} {c c' : ClassId} {p : Params} {a : AVal}
    {o : Obj Unit} {ch : Option (List Child)} {m : Bool} {x : PyVal} {v : Val} (hg : GoodUse E U c p) (h : Rep E q c p (.node c' o ch m) a)
    (he : nodeNative E r c o ch m = .ok (x, v)) : x = a.native E c ∧ Rep E q c p v a := by
  have hc := hg.mem
  unfold nodeNative at he
  simp only [bind, Except.bind] at he
  cases h2 : nodeContents E r c o ch m with
  | error e => rw [h2] at he; cases he
  | ok y =>
    obtain ⟨o1, ch1, m1⟩ := y
    rw [h2] at he
    simp only at he
    obtain ⟨k1, k2, ⟨proto, k3, k4⟩, k5, k6, _⟩ := nodeContents_rep hU hS hc h h2
    obtain ⟨data, d1, d2⟩ := id k2
    simp only [d1] at he
    cases h3 : ensureChildren E r c o1 ch1 with
    | error e => rw [h3] at he; cases he
    | ok cs =>
      rw [h3] at he
      simp only at he
      have h4 := (ensure_kids hU hS hc k1 h3).1
      cases h4 with
      | seq g1 g2 =>
        rw [g1] at he
        simp only at he
        rename_i fields as
        cases h5 : nativeFields r fields 0 cs with
        | error e => rw [h5] at he; cases he
        | ok z =>
          obtain ⟨ns, cs1⟩ := z
          rw [h5] at he
          cases he
          obtain ⟨n1, n2⟩ := nativeFields_rep hS fields (pre := []) rfl (hU.seq _ _ _ _ _ _ hc g1).2.2.2.2.2.2 g2 h5
          refine ⟨by rw [n1, AVal.native, g1], rep_node.mpr ⟨rfl, proto, k3, k4, .inr ⟨cs1, rfl, .seq g1 n2, fun _ => k2⟩⟩⟩
      | list g1 g2 =>
        rw [g1] at he
        simp only at he
        obtain ⟨_, _, _, d, k0, hd⟩ := hU.seqOf _ _ _ _ _ hc g1
        cases k0
        cases h5 : nativeElements r cs with
        | error e => rw [h5] at he; cases he
        | ok z =>
          obtain ⟨ns, cs1⟩ := z
          rw [h5] at he
          cases he
          obtain ⟨n1, n2⟩ := nativeElements_rep hS hd g2 h5
          refine ⟨by rw [n1, AVal.native, g1], rep_node.mpr ⟨rfl, proto, k3, k4, .inr ⟨cs1, rfl, .list g1 n2, fun _ => k2⟩⟩⟩

end Asn1
