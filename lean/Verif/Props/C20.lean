import Verif.Lemmas.SetOf
import Verif.Props.C16

/-!
# C20 — SET OF encodings are canonical

`Ascending es ws` (Spec/SetOf.lean): `ws` are the octet strings `es` in ascending order, none lost and none added.
-/

namespace Asn1.Props
open Asn1 Spec

/-- `es` are the encodings of the elements `cs`, in their order (elements not looked at yet are built first). -/
def ChildEncodings (r : Ops) (force : Bool) (cs : List Child) (es : List Bytes) : Prop :=
  List.Forall₂ (fun ch e => ∃ v v', buildChild r {} ch = .ok v ∧ r.dump v force = .ok (e, v')) cs es

/-- No element counts as changed right after it has been dumped. (Elements that are not containers never do.) -/
def Settled (r : Ops) (force : Bool) (cs : List Child) : Prop :=
  ∀ ch ∈ cs, ∀ v b v', buildChild r {} ch = .ok v → r.dump v force = .ok (b, v') → v'.isMutated = false

/-- Everything about an instance but its header, contents and trailer: class, method, tags. -/
def bare (o : Obj Unit) : Obj Unit := { o with header := none, contents := none, trailer := [] }

theorem childEncodings_iff (r : Ops) (force : Bool) : ∀ (cs : List Child) (es : List Bytes),
    ChildEncodings r force cs es ↔ ∃ qs, cs.mapM (encodeElement r force) = .ok qs ∧ es = qs.map Prod.fst
  | [], es => by
    constructor
    · intro h; cases h; exact ⟨[], rfl, rfl⟩
    · rintro ⟨qs, h, rfl⟩
      rw [List.mapM_nil] at h
      injection h with h
      subst h
      exact .nil
  | ch :: cs, es => by
    constructor
    · intro h
      cases h with
      | cons h1 h2 =>
        obtain ⟨v, v', h3, h4⟩ := h1
        obtain ⟨qs, h5, rfl⟩ := (childEncodings_iff r force cs _).mp h2
        refine ⟨(_, .val v') :: qs, mapM_ok_cons ?_ h5, rfl⟩
        simp only [encodeElement, h3, bind, Except.bind, h4]
    · rintro ⟨qs, h, rfl⟩
      obtain ⟨q, qs, h1, h2, rfl⟩ := mapM_cons_inv h
      refine .cons ?_ ((childEncodings_iff r force cs _).mpr ⟨qs, h2, rfl⟩)
      simp only [encodeElement, bind, Except.bind] at h1
      split at h1
      · cases h1
      · next v hv =>
        split at h1
        · cases h1
        · next q' hq =>
          injection h1 with h1
          exact ⟨v, q'.2, hv, by rw [hq, ← h1]⟩

theorem settled_children (r : Ops) (force : Bool) : ∀ (cs : List Child) (qs : List (Bytes × Child)), Settled r force cs →
    cs.mapM (encodeElement r force) = .ok qs → childrenMutated (qs.map Prod.snd) = false
  | [], qs, _, h => by
    rw [List.mapM_nil] at h
    injection h with h
    subst h
    rfl
  | ch :: cs, qs, hs, h => by
    obtain ⟨q, qs, h1, h2, rfl⟩ := mapM_cons_inv h
    simp only [encodeElement, bind, Except.bind] at h1
    split at h1
    · cases h1
    · next v hv =>
      split at h1
      · cases h1
      · next q' hq =>
        injection h1 with h1
        rw [← h1]
        simp only [List.map_cons, childrenMutated]
        rw [hs ch (by simp) v q'.1 q'.2 hv hq, settled_children r force cs qs (fun x hx => hs x (by simp [hx])) h2]
        rfl

section
variable (E : Env) (n : Nat) (c : ClassId) (proto : Obj Unit) (bad : List Nat) (child : ClassId)

/-- A changed (or forced, or indefinite-length) SetOf is encoded from its elements. -/
theorem dump_setOf (hE : E.cls c = .seqOf proto bad true (some child)) (o : Obj Unit) (cs : List Child) (m force : Bool)
    (hm : (force || headerEnds80 o.header) = true ∨ (Val.node c o (some cs) m).isMutated = true)
    (hs : (force || headerEnds80 o.header) = true → Settled (ops E n) true cs) :
    (ops E (n + 1)).dump (.node c o (some cs) m) force =
      (cs.mapM (encodeElement (ops E n) (force || headerEnds80 o.header))).bind (fun qs =>
        (asn1Dump false { o with contents := some ((qs.map Prod.fst).mergeSort bytesLe).flatten, header := none, trailer := [] }).map
          (fun q => (q.1, .node c q.2 (some (qs.map Prod.snd)) false))) := by
  show nodeDump E (ops E n) c o (some cs) m force = _
  generalize hf : (force || headerEnds80 o.header) = f at *
  have hplain : isPlainSequence E c = false := by simp only [isPlainSequence, hE]
  have hreq : ∀ x, checkRequired E c x = .ok () := by intro x; simp only [checkRequired, hE]
  unfold nodeDump
  simp only [hf, hplain, Bool.not_false, Bool.and_true, hreq]
  cases f with
  | false =>
    have hm : (Val.node c o (some cs) m).isMutated = true := hm.resolve_left (by simp)
    simp only [Bool.false_eq_true, if_false, bind, Except.bind, nodeContents, hm, if_true, setContents, ensureChildren, encodeChildren, hE,
      encodeElements_eq]
    cases List.mapM (encodeElement (ops E n) false) cs with
    | error e => rfl
    | ok qs =>
      simp only [Except.map]
  | true =>
    simp only [if_true, bind, Except.bind, setContents, ensureChildren, encodeChildren, hE, encodeElements_eq]
    cases hq : List.mapM (encodeElement (ops E n) true) cs with
    | error e => rfl
    | ok qs =>
      simp only [Except.map, nodeContents, Val.isMutated, Bool.false_or, settled_children _ _ cs qs (hs rfl) hq, Bool.false_eq_true, if_false]

/-- The encoding of a SetOf whose elements have been changed, or that is re-encoded by force, is the tagged
concatenation of the encodings of all elements in ascending order, none lost and none duplicated. -/
theorem C20_sorted (hE : E.cls c = .seqOf proto bad true (some child)) (o : Obj Unit) (ho : ClassObj (bare o) 1) (cs : List Child) (m force : Bool)
    (hm : (force || headerEnds80 o.header) = true ∨ (Val.node c o (some cs) m).isMutated = true)
    (hs : (force || headerEnds80 o.header) = true → Settled (ops E n) true cs) (b : Bytes) (v' : Val)
    (hd : (ops E (n + 1)).dump (.node c o (some cs) m) force = .ok (b, v')) (hf : Fits b) :
    ∃ es ws, ChildEncodings (ops E n) (force || headerEnds80 o.header) cs es ∧ Ascending es ws ∧
      Encoded o.explicit o.cls 1 o.tag ws.flatten b := by
  rw [dump_setOf E n c proto bad child hE o cs m force hm hs] at hd
  cases hq : cs.mapM (encodeElement (ops E n) (force || headerEnds80 o.header)) with
  | error e => rw [hq] at hd; cases hd
  | ok qs =>
    rw [hq] at hd
    simp only [Except.bind] at hd
    cases ha : asn1Dump false { o with contents := some ((qs.map Prod.fst).mergeSort bytesLe).flatten, header := none, trailer := [] } with
    | error e => rw [ha] at hd; cases hd
    | ok q =>
      rw [ha] at hd
      injection hd with hd
      have hb : q.1 = b := congrArg Prod.fst hd
      have henc := (asn1Dump_encoded
        (o := { o with contents := some ((qs.map Prod.fst).mergeSort bytesLe).flatten, header := none, trailer := [] })
        (c := ((qs.map Prod.fst).mergeSort bytesLe).flatten) rfl rfl ho.fresh.indefinite ho.cls
        (by show o.method < 2; rw [show o.method = 1 from ho.method]; decide) ho.explicit ha (by rw [hb]; exact hf)).1
      rw [hb] at henc
      simp only [show o.method = 1 from ho.method] at henc
      exact ⟨_, _, (childEncodings_iff _ _ _ _).mpr ⟨qs, hq, rfl⟩, sort_ascending _, henc⟩

/-- Two SetOf values with the same tags whose elements have the same encodings, in whatever order and however they came
about, encode identically. -/
theorem C20_canonical (hE : E.cls c = .seqOf proto bad true (some child)) (o o2 : Obj Unit) (ho : bare o = bare o2)
    (cs cs2 : List Child) (m m2 force force2 : Bool)
    (hm : (force || headerEnds80 o.header) = true ∨ (Val.node c o (some cs) m).isMutated = true)
    (hm2 : (force2 || headerEnds80 o2.header) = true ∨ (Val.node c o2 (some cs2) m2).isMutated = true)
    (hs : (force || headerEnds80 o.header) = true → Settled (ops E n) true cs)
    (hs2 : (force2 || headerEnds80 o2.header) = true → Settled (ops E n) true cs2)
    (es es2 : List Bytes) (he : ChildEncodings (ops E n) (force || headerEnds80 o.header) cs es)
    (he2 : ChildEncodings (ops E n) (force2 || headerEnds80 o2.header) cs2 es2) (hp : es.Perm es2)
    (b : Bytes) (v' : Val) (hd : (ops E (n + 1)).dump (.node c o (some cs) m) force = .ok (b, v')) :
    ∃ w', (ops E (n + 1)).dump (.node c o2 (some cs2) m2) force2 = .ok (b, w') := by
  obtain ⟨qs, hq, rfl⟩ := (childEncodings_iff _ _ _ _).mp he
  obtain ⟨qs2, hq2, rfl⟩ := (childEncodings_iff _ _ _ _).mp he2
  rw [dump_setOf E n c proto bad child hE o cs m force hm hs, hq] at hd
  rw [dump_setOf E n c proto bad child hE o2 cs2 m2 force2 hm2 hs2, hq2]
  simp only [Except.bind] at hd ⊢
  rw [sort_perm hp] at hd
  have hoo : ∀ x, ({ o with contents := x, header := none, trailer := [] } : Obj Unit) = { o2 with contents := x, header := none, trailer := [] } := by
    intro x
    have := congrArg (fun o : Obj Unit => { o with contents := x }) ho
    exact this
  rw [hoo] at hd
  cases ha : asn1Dump false { o2 with contents := some ((qs2.map Prod.fst).mergeSort bytesLe).flatten, header := none, trailer := [] } with
  | error e => rw [ha] at hd; cases hd
  | ok q =>
    rw [ha] at hd
    injection hd with hd
    exact ⟨.node c q.2 (some (qs2.map Prod.snd)) false, by rw [← show q.1 = b from congrArg Prod.fst hd]; rfl⟩

/-! ### Values built from a list -/

theorem childrenMutated_iff : ∀ cs : List Child, childrenMutated cs = true ↔ ∃ v, Child.val v ∈ cs ∧ v.isMutated = true
  | [] => by simp [childrenMutated]
  | .lazy i s k :: cs => by
    rw [childrenMutated, childrenMutated_iff cs]
    simp
  | .val v :: cs => by
    rw [childrenMutated, Bool.or_eq_true, childrenMutated_iff cs]
    constructor
    · rintro (h | ⟨w, h1, h2⟩)
      · exact ⟨v, by simp, h⟩
      · exact ⟨w, by simp [h1], h2⟩
    · rintro ⟨w, h1, h2⟩
      simp only [List.mem_cons, Child.val.injEq] at h1
      rcases h1 with rfl | h1
      · exact .inl h2
      · exact .inr ⟨w, h1, h2⟩

theorem childrenMutated_perm {cs cs2 : List Child} (h : cs.Perm cs2) : childrenMutated cs = childrenMutated cs2 := by
  rw [Bool.eq_iff_iff, childrenMutated_iff, childrenMutated_iff]
  exact ⟨fun ⟨v, a, b⟩ => ⟨v, h.mem_iff.mp a, b⟩, fun ⟨v, a, b⟩ => ⟨v, h.mem_iff.mpr a, b⟩⟩

/-- Encoding permuted elements gives the same contents and permuted elements. -/
theorem encodeChildren_perm (hE : E.cls c = .seqOf proto bad true (some child)) (r : Ops) (force : Bool) {cs cs2 : List Child} (h : cs.Perm cs2)
    {b : Bytes} {ds : List Child} (he : encodeChildren E r c force cs = .ok (b, ds)) :
    ∃ ds2, encodeChildren E r c force cs2 = .ok (b, ds2) ∧ ds.Perm ds2 := by
  simp only [encodeChildren, hE, encodeElements_eq, bind, Except.bind] at he ⊢
  cases hq : List.mapM (encodeElement r force) cs with
  | error e => rw [hq] at he; cases he
  | ok qs =>
    rw [hq] at he
    obtain ⟨qs2, hq2, hp⟩ := mapM_perm h hq
    rw [hq2]
    simp only [Except.map] at he ⊢
    injection he with he
    injection he with h1 h2
    refine ⟨qs2.map Prod.snd, ?_, ?_⟩
    · rw [← h1, sort_perm (hp.map Prod.fst)]
    · rw [← h2]; exact hp.map Prod.snd

/-- Two instances that differ only in the order of their elements. -/
def Reordered (v w : Val) : Prop := ∃ o cs cs2 m, v = .node c o (some cs) m ∧ w = .node c o (some cs2) m ∧ cs.Perm cs2

/-- Dumping two SetOf values that differ only in the order of their elements gives the same bytes, and leaves them
differing only in that order. -/
theorem dump_reordered (hE : E.cls c = .seqOf proto bad true (some child)) {v w : Val} (h : Reordered c v w) (force : Bool) {b : Bytes} {v' : Val}
    (hd : (ops E (n + 1)).dump v force = .ok (b, v')) :
    ∃ w', (ops E (n + 1)).dump w force = .ok (b, w') ∧ Reordered c v' w' := by
  obtain ⟨o, cs, cs2, m, rfl, rfl, hp⟩ := h
  have hd : nodeDump E (ops E n) c o (some cs) m force = .ok (b, v') := hd
  show ∃ w', nodeDump E (ops E n) c o (some cs2) m force = .ok (b, w') ∧ _
  have hreq : ∀ x, checkRequired E c x = .ok () := by intro x; simp only [checkRequired, hE]
  have hset : ∀ (o : Obj Unit) (f : Bool) (cs cs2 : List Child), cs.Perm cs2 → ∀ o' ds, setContents E (ops E n) c o (some cs) f = .ok (o', ds) →
      ∃ ds2, setContents E (ops E n) c o (some cs2) f = .ok (o', ds2) ∧ ds.Perm ds2 := by
    intro o f cs cs2 hp o' ds hc
    simp only [setContents, ensureChildren, bind, Except.bind] at hc ⊢
    cases hq : encodeChildren E (ops E n) c f cs with
    | error e => rw [hq] at hc; cases hc
    | ok q =>
      obtain ⟨b, ds'⟩ := q
      rw [hq] at hc
      obtain ⟨ds2, h1, h2⟩ := encodeChildren_perm E c proto bad child hE (ops E n) f hp hq
      rw [h1]
      injection hc with hc
      injection hc with h3 h4
      exact ⟨ds2, by rw [← h3], by rw [← h4]; exact h2⟩
  -- the part after the forced encoding
  have hrest : ∀ (o : Obj Unit) (cs cs2 : List Child) (m : Bool), cs.Perm cs2 →
      ((nodeContents E (ops E n) c o (some cs) m).bind (fun q => (asn1Dump false q.1).map (fun d => (d.1, Val.node c d.2 q.2.1 q.2.2)))) = .ok (b, v') →
      ∃ w', ((nodeContents E (ops E n) c o (some cs2) m).bind (fun q => (asn1Dump false q.1).map (fun d => (d.1, Val.node c d.2 q.2.1 q.2.2)))) = .ok (b, w') ∧
        Reordered c v' w' := by
    intro o cs cs2 m hp h
    have hmu : (Val.node c o (some cs2) m).isMutated = (Val.node c o (some cs) m).isMutated := by
      simp only [Val.isMutated, childrenMutated_perm hp]
    simp only [nodeContents, hmu] at h ⊢
    split at h
    · next hmm =>
      rw [if_pos hmm]
      cases hc : setContents E (ops E n) c o (some cs) false with
      | error e => rw [hc] at h; cases h
      | ok q =>
        obtain ⟨o', ds⟩ := q
        obtain ⟨ds2, h1, h2⟩ := hset o false cs cs2 hp o' ds hc
        rw [hc] at h
        rw [h1]
        simp only [bind, Except.bind] at h ⊢
        cases ha : asn1Dump false o' with
        | error e => rw [ha] at h; cases h
        | ok d =>
          rw [ha] at h
          injection h with h
          injection h with h3 h4
          exact ⟨_, by rw [← h3]; rfl, d.2, ds, ds2, false, h4.symm, rfl, h2⟩
    · next hmm =>
      rw [if_neg hmm]
      simp only [Except.bind] at h ⊢
      cases ha : asn1Dump false o with
      | error e => rw [ha] at h; cases h
      | ok d =>
        rw [ha] at h
        injection h with h
        injection h with h3 h4
        exact ⟨_, by rw [← h3]; rfl, d.2, cs, cs2, m, h4.symm, rfl, hp⟩
  unfold nodeDump at hd ⊢
  simp only [hreq, bind, Except.bind] at hd ⊢
  cases hf : (force || headerEnds80 o.header) && !isPlainSequence E c with
  | false =>
    rw [hf] at hd
    simp only [Bool.false_eq_true, if_false] at hd ⊢
    obtain ⟨w', h1, h2⟩ := hrest o cs cs2 m hp (by
      rw [← hd]
      cases nodeContents E (ops E n) c o (some cs) m with
      | error e => rfl
      | ok q =>
        simp only [Except.bind]
        cases asn1Dump false q.1 <;> rfl)
    refine ⟨w', ?_, h2⟩
    rw [← h1]
    cases nodeContents E (ops E n) c o (some cs2) m with
    | error e => rfl
    | ok q =>
      simp only [Except.bind]
      cases asn1Dump false q.1 <;> rfl
  | true =>
    rw [hf] at hd
    simp only [if_true] at hd ⊢
    cases hc : setContents E (ops E n) c o (some cs) true with
    | error e => rw [hc] at hd; cases hd
    | ok q =>
      obtain ⟨o', ds⟩ := q
      obtain ⟨ds2, h1, h2⟩ := hset o true cs cs2 hp o' ds hc
      rw [hc] at hd
      rw [h1]
      simp only at hd ⊢
      obtain ⟨w', h3, h4⟩ := hrest o' ds ds2 false h2 (by
        rw [← hd]
        cases nodeContents E (ops E n) c o' (some ds) false with
        | error e => rfl
        | ok q =>
          simp only [Except.bind]
          cases asn1Dump false q.1 <;> rfl)
      refine ⟨w', ?_, h4⟩
      rw [← h3]
      cases nodeContents E (ops E n) c o' (some ds2) false with
      | error e => rfl
      | ok q =>
        simp only [Except.bind]
        cases asn1Dump false q.1 <;> rfl

/-- Building a SetOf from a list and from any permutation of it gives values that encode identically, however often they
are dumped. -/
theorem C20_order (hE : E.cls c = .seqOf proto bad true (some child)) (hn : proto.contents = none) (p : Params) (hd : p.default = none)
    (xs ys : List PyVal) (hp : xs.Perm ys) (v : Val) (hv : (ops E (n + 1)).construct c p (.list xs) = .ok v) :
    ∃ w, (ops E (n + 1)).construct c p (.list ys) = .ok w ∧
      ∀ force b v', (ops E (n + 1)).dump v force = .ok (b, v') → ∃ w', (ops E (n + 1)).dump w force = .ok (b, w') := by
  have hv : constructStep E (ops E n) c p (.list xs) = .ok v := hv
  rw [construct_list E (ops E n) hE hn p hd] at hv
  show ∃ w, constructStep E (ops E n) c p (.list ys) = .ok w ∧ _
  rw [construct_list E (ops E n) hE hn p hd]
  cases hm : xs.mapM (makeElement E (ops E n) child) with
  | error e => rw [hm] at hv; cases hv
  | ok vs =>
    obtain ⟨vs2, hm2, hpv⟩ := mapM_perm hp hm
    rw [hm] at hv
    rw [hm2]
    simp only [Except.bind] at hv ⊢
    cases he : encodeChildren E (ops E n) c false (vs.map .val) with
    | error e => rw [he] at hv; cases hv
    | ok q =>
      obtain ⟨b, ds⟩ := q
      obtain ⟨ds2, he2, hpd⟩ := encodeChildren_perm E c proto bad child hE (ops E n) false (hpv.map Child.val) he
      rw [he] at hv
      rw [he2]
      injection hv with hv
      refine ⟨_, rfl, ?_⟩
      intro force b' v' h
      obtain ⟨w', h1, _⟩ := dump_reordered E n c proto bad child hE (w := .node c { initTagging proto p.tags with contents := some b, header := none, trailer := [] } (some ds2) false)
        ⟨_, ds, ds2, false, hv.symm, rfl, hpd⟩ force h
      exact ⟨w', h1⟩

theorem infos_of_elements : ∀ bs : List Bytes, (∀ e ∈ bs, ∃ i : Info, Ber 11 i.tlv ∧ i.tlv.bytes = e) →
    ∃ is : List Info, (∀ i ∈ is, Ber 11 i.tlv) ∧ is.map (fun i => i.tlv.bytes) = bs
  | [], _ => ⟨[], by simp, rfl⟩
  | e :: bs, h => by
    obtain ⟨i, h1, h2⟩ := h e (by simp)
    obtain ⟨is, h3, h4⟩ := infos_of_elements bs (fun e he => h e (by simp [he]))
    exact ⟨i :: is, by simpa using ⟨h1, h3⟩, by rw [List.map_cons, h2, h4]⟩

/-- Loading an encoding whose contents are sorted elements gives the elements. -/
theorem load_setOf (hE : E.cls c = .seqOf proto bad true (some child)) (hp : ClassObj proto 1) (p : Params) (hd : p.default = none)
    (hn : p.noExplicit = false) (hv : p.Valid) (himp : p.implicit = none ∨ proto.explicit = []) (es : List Bytes)
    (hone : ∀ e ∈ es, ∃ i : Info, Ber 11 i.tlv ∧ i.tlv.bytes = e) (b : Bytes) (o1 : Obj Unit)
    (ha : asn1Dump false { initTagging proto p.tags with contents := some (es.mergeSort bytesLe).flatten } = .ok (b, o1)) (hf : Fits b)
    (strict : Bool) :
    ∃ (w : Val) (is : List Info), loadVal E (ops E (n + 1)) c p b strict = .ok w ∧ (is.map (fun i : Info => i.tlv.bytes)).Perm es ∧
      ((lenOf E (ops E n) w).map Prod.fst = .ok es.length) ∧
      ∀ k i, is[k]? = some i → (getItem E (ops E n) w k).map Prod.fst = (ops E n).build i (some child) {} none := by
  have hcl := initTagging_valid hp hv hn
  obtain ⟨h, hl⟩ := load_dump_class (bad := bad) hcl (by decide) strict ha hf
  have hsrt := sort_ascending es
  obtain ⟨is, hb1, hb2⟩ := infos_of_elements (es.mergeSort bytesLe) (fun e he => hone e (hsrt.1.mem_iff.mp he))
  generalize hct : (es.mergeSort bytesLe).flatten = ct at *
  have hel : Elements ct (is.map Info.tlv) := by
    refine ⟨?_, by simpa using hb1⟩
    rw [← hct, ← hb2, List.map_map]; rfl
  generalize hog : ({ initTagging proto p.tags with header := some h, contents := some ct, trailer := [], native := none } : Obj Unit) = og at hl
  have hgc : og.contents = some ct := by rw [← hog]
  have hens : ensureChildren E (ops E n) c og none = .ok (is.map (fun i => .lazy i (some child) none)) := by
    simp only [ensureChildren, parseChildren, hE, hgc]
    exact (parseSeqOf_ok_iff (some child) ct _).mpr ⟨is, hel, rfl⟩
  refine ⟨.node c og none false, is, ?_, ?_, ?_, ?_⟩
  · rw [load_node E n c proto bad (.inr ⟨true, some child, hE⟩) p hd himp, hl]
    rfl
  · rw [hb2]; exact hsrt.1
  · simp only [lenOf, hens, bind, Except.bind, Except.map, List.length_map]
    have h1 := congrArg List.length hb2
    rw [List.length_map, List.length_mergeSort] at h1
    rw [h1]
  · intro k i hk
    simp only [getItem, hens, bind, Except.bind]
    rw [List.getElem?_map, hk]
    simp only [Option.map_some, hE, buildChild]
    cases (ops E n).build i (some child) {} none <;> rfl

/-- Loading the encoding gives the elements back, in ascending order: as many items as there were elements, and the `k`-th
item is the value built from the `k`-th of the sorted encodings. Missing from the property: that an element's
encoding is one BER element, which is taken as hypothesis `hone`; `C20_load_leaf` has no such hypothesis for elements
of primitive types. -/
theorem C20_load_partial (hE : E.cls c = .seqOf proto bad true (some child)) (hp : ClassObj proto 1) (p : Params) (hd : p.default = none)
    (hn : p.noExplicit = false) (hv : p.Valid) (himp : p.implicit = none ∨ proto.explicit = [])
    (o : Obj Unit) (ho : bare o = bare (initTagging proto p.tags)) (cs : List Child) (m force : Bool)
    (hm : (force || headerEnds80 o.header) = true ∨ (Val.node c o (some cs) m).isMutated = true)
    (hs : (force || headerEnds80 o.header) = true → Settled (ops E n) true cs)
    (es : List Bytes) (he : ChildEncodings (ops E n) (force || headerEnds80 o.header) cs es)
    (hone : ∀ e ∈ es, ∃ i : Info, Ber 11 i.tlv ∧ i.tlv.bytes = e)
    (b : Bytes) (v' : Val) (hdu : (ops E (n + 1)).dump (.node c o (some cs) m) force = .ok (b, v')) (hf : Fits b) (strict : Bool) :
    ∃ (w : Val) (is : List Info), loadVal E (ops E (n + 1)) c p b strict = .ok w ∧ (is.map (fun i : Info => i.tlv.bytes)).Perm es ∧
      ((lenOf E (ops E n) w).map Prod.fst = .ok es.length) ∧
      ∀ k i, is[k]? = some i → (getItem E (ops E n) w k).map Prod.fst = (ops E n).build i (some child) {} none := by
  obtain ⟨qs, hq, rfl⟩ := (childEncodings_iff _ _ _ _).mp he
  rw [dump_setOf E n c proto bad child hE o cs m force hm hs, hq] at hdu
  simp only [Except.bind] at hdu
  generalize hct : ((qs.map Prod.fst).mergeSort bytesLe).flatten = ct at hdu
  have hcl := initTagging_valid hp hv hn
  have hoo : ({ o with contents := some ct, header := none, trailer := [] } : Obj Unit) = { initTagging proto p.tags with contents := some ct } := by
    have h2 : ({ o with contents := some ct, header := none, trailer := [] } : Obj Unit) =
        { initTagging proto p.tags with contents := some ct, header := none, trailer := [] } :=
      congrArg (fun o : Obj Unit => { o with contents := some ct }) ho
    rw [h2]
    have h3 := hcl.fresh
    generalize initTagging proto p.tags = q at h3
    cases q
    obtain ⟨a, b, _⟩ := h3
    simp only at a b
    subst a b
    rfl
  rw [hoo] at hdu
  cases ha : asn1Dump false { initTagging proto p.tags with contents := some ct } with
  | error e => rw [ha] at hdu; cases hdu
  | ok q =>
    rw [ha] at hdu
    injection hdu with hdu
    have hb : q.1 = b := congrArg Prod.fst hdu
    exact load_setOf E n c proto bad child hE hp p hd hn hv himp (qs.map Prod.fst) hone b q.2 (by rw [hct, ha, ← hb]) hf strict

/-- A list of primitive values, built into a SetOf, dumped and loaded, comes back as the same multiset of encodings. -/
theorem C20_load_leaf (hE : E.cls c = .seqOf proto bad true (some child)) (hp : ClassObj proto 1) (hc : proto.contents = none) (p : Params)
    (hd : p.default = none) (hn : p.noExplicit = false) (hv : p.Valid) (himp : p.implicit = none ∨ proto.explicit = [])
    (cproto : LeafSt) (cbad : List Nat) (hEc : E.cls child = .leaf cproto cbad) (hcp : ClassObj cproto.base 0)
    (xs : List Scalar) (hx : ∀ x ∈ xs, x ≠ .none) (v v' : Val) (b : Bytes)
    (hcon : (ops E (n + 2)).construct c p (.list (xs.map .scalar)) = .ok v)
    (hdu : (ops E (n + 2)).dump v false = .ok (b, v')) (hf : Fits b) (strict : Bool) :
    ∃ (w : Val) (is : List Info) (es : List Bytes), loadVal E (ops E (n + 2)) c p b strict = .ok w ∧
      List.Forall₂ (fun x e => ∃ u u', (ops E (n + 1)).construct child {} (.scalar x) = .ok u ∧
        (ops E (n + 1)).dump u false = .ok (e, u')) xs es ∧
      (is.map (fun i : Info => i.tlv.bytes)).Perm es ∧ ((lenOf E (ops E (n + 1)) w).map Prod.fst = .ok xs.length) ∧
      ∀ k i, is[k]? = some i → (getItem E (ops E (n + 1)) w k).map Prod.fst = (ops E (n + 1)).build i (some child) {} none := by
  have hcon : constructStep E (ops E (n + 1)) c p (.list (xs.map .scalar)) = .ok v := hcon
  rw [construct_list E (ops E (n + 1)) hE hc p hd] at hcon
  have hcl := initTagging_valid hp hv hn
  cases hm : (xs.map PyVal.scalar).mapM (makeElement E (ops E (n + 1)) child) with
  | error e => rw [hm] at hcon; cases hcon
  | ok us =>
    rw [hm] at hcon
    simp only [Except.bind, encodeChildren, hE, encodeElements_eq, bind] at hcon
    cases hq : (us.map Child.val).mapM (encodeElement (ops E (n + 1)) false) with
    | error e => rw [hq] at hcon; cases hcon
    | ok qs =>
      rw [hq] at hcon
      simp only [Except.map] at hcon
      injection hcon with hcon
      -- the elements: constructed, dumped, not containers
      have key : ∀ (xs : List Scalar) (us : List Val) (qs : List (Bytes × Child)), (∀ x ∈ xs, x ≠ .none) →
          (xs.map PyVal.scalar).mapM (makeElement E (ops E (n + 1)) child) = .ok us →
          (us.map Child.val).mapM (encodeElement (ops E (n + 1)) false) = .ok qs →
          List.Forall₂ (fun x e => ∃ u u', (ops E (n + 1)).construct child {} (.scalar x) = .ok u ∧
            (ops E (n + 1)).dump u false = .ok (e, u')) xs (qs.map Prod.fst) ∧ childrenMutated (qs.map Prod.snd) = false := by
        intro xs
        induction xs with
        | nil =>
          intro us qs _ h1 h2
          simp only [List.map_nil, List.mapM_nil] at h1
          injection h1 with h1
          subst h1
          simp only [List.map_nil, List.mapM_nil] at h2
          injection h2 with h2
          subst h2
          exact ⟨.nil, rfl⟩
        | cons x xs ih =>
          intro us qs hx h1 h2
          simp only [List.map_cons] at h1
          obtain ⟨u, us, h3, h4, rfl⟩ := mapM_cons_inv h1
          simp only [List.map_cons] at h2
          obtain ⟨q, qs, h5, h6, rfl⟩ := mapM_cons_inv h2
          obtain ⟨h7, h8⟩ := ih us qs (fun x h => hx x (by simp [h])) h4 h6
          simp only [makeElement, hEc] at h3
          simp only [encodeElement, buildChild, bind, Except.bind] at h5
          have hu : ∃ s, u = .leaf child s := by
            rw [construct_leaf E n child cproto cbad hEc {} rfl x (hx x (by simp))] at h3
            cases hs : (cproto.init ({} : Params).tags).set x with
            | error e => rw [hs] at h3; cases h3
            | ok s => rw [hs] at h3; injection h3 with h3; exact ⟨s, h3.symm⟩
          obtain ⟨s, rfl⟩ := hu
          cases hdd : (ops E (n + 1)).dump (.leaf child s) false with
          | error e => rw [hdd] at h5; cases h5
          | ok d =>
            rw [hdd] at h5
            injection h5 with h5
            subst h5
            refine ⟨.cons ⟨_, d.2, h3, hdd⟩ h7, ?_⟩
            have hleaf : d.2.isMutated = false := by
              rw [dump_leaf] at hdd
              cases hsd : s.dump false with
              | error e => rw [hsd] at hdd; cases hdd
              | ok z => rw [hsd] at hdd; injection hdd with hdd; rw [← hdd]; simp only [Val.isMutated]
            simp only [List.map_cons, childrenMutated, hleaf, h8, Bool.false_or]
      obtain ⟨hes, hmut⟩ := key xs us qs hx hm hq
      rw [← hcon] at hdu
      have hoo : ({ initTagging proto p.tags with contents := some ((qs.map Prod.fst).mergeSort bytesLe).flatten, header := none, trailer := [] } : Obj Unit) =
          { initTagging proto p.tags with contents := some ((qs.map Prod.fst).mergeSort bytesLe).flatten } := by
        have h3 := hcl.fresh
        generalize initTagging proto p.tags = q at h3
        cases q
        obtain ⟨a, b, _⟩ := h3
        simp only at a b
        subst a b
        rfl
      rw [hoo] at hdu
      have h80 : headerEnds80 (initTagging proto p.tags).header = false := by rw [hcl.fresh.header]; rfl
      have hdu : nodeDump E (ops E (n + 1)) c { initTagging proto p.tags with contents := some ((qs.map Prod.fst).mergeSort bytesLe).flatten }
        (some (qs.map Prod.snd)) false false = .ok (b, v') := hdu
      simp only [nodeDump, h80, Bool.or_false, Bool.false_and, Bool.false_eq_true, if_false, bind, Except.bind, checkRequired, hE,
        nodeContents, Val.isMutated, hmut] at hdu
      cases ha : asn1Dump false { initTagging proto p.tags with contents := some ((qs.map Prod.fst).mergeSort bytesLe).flatten } with
      | error e => rw [ha] at hdu; cases hdu
      | ok q =>
        rw [ha] at hdu
        injection hdu with hdu
        have hb : q.1 = b := congrArg Prod.fst hdu
        -- every encoding is part of the contents, so it is small enough
        have hcb : ∃ h, b = h ++ ((qs.map Prod.fst).mergeSort bytesLe).flatten := by
          obtain ⟨_, h, h1, _⟩ := asn1Dump_encoded
            (o := { initTagging proto p.tags with contents := some ((qs.map Prod.fst).mergeSort bytesLe).flatten })
            (c := ((qs.map Prod.fst).mergeSort bytesLe).flatten) rfl hcl.fresh.header hcl.fresh.indefinite hcl.cls
            (by show (initTagging proto p.tags).method < 2; rw [hcl.method]; decide) hcl.explicit (b := b) (o' := q.2) (by rw [ha, ← hb]) hf
          exact ⟨h, h1⟩
        have hfit : ∀ e ∈ qs.map Prod.fst, Fits e := by
          intro e he
          obtain ⟨h, hh⟩ := hcb
          have h1 : Fits ((qs.map Prod.fst).mergeSort bytesLe).flatten := by rw [hh] at hf; exact hf.of_append_right
          have h2 : e ∈ (qs.map Prod.fst).mergeSort bytesLe := (List.mergeSort_perm _ _).mem_iff.mpr he
          obtain ⟨s, t, hst⟩ := List.append_of_mem h2
          rw [hst, List.flatten_append, List.flatten_cons] at h1
          exact h1.of_append_right.of_append_left
        have hone : ∀ e ∈ qs.map Prod.fst, ∃ i : Info, Ber 11 i.tlv ∧ i.tlv.bytes = e := by
          intro e he
          obtain ⟨k, hk, hke⟩ := List.getElem_of_mem he
          have hkx : k < xs.length := by rw [hes.length_eq]; exact hk
          obtain ⟨u, u', h1, h2⟩ := (List.forall₂_iff_get.mp hes).2 k hkx hk
          simp only [List.get_eq_getElem] at h1 h2
          rw [hke] at h2
          obtain ⟨_, _, _, _, _, henc⟩ := C16_dump E n child cproto cbad hEc hcp {} rfl rfl ⟨by simp, by simp⟩ xs[k]
            (hx _ (List.getElem_mem hkx)) u u' e h1 h2 (hfit e he)
          obtain ⟨t, h3, h4, _⟩ := wrapped_chain henc
          exact ⟨⟨t.cls, t.method, t.tag, t.header, t.contents, t.trailer⟩, Ber_mono h4 (by decide), h3⟩
        obtain ⟨w, is, h1, h2, h3, h4⟩ := load_setOf E (n + 1) c proto bad child hE hp p hd hn hv himp (qs.map Prod.fst) hone b q.2
          (by rw [ha, ← hb]) hf strict
        exact ⟨w, is, _, h1, hes, h2, by rw [h3, hes.length_eq], h4⟩

end

/-! ### Examples -/

/-- A SET OF INTEGER class. -/
def setOfInt : Env where
  cls := fun c => match c with
    | 0 => .leaf (.integer none { cls := 0, method := 0, tag := 2 }) []
    | _ => .seqOf { cls := 0, method := 1, tag := 17 } [] true (some 0)
  universal := fun _ => none

/-- The hypotheses of `C20_order` hold of a permuted list; `{3, 1, 2}` and `{2, 3, 1}` are encoded alike. -/
example : ([.scalar (.int 3), .scalar (.int 1), .scalar (.int 2)] : List PyVal).Perm [.scalar (.int 2), .scalar (.int 3), .scalar (.int 1)] ∧
    ((ops setOfInt 2).construct 1 {} (.list [.scalar (.int 3), .scalar (.int 1), .scalar (.int 2)])).isOk = true :=
  ⟨(List.perm_append_comm (l₁ := [PyVal.scalar (.int 3), .scalar (.int 1)]) (l₂ := [PyVal.scalar (.int 2)])), by decide +kernel⟩

/-- The integers 2 and 1 as elements of a changed SetOf, one built and one not looked at yet. -/
def twoElements : List Child :=
  [.val (.leaf 0 (.integer none { cls := 0, method := 0, tag := 2, contents := some [2] })), .lazy ⟨0, 0, 2, [2, 1], [1], []⟩ (some 0) none]

/-- The hypotheses of `C20_sorted`, `C20_canonical` and `C20_load_partial` hold of it. -/
example : (Val.node 1 { cls := 0, method := 1, tag := 17 } (some twoElements) true).isMutated = true ∧
    ChildEncodings (ops setOfInt 1) false twoElements [[2, 1, 2], [2, 1, 1]] ∧
    ((ops setOfInt 2).dump (.node 1 { cls := 0, method := 1, tag := 17 } (some twoElements) true) false).isOk = true := by
  have hs : ([[2, 1, 2], [2, 1, 1]] : List Bytes).mergeSort bytesLe = [[2, 1, 1], [2, 1, 2]] :=
    Spec.Ascending.unique (sort_ascending _) ⟨.swap _ _ _, .cons (by simpa using (bytesLe_iff _ _).mp rfl) (.cons (by simp) .nil)⟩
  have he : ChildEncodings (ops setOfInt 1) false twoElements [[2, 1, 2], [2, 1, 1]] := by
    rw [childEncodings_iff]
    exact ⟨_, rfl, rfl⟩
  refine ⟨rfl, he, ?_⟩
  obtain ⟨qs, hq, hqs⟩ := (childEncodings_iff _ _ _ _).mp he
  rw [dump_setOf setOfInt 1 1 { cls := 0, method := 1, tag := 17 } [] 0 rfl _ _ _ _ (.inr rfl) (fun h => by cases h)]
  rw [show (false || headerEnds80 ({ cls := 0, method := 1, tag := 17 } : Obj Unit).header) = false from rfl, hq]
  simp only [Except.bind]
  rw [← hqs, hs]
  rfl

end Asn1.Props
