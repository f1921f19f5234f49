import Verif.Lemmas.NameText

namespace Asn1.Names
open Asn1 Spec

variable (T : Tables)

theorem preparedRdn_ready {r : List Attr} {q : List (Str × Str)} (h : PreparedRdn T r q) :
    Ready T r (q.map fun e => (e.1, .str e.2)) := by
  induction h with
  | nil => exact .nil
  | cons h1 _ ih => exact .cons h1 ih

theorem preparedRdn_types {r : List Attr} {q : List (Str × Str)} (h : PreparedRdn T r q) :
    q.map Prod.fst = getTypes r := by
  rw [← (preparedRdn_ready T h).keys, List.map_map]
  rfl

theorem dict_append {β : Type} (d l : List (Str × β)) (h : ((d ++ l).map Prod.fst).Nodup) : dict d l = d ++ l := by
  induction l generalizing d with
  | nil => simp [dict]
  | cons e es ih =>
    show dict (put d e.1 e.2) es = _
    have hp : put d e.1 e.2 = d ++ [e] := by
      unfold put
      rw [if_neg]
      intro hc
      obtain ⟨x, hx, hxe⟩ := List.any_eq_true.1 hc
      rw [List.map_append, List.nodup_append] at h
      exact h.2.2 x.1 (List.mem_map_of_mem hx) e.1 (by simp) (by simpa using hxe)
    rw [hp, ih _ (by simpa using h)]
    simp

theorem getValues_prepared {r : List Attr} {q : List (Str × Str)} (h : PreparedRdn T r q)
    (hn : (r.map Attr.type).Nodup) : getValues T r [] = .ok (q.map fun e => (e.1, .str e.2)) := by
  refine (getValues_ok T r [] _).2 ⟨_, preparedRdn_ready T h, ?_⟩
  rw [dict_append]
  · rfl
  · rw [List.nil_append, List.map_map]
    show (q.map Prod.fst).Nodup
    rw [preparedRdn_types T h]
    exact hn

theorem look_texts (q : List (Str × Str)) (t : Str) :
    look (q.map fun e => (e.1, Prepped.str e.2)) t = (look q t).map .str := by
  unfold look
  rw [List.find?_map, Option.map_map, Option.map_map]
  rfl

theorem look_mem_iff {β : Type} (q : List (Str × β)) (hn : (q.map Prod.fst).Nodup) (t : Str) (v : β) :
    look q t = some v ↔ (t, v) ∈ q := by
  constructor
  · intro h
    unfold look at h
    obtain ⟨e, he, rfl⟩ := Option.map_eq_some_iff.1 h
    have h1 := List.find?_some he
    have h2 : e.1 = t := by simpa using h1
    exact h2 ▸ List.mem_of_find?_eq_some he
  · intro h
    have := look_dict_mem [] q t v hn h
    rwa [dict_append _ _ (by simpa using hn)] at this

theorem look_isSome {β : Type} (q : List (Str × β)) (t : Str) (h : t ∈ q.map Prod.fst) : ∃ v, look q t = some v := by
  obtain ⟨e, he, rfl⟩ := List.mem_map.1 h
  unfold look
  cases hf : q.find? fun x => x.1 == e.1 with
  | none => exact absurd (List.find?_eq_none.1 hf e he) (by simp)
  | some x => exact ⟨x.2, rfl⟩

theorem perm_of_look {β : Type} (p q : List (Str × β)) (hp : (p.map Prod.fst).Nodup) (hq : (q.map Prod.fst).Nodup)
    (hk : ∀ t, t ∈ p.map Prod.fst ↔ t ∈ q.map Prod.fst) (h : ∀ t ∈ p.map Prod.fst, look p t = look q t) : p.Perm q := by
  rw [List.perm_ext_iff_of_nodup (List.Nodup.of_map _ hp) (List.Nodup.of_map _ hq)]
  rintro ⟨t, v⟩
  rw [← look_mem_iff p hp, ← look_mem_iff q hq]
  by_cases ht : t ∈ p.map Prod.fst
  · rw [h t ht]
  · refine ⟨fun hl => absurd (List.mem_map_of_mem (f := Prod.fst) ((look_mem_iff p hp t v).1 hl)) ht, fun hl => ?_⟩
    exact absurd ((hk t).2 (List.mem_map_of_mem (f := Prod.fst) ((look_mem_iff q hq t v).1 hl))) ht

theorem look_perm {β : Type} {p q : List (Str × β)} (hp : (p.map Prod.fst).Nodup) (h : p.Perm q) (t : Str) :
    look p t = look q t := by
  have hq : (q.map Prod.fst).Nodup := (h.map Prod.fst).nodup_iff.1 hp
  refine Option.ext fun v => ?_
  rw [look_mem_iff p hp, look_mem_iff q hq, h.mem_iff]

/-- RDNs of texts with distinct types are equal exactly if they have the same attributes. -/
theorem rdnEq_prepared {a b : List Attr} {p q : List (Str × Str)} (ha : PreparedRdn T a p) (hb : PreparedRdn T b q)
    (hna : (a.map Attr.type).Nodup) (hnb : (b.map Attr.type).Nodup) : rdnEq T a b = .ok true ↔ p.Perm q := by
  have hp : (p.map Prod.fst).Nodup := by rw [preparedRdn_types T ha]; exact hna
  have hq : (q.map Prod.fst).Nodup := by rw [preparedRdn_types T hb]; exact hnb
  rw [rdnEq_true, getValues_prepared T ha hna, getValues_prepared T hb hnb]
  unfold SameTypes
  rw [← preparedRdn_types T ha, ← preparedRdn_types T hb]
  constructor
  · rintro ⟨_, hk, va, vb, hva, hvb, h⟩
    cases Except.ok.inj hva
    cases Except.ok.inj hvb
    refine perm_of_look p q hp hq hk fun t ht => ?_
    obtain ⟨v, hv⟩ := look_isSome p t ht
    obtain ⟨w, hw⟩ := look_isSome q t ((hk t).1 ht)
    have := h t ht
    rw [look_texts, look_texts, hv, hw] at this
    simp only [Option.map_some, Option.getD_some, Prepped.key, Sum.inl.injEq] at this
    rw [hv, hw, this]
  · intro h
    refine ⟨by rw [ha.length_eq, hb.length_eq, h.length_eq], fun t => (h.map Prod.fst).mem_iff, _, _, rfl, rfl, ?_⟩
    intro t _
    rw [look_texts, look_texts, look_perm hp h]

theorem rdnEq_total {a b : List Attr} {p q : List (Str × Str)} (ha : PreparedRdn T a p) (hb : PreparedRdn T b q) :
    ∃ r, rdnEq T a b = .ok r := by
  have h1 := (getValues_ok T a [] _).2 ⟨_, preparedRdn_ready T ha, rfl⟩
  have h2 := (getValues_ok T b [] _).2 ⟨_, preparedRdn_ready T hb, rfl⟩
  unfold rdnEq
  split
  · exact ⟨_, rfl⟩
  · split
    · exact ⟨_, rfl⟩
    · rw [h1, h2]; exact ⟨_, rfl⟩

/-- One part of a hashable string. -/
def item (q : List (Str × Str)) (k : Str) : Str := k ++ [':', ' '] ++ (look q k).getD []

/-- The parts of the hashable string of an RDN. -/
def items (q : List (Str × Str)) : List Str := ((q.map Prod.fst).mergeSort strLe).map (item q)

theorem rdnHashable_prepared {r : List Attr} {q : List (Str × Str)} (h : PreparedRdn T r q)
    (hn : (r.map Attr.type).Nodup) : rdnHashable T r = .ok (pyJoin [Char.ofNat 0x1f] (items q)) := by
  unfold rdnHashable
  rw [getValues_prepared T h hn]
  show Except.ok _ = Except.ok _
  congr 2
  unfold items
  rw [List.map_map]
  show List.map _ ((q.map Prod.fst).mergeSort strLe) = _
  refine List.map_congr_left fun k hk => ?_
  have hk := (List.mergeSort_perm _ _).mem_iff.1 hk
  obtain ⟨v, hv⟩ := look_isSome q k hk
  simp only [look_texts, item, hv]
  rfl

theorem item_inj {p q : List (Str × Str)} {k l : Str} (hk : ∀ c ∈ k, c ≠ ':') (hl : ∀ c ∈ l, c ≠ ':')
    (h : item p k = item q l) : k = l ∧ (look p k).getD [] = (look q l).getD [] := by
  unfold item at h
  have h1 : pySplit ':' (k ++ ':' :: ([' '] ++ (look p k).getD [])) = pySplit ':' (l ++ ':' :: ([' '] ++ (look q l).getD [])) := by
    congr 1
    simpa using h
  rw [pySplit_append _ _ _ hk, pySplit_append _ _ _ hl] at h1
  have h2 := (List.cons.inj h1).1
  subst h2
  exact ⟨rfl, by simpa using h⟩

theorem items_perm {p q : List (Str × Str)} (hp : (p.map Prod.fst).Nodup) (h : p.Perm q) : items p = items q := by
  unfold items
  rw [sort_eq (h.map Prod.fst)]
  refine List.map_congr_left fun k _ => ?_
  unfold item
  rw [look_perm hp h]

theorem perm_of_items {p q : List (Str × Str)} (hp : (p.map Prod.fst).Nodup) (hq : (q.map Prod.fst).Nodup)
    (tp : ∀ e ∈ p, ∀ c ∈ e.1, c ≠ ':') (tq : ∀ e ∈ q, ∀ c ∈ e.1, c ≠ ':') (h : items p = items q) : p.Perm q := by
  have aux : ∀ (ks ls : List Str), (∀ k ∈ ks, ∀ c ∈ k, c ≠ ':') → (∀ k ∈ ls, ∀ c ∈ k, c ≠ ':') →
      ks.map (item p) = ls.map (item q) → ks = ls ∧ ∀ k ∈ ks, (look p k).getD [] = (look q k).getD [] := by
    intro ks
    induction ks with
    | nil => intro ls _ _ h; cases ls with
      | nil => exact ⟨rfl, by simp⟩
      | cons => cases h
    | cons k ks ih =>
      intro ls hk hl h
      cases ls with
      | nil => cases h
      | cons l ls =>
        rw [List.map_cons, List.map_cons, List.cons.injEq] at h
        obtain ⟨rfl, h2⟩ := item_inj (hk k (by simp)) (hl l (by simp)) h.1
        obtain ⟨rfl, h3⟩ := ih ls (fun k hk' => hk k (by simp [hk'])) (fun k hk' => hl k (by simp [hk'])) h.2
        refine ⟨rfl, fun x hx => ?_⟩
        rcases List.mem_cons.1 hx with rfl | hx
        · exact h2
        · exact h3 x hx
  have kp : ∀ k ∈ (p.map Prod.fst).mergeSort strLe, ∀ c ∈ k, c ≠ ':' := by
    intro k hk
    obtain ⟨e, he, rfl⟩ := List.mem_map.1 ((List.mergeSort_perm _ _).mem_iff.1 hk)
    exact tp e he
  have kq : ∀ k ∈ (q.map Prod.fst).mergeSort strLe, ∀ c ∈ k, c ≠ ':' := by
    intro k hk
    obtain ⟨e, he, rfl⟩ := List.mem_map.1 ((List.mergeSort_perm _ _).mem_iff.1 hk)
    exact tq e he
  obtain ⟨h1, h2⟩ := aux _ _ kp kq h
  have hk : ∀ t, t ∈ p.map Prod.fst ↔ t ∈ q.map Prod.fst := by
    intro t
    rw [← (List.mergeSort_perm (p.map Prod.fst) strLe).mem_iff, h1, (List.mergeSort_perm _ _).mem_iff]
  refine perm_of_look p q hp hq hk fun t ht => ?_
  have := h2 t ((List.mergeSort_perm _ _).mem_iff.2 ht)
  obtain ⟨v, hv⟩ := look_isSome p t ht
  obtain ⟨w, hw⟩ := look_isSome q t ((hk t).1 ht)
  rw [hv, hw] at this ⊢
  simpa using this

/-- Types and texts that `hashable` can separate. -/
def CleanRdn (q : List (Str × Str)) : Prop :=
  q ≠ [] ∧ (q.map Prod.fst).Nodup ∧ ∀ e ∈ q, TypeName e.1 ∧ ∀ c ∈ e.2, ¬ Separator c

theorem ofNat_sep (c : Char) (h : ¬ Separator c) : c ≠ Char.ofNat 0x1e ∧ c ≠ Char.ofNat 0x1f := by
  constructor
  · rintro rfl; exact h (Or.inl rfl)
  · rintro rfl; exact h (Or.inr rfl)

theorem items_clean {q : List (Str × Str)} (h : CleanRdn q) : items q ≠ [] ∧ ∀ s ∈ items q, s ≠ [] ∧ ∀ c ∈ s, ¬ Separator c := by
  constructor
  · intro hc
    have := congrArg List.length hc
    simp only [items, List.length_map, (List.mergeSort_perm _ _).length_eq, List.length_nil] at this
    exact h.1 (List.length_eq_zero_iff.1 this)
  · intro s hs
    obtain ⟨k, hk, rfl⟩ := List.mem_map.1 hs
    have hk := (List.mergeSort_perm _ _).mem_iff.1 hk
    obtain ⟨v, hv⟩ := look_isSome q k hk
    have hm := (look_mem_iff q h.2.1 k v).1 hv
    have := h.2.2 _ hm
    unfold item
    rw [hv]
    refine ⟨by simp, fun c hc => ?_⟩
    simp only [Option.getD_some, List.mem_append, List.mem_cons, List.not_mem_nil, or_false] at hc
    rcases hc with (hc | rfl | rfl) | hc
    · exact (this.1 c hc).2
    · unfold Separator; decide
    · unfold Separator; decide
    · exact this.2 c hc

theorem mem_join {sep : Str} {ps : List Str} {c : Char} (h : c ∈ pyJoin sep ps) : c ∈ sep ∨ ∃ p ∈ ps, c ∈ p := by
  induction ps with
  | nil => cases h
  | cons p ps ih =>
    cases ps with
    | nil => exact Or.inr ⟨p, by simp, h⟩
    | cons q qs =>
      simp only [pyJoin, List.mem_append] at h
      rcases h with (h | h) | h
      · exact Or.inr ⟨p, by simp, h⟩
      · exact Or.inl h
      · rcases ih h with h | ⟨x, hx, hc⟩
        · exact Or.inl h
        · exact Or.inr ⟨x, List.mem_cons_of_mem _ hx, hc⟩

/-- The hashable string of an RDN. -/
def hashOf (q : List (Str × Str)) : Str := pyJoin [Char.ofNat 0x1f] (items q)

theorem hashOf_inj {p q : List (Str × Str)} (hp : CleanRdn p) (hq : CleanRdn q) : hashOf p = hashOf q ↔ p.Perm q := by
  constructor
  · intro h
    have h1 := congrArg (pySplit (Char.ofNat 0x1f)) h
    unfold hashOf at h1
    rw [pySplit_join _ _ (items_clean hp).1 fun s hs c hc => (ofNat_sep c (((items_clean hp).2 s hs).2 c hc)).2,
      pySplit_join _ _ (items_clean hq).1 fun s hs c hc => (ofNat_sep c (((items_clean hq).2 s hs).2 c hc)).2] at h1
    exact perm_of_items hp.2.1 hq.2.1 (fun e he c hc => ((hp.2.2 e he).1 c hc).1)
      (fun e he c hc => ((hq.2.2 e he).1 c hc).1) h1
  · intro h; unfold hashOf; rw [items_perm hp.2.1 h]

theorem hashOf_clean {p : List (Str × Str)} (hp : CleanRdn p) : hashOf p ≠ [] ∧ ∀ c ∈ hashOf p, c ≠ Char.ofNat 0x1e := by
  have h := items_clean hp
  constructor
  · intro hc
    unfold hashOf at hc
    cases hi : items p with
    | nil => exact h.1 hi
    | cons s ss =>
      rw [hi] at hc
      have := (h.2 s (by simp [hi])).1
      cases ss with
      | nil => exact this hc
      | cons => simp [pyJoin] at hc
  · intro c hc
    rcases mem_join hc with hc | ⟨s, hs, hc⟩
    · rw [List.mem_singleton] at hc; subst hc; decide
    · exact (ofNat_sep c ((h.2 s hs).2 c hc)).1

theorem hashes_inj {ps qs : List (List (Str × Str))} (hp : ∀ p ∈ ps, CleanRdn p) (hq : ∀ q ∈ qs, CleanRdn q) :
    pyJoin [Char.ofNat 0x1e] (ps.map hashOf) = pyJoin [Char.ofNat 0x1e] (qs.map hashOf) ↔ SameName ps qs := by
  have aux : ∀ (ps qs : List (List (Str × Str))), (∀ p ∈ ps, CleanRdn p) → (∀ q ∈ qs, CleanRdn q) →
      (ps.map hashOf = qs.map hashOf ↔ SameName ps qs) := by
    intro ps
    induction ps with
    | nil =>
      intro qs _ _
      cases qs with
      | nil => exact ⟨fun _ => .nil, fun _ => rfl⟩
      | cons => exact ⟨fun h => (by cases h), fun h => (by cases h)⟩
    | cons p ps ih =>
      intro qs hp hq
      cases qs with
      | nil => exact ⟨fun h => (by cases h), fun h => (by cases h)⟩
      | cons q qs =>
        unfold SameName at ih ⊢
        rw [List.map_cons, List.map_cons, List.cons.injEq, List.forall₂_cons,
          hashOf_inj (hp p (by simp)) (hq q (by simp)),
          ih qs (fun x hx => hp x (by simp [hx])) fun x hx => hq x (by simp [hx])]
  rw [← aux ps qs hp hq]
  have ne : ∀ (ps : List (List (Str × Str))), (∀ p ∈ ps, CleanRdn p) → ps ≠ [] →
      pyJoin [Char.ofNat 0x1e] (ps.map hashOf) ≠ [] := by
    intro ps hp hn hc
    cases ps with
    | nil => exact hn rfl
    | cons p ps =>
      have := (hashOf_clean (hp p (by simp))).1
      cases ps with
      | nil => exact this hc
      | cons => simp [pyJoin] at hc
  have sp : ∀ (ps : List (List (Str × Str))), (∀ p ∈ ps, CleanRdn p) → ps ≠ [] →
      pySplit (Char.ofNat 0x1e) (pyJoin [Char.ofNat 0x1e] (ps.map hashOf)) = ps.map hashOf := by
    intro ps hp hn
    refine pySplit_join _ _ (by simpa using hn) fun s hs c hc => ?_
    obtain ⟨p, hpm, rfl⟩ := List.mem_map.1 hs
    exact (hashOf_clean (hp p hpm)).2 c hc
  refine ⟨fun h => ?_, fun h => by rw [h]⟩
  by_cases h1 : ps = []
  · by_cases h2 : qs = []
    · rw [h1, h2]
    · subst h1; exact absurd h.symm (ne qs hq h2)
  · by_cases h2 : qs = []
    · subst h2; exact absurd h (ne ps hp h1)
    · rw [← sp ps hp h1, h, sp qs hq h2]

theorem hashable_prepared {n : List (List Attr)} {q : List (List (Str × Str))} (h : Prepared T n q)
    (hn : DistinctAttrs n) : hashable T n = .ok (pyJoin [Char.ofNat 0x1e] (q.map hashOf)) := by
  have : n.mapM (rdnHashable T) = .ok (q.map hashOf) := by
    induction h with
    | nil => rfl
    | @cons r p rs ps h1 _ ih =>
      rw [List.mapM_cons, rdnHashable_prepared T h1 (hn r (by simp)), ih fun x hx => hn x (by simp [hx])]
      rfl
  unfold hashable
  rw [this]
  rfl

end Asn1.Names
