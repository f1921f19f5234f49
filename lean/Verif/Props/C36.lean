import Verif.Lemmas.Name

/-!
# C36: `Name.build` and `Name.native`

`M` says how the attribute values are built from the given values; a name is a list of RDNs, each a list of attributes.
-/

namespace Asn1.Names
open Asn1 Spec
variable {X W N : Type}

theorem ordinalLe_iff (a b : Str) :
    ordinalLe (preferredOrdinal a) (preferredOrdinal b) = true ↔ Before (mapName a) (mapName b) := by
  unfold preferredOrdinal
  simp only
  generalize mapName a = a
  generalize mapName b = b
  unfold Before
  have key : ∀ x : Str, (x ∈ preferredOrder ∧ preferredOrder.idxOf? x = some (preferredOrder.idxOf x) ∧
      preferredOrder.idxOf x < preferredOrder.length) ∨ (x ∉ preferredOrder ∧ preferredOrder.idxOf? x = none) := by
    intro x
    by_cases h : x ∈ preferredOrder
    · exact Or.inl ⟨h, by
        rw [List.idxOf?_eq_some_iff]
        refine ⟨List.idxOf_lt_length_iff.2 h, ?_, ?_⟩
        · simp
        · intro j hj
          have := List.not_of_lt_findIdx (p := (· == x)) hj
          simpa using this, List.idxOf_lt_length_iff.2 h⟩
    · exact Or.inr ⟨h, by simpa using h⟩
  rcases key a with ⟨ha, ha', hla⟩ | ⟨ha, ha'⟩ <;> rcases key b with ⟨hb, hb', hlb⟩ | ⟨hb, hb'⟩
  · simp only [ha', hb', if_pos ha, if_pos hb, ordinalLe]
    constructor
    · intro h
      split at h
      · omega
      · split at h
        · omega
        · cases h
    · intro h
      split
      · rfl
      · rw [if_pos (by omega)]
        have he : preferredOrder.idxOf a = preferredOrder.idxOf b := by omega
        have : a = b := by
          have h1 := List.getElem_idxOf hla
          have h2 := List.getElem_idxOf hlb
          simp only [he] at h1
          rw [← h1, h2]
        rw [this]; exact strLe_refl b
  · simp only [ha', hb', if_pos ha, if_neg hb, ordinalLe, if_pos hla]
  · simp only [ha', hb', if_neg ha, if_pos hb, ordinalLe]
    rw [if_neg (by omega), if_neg (by omega)]
    simp
  · simp only [ha', hb', if_neg ha, if_neg hb, ordinalLe, Nat.lt_irrefl, if_false, if_true]

theorem buildLoop_ok (M : Maker X W) (p : Bool) (d : List (Str × X)) (r : List (List (Str × W))) :
    buildLoop M p d = .ok r ↔
      List.Forall₂ (fun e g => ∃ w, buildValue M p (mapName e.1) e.2 = .ok w ∧ g = [(mapName e.1, w)]) d r := by
  induction d generalizing r with
  | nil =>
    constructor
    · intro h; cases Except.ok.inj h; exact .nil
    · intro h; cases h; rfl
  | cons e es ih =>
    obtain ⟨n, x⟩ := e
    simp only [buildLoop]
    constructor
    · intro h
      cases hv : buildValue M p (mapName n) x with
      | error y => rw [hv] at h; cases h
      | ok w =>
        cases hl : buildLoop M p es with
        | error y => rw [hv, hl] at h; cases h
        | ok rest =>
          rw [hv, hl] at h
          cases Except.ok.inj h
          exact .cons ⟨w, hv, rfl⟩ ((ih rest).1 hl)
    · intro h
      cases h with
      | cons h1 h2 =>
        obtain ⟨w, hw, rfl⟩ := h1
        rw [hw, (ih _).2 h2]
        rfl

theorem forall2_values {M : Maker X W} {p : Bool} {l : List (Str × X)} {r : List (List (Str × W))}
    (h : List.Forall₂ (fun e g => ∃ w, buildValue M p (mapName e.1) e.2 = .ok w ∧ g = [(mapName e.1, w)]) l r) (t : Str) :
    List.Forall₂ (fun e w => buildValue M p t e.2 = .ok w) (l.filter fun e => mapName e.1 = t)
      (valuesOf t r.flatten) := by
  induction h with
  | nil => exact .nil
  | @cons e g es gs he _ ih =>
    obtain ⟨w, hw, rfl⟩ := he
    unfold valuesOf at ih ⊢
    simp only [List.flatten_cons, List.singleton_append, List.filter_cons]
    by_cases ht : mapName e.1 = t
    · simp only [ht, decide_true, if_true, List.map_cons]
      exact .cons (ht ▸ hw) ih
    · simp only [ht, decide_false, Bool.false_eq_true, if_false]
      exact ih

/-- `build` makes one RDN with one attribute for every given item; the attributes are in the preferred order; and for each type
the values are those made of the given values for this type, in the given order. -/
theorem C36_exact (M : Maker X W) (printable : Bool) (d : List (Str × X)) (r : List (List (Str × W)))
    (h : build M printable d = .ok r) :
    r.length = d.length ∧ (∀ g ∈ r, ∃ a, g = [a]) ∧
    (r.flatten.map Prod.fst).Pairwise Before ∧
    ∀ t, List.Forall₂ (fun e w => buildValue M printable t e.2 = .ok w) (d.filter fun e => mapName e.1 = t)
      (valuesOf t r.flatten) := by
  have hf := (buildLoop_ok M printable _ r).1 h
  have hperm : (sortItems d).Perm d := List.mergeSort_perm d _
  have htr : ∀ a b c : Str × X, ordinalLe (preferredOrdinal a.1) (preferredOrdinal b.1) = true →
      ordinalLe (preferredOrdinal b.1) (preferredOrdinal c.1) = true →
      ordinalLe (preferredOrdinal a.1) (preferredOrdinal c.1) = true := fun a b c => ordinalLe_trans _ _ _
  have htot : ∀ a b : Str × X, (ordinalLe (preferredOrdinal a.1) (preferredOrdinal b.1) ||
      ordinalLe (preferredOrdinal b.1) (preferredOrdinal a.1)) = true := fun a b => ordinalLe_total _ _
  refine ⟨hf.length_eq.symm.trans hperm.length_eq, ?_, ?_, fun t => ?_⟩
  · clear h
    revert hf
    generalize sortItems d = l
    intro hf
    induction hf with
    | nil => simp
    | cons h1 _ ih =>
      obtain ⟨w, _, rfl⟩ := h1
      intro g hg
      rcases List.mem_cons.1 hg with rfl | hg
      · exact ⟨_, rfl⟩
      · exact ih g hg
  · have hsorted := List.pairwise_mergeSort htr htot d
    have hkeys : r.flatten.map Prod.fst = (sortItems d).map fun e => mapName e.1 := by
      clear h
      revert hf
      generalize sortItems d = l
      intro hf
      induction hf with
      | nil => rfl
      | cons h1 _ ih =>
        obtain ⟨w, _, rfl⟩ := h1
        simpa using ih
    rw [hkeys, List.pairwise_map]
    exact hsorted.imp fun h => (ordinalLe_iff _ _).1 h
  · have hfil : (sortItems d).filter (fun e => mapName e.1 = t) = d.filter (fun e => mapName e.1 = t) := by
      have hsub : (d.filter fun e => mapName e.1 = t).Sublist (sortItems d) := by
        refine List.sublist_mergeSort htr htot ?_ List.filter_sublist
        refine List.Pairwise.imp_of_mem ?_ (List.pairwise_of_forall (R := fun _ _ => True) fun _ _ => trivial)
        intro a b ha hb _
        have ha := of_decide_eq_true (List.mem_filter.1 ha).2
        have hb := of_decide_eq_true (List.mem_filter.1 hb).2
        have hab := ordinalLe_total (preferredOrdinal a.1) (preferredOrdinal a.1)
        rw [Bool.or_self, ordinalLe_iff] at hab
        rw [ordinalLe_iff, hb, ← ha]
        exact hab
      have hsub2 := hsub.filter fun e => decide (mapName e.1 = t)
      rw [List.filter_filter] at hsub2
      simp only [Bool.and_self] at hsub2
      exact (hsub2.eq_of_length (hperm.filter _).length_eq.symm).symm
    rw [← hfil]
    exact forall2_values hf t

theorem sort_unique (d l : List (Str × X)) (h : l.Perm d) (hd : (d.map fun e => mapName e.1).Nodup)
    (hl : l.Pairwise fun a b => ordinalLe (preferredOrdinal a.1) (preferredOrdinal b.1) = true) : sortItems d = l := by
  refine List.Perm.eq_of_pairwise
    (le := fun a b : Str × X => ordinalLe (preferredOrdinal a.1) (preferredOrdinal b.1) = true) ?_
    (List.pairwise_mergeSort (le := fun a b : Str × X => ordinalLe (preferredOrdinal a.1) (preferredOrdinal b.1))
      (fun a b c => ordinalLe_trans _ _ _) (fun a b => ordinalLe_total _ _) d) hl
    ((List.mergeSort_perm d _).trans h.symm)
  intro a b ha hb hab hba
  have he := congrArg Prod.snd (ordinalLe_antisymm _ _ hab hba)
  have ha : a ∈ d := (List.mergeSort_perm d _).mem_iff.1 ha
  exact List.inj_on_of_nodup_map hd ha (h.mem_iff.1 hb) he

/-- Building from the same attributes in any other order gives the same name, or the same exception. -/
theorem C36_order (M : Maker X W) (printable : Bool) (d d' : List (Str × X)) (h : d.Perm d')
    (hd : (d.map fun e => mapName e.1).Nodup) : build M printable d = build M printable d' := by
  unfold build
  rw [sort_unique d (sortItems d') ((List.mergeSort_perm d' _).trans h.symm) hd
    (List.pairwise_mergeSort (le := fun a b : Str × X => ordinalLe (preferredOrdinal a.1) (preferredOrdinal b.1))
      (fun a b c => ordinalLe_trans _ _ _) (fun a b => ordinalLe_total _ _) d')]

theorem native_values (l : List (Str × N)) (d : List (Str × Entry N)) (pre : List (Str × N))
    (hd : ∀ t, look d t = entryOf (valuesOf t pre)) (t : Str) :
    look (l.foldl nativeStep d) t = entryOf (valuesOf t (pre ++ l)) := by
  induction l generalizing d pre with
  | nil => simpa using hd t
  | cons a as ih =>
    have : pre ++ a :: as = (pre ++ [a]) ++ as := by simp
    rw [this]
    refine ih (nativeStep d a) (pre ++ [a]) fun t => ?_
    have hv : valuesOf t (pre ++ [a]) = valuesOf t pre ++ if a.1 = t then [a.2] else [] := by
      unfold valuesOf
      by_cases h : a.1 = t <;> simp [h]
    have h1 := hd a.1
    rw [hv]
    unfold nativeStep
    by_cases ht : a.1 = t
    · subst ht
      rw [if_pos rfl]
      generalize valuesOf a.1 pre = vs at h1 ⊢
      match vs with
      | [] => simp only [entryOf] at h1; rw [h1]; simp [look_put, entryOf]
      | [x] => simp only [entryOf] at h1; rw [h1]; simp [look_put, entryOf]
      | x :: y :: zs => simp only [entryOf] at h1; rw [h1]; simp [look_put, entryOf]
    · rw [if_neg ht, List.append_nil, ← hd t]
      have : ¬ t = a.1 := fun h => ht h.symm
      split <;> rw [look_put, if_neg this]

/-- The native form of a name, read any number of times: every type has its value, or the list of its values in order if it
occurs more than once. -/
theorem C36_native (l : List (List (Str × N))) (t : Str) :
    ∃ d, (native (.ok l) none).1 = .ok d ∧ native (.ok l) (native (.ok l) none).2 = (.ok d, some d) ∧
      look d t = entryOf (valuesOf t l.flatten) :=
  ⟨_, rfl, rfl, by simpa using native_values l.flatten [] [] (fun t => rfl) t⟩

/-- The native form of a name that was built from attributes with distinct types is the given mapping, if the values have the
given values as their native values. -/
theorem C36_native_build (M : Maker X W) (printable : Bool) (d : List (Str × X)) (r : List (List (Str × W)))
    (h : build M printable d = .ok r) (hd : (d.map fun e => mapName e.1).Nodup) (nat : W → X)
    (hn : ∀ t x w, (t, x) ∈ d → buildValue M printable (mapName t) x = .ok w → nat w = x) :
    ∃ m, (native (.ok (r.map fun g => g.map fun a => (a.1, nat a.2))) none).1 = .ok m ∧
      ∀ t, look m t = ((d.find? fun e => mapName e.1 = t).map fun e => .one e.2) := by
  refine ⟨_, rfl, fun t => ?_⟩
  have h1 := native_values (r.map fun g => g.map fun a => (a.1, nat a.2)).flatten [] [] (fun t => rfl) t
  rw [List.nil_append] at h1
  rw [h1]
  have h2 := (C36_exact M printable d r h).2.2.2 t
  have hv : valuesOf t (r.map fun g => g.map fun a => (a.1, nat a.2)).flatten = (valuesOf t r.flatten).map nat := by
    rw [← List.map_flatten]
    unfold valuesOf
    rw [List.filter_map, List.map_map, List.map_map]
    rfl
  rw [hv]
  have hmem : ∀ e ∈ d.filter (fun e => mapName e.1 = t), e ∈ d ∧ mapName e.1 = t := fun e he =>
    ⟨(List.mem_filter.1 he).1, of_decide_eq_true (List.mem_filter.1 he).2⟩
  have hfind : d.find? (fun e => mapName e.1 = t) = (d.filter (fun e => mapName e.1 = t)).head? := by
    rw [List.head?_filter]
  have hlen : (d.filter (fun e => mapName e.1 = t)).length ≤ 1 := by
    have hnd : ((d.filter (fun e => mapName e.1 = t)).map fun e => mapName e.1).Nodup :=
      hd.sublist (List.filter_sublist.map _)
    generalize d.filter (fun e => mapName e.1 = t) = q at hmem hnd
    match q with
    | [] => simp
    | [a] => simp
    | a :: b :: rest =>
      simp only [List.map_cons, List.nodup_cons, List.mem_cons, not_or] at hnd
      exact absurd ((hmem a (by simp)).2.trans (hmem b (by simp)).2.symm) hnd.1.1
  rw [hfind]
  revert h2 hmem hlen
  generalize d.filter (fun e => mapName e.1 = t) = q
  generalize valuesOf t r.flatten = ws
  intro h2 hmem hlen
  cases h2 with
  | nil => rfl
  | @cons e w es ws he hes =>
    cases es with
    | nil =>
      cases hes
      have := hmem e (by simp)
      have hx := hn e.1 e.2 w this.1 (this.2.symm ▸ he)
      simp [entryOf, hx]
    | cons => simp at hlen

theorem look_find {β : Type} {d : List (Str × β)} {t : Str} {c : β} (h : look d t = some c) : (t, c) ∈ d := by
  unfold look at h
  cases hf : d.find? (fun e => e.1 == t) with
  | none => rw [hf] at h; cases h
  | some e =>
    rw [hf] at h
    obtain ⟨a, b⟩ := e
    have h1 := List.find?_some hf
    have h2 := List.mem_of_find?_eq_some hf
    simp only [beq_iff_eq] at h1
    injection h with h
    simp only at h h1
    rw [h1, h] at h2
    exact h2

theorem specs_types : ∀ e ∈ valueSpecs, ∀ printable, (stringType printable e.1).1 = decide (e.2 = .directoryString) ∧
    (e.2 ≠ .directoryString → (stringType printable e.1).2 = e.2) ∧
    (e.2 = .directoryString → (stringType printable e.1).2 =
      if e.1 ∈ ["dn_qualifier".toList, "country_name".toList, "serial_number".toList] then .printableString else if printable then .printableString else .utf8String) := by
  decide +kernel

/-- An attribute type given by its dotted identifier is the one with that name: `build` gives the same for both. -/
theorem C36_dotted (M : Maker X W) (printable : Bool) (d d' : List (Str × X))
    (h : List.Forall₂ (fun e e' => e'.2 = e.2 ∧ (e'.1 = e.1 ∨ (e'.1, e.1) ∈ nameMap)) d d') : build M printable d' = build M printable d := by
  have known : ∀ e ∈ nameMap, mapName e.1 = e.2 ∧ mapName e.2 = e.2 := by decide +kernel
  have twice : ∀ n, mapName (mapName n) = mapName n := by
    intro n
    unfold mapName
    cases hn : nameMap.get n with
    | none => simp [hn]
    | some m =>
      obtain ⟨e, he, e1⟩ : ∃ e ∈ nameMap, e.2 = m := by
        rw [StrMap.get, Option.map_eq_some_iff] at hn
        obtain ⟨e, h1, h2⟩ := hn
        exact ⟨e, List.mem_of_find?_eq_some h1, h2⟩
      have := (known e he).2
      unfold mapName at this
      rw [e1] at this
      simpa using this
  have canon : ∀ d : List (Str × X), build M printable (d.map fun e => (mapName e.1, e.2)) = build M printable d := by
    intro d
    have hs : sortItems (d.map fun e => (mapName e.1, e.2)) = (sortItems d).map fun e => (mapName e.1, e.2) := by
      unfold sortItems
      rw [List.map_mergeSort]
      intro a _ b _
      simp [preferredOrdinal, twice]
    unfold build
    rw [hs]
    generalize sortItems d = l
    induction l with
    | nil => rfl
    | cons e es ih =>
      simp only [List.map_cons, buildLoop, twice, ih]
  rw [← canon d', ← canon d]
  congr 1
  induction h with
  | nil => rfl
  | @cons e e' es es' h1 _ ih =>
    rw [List.map_cons, List.map_cons, ih, h1.1]
    rcases h1.2 with h2 | h2
    · rw [h2]
    · have := known _ h2
      rw [this.1, this.2]

example (x : X) : List.Forall₂ (fun e e' : Str × X => e'.2 = e.2 ∧ (e'.1 = e.1 ∨ (e'.1, e.1) ∈ nameMap))
    [("common_name".toList, x)] [("2.5.4.3".toList, x)] := .cons ⟨rfl, .inr (show ("2.5.4.3".toList, "common_name".toList) ∈ nameMap by decide +kernel)⟩ .nil

/-- A value that is not an instance already is written in the string type of the attribute. -/
theorem C36_types (M : Maker X W) (printable : Bool) (t : Str) (x : X) (ht : t ∈ valueSpecs.map Prod.fst) (hx : ∀ c, M.isInstance c x = false) :
    buildValue M printable t x = if (stringType printable t).1 then M.directory (stringType printable t).2 x else M.make (stringType printable t).2 x := by
  unfold buildValue
  cases hl : look valueSpecs t with
  | none =>
    exfalso
    obtain ⟨e, he, rfl⟩ := List.mem_map.mp ht
    unfold look at hl
    rw [Option.map_eq_none_iff, List.find?_eq_none] at hl
    exact hl e he (by simp)
  | some cls =>
    obtain ⟨h1, h2, h3⟩ := specs_types _ (look_find hl) printable
    simp only [hx, Bool.false_eq_true, if_false]
    by_cases hc : cls = .directoryString
    · simp only [hc, decide_true, ne_eq, not_true_eq_false, if_false] at h1 h3 ⊢
      rw [h1, h3 trivial]
      simp only [if_true]
      split <;> rfl
    · simp only [hc, decide_false] at h1
      rw [h1, h2 hc]
      simp [hc]

/-- `country_name` stays PrintableString, `common_name` follows the flag. -/
example : stringType false "country_name".toList = (true, .printableString) ∧ stringType false "common_name".toList = (true, .utf8String) ∧
    "country_name".toList ∈ valueSpecs.map Prod.fst := by decide +kernel

/-- Values are texts, and making one succeeds. -/
def textMaker : Maker Str Str :=
  { isInstance := fun _ _ => false, asIs := id, make := fun _ x => .ok x, directory := fun _ x => .ok x }

/-- Three attributes, one of them given as an OID. -/
def sampleDict : List (Str × Str) :=
  [("common_name".toList, "Will".toList), ("2.5.4.6".toList, "US".toList), ("unique_identifier".toList, "7".toList)]

example : (sampleDict.map fun e => mapName e.1).Nodup ∧
    build textMaker false sampleDict = .ok [[("country_name".toList, "US".toList)], [("common_name".toList, "Will".toList)],
      [("unique_identifier".toList, "7".toList)]] := by
  have hn : (sampleDict.map fun e => mapName e.1).Nodup := by decide +kernel
  refine ⟨hn, ?_⟩
  unfold build
  rw [sort_unique sampleDict [("2.5.4.6".toList, "US".toList), ("common_name".toList, "Will".toList),
    ("unique_identifier".toList, "7".toList)] (by decide +kernel) hn (by decide +kernel)]
  decide +kernel

/-- A violation: if an attribute cannot be decoded, the first read of `native` raises, and later reads return an empty dict,
because the empty dict was cached before (x509.py:1093). -/
theorem C36_native_raise_fails (e : PyErr) :
    (native (N := N) (.error e) none).1 = .error e ∧
    (native (N := N) (.error e) (native (N := N) (.error e) none).2).1 = .ok [] :=
  ⟨rfl, rfl⟩

end Asn1.Names
