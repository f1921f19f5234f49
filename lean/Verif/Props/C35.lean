import Verif.Lemmas.NameHash

/-!
# C35: comparison of distinguished names

A name is a list of RDNs, an RDN a list of attributes, with decoded types and values. `T` are the Unicode tables.
-/

namespace Asn1.Names
open Asn1 Spec

variable (T : Tables)

/-- A name whose texts can be prepared is equal to itself. -/
theorem C35_refl (n : List (List Attr)) (h : ∀ r ∈ n, ∀ x ∈ r, ∃ v, prepped T x.value = .ok v) :
    nameEq T n n = .ok true := by
  rw [nameEq_true, List.forall₂_same]
  intro r hr
  replace hr := h r hr
  have : ∃ ps, Ready T r ps := by
    clear h
    induction r with
    | nil => exact ⟨[], .nil⟩
    | cons x xs ih =>
      obtain ⟨v, hv⟩ := hr x (by simp)
      obtain ⟨ps, hps⟩ := ih fun y hy => hr y (by simp [hy])
      exact ⟨(x.type, v) :: ps, .cons ⟨rfl, hv⟩ hps⟩
  obtain ⟨ps, hps⟩ := this
  have := (getValues_ok T r [] _).2 ⟨ps, hps, rfl⟩
  exact (rdnEq_true T r r).2 ⟨rfl, fun _ => Iff.rfl, _, _, this, this, fun _ _ => rfl⟩

/-- Comparison gives the same answer in both directions. -/
theorem C35_symm (a b : List (List Attr)) (r : Bool) (h : nameEq T a b = .ok r) : nameEq T b a = .ok r := by
  unfold nameEq at h ⊢
  by_cases hl : a.length = b.length
  · rw [if_neg (by simpa using hl)] at h
    rw [if_neg (by simpa using hl.symm)]
    exact eqLoop_symm T a b r h
  · rw [if_pos hl] at h
    rw [if_pos (fun hc => hl hc.symm)]
    exact h

/-- Equality is transitive. -/
theorem C35_trans (a b c : List (List Attr)) (h : nameEq T a b = .ok true) (h' : nameEq T b c = .ok true) :
    nameEq T a c = .ok true := by
  rw [nameEq_true] at h h' ⊢
  induction h generalizing c with
  | nil => cases h'; exact .nil
  | cons h1 _ ih =>
    cases h' with
    | cons h2 h3 => exact .cons (rdnEq_trans T _ _ _ h1 h2) (ih _ h3)

theorem eq_prepared {a b : List (List Attr)} {p q : List (List (Str × Str))} (ha : Prepared T a p) (hb : Prepared T b q)
    (da : DistinctAttrs a) (db : DistinctAttrs b) : nameEq T a b = .ok true ↔ SameName p q := by
  rw [nameEq_true]
  unfold SameName
  induction ha generalizing b q with
  | nil =>
    cases hb with
    | nil => exact ⟨fun _ => .nil, fun _ => .nil⟩
    | cons => exact ⟨fun h => (by cases h), fun h => (by cases h)⟩
  | cons h1 _ ih =>
    cases hb with
    | nil => exact ⟨fun h => (by cases h), fun h => (by cases h)⟩
    | cons h2 h3 =>
      rw [List.forall₂_cons, List.forall₂_cons, rdnEq_prepared T h1 h2 (da _ (by simp)) (db _ (by simp)),
        ih h3 (fun x hx => da x (by simp [hx])) fun x hx => db x (by simp [hx])]

/-- Names whose values are texts, with no type twice in an RDN: they are equal exactly if, RDN by RDN, they have the same
attributes in any order, with the same prepared texts; and comparison does not raise.

Missing: RDNs in which a type occurs twice; there the property fails (`C35_repeated_fails`). -/
theorem C35_eq_partial (a b : List (List Attr)) (p q : List (List (Str × Str))) (ha : Prepared T a p) (hb : Prepared T b q)
    (da : DistinctAttrs a) (db : DistinctAttrs b) :
    (nameEq T a b = .ok true ↔ SameName p q) ∧ (nameEq T a b = .ok false ↔ ¬ SameName p q) := by
  have h := eq_prepared T ha hb da db
  refine ⟨h, ?_⟩
  rw [← h]
  have hok : ∃ r, nameEq T a b = .ok r := by
    unfold nameEq
    split
    · exact ⟨_, rfl⟩
    · refine eqLoop_ok T a b fun x hx y hy => ?_
      have key : ∀ {n : List (List Attr)} {q : List (List (Str × Str))}, Prepared T n q → ∀ x ∈ n, ∃ p, PreparedRdn T x p := by
        intro n q h
        induction h with
        | nil => simp
        | @cons _ p _ _ h1 _ ih =>
          intro x hx
          rcases List.mem_cons.1 hx with rfl | hx
          · exact ⟨p, h1⟩
          · exact ih x hx
      obtain ⟨p, hp⟩ := key ha x hx
      obtain ⟨q, hq⟩ := key hb y hy
      exact rdnEq_total T hq hp
  obtain ⟨r, hr⟩ := hok
  rw [hr]
  cases r <;> simp

/-- The same names with ordinary types and no empty RDN: they are equal exactly if their `hashable` strings are.

Missing: values that are not texts, empty RDNs, repeated types; there the property fails (`C35_bytes_fails`,
`C35_empty_fails`, `C35_repeated_hash_fails`). -/
theorem C35_hashable_partial (hT : CleanTables T) (a b : List (List Attr)) (p q : List (List (Str × Str)))
    (ha : Prepared T a p) (hb : Prepared T b q) (da : DistinctAttrs a) (db : DistinctAttrs b)
    (ta : ∀ r ∈ a, r ≠ [] ∧ ∀ x ∈ r, Spec.TypeName x.type ∧ ∃ s, x.value = .str s)
    (tb : ∀ r ∈ b, r ≠ [] ∧ ∀ x ∈ r, Spec.TypeName x.type ∧ ∃ s, x.value = .str s) :
    ∃ s t, hashable T a = .ok s ∧ hashable T b = .ok t ∧ (s = t ↔ nameEq T a b = .ok true) := by
  have key : ∀ {n : List (List Attr)} {q : List (List (Str × Str))}, Prepared T n q → DistinctAttrs n →
      (∀ r ∈ n, r ≠ [] ∧ ∀ x ∈ r, Spec.TypeName x.type ∧ ∃ s, x.value = .str s) → ∀ p ∈ q, CleanRdn p := by
    intro n q h dn tn
    induction h with
    | nil => simp
    | @cons r p rs ps h1 _ ih =>
      intro x hx
      rcases List.mem_cons.1 hx with rfl | hx
      · have hr := tn r (by simp)
        refine ⟨?_, ?_, ?_⟩
        · rintro rfl
          cases h1
          exact hr.1 rfl
        · rw [preparedRdn_types T h1]; exact dn r (by simp)
        · clear hx
          have hx := hr.2
          clear hr tn ih dn
          induction h1 with
          | nil => simp
          | @cons z e zs es h2 _ ih2 =>
            intro e' he'
            rcases List.mem_cons.1 he' with rfl | he'
            · obtain ⟨ht, s, hs⟩ := hx z (by simp)
              refine ⟨h2.1 ▸ ht, ?_⟩
              have h3 := h2.2
              rw [hs] at h3
              replace h3 : Prepped.str <$> ldapStringPrep T s = _ := h3
              cases hl : ldapStringPrep T s with
              | error y => rw [hl] at h3; cases h3
              | ok s' =>
                rw [hl] at h3
                have h4 : s' = e'.2 := by
                  have := Except.ok.inj h3
                  exact Prepped.str.inj this
                exact h4 ▸ prep_clean hT s s' hl
            · exact ih2 (fun y hy => hx y (by simp [hy])) e' he'
      · exact ih (fun y hy => dn y (by simp [hy])) (fun y hy => tn y (by simp [hy])) x hx
  refine ⟨_, _, hashable_prepared T ha da, hashable_prepared T hb db, ?_⟩
  rw [hashes_inj (key ha da ta) (key hb db tb), eq_prepared T ha hb da db]

/-- Names of printable ASCII texts, with no type twice in an RDN: they are equal exactly if, RDN by RDN and in any order, they
have the same types with texts that have the same words up to case. -/
theorem C35_text (hT : AsciiTables T) (a b : List (List Attr)) (da : DistinctAttrs a) (db : DistinctAttrs b)
    (pa : PrintableName a) (pb : PrintableName b) :
    (nameEq T a b = .ok true ↔ SameName (wordsOf a) (wordsOf b)) ∧
    (nameEq T a b = .ok false ↔ ¬ SameName (wordsOf a) (wordsOf b)) := by
  let f : Str × List Str → Str × Str := fun e => (e.1, [' '] ++ join2 e.2 ++ [' '])
  have prep : ∀ n : List (List Attr), PrintableName n → Prepared T n ((wordsOf n).map fun r => r.map f) := by
    intro n hn
    unfold Prepared wordsOf
    rw [List.map_map, List.forall₂_map_right_iff, List.forall₂_same]
    intro r hr
    unfold PreparedRdn
    simp only [Function.comp_apply, List.map_map]
    rw [List.forall₂_map_right_iff, List.forall₂_same]
    intro x hx
    obtain ⟨s, hs, hp⟩ := hn r hr x hx
    refine ⟨rfl, ?_⟩
    simp only [Function.comp_apply, f]
    rw [hs]
    show Prepped.str <$> ldapStringPrep T s = _
    rw [prep_printable hT s hp]
    rfl
  have inj : ∀ (m n : List (List Attr)), SameName ((wordsOf m).map fun r => r.map f) ((wordsOf n).map fun r => r.map f) ↔
      SameName (wordsOf m) (wordsOf n) := by
    intro m n
    have good : ∀ n : List (List Attr), ∀ r ∈ wordsOf n, ∀ e ∈ r, parts (join2 e.2) = e.2 := by
      intro n r hr e he
      obtain ⟨r', _, rfl⟩ := List.mem_map.1 hr
      obtain ⟨x, _, rfl⟩ := List.mem_map.1 he
      simp only
      split
      · exact parts_join2 _ (parts_mem _)
      · rfl
    have back : ∀ (r r' : List (Str × List Str)), (∀ e ∈ r, parts (join2 e.2) = e.2) → (∀ e ∈ r', parts (join2 e.2) = e.2) →
        ((r.map f).Perm (r'.map f) ↔ r.Perm r') := by
      intro r r' h h'
      refine ⟨fun hp => ?_, fun hp => hp.map f⟩
      let g : Str × Str → Str × List Str := fun e => (e.1, parts (e.2.drop 1).dropLast)
      have hgf : ∀ e : Str × List Str, parts (join2 e.2) = e.2 → g (f e) = e := by
        intro e he
        simp only [f, g, List.cons_append, List.nil_append, List.drop_succ_cons, List.drop_zero, List.dropLast_concat, he]
      have := hp.map g
      rw [List.map_map, List.map_map] at this
      rwa [List.map_congr_left (f := g ∘ f) (g := id) fun e he => hgf e (h e he),
        List.map_congr_left (f := g ∘ f) (g := id) fun e he => hgf e (h' e he), List.map_id, List.map_id] at this
    unfold SameName
    rw [List.forall₂_map_left_iff, List.forall₂_map_right_iff]
    have gm := good m
    have gn := good n
    generalize wordsOf m = x at gm
    generalize wordsOf n = y at gn
    induction x generalizing y with
    | nil =>
      cases y with
      | nil => exact ⟨fun _ => .nil, fun _ => .nil⟩
      | cons => exact ⟨fun h => (by cases h), fun h => (by cases h)⟩
    | cons r rs ih =>
      cases y with
      | nil => exact ⟨fun h => (by cases h), fun h => (by cases h)⟩
      | cons r' rs' =>
        have hh := ih (fun x hx => gm x (by simp [hx])) rs' fun x hx => gn x (by simp [hx])
        rw [List.forall₂_cons, List.forall₂_cons]
        exact and_congr (back r r' (gm r (by simp)) (gn r' (by simp))) hh
  have h := C35_eq_partial T a b _ _ (prep a pa) (prep b pb) da db
  rw [inj a b] at h
  exact h

/-- Tables that are right on ASCII. -/
def asciiTables : Tables where
  b2 c := [c.toLower]
  nfkc s := s
  a1 _ := false
  c3 _ := false
  c4 _ := false
  c5 _ := false
  c8 _ := false
  d1 _ := false
  d2 _ := false

theorem asciiTables_ok : AsciiTables asciiTables :=
  ⟨fun _ _ => rfl, fun _ _ => rfl, fun _ _ => rfl, fun _ _ => rfl, fun _ _ => rfl, fun _ _ => rfl, fun _ _ => rfl,
    fun _ _ => rfl⟩

/-- A text attribute. -/
def text (t v : String) : Attr := ⟨t.toList, .str v.toList⟩

example : nameEq asciiTables [[text "common_name" " Will  Bond", text "locality_name" "Newbury"]]
    [[text "locality_name" "NEWBURY ", text "common_name" "will BOND"]] = .ok true ∧
    nameEq asciiTables [[text "common_name" "Will Bond"]] [[text "common_name" "WillBond"]] = .ok false := by
  decide +kernel

/-- The tables of the example do not produce separators. -/
theorem asciiTables_clean : CleanTables asciiTables := by
  refine ⟨fun c hc d hd => ?_, fun s hs => hs⟩
  rw [List.mem_singleton.1 hd]
  show ¬ Separator c.toLower
  rw [← Asn1.Cert.lower_char]
  split
  · have : (Char.ofNat (c.toNat + 32)).toNat = c.toNat + 32 := by
      unfold Char.ofNat
      rw [dif_pos (Or.inl (by omega))]
      rfl
    unfold Separator
    rw [this]; omega
  · exact hc

/-- A name with two RDNs that meets the hypotheses of `C35_eq_partial` and `C35_hashable_partial`. -/
def sampleName : List (List Attr) :=
  [[text "country_name" "US"], [text "common_name" " Will  Bond", text "locality_name" "Newbury"]]

example : Prepared asciiTables sampleName [[("country_name".toList, " us ".toList)],
      [("common_name".toList, " will  bond ".toList), ("locality_name".toList, " newbury ".toList)]] ∧
    DistinctAttrs sampleName ∧ PrintableName sampleName ∧
    ∀ r ∈ sampleName, r ≠ [] ∧ ∀ x ∈ r, Spec.TypeName x.type ∧ ∃ s, x.value = .str s := by
  refine ⟨?_, by unfold DistinctAttrs; decide +kernel, ?_, ?_⟩
  · exact .cons (.cons (by decide +kernel) .nil) (.cons (.cons (by decide +kernel) (.cons (by decide +kernel) .nil)) .nil)
  · intro r hr x hx
    simp only [sampleName, List.mem_cons, List.not_mem_nil, or_false] at hr
    rcases hr with rfl | rfl
    · rw [List.mem_singleton] at hx; subst hx
      exact ⟨_, rfl, by unfold Printable; decide +kernel⟩
    · simp only [List.mem_cons, List.not_mem_nil, or_false] at hx
      rcases hx with rfl | rfl <;> exact ⟨_, rfl, by unfold Printable; decide +kernel⟩
  · intro r hr
    simp only [sampleName, List.mem_cons, List.not_mem_nil, or_false] at hr
    have ht : ∀ t ∈ ["country_name", "common_name", "locality_name"], Spec.TypeName t.toList := by
      unfold Spec.TypeName Separator; decide +kernel
    rcases hr with rfl | rfl
    · refine ⟨by simp, fun x hx => ?_⟩
      rw [List.mem_singleton] at hx; subst hx
      exact ⟨ht _ (by simp), _, rfl⟩
    · refine ⟨by simp, fun x hx => ?_⟩
      simp only [List.mem_cons, List.not_mem_nil, or_false] at hx
      rcases hx with rfl | rfl <;> exact ⟨ht _ (by simp), _, rfl⟩

/-- A violation: if a type occurs twice in an RDN, only the last value counts, so RDNs with different values are equal and the
order matters. -/
theorem C35_repeated_fails :
    nameEq asciiTables [[text "common_name" "a", text "common_name" "b"]] [[text "common_name" "c", text "common_name" "b"]] =
      .ok true ∧
    nameEq asciiTables [[text "common_name" "a", text "common_name" "b"]] [[text "common_name" "b", text "common_name" "a"]] =
      .ok false := by
  decide +kernel

theorem rdnHashable_one (T : Tables) (r : List Attr) (t : Str) (v : Prepped) (h : getValues T r [] = .ok [(t, v)]) :
    rdnHashable T r = .ok (t ++ [':', ' '] ++ v.text) := by
  unfold rdnHashable
  rw [h]
  show Except.ok _ = _
  simp [pyJoin, look]

/-- A violation: names with the same `hashable` string that are not equal, because a type is repeated. -/
theorem C35_repeated_hash_fails :
    hashable asciiTables [[text "common_name" "b", text "common_name" "b"]] = hashable asciiTables [[text "common_name" "b"]] ∧
    nameEq asciiTables [[text "common_name" "b", text "common_name" "b"]] [[text "common_name" "b"]] = .ok false := by
  refine ⟨?_, by decide +kernel⟩
  unfold hashable
  simp only [List.mapM_cons, List.mapM_nil]
  rw [rdnHashable_one asciiTables _ "common_name".toList (.str " b ".toList) (by decide +kernel),
    rdnHashable_one asciiTables _ "common_name".toList (.str " b ".toList) (by decide +kernel)]

theorem pyStrInt_unique {a b : Int} (h : pyStrInt a = pyStrInt b) : a = b := by
  have hd : ∀ n : Nat, ∀ m : Nat, '-' :: pyStrNat m ≠ pyStrNat n := by
    intro n m e
    obtain ⟨d, h1, h2⟩ := mem_pyStrNat n '-' (by rw [← e]; simp)
    exact (digitChar_facts d h1).2.1 h2.symm
  unfold pyStrInt at h
  split at h <;> split at h
  · have := pyStrNat_inj (List.cons.inj h).2; omega
  · exact (hd _ _ h).elim
  · exact (hd _ _ h.symm).elim
  · have := pyStrNat_inj h; omega

/-- Values that are neither text nor octets, in names of one attribute: numbers, or truth values, that differ have different strings
and are different names. -/
theorem C35_other_values (t : Str) :
    (∀ a b : Int, (hashable T [[⟨t, .int a⟩]] = hashable T [[⟨t, .int b⟩]] ↔ a = b) ∧
      (nameEq T [[⟨t, .int a⟩]] [[⟨t, .int b⟩]] = .ok true ↔ a = b)) ∧
    (∀ a b : Bool, (hashable T [[⟨t, .bool a⟩]] = hashable T [[⟨t, .bool b⟩]] ↔ a = b) ∧
      (nameEq T [[⟨t, .bool a⟩]] [[⟨t, .bool b⟩]] = .ok true ↔ a = b)) ∧
    (∀ a : Bool, hashable T [[⟨t, .bool a⟩]] ≠ hashable T [[⟨t, .none⟩]] ∧ nameEq T [[⟨t, .bool a⟩]] [[⟨t, .none⟩]] = .ok false) := by
  have key : ∀ (v : Native) (p : Prepped), prepped T v = .ok p → hashable T [[⟨t, v⟩]] = .ok (t ++ [':', ' '] ++ p.text) := by
    intro v p h
    have h1 : getValues T [⟨t, v⟩] [] = .ok [(t, p)] := by
      simp [getValues, h, bind, Except.bind, put]
    unfold hashable
    simp only [List.mapM_cons, List.mapM_nil]
    rw [rdnHashable_one T _ t p h1]
    simp [bind, Except.bind, pure, Except.pure, pyJoin]
  have eqv : ∀ (v w : Native) (p q : Prepped), prepped T v = .ok p → prepped T w = .ok q →
      nameEq T [[⟨t, v⟩]] [[⟨t, w⟩]] = .ok (q.eq p) := by
    intro v w p q h h'
    have h1 : getValues T [⟨t, v⟩] [] = .ok [(t, p)] := by
      simp [getValues, h, bind, Except.bind, put]
    have h2 : getValues T [⟨t, w⟩] [] = .ok [(t, q)] := by
      simp [getValues, h', bind, Except.bind, put]
    unfold nameEq
    simp only [List.length_singleton, ne_eq, not_true_eq_false, if_false, eqLoop, rdnEq, getTypes, List.map_cons, List.map_nil, h1, h2]
    cases hq : q.eq p <;> simp [bind, Except.bind, look, hq]
  refine ⟨fun a b => ⟨?_, ?_⟩, fun a b => ⟨?_, ?_⟩, fun a => ⟨?_, ?_⟩⟩
  · rw [key _ (.int a) rfl, key _ (.int b) rfl, Except.ok.injEq, List.append_cancel_left_eq]
    exact ⟨pyStrInt_unique, fun h => by rw [h]⟩
  · rw [eqv _ _ (.int a) (.int b) rfl rfl]
    simp only [Prepped.eq, Except.ok.injEq, beq_iff_eq]
    exact ⟨Eq.symm, Eq.symm⟩
  · rw [key _ (.bool a) rfl, key _ (.bool b) rfl, Except.ok.injEq, List.append_cancel_left_eq]
    cases a <;> cases b <;> decide +kernel
  · rw [eqv _ _ (.bool a) (.bool b) rfl rfl]
    cases a <;> cases b <;> simp [Prepped.eq]
  · rw [key _ (.bool a) rfl, key _ .none rfl, ne_eq, Except.ok.injEq, List.append_cancel_left_eq]
    cases a <;> decide +kernel
  · rw [eqv _ _ (.bool a) .none rfl rfl]
    cases a <;> rfl

/-- A violation: a name without RDNs and one with an empty RDN have the same `hashable` string, and are not equal. -/
theorem C35_empty_fails (T : Tables) : hashable T [] = hashable T [[]] ∧ nameEq T [] [[]] = .ok false := by
  refine ⟨?_, rfl⟩
  unfold hashable rdnHashable
  simp only [List.mapM_cons, List.mapM_nil, getValues]
  simp [bind, Except.bind, pure, Except.pure, pyJoin]

/-- The bytes of a bit string value that contains a record separator. -/
def trickyBytes : Bytes := [0x78, 0x20, 0x1e] ++ "unique_identifier:  y".toList.map fun c => UInt8.ofNat c.toNat

/-- A violation: byte string values are not prepared, so a separator in them makes the `hashable` strings of two different
names equal. -/
theorem C35_bytes_fails :
    hashable asciiTables [[⟨"unique_identifier".toList, .bytes trickyBytes⟩]] =
      hashable asciiTables [[⟨"unique_identifier".toList, .bytes [0x78]⟩], [⟨"unique_identifier".toList, .bytes [0x79]⟩]] ∧
    nameEq asciiTables [[⟨"unique_identifier".toList, .bytes trickyBytes⟩]]
      [[⟨"unique_identifier".toList, .bytes [0x78]⟩], [⟨"unique_identifier".toList, .bytes [0x79]⟩]] = .ok false := by
  refine ⟨?_, by decide +kernel⟩
  unfold hashable
  simp only [List.mapM_cons, List.mapM_nil]
  rw [rdnHashable_one asciiTables _ "unique_identifier".toList
      (.str ([' '] ++ "x ".toList ++ [Char.ofNat 0x1e] ++ "unique_identifier:  y ".toList)) (by decide +kernel),
    rdnHashable_one asciiTables _ "unique_identifier".toList (.str " x ".toList) (by decide +kernel),
    rdnHashable_one asciiTables _ "unique_identifier".toList (.str " y ".toList) (by decide +kernel)]
  decide +kernel

/-- A violation: a BOOLEAN and an INTEGER value are equal, with different `hashable` strings. -/
theorem C35_bool_fails :
    nameEq asciiTables [[⟨"1.2.3".toList, .bool true⟩]] [[⟨"1.2.3".toList, .int 1⟩]] = .ok true ∧
    hashable asciiTables [[⟨"1.2.3".toList, .bool true⟩]] ≠ hashable asciiTables [[⟨"1.2.3".toList, .int 1⟩]] := by
  refine ⟨by decide +kernel, ?_⟩
  unfold hashable
  simp only [List.mapM_cons, List.mapM_nil]
  rw [rdnHashable_one asciiTables _ "1.2.3".toList (.bool true) (by decide +kernel),
    rdnHashable_one asciiTables _ "1.2.3".toList (.int 1) (by decide +kernel)]
  decide +kernel

/-- A violation, whatever the tables are: the range U+FE0F–U+FF00 in the first substitution, where RFC 4518 has
U+FE00–U+FE0F, removes all Arabic presentation forms B, so names that differ in such letters are equal. -/
theorem C35_letters_fails (T : Tables) (t : Str) (c d : Char) (hc : within c 0xfe70 0xfefc = true)
    (hd : within d 0xfe70 0xfefc = true) (p : Prepped) (h : prepped T (.str []) = .ok p) :
    nameEq T [[⟨t, .str [c]⟩]] [[⟨t, .str [d]⟩]] = .ok true := by
  have key : ∀ c : Char, within c 0xfe70 0xfefc = true → prepped T (.str [c]) = .ok p := by
    intro c hc
    have hr : removed c = true := by
      unfold within at hc
      unfold removed within
      simp only [Bool.and_eq_true, decide_eq_true_eq] at hc
      have h1 : 0xfe0f ≤ c.toNat := by omega
      have h2 : c.toNat ≤ 0xff00 := by omega
      simp [h1, h2]
    rw [← h]
    unfold prepped ldapStringPrep mapStep
    simp [hr]
  rw [nameEq_true]
  refine .cons ?_ .nil
  have v : ∀ c : Char, within c 0xfe70 0xfefc = true → getValues T [⟨t, .str [c]⟩] [] = .ok [(t, p)] := by
    intro c hc
    simp only [getValues, key c hc]
    rfl
  exact (rdnEq_true T _ _).2 ⟨rfl, fun _ => Iff.rfl, _, _, v c hc, v d hd, fun _ _ => rfl⟩

end Asn1.Names
