import Verif.Lemmas.Name
import Verif.Model.Human
import Verif.Spec.Human

/-!
# C59 — the text of a name shows all its attributes
-/

namespace Asn1.Names.Props
open Asn1 Asn1.Names Asn1.Names.Spec

variable {V : Type}

/-- The values kept for one label, in order. -/
def grouped : List V → Option (Group V)
  | [] => none
  | v :: vs => some (vs.foldl Group.pair (.one v))

theorem grouped_concat (vs : List V) (v : V) (g : Group V) (h : grouped vs = some g) : grouped (vs ++ [v]) = some (.pair g v) := by
  cases vs with
  | nil => cases h
  | cons w ws =>
    simp only [grouped, Option.some.injEq] at h
    simp [grouped, h]

/-- The labels with the values of their attributes. -/
def gathered (l : List (Str × V)) : List (Str × Option (Group V)) :=
  (l.map Prod.fst).reverse.dedup.reverse.map fun k => (k, grouped (valuesOf k l))

theorem valuesOf_concat (k : Str) (l : List (Str × V)) (a : Str × V) :
    valuesOf k (l ++ [a]) = valuesOf k l ++ if a.1 = k then [a.2] else [] := by
  unfold valuesOf
  by_cases h : a.1 = k <;> simp [h]

theorem valuesOf_nil {k : Str} {l : List (Str × V)} (h : k ∉ l.map Prod.fst) : valuesOf k l = [] := by
  unfold valuesOf
  rw [List.map_eq_nil_iff, List.filter_eq_nil_iff]
  intro a ha hk
  exact h (List.mem_map.mpr ⟨a, ha, by simpa using hk⟩)

theorem look_gathered (d : List (Str × Group V)) (ks : List Str) (f : Str → Option (Group V)) (h : d.map (fun e => (e.1, some e.2)) = ks.map fun k => (k, f k)) (k : Str) :
    look d k = if k ∈ ks then f k else none := by
  induction ks generalizing d with
  | nil => cases d with
    | nil => simp [look]
    | cons e d => simp at h
  | cons x ks ih => cases d with
    | nil => simp at h
    | cons e d =>
      simp only [List.map_cons, List.cons.injEq, Prod.mk.injEq] at h
      obtain ⟨⟨h1, h2⟩, h3⟩ := h
      have := ih d h3
      unfold look at this ⊢
      by_cases hk : e.1 = k
      · have hx : x = k := by rw [← h1, hk]
        rw [List.find?_cons_of_pos (by simpa using hk)]
        subst hx
        simp [← h2]
      · rw [List.find?_cons_of_neg (by simpa using hk), this]
        have : ¬ k = x := fun h => hk (by rw [h1, h])
        simp [this]

theorem put_gathered (d : List (Str × Group V)) (ks : List Str) (f f' : Str → Option (Group V)) (h : d.map (fun e => (e.1, some e.2)) = ks.map fun k => (k, f k))
    (k : Str) (g : Group V) (hk : f' k = some g) (hf : ∀ x, x ≠ k → f' x = f x) :
    (put d k g).map (fun e => (e.1, some e.2)) = (if k ∈ ks then ks else ks ++ [k]).map fun k => (k, f' k) := by
  have hkeys : d.map Prod.fst = ks := by
    have := congrArg (List.map Prod.fst) h
    simpa [List.map_map, Function.comp_def] using this
  have hany : (d.any fun e => e.1 == k) = true ↔ k ∈ ks := by
    rw [← hkeys]; simp
  unfold put
  by_cases hm : k ∈ ks
  · rw [if_pos (hany.mpr hm), if_pos hm]
    clear hany hm hkeys
    induction ks generalizing d with
    | nil => cases d with
      | nil => rfl
      | cons e d => simp at h
    | cons x ks ih => cases d with
      | nil => simp at h
      | cons e d =>
        simp only [List.map_cons, List.cons.injEq, Prod.mk.injEq] at h ⊢
        obtain ⟨⟨h1, h2⟩, h3⟩ := h
        refine ⟨?_, ih d h3⟩
        by_cases hx : e.1 = k
        · rw [if_pos (by simpa using hx), ← h1, hx]; exact ⟨rfl, hk.symm⟩
        · rw [if_neg (by simpa using hx)]
          exact ⟨h1, by rw [h2, hf x (by rw [← h1]; exact hx)]⟩
  · rw [if_neg (fun h => hm (hany.mp h)), if_neg hm]
    rw [List.map_append, h, List.map_append]
    congr 1
    · apply List.map_congr_left
      intro x hx
      rw [hf x (fun h => hm (h ▸ hx))]
    · simp [hk]

theorem humanStep_gathered (d : List (Str × Group V)) (o : Option Str) (pre : List (Str × V)) (a : Str × V)
    (h : d.map (fun e => (e.1, some e.2)) = gathered (pre.map fun e => (humanLabel e.1, e.2))) :
    (humanStep (d, o) a).1.map (fun e => (e.1, some e.2)) = gathered ((pre ++ [a]).map fun e => (humanLabel e.1, e.2)) ∧
      (humanStep (d, o) a).2 = some (humanLabel a.1) := by
  rw [List.map_append, List.map_singleton]
  generalize pre.map (fun e => (humanLabel e.1, e.2)) = l at h
  have hl := look_gathered d _ _ h (humanLabel a.1)
  have hmem : humanLabel a.1 ∈ (l.map Prod.fst).reverse.dedup.reverse ↔ humanLabel a.1 ∈ l.map Prod.fst := by simp
  have hks : ((l ++ [(humanLabel a.1, a.2)]).map Prod.fst).reverse.dedup.reverse =
      if humanLabel a.1 ∈ (l.map Prod.fst).reverse.dedup.reverse then (l.map Prod.fst).reverse.dedup.reverse
      else (l.map Prod.fst).reverse.dedup.reverse ++ [humanLabel a.1] := by
    rw [List.map_append, List.map_singleton, List.reverse_append, List.reverse_singleton, List.singleton_append]
    by_cases hm : humanLabel a.1 ∈ l.map Prod.fst
    · rw [if_pos (hmem.mpr hm), List.dedup_cons_of_mem (by simpa using hm)]
    · rw [if_neg (fun h => hm (hmem.mp h)), List.dedup_cons_of_notMem (by simpa using hm), List.reverse_cons]
  have hf : ∀ x, x ≠ humanLabel a.1 → grouped (valuesOf x (l ++ [(humanLabel a.1, a.2)])) = grouped (valuesOf x l) := by
    intro x hx
    rw [valuesOf_concat, if_neg (fun h => hx h.symm), List.append_nil]
  simp only [humanStep]
  cases hg : look d (humanLabel a.1) with
  | some g =>
    refine ⟨?_, rfl⟩
    rw [hg] at hl
    simp only
    unfold gathered
    rw [hks]
    by_cases hm : humanLabel a.1 ∈ (l.map Prod.fst).reverse.dedup.reverse
    · rw [if_pos hm] at hl
      exact put_gathered d _ _ _ h _ _ (by rw [valuesOf_concat, if_pos rfl]; exact grouped_concat _ _ _ hl.symm) hf
    · rw [if_neg hm] at hl; cases hl
  | none =>
    refine ⟨?_, rfl⟩
    rw [hg] at hl
    simp only
    unfold gathered
    rw [hks]
    have hv : valuesOf (humanLabel a.1) l = [] := by
      by_cases hm : humanLabel a.1 ∈ (l.map Prod.fst).reverse.dedup.reverse
      · rw [if_pos hm] at hl
        cases hv : valuesOf (humanLabel a.1) l with
        | nil => rfl
        | cons x xs => rw [hv] at hl; cases hl
      · exact valuesOf_nil (fun h => hm (hmem.mpr h))
    exact put_gathered d _ _ _ h _ _ (by rw [valuesOf_concat, if_pos rfl, hv]; rfl) hf

theorem human_gathered (l : List (Str × V)) (d : List (Str × Group V) × Option Str) (pre : List (Str × V))
    (h : d.1.map (fun e => (e.1, some e.2)) = gathered (pre.map fun e => (humanLabel e.1, e.2)))
    (ho : d.2 = (pre.map fun e => humanLabel e.1).getLast?) :
    (l.foldl humanStep d).1.map (fun e => (e.1, some e.2)) = gathered ((pre ++ l).map fun e => (humanLabel e.1, e.2)) ∧
      (l.foldl humanStep d).2 = ((pre ++ l).map fun e => humanLabel e.1).getLast? := by
  induction l generalizing d pre with
  | nil => exact ⟨by simpa using h, by simpa using ho⟩
  | cons a as ih =>
    have : pre ++ a :: as = (pre ++ [a]) ++ as := by simp
    rw [this, List.foldl_cons]
    obtain ⟨d, o⟩ := d
    have := humanStep_gathered d o pre a h
    exact ih _ _ this.1 (by rw [this.2]; simp)

/-- The text of a group: the values in reverse order. -/
theorem humanize_grouped (read : V → Py Shown) (text : V → Str) (vs : List V) (hr : ∀ v ∈ vs, read v = .ok (.text (text v))) (g : Group V)
    (h : grouped vs = some g) : humanize read g = .ok (.text (pyJoin ", ".toList (vs.map text).reverse)) := by
  induction vs using List.reverseRecOn generalizing g with
  | nil => cases h
  | append_singleton vs v ih =>
    cases hv : grouped vs with
    | none =>
      cases vs with
      | nil =>
        simp only [List.nil_append, grouped, List.foldl_nil, Option.some.injEq] at h
        subst h
        simp [humanize, hr v (by simp), pyJoin]
      | cons w ws => cases hv
    | some g' =>
      rw [grouped_concat vs v g' hv] at h
      cases h
      have h1 := ih (fun v hv => hr v (by simp [hv])) g' hv
      simp only [humanize, h1, hr v (by simp), bind, Except.bind]
      cases hr : (vs.map text).reverse with
      | nil =>
        cases vs with
        | nil => cases hv
        | cons w ws => simp at hr
      | cons x xs => simp [hr, pyJoin]

theorem humanEntries_gathered (read : V → Py Shown) (text : V → Str) (ks : List Str) (f : Str → List V) (d : List (Str × Group V))
    (h : d.map (fun e => (e.1, some e.2)) = ks.map fun k => (k, grouped (f k))) (hr : ∀ k ∈ ks, ∀ v ∈ f k, read v = .ok (.text (text v))) :
    humanEntries read d = .ok (ks.map fun k => k ++ ": ".toList ++ pyJoin ", ".toList ((f k).map text).reverse) := by
  induction ks generalizing d with
  | nil => cases d with
    | nil => rfl
    | cons e d => simp at h
  | cons x ks ih => cases d with
    | nil => simp at h
    | cons e d =>
      simp only [List.map_cons, List.cons.injEq, Prod.mk.injEq] at h
      obtain ⟨⟨h1, h2⟩, h3⟩ := h
      obtain ⟨k, g⟩ := e
      simp only at h1 h2
      subst h1
      simp only [humanEntries, humanize_grouped read text (f k) (hr k (by simp)) g h2.symm, ih d h3 (fun k hk => hr k (by simp [hk])), bind, Except.bind, Shown.str,
        List.map_cons]

theorem valuesOf_text (text : V → Str) (k : Str) (l : List (Str × V)) : (valuesOf k l).map text = valuesOf k (l.map fun e => (e.1, text e.2)) := by
  unfold valuesOf
  rw [List.map_map, List.filter_map, List.map_map]
  rfl

/-- The attributes with the labels and texts that people see. -/
def seen (text : V → Str) (l : List (Str × V)) : List (Str × Str) := l.map fun e => (humanLabel e.1, text e.2)

theorem humanJoin_eq (es : List Str) : humanJoin es = pyJoin (if ∃ p ∈ es, ',' ∈ p then "; ".toList else ", ".toList) es.reverse := by
  unfold humanJoin
  congr 1
  by_cases h : ∃ p ∈ es, ',' ∈ p
  · rw [if_pos h, if_pos (by simpa using h)]
  · rw [if_neg h, if_neg (by simpa using h)]

/-- The text of a name whose values are texts, read any number of times: all labels, each with all its values. -/
theorem C59_text (read : V → Py Shown) (text : V → Str) (l : List (List (Str × V))) (hr : ∀ e ∈ l.flatten, read e.2 = .ok (.text (text e.2))) :
    humanFriendly read (.ok l) none = (.ok (shownText (seen text l.flatten)), some (shownText (seen text l.flatten))) ∧
      humanFriendly read (.ok l) (some (shownText (seen text l.flatten))) = (.ok (shownText (seen text l.flatten)), some (shownText (seen text l.flatten))) := by
  refine ⟨?_, rfl⟩
  obtain ⟨h1, h2⟩ := human_gathered l.flatten ([], none) [] rfl rfl
  rw [List.nil_append] at h1 h2
  generalize ha : l.flatten = a at h1 h2 hr ⊢
  unfold gathered at h1
  have hk : ((a.map fun e => (humanLabel e.1, e.2)).map Prod.fst) = (seen text a).map Prod.fst := by
    unfold seen; rw [List.map_map, List.map_map]; rfl
  have hl : (a.map fun e => humanLabel e.1) = (seen text a).map Prod.fst := by
    unfold seen; rw [List.map_map]; rfl
  have hv : ∀ k, (valuesOf k (a.map fun e => (humanLabel e.1, e.2))).map text = valuesOf k (seen text a) := by
    intro k
    rw [valuesOf_text]
    unfold seen
    rw [List.map_map]; rfl
  have hread : ∀ k, ∀ v ∈ valuesOf k (a.map fun e => (humanLabel e.1, e.2)), read v = .ok (.text (text v)) := by
    intro k v hv
    simp only [valuesOf, List.mem_map, List.mem_filter] at hv
    obtain ⟨e, ⟨⟨x, hx, rfl⟩, -⟩, rfl⟩ := hv
    exact hr x hx
  rw [hk] at h1
  rw [hl] at h2
  have key : ∃ es, humanEntries read (if (a.foldl humanStep ([], none)).2 = some "Country".toList then (a.foldl humanStep ([], none)).1.reverse
      else (a.foldl humanStep ([], none)).1) = .ok es ∧ es.reverse = shownParts (seen text a) := by
    unfold shownParts
    rw [h2]
    by_cases hc : ((seen text a).map Prod.fst).getLast? = some "Country".toList
    · rw [if_pos hc, if_pos hc]
      have := congrArg List.reverse h1
      rw [← List.map_reverse, ← List.map_reverse] at this
      refine ⟨_, humanEntries_gathered read text _ _ _ this (fun k _ => hread k), ?_⟩
      simp only [labelsOf, hv, List.map_reverse, List.reverse_reverse]
      rfl
    · rw [if_neg hc, if_neg hc]
      refine ⟨_, humanEntries_gathered read text _ _ _ h1 (fun k _ => hread k), ?_⟩
      simp only [labelsOf, hv]
      rfl
  obtain ⟨es, k1, k2⟩ := key
  have hj : humanJoin es = shownText (seen text a) := by
    rw [humanJoin_eq, k2]
    unfold shownText
    congr 2
    rw [← k2]
    simp
  have ht : humanText read (.ok l) = .ok (shownText (seen text a)) := by
    simp only [humanText, bind, Except.bind, ha, k1, hj]
  simp only [humanFriendly, ht]

theorem infix_join {p : Str} (sep : Str) {l : List Str} (h : p ∈ l) : p <:+: pyJoin sep l := by
  induction l with
  | nil => cases h
  | cons x xs ih =>
    cases xs with
    | nil =>
      have : p = x := by simpa using h
      subst this
      exact List.infix_rfl
    | cons y ys =>
      simp only [pyJoin]
      rcases List.mem_cons.mp h with rfl | h
      · rw [List.append_assoc]; exact (List.prefix_append _ _).isInfix
      · exact (ih h).trans (List.suffix_append _ _).isInfix

/-- Every attribute can be seen in the text: there is a part for its label, and its value is in that part. -/
theorem C59_shows (read : V → Py Shown) (text : V → Str) (l : List (List (Str × V))) (hr : ∀ e ∈ l.flatten, read e.2 = .ok (.text (text e.2)))
    (r : List (Str × V)) (hl : r ∈ l) (t : Str) (v : V) (ha : (t, v) ∈ r) :
    ∃ s values, (humanFriendly read (.ok l) none).1 = .ok s ∧ humanLabel t ++ ": ".toList ++ values <:+: s ∧ text v <:+: values := by
  have he : (t, v) ∈ l.flatten := List.mem_flatten.mpr ⟨r, hl, ha⟩
  refine ⟨_, pyJoin ", ".toList (valuesOf (humanLabel t) (seen text l.flatten)).reverse, by rw [(C59_text read text l hr).1], ?_, ?_⟩
  · have : labelText (seen text l.flatten) (humanLabel t) ∈ shownParts (seen text l.flatten) := by
      have hm : humanLabel t ∈ labelsOf (seen text l.flatten) := by
        simp only [labelsOf, List.mem_reverse, List.mem_dedup, seen, List.map_map, List.mem_map]
        exact ⟨_, he, rfl⟩
      unfold shownParts
      split
      · exact List.mem_map_of_mem hm
      · exact List.mem_reverse.mpr (List.mem_map_of_mem hm)
    exact infix_join _ this
  · refine infix_join _ (List.mem_reverse.mpr ?_)
    simp only [valuesOf, List.mem_map, List.mem_filter, seen]
    exact ⟨(humanLabel t, text v), ⟨⟨(t, v), he, rfl⟩, by simp⟩, rfl⟩

/-- Types with different names have different labels, unless one of them is called like the label of another type. -/
theorem C59_labels (t t' : Str) (h : humanLabel t = humanLabel t') (ht : t ∉ humanMap.map Prod.snd) (ht' : t' ∉ humanMap.map Prod.snd) : t = t' := by
  have hinj : ∀ a ∈ humanMap, ∀ b ∈ humanMap, a.2 = b.2 → a.1 = b.1 := by decide +kernel
  have key : ∀ t : Str, (∃ e ∈ humanMap, e.1 = t ∧ humanLabel t = e.2) ∨ humanLabel t = t := by
    intro t
    unfold humanLabel StrMap.get
    cases hf : humanMap.find? (fun e => e.1 == t) with
    | none => right; rfl
    | some e =>
      left
      refine ⟨e, List.mem_of_find?_eq_some hf, ?_, rfl⟩
      simpa using List.find?_some hf
  rcases key t with ⟨e, h1, h2, h3⟩ | h1 <;> rcases key t' with ⟨e', k1, k2, k3⟩ | k1
  · rw [← h2, ← k2]
    exact hinj e h1 e' k1 (by rw [← h3, ← k3, h])
  · exact absurd (List.mem_map.mpr ⟨e, h1, by rw [← h3, h, k1]⟩) ht'
  · exact absurd (List.mem_map.mpr ⟨e', k1, by rw [← k3, ← h, h1]⟩) ht
  · rw [← h1, h, k1]

/-- The label of every type the package has a name for consists of the words of that name. -/
theorem C59_label_words (e : Str × Str) (he : e ∈ nameMap) : humanLabel e.2 = labelOf e.2 := by
  have h : ∀ e ∈ nameMap, humanLabel e.2 = labelOf e.2 := by decide +kernel
  exact h e he

/-- Other types are shown by their number: a text with a dot is its own label. -/
theorem C59_label_number (t : Str) (h : '.' ∈ t) : humanLabel t = t := by
  have hn : ∀ e ∈ humanMap, '.' ∉ e.1 := by decide +kernel
  unfold humanLabel StrMap.get
  cases hf : humanMap.find? (fun e => e.1 == t) with
  | none => rfl
  | some e =>
    have h1 := hn e (List.mem_of_find?_eq_some hf)
    have h2 : e.1 = t := by simpa using List.find?_some hf
    exact absurd (h2 ▸ h) h1

example : labelOf "incorporation_state_or_province".toList = "Incorporation State/Province".toList ∧ labelOf "given_name".toList = "Given Name".toList := by decide +kernel

/-- A name that has been read is not read again: the text stays the same, even if the name has been changed. -/
theorem C59_cached (read : V → Py Shown) (rdns rdns' : Py (List (List (Str × V)))) (s : Str) (h : (humanFriendly read rdns none).1 = .ok s) :
    humanFriendly read rdns' (humanFriendly read rdns none).2 = (.ok s, some s) := by
  cases ht : humanText read rdns with
  | ok t => simp_all [humanFriendly]
  | error e => simp [humanFriendly, ht] at h

/-- Two values of a type whose values are not text, as two unique identifiers: no text at all. -/
theorem C59_bytes_fails (read : V → Py Shown) (v w : V) (t s s' : Str) (hv : read v = .ok (.other s)) (hw : read w = .ok (.other s')) :
    humanFriendly read (.ok [[(t, v)], [(t, w)]]) none = (.error .typeError, none) := by
  have h1 : look (put ([] : List (Str × Group V)) (humanLabel t) (.one v)) (humanLabel t) = some (.one v) := by rw [look_put, if_pos rfl]
  have h0 : look ([] : List (Str × Group V)) (humanLabel t) = none := rfl
  have h2 : put (put ([] : List (Str × Group V)) (humanLabel t) (.one v)) (humanLabel t) (.pair (.one v) w) = [(humanLabel t, .pair (.one v) w)] := by
    simp [put]
  have h3 : [[(t, v)], [(t, w)]].flatten.foldl humanStep ([], none) = ([(humanLabel t, .pair (.one v) w)], some (humanLabel t)) := by
    simp only [List.flatten_cons, List.flatten_nil, List.append_nil, List.cons_append, List.nil_append, List.foldl_cons, List.foldl_nil, humanStep, h0, h1, h2]
  have h4 : humanEntries read [(humanLabel t, .pair (.one v) w)] = .error .typeError := by
    simp only [humanEntries, humanize, hv, hw, bind, Except.bind]
  have h5 : humanText read (.ok [[(t, v)], [(t, w)]]) = .error .typeError := by
    simp only [humanText, bind, Except.bind, h3, List.reverse_singleton, ite_self, h4]
  simp only [humanFriendly, h5]

/-- A name: country, two units in one RDN, and a person with a comma in their name. -/
def personName : List (List (Str × Str)) :=
  [[("country_name".toList, "GB".toList)], [("organizational_unit_name".toList, "A".toList), ("organizational_unit_name".toList, "B".toList)],
    [("common_name".toList, "Doe, Jo".toList)]]

example : shownText (seen (fun s => s) personName.flatten) = "Common Name: Doe, Jo; Organizational Unit: B, A; Country: GB".toList := by decide +kernel

example : (humanFriendly (fun s => .ok (.text s)) (.ok personName) none).1 = .ok "Common Name: Doe, Jo; Organizational Unit: B, A; Country: GB".toList := by
  decide +kernel

example : (humanFriendly (fun s => .ok (.text s)) (.ok [[("common_name".toList, "X".toList)], [("country_name".toList, "GB".toList)]]) none).1 =
    .ok "Common Name: X, Country: GB".toList := by decide +kernel

example : "common_name".toList ∉ humanMap.map Prod.snd ∧ "1.2.3".toList ∉ humanMap.map Prod.snd := by decide +kernel

end Asn1.Names.Props
