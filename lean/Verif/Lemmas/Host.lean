import Verif.Model.Host
import Verif.Spec.Host
import Verif.Lemmas.PyStr

namespace Asn1.Host
open Asn1 Asn1.Spec

theorem labels_split (s : Str) : Labels s (pySplit '.' s) :=
  ⟨pySplit_ne_nil _ _, fun l hl h => pySplit_no_sep '.' s l hl '.' h rfl, (pyJoin_split '.' s).symm⟩

theorem labels_unique {s : Str} {ls : List Str} (h : Labels s ls) : ls = pySplit '.' s := by
  obtain ⟨h0, h1, rfl⟩ := h
  exact (pySplit_join '.' ls h0 (fun l hl c hc he => h1 l hl (he ▸ hc))).symm

theorem count_split (c : Char) (hc : c ≠ '.') (s : Str) : (pySplit '.' s).flatten.count c = s.count c := by
  induction s with
  | nil => rfl
  | cons x s ih =>
    rw [pySplit]
    split
    · rename_i hx
      subst hx
      rw [List.flatten_cons, List.nil_append, ih, List.count_cons]
      simp [hc.symm]
    · cases hp : pySplit '.' s with
      | nil => exact absurd hp (pySplit_ne_nil _ _)
      | cons p ps =>
        rw [hp] at ih
        simp only [List.flatten_cons, List.cons_append, List.count_cons] at ih ⊢
        rw [ih]

theorem mem_split {c : Char} {s l : Str} (hl : l ∈ pySplit '.' s) (hc : c ∈ l) : c ∈ s := by
  induction s generalizing l with
  | nil =>
    simp [pySplit] at hl; subst hl; cases hc
  | cons x s ih =>
    rw [pySplit] at hl
    split at hl
    · rcases List.mem_cons.mp hl with rfl | hl
      · cases hc
      · exact List.mem_cons_of_mem _ (ih hl hc)
    · cases hp : pySplit '.' s with
      | nil => exact absurd hp (pySplit_ne_nil _ _)
      | cons p ps =>
        rw [hp] at hl ih
        rcases List.mem_cons.mp hl with rfl | hl
        · rcases List.mem_cons.mp hc with rfl | hc
          · simp
          · exact List.mem_cons_of_mem _ (ih (by simp) hc)
        · exact List.mem_cons_of_mem _ (ih (by simp [hl]) hc)

theorem toNat_lower (c : Char) (h : 65 ≤ c.toNat ∧ c.toNat ≤ 90) : (Char.ofNat (c.toNat + 32)).toNat = c.toNat + 32 := by
  generalize c.toNat = n at *
  have : ∀ n < 128, 65 ≤ n ∧ n ≤ 90 → (Char.ofNat (n + 32)).toNat = n + 32 := by decide
  exact this n (by omega) h

theorem mem_lower {c : Char} {s : Str} (h : c ∈ lower s) : c ∈ s ∨ (97 ≤ c.toNat ∧ c.toNat ≤ 122) := by
  obtain ⟨d, hd, rfl⟩ := List.mem_map.mp h
  split
  · rename_i hu
    right
    rw [toNat_lower d hu]; omega
  · exact Or.inl hd

theorem lower_lower (s : Str) : lower (lower s) = lower s := by
  unfold lower
  rw [List.map_map]
  apply List.map_congr_left
  intro c _
  simp only [Function.comp]
  by_cases h : 65 ≤ c.toNat ∧ c.toNat ≤ 90
  · rw [if_pos h, if_neg]
    rw [toNat_lower c h]; omega
  · rw [if_neg h, if_neg h]

theorem noMeta_lower {s : Str} (h : NoMeta s) : NoMeta (lower s) := by
  intro c hc
  rcases mem_lower hc with hc | hc
  · exact h c hc
  · intro hm
    simp only [List.mem_cons, List.not_mem_nil, or_false] at hm
    rcases hm with rfl | rfl | rfl | rfl | rfl | rfl | rfl | rfl | rfl | rfl | rfl | rfl <;> revert hc <;> decide

theorem newline_lower {s : Str} (h : '\n' ∉ s) : '\n' ∉ lower s := fun hc => by
  rcases mem_lower hc with hc | hc
  · exact h hc
  · revert hc; decide

/-- The wildcard test. -/
theorem isWildcardDomain_iff {s w : Str} {rest : List Str} (hs : pySplit '.' s = w :: rest) (hl : lower s = s) :
    isWildcardDomain s = true ↔
      (∃ pre post, w = pre ++ '*' :: post ∧ '*' ∉ pre ++ post) ∧ (¬ ['x', 'n', '-', '-'] <+: w) ∧ ∀ r ∈ rest, '*' ∉ r := by
  have hcount : s.count '*' = w.count '*' + rest.flatten.count '*' := by
    rw [← count_split '*' (by decide) s, hs, List.flatten_cons, List.count_append]
  have hx : (w.take 4 = "xn--".toList) ↔ ['x', 'n', '-', '-'] <+: w := by
    rw [List.prefix_iff_eq_take, eq_comm]; rfl
  have hrest : rest.flatten.count '*' = 0 ↔ ∀ r ∈ rest, '*' ∉ r := by
    rw [List.count_eq_zero]
    constructor
    · exact fun h r hr hc => h (List.mem_flatten.mpr ⟨r, hr, hc⟩)
    · intro h hc
      obtain ⟨r, hr, hc⟩ := List.mem_flatten.mp hc
      exact h r hr hc
  have hw : (∃ pre post, w = pre ++ '*' :: post ∧ '*' ∉ pre ++ post) ↔ w.count '*' = 1 := by
    constructor
    · rintro ⟨pre, post, rfl, h⟩
      rw [List.mem_append, not_or] at h
      rw [List.count_append, List.count_cons, List.count_eq_zero.mpr h.1, List.count_eq_zero.mpr h.2]
      rfl
    · intro h
      have hm : '*' ∈ w := List.count_pos_iff.mp (by omega)
      obtain ⟨pre, post, hwe⟩ := List.append_of_mem hm
      refine ⟨pre, post, hwe, ?_⟩
      rw [hwe, List.count_append, List.count_cons] at h
      have h' : pre.count '*' = 0 ∧ post.count '*' = 0 := by simp at h; omega
      rw [List.mem_append, not_or]
      exact ⟨List.count_eq_zero.mp h'.1, List.count_eq_zero.mp h'.2⟩
  unfold isWildcardDomain
  simp only [hl, hs, List.headD_cons]
  rw [hw, ← hrest, ← hx]
  by_cases h1 : s.count '*' = 1
  · rw [if_neg (not_not.mpr h1), if_neg (by simp)]
    by_cases h2 : '*' ∈ w
    · rw [if_neg (by simpa using h2)]
      have : 0 < w.count '*' := List.count_pos_iff.mpr h2
      by_cases h3 : w.take 4 = "xn--".toList
      · rw [if_pos h3]; simp [h3]
      · rw [if_neg h3]
        simp only [true_iff]
        exact ⟨by omega, h3, by omega⟩
    · rw [if_pos (by simpa using h2)]
      have : w.count '*' = 0 := List.count_eq_zero.mpr h2
      simp [this]
  · rw [if_pos h1]
    simp only [Bool.false_eq_true, false_iff]
    rintro ⟨h2, _, h3⟩
    omega

theorem dollar_plain {s : Str} (h : '\n' ∉ s) : dollar s = [s] := by
  unfold dollar
  rw [if_neg]
  intro hc
  exact h (List.mem_of_getLast? hc)

theorem starMatch_iff {pre post l : Str} (h : '\n' ∉ l) : starMatch pre post l = true ↔ ∃ mid, l = pre ++ mid ++ post := by
  unfold starMatch
  rw [dollar_plain h]
  simp only [List.any_cons, List.any_nil, Bool.or_false, Bool.and_eq_true, List.isPrefixOf_iff_prefix, List.isSuffixOf_iff_suffix,
    decide_eq_true_eq]
  constructor
  · rintro ⟨⟨⟨⟨a, ha⟩, ⟨b, hb⟩⟩, hlen⟩, _⟩
    subst ha
    have : post <:+ a :=
      List.suffix_of_suffix_length_le ⟨b, hb⟩ ⟨pre, rfl⟩ (by rw [List.length_append] at hlen; omega)
    obtain ⟨mid, rfl⟩ := this
    exact ⟨mid, by simp⟩
  · rintro ⟨mid, rfl⟩
    refine ⟨⟨⟨⟨mid ++ post, by simp⟩, ⟨pre ++ mid, rfl⟩⟩, by simp⟩, ?_⟩
    rw [List.all_eq_true]
    intro c hc
    have : c ∈ pre ++ mid ++ post := by
      unfold slice at hc
      exact List.mem_of_mem_take (List.mem_of_mem_drop hc)
    simp only [decide_not, Bool.not_eq_true', decide_eq_false_iff_not]
    rintro rfl
    exact h this

theorem isMeta_false {c : Char} (h1 : c ≠ '.') (h2 : c ≠ '*')
    (h : c ∉ ['\\', '^', '$', '+', '?', '{', '}', '[', ']', '|', '(', ')']) : isMeta c = false := by
  unfold isMeta
  simp at h ⊢
  tauto

theorem labelRegex_plain (rx : Str → Str → Py Bool) {pre post l : Str} (hs : '*' ∉ pre ++ post) (hd : '.' ∉ pre ++ post)
    (hm : NoMeta (pre ++ post)) : labelRegex rx (pre ++ '*' :: post) l = .ok (starMatch pre post l) := by
  have h1 : (pre ++ '*' :: post).takeWhile (· ≠ '*') = pre := by
    rw [List.takeWhile_append_of_pos (by
      intro c hc
      have : c ≠ '*' := fun e => hs (List.mem_append.mpr (Or.inl (e ▸ hc)))
      simpa using this)]
    simp
  have h2 : (pre ++ '*' :: post).dropWhile (· ≠ '*') = '*' :: post := by
    rw [List.dropWhile_append_of_pos (by
      intro c hc
      have : c ≠ '*' := fun e => hs (List.mem_append.mpr (Or.inl (e ▸ hc)))
      simpa using this)]
    simp
  unfold labelRegex
  simp only [h1, h2, List.drop_succ_cons, List.drop_zero]
  have hf : ∀ c ∈ pre ++ post, isMeta c = false := fun c hc =>
    isMeta_false (fun e => hd (e ▸ hc)) (fun e => hs (e ▸ hc)) (hm c hc)
  rw [if_neg]
  simp only [Bool.or_eq_true, List.any_eq_true, not_or, not_exists, not_and]
  constructor
  · intro c hc; rw [hf c (by simp [hc])]; simp
  · intro c hc; rw [hf c (by simp [hc])]; simp

theorem letter_iff (c : Char) : isAlpha c = true ↔ Letter c := by
  unfold isAlpha Letter
  simp only [Bool.or_eq_true, Bool.and_eq_true, decide_eq_true_eq, Char.le_def, UInt32.le_iff_toNat_le]
  show (97 ≤ c.toNat ∧ c.toNat ≤ 122) ∨ (65 ≤ c.toNat ∧ c.toNat ≤ 90) ↔ _
  omega

theorem digit_iff (c : Char) : c.isDigit = true ↔ Digit c := by
  unfold Char.isDigit Digit
  simp only [Bool.and_eq_true, decide_eq_true_eq, ge_iff_le, UInt32.le_iff_toNat_le]
  exact Iff.rfl

theorem alnum_iff (c : Char) : isAlnum c = true ↔ Letter c ∨ Digit c := by
  unfold isAlnum
  rw [Bool.or_eq_true, letter_iff]
  simp only [Bool.and_eq_true, decide_eq_true_eq, Char.le_def, UInt32.le_iff_toNat_le]
  exact Iff.rfl

theorem hyphen_not : ¬ (Letter '-' ∨ Digit '-') := by unfold Letter Digit; decide

theorem hostLabel_iff (l : Str) : hostLabel l = true ↔ HostLabel l := by
  unfold hostLabel HostLabel
  simp only [Bool.and_eq_true, List.all_eq_true, Bool.or_eq_true, beq_iff_eq, alnum_iff, Option.any_eq_true]
  constructor
  · rintro ⟨⟨h1, a, h2, h3⟩, b, h4, h5⟩
    refine ⟨by rintro rfl; simp at h2, fun c hc => or_assoc.mp (h1 c hc), ?_, ?_⟩
    · rw [h2]; rintro h; cases h; exact hyphen_not h3
    · rw [h4]; rintro h; cases h; exact hyphen_not h5
  · rintro ⟨h1, h2, h3, h4⟩
    refine ⟨⟨fun c hc => or_assoc.mpr (h2 c hc), l.head h1, List.head?_eq_some_head h1, ?_⟩, l.getLast h1, List.getLast?_eq_some_getLast h1, ?_⟩
    · rcases or_assoc.mpr (h2 _ (List.head_mem h1)) with h | h
      · exact h
      · rw [List.head?_eq_some_head h1, h] at h3; exact absurd rfl h3
    · rcases or_assoc.mpr (h2 _ (List.getLast_mem h1)) with h | h
      · exact h
      · rw [List.getLast?_eq_some_getLast h1, h] at h4; exact absurd rfl h4

theorem split_last (s : Str) : pySplit '.' s = (pySplit '.' s).dropLast ++ [(pySplit '.' s).getLastD []] := by
  have h := pySplit_ne_nil '.' s
  generalize pySplit '.' s = ls at h ⊢
  rw [List.getLastD_eq_getLast?, List.getLast?_eq_some_getLast h]
  exact (List.dropLast_concat_getLast h).symm

theorem hostName_iff (s : Str) : hostLabels (pySplit '.' s) = true ↔ HostName s := by
  unfold hostLabels HostName
  simp only [Bool.and_eq_true, List.all_eq_true, decide_eq_true_eq, hostLabel_iff, letter_iff]
  constructor
  · rintro ⟨⟨⟨h1, h2⟩, h3⟩, h4⟩
    refine ⟨(pySplit '.' s).dropLast, (pySplit '.' s).getLastD [], ?_, ?_, h2, h3, h4⟩
    · intro h
      have := congrArg List.length h
      rw [List.length_dropLast] at this
      simp at this; omega
    · rw [← split_last]; exact labels_split s
  · rintro ⟨ls, top, h0, h1, h2, h3, h4⟩
    rw [← labels_unique h1, List.dropLast_concat, List.getLastD_concat]
    refine ⟨⟨⟨?_, h2⟩, h3⟩, h4⟩
    have := List.length_pos_iff.mpr h0
    simp; omega

theorem short_iff (s : Str) :
    ((pySplit '.' s).dropLast.all (fun l => 0 < l.length && l.length < 64) && decide (((pySplit '.' s).getLastD []).length < 64)) = true ↔
      Short s := by
  unfold Short
  simp only [Bool.and_eq_true, List.all_eq_true, decide_eq_true_eq]
  constructor
  · rintro ⟨h1, h2⟩
    exact ⟨_, _, by rw [← split_last]; exact labels_split s, fun l hl => ⟨(h1 l hl).1, by have := (h1 l hl).2; omega⟩, by omega⟩
  · rintro ⟨ls, top, h1, h2, h3⟩
    rw [← labels_unique h1, List.dropLast_concat, List.getLastD_concat]
    exact ⟨fun l hl => ⟨(h2 l hl).1, by have := (h2 l hl).2; omega⟩, by omega⟩

theorem mem_dollar (s t : Str) : t ∈ dollar s ↔ ∃ feed ∈ [[], ['\n']], s = t ++ feed := by
  simp only [List.mem_cons, List.not_mem_nil, or_false, exists_eq_or_imp, List.append_nil, exists_eq_left]
  unfold dollar
  split
  · rename_i h
    obtain ⟨u, rfl⟩ : ∃ u, s = u ++ ['\n'] := by
      have h0 : s ≠ [] := by rintro rfl; cases h
      rw [List.getLast?_eq_some_getLast h0] at h
      injection h with h
      exact ⟨s.dropLast, by rw [← h]; exact (List.dropLast_concat_getLast h0).symm⟩
    simp only [List.dropLast_concat, List.mem_cons, List.not_mem_nil, or_false, List.append_cancel_right_eq]
    constructor <;> rintro (h | h) <;> simp [h]
  · rename_i h
    constructor
    · intro ht; left; simpa using (List.mem_singleton.mp ht).symm
    · rintro (rfl | rfl)
      · simp
      · simp at h

theorem hostName_head {h : Str} (hh : HostName h) : ¬ ['*', '.'] <+: h := by
  rintro ⟨r, hr⟩
  obtain ⟨ls, top, h0, ⟨_, _, h1⟩, h2, _⟩ := hh
  cases ls with
  | nil => exact h0 rfl
  | cons a ls =>
    obtain ⟨ha, hb, _⟩ := h2 a (by simp)
    cases a with
    | nil => exact ha rfl
    | cons x a =>
      have : pyJoin ['.'] ((x :: a) :: ls ++ [top]) = x :: (a ++ '.' :: pyJoin ['.'] (ls ++ [top])) := by
        cases ls <;> simp [pyJoin]
      rw [this, ← hr] at h1
      injection h1 with h1 _
      have := hb x (by simp)
      rw [← h1] at this
      revert this
      unfold Letter Digit; decide

theorem cnPattern_iff (s : Str) : cnPattern s = true ↔ HostLike s := by
  unfold cnPattern HostLike
  simp only [List.any_eq_true, hostName_iff]
  constructor
  · rintro ⟨t, ht, hn⟩
    obtain ⟨feed, hf, rfl⟩ := (mem_dollar s t).mp ht
    split at hn
    · rename_i hp
      obtain ⟨r, hr⟩ := List.isPrefixOf_iff_prefix.mp hp
      subst hr
      exact ⟨r, hn, ['*', '.'], by simp, feed, hf, rfl⟩
    · exact ⟨t, hn, [], by simp, feed, hf, rfl⟩
  · rintro ⟨h, hn, star, hs, feed, hf, rfl⟩
    refine ⟨star ++ h, (mem_dollar _ _).mpr ⟨feed, hf, rfl⟩, ?_⟩
    simp only [List.mem_cons, List.not_mem_nil, or_false] at hs
    rcases hs with rfl | rfl
    · rw [List.nil_append, if_neg (fun hp => hostName_head hn (List.isPrefixOf_iff_prefix.mp hp))]; exact hn
    · rw [if_pos (List.isPrefixOf_iff_prefix.mpr ⟨h, rfl⟩)]; exact hn

theorem looksIpv4_iff {s : Str} (hn : '\n' ∉ s) : looksIpv4 s = true ↔ DottedQuad s := by
  have hd : dollar s = [s] := by
    unfold dollar
    rw [if_neg]
    intro h
    exact hn (List.mem_of_getLast? h)
  unfold looksIpv4 DottedQuad
  rw [hd]
  simp only [List.any_cons, List.any_nil, Bool.or_false, Bool.and_eq_true, List.all_eq_true, decide_eq_true_eq, digit_iff]
  constructor
  · rintro ⟨h1, h2⟩
    exact ⟨_, labels_split s, h1, fun l hl => by simpa using h2 l hl⟩
  · rintro ⟨ls, h1, h2, h3⟩
    rw [← labels_unique h1]
    exact ⟨h2, fun l hl => by simpa using h3 l hl⟩

end Asn1.Host
