import Verif.Lemmas.NameEq
import Verif.Lemmas.CertUrls

/-! Prepared texts: the separators do not occur in them; ASCII texts are compared by their words. -/

namespace Asn1.Names
open Asn1 Spec

section Strip

theorem mem_pyStrip {c : Char} {s : Str} (h : c ∈ pyStrip s) : c ∈ s := by
  unfold pyStrip pyRstrip pyLstrip at h
  rw [List.mem_reverse] at h
  have := (List.dropWhile_sublist _).subset h
  rw [List.mem_reverse] at this
  exact (List.dropWhile_sublist _).subset this

theorem mem_collapse {c : Char} {s : Str} (h : c ∈ collapse s) : c ∈ s := by
  induction s with
  | nil => exact h
  | cons x xs ih =>
    simp only [collapse] at h
    split at h
    · next hx =>
      split at h
      · exact List.mem_cons_of_mem _ (ih h)
      · simp only [List.mem_cons] at h
        rcases h with h | h | h
        · exact h ▸ hx ▸ List.mem_cons_self
        · exact h ▸ hx ▸ List.mem_cons_self
        · exact List.mem_cons_of_mem _ (ih h)
    · rcases List.mem_cons.1 h with h | h
      · exact h ▸ List.mem_cons_self
      · exact List.mem_cons_of_mem _ (ih h)

theorem not_separator_space : ¬ Separator ' ' := by unfold Separator; decide

theorem prep_clean {T : Tables} (hT : CleanTables T) (s p : Str) (h : ldapStringPrep T s = .ok p) :
    ∀ c ∈ p, ¬ Separator c := by
  unfold ldapStringPrep at h
  simp only at h
  split at h
  · cases h
  · split at h
    · cases h
    · rw [← Except.ok.inj h]
      have hm : ∀ c ∈ T.nfkc (mapStep T s), ¬ Separator c := by
        apply hT.nfkc
        intro c hc
        unfold mapStep at hc
        simp only [List.mem_flatMap] at hc
        obtain ⟨d, hd, hc⟩ := hc
        refine hT.b2 d ?_ c hc
        simp only [List.mem_map, List.mem_filter] at hd
        obtain ⟨e, ⟨⟨he, he4⟩, _⟩, rfl⟩ := hd
        split
        · exact not_separator_space
        · intro hs
          have : removed4 e = true := by
            unfold removed4 within
            rcases hs with hs | hs <;> simp [hs]
          simp [this] at he4
      intro c hc
      simp only [List.mem_append, List.mem_singleton] at hc
      rcases hc with (rfl | hc) | rfl
      · exact not_separator_space
      · exact hm c (mem_collapse (mem_pyStrip hc))
      · exact not_separator_space

end Strip

section Words

/-- The non-empty parts between spaces. -/
def parts (s : Str) : List Str := (pySplit ' ' s).filter fun w => w ≠ []

/-- The parts joined with two spaces. -/
def join2 (ws : List Str) : Str := pyJoin [' ', ' '] ws

theorem parts_space (s : Str) : parts (' ' :: s) = parts s := by
  unfold parts
  simp [pySplit]

theorem parts_single (c : Char) (h : c ≠ ' ') : parts [c] = [[c]] := by
  unfold parts
  simp [pySplit, h]

theorem parts_before_space (c : Char) (h : c ≠ ' ') (s : Str) : parts (c :: ' ' :: s) = [c] :: parts s := by
  unfold parts
  simp [pySplit, h]

theorem parts_cons (c d : Char) (h : c ≠ ' ') (hd : d ≠ ' ') (s : Str) :
    ∃ p ps, parts (d :: s) = p :: ps ∧ parts (c :: d :: s) = (c :: p) :: ps := by
  unfold parts
  cases hs : pySplit ' ' s with
  | nil => exact absurd hs (pySplit_ne_nil _ _)
  | cons p ps => exact ⟨d :: p, ps.filter fun w => w ≠ [], by simp [pySplit, hs, h, hd], by simp [pySplit, hs, h, hd]⟩

theorem parts_nil_iff (s : Str) : parts s = [] ↔ ∀ c ∈ s, c = ' ' := by
  induction s with
  | nil => simp [parts, pySplit]
  | cons c cs ih =>
    by_cases h : c = ' '
    · subst h
      rw [parts_space, ih]
      simp
    · refine ⟨fun hp => ?_, fun hp => absurd (hp c (by simp)) h⟩
      cases cs with
      | nil => rw [parts_single c h] at hp; cases hp
      | cons d ds =>
        by_cases hd : d = ' '
        · subst hd; rw [parts_before_space c h] at hp; cases hp
        · obtain ⟨p, ps, _, h2⟩ := parts_cons c d h hd ds
          rw [h2] at hp; cases hp

/-- Two spaces before the first part. -/
def lead (s : Str) : Str := if s.head? = some ' ' then [' ', ' '] else []

/-- Two spaces after the last part. -/
def trail (s : Str) : Str := if parts s ≠ [] ∧ s.getLast? = some ' ' then [' ', ' '] else []

theorem collapse_eq (s : Str) : collapse s = lead s ++ join2 (parts s) ++ trail s := by
  induction s with
  | nil => rfl
  | cons c cs ih =>
    by_cases h : c = ' '
    · subst h
      have hp := parts_space cs
      simp only [collapse, if_true]
      cases cs with
      | nil => simp [collapse, lead, trail, join2, parts, pySplit, pyJoin]
      | cons d ds =>
        have hl : (' ' :: d :: ds).getLast? = (d :: ds).getLast? := by simp [List.getLast?_cons]
        by_cases hd : d = ' '
        · subst hd
          rw [if_pos (by rfl), ih]
          simp only [lead, trail, hp, hl, List.head?_cons, if_true]
        · rw [if_neg (by simpa using hd), ih]
          have : lead (d :: ds) = [] := by simp [lead, hd]
          rw [this]
          simp only [lead, trail, hp, hl, List.head?_cons, if_true]
          rfl
    · have hlead : lead (c :: cs) = [] := by simp [lead, h]
      rw [hlead]
      simp only [collapse, if_neg h, ih]
      cases cs with
      | nil => simp [lead, trail, parts, pySplit, h, join2, pyJoin]
      | cons d ds =>
        have hl : (c :: d :: ds).getLast? = (d :: ds).getLast? := by simp [List.getLast?_cons]
        by_cases hd : d = ' '
        · subst hd
          have hp := parts_before_space c h ds
          have hp' := parts_space ds
          cases hq : parts ds with
          | nil =>
            have hsp := (parts_nil_iff ds).1 hq
            have hlast : (' ' :: ds).getLast? = some ' ' := by
              rw [List.getLast?_eq_some_getLast (by simp)]
              congr 1
              have := List.getLast_mem (l := ' ' :: ds) (by simp)
              rcases List.mem_cons.1 this with h | h
              · exact h
              · exact hsp _ h
            simp only [trail, hp, hp', hq, hl, hlast, lead, List.head?_cons, join2, pyJoin, if_true]
            simp
          | cons w ws =>
            simp only [trail, hp, hp', hq, hl, lead, List.head?_cons, join2, pyJoin, if_true]
            simp
        · obtain ⟨p, ps, h1, h2⟩ := parts_cons c d h hd ds
          have hl2 : lead (d :: ds) = [] := by simp [lead, hd]
          simp only [trail, hl2, h1, h2, hl, join2]
          cases ps <;> simp [pyJoin]

theorem parts_mem (s : Str) : ∀ w ∈ parts s, w ≠ [] ∧ ∀ c ∈ w, c ≠ ' ' := by
  intro w hw
  unfold parts at hw
  rw [List.mem_filter] at hw
  exact ⟨by simpa using hw.2, pySplit_no_sep ' ' s w hw.1⟩

theorem parts_join2 (ws : List Str) (h : ∀ w ∈ ws, w ≠ [] ∧ ∀ c ∈ w, c ≠ ' ') : parts (join2 ws) = ws := by
  induction ws with
  | nil => rfl
  | cons w ws ih =>
    have hw := h w (by simp)
    cases ws with
    | nil =>
      unfold parts join2 pyJoin
      rw [pySplit_single _ _ hw.2]
      simp [hw.1]
    | cons v vs =>
      have ih := ih fun x hx => h x (List.mem_cons_of_mem _ hx)
      unfold parts join2 at ih ⊢
      simp only [pyJoin, List.append_assoc, List.cons_append, List.nil_append]
      rw [pySplit_append _ _ _ hw.2]
      simp only [pySplit, if_true]
      rw [List.filter_cons, List.filter_cons]
      simpa [hw.1] using ih

theorem strip_around (m : Str) (l t : Str) (hl : ∀ c ∈ l, pyIsSpace c = true) (ht : ∀ c ∈ t, pyIsSpace c = true)
    (h1 : ∀ c, m.head? = some c → pyIsSpace c = false) (h2 : ∀ c, m.getLast? = some c → pyIsSpace c = false)
    (h0 : m = [] → t = []) : pyStrip (l ++ m ++ t) = m := by
  unfold pyStrip pyRstrip pyLstrip
  rw [List.append_assoc, List.dropWhile_append_of_pos hl]
  cases m with
  | nil => rw [h0 rfl]; rfl
  | cons c cs =>
    have hc := h1 c rfl
    rw [List.cons_append, List.dropWhile_cons_of_neg (by simp [hc]), ← List.cons_append, List.reverse_append,
      List.dropWhile_append_of_pos (by simpa using ht)]
    have hne : (c :: cs).reverse ≠ [] := by simp
    cases hr : (c :: cs).reverse with
    | nil => exact absurd hr hne
    | cons d ds =>
      have : (c :: cs).getLast? = some d := by rw [List.getLast?_eq_head?_reverse, hr]; rfl
      rw [List.dropWhile_cons_of_neg (by simp [h2 d this]), ← hr, List.reverse_reverse]

theorem join2_head (ws : List Str) (h : ∀ w ∈ ws, w ≠ []) (c : Char) (hc : (join2 ws).head? = some c) :
    ∃ w ∈ ws, c ∈ w := by
  cases ws with
  | nil => cases hc
  | cons w ws =>
    refine ⟨w, by simp, ?_⟩
    cases hw : w with
    | nil => exact absurd hw (h w (by simp))
    | cons x xs =>
      rw [hw] at hc
      cases ws <;> simp [join2, pyJoin] at hc <;> simp [hc]

theorem join2_last (ws : List Str) (h : ∀ w ∈ ws, w ≠ []) (c : Char) (hc : (join2 ws).getLast? = some c) :
    ∃ w ∈ ws, c ∈ w := by
  induction ws with
  | nil => cases hc
  | cons w ws ih =>
    cases ws with
    | nil => exact ⟨w, by simp, List.mem_of_getLast? hc⟩
    | cons v vs =>
      unfold join2 at hc ih
      rw [pyJoin, List.getLast?_append] at hc
      cases hj : (pyJoin [' ', ' '] (v :: vs)).getLast? with
      | none =>
        rw [List.getLast?_eq_none_iff] at hj
        have hv := h v (by simp)
        cases vs with
        | nil => exact absurd hj hv
        | cons => simp [pyJoin] at hj
      | some d =>
        rw [hj] at hc
        obtain ⟨x, hx, hcx⟩ := ih (fun x hx => h x (List.mem_cons_of_mem _ hx)) (by rw [hj]; simpa using hc)
        exact ⟨x, List.mem_cons_of_mem _ hx, hcx⟩

/-- The only white space of the text are spaces. -/
theorem strip_collapse_of (s : Str) (h : ∀ c ∈ s, pyIsSpace c = true → c = ' ') : pyStrip (collapse s) = join2 (parts s) := by
  rw [collapse_eq]
  have hsp : ∀ w ∈ parts s, ∀ c ∈ w, pyIsSpace c = false := by
    intro w hw c hc
    have hmem : c ∈ s := by
      unfold parts at hw
      rw [← pyJoin_split ' ' s]
      have hw := (List.mem_filter.1 hw).1
      generalize pySplit ' ' s = ps at hw
      induction ps with
      | nil => cases hw
      | cons p ps ih =>
        rcases List.mem_cons.1 hw with rfl | hw
        · cases ps <;> simp [pyJoin, hc]
        · cases ps with
          | nil => cases hw
          | cons q qs => simp only [pyJoin, List.mem_append]; exact Or.inr (ih hw)
    have hne := (parts_mem s w hw).2 c hc
    cases hs : pyIsSpace c with
    | false => rfl
    | true => exact absurd (h c hmem hs) hne
  have hne : ∀ w ∈ parts s, w ≠ [] := fun w hw => (parts_mem s w hw).1
  refine strip_around _ _ _ ?_ ?_ ?_ ?_ ?_
  · intro c hc; unfold lead at hc
    split at hc
    · simp at hc; subst hc; decide
    · cases hc
  · intro c hc; unfold trail at hc
    split at hc
    · simp at hc; subst hc; decide
    · cases hc
  · intro c hc
    obtain ⟨w, hw, hcw⟩ := join2_head _ hne c hc
    exact hsp w hw c hcw
  · intro c hc
    obtain ⟨w, hw, hcw⟩ := join2_last _ hne c hc
    exact hsp w hw c hcw
  · intro hj
    have hp := parts_join2 (parts s) (parts_mem s)
    rw [hj] at hp
    unfold trail
    rw [← hp]
    rfl

theorem strip_collapse (s : Str) (h : Printable s) : pyStrip (collapse s) = join2 (parts s) := by
  refine strip_collapse_of s fun c hc hs => ?_
  have h1 := h c hc
  unfold pyIsSpace at hs
  simp only [Bool.or_eq_true, Bool.and_eq_true, decide_eq_true_eq, beq_iff_eq] at hs
  exact toNat_inj (by have : (' ' : Char).toNat = 32 := rfl; omega)

theorem toLower_printable (c : Char) (h : 32 ≤ c.toNat ∧ c.toNat ≤ 126) :
    32 ≤ c.toLower.toNat ∧ c.toLower.toNat ≤ 126 := by
  rw [← Asn1.Cert.lower_char]
  split
  · have : (Char.ofNat (c.toNat + 32)).toNat = c.toNat + 32 := by
      unfold Char.ofNat
      rw [dif_pos (Or.inl (by omega))]
      rfl
    rw [this]; omega
  · exact h

theorem mapStep_printable {T : Tables} (hT : AsciiTables T) (s : Str) (h : Printable s) :
    mapStep T s = s.map Char.toLower := by
  have hc : ∀ c ∈ s, removed c = false ∧ spaced c = false ∧ removed3 c = false ∧ removed4 c = false ∧
      (c.toNat != 0x200b) = true ∧ spaced6 c = false := by
    intro c hc
    have := h c hc
    unfold removed spaced removed3 removed4 spaced6 within
    simp only [Bool.or_eq_false_iff, Bool.and_eq_false_iff, decide_eq_false_iff_not, beq_eq_false_iff_ne, bne_iff_ne]
    refine ⟨?_, ?_, ?_, ?_, ?_, ?_⟩ <;> omega
  unfold mapStep
  simp only
  have f1 : s.filter (fun c => !removed c) = s := List.filter_eq_self.2 fun c h => by simp [(hc c h).1]
  have f2 : s.map (fun c => if spaced c then ' ' else c) = s := by
    conv => rhs; rw [← List.map_id s]
    exact List.map_congr_left fun c h => by simp [(hc c h).2.1]
  have f3 : s.filter (fun c => !removed3 c) = s := List.filter_eq_self.2 fun c h => by simp [(hc c h).2.2.1]
  have f4 : s.filter (fun c => !removed4 c) = s := List.filter_eq_self.2 fun c h => by simp [(hc c h).2.2.2.1]
  have f5 : s.filter (fun c => c.toNat != 0x200b) = s := List.filter_eq_self.2 fun c h => (hc c h).2.2.2.2.1
  have f6 : s.map (fun c => if spaced6 c then ' ' else c) = s := by
    conv => rhs; rw [← List.map_id s]
    exact List.map_congr_left fun c h => by simp [(hc c h).2.2.2.2.2]
  rw [f1, f2, f3, f4, f5, f6]
  clear f1 f2 f3 f4 f5 f6
  clear hc
  induction s with
  | nil => rfl
  | cons c cs ih =>
    have h1 := h c (by simp)
    rw [List.flatMap_cons, List.map_cons, hT.b2 c (by omega), ih fun c hc => h c (List.mem_cons_of_mem _ hc)]
    rfl

/-- The prepared form of a printable text: its words in lower case, with two spaces between them and one around. -/
theorem prep_printable {T : Tables} (hT : AsciiTables T) (s : Str) (h : Printable s) :
    ldapStringPrep T s = .ok ([' '] ++ join2 (words s) ++ [' ']) := by
  have hl : Printable (s.map Char.toLower) := by
    intro c hc
    obtain ⟨d, hd, rfl⟩ := List.mem_map.1 hc
    exact toLower_printable d (h d hd)
  have ha : ∀ c ∈ s.map Char.toLower, c.toNat < 128 := fun c hc => by have := hl c hc; omega
  unfold ldapStringPrep
  simp only [mapStep_printable hT s h, hT.nfkc _ ha]
  rw [if_neg, if_neg, strip_collapse _ hl]
  · rfl
  · unfold badBidi
    have : (s.map Char.toLower).any T.d1 = false := by
      rw [List.any_eq_false]; intro c hc; simp [hT.d1 c (ha c hc)]
    simp [this]
  · unfold prohibited
    rw [Bool.not_eq_true, List.any_eq_false]
    intro c hc
    have hlt := ha c hc
    have : c.toNat ≠ 0xfffd := by omega
    simp [hT.a1 c hlt, hT.c8 c hlt, hT.c3 c hlt, hT.c4 c hlt, hT.c5 c hlt, this]

end Words

end Asn1.Names
