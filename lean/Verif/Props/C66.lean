import Verif.Spec.Prep
import Verif.Props.C35

/-!
# C66 — how the text of a name is prepared for comparison

`normal T s` is the text after the map and normalise steps of RFC 4518, `Prohibited` and `OneWay` what the next two steps look for, `spread` the
result of the last one. `T` are the tables of Unicode 3.2 that come with Python.
-/

namespace Asn1.Names
open Asn1 Spec

variable {T : Tables}

theorem within_iff (c : Char) (a b : Nat) : within c a b = true ↔ a ≤ c.toNat ∧ c.toNat ≤ b := by simp [within]

theorem nothing_iff (c : Char) (h : ¬ (0xfe00 ≤ c.toNat ∧ c.toNat ≤ 0xff00) ∨ c.toNat = 0xfeff ∨ c.toNat = 0xfe0f) :
    inRanges nothing c = true ↔ removed c = true ∨ removed3 c = true ∨ removed4 c = true ∨ c.toNat = 0x200b := by
  simp only [inRanges, nothing, List.any_cons, List.any_nil, removed, removed3, removed4, within_iff, Bool.or_eq_true, Bool.and_eq_true,
    decide_eq_true_eq, beq_iff_eq, Bool.or_false]
  omega

theorem blank_iff (c : Char) : inRanges blank c = true ↔ spaced c = true ∨ spaced6 c = true ∨ c = ' ' := by
  have : c = ' ' ↔ c.toNat = 32 := ⟨fun h => by rw [h]; rfl, fun h => toNat_inj h⟩
  rw [this]
  simp only [inRanges, blank, List.any_cons, List.any_nil, spaced, spaced6, within_iff, Bool.or_eq_true, Bool.and_eq_true,
    decide_eq_true_eq, beq_iff_eq, Bool.or_false]
  omega

theorem spaced_apart (c : Char) (h : spaced c = true) : removed c = false ∧ inRanges nothing c = false := by
  simp only [spaced, within_iff, Bool.or_eq_true, beq_iff_eq] at h
  constructor <;> rw [Bool.eq_false_iff, ne_eq] <;>
    simp only [inRanges, nothing, List.any_cons, List.any_nil, removed, within_iff, Bool.or_eq_true, Bool.and_eq_true, decide_eq_true_eq,
      beq_iff_eq, Bool.or_false] <;> omega

/-- One character through the substitutions of the map step. -/
theorem mapped_eq (c : Char) (h : ¬ (0xfe00 ≤ c.toNat ∧ c.toNat ≤ 0xff00) ∨ c.toNat = 0xfeff ∨ c.toNat = 0xfe0f) :
    mapped c = if removed c = true then none else if spaced c = true then some ' ' else
      if removed3 c = true ∨ removed4 c = true ∨ c.toNat = 0x200b then none else if spaced6 c = true then some ' ' else some c := by
  have h1 := nothing_iff c h
  have h2 := blank_iff c
  unfold mapped
  by_cases r : removed c = true
  · rw [if_pos r, if_pos (h1.2 (.inl r))]
  · rw [if_neg r]
    by_cases s : spaced c = true
    · rw [if_pos s, if_neg (by simp [(spaced_apart c s).2]), if_pos (h2.2 (.inl s))]
    · rw [if_neg s]
      by_cases k : removed3 c = true ∨ removed4 c = true ∨ c.toNat = 0x200b
      · rw [if_pos k, if_pos (h1.2 (.inr k))]
      · rw [if_neg k, if_neg (fun h => (h1.1 h).elim r k)]
        by_cases s6 : spaced6 c = true
        · rw [if_pos s6, if_pos (h2.2 (.inr (.inl s6)))]
        · rw [if_neg s6]
          split
          · next h =>
            rcases h2.1 h with h | h | h
            · exact absurd h s
            · exact absurd h s6
            · rw [h]
          · rfl

/-- The substitutions one after the other are those of the RFC. -/
theorem mapStep_eq (T : Tables) (s : Str) (h : OutOfRange s) : mapStep T s = (s.filterMap mapped).flatMap T.b2 := by
  unfold mapStep
  simp only
  congr 1
  induction s with
  | nil => rfl
  | cons c cs ih =>
    have ih := ih fun d hd => h d (List.mem_cons_of_mem _ hd)
    rw [List.filterMap_cons, mapped_eq c (h c List.mem_cons_self), ← ih]
    have e1 : removed3 ' ' = false := by decide
    have e2 : removed4 ' ' = false := by decide
    have e3 : ((' ' : Char).toNat != 0x200b) = true := by decide
    have e4 : spaced6 ' ' = false := by decide
    by_cases r : removed c = true
    · simp [r]
    · simp only [Bool.not_eq_true] at r
      by_cases s : spaced c = true
      · simp [r, s, e1, e2, e3, e4]
      · simp only [Bool.not_eq_true] at s
        by_cases k : removed3 c = true ∨ removed4 c = true ∨ c.toNat = 0x200b
        · by_cases k3 : removed3 c = true
          · simp [r, s, k3]
          · simp only [Bool.not_eq_true] at k3
            by_cases k4 : removed4 c = true
            · simp [r, s, k3, k4]
            · simp only [Bool.not_eq_true] at k4
              have k5 : c.toNat = 0x200b := by simpa [k3, k4] using k
              simp [r, s, k3, k4, k5]
        · have k3 : removed3 c = false := by simpa using fun h => k (.inl h)
          have k4 : removed4 c = false := by simpa using fun h => k (.inr (.inl h))
          have k5 : c.toNat ≠ 0x200b := fun h => k (.inr (.inr h))
          by_cases s6 : spaced6 c = true
          · simp [r, s, k3, k4, k5, s6]
          · simp only [Bool.not_eq_true] at s6
            simp [r, s, k3, k4, k5, s6]

theorem normal_eq (T : Tables) (s : Str) (h : OutOfRange s) : T.nfkc (mapStep T s) = normal T s := by rw [mapStep_eq T s h]; rfl

theorem prohibited_iff (t : Str) : prohibited T t = true ↔ ∃ c ∈ t, Prohibited T c := by
  have : ∀ c : Char, c.toNat = 0xfffd ↔ c = '�' := fun c => ⟨fun h => toNat_inj h, fun h => by rw [h]; rfl⟩
  simp [prohibited, Prohibited, this, or_assoc]

theorem badBidi_iff (t : Str) : badBidi T t = true ↔ ¬ OneWay T t := by
  have hh : ∀ o : Option Char, o.any T.d1 = true ↔ ∃ c, o = some c ∧ T.d1 c = true := by
    intro o; cases o <;> simp
  unfold badBidi OneWay
  simp only [Bool.and_eq_true, Bool.or_eq_true, Bool.not_eq_true', List.any_eq_true]
  rw [← Bool.not_eq_true, ← Bool.not_eq_true, hh, hh]
  simp only [Classical.not_imp, not_and_or]
  refine and_congr_right fun _ => ?_
  rw [or_assoc]
  refine or_congr ?_ Iff.rfl
  push_neg
  refine exists_congr fun c => and_congr_right fun _ => ?_
  cases T.d1 c <;> cases T.d2 c <;> simp

theorem mapped_space {c d : Char} (h : mapped c = some d) : pyIsSpace d = true → d = ' ' := by
  unfold mapped at h
  split at h
  · cases h
  · split at h
    · cases h; exact fun _ => rfl
    · next h1 h2 =>
      cases h
      intro hs
      exfalso
      simp only [inRanges, nothing, blank, List.any_cons, List.any_nil, Bool.or_eq_true, Bool.and_eq_true, decide_eq_true_eq, Bool.or_false] at h1 h2
      unfold pyIsSpace at hs
      simp only [Bool.or_eq_true, Bool.and_eq_true, decide_eq_true_eq, beq_iff_eq] at hs
      omega

theorem normal_space (hT : SpaceTables T) (s : Str) : ∀ c ∈ normal T s, pyIsSpace c = true → c = ' ' := by
  refine hT.nfkc _ fun d hd => ?_
  obtain ⟨c, hc, hd⟩ := List.mem_flatMap.1 hd
  obtain ⟨b, -, hb⟩ := List.mem_filterMap.1 hc
  exact hT.b2 c (mapped_space hb) d hd

/-- Text that is not refused is prepared as RFC 4518 says. `OutOfRange` is what is missing: see `C66_variation_fails`. -/
theorem C66_prepared_partial (hT : SpaceTables T) (s : Str) (h : OutOfRange s) (hp : ∀ c ∈ normal T s, ¬ Prohibited T c)
    (hd : OneWay T (normal T s)) : prepped T (.str s) = .ok (.str (spread (normal T s))) := by
  have h1 : prohibited T (normal T s) = false := by
    rw [Bool.eq_false_iff, ne_eq, prohibited_iff]
    rintro ⟨c, hc, h⟩
    exact hp c hc h
  have h2 : badBidi T (normal T s) = false := by
    rw [Bool.eq_false_iff, ne_eq, badBidi_iff, not_not]
    exact hd
  simp only [prepped, ldapStringPrep, normal_eq T s h, h1, h2, Bool.false_eq_true, if_false]
  rw [strip_collapse_of _ (normal_space hT s)]
  rfl

/-- It is refused exactly if it has a prohibited character or text of both directions. -/
theorem C66_refused_partial (T : Tables) (s : Str) (h : OutOfRange s) : prepped T (.str s) = .error .valueError ↔
    (∃ c ∈ normal T s, Prohibited T c) ∨ ¬ OneWay T (normal T s) := by
  rw [← prohibited_iff, ← badBidi_iff]
  simp only [prepped, ldapStringPrep, normal_eq T s h]
  cases h1 : prohibited T (normal T s) <;> cases h2 : badBidi T (normal T s) <;> simp [Functor.map, Except.map]

theorem cp1252Byte_cases : ∀ n : Fin 256, (n.val ∈ undefined1252 ∧ cp1252Byte (UInt8.ofNat n.val) = .error .unicodeError) ∨
    (n.val ∉ undefined1252 ∧ ∃ c, cp1252Byte (UInt8.ofNat n.val) = .ok c) := by
  have h : ∀ n : Fin 256, (n.val ∈ undefined1252 ∧ (match cp1252Byte (UInt8.ofNat n.val) with | .error .unicodeError => true | _ => false) = true) ∨
      (n.val ∉ undefined1252 ∧ (match cp1252Byte (UInt8.ofNat n.val) with | .ok _ => true | _ => false) = true) := by decide +kernel
  intro n
  rcases h n with ⟨h1, h2⟩ | ⟨h1, h2⟩
  · refine .inl ⟨h1, ?_⟩
    split at h2
    · assumption
    · cases h2
  · refine .inr ⟨h1, ?_⟩
    split at h2
    · exact ⟨_, by assumption⟩
    · cases h2

theorem cp1252_byte (x : UInt8) : (x.toNat ∈ undefined1252 ∧ cp1252Byte x = .error .unicodeError) ∨
    (x.toNat ∉ undefined1252 ∧ ∃ c, cp1252Byte x = .ok c) := by
  have := cp1252Byte_cases ⟨x.toNat, x.toNat_lt⟩
  simpa using this

theorem cp1252_cons (x : UInt8) (b : Bytes) : cp1252 (x :: b) = (cp1252Byte x).bind fun c => (cp1252 b).bind fun s => .ok (c :: s) := by
  unfold cp1252
  rw [List.mapM_cons]
  rfl

theorem cp1252_error (b : Bytes) : (∃ s, cp1252 b = .ok s ∧ ∀ x ∈ b, x.toNat ∉ undefined1252) ∨
    (cp1252 b = .error .unicodeError ∧ ∃ x ∈ b, x.toNat ∈ undefined1252) := by
  induction b with
  | nil => exact .inl ⟨[], rfl, by simp⟩
  | cons x b ih =>
    rw [cp1252_cons]
    rcases cp1252_byte x with ⟨h1, h2⟩ | ⟨h1, c, h2⟩
    · exact .inr ⟨by rw [h2]; rfl, x, by simp, h1⟩
    · rcases ih with ⟨s, h3, h4⟩ | ⟨h3, y, h4, h5⟩
      · exact .inl ⟨c :: s, by rw [h2, h3]; rfl, by simpa using ⟨h1, h4⟩⟩
      · exact .inr ⟨by rw [h2, h3]; rfl, y, by simp [h4], h5⟩

/-- A byte string is refused exactly if it has a byte that code page 1252 does not define. -/
theorem C66_bytes_refused (T : Tables) (b : Bytes) : prepped T (.bytes b) = .error .unicodeError ↔ ∃ x ∈ b, x.toNat ∈ undefined1252 := by
  have hb : prepped T (.bytes b) = (cp1252 b).bind fun s => .ok (.str ([' '] ++ s ++ [' '])) := rfl
  rw [hb]
  rcases cp1252_error b with ⟨s, h1, h2⟩ | ⟨h1, h2⟩
  · rw [h1]
    simp only [Except.bind]
    constructor
    · intro h; cases h
    · rintro ⟨x, hx, h⟩; exact absurd h (h2 x hx)
  · rw [h1]
    exact ⟨fun _ => h2, fun _ => rfl⟩

theorem cp1252_code {x : UInt8} {c : Char} (h : cp1252Byte x = .ok c) : (c.toNat = x.toNat ∧ ¬ (0x80 ≤ x.toNat ∧ x.toNat ≤ 0x9f)) ∨
    ((0x80 ≤ x.toNat ∧ x.toNat ≤ 0x9f) ∧ cp1252High.getD (x.toNat - 0x80) 0 = c.toNat ∧ 256 ≤ c.toNat) := by
  have key : ∀ n : Fin 256, match cp1252Byte (UInt8.ofNat n.val) with
      | .ok c => (c.toNat = n.val ∧ ¬ (0x80 ≤ n.val ∧ n.val ≤ 0x9f)) ∨
          ((0x80 ≤ n.val ∧ n.val ≤ 0x9f) ∧ cp1252High.getD (n.val - 0x80) 0 = c.toNat ∧ 256 ≤ c.toNat)
      | .error _ => True := by
    intro n
    have : ∀ n : Fin 256, (match cp1252Byte (UInt8.ofNat n.val) with
      | .ok c => decide ((c.toNat = n.val ∧ ¬ (0x80 ≤ n.val ∧ n.val ≤ 0x9f)) ∨
          ((0x80 ≤ n.val ∧ n.val ≤ 0x9f) ∧ cp1252High.getD (n.val - 0x80) 0 = c.toNat ∧ 256 ≤ c.toNat))
      | .error _ => true) = true := by decide +kernel
    have := this n
    split
    · next h => rw [h] at this; exact of_decide_eq_true this
    · trivial
  have := key ⟨x.toNat, x.toNat_lt⟩
  simp only [UInt8.ofNat_toNat] at this
  rw [h] at this
  exact this

theorem cp1252_inj {x y : UInt8} {c : Char} (hx : cp1252Byte x = .ok c) (hy : cp1252Byte y = .ok c) : x = y := by
  have high : ∀ i j : Fin 32, cp1252High.getD i.val 0 = cp1252High.getD j.val 0 → 256 ≤ cp1252High.getD i.val 0 → i = j := by decide +kernel
  apply UInt8.toNat_inj.1
  have lx := x.toNat_lt
  have ly := y.toNat_lt
  rcases cp1252_code hx with ⟨h1, h2⟩ | ⟨h1, h2, h3⟩ <;> rcases cp1252_code hy with ⟨k1, k2⟩ | ⟨k1, k2, k3⟩
  · omega
  · omega
  · omega
  · have := high ⟨x.toNat - 0x80, by omega⟩ ⟨y.toNat - 0x80, by omega⟩ (h2.trans k2.symm) (by rw [h2]; exact h3)
    have := congrArg Fin.val this
    simp only at this
    omega

/-- Other byte strings are equal if their prepared forms are: case and white space count. -/
theorem C66_bytes (T : Tables) (a b : Bytes) (p : Prepped) (ha : prepped T (.bytes a) = .ok p) (hb : prepped T (.bytes b) = .ok p) : a = b := by
  have e : ∀ b : Bytes, prepped T (.bytes b) = (cp1252 b).bind fun s => .ok (.str ([' '] ++ s ++ [' '])) := fun _ => rfl
  rw [e] at ha hb
  obtain ⟨s, h1, h2⟩ : ∃ s, cp1252 a = .ok s ∧ cp1252 b = .ok s := by
    cases h1 : cp1252 a with
    | error _ => rw [h1] at ha; cases ha
    | ok s =>
      cases h2 : cp1252 b with
      | error _ => rw [h2] at hb; cases hb
      | ok t =>
        rw [h1] at ha
        rw [h2] at hb
        cases ha
        simp only [Except.bind, Except.ok.injEq, Prepped.str.injEq, List.append_cancel_left_eq, List.append_cancel_right_eq] at hb
        exact ⟨s, rfl, by rw [hb]⟩
  clear ha hb
  induction a generalizing b s with
  | nil =>
    cases h1
    cases b with
    | nil => rfl
    | cons y b =>
      rw [cp1252_cons] at h2
      cases hy : cp1252Byte y with
      | error _ => rw [hy] at h2; cases h2
      | ok c =>
        cases ht : cp1252 b with
        | error _ => rw [hy, ht] at h2; cases h2
        | ok t => rw [hy, ht] at h2; cases h2
  | cons x a ih =>
    rw [cp1252_cons] at h1
    cases hx : cp1252Byte x with
    | error _ => rw [hx] at h1; cases h1
    | ok c =>
      cases ht : cp1252 a with
      | error _ => rw [hx, ht] at h1; cases h1
      | ok t =>
        rw [hx, ht] at h1
        cases h1
        cases b with
        | nil => cases h2
        | cons y b =>
          rw [cp1252_cons] at h2
          cases hy : cp1252Byte y with
          | error _ => rw [hy] at h2; cases h2
          | ok d =>
            cases hu : cp1252 b with
            | error _ => rw [hy, hu] at h2; cases h2
            | ok u =>
              rw [hy, hu] at h2
              cases h2
              rw [cp1252_inj hx hy, ih b t ht hu]

/-- Violations: a variation selector is not mapped to nothing, but an Arabic letter (in one of its presentation forms) is. -/
theorem C66_variation_fails :
    mapped '\ufe00' = none ∧ prepped asciiTables (.str "a\ufe00".toList) = .ok (.str " a\ufe00 ".toList) ∧
    mapped '\ufe8e' = some '\ufe8e' ∧ prepped asciiTables (.str "a\ufe8e".toList) = .ok (.str " a ".toList) := by
  decide +kernel

/-! ### Non-vacuity -/

/-- Tables for ASCII text in which Hebrew letters are right-to-left and unassigned code points begin at 0xe000. -/
def mixedTables : Tables :=
  { asciiTables with a1 := fun c => decide (0xe000 ≤ c.toNat), d1 := fun c => decide (0x5d0 ≤ c.toNat ∧ c.toNat ≤ 0x5ea), d2 := fun c => c.isAlpha }

theorem mixed_space : SpaceTables mixedTables where
  b2 := by
    intro c hc d hd
    rw [show mixedTables.b2 c = [c.toLower] from rfl, List.mem_singleton] at hd
    rw [hd, ← Asn1.Cert.lower_char]
    split
    · next h =>
      intro hs
      exfalso
      have hn : (Char.ofNat (c.toNat + 32)).toNat = c.toNat + 32 := by
        unfold Char.ofNat
        rw [dif_pos (Or.inl (by omega))]
        rfl
      unfold pyIsSpace at hs
      simp only [Bool.or_eq_true, Bool.and_eq_true, decide_eq_true_eq, beq_iff_eq, hn] at hs
      omega
    · exact hc
  nfkc := fun s h => h

/-- A soft hyphen, a line end, two spaces. -/
example : prepped mixedTables (.str "Wi\u00adll\n  Bond ".toList) = .ok (.str " will  bond ".toList) := by
  have h := C66_prepared_partial mixed_space "Wi\u00adll\n  Bond ".toList (by unfold OutOfRange; decide +kernel)
    (by unfold Prohibited; decide +kernel) (by unfold OneWay; decide +kernel)
  rw [h]
  decide +kernel

/-- A Hebrew letter before a Latin one, and an unassigned code point. -/
example : prepped mixedTables (.str "\u05d0a".toList) = .error .valueError ∧ prepped mixedTables (.str "\ue000".toList) = .error .valueError :=
  ⟨(C66_refused_partial _ _ (by unfold OutOfRange; decide +kernel)).2 (.inr (by unfold OneWay; decide +kernel)),
    (C66_refused_partial _ _ (by unfold OutOfRange; decide +kernel)).2 (.inl (by unfold Prohibited; decide +kernel))⟩

example : prepped mixedTables (.bytes [0x41, 0x81]) = .error .unicodeError := (C66_bytes_refused _ _).2 ⟨0x81, by simp, by decide⟩

end Asn1.Names
