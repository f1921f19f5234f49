import Verif.Lemmas.Time
import Verif.Lemmas.PyStr

/-! # The texts of times -/

namespace Asn1.Time
open Asn1 Asn1.Spec

/-! ### Digits -/

theorem isDig_iff (c : Char) : isDig c = true ↔ '0' ≤ c ∧ c ≤ '9' := by simp [isDig]

theorem decimal_append (a b : Str) : decimal (a ++ b) = decimal a * 10 ^ b.length + decimal b := by
  induction a with
  | nil => simp [decimal]
  | cons c a ih =>
    simp only [List.cons_append, decimal, ih, List.length_append, pow_add, add_mul]
    ring

theorem num_go (s : Str) : ∀ a, s.foldl (fun a c => a * 10 + (c.toNat - 48)) a = a * 10 ^ s.length + decimal s := by
  induction s with
  | nil => intro a; simp [decimal]
  | cons c s ih =>
    intro a
    simp only [List.foldl_cons, ih, List.length_cons, decimal, pow_succ]
    ring

theorem num_eq (s : Str) : num s = decimal s := by
  unfold num; rw [num_go]; simp

theorem digit_of_char (d : Nat) (h : d < 10) : isDig (digitChar d) = true ∧ decimal [digitChar d] = d := by
  have : ∀ d < 10, isDig (digitChar d) = true ∧ decimal [digitChar d] = d := by decide
  exact this d h

theorem decimal_pyStrNat (n : Nat) : decimal (pyStrNat n) = n := by
  induction n using Nat.strongRecOn with
  | ind n ih =>
    rw [pyStrNat]
    split
    · exact (digit_of_char n (by assumption)).2
    · rw [decimal_append, ih (n / 10) (by omega), (digit_of_char (n % 10) (by omega)).2]
      simp; omega

theorem length_pyStrNat (n : Nat) : ∀ w, 0 < w → n < 10 ^ w → (pyStrNat n).length ≤ w := by
  induction n using Nat.strongRecOn with
  | ind n ih =>
    intro w hw h
    rw [pyStrNat]
    split
    · simp; omega
    · cases w with
      | zero => omega
      | succ w =>
        have hw' : 0 < w := by
          rcases Nat.eq_zero_or_pos w with h0 | h0
          · subst h0; simp at h; omega
          · exact h0
        have := ih (n / 10) (by omega) w hw' (by rw [pow_succ] at h; omega)
        simp; omega

theorem length_pyStrNat_ge (n : Nat) : ∀ w, 10 ^ w ≤ n → w < (pyStrNat n).length := by
  induction n using Nat.strongRecOn with
  | ind n ih =>
    intro w h
    rw [pyStrNat]
    split
    · cases w with
      | zero => simp
      | succ w =>
        have : 1 ≤ 10 ^ w := Nat.one_le_pow _ _ (by omega)
        rw [pow_succ] at h; omega
    · cases w with
      | zero => simp
      | succ w =>
        have := ih (n / 10) (by omega) w (by rw [pow_succ] at h; omega)
        simp; omega

theorem decimal_zeros (k : Nat) : decimal (List.replicate k '0') = 0 := by
  induction k with
  | zero => rfl
  | succ k ih => simp [List.replicate_succ, decimal, ih]

theorem pad_digits {w n : Nat} (hw : 0 < w) (h : n < 10 ^ w) : Digits w (pad w n) n := by
  have hl := length_pyStrNat n w hw h
  refine ⟨by simp [pad]; omega, ?_, by rw [pad, decimal_append, decimal_zeros, decimal_pyStrNat]; simp⟩
  intro c hc
  rw [← isDig_iff]
  rcases List.mem_append.mp hc with hc | hc
  · rw [List.eq_of_mem_replicate hc]; decide
  · obtain ⟨d, hd, rfl⟩ := mem_pyStrNat n c hc
    exact (digit_of_char d hd).1

theorem pad_four {n : Nat} (h : 1000 ≤ n) : pyStrNat n = pad 4 n := by
  have := length_pyStrNat_ge n 3 (by omega)
  have e : 4 - (pyStrNat n).length = 0 := by omega
  rw [pad, e]; rfl

theorem digits_isDig {w : Nat} {s : Str} {n : Nat} (h : Digits w s n) : ∀ c ∈ s, isDig c = true :=
  fun c hc => (isDig_iff c).mpr (h.2.1 c hc)

theorem digits_of {s : Str} (h : ∀ c ∈ s, isDig c = true) : Digits s.length s (num s) :=
  ⟨rfl, fun c hc => (isDig_iff c).mp (h c hc), (num_eq s).symm⟩

theorem digits_num {w : Nat} {s : Str} {n : Nat} (h : Digits w s n) : num s = n := (num_eq s).trans h.2.2

theorem len2 {s : Str} (h : s.length = 2) : ∃ a b, s = [a, b] := by
  match s, h with
  | [a, b], _ => exact ⟨a, b, rfl⟩

theorem digits2 {s : Str} {n : Nat} (h : Digits 2 s n) : ∃ a b, s = [a, b] ∧ isDig a = true ∧ isDig b = true ∧ num [a, b] = n := by
  have hd := digits_isDig h
  have hn := digits_num h
  obtain ⟨a, b, rfl⟩ := len2 h.1
  exact ⟨a, b, rfl, hd a (by simp), hd b (by simp), hn⟩

theorem digits4 {s : Str} {n : Nat} (h : Digits 4 s n) : ∃ a b c d, s = [a, b, c, d] ∧ isDig a = true ∧ isDig b = true ∧
    isDig c = true ∧ isDig d = true ∧ num [a, b, c, d] = n := by
  have hd := digits_isDig h
  have hn := digits_num h
  have hl := h.1
  match s, hl with
  | [a, b, c, d], _ => exact ⟨a, b, c, d, rfl, hd a (by simp), hd b (by simp), hd c (by simp), hd d (by simp), hn⟩

/-! ### Matching -/


theorem span_digits (a r : Str) (ha : ∀ c ∈ a, isDig c = true) (hr : ∀ c, r.head? = some c → isDig c = false) :
    (a ++ r).takeWhile isDig = a ∧ (a ++ r).dropWhile isDig = r := by
  induction a with
  | nil =>
    cases r with
    | nil => simp
    | cons c r => simp [hr c rfl]
  | cons c a ih =>
    have := ih (fun x hx => ha x (by simp [hx]))
    simp [ha c (by simp), this]

theorem takeWhile_all (p : Char → Bool) (s : Str) : ∀ c ∈ s.takeWhile p, p c = true := by
  induction s with
  | nil => simp
  | cons c s ih =>
    intro x hx
    rw [List.takeWhile_cons] at hx
    split at hx
    · rcases List.mem_cons.mp hx with rfl | hx
      · assumption
      · exact ih x hx
    · simp at hx

/-- What `tzGroups` accepts. -/
inductive TzShape (noTz mins : Bool) : Str → Bool → Option Char → Str → Option Str → Prop
  | none : noTz = true → TzShape noTz mins [] false none [] none
  | zulu : TzShape noTz mins ['Z'] true none [] none
  | long {c : Char} {a b : Str} : c = '+' ∨ c = '-' → a.length = 2 → b.length = 2 → (∀ x ∈ a, isDig x = true) →
      (∀ x ∈ b, isDig x = true) → TzShape noTz mins (c :: (a ++ b)) false (some c) a (some b)
  | short {c : Char} {a : Str} : mins = true → c = '+' ∨ c = '-' → a.length = 2 → (∀ x ∈ a, isDig x = true) →
      TzShape noTz mins (c :: a) false (some c) a none

theorem tzGroups_iff {noTz mins : Bool} {s : Str} {z : Bool} {sg : Option Char} {dh : Str} {dm : Option Str} :
    tzGroups noTz mins s = some (z, sg, dh, dm) ↔ TzShape noTz mins s z sg dh dm := by
  constructor
  · intro h
    unfold tzGroups at h
    split at h
    · split at h
      · rename_i hn
        cases h; exact .none hn
      · cases h
    · split at h
      · rename_i r hr
        subst hr
        cases h; exact .zulu
      · cases h
    · rename_i c r hz
      split at h
      · rename_i hc
        obtain ⟨hc, hd⟩ := hc
        have hd' : ∀ x ∈ r, isDig x = true := by simpa using hd
        split at h
        · rename_i hl
          have key : TzShape noTz mins (c :: (r.take 2 ++ r.drop 2)) false (some c) (r.take 2) (some (r.drop 2)) :=
            .long hc (by simp; omega) (by simp; omega) (fun x hx => hd' x (List.mem_of_mem_take hx))
              (fun x hx => hd' x (List.mem_of_mem_drop hx))
          rw [List.take_append_drop] at key
          cases h; exact key
        · split at h
          · rename_i hm
            cases h; exact .short hm.1 hc hm.2 hd'
          · cases h
      · cases h
  · intro h
    cases h with
    | none h => simp [tzGroups, h]
    | zulu => simp [tzGroups]
    | @long c a b hc ha hb hda hdb =>
      have hz : c ≠ 'Z' := by rcases hc with rfl | rfl <;> decide
      have hall : (dh ++ b).all isDig = true := by simpa [or_imp, forall_and] using ⟨hda, hdb⟩
      unfold tzGroups
      split
      · simp at *
      · rename_i heq; injection heq with h1 _; exact absurd h1 hz
      · rename_i heq
        injection heq with h1 h2
        subst h1; subst h2
        rw [if_pos ⟨hc, hall⟩, if_pos (by simp; omega)]
        simp [← ha]
    | @short c a hm hc ha hda =>
      have hz : c ≠ 'Z' := by rcases hc with rfl | rfl <;> decide
      have hall : dh.all isDig = true := by simpa using hda
      unfold tzGroups
      split
      · simp at *
      · rename_i heq; injection heq with h1 _; exact absurd h1 hz
      · rename_i heq
        injection heq with h1 h2
        subst h1; subst h2
        rw [if_pos ⟨hc, hall⟩, if_neg (by omega), if_pos ⟨hm, ha⟩]

theorem TzShape.head {noTz mins : Bool} {s : Str} {z : Bool} {sg : Option Char} {dh : Str} {dm : Option Str}
    (h : TzShape noTz mins s z sg dh dm) : ∀ c, s.head? = some c → isDig c = false ∧ c ≠ '.' ∧ c ≠ ',' := by
  intro c hc
  cases h with
  | none => simp at hc
  | zulu => simp at hc; subst hc; decide
  | long h => simp at hc; subst hc; rcases h with rfl | rfl <;> decide
  | short _ h => simp at hc; subst hc; rcases h with rfl | rfl <;> decide

theorem TzShape.last {noTz mins : Bool} {s : Str} {z : Bool} {sg : Option Char} {dh : Str} {dm : Option Str}
    (h : TzShape noTz mins s z sg dh dm) : s.getLast? ≠ some '\n' := by
  cases h with
  | none => simp
  | zulu => decide
  | @long c _ b _ _ hb _ hd =>
    obtain ⟨x, y, rfl⟩ := len2 hb
    have hy := hd y (by simp)
    have : (c :: (dh ++ [x, y])).getLast? = some y := by simp [List.getLast?_cons, List.getLast?_append]
    rw [this]
    intro hc; injection hc with hc; subst hc; revert hy; decide
  | @short c _ _ _ ha hd =>
    obtain ⟨x, y, rfl⟩ := len2 ha
    have hy := hd y (by simp)
    simp
    intro hc; subst hc; revert hy; decide

/-- `n` digits. -/
def Dig (n : Nat) (s : Str) : Prop := s.length = n ∧ ∀ c ∈ s, isDig c = true

theorem dig_iff {n : Nat} {s : Str} {v : Nat} : Digits n s v ↔ Dig n s ∧ num s = v := by
  constructor
  · intro h; exact ⟨⟨h.1, digits_isDig h⟩, digits_num h⟩
  · rintro ⟨⟨h1, h2⟩, h3⟩
    have := digits_of h2
    rw [h1, h3] at this
    exact this

theorem slice_append {α : Type} (l : List α) {i j k : Nat} (h : i ≤ j) (h2 : j ≤ k) : slice l i j ++ slice l j k = slice l i k := by
  unfold slice
  apply List.ext_getElem?
  intro n
  simp only [List.getElem?_append, List.getElem?_drop, List.getElem?_take, List.length_drop, List.length_take]
  by_cases h3 : n < min j l.length - i
  · rw [if_pos h3, if_pos (by omega), if_pos (by omega)]
  · rw [if_neg h3]
    by_cases h4 : j ≤ l.length
    · rw [show j + (n - (min j l.length - i)) = i + n by omega]
    · rw [List.getElem?_eq_none (by omega), List.getElem?_eq_none (l := l) (i := i + n) (by omega)]
      simp

theorem slice_all {α : Type} (l : List α) {n : Nat} (h : l.length = n) : slice l 0 n = l := by
  unfold slice; simp [← h]

theorem dig_slice {ds : Str} (hd : ∀ c ∈ ds, isDig c = true) {i j n : Nat} (h : j ≤ ds.length) (hn : j - i = n) (hi : i ≤ j) :
    Dig n (slice ds i j) := by
  unfold slice
  refine ⟨by simp; omega, fun c hc => hd c (List.mem_of_mem_take (List.mem_of_mem_drop hc))⟩

/-- What `utcMatch` accepts. -/
def UtcShape (s : Str) (g : Groups) : Prop :=
  ∃ z, s = g.year ++ g.month ++ g.day ++ g.hour ++ g.minute.getD [] ++ g.second.getD [] ++ z ∧ Dig 2 g.year ∧ Dig 2 g.month ∧
    Dig 2 g.day ∧ Dig 2 g.hour ∧ (∃ m, g.minute = some m ∧ Dig 2 m) ∧ (g.second = none ∨ ∃ m, g.second = some m ∧ Dig 2 m) ∧
    g.fraction = some [] ∧ TzShape false false z g.zulu g.sign g.dhour g.dminute

theorem utcMatch_iff {s : Str} {g : Groups} : utcMatch s = some g ↔ UtcShape s g := by
  constructor
  · intro h
    unfold utcMatch at h
    have hs := List.takeWhile_append_dropWhile (p := isDig) (l := s)
    have hd := takeWhile_all isDig s
    simp only at h
    generalize s.takeWhile isDig = ds at hs hd h
    generalize s.dropWhile isDig = r at hs h
    split at h
    · rename_i hl
      split at h
      · cases h
      · rename_i z sg dh dm htz
        rw [tzGroups_iff] at htz
        injection h with h
        subst h
        refine ⟨r, ?_, dig_slice hd (by omega) rfl (by omega), dig_slice hd (by omega) rfl (by omega),
          dig_slice hd (by omega) rfl (by omega), dig_slice hd (by omega) rfl (by omega),
          ⟨_, rfl, dig_slice hd (by omega) rfl (by omega)⟩, ?_, rfl, htz⟩
        · rw [← hs]
          simp only [Option.getD_some]
          rw [slice_append _ (by omega) (by omega), slice_append _ (by omega) (by omega), slice_append _ (by omega) (by omega),
            slice_append _ (by omega) (by omega)]
          rcases hl with hl | hl
          · rw [if_neg (by omega), slice_all _ hl]; simp
          · rw [if_pos hl, Option.getD_some, slice_append _ (by omega) (by omega), slice_all _ hl]
        · rcases hl with hl | hl
          · left; simp only; rw [if_neg (by omega)]
          · right; simp only; rw [if_pos hl]
            exact ⟨_, rfl, dig_slice hd (by omega) rfl (by omega)⟩
    · cases h
  · rintro ⟨z, hs, h1, h2, h3, h4, ⟨m, hm, h5⟩, h6, h7, htz⟩
    obtain ⟨y, mo, d, ho, mi, se, fr, zu, sg, dh, dm⟩ := g
    simp only at *
    subst hm
    subst h7
    simp only [Option.getD_some] at hs
    have hz := fun c hc => (htz.head c hc).1
    obtain ⟨y1, y2, rfl⟩ := len2 h1.1
    obtain ⟨o1, o2, rfl⟩ := len2 h2.1
    obtain ⟨d1, d2, rfl⟩ := len2 h3.1
    obtain ⟨k1, k2, rfl⟩ := len2 h4.1
    obtain ⟨m1, m2, rfl⟩ := len2 h5.1
    have hall : ∀ c ∈ [y1, y2] ++ [o1, o2] ++ [d1, d2] ++ [k1, k2] ++ [m1, m2], isDig c = true := by
      intro c hc
      simp only [List.mem_append] at hc
      rcases hc with (((hc | hc) | hc) | hc) | hc
      · exact h1.2 c hc
      · exact h2.2 c hc
      · exact h3.2 c hc
      · exact h4.2 c hc
      · exact h5.2 c hc
    unfold utcMatch
    simp only
    rcases h6 with rfl | ⟨m, rfl, h6⟩
    · simp only [Option.getD_none, List.append_nil] at hs
      obtain ⟨e1, e2⟩ := span_digits _ z hall hz
      rw [hs, e1, e2, tzGroups_iff.mpr htz]
      simp [slice]
    · obtain ⟨s1, s2, rfl⟩ := len2 h6.1
      simp only [Option.getD_some] at hs
      obtain ⟨e1, e2⟩ := span_digits ([y1, y2] ++ [o1, o2] ++ [d1, d2] ++ [k1, k2] ++ [m1, m2] ++ [s1, s2]) z
        (fun c hc => (List.mem_append.mp hc).elim (hall c) (h6.2 c)) hz
      rw [hs, e1, e2, tzGroups_iff.mpr htz]
      simp [slice]

/-- What `genMatch` accepts. -/
def GenShape (s : Str) (g : Groups) : Prop :=
  ∃ fr z, s = g.year ++ g.month ++ g.day ++ g.hour ++ g.minute.getD [] ++ g.second.getD [] ++ fr ++ z ∧ Dig 4 g.year ∧ Dig 2 g.month ∧
    Dig 2 g.day ∧ Dig 2 g.hour ∧ (g.minute = none ∨ ∃ m, g.minute = some m ∧ Dig 2 m) ∧
    (g.second = none ∨ ∃ m, g.second = some m ∧ Dig 2 m) ∧ (g.minute = none → g.second = none) ∧
    ((fr = [] ∧ g.fraction = none) ∨
      ∃ c a, (c = '.' ∨ c = ',') ∧ fr = c :: a ∧ a ≠ [] ∧ (∀ x ∈ a, isDig x = true) ∧ g.fraction = some a) ∧
    TzShape true true z g.zulu g.sign g.dhour g.dminute

theorem fractionGroup_iff {s : Str} {f : Option Str} {r : Str} (hr : ∀ c, r.head? = some c → isDig c = false ∧ c ≠ '.' ∧ c ≠ ',') :
    fractionGroup s = some (f, r) ↔ ∃ fr, s = fr ++ r ∧ ((fr = [] ∧ f = none) ∨
      ∃ c a, (c = '.' ∨ c = ',') ∧ fr = c :: a ∧ a ≠ [] ∧ (∀ x ∈ a, isDig x = true) ∧ f = some a) := by
  constructor
  · intro h
    unfold fractionGroup at h
    split at h
    · rename_i c r'
      split at h
      · rename_i hc
        split at h
        · cases h
        · rename_i hne
          have hs := List.takeWhile_append_dropWhile (p := isDig) (l := r')
          injection h with h
          injection h with h1 h2
          exact ⟨c :: r'.takeWhile isDig, by rw [← h2, List.cons_append, hs],
            Or.inr ⟨c, _, hc, rfl, hne, takeWhile_all isDig r', h1.symm⟩⟩
      · injection h with h
        injection h with h1 h2
        exact ⟨[], by rw [← h2]; rfl, Or.inl ⟨rfl, h1.symm⟩⟩
    · injection h with h
      injection h with h1 h2
      exact ⟨[], by rw [← h2]; rfl, Or.inl ⟨rfl, h1.symm⟩⟩
  · rintro ⟨fr, rfl, ⟨rfl, rfl⟩ | ⟨c, a, hc, rfl, hne, ha, rfl⟩⟩
    · unfold fractionGroup
      cases r with
      | nil => rfl
      | cons c r =>
        obtain ⟨_, h2, h3⟩ := hr c rfl
        simp [h2, h3]
    · obtain ⟨e1, e2⟩ := span_digits a r ha (fun c hc => (hr c hc).1)
      unfold fractionGroup
      simp only [List.cons_append]
      rw [if_pos hc, e1, e2, if_neg hne]

theorem genMatch_iff {s : Str} {g : Groups} : genMatch s = some g ↔ GenShape s g := by
  constructor
  · intro h
    unfold genMatch at h
    have hs := List.takeWhile_append_dropWhile (p := isDig) (l := s)
    have hd := takeWhile_all isDig s
    simp only at h
    generalize s.takeWhile isDig = ds at hs hd h
    generalize s.dropWhile isDig = r at hs h
    split at h
    · rename_i hl
      split at h
      · cases h
      · rename_i f r' hf
        split at h
        · cases h
        · rename_i z sg dh dm htz
          rw [tzGroups_iff] at htz
          obtain ⟨fr, hr, hfr⟩ := (fractionGroup_iff htz.head).mp hf
          injection h with h
          subst h
          refine ⟨fr, r', ?_, dig_slice hd (by omega) rfl (by omega), dig_slice hd (by omega) rfl (by omega),
            dig_slice hd (by omega) rfl (by omega), dig_slice hd (by omega) rfl (by omega), ?_, ?_, ?_, hfr, htz⟩
          · rw [← hs, hr]
            simp only
            rw [slice_append _ (by omega) (by omega), slice_append _ (by omega) (by omega), slice_append _ (by omega) (by omega)]
            rcases hl with hl | hl | hl
            · rw [if_neg (by omega), if_neg (by omega), slice_all _ hl]; simp
            · rw [if_pos (by omega), if_neg (by omega), Option.getD_some, slice_append _ (by omega) (by omega), slice_all _ hl]
              simp
            · rw [if_pos (by omega), if_pos hl, Option.getD_some, slice_append _ (by omega) (by omega), Option.getD_some,
                slice_append _ (by omega) (by omega), slice_all _ hl]
              simp
          · simp only
            split
            · exact Or.inr ⟨_, rfl, dig_slice hd (by omega) rfl (by omega)⟩
            · exact Or.inl rfl
          · simp only
            split
            · exact Or.inr ⟨_, rfl, dig_slice hd (by omega) rfl (by omega)⟩
            · exact Or.inl rfl
          · simp only
            split
            · simp
            · rw [if_neg (by omega)]; simp
    · cases h
  · rintro ⟨fr, z, hs, h1, h2, h3, h4, h5, h6, h56, h7, htz⟩
    obtain ⟨y, mo, d, ho, mi, se, f, zu, sg, dh, dm⟩ := g
    simp only at *
    have hf : fractionGroup (fr ++ z) = some (f, z) := (fractionGroup_iff htz.head).mpr ⟨fr, rfl, h7⟩
    have hz : ∀ c, (fr ++ z).head? = some c → isDig c = false := by
      intro c hc
      rcases h7 with ⟨rfl, _⟩ | ⟨c', a, hc', rfl, _⟩
      · exact (htz.head c hc).1
      · simp at hc; subst hc; rcases hc' with rfl | rfl <;> decide
    rw [List.append_assoc] at hs
    obtain ⟨y1, y2, y3, y4, rfl, -⟩ := digits4 (dig_iff.mpr ⟨h1, rfl⟩)
    obtain ⟨o1, o2, rfl⟩ := len2 h2.1
    obtain ⟨d1, d2, rfl⟩ := len2 h3.1
    obtain ⟨k1, k2, rfl⟩ := len2 h4.1
    have hall : ∀ c ∈ [y1, y2, y3, y4] ++ [o1, o2] ++ [d1, d2] ++ [k1, k2], isDig c = true := by
      intro c hc
      simp only [List.mem_append] at hc
      rcases hc with ((hc | hc) | hc) | hc
      · exact h1.2 c hc
      · exact h2.2 c hc
      · exact h3.2 c hc
      · exact h4.2 c hc
    unfold genMatch
    simp only
    rcases h5 with rfl | ⟨m, rfl, h5⟩
    · have := h56 rfl
      subst this
      simp only [Option.getD_none, List.append_nil] at hs
      obtain ⟨e1, e2⟩ := span_digits _ (fr ++ z) hall hz
      rw [hs, e1, e2, hf]
      simp only [tzGroups_iff.mpr htz]
      simp [slice]
    · obtain ⟨m1, m2, rfl⟩ := len2 h5.1
      have hall' : ∀ c ∈ [y1, y2, y3, y4] ++ [o1, o2] ++ [d1, d2] ++ [k1, k2] ++ [m1, m2], isDig c = true :=
        fun c hc => (List.mem_append.mp hc).elim (hall c) (h5.2 c)
      rcases h6 with rfl | ⟨m, rfl, h6⟩
      · simp only [Option.getD_none, Option.getD_some, List.append_nil] at hs
        obtain ⟨e1, e2⟩ := span_digits _ (fr ++ z) hall' hz
        rw [hs, e1, e2, hf]
        simp only [tzGroups_iff.mpr htz]
        simp [slice]
      · obtain ⟨s1, s2, rfl⟩ := len2 h6.1
        simp only [Option.getD_some] at hs
        obtain ⟨e1, e2⟩ := span_digits ([y1, y2, y3, y4] ++ [o1, o2] ++ [d1, d2] ++ [k1, k2] ++ [m1, m2] ++ [s1, s2]) (fr ++ z)
          (fun c hc => (List.mem_append.mp hc).elim (hall' c) (h6.2 c)) hz
        rw [hs, e1, e2, hf]
        simp only [tzGroups_iff.mpr htz]
        simp [slice]

theorem eq_append_last {s : Str} {c : Char} (h : s.getLast? = some c) : s = s.dropLast ++ [c] := by
  have hne : s ≠ [] := by intro hs; simp [hs] at h
  rw [List.getLast?_eq_some_getLast hne] at h
  injection h with h
  rw [← h, List.dropLast_concat_getLast hne]

/-- `$` -/
theorem atEnd_iff {m : Str → Option Groups} (hm : ∀ s, m (s ++ ['\n']) = none) {s : Str} {g : Groups} :
    atEnd m s = some g ↔ ∃ s' nl, s = s' ++ nl ∧ (nl = [] ∨ nl = ['\n']) ∧ m s' = some g := by
  unfold atEnd
  constructor
  · intro h
    split at h
    · rename_i g' hg
      exact ⟨s, [], by simp, Or.inl rfl, by rw [hg, h]⟩
    · split at h
      · rename_i hl
        exact ⟨s.dropLast, ['\n'], eq_append_last hl, Or.inr rfl, h⟩
      · cases h
  · rintro ⟨s', nl, rfl, rfl | rfl, h⟩
    · rw [List.append_nil, h]
    · rw [hm]
      simp [h]

theorem utc_no_lf (s : Str) : utcMatch (s ++ ['\n']) = none := by
  cases h : utcMatch (s ++ ['\n']) with
  | none => rfl
  | some g =>
    obtain ⟨z, hs, _, _, _, _, _, _, _, htz⟩ := utcMatch_iff.mp h
    have hz : z ≠ [] := by
      intro hz; subst hz
      generalize g.zulu = a, g.sign = b, g.dhour = c, g.dminute = d at htz
      cases htz; contradiction
    have : (s ++ ['\n']).getLast? = z.getLast? := by
      rw [hs, List.getLast?_append, List.getLast?_eq_some_getLast hz]; rfl
    rw [List.getLast?_append] at this
    exact absurd this.symm htz.last

theorem gen_no_lf (s : Str) : genMatch (s ++ ['\n']) = none := by
  cases h : genMatch (s ++ ['\n']) with
  | none => rfl
  | some g =>
    exfalso
    obtain ⟨fr, z, hs, _, _, _, h4, h5, h6, _, h7, htz⟩ := genMatch_iff.mp h
    have key : ∀ a b : Str, s ++ ['\n'] = a ++ b → b ≠ [] → b.getLast? = some '\n' := by
      intro a b hab hb
      have : (s ++ ['\n']).getLast? = b.getLast? := by
        rw [hab, List.getLast?_append, List.getLast?_eq_some_getLast hb]; rfl
      rw [List.getLast?_append] at this
      exact this.symm
    have dig : ∀ b : Str, (∀ x ∈ b, isDig x = true) → b.getLast? ≠ some '\n' := by
      intro b hb hl
      have := hb '\n' (List.mem_of_getLast? hl)
      revert this; decide
    by_cases hz : z = []
    · subst hz
      rw [List.append_nil] at hs
      rcases h7 with ⟨rfl, _⟩ | ⟨c, a, _, rfl, hne, ha, _⟩
      · rw [List.append_nil] at hs
        have hh : g.hour ++ g.minute.getD [] ++ g.second.getD [] ≠ [] := by
          intro hc
          have := h4.1
          simp at hc
          rw [hc.1] at this
          simp at this
        refine dig _ ?_ (key (g.year ++ g.month ++ g.day) _ (by rw [hs]; simp) hh)
        intro x hx
        simp only [List.mem_append] at hx
        rcases hx with (hx | hx) | hx
        · exact h4.2 x hx
        · rcases h5 with h5 | ⟨m, h5, hm⟩ <;> rw [h5] at hx
          · simp at hx
          · exact hm.2 x hx
        · rcases h6 with h5 | ⟨m, h5, hm⟩ <;> rw [h5] at hx
          · simp at hx
          · exact hm.2 x hx
      · exact dig a ha (key (g.year ++ g.month ++ g.day ++ g.hour ++ g.minute.getD [] ++ g.second.getD [] ++ [c]) a (by rw [hs]; simp) hne)
    · exact htz.last (key _ z hs hz)

/-! ### Zones -/

/-- The offset that the groups of a zone denote. -/
def zoneOff (zu : Bool) (sg : Option Char) (dh : Str) (dm : Option Str) : Option Int :=
  if zu then some 0
  else sg.map fun c => (if c = '+' then 1 else -1) * ((num dh : Int) * 3600000000 + num (dm.getD ['0']) * 60000000)

/-- Offsets of less than 24 hours. -/
def OffOk : Option Int → Prop
  | none => True
  | some off => -usDay < off ∧ off < usDay

theorem groupsTz_ok {g : Groups} {tz : Option Int} :
    groupsTz g = .ok tz ↔ tz = zoneOff g.zulu g.sign g.dhour g.dminute ∧ OffOk tz := by
  unfold groupsTz zoneOff
  cases hz : g.zulu with
  | true =>
    simp only [if_true]
    constructor
    · intro h; injection h with h; subst h; exact ⟨rfl, by decide, by decide⟩
    · rintro ⟨rfl, _⟩; rfl
  | false =>
    simp only [Bool.false_eq_true, if_false]
    cases hs : g.sign with
    | none =>
      simp only [Option.map_none]
      constructor
      · intro h; injection h with h; subst h; exact ⟨rfl, trivial⟩
      · rintro ⟨rfl, _⟩; rfl
    | some c =>
      simp only [Option.map_some]
      generalize hoff : (if c = '+' then (1 : Int) else -1) * ((num g.dhour : Int) * 3600000000 + num (g.dminute.getD ['0']) * 60000000) = off
      constructor
      · intro h
        split at h
        · rename_i hr
          injection h with h; subst h; exact ⟨rfl, hr⟩
        · cases h
      · rintro ⟨rfl, h⟩
        rw [if_pos (show -usDay < off ∧ off < usDay from h)]

theorem groupsTz_error {g : Groups} {e : PyErr} (h : groupsTz g = .error e) : e = .valueError := by
  unfold groupsTz at h
  split at h
  · cases h
  · split at h
    · cases h
    · simp only at h
      generalize (_ : Int) * _ = off at h
      split at h
      · cases h
      · injection h with h; exact h.symm

theorem utc_zone_iff {z : Str} {off : Int} :
    Zone z off ↔ ∃ zu sg dh dm, TzShape false false z zu sg dh dm ∧ some off = zoneOff zu sg dh dm := by
  constructor
  · intro h
    cases h with
    | zulu => exact ⟨_, _, _, _, .zulu, rfl⟩
    | plus h1 h2 =>
      obtain ⟨⟨a1, a2⟩, a3⟩ := dig_iff.mp h1
      obtain ⟨⟨b1, b2⟩, b3⟩ := dig_iff.mp h2
      refine ⟨_, _, _, _, .long (Or.inl rfl) a1 b1 a2 b2, ?_⟩
      simp only [zoneOff, Bool.false_eq_true, if_false, Option.map_some, Option.getD_some, a3, b3, usMinute]
      refine congrArg some ?_
      simp
      omega
    | minus h1 h2 =>
      obtain ⟨⟨a1, a2⟩, a3⟩ := dig_iff.mp h1
      obtain ⟨⟨b1, b2⟩, b3⟩ := dig_iff.mp h2
      refine ⟨_, _, _, _, .long (Or.inr rfl) a1 b1 a2 b2, ?_⟩
      simp only [zoneOff, Bool.false_eq_true, if_false, Option.map_some, Option.getD_some, a3, b3, usMinute]
      refine congrArg some ?_
      simp
      omega
  · rintro ⟨zu, sg, dh, dm, h, ho⟩
    cases h with
    | none h => cases h
    | zulu =>
      simp only [zoneOff, if_true] at ho
      injection ho with ho
      subst ho
      exact .zulu
    | @long c _ b hc h1 h2 h3 h4 =>
      simp only [zoneOff, Bool.false_eq_true, if_false, Option.map_some, Option.getD_some] at ho
      injection ho with ho
      have ha := dig_iff.mpr ⟨⟨h1, h3⟩, rfl⟩
      have hb := dig_iff.mpr ⟨⟨h2, h4⟩, rfl⟩
      rcases hc with rfl | rfl
      · have := Zone.plus ha hb
        have e : off = ((num dh * 60 + num b) * usMinute) := by
          rw [ho, if_pos rfl]; unfold usMinute; omega
        rw [e]; exact this
      · have := Zone.minus ha hb
        have e : off = -((num dh * 60 + num b) * usMinute) := by
          rw [ho, if_neg (by decide)]; unfold usMinute; omega
        rw [e]; exact this
    | short h => cases h

theorem gen_zone_iff {z : Str} {off : Option Int} :
    GenZone z off ↔ ∃ zu sg dh dm, TzShape true true z zu sg dh dm ∧ off = zoneOff zu sg dh dm := by
  constructor
  · intro h
    cases h with
    | none => exact ⟨_, _, _, _, .none rfl, rfl⟩
    | zone h =>
      obtain ⟨zu, sg, dh, dm, h1, h2⟩ := utc_zone_iff.mp h
      refine ⟨zu, sg, dh, dm, ?_, h2⟩
      cases h1 with
      | none hh => exact absurd hh (by decide)
      | zulu => exact .zulu
      | long a b c d e => exact .long a b c d e
      | short hh => exact absurd hh (by decide)
    | plusHours h1 =>
      obtain ⟨⟨a1, a2⟩, a3⟩ := dig_iff.mp h1
      refine ⟨_, _, _, _, .short rfl (Or.inl rfl) a1 a2, ?_⟩
      simp only [zoneOff, Bool.false_eq_true, if_false, Option.map_some, a3, usMinute]
      refine congrArg some ?_
      have : num ((none : Option Str).getD ['0']) = 0 := by decide
      rw [this]
      simp
      omega
    | minusHours h1 =>
      obtain ⟨⟨a1, a2⟩, a3⟩ := dig_iff.mp h1
      refine ⟨_, _, _, _, .short rfl (Or.inr rfl) a1 a2, ?_⟩
      simp only [zoneOff, Bool.false_eq_true, if_false, Option.map_some, a3, usMinute]
      refine congrArg some ?_
      have : num ((none : Option Str).getD ['0']) = 0 := by decide
      rw [this]
      simp
      omega
  · rintro ⟨zu, sg, dh, dm, h, ho⟩
    cases h with
    | none h => subst ho; exact .none
    | zulu => subst ho; exact .zone .zulu
    | long a b c d e =>
      cases ho' : off with
      | none => subst ho; simp [zoneOff] at ho'
      | some o => exact .zone (utc_zone_iff.mpr ⟨_, _, _, _, .long a b c d e, by rw [← ho', ho]⟩)
    | @short c _ _ hc h1 h2 =>
      have ha := dig_iff.mpr ⟨⟨h1, h2⟩, rfl⟩
      have h0 : num ((none : Option Str).getD ['0']) = 0 := by decide
      simp only [zoneOff, Bool.false_eq_true, if_false, Option.map_some, h0] at ho
      rcases hc with rfl | rfl
      · have := GenZone.plusHours ha
        have e : off = some (num dh * 60 * usMinute) := by
          rw [ho, if_pos rfl]; unfold usMinute; refine congrArg some ?_; omega
        rw [e]; exact this
      · have := GenZone.minusHours ha
        have e : off = some (-(num dh * 60 * usMinute)) := by
          rw [ho, if_neg (by decide)]; unfold usMinute; refine congrArg some ?_; omega
        rw [e]; exact this

/-! ### Texts and groups -/

theorem optDigits_iff {s : Str} {n : Option Nat} :
    OptDigits s n ↔ ∃ m : Option Str, s = m.getD [] ∧ n = m.map num ∧ (m = none ∨ ∃ x, m = some x ∧ Dig 2 x) := by
  cases n with
  | none =>
    constructor
    · intro h; exact ⟨none, h, rfl, Or.inl rfl⟩
    · rintro ⟨m, rfl, hm, _⟩
      cases m with
      | none => rfl
      | some x => cases hm
  | some v =>
    constructor
    · intro h
      obtain ⟨h1, h2⟩ := dig_iff.mp h
      exact ⟨some s, rfl, by rw [Option.map_some, h2], Or.inr ⟨s, rfl, h1⟩⟩
    · rintro ⟨m, rfl, hm, h⟩
      rcases h with rfl | ⟨x, rfl, h⟩
      · cases hm
      · injection hm with hm
        exact dig_iff.mpr ⟨h, hm.symm⟩

theorem getD_zero (m : Option Str) : num (m.getD ['0']) = (m.map num).getD 0 := by
  cases m with
  | none => decide
  | some x => rfl

theorem utcText_iff {s : Str} {yy mo d h mi : Nat} {se : Option Nat} {off : Int} :
    UtcText s yy mo d h mi se off ↔ ∃ g, atEnd utcMatch s = some g ∧ num g.year = yy ∧ num g.month = mo ∧ num g.day = d ∧
      num g.hour = h ∧ num (g.minute.getD ['0']) = mi ∧ g.second.map num = se ∧ fractionUs g = 0 ∧
      zoneOff g.zulu g.sign g.dhour g.dminute = some off := by
  constructor
  · rintro ⟨a, b, c, e, f, g, z, nl, rfl, ha, hb, hc, he, hf, hg, hz, hnl⟩
    obtain ⟨zu, sg, dh, dm, hz1, hz2⟩ := utc_zone_iff.mp hz
    obtain ⟨sec, rfl, hse, hsec⟩ := optDigits_iff.mp hg
    rw [dig_iff] at ha hb hc he hf
    refine ⟨⟨a, b, c, e, some f, sec, some [], zu, sg, dh, dm⟩, (atEnd_iff utc_no_lf).mpr ⟨_, nl, rfl, hnl, utcMatch_iff.mpr ?_⟩,
      ha.2, hb.2, hc.2, he.2, hf.2, hse.symm, rfl, hz2.symm⟩
    exact ⟨z, rfl, ha.1, hb.1, hc.1, he.1, ⟨f, rfl, hf.1⟩, hsec, rfl, hz1⟩
  · rintro ⟨g, hg, rfl, rfl, rfl, rfl, rfl, rfl, -, hz⟩
    obtain ⟨s', nl, rfl, hnl, hm⟩ := (atEnd_iff utc_no_lf).mp hg
    obtain ⟨z, rfl, h1, h2, h3, h4, ⟨m, hm, h5⟩, h6, h7, htz⟩ := utcMatch_iff.mp hm
    refine ⟨_, _, _, _, _, _, z, nl, rfl, dig_iff.mpr ⟨h1, rfl⟩, dig_iff.mpr ⟨h2, rfl⟩, dig_iff.mpr ⟨h3, rfl⟩,
      dig_iff.mpr ⟨h4, rfl⟩, ?_, optDigits_iff.mpr ⟨_, rfl, rfl, h6⟩, utc_zone_iff.mpr ⟨_, _, _, _, htz, hz.symm⟩, hnl⟩
    rw [hm]
    exact dig_iff.mpr ⟨h5, rfl⟩

/-- `limit_denominator(1)` is a nearest integer, and the smaller one of two. -/
theorem nearest_spec {n d : Nat} (hd : 0 < d) : 2 * (nearest n d * d) < 2 * n + d ∧ 2 * n ≤ 2 * (nearest n d * d) + d := by
  unfold nearest
  have h1 := Nat.div_mul_le_self (2 * n + d - 1) (2 * d)
  have h2 := Nat.lt_div_mul_add (a := 2 * n + d - 1) (b := 2 * d) (by omega)
  have e : (2 * n + d - 1) / (2 * d) * (2 * d) = 2 * ((2 * n + d - 1) / (2 * d) * d) := by ring
  rw [e] at h1 h2
  constructor <;> omega

theorem fraction_iff {g : Groups} {fr : Str} :
    ((fr = [] ∧ g.fraction = none) ∨
      ∃ c a, (c = '.' ∨ c = ',') ∧ fr = c :: a ∧ a ≠ [] ∧ (∀ x ∈ a, isDig x = true) ∧ g.fraction = some a) →
    FractionText fr (num (g.fraction.getD [])) (g.fraction.getD []).length := by
  rintro (⟨rfl, h⟩ | ⟨c, a, hc, rfl, hne, ha, h⟩)
  · rw [h]; exact .none
  · rw [h]
    exact .some hc (List.length_pos_iff.mpr hne) (digits_of ha)

/-- The number of microseconds of `n / 10 ^ k` units. -/
def usOf (n k unit : Nat) : Nat := nearest (n * unit) (10 ^ k)

theorem fractionUs_eq (g : Groups) :
    fractionUs g = usOf (num (g.fraction.getD [])) (g.fraction.getD []).length (fractionUnit (g.minute.map num) (g.second.map num)) := by
  have hz : ∀ u, usOf 0 0 u = 0 := by intro u; simp [usOf, nearest]
  have hn : num [] = 0 := rfl
  unfold fractionUs
  split
  · rename_i h; simp [h, hn, hz]
  · rename_i h; simp [h, hn, hz]
  · rename_i f _ h
    rw [h]
    simp only [Option.getD_some, usOf, fractionUnit, Option.map_eq_none_iff]
    congr 1
    rw [mul_assoc]
    congr 1
    repeat' split
    all_goals rfl

theorem genText_iff {s : Str} {y mo d h : Nat} {mi se : Option Nat} {n k : Nat} {off : Option Int} :
    GenText s y mo d h mi se n k off ↔ ∃ g, atEnd genMatch s = some g ∧ num g.year = y ∧ num g.month = mo ∧ num g.day = d ∧
      num g.hour = h ∧ g.minute.map num = mi ∧ g.second.map num = se ∧ num (g.fraction.getD []) = n ∧
      (g.fraction.getD []).length = k ∧ zoneOff g.zulu g.sign g.dhour g.dminute = off := by
  constructor
  · rintro ⟨a, b, c, e, f, g, fr, z, nl, rfl, ha, hb, hc, he, hf, hg, hms, hfr, hz, hnl⟩
    obtain ⟨zu, sg, dh, dm, hz1, hz2⟩ := gen_zone_iff.mp hz
    obtain ⟨sec, rfl, hse, hsec⟩ := optDigits_iff.mp hg
    obtain ⟨mnt, rfl, hmi, hmnt⟩ := optDigits_iff.mp hf
    rw [dig_iff] at ha hb hc he
    have hfr' : ∃ fo : Option Str, ((fr = [] ∧ fo = none) ∨
        ∃ c a, (c = '.' ∨ c = ',') ∧ fr = c :: a ∧ a ≠ [] ∧ (∀ x ∈ a, isDig x = true) ∧ fo = some a) ∧
        num (fo.getD []) = n ∧ (fo.getD []).length = k := by
      cases hfr with
      | none => exact ⟨none, Or.inl ⟨rfl, rfl⟩, rfl, rfl⟩
      | @some c a _ _ hc hk hd =>
        obtain ⟨⟨h1, h2⟩, h3⟩ := dig_iff.mp hd
        exact ⟨some a, Or.inr ⟨c, a, hc, rfl, by intro h; rw [h] at h1; simp at h1; omega, h2, rfl⟩, h3, h1⟩
    obtain ⟨fo, hfo, hn, hk⟩ := hfr'
    refine ⟨⟨a, b, c, e, mnt, sec, fo, zu, sg, dh, dm⟩, (atEnd_iff gen_no_lf).mpr ⟨_, nl, rfl, hnl, genMatch_iff.mpr ?_⟩,
      ha.2, hb.2, hc.2, he.2, hmi.symm, hse.symm, hn, hk, hz2.symm⟩
    refine ⟨fr, z, rfl, ha.1, hb.1, hc.1, he.1, hmnt, hsec, ?_, hfo, hz1⟩
    intro hm
    have hm : mnt = none := hm
    subst hm
    have := hms hmi
    rw [hse] at this
    simpa using this
  · rintro ⟨g, hg, rfl, rfl, rfl, rfl, rfl, rfl, rfl, rfl, rfl⟩
    obtain ⟨s', nl, rfl, hnl, hm⟩ := (atEnd_iff gen_no_lf).mp hg
    obtain ⟨fr, z, rfl, h1, h2, h3, h4, h5, h6, h56, h7, htz⟩ := genMatch_iff.mp hm
    refine ⟨_, _, _, _, _, _, fr, z, nl, rfl, dig_iff.mpr ⟨h1, rfl⟩, dig_iff.mpr ⟨h2, rfl⟩, dig_iff.mpr ⟨h3, rfl⟩,
      dig_iff.mpr ⟨h4, rfl⟩, optDigits_iff.mpr ⟨_, rfl, rfl, h5⟩, optDigits_iff.mpr ⟨_, rfl, rfl, h6⟩, ?_, fraction_iff h7,
      gen_zone_iff.mpr ⟨_, _, _, _, htz, rfl⟩, hnl⟩
    intro hm
    rw [h56 (by simpa using hm)]
    rfl

theorem decimal_lt {s : Str} (h : ∀ c ∈ s, '0' ≤ c ∧ c ≤ '9') : decimal s < 10 ^ s.length := by
  induction s with
  | nil => simp [decimal]
  | cons c s ih =>
    have h1 := ih (fun x hx => h x (by simp [hx]))
    have hc := (h c (by simp)).2
    rw [Char.le_def, UInt32.le_iff_toNat_le] at hc
    have hc : c.toNat ≤ 57 := hc
    have h2 : (c.toNat - 48) * 10 ^ s.length ≤ 9 * 10 ^ s.length := Nat.mul_le_mul_right _ (by omega)
    simp only [decimal, List.length_cons, pow_succ]
    omega

theorem digits_lt {w n : Nat} {s : Str} (h : Digits w s n) : n < 10 ^ w := by
  have := decimal_lt h.2.1
  rw [h.1, h.2.2] at this
  exact this

theorem fraction_lt {s : Str} {n k : Nat} (h : FractionText s n k) : n < 10 ^ k := by
  cases h with
  | none => simp
  | some _ _ h => exact digits_lt h

theorem nearest_unique {n d a b : Nat} (ha : 2 * (a * d) < 2 * n + d ∧ 2 * n ≤ 2 * (a * d) + d)
    (hb : 2 * (b * d) < 2 * n + d ∧ 2 * n ≤ 2 * (b * d) + d) : a = b := by
  rcases Nat.lt_trichotomy a b with h | h | h
  · have : (a + 1) * d ≤ b * d := Nat.mul_le_mul_right _ h
    rw [Nat.add_mul] at this
    omega
  · exact h
  · have : (b + 1) * d ≤ a * d := Nat.mul_le_mul_right _ h
    rw [Nat.add_mul] at this
    omega

/-! ### Fractions of a second -/

theorem dropWhile_zeros (s : Str) : ∃ k, s = List.replicate k '0' ++ s.dropWhile (· = '0') ∧
    (s.dropWhile (· = '0')).head? ≠ some '0' := by
  induction s with
  | nil => exact ⟨0, by simp⟩
  | cons c s ih =>
    by_cases hc : c = '0'
    · obtain ⟨k, h1, h2⟩ := ih
      refine ⟨k + 1, ?_, by simpa [hc] using h2⟩
      rw [List.dropWhile_cons, if_pos (by simp [hc]), List.replicate_succ, List.cons_append, ← h1, hc]
    · exact ⟨0, by simp [hc]⟩

theorem rstrip0_spec (s : Str) : ∃ k, s = rstrip0 s ++ List.replicate k '0' ∧ (rstrip0 s).getLast? ≠ some '0' := by
  obtain ⟨k, h1, h2⟩ := dropWhile_zeros s.reverse
  refine ⟨k, ?_, ?_⟩
  · have := congrArg List.reverse h1
    rw [List.reverse_reverse, List.reverse_append, List.reverse_replicate] at this
    exact this
  · unfold rstrip0
    rw [List.getLast?_reverse]
    exact h2

theorem genFraction_spec {us : Nat} (h : us ≤ 999999) : ∃ n k, FractionText (genFraction us) n k ∧ n * 1000000 = us * 10 ^ k ∧
    (genFraction us = [] ∧ us = 0 ∨ ∃ ds, genFraction us = '.' :: ds ∧ ds ≠ [] ∧ ds.length ≤ 6 ∧ ds.getLast? ≠ some '0' ∧ us ≠ 0) := by
  unfold genFraction
  by_cases hz : us = 0
  · subst hz
    exact ⟨0, 0, .none, rfl, Or.inl ⟨rfl, rfl⟩⟩
  · rw [if_pos hz]
    obtain ⟨h1, h2, h3⟩ := pad_digits (w := 6) (n := us) (by omega) (by omega)
    obtain ⟨m, e1, e2⟩ := rstrip0_spec (pad 6 us)
    generalize rstrip0 (pad 6 us) = f at *
    have hlen : f.length + m = 6 := by rw [← h1, e1]; simp
    have hval : decimal f * 10 ^ m = us := by
      rw [← h3, e1, decimal_append, decimal_zeros]; simp
    have hne : f ≠ [] := by
      intro hf; subst hf; simp [decimal] at hval; omega
    refine ⟨decimal f, f.length, .some (Or.inl rfl) (List.length_pos_iff.mpr hne)
      ⟨rfl, fun c hc => h2 c (by rw [e1]; exact List.mem_append.mpr (Or.inl hc)), rfl⟩, ?_,
      Or.inr ⟨f, rfl, hne, by omega, e2, hz⟩⟩
    rw [← hval, mul_assoc, ← pow_add, show m + f.length = 6 by omega]
    rfl

/-! ### `strftime` -/

theorem zipYears_append {a b c d : Str} (h : a.length = b.length) : zipYears (a ++ c) (b ++ d) = zipYears a b ++ zipYears c d := by
  unfold zipYears; exact List.zipWith_append h

theorem zipYears_self (a : Str) : zipYears a a = a := by
  induction a with
  | nil => rfl
  | cons c a ih =>
    have : (if c = '2' ∧ c = '4' then '0' else c) = c := by
      rw [if_neg]; rintro ⟨rfl, h⟩; revert h; decide
    unfold zipYears at *
    rw [List.zipWith_cons_cons, this, ih]

/-- The month, day and time of day, as `strftime` writes them. -/
def rest14 (v : DateTime) : Str := pad 2 v.month ++ pad 2 v.day ++ pad 2 v.hour ++ pad 2 v.minute ++ pad 2 v.second

theorem strftime_gen (glibc : Bool) (v : DateTime) : strftime glibc v "%Y%m%d%H%M%S".toList =
    (if glibc then pyStrNat v.year else pad 4 v.year) ++ rest14 v := by
  show strftime glibc v ['%', 'Y', '%', 'm', '%', 'd', '%', 'H', '%', 'M', '%', 'S'] = _
  simp only [strftime, rest14, List.append_assoc, List.append_nil]

theorem year_text {glibc : Bool} {v : DateTime} (h : glibc = false ∨ 1000 ≤ v.year) :
    (if glibc then pyStrNat v.year else pad 4 v.year) = pad 4 v.year := by
  cases glibc with
  | false => rfl
  | true =>
    rcases h with h | h
    · cases h
    · simp [pad_four h]

theorem extStrftime_gen (glibc : Bool) {y : DateTime} (h : y.year = 2000) :
    extStrftime glibc y "%Y%m%d%H%M%S".toList = "0000".toList ++ rest14 y := by
  unfold extStrftime
  rw [strftime_gen, strftime_gen, year_text (Or.inr (by omega)), year_text (Or.inr (by simp)), h]
  have e : rest14 { y with year := 4000 } = rest14 y := rfl
  have p2 : pad 4 2000 = "2000".toList := by decide +kernel
  have p4 : pad 4 4000 = "4000".toList := by decide +kernel
  rw [e]
  simp only [p2, p4]
  rw [zipYears_append (by decide), zipYears_self]
  rfl

end Asn1.Time
