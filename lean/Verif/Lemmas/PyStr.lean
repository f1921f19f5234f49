import Verif.Model.PyStr
import Mathlib.Tactic.Ring
import Mathlib.Tactic.Linarith

/-! # Lemmas on the Python string built-ins -/

namespace Asn1

theorem digitChar_toNat {d : Nat} (h : d < 10) : (digitChar d).toNat = 48 + d := by
  have : ∀ d < 10, (digitChar d).toNat = 48 + d := by decide
  exact this d h

theorem digitVal_digitChar {d : Nat} (h : d < 10) : digitVal (digitChar d) = some d := by
  unfold digitVal
  rw [digitChar_toNat h, if_pos (by omega)]
  congr 1; omega

theorem digitChar_facts : ∀ d < 10, digitChar d ≠ '_' ∧ digitChar d ≠ '-' ∧ digitChar d ≠ '+' ∧
    digitChar d ≠ '.' ∧ pyIsSpace (digitChar d) = false := by decide

/-- Every character of `str(n)` is an ASCII digit. -/
theorem mem_pyStrNat (n : Nat) : ∀ c ∈ pyStrNat n, ∃ d, d < 10 ∧ c = digitChar d := by
  induction n using Nat.strongRecOn with
  | _ n ih =>
    intro c hc
    rw [pyStrNat] at hc
    split at hc
    · next h => exact ⟨n, h, by simpa using hc⟩
    · next h =>
      rcases List.mem_append.mp hc with hc | hc
      · exact ih (n / 10) (by omega) c hc
      · exact ⟨n % 10, Nat.mod_lt _ (by decide), by simpa using hc⟩

theorem pyStrNat_ne_nil (n : Nat) : pyStrNat n ≠ [] := by
  rw [pyStrNat]; split <;> simp

theorem digitsGo_cons {x : Char} (hx : x ≠ '_') (acc : Nat) (xs : Str) :
    digitsGo acc (x :: xs) = (digitVal x).bind (fun v => digitsGo (acc * 10 + v) xs) := by
  cases xs <;> simp only [digitsGo, if_neg hx] <;> cases digitVal x <;> rfl

theorem digitsGo_append (a b : Str) (hb : ∀ c ∈ b, c ≠ '_') (ha : ∀ c ∈ a, c ≠ '_') : ∀ acc,
    digitsGo acc (a ++ b) = (digitsGo acc a).bind (fun v => digitsGo v b) := by
  induction a with
  | nil => intro acc; simp [digitsGo]
  | cons x xs ih =>
    intro acc
    have hx := ha x (by simp)
    simp only [List.cons_append, digitsGo_cons hx]
    cases digitVal x with
    | none => rfl
    | some v => exact ih (fun c hc => ha c (by simp [hc])) _

theorem pyStrNat_no_us (n : Nat) : ∀ c ∈ pyStrNat n, c ≠ '_' := by
  intro c hc
  obtain ⟨d, hd, rfl⟩ := mem_pyStrNat n c hc
  exact (digitChar_facts d hd).1

theorem digitsVal_pyStrNat (n : Nat) : digitsVal (pyStrNat n) = some n := by
  induction n using Nat.strongRecOn with
  | _ n ih =>
    rw [pyStrNat]
    split
    · next h => simp [digitsVal, digitVal_digitChar h, digitsGo]
    · next h =>
      have hi := ih (n / 10) (by omega)
      have hne := pyStrNat_ne_nil (n / 10)
      have hus := pyStrNat_no_us (n / 10)
      have hm : n % 10 < 10 := Nat.mod_lt _ (by decide)
      revert hi hne hus
      cases pyStrNat (n / 10) with
      | nil => intro _ h; exact absurd rfl h
      | cons x xs =>
        intro hi _ hus
        simp only [digitsVal, List.cons_append] at hi ⊢
        cases hx : digitVal x with
        | none => rw [hx] at hi; cases hi
        | some v =>
          rw [hx] at hi
          simp only at hi ⊢
          rw [digitsGo_append _ _ (by simp; exact (digitChar_facts _ hm).1) (fun c hc => hus c (by simp [hc])), hi]
          simp only [Option.bind_some, digitsGo_cons (digitChar_facts _ hm).1, digitVal_digitChar hm, digitsGo]
          rw [show n / 10 * 10 + n % 10 = n by omega, if_neg (digitChar_facts _ hm).1]

theorem dropWhile_eq_self {α : Type} (p : α → Bool) (s : List α) (h : ∀ c ∈ s, p c = false) : s.dropWhile p = s := by
  cases s with
  | nil => rfl
  | cons x xs => simp [List.dropWhile, h x (by simp)]

theorem pyStrip_eq_self (s : Str) (h : ∀ c ∈ s, pyIsSpace c = false) : pyStrip s = s := by
  unfold pyStrip pyLstrip pyRstrip
  rw [dropWhile_eq_self _ s h, dropWhile_eq_self _ s.reverse (fun c hc => h c (by simpa using hc)), List.reverse_reverse]

/-- `int(str(n)) == n`. -/
theorem pyInt_pyStrNat (n : Nat) : pyInt (pyStrNat n) = .ok (n : Int) := by
  unfold pyInt
  have hs : ∀ c ∈ pyStrNat n, pyIsSpace c = false := by
    intro c hc
    obtain ⟨d, hd, rfl⟩ := mem_pyStrNat n c hc
    exact (digitChar_facts d hd).2.2.2.2
  rw [pyStrip_eq_self _ hs]
  have hv := digitsVal_pyStrNat n
  have hmem := mem_pyStrNat n
  have hne := pyStrNat_ne_nil n
  revert hv hmem hne
  cases pyStrNat n with
  | nil => intro _ _ h; exact absurd rfl h
  | cons x xs =>
    intro hv hmem _
    obtain ⟨d, hd, rfl⟩ := hmem x (by simp)
    have hf := digitChar_facts d hd
    split
    · next h => injection h with h; exact absurd h hf.2.1
    · next h => injection h with h; exact absurd h hf.2.2.1
    · rw [hv]

theorem pyStrNat_inj {a b : Nat} (h : pyStrNat a = pyStrNat b) : a = b := by
  have h1 := digitsVal_pyStrNat a
  rw [h, digitsVal_pyStrNat b] at h1
  injection h1 with h1
  exact h1.symm

theorem pySplit_ne_nil (sep : Char) (s : Str) : pySplit sep s ≠ [] := by
  cases s with
  | nil => simp [pySplit]
  | cons c cs =>
    simp only [pySplit]
    split
    · simp
    · split <;> simp

theorem pySplit_append (sep : Char) (a b : Str) (ha : ∀ c ∈ a, c ≠ sep) :
    pySplit sep (a ++ sep :: b) = a :: pySplit sep b := by
  induction a with
  | nil => simp [pySplit]
  | cons x xs ih =>
    simp only [List.cons_append, pySplit, if_neg (ha x (by simp))]
    rw [ih (fun c hc => ha c (by simp [hc]))]

theorem pySplit_single (sep : Char) (a : Str) (ha : ∀ c ∈ a, c ≠ sep) : pySplit sep a = [a] := by
  induction a with
  | nil => simp [pySplit]
  | cons x xs ih =>
    simp only [pySplit, if_neg (ha x (by simp))]
    rw [ih (fun c hc => ha c (by simp [hc]))]

/-- `sep.join(parts).split(sep) == parts` when no part contains the separator. -/
theorem pySplit_join (sep : Char) : ∀ (ps : List Str), ps ≠ [] → (∀ p ∈ ps, ∀ c ∈ p, c ≠ sep) →
    pySplit sep (pyJoin [sep] ps) = ps
  | [], h, _ => absurd rfl h
  | [p], _, h => by rw [pyJoin]; exact pySplit_single sep p (h p (by simp))
  | p :: q :: qs, _, h => by
    rw [pyJoin, List.append_assoc, List.singleton_append, pySplit_append sep p _ (h p (by simp)),
      pySplit_join sep (q :: qs) (by simp) (fun x hx => h x (by simp [List.mem_cons.mp hx]))]

/-- `sep.join(s.split(sep)) == s` -/
theorem pyJoin_split (sep : Char) (s : Str) : pyJoin [sep] (pySplit sep s) = s := by
  induction s with
  | nil => rfl
  | cons c cs ih =>
    simp only [pySplit]
    split
    · next h =>
      subst h
      cases hp : pySplit c cs with
      | nil => exact absurd hp (pySplit_ne_nil c cs)
      | cons p ps => rw [hp] at ih; simp [pyJoin, ih]
    · cases hp : pySplit sep cs with
      | nil => exact absurd hp (pySplit_ne_nil sep cs)
      | cons p ps =>
        rw [hp] at ih
        cases ps with
        | nil => simp [pyJoin] at ih ⊢; exact ih
        | cons q qs => simp [pyJoin] at ih ⊢; exact ih

theorem pySplit_no_sep (sep : Char) (s : Str) : ∀ p ∈ pySplit sep s, ∀ c ∈ p, c ≠ sep := by
  induction s with
  | nil => simp [pySplit]
  | cons x xs ih =>
    simp only [pySplit]
    split
    · intro p hp
      rcases List.mem_cons.mp hp with rfl | hp
      · simp
      · exact ih p hp
    · next hx =>
      cases hs : pySplit sep xs with
      | nil => exact absurd hs (pySplit_ne_nil sep xs)
      | cons q qs =>
        rw [hs] at ih
        intro p hp
        rcases List.mem_cons.mp hp with rfl | hp
        · intro c hc
          rcases List.mem_cons.mp hc with rfl | hc
          · exact hx
          · exact ih q (by simp) c hc
        · exact ih p (by simp [hp])

theorem pyInt_error {s : Str} {e : PyErr} (h : pyInt s = .error e) : e = .valueError := by
  unfold pyInt at h
  repeat' split at h
  all_goals first | cases h; done | (injection h with h; exact h.symm) | (simp only at h; repeat' split at h) 
  all_goals first | cases h; done | (injection h with h; exact h.symm)

end Asn1
