import Verif.Lemmas.TimeText

/-!
# C48: time zones and printed offsets
-/

namespace Asn1.Time
open Asn1 Asn1.Spec

/-- States of the program: `create_timezone` is called, and other code makes timezone objects. -/
inductive TzReach : TzState → Prop
  | start (made : List Int) : TzReach ⟨[], made⟩
  | call {s s' : TzState} {off : Int} {i : Nat} : TzReach s → createTimezone s off = .ok (i, s') → TzReach s'
  | other {s s' : TzState} {off : Int} {i : Nat} : TzReach s → mkTimezone s off = .ok (i, s') → TzReach s'

/-- `s'` comes later than `s`. -/
inductive TzLater : TzState → TzState → Prop
  | same (s : TzState) : TzLater s s
  | call {s s' s'' : TzState} {off : Int} {i : Nat} : TzLater s s' → createTimezone s' off = .ok (i, s'') → TzLater s s''
  | other {s s' s'' : TzState} {off : Int} {i : Nat} : TzLater s s' → mkTimezone s' off = .ok (i, s'') → TzLater s s''

/-- The cache maps offsets to objects with these offsets. -/
def TzInv (s : TzState) : Prop := ∀ off i, s.cache.lookup off = some i → s.made[i]? = some off

theorem mkTimezone_ok {s s' : TzState} {off : Int} {i : Nat} (h : mkTimezone s off = .ok (i, s')) :
    (-usDay < off ∧ off < usDay) ∧ i = s.made.length ∧ s' = ⟨s.cache, s.made ++ [off]⟩ := by
  unfold mkTimezone at h
  split at h
  · rename_i hr
    have := Except.ok.inj h
    injection this with h1 h2
    exact ⟨hr, h1.symm, h2.symm⟩
  · cases h

theorem createTimezone_ok {s s' : TzState} {off : Int} {i : Nat} (h : createTimezone s off = .ok (i, s')) :
    (s.cache.lookup off = some i ∧ s' = s) ∨
      (s.cache.lookup off = none ∧ (-usDay < off ∧ off < usDay) ∧ i = s.made.length ∧ s' = ⟨s.cache ++ [(off, i)], s.made ++ [off]⟩) := by
  unfold createTimezone at h
  split at h
  · rename_i j hj
    have := Except.ok.inj h
    injection this with h1 h2
    exact Or.inl ⟨by rw [hj, h1], h2.symm⟩
  · rename_i hn
    cases hm : mkTimezone s off with
    | error e => rw [hm] at h; cases h
    | ok p =>
      obtain ⟨j, t⟩ := p
      rw [hm] at h
      obtain ⟨h1, h2, h3⟩ := mkTimezone_ok hm
      have := Except.ok.inj h
      injection this with h4 h5
      subst h3
      exact Or.inr ⟨hn, h1, by rw [← h4, h2], by rw [← h5, ← h4]⟩

theorem lookup_append (l : List (Int × Nat)) (a : Int) (i : Nat) (b : Int) :
    (l ++ [(a, i)]).lookup b = (l.lookup b).or (if b = a then some i else none) := by
  induction l with
  | nil =>
    by_cases h : b = a
    · simp [List.lookup, h]
    · have : (b == a) = false := by simpa using h
      simp [List.lookup, h, this]
  | cons p l ih =>
    obtain ⟨c, j⟩ := p
    rw [List.cons_append, List.lookup_cons, List.lookup_cons]
    split
    · simp
    · exact ih

theorem tzInv_call {s s' : TzState} {off : Int} {i : Nat} (hi : TzInv s) (h : createTimezone s off = .ok (i, s')) : TzInv s' := by
  rcases createTimezone_ok h with ⟨_, rfl⟩ | ⟨_, _, rfl, rfl⟩
  · exact hi
  · intro o j hj
    rw [lookup_append] at hj
    cases hl : s.cache.lookup o with
    | some k =>
      rw [hl] at hj
      have : k = j := by simpa using hj
      subst this
      have := hi o k hl
      rw [List.getElem?_append_left (by rw [List.getElem?_eq_some_iff] at this; exact this.1)]
      exact this
    | none =>
      rw [hl] at hj
      by_cases ho : o = off
      · subst ho
        simp at hj
        subst hj
        simp
      · simp [ho] at hj

theorem tzInv_other {s s' : TzState} {off : Int} {i : Nat} (hi : TzInv s) (h : mkTimezone s off = .ok (i, s')) : TzInv s' := by
  obtain ⟨_, _, rfl⟩ := mkTimezone_ok h
  intro o j hj
  have := hi o j hj
  rw [List.getElem?_append_left (by rw [List.getElem?_eq_some_iff] at this; exact this.1)]
  exact this

theorem TzReach.inv {s : TzState} (h : TzReach s) : TzInv s := by
  induction h with
  | start made => intro o i h; cases h
  | call _ h ih => exact tzInv_call ih h
  | other _ h ih => exact tzInv_other ih h

theorem TzLater.lookup {s s' : TzState} (h : TzLater s s') {off : Int} {i : Nat} (hl : s.cache.lookup off = some i) :
    s'.cache.lookup off = some i := by
  induction h with
  | same => exact hl
  | call _ h ih =>
    rcases createTimezone_ok h with ⟨_, rfl⟩ | ⟨_, _, _, rfl⟩
    · exact ih
    · rw [lookup_append, ih]; rfl
  | other _ h ih =>
    obtain ⟨_, _, rfl⟩ := mkTimezone_ok h
    exact ih

theorem createTimezone_cached {s s' : TzState} {off : Int} {i : Nat} (h : createTimezone s off = .ok (i, s')) :
    s'.cache.lookup off = some i := by
  rcases createTimezone_ok h with ⟨h, rfl⟩ | ⟨hn, _, _, rfl⟩
  · exact h
  · rw [lookup_append, hn]; simp

/-- The object that is returned has the offset asked for. -/
theorem C48_offset {s s' : TzState} (hr : TzReach s) {off : Int} {i : Nat} (h : createTimezone s off = .ok (i, s')) :
    s'.made[i]? = some off :=
  tzInv_call hr.inv h off i (createTimezone_cached h)

/-- Asking again for an offset, however much later, gives the same object. -/
theorem C48_same {s s' t t' : TzState} {off : Int} {i j : Nat} (h : createTimezone s off = .ok (i, s')) (hl : TzLater s' t)
    (h2 : createTimezone t off = .ok (j, t')) : j = i := by
  have hc := hl.lookup (createTimezone_cached h)
  rcases createTimezone_ok h2 with ⟨h, _⟩ | ⟨h, _⟩
  · rw [hc] at h; exact (Option.some.inj h).symm
  · rw [hc] at h; cases h

/-- Different offsets give different objects. -/
theorem C48_distinct {s s' t t' : TzState} (hr : TzReach s) {off off' : Int} {i j : Nat} (h : createTimezone s off = .ok (i, s'))
    (hl : TzLater s' t) (h2 : createTimezone t off' = .ok (j, t')) (hne : off ≠ off') : i ≠ j := by
  have hreach : TzReach t := by
    clear h2
    induction hl with
    | same => exact .call hr h
    | call _ hh ih => exact .call ih hh
    | other _ hh ih => exact .other ih hh
  have h1 : t'.made[j]? = some off' := C48_offset hreach h2
  have h3 : t'.made[i]? = some off :=
    tzInv_call hreach.inv h2 off i ((TzLater.call hl h2).lookup (createTimezone_cached h))
  intro hij
  subst hij
  rw [h1] at h3
  exact hne (Option.some.inj h3).symm

/-- In range and refused. -/
theorem C48_range {s : TzState} (hr : TzReach s) (off : Int) :
    ((-(24 * 60 * usMinute) < off ∧ off < 24 * 60 * usMinute) → ∃ r, createTimezone s off = .ok r) ∧
    (¬ (-(24 * 60 * usMinute) < off ∧ off < 24 * 60 * usMinute) → createTimezone s off = .error .valueError) := by
  have hu : 24 * 60 * usMinute = usDay := by decide
  rw [hu]
  have hcache : ∀ o i, s.cache.lookup o = some i → -usDay < o ∧ o < usDay := by
    induction hr with
    | start made => intro o i h; cases h
    | @call s s' off i _ h ih =>
      rcases createTimezone_ok h with ⟨_, rfl⟩ | ⟨_, hr, _, rfl⟩
      · exact ih
      · intro o j hj
        rw [lookup_append] at hj
        cases hl : s.cache.lookup o with
        | some k => exact ih o k hl
        | none =>
          rw [hl] at hj
          by_cases ho : o = off
          · rw [ho]; exact hr
          · simp [ho] at hj
    | other _ h ih =>
      obtain ⟨_, _, rfl⟩ := mkTimezone_ok h
      exact ih
  unfold createTimezone
  constructor
  · intro h
    split
    · exact ⟨_, rfl⟩
    · unfold mkTimezone
      rw [if_pos h]
      exact ⟨_, rfl⟩
  · intro h
    split
    · rename_i i hi
      exact absurd (hcache off i hi) h
    · unfold mkTimezone
      rw [if_neg h]
      rfl

example : TzReach ⟨[(3600000000, 1)], [0, 3600000000]⟩ := .call (off := 3600000000) (i := 1) (.start [0]) rfl

/-- `s` is a printed offset: a sign, two digits of hours, a colon and two digits of minutes. -/
def OffsetText (s : Str) (off : Int) : Prop :=
  ∃ a b h m, Digits 2 a h ∧ Digits 2 b m ∧ m ≤ 59 ∧
    ((s = '+' :: (a ++ [':'] ++ b) ∧ off = (h * 60 + m) * usMinute) ∨
      (s = '-' :: (a ++ [':'] ++ b) ∧ off = -((h * 60 + m) * usMinute)))

theorem formatOffset_eq (off : Int) : formatOffset (some off) =
    (if off / usMinute < 0 then '-' else '+') :: (pad 2 ((off / usMinute).natAbs / 60) ++ [':'] ++ pad 2 ((off / usMinute).natAbs % 60)) := by
  have e : off / usDay * 24 * 60 + off % usDay / 1000000 / 60 = off / usMinute := by
    unfold usDay usMinute; omega
  unfold formatOffset
  simp only [e]

/-- The printed offset is that of the offset rounded down to whole minutes. -/
theorem C48_printed {off : Int} (h : -(24 * 60 * usMinute) < off ∧ off < 24 * 60 * usMinute) :
    OffsetText (formatOffset (some off)) (off / usMinute * usMinute) := by
  rw [formatOffset_eq]
  have hr : -1440 ≤ off / usMinute ∧ off / usMinute < 1440 := by unfold usMinute at *; omega
  generalize off / usMinute = n at *
  refine ⟨_, _, n.natAbs / 60, n.natAbs % 60, pad_digits (by omega) (by omega), pad_digits (by omega) (by omega), by omega, ?_⟩
  by_cases hn : n < 0
  · right; rw [if_pos hn]; exact ⟨rfl, by unfold usMinute; omega⟩
  · left; rw [if_neg hn]; exact ⟨rfl, by unfold usMinute; omega⟩

/-- An offset of whole minutes reads back from its printed form. -/
theorem C48_read_back {off : Int} (h : -(24 * 60 * usMinute) < off ∧ off < 24 * 60 * usMinute) (hw : usMinute ∣ off) :
    OffsetText (formatOffset (some off)) off ∧ ∀ off', OffsetText (formatOffset (some off)) off' → off' = off := by
  have h1 := C48_printed h
  rw [Int.ediv_mul_cancel hw] at h1
  refine ⟨h1, ?_⟩
  obtain ⟨a, b, hh, m, h1, h2, h3, h4⟩ := h1
  rintro off' ⟨a', b', hh', m', g1, g2, g3, g4⟩
  have key : ∀ x y z w : Str, x.length = 2 → z.length = 2 → x ++ [':'] ++ y = z ++ [':'] ++ w → x = z ∧ y = w := by
    intro x y z w hx hz h
    obtain ⟨x1, x2, rfl⟩ := len2 hx
    obtain ⟨z1, z2, rfl⟩ := len2 hz
    simp at h
    simp [h]
  rcases h4 with ⟨e1, e2⟩ | ⟨e1, e2⟩ <;> rcases g4 with ⟨f1, f2⟩ | ⟨f1, f2⟩
  · rw [e1] at f1
    injection f1 with _ f1
    obtain ⟨rfl, rfl⟩ := key _ _ _ _ h1.1 g1.1 f1
    rw [e2, f2, ← h1.2.2, ← h2.2.2, ← g1.2.2, ← g2.2.2]
  · rw [e1] at f1; injection f1 with f0 _; exact absurd f0 (by decide)
  · rw [e1] at f1; injection f1 with f0 _; exact absurd f0 (by decide)
  · rw [e1] at f1
    injection f1 with _ f1
    obtain ⟨rfl, rfl⟩ := key _ _ _ _ h1.1 g1.1 f1
    rw [e2, f2, ← h1.2.2, ← h2.2.2, ← g1.2.2, ← g2.2.2]

example : formatOffset (some (-5400000000)) = "-01:30".toList ∧ usMinute ∣ -5400000000 := by decide +kernel

/-- Seconds of an offset are not printed, so that other offsets do not read back: 90 seconds west of UTC prints as two minutes. -/
theorem C48_seconds_dropped : formatOffset (some (-90000000)) = "-00:02".toList ∧ formatOffset (some (-120000000)) = "-00:02".toList := by
  decide +kernel

/-- A naive time has no printed offset. -/
theorem C48_naive : formatOffset none = [] := rfl

end Asn1.Time
