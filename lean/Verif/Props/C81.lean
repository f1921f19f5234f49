import Verif.Model.Timezone
import Verif.Lemmas.TimeText

/-!
# C81 — Time zones of Python 2 and conversions to UTC

Offsets are in microseconds.
-/

namespace Asn1.Props
open Asn1 Asn1.Time Asn1.Spec

/-- Whole minutes, strictly between -24 and 24 hours. -/
def WholeMinutes (off : Int) : Prop := ∃ m : Int, off = m * usMinute ∧ -1440 < m ∧ m < 1440

theorem wholeMinutes_iff (off : Int) : WholeMinutes off ↔
    (-usDay < off ∧ off < usDay) ∧ ¬ (off % usDay / 1000000 % 60 ≠ 0 ∨ off % 1000000 ≠ 0) := by
  unfold WholeMinutes usMinute usDay
  constructor
  · rintro ⟨m, rfl, h1, h2⟩; omega
  · rintro ⟨h1, h2⟩
    exact ⟨off / 60000000, by omega, by omega, by omega⟩

/-- Exactly the whole minutes within a day are accepted, whatever the name; the others are refused with `ValueError`. -/
theorem C81_accepted (off : Int) (name : Option Str) :
    (WholeMinutes off → ∃ n, Tzone.make2 off name = .ok ⟨off, n⟩ ∧ ∀ n', name = some n' → n = n') ∧
    (¬ WholeMinutes off → Tzone.make2 off name = .error .valueError) := by
  constructor
  · intro h
    obtain ⟨h1, h2⟩ := (wholeMinutes_iff off).1 h
    unfold Tzone.make2
    rw [if_neg (not_not.2 h1), if_neg h2]
    cases name with
    | some n => exact ⟨n, rfl, fun n' h => by injection h⟩
    | none =>
      by_cases h0 : off = 0
      · exact ⟨"UTC".toList, by simp only [if_pos h0], fun n' h => by cases h⟩
      · simp only [if_neg h0]
        exact ⟨_, rfl, fun n' h => by cases h⟩
  · intro h
    unfold Tzone.make2
    split
    · rfl
    · split
      · rfl
      · rename_i h1 h2
        exact absurd ((wholeMinutes_iff off).2 ⟨not_not.1 h1, h2⟩) h

example : WholeMinutes (-90 * usMinute) := ⟨-90, rfl, by decide, by decide⟩
example : ¬ WholeMinutes 1000000 := by rw [wholeMinutes_iff]; decide

theorem formatOffset_name3 (m : Int) (h : m * usMinute ≠ 0) (h1 : -1440 < m) (h2 : m < 1440) :
    Tzone.name3 (m * usMinute) = "UTC".toList ++ formatOffset (some (m * usMinute)) ∧
    formatOffset (some (m * usMinute)) = (if m < 0 then '-' else '+') :: (pad 2 (m.natAbs / 60) ++ [':'] ++ pad 2 (m.natAbs % 60)) := by
  unfold Tzone.name3 formatOffset
  rw [if_neg h]
  have e1 : (m * usMinute).natAbs / 3600000000 = m.natAbs / 60 := by unfold usMinute; omega
  have e2 : (m * usMinute).natAbs % 3600000000 / 60000000 = m.natAbs % 60 := by unfold usMinute; omega
  have e3 : (m * usMinute).natAbs % 60000000 = 0 := by unfold usMinute; omega
  have e4 : m * usMinute / usDay * 24 * 60 + m * usMinute % usDay / 1000000 / 60 = m := by unfold usMinute usDay; omega
  have e5 : (m * usMinute < 0) = (m < 0) := by unfold usMinute; apply propext; omega
  simp only [e1, e2, e3, e4, e5]
  simp

/-- For whole minutes the time zones of the two versions of Python have the same name. -/
theorem C81_same_name (off : Int) (h : WholeMinutes off) : ∃ n, Tzone.make3 off = .ok n ∧ Tzone.make2 off none = .ok ⟨off, n⟩ := by
  obtain ⟨hr, h2⟩ := (wholeMinutes_iff off).1 h
  obtain ⟨m, rfl, hm1, hm2⟩ := h
  refine ⟨_, if_pos hr, ?_⟩
  unfold Tzone.make2
  rw [if_neg (not_not.2 hr), if_neg h2]
  by_cases h0 : m * usMinute = 0
  · simp [h0, Tzone.name3]
  · simp only [if_neg h0, (formatOffset_name3 m h0 hm1 hm2).1]

/-- The name says the sign, the hours and the minutes in two digits each; without offset it is `UTC`. -/
theorem C81_name (m : Int) (h1 : -1440 < m) (h2 : m < 1440) : ∃ z, Tzone.make2 (m * usMinute) none = .ok z ∧
    (m = 0 → z.name = "UTC".toList) ∧
    (m ≠ 0 → ∃ hh mm, ∃ h mi : Nat, z.name = "UTC".toList ++ (if m < 0 then '-' else '+') :: (hh ++ ':' :: mm) ∧ Digits 2 hh h ∧ Digits 2 mm mi ∧
      mi < 60 ∧ (m.natAbs = h * 60 + mi)) := by
  have hw : WholeMinutes (m * usMinute) := ⟨m, rfl, h1, h2⟩
  obtain ⟨hr, h3⟩ := (wholeMinutes_iff _).1 hw
  unfold Tzone.make2
  rw [if_neg (not_not.2 hr), if_neg h3]
  by_cases h0 : m = 0
  · subst h0
    exact ⟨_, rfl, fun _ => rfl, fun h => absurd rfl h⟩
  · have h0' : m * usMinute ≠ 0 := by unfold usMinute; omega
    simp only [if_neg h0']
    refine ⟨_, rfl, fun h => absurd h h0, fun _ => ⟨pad 2 (m.natAbs / 60), pad 2 (m.natAbs % 60), _, _, ?_, pad_digits (by omega) (by omega),
      pad_digits (by omega) (by omega), by omega, by omega⟩⟩
    rw [(formatOffset_name3 m h0' h1 h2).2]
    simp

example : Tzone.make2 (-90 * usMinute) none = .ok ⟨-90 * usMinute, "UTC-01:30".toList⟩ := by decide +kernel

/-- Two time zones are equal exactly if they have the same offset, whatever their names; other objects are never equal to one. -/
theorem C81_equal (a b : Tzone.Tz2) : (Tzone.eq2 a (some b) = true ↔ a.offset = b.offset) ∧ Tzone.eq2 a none = false := by
  simp [Tzone.eq2]

/-- Copying and pickling give a time zone with the same offset and the same name. -/
theorem C81_copy (off : Int) (name : Option Str) (z : Tzone.Tz2) (h : Tzone.make2 off name = .ok z) : Tzone.copy2 z = .ok z := by
  by_cases hw : WholeMinutes off
  · obtain ⟨n, hn, _⟩ := (C81_accepted off name).1 hw
    rw [hn] at h
    injection h with h
    subst h
    obtain ⟨n', h1, h2⟩ := (C81_accepted off (some n)).1 hw
    rw [h2 n rfl] at h1
    exact h1
  · rw [(C81_accepted off name).2 hw] at h
    cases h

example : ∃ z, Tzone.make2 (60 * usMinute) (some "CET".toList) = .ok z ∧ z.name = "CET".toList :=
  ⟨⟨60 * usMinute, "CET".toList⟩, by decide +kernel, rfl⟩

/-- The offsets of the texts of times are accepted by both versions of Python. -/
theorem C81_parsed (g : Groups) (off : Int) (h : groupsTz g = .ok (some off)) : WholeMinutes off := by
  obtain ⟨h1, h2⟩ := groupsTz_ok.1 h
  have h2 : -usDay < off ∧ off < usDay := h2
  unfold zoneOff at h1
  unfold WholeMinutes usMinute
  unfold usDay at h2
  split at h1
  · injection h1 with h1
    exact ⟨0, by omega, by omega, by omega⟩
  · cases hs : g.sign with
    | none => rw [hs] at h1; cases h1
    | some c =>
      rw [hs] at h1
      injection h1 with h1
      simp only at h1
      split at h1
      · exact ⟨num g.dhour * 60 + num (g.dminute.getD ['0']), by omega, by omega, by omega⟩
      · exact ⟨-(num g.dhour * 60 + num (g.dminute.getD ['0'])), by omega, by omega, by omega⟩

theorem ofNaive_tz (us : Int) (x y : Option Int) : ofNaive us y = (ofNaive us x).map fun r => { r with tz := y } := by
  unfold ofNaive
  simp only
  split <;> rfl

attribute [local irreducible] ofNaive DateTime.naive

theorem add_nothing {t : DateTime} (h : t.Valid) : t.add 0 = .ok t := by
  unfold DateTime.add
  rw [Int.add_zero, ofNaive_naive h]

theorem ofNaive_add_valid {t r : DateTime} {d : Int} (h : t.add d = .ok r) : r.Valid := by
  unfold DateTime.add at h
  exact (ofNaive_ok h).1

theorem ok_then {α β : Type} (r : α) (f : α → Py β) : ((Except.ok r : Py α) >>= f) = f r := rfl

theorem error_then {α β : Type} (e : PyErr) (f : α → Py β) : ((Except.error e : Py α) >>= f) = .error e := rfl

theorem fromutc_add (off : Int) (t : DateTime) : Tzone.fromutc ⟨off, some 0⟩ t = t.add off := by
  have h0 := @add_nothing
  have h1 := @ofNaive_add_valid
  unfold Tzone.fromutc
  simp only [Int.sub_zero]
  generalize DateTime.add = add at h0 h1 ⊢
  by_cases h : off = 0
  · rw [if_neg (fun k => k h), h, ok_then]
  · rw [if_pos h]
    cases hr : add t off with
    | error e => rw [error_then]
    | ok r => rw [ok_then, h0 (h1 hr)]

theorem fromutc_zero (off : Int) (t : DateTime) (hz : t.tz = some off) :
    Tzone.fromutc ⟨off, some 0⟩ t = ofNaive (t.naive + off) (some off) := by
  rw [fromutc_add off t]
  unfold DateTime.add
  rw [hz]

/-- Conversions to a zone without daylight saving, by way of the standard library's `fromutc`, are those that the times of the package use
(`Model/Time.lean`): for `timezone` of Python 2 and for `utc_with_dst`. -/
theorem C81_convert (t : DateTime) (off : Int) :
    (∀ z : Tzone.Tz2, Tzone.astimezone false t off (Tzone.info2 z) = t.astimezone off z.offset) ∧
    Tzone.astimezone false t off Tzone.utcWithDst = t.astimezone off 0 := by
  have key : ∀ o : Int, Tzone.astimezone false t off ⟨o, some 0⟩ = t.astimezone off o := by
    intro o
    have hz := fromutc_zero o
    have ha : t.add (-off) = ofNaive (t.naive - off) t.tz := by unfold DateTime.add; rw [← Int.sub_eq_add_neg]
    unfold Tzone.astimezone DateTime.astimezone
    rw [if_neg Bool.false_ne_true, ha]
    generalize t.naive - off = us
    have hx := ofNaive_tz us t.tz (some o)
    generalize ofNaive us t.tz = x at hx ⊢
    rw [hx]
    generalize ofNaive = f at hz ⊢
    cases x with
    | error x =>
      have hm : ((Except.error x : Py DateTime).map fun r => { r with tz := some o }) = .error x := rfl
      rw [hm, error_then, error_then]
    | ok r =>
      have hm : ((Except.ok r : Py DateTime).map fun r => { r with tz := some o }) = .ok { r with tz := some o } := rfl
      rw [hm, ok_then, ok_then]
      dsimp only
      rw [hz _ rfl]
  exact ⟨fun z => key z.offset, key 0⟩

/-- The time that a conversion gives is the same moment, in the zone asked for. -/
theorem C81_moment (t r : DateTime) (off : Int) (z : Tzone.Tz2) (h : Tzone.astimezone false t off (Tzone.info2 z) = .ok r) :
    r.Valid ∧ r.tz = some z.offset ∧ r.naive - z.offset = t.naive - off := by
  rw [(C81_convert t off).1 z] at h
  unfold DateTime.astimezone at h
  cases hu : ofNaive (t.naive - off) (some z.offset) with
  | error e => rw [hu] at h; cases h
  | ok u =>
    rw [hu] at h
    obtain ⟨_, hn, _⟩ := ofNaive_ok hu
    obtain ⟨hv, hn', htz⟩ := ofNaive_ok (show ofNaive (u.naive + z.offset) (some z.offset) = .ok r from h)
    exact ⟨hv, htz, by omega⟩

/-- Converting to another zone and back gives the time back; so does a conversion to the zone that the time has. -/
theorem C81_back (t r : DateTime) (ht : t.Valid) (z y : Tzone.Tz2) (hz : t.tz = some y.offset) (same : Bool)
    (h : Tzone.astimezone false t y.offset (Tzone.info2 z) = .ok r) :
    Tzone.astimezone false r z.offset (Tzone.info2 y) = .ok t ∧ Tzone.astimezone same t y.offset (Tzone.info2 y) = .ok t := by
  have hm := C81_moment t r _ z h
  rw [(C81_convert t _).1 z] at h
  have hu : ∃ u, ofNaive (t.naive - y.offset) (some y.offset) = .ok u := by
    cases hu : ofNaive (t.naive - y.offset) (some z.offset) with
    | error e => unfold DateTime.astimezone at h; rw [hu] at h; cases h
    | ok u =>
      have := naive_range (ofNaive_ok hu).1
      rw [(ofNaive_ok hu).2.1] at this
      exact ofNaive_total this.1 this.2 _
  obtain ⟨u, hu⟩ := hu
  have hself := ofNaive_naive ht
  have hun := (ofNaive_ok hu).2.1
  have back : ∀ s : DateTime, ∀ o : Int, s.naive - o = t.naive - y.offset → s.astimezone o y.offset = .ok t := by
    intro s o hs
    unfold DateTime.astimezone
    rw [hs, hu]
    have e : u.naive + y.offset = t.naive := by omega
    simp only [bind, Except.bind, e]
    rw [hz] at hself
    exact hself
  refine ⟨?_, ?_⟩
  · rw [(C81_convert r _).1 y]
    exact back r _ hm.2.2
  · cases same with
    | true => rfl
    | false =>
      rw [(C81_convert t _).1 y]
      exact back t _ rfl

example : ∃ r, Tzone.astimezone false ⟨2024, 2, 29, 23, 30, 0, 0, some (60 * usMinute)⟩ (60 * usMinute) (Tzone.info2 ⟨120 * usMinute, []⟩) = .ok r ∧
    r = ⟨2024, 3, 1, 0, 30, 0, 0, some (120 * usMinute)⟩ := ⟨⟨2024, 3, 1, 0, 30, 0, 0, some (120 * usMinute)⟩, by decide +kernel, rfl⟩

/-- A zone that does not know its daylight saving cannot be converted to: `ValueError`, unless the time is out of range. This is why `utc_with_dst` has `dst`. -/
theorem C81_no_dst (t : DateTime) (off o : Int) :
    Tzone.astimezone false t off ⟨o, none⟩ = .error .valueError ∨ Tzone.astimezone false t off ⟨o, none⟩ = .error .overflowError := by
  unfold Tzone.astimezone
  simp only [Bool.false_eq_true, if_false]
  cases hr : t.add (-off) with
  | error e => right; rw [(ofNaive_error hr).1]; rfl
  | ok r => left; rfl

end Asn1.Props
