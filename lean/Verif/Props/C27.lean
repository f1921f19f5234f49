import Verif.Lemmas.TimeText

/-!
# C27: UTCTime
-/

namespace Asn1.Time
open Asn1 Asn1.Spec

/-- The year that two digits denote. -/
def century (yy : Nat) : Nat := if yy < 50 then 2000 + yy else 1900 + yy

theorem parsedTime_ok {m : Str → Option Groups} {s : Str} {p : DateTime} {us : Nat} :
    parsedTime m s = .ok (p, us) ↔ ∃ g, atEnd m s = some g ∧
      p = ⟨num g.year, num g.month, num g.day, num g.hour, (g.minute.map num).getD 0, (g.second.map num).getD 0, 0,
        zoneOff g.zulu g.sign g.dhour g.dminute⟩ ∧ us = fractionUs g ∧ OffOk p.tz := by
  unfold parsedTime
  cases hg : atEnd m s with
  | none => simp
  | some g =>
    simp only [getD_zero, bind, Except.bind]
    cases htz : groupsTz g with
    | error e =>
      constructor
      · intro h; cases h
      · rintro ⟨g', hg', rfl, rfl, ho⟩
        injection hg' with hg'
        subst hg'
        rw [groupsTz_ok.mpr ⟨rfl, ho⟩] at htz
        cases htz
    | ok tz =>
      obtain ⟨rfl, h2⟩ := groupsTz_ok.mp htz
      constructor
      · intro h
        injection h with h
        injection h with h3 h4
        subst h3; subst h4
        exact ⟨g, rfl, rfl, rfl, h2⟩
      · rintro ⟨g', hg', rfl, rfl, ho⟩
        injection hg' with hg'
        subst hg'
        rfl

theorem mkDateTime_ok {t r : DateTime} : mkDateTime t = .ok r ↔ r = t ∧ t.Valid := by
  unfold mkDateTime
  split
  · rename_i h
    exact ⟨fun e => ⟨(Except.ok.inj e).symm, h⟩, fun e => by rw [e.1]⟩
  · rename_i h
    exact ⟨fun e => (by cases e), fun e => absurd e.2 h⟩

theorem utcDatetime_ok {p : DateTime} {v : T} : utcDatetime p = .ok v ↔ v = .dt { p with year := century p.year } ∧ T.Valid v := by
  have hc : (if p.year < 50 then p.year + 2000 else p.year + 1900) = century p.year := by
    unfold century; split <;> omega
  unfold utcDatetime
  rw [hc]
  generalize { p with year := century p.year } = q
  cases h : mkDateTime q with
  | error e =>
    refine ⟨fun e => (by cases e), ?_⟩
    rintro ⟨rfl, hv⟩
    rw [mkDateTime_ok.mpr ⟨rfl, (DateTime.valid_iff q).mpr hv⟩] at h
    cases h
  | ok r =>
    obtain ⟨rfl, hv⟩ := mkDateTime_ok.mp h
    refine ⟨fun e => ?_, fun e => by rw [e.1]; rfl⟩
    have : T.dt r = v := Except.ok.inj e
    rw [← this]
    exact ⟨rfl, (DateTime.valid_iff r).mp hv⟩

/-- Exactly these texts are read: `YYMMDDhhmm[ss]` with `Z` or an offset of less than 24 hours (and possibly one line feed
at the end) whose fields are a date and a time of day. The result has these fields, in a year between 1950 and 2049. -/
theorem C27_decode (s : Str) (v : T) :
    utcNative s = .ok v ↔
      ∃ yy mo d h mi se off, UtcText s yy mo d h mi se off ∧ -(24 * 60 * usMinute) < off ∧ off < 24 * 60 * usMinute ∧
        v = .dt ⟨century yy, mo, d, h, mi, se.getD 0, 0, some off⟩ ∧ T.Valid v := by
  have hu : 24 * 60 * usMinute = usDay := by decide
  rw [hu]
  constructor
  · intro h
    unfold utcNative timeNative at h
    cases hp : parsedTime utcMatch s with
    | error e => rw [hp] at h; cases h
    | ok pu =>
      obtain ⟨p, us⟩ := pu
      rw [hp] at h
      obtain ⟨g, hg, rfl, rfl, hoff⟩ := parsedTime_ok.mp hp
      obtain ⟨s', nl, hs, hnl, hm⟩ := (atEnd_iff utc_no_lf).mp hg
      obtain ⟨z, _, _, _, _, _, ⟨mm, hmm, _⟩, _, hfr, htz⟩ := utcMatch_iff.mp hm
      have hus : fractionUs g = 0 := by unfold fractionUs; rw [hfr]
      have ⟨off, ho⟩ : ∃ off, zoneOff g.zulu g.sign g.dhour g.dminute = some off := by
        generalize g.zulu = a, g.sign = b, g.dhour = c, g.dminute = d at htz ⊢
        cases htz with
        | none h => cases h
        | zulu => exact ⟨_, rfl⟩
        | long => exact ⟨_, rfl⟩
        | short => exact ⟨_, rfl⟩
      have htext := utcText_iff.mpr ⟨g, hg, rfl, rfl, rfl, rfl, rfl, rfl, hus, ho⟩
      rw [getD_zero] at htext
      rw [ho] at h hoff
      simp only [bind, Except.bind, hus] at h
      split at h
      · cases h
      · rename_i v' hv'
        have hv : v' = v := by simpa using h
        subst hv
        obtain ⟨e1, e2⟩ := utcDatetime_ok.mp hv'
        exact ⟨_, _, _, _, _, _, off, htext, hoff.1, hoff.2, e1, e2⟩
  · rintro ⟨yy, mo, d, h, mi, se, off, ht, h1, h2, rfl, hv⟩
    obtain ⟨g, hg, rfl, rfl, rfl, rfl, hmi, hse, hus, ho⟩ := utcText_iff.mp ht
    unfold utcNative timeNative
    rw [parsedTime_ok.mpr ⟨g, hg, rfl, rfl, by rw [ho]; exact ⟨h1, h2⟩⟩]
    rw [getD_zero] at hmi
    simp only [bind, Except.bind, hmi, hse, ho, hus]
    rw [utcDatetime_ok.mpr ⟨rfl, hv⟩]
    rfl

example : UtcText "6812312359-0130".toList 68 12 31 23 59 none (-(90 * usMinute)) :=
  ⟨"68".toList, "12".toList, "31".toList, "23".toList, "59".toList, [], "-0130".toList, [], rfl, by unfold Digits; decide,
    by unfold Digits; decide, by unfold Digits; decide, by unfold Digits; decide, by unfold Digits; decide, rfl,
    .minus (a := "01".toList) (b := "30".toList) (h := 1) (m := 30) (by unfold Digits; decide) (by unfold Digits; decide), Or.inl rfl⟩

example : utcNative "6812312359-0130".toList = .ok (.dt ⟨1968, 12, 31, 23, 59, 0, 0, some (-5400000000)⟩) := by decide +kernel

/-- Whatever text is read, the result is in 1950-2049 by its own clock, and denotes the written local time minus the
written offset. -/
theorem C27_instant {s : Str} {v : T} (h : utcNative s = .ok v) :
    1950 ≤ T.year v ∧ T.year v ≤ 2049 ∧ ∃ yy mo d hh mi se off, UtcText s yy mo d hh mi se off ∧ v.tz = some off ∧
      T.instant v = clock (century yy) mo d hh mi (se.getD 0) 0 - off := by
  obtain ⟨yy, mo, d, hh, mi, se, off, ht, _, _, rfl, hv⟩ := (C27_decode s v).mp h
  have hyy : yy ≤ 99 := by
    obtain ⟨a, b, c, e, f, g, z, nl, _, ha, _⟩ := ht
    obtain ⟨x, y, rfl, hx, hy, rfl⟩ := digits2 ha
    rw [isDig_iff, Char.le_def, Char.le_def] at hx hy
    have h1 : x.toNat ≤ 57 := by have := hx.2; rw [UInt32.le_iff_toNat_le] at this; exact this
    have h2 : y.toNat ≤ 57 := by have := hy.2; rw [UInt32.le_iff_toNat_le] at this; exact this
    simp only [num, List.foldl]
    omega
  refine ⟨?_, ?_, yy, mo, d, hh, mi, se, off, ht, rfl, rfl⟩
  · simp only [T.year, century]; split <;> omega
  · simp only [T.year, century]; split <;> omega

theorem strftime_utc (glibc : Bool) (v : DateTime) : strftime glibc v "%y%m%d%H%M%SZ".toList =
    pad 2 (v.year % 100) ++ pad 2 v.month ++ pad 2 v.day ++ pad 2 v.hour ++ pad 2 v.minute ++ pad 2 v.second ++ ['Z'] := by
  show strftime glibc v ['%', 'y', '%', 'm', '%', 'd', '%', 'H', '%', 'M', '%', 'S', 'Z'] = _
  simp only [strftime, List.append_assoc]
  simp [strftime]

theorem monthLength_le (y m : Nat) : monthLength y m ≤ 31 := by
  unfold monthLength; repeat' split
  all_goals omega

/-- An aware datetime whose instant lies in the years 1950-2049 of UTC is written, and reads back as the same instant, to
the second. -/
theorem C27_round_trip (glibc : Bool) {t : DateTime} {off : Int} (hv : T.Valid (.dt t)) (htz : t.tz = some off)
    (h1 : clock 1950 1 1 0 0 0 0 ≤ T.instant (.dt t)) (h2 : T.instant (.dt t) < clock 2050 1 1 0 0 0 0) :
    ∃ s v, utcSet glibc t = .ok s ∧ utcNative s = .ok v ∧ v.tz = some 0 ∧
      T.instant v = T.instant (.dt t) / 1000000 * 1000000 := by
  have hval := (DateTime.valid_iff t).mpr hv
  have hinst : T.instant (.dt t) = t.naive - off + us365 := by
    unfold T.instant; rw [local_dt hval]; simp only [T.tz, htz, Option.getD_some]; omega
  have c1 : clock 1950 1 1 0 0 0 0 = 1949 * 365 * usDay + 473 * usDay + us365 := by decide +kernel
  have c2 : clock 2050 1 1 0 0 0 0 = 2050 * 365 * usDay + 498 * usDay := by decide +kernel
  cases ha : t.astimezone off 0 with
  | error e =>
    obtain ⟨_, hr⟩ := astimezone_utc.2 e ha
    rw [hinst] at h1 h2
    unfold usDay us365 at *
    omega
  | ok r =>
    obtain ⟨hr1, hr2, hr3⟩ := astimezone_utc.1 r ha
    have hrv := (DateTime.valid_iff r).mp hr1
    have hloc : T.local (.dt r) = T.instant (.dt t) := by rw [local_dt hr1, hr2, hinst]
    have y1 : 1950 ≤ r.year := (local_year hrv 1950).mp (by rw [hloc]; exact h1)
    have y2 : r.year ≤ 2049 := by
      by_contra hc
      have := (local_year hrv 2050).mpr (show 2050 ≤ r.year by omega)
      rw [hloc] at this; omega
    refine ⟨_, .dt { r with micro := 0 }, by unfold utcSet; rw [htz]; simp only [ha, bind, Except.bind]; rw [if_neg (by simp [y1, y2])],
      ?_, hr3, ?_⟩
    · rw [C27_decode, strftime_utc]
      obtain ⟨_, ⟨m1, m2, m3, m4⟩, m5, m6, m7, m8⟩ := hrv
      simp only [T.fields, T.year] at *
      have ml := monthLength_le r.year r.month
      have hcent : century (r.year % 100) = r.year := by unfold century; split <;> omega
      refine ⟨r.year % 100, r.month, r.day, r.hour, r.minute, some r.second, 0, ?_, by decide, by decide, ?_, ?_⟩
      · exact ⟨_, _, _, _, _, _, _, [], by rw [List.append_nil], pad_digits (by omega) (by omega), pad_digits (by omega) (by omega),
          pad_digits (by omega) (by omega), pad_digits (by omega) (by omega), pad_digits (by omega) (by omega),
          pad_digits (by omega) (by omega), .zulu, Or.inl rfl⟩
      · rw [hcent, ← hr3]; rfl
      · exact ⟨⟨by simp; omega, by simp; omega⟩, ⟨m1, m2, m3, m4⟩, m5, m6, m7, by simp [T.fields]⟩
    · rw [← hloc]
      have e1 : T.instant (.dt { r with micro := 0 }) = T.local (.dt { r with micro := 0 }) := by
        unfold T.instant; simp [T.tz, hr3]
      rw [e1]
      have hm : r.micro ≤ 999999 := hrv.2.2.2.2.2
      unfold T.local DateTime.clock clock
      simp only [T.year, T.fields]
      omega

example : let t : DateTime := ⟨2049, 12, 31, 23, 30, 59, 999999, some 1800000000⟩
    T.Valid (.dt t) ∧ clock 1950 1 1 0 0 0 0 ≤ T.instant (.dt t) ∧ T.instant (.dt t) < clock 2050 1 1 0 0 0 0 := by
  unfold T.Valid IsDate; decide +kernel

/-- All other aware datetimes are refused: with `ValueError`, or with `OverflowError` if the instant is before year 1 or
after year 9999 of UTC. -/
theorem C27_refused (glibc : Bool) {t : DateTime} {off : Int} (hv : T.Valid (.dt t)) (htz : t.tz = some off)
    (h : T.instant (.dt t) < clock 1950 1 1 0 0 0 0 ∨ clock 2050 1 1 0 0 0 0 ≤ T.instant (.dt t)) :
    utcSet glibc t = .error .valueError ∨ (utcSet glibc t = .error .overflowError ∧
      (T.instant (.dt t) < clock 1 1 1 0 0 0 0 ∨ clock 10000 1 1 0 0 0 0 ≤ T.instant (.dt t))) := by
  have hval := (DateTime.valid_iff t).mpr hv
  have hinst : T.instant (.dt t) = t.naive - off + us365 := by
    unfold T.instant; rw [local_dt hval]; simp only [T.tz, htz, Option.getD_some]; omega
  unfold utcSet
  rw [htz]
  simp only
  cases ha : t.astimezone off 0 with
  | error e =>
    obtain ⟨rfl, hr⟩ := astimezone_utc.2 e ha
    right
    refine ⟨rfl, ?_⟩
    rw [clock_first, clock_last, hinst]
    omega
  | ok r =>
    obtain ⟨hr1, hr2, hr3⟩ := astimezone_utc.1 r ha
    have hrv := (DateTime.valid_iff r).mp hr1
    have hloc : T.local (.dt r) = T.instant (.dt t) := by rw [local_dt hr1, hr2, hinst]
    left
    show (if ¬ (1950 ≤ r.year ∧ r.year ≤ 2049) then _ else _) = _
    rw [if_pos]
    rintro ⟨y1, y2⟩
    have a1 := (local_year hrv 1950).mpr y1
    have a2 := local_year hrv 2050
    simp only [T.year] at a2
    rw [hloc] at a1 a2
    rcases h with h | h
    · omega
    · have := a2.mp h; omega

example : utcSet true ⟨2049, 12, 31, 23, 30, 0, 0, some (-1800000000)⟩ = .error .valueError := by decide +kernel

/-- A naive datetime is refused. -/
theorem C27_naive (glibc : Bool) {t : DateTime} (h : t.tz = none) : utcSet glibc t = .error .valueError := by
  unfold utcSet; rw [h]

end Asn1.Time
