import Verif.Props.C27

/-!
# C28: GeneralizedTime
-/

namespace Asn1.Time
open Asn1 Asn1.Spec

/-- An offset of less than 24 hours, or no zone. -/
def ZoneOk : Option Int → Prop
  | none => True
  | some off => -(24 * 60 * usMinute) < off ∧ off < 24 * 60 * usMinute

theorem zoneOk_iff (tz : Option Int) : ZoneOk tz ↔ OffOk tz := by
  have hu : 24 * 60 * usMinute = usDay := by decide
  cases tz with
  | none => exact Iff.rfl
  | some off => unfold ZoneOk OffOk; rw [hu]

theorem valid_gen {y mo d h mi se : Nat} {tz : Option Int} (hy : y ≤ 9999) :
    (IsDate y mo d ∧ h ≤ 23 ∧ mi ≤ 59 ∧ se ≤ 59) ↔
      T.Valid (if y = 0 then .ext ⟨2000, mo, d, h, mi, se, 0, tz⟩ else .dt ⟨y, mo, d, h, mi, se, 0, tz⟩) := by
  by_cases h0 : y = 0
  · subst h0
    rw [if_pos rfl]
    unfold T.Valid
    simp [T.year, T.fields]
  · rw [if_neg h0]
    unfold T.Valid
    simp [T.year, T.fields]
    omega

theorem genDatetime_ok {p : DateTime} {v : T} :
    genDatetime p = .ok v ↔ v = (if p.year = 0 then .ext { p with year := 2000 } else .dt p) ∧ T.Valid v := by
  unfold genDatetime
  split
  · unfold mkExt
    rw [if_neg (by simp)]
    generalize hq : { p with year := 2000 } = q
    have hqy : q.year = 2000 := by rw [← hq]
    cases h : mkDateTime q with
    | error e =>
      refine ⟨fun e => (by cases e), ?_⟩
      rintro ⟨rfl, hv⟩
      rw [mkDateTime_ok.mpr ⟨rfl, (ext_valid hv).1⟩] at h
      cases h
    | ok r =>
      obtain ⟨rfl, hv⟩ := mkDateTime_ok.mp h
      refine ⟨fun e => ?_, fun e => by rw [e.1]; rfl⟩
      have : T.ext r = v := Except.ok.inj e
      rw [← this]
      exact ⟨rfl, valid_ext hv hqy⟩
  · cases h : mkDateTime p with
    | error e =>
      refine ⟨fun e => (by cases e), ?_⟩
      rintro ⟨rfl, hv⟩
      rw [mkDateTime_ok.mpr ⟨rfl, (DateTime.valid_iff p).mpr hv⟩] at h
      cases h
    | ok r =>
      obtain ⟨rfl, hv⟩ := mkDateTime_ok.mp h
      refine ⟨fun e => ?_, fun e => by rw [e.1]; rfl⟩
      have : T.dt r = v := Except.ok.inj e
      rw [← this]
      exact ⟨rfl, (DateTime.valid_iff r).mp hv⟩

/-- Adding the fraction. -/
theorem add_fraction {v w : T} (hv : T.Valid v) {us : Nat} (hus : us ≤ 3600000000) :
    (if us ≠ 0 then v.add us else .ok v) = .ok w ↔ T.Valid w ∧ w.tz = v.tz ∧ T.local w = T.local v + us := by
  by_cases h0 : us = 0
  · subst h0
    simp only [ne_eq, not_true, if_false]
    constructor
    · intro h
      have := Except.ok.inj h
      subst this
      exact ⟨hv, rfl, by simp⟩
    · rintro ⟨h1, h2, h3⟩
      rw [local_inj h1 hv (by simpa using h3) h2]
  · rw [if_pos h0]
    constructor
    · intro h
      obtain ⟨h1, h2, h3⟩ := T.add_ok hv h
      exact ⟨h1, h3, h2⟩
    · rintro ⟨h1, h2, h3⟩
      obtain ⟨r, hr⟩ := (T.add_total hv (d := us)).mpr (by
        rw [← h3]
        have hw := local_year h1 10000
        have hwy : T.year w ≤ 9999 := by
          cases w with
          | dt w => exact h1.1.2
          | ext w => simp [T.year]
        rw [clock_last] at hw
        cases v with
        | dt v =>
          have := (local_year hv 1).mpr hv.1.1
          rw [clock_first] at this
          simp only [addLow, addHigh]
          refine ⟨by omega, ?_⟩
          by_contra hc
          have := hw.mp (by omega)
          omega
        | ext v =>
          have := local_ext_lt hv
          simp only [addLow, addHigh]
          unfold usDay us365 us2000 at *
          omega)
      obtain ⟨e1, e2, e3⟩ := T.add_ok hv hr
      rw [hr, local_inj e1 h1 (by omega) (by rw [e3, h2])]

theorem usOf_le {n k unit : Nat} (h : n < 10 ^ k) : usOf n k unit ≤ unit := by
  have hp : 0 < 10 ^ k := Nat.pow_pos (by omega)
  have h1 := (nearest_spec (n := n * unit) hp).1
  unfold usOf
  by_contra hc
  have a : (unit + 1) * 10 ^ k ≤ nearest (n * unit) (10 ^ k) * 10 ^ k := Nat.mul_le_mul_right _ (by omega)
  have b : n * unit ≤ 10 ^ k * unit := Nat.mul_le_mul_right _ (by omega)
  have e : 10 ^ k * unit = unit * 10 ^ k := Nat.mul_comm _ _
  rw [Nat.add_mul] at a
  omega

theorem fractionUnit_le (mi se : Option Nat) : fractionUnit mi se ≤ 3600000000 := by
  unfold fractionUnit; repeat' split
  all_goals omega

theorem local_gen {y mo d h mi se : Nat} {tz : Option Int} :
    T.local (if y = 0 then .ext ⟨2000, mo, d, h, mi, se, 0, tz⟩ else .dt ⟨y, mo, d, h, mi, se, 0, tz⟩) = clock y mo d h mi se 0 := by
  split
  · rename_i h0; subst h0; rfl
  · rfl

/-- Exactly these texts are read: `YYYYMMDDhh[mm[ss]][.f]` with no zone, `Z` or an offset of less than 24 hours (and possibly
one line feed at the end) whose fields are a date and a time of day. The result has the written zone, and by its clock the
written time plus the fraction of the last unit given, rounded to the nearest microsecond (a half is rounded down). -/
theorem C28_decode (s : Str) (v : T) :
    genNative s = .ok v ↔
      ∃ y mo d h mi se n k tz us, GenText s y mo d h mi se n k tz ∧ ZoneOk tz ∧ IsDate y mo d ∧ h ≤ 23 ∧ mi.getD 0 ≤ 59 ∧
        se.getD 0 ≤ 59 ∧ Nearest us n k (fractionUnit mi se) ∧ 2 * (us * 10 ^ k) ≠ 2 * (n * fractionUnit mi se) + 10 ^ k ∧
        T.Valid v ∧ v.tz = tz ∧ T.local v = clock y mo d h (mi.getD 0) (se.getD 0) 0 + us := by
  constructor
  · intro h
    unfold genNative timeNative at h
    cases hp : parsedTime genMatch s with
    | error e => rw [hp] at h; cases h
    | ok pu =>
      obtain ⟨p, us⟩ := pu
      rw [hp] at h
      obtain ⟨g, hg, rfl, hus, hoff⟩ := parsedTime_ok.mp hp
      have htext := genText_iff.mpr ⟨g, hg, rfl, rfl, rfl, rfl, rfl, rfl, rfl, rfl, rfl⟩
      rw [fractionUs_eq] at hus
      simp only [bind, Except.bind] at h
      split at h
      · cases h
      · rename_i w hw
        obtain ⟨e1, e2⟩ := genDatetime_ok.mp hw
        simp only at e1
        generalize g.minute.map num = mi at *
        generalize g.second.map num = se at *
        generalize num (g.fraction.getD []) = n at *
        generalize (g.fraction.getD []).length = k at *
        generalize zoneOff g.zulu g.sign g.dhour g.dminute = tz at *
        have hnk : n < 10 ^ k ∧ num g.year < 10 ^ 4 := by
          obtain ⟨a, b, c, e, f, gg, fr, z, nl, _, ha, _, _, _, _, _, _, hfr, _⟩ := htext
          exact ⟨fraction_lt hfr, digits_lt ha⟩
        have hle : us ≤ 3600000000 := by
          rw [hus]; exact le_trans (usOf_le hnk.1) (fractionUnit_le mi se)
        obtain ⟨f1, f2, f3⟩ := (add_fraction e2 hle).mp h
        rw [e1] at e2 f3 f2
        rw [local_gen] at f3
        have hv := (valid_gen (by omega)).mpr e2
        have hp : 0 < 10 ^ k := Nat.pow_pos (by omega)
        have hn := nearest_spec (n := n * fractionUnit mi se) hp
        rw [show nearest (n * fractionUnit mi se) (10 ^ k) = us from hus.symm] at hn
        refine ⟨_, _, _, _, mi, se, n, k, tz, us, htext, (zoneOk_iff tz).mpr hoff, hv.1, hv.2.1, hv.2.2.1, hv.2.2.2,
          ⟨by omega, by omega⟩, by omega, f1, ?_, f3⟩
        rw [f2]
        split <;> rfl
  · rintro ⟨y, mo, d, h, mi, se, n, k, tz, us, ht, hz, hd, hh, hm, hs, hne, htie, hv, htz, hloc⟩
    have hnk : n < 10 ^ k ∧ y < 10 ^ 4 := by
      obtain ⟨a, b, c, e, f, gg, fr, z, nl, _, ha, _, _, _, _, _, _, hfr, _⟩ := ht
      exact ⟨fraction_lt hfr, digits_lt ha⟩
    obtain ⟨g, hg, rfl, rfl, rfl, rfl, rfl, rfl, rfl, rfl, rfl⟩ := genText_iff.mp ht
    have hp : 0 < 10 ^ (g.fraction.getD []).length := Nat.pow_pos (by omega)
    have hus : us = fractionUs g := by
      rw [fractionUs_eq]
      exact nearest_unique ⟨by have := hne.1; omega, hne.2⟩ (nearest_spec hp)
    unfold genNative timeNative
    rw [parsedTime_ok.mpr ⟨g, hg, rfl, hus, (zoneOk_iff _).mp hz⟩]
    have hle : us ≤ 3600000000 := by
      rw [hus, fractionUs_eq]; exact le_trans (usOf_le hnk.1) (fractionUnit_le _ _)
    have hval := (valid_gen (y := num g.year) (mo := num g.month) (d := num g.day) (h := num g.hour) (mi := (g.minute.map num).getD 0)
      (se := (g.second.map num).getD 0) (tz := zoneOff g.zulu g.sign g.dhour g.dminute) (by omega)).mp ⟨hd, hh, hm, hs⟩
    simp only [bind, Except.bind]
    rw [genDatetime_ok.mpr ⟨rfl, hval⟩]
    refine (add_fraction hval hle).mpr ⟨hv, ?_, ?_⟩
    · rw [htz]; split <;> rfl
    · rw [hloc, local_gen]

/-- The instant that a text denotes is the written local time minus the written offset. -/
theorem C28_instant {s : Str} {v : T} (h : genNative s = .ok v) {y mo d hh n k : Nat} {mi se : Option Nat} {tz : Option Int}
    (ht : GenText s y mo d hh mi se n k tz) :
    ∃ us, Nearest us n k (fractionUnit mi se) ∧ v.tz = tz ∧
      T.instant v = clock y mo d hh (mi.getD 0) (se.getD 0) 0 + us - tz.getD 0 := by
  obtain ⟨y', mo', d', h', mi', se', n', k', tz', us, ht', _, _, _, _, _, h1, _, _, h3, h4⟩ := (C28_decode s v).mp h
  obtain ⟨g, hg, e1, e2, e3, e4, e5, e6, e7, e8, e9⟩ := genText_iff.mp ht
  obtain ⟨g', hg', f1, f2, f3, f4, f5, f6, f7, f8, f9⟩ := genText_iff.mp ht'
  rw [hg] at hg'
  have := Option.some.inj hg'
  subst this
  subst e1 e2 e3 e4 e5 e6 e7 e8 e9 f1 f2 f3 f4 f5 f6 f7 f8 f9
  refine ⟨us, h1, h3, ?_⟩
  unfold T.instant
  rw [h4, h3]

example : GenText "2017112100,5+01".toList 2017 11 21 0 none none 5 1 (some (60 * usMinute)) :=
  ⟨"2017".toList, "11".toList, "21".toList, "00".toList, [], [], ",5".toList, "+01".toList, [], rfl, by unfold Digits; decide,
    by unfold Digits; decide, by unfold Digits; decide, by unfold Digits; decide, rfl, rfl, fun _ => rfl,
    .some (Or.inr rfl) (by decide) (by unfold Digits; decide),
    .plusHours (a := "01".toList) (h := 1) (by unfold Digits; decide), Or.inl rfl⟩

example : genNative "2017112100,5+01".toList = .ok (.dt ⟨2017, 11, 21, 0, 30, 0, 0, some 3600000000⟩) := by decide +kernel

/-- The instants that `set` can convert to UTC: from year 1 for a `datetime`, from year 0 for an `extended_datetime`. -/
def Convertible (t : T) : Prop :=
  (match t with
    | .dt _ => clock 1 1 1 0 0 0 0 ≤ T.instant t
    | .ext _ => 0 ≤ T.instant t) ∧ T.instant t < clock 10000 1 1 0 0 0 0

theorem rest14_all {v : DateTime} (h : v.month ≤ 99 ∧ v.day ≤ 99 ∧ v.hour ≤ 99 ∧ v.minute ≤ 99 ∧ v.second ≤ 99) :
    ∀ c ∈ rest14 v, '0' ≤ c ∧ c ≤ '9' := by
  intro c hc
  have p : ∀ n, n ≤ 99 → c ∈ pad 2 n → '0' ≤ c ∧ c ≤ '9' := fun n hn hc => (pad_digits (w := 2) (by omega) (by omega)).2.1 c hc
  unfold rest14 at hc
  simp only [List.mem_append] at hc
  obtain ⟨h1, h2, h3, h4, h5⟩ := h
  rcases hc with (((hc | hc) | hc) | hc) | hc
  · exact p _ h1 hc
  · exact p _ h2 hc
  · exact p _ h3 hc
  · exact p _ h4 hc
  · exact p _ h5 hc

theorem fields_le {v : T} (h : T.Valid v) : v.fields.month ≤ 99 ∧ v.fields.day ≤ 99 ∧ v.fields.hour ≤ 99 ∧ v.fields.minute ≤ 99 ∧
    v.fields.second ≤ 99 := by
  obtain ⟨_, ⟨h1, h2, h3, h4⟩, h5, h6, h7, h8⟩ := h
  have := monthLength_le (T.year v) v.fields.month
  omega

theorem convert_ok {t : T} {off : Int} (hv : T.Valid t) (htz : t.tz = some off)
    (hoff : -(24 * 60 * usMinute) < off ∧ off < 24 * 60 * usMinute) (hc : Convertible t) :
    ∃ r, t.astimezone off 0 = .ok r ∧ T.Valid r ∧ T.local r = T.instant t ∧ r.tz = some 0 := by
  have hinst : T.instant t = T.local t - off := by unfold T.instant; rw [htz]; rfl
  have ⟨r, hr⟩ : ∃ r, t.astimezone off 0 = .ok r := by
    obtain ⟨h1, h2⟩ := hc
    apply T.astimezone_total hv
    · cases t with
      | dt t => simp only [addLow]; simp only [hinst, clock_first] at h1; exact h1
      | ext t => simp only [addLow]; simp only [hinst] at h1; exact h1
    · cases t with
      | dt t => simp only [addHigh]; rw [hinst, clock_last] at h2; exact h2
      | ext t =>
        have := local_ext_lt hv
        simp only [addHigh]
        unfold usMinute usDay us365 us2000 at *
        omega
  obtain ⟨a, b, c⟩ := T.astimezone_utc hv hr
  exact ⟨r, hr, a, by rw [b, hinst], c⟩

/-- A convertible aware time is written and reads back as the same instant, to the microsecond, if `%Y` has four digits:
always on a platform that pads years, and for instants outside of the years 1-999 on one that does not (glibc). Without these
two restrictions the property is false: see `C28_early_fails`, `C28_glibc_fails` below. -/
theorem C28_round_trip_partial (glibc : Bool) {t : T} {off : Int} (hv : T.Valid t) (htz : t.tz = some off)
    (hoff : -(24 * 60 * usMinute) < off ∧ off < 24 * 60 * usMinute) (hc : Convertible t)
    (hp : glibc = false ∨ T.instant t < clock 1 1 1 0 0 0 0 ∨ clock 1000 1 1 0 0 0 0 ≤ T.instant t) :
    ∃ s v, genSet glibc t = .ok s ∧ genNative s = .ok v ∧ v.tz = some 0 ∧ T.Valid v ∧ T.instant v = T.instant t := by
  obtain ⟨r, hr, h1, h2, h3⟩ := convert_ok hv htz hoff hc
  refine ⟨_, r, by unfold genSet; rw [htz]; simp only [hr, bind, Except.bind]; rfl, ?_, h3, h1, ?_⟩
  · rw [C28_decode]
    obtain ⟨n, k, hf1, hf2, -⟩ := genFraction_spec h1.2.2.2.2.2
    obtain ⟨l1, l2, l3, l4, l5⟩ := fields_le h1
    have hyear : ∃ a, r.strftime glibc "%Y%m%d%H%M%S".toList = a ++ rest14 r.fields ∧ Digits 4 a (T.year r) := by
      cases r with
      | dt r =>
        refine ⟨pad 4 r.year, ?_, pad_digits (by omega) (by have := h1.1.2; omega)⟩
        simp only [T.strftime, T.fields]
        rw [strftime_gen, year_text]
        rcases hp with hp | hp | hp
        · exact Or.inl hp
        · have := (local_year h1 1).mpr h1.1.1
          omega
        · exact Or.inr ((local_year h1 1000).mp (by rw [h2]; exact hp))
      | ext r =>
        refine ⟨"0000".toList, ?_, show Digits 4 "0000".toList 0 by unfold Digits; decide⟩
        simp only [T.strftime, T.fields]
        rw [extStrftime_gen glibc h1.1]
    obtain ⟨a, ha1, ha2⟩ := hyear
    refine ⟨T.year r, r.fields.month, r.fields.day, r.fields.hour, some r.fields.minute, some r.fields.second, n, k, some 0,
      r.fields.micro, ?_, by unfold ZoneOk; decide, h1.2.1, h1.2.2.1, h1.2.2.2.1, h1.2.2.2.2.1, ?_, ?_, h1, h3, ?_⟩
    · rw [ha1]
      refine ⟨a, _, _, _, _, _, genFraction r.fields.micro, ['Z'], [], ?_, ha2, pad_digits (by omega) (by omega),
        pad_digits (by omega) (by omega), pad_digits (by omega) (by omega), pad_digits (by omega) (by omega),
        pad_digits (by omega) (by omega), by simp, hf1, .zone .zulu, Or.inl rfl⟩
      simp [rest14]
    · have e : fractionUnit (some r.fields.minute) (some r.fields.second) = 1000000 := by simp [fractionUnit]
      rw [e, Nearest, hf2]
      exact ⟨Nat.le_add_right _ _, Nat.le_add_right _ _⟩
    · have e : fractionUnit (some r.fields.minute) (some r.fields.second) = 1000000 := by simp [fractionUnit]
      have hpos : 0 < 10 ^ k := Nat.pow_pos (by omega)
      rw [e, hf2]
      omega
    · unfold T.local DateTime.clock clock
      simp only [Option.getD_some]
      omega
  · unfold T.instant
    rw [h3, h2, T.instant]
    simp

/-- A time that is already in UTC reads back as itself. -/
theorem C28_same_partial (glibc : Bool) {t : T} (hv : T.Valid t) (htz : t.tz = some 0)
    (hp : glibc = false ∨ T.year t = 0 ∨ 1000 ≤ T.year t) : ∃ s, genSet glibc t = .ok s ∧ genNative s = .ok t := by
  have hinst : T.instant t = T.local t := by unfold T.instant; rw [htz]; simp
  have hc : Convertible t := by
    unfold Convertible
    have h2 := local_year hv 10000
    have hy : T.year t ≤ 9999 := by
      cases t with
      | dt w => exact hv.1.2
      | ext w => simp [T.year]
    refine ⟨?_, ?_⟩
    · cases t with
      | dt t => simp only [hinst]; exact (local_year hv 1).mpr hv.1.1
      | ext t => simp only [hinst]; exact (local_ext_lt hv).1
    · rw [hinst]
      by_contra hh
      have := h2.mp (by omega)
      omega
  have hp' : glibc = false ∨ T.instant t < clock 1 1 1 0 0 0 0 ∨ clock 1000 1 1 0 0 0 0 ≤ T.instant t := by
    rw [hinst]
    rcases hp with hp | hp | hp
    · exact Or.inl hp
    · right; left
      by_contra hh
      have := (local_year hv 1).mp (by omega)
      omega
    · exact Or.inr (Or.inr ((local_year hv 1000).mpr hp))
  obtain ⟨s, v, h1, h2, h3, h4, h5⟩ := C28_round_trip_partial glibc hv htz (by decide) hc hp'
  refine ⟨s, h1, ?_⟩
  have hinst' : T.instant v = T.local v := by unfold T.instant; rw [h3]; simp
  rw [h2, local_inj h4 hv (by rw [← hinst', h5, hinst]) (by rw [h3, htz])]

example : let t : T := .dt ⟨2017, 11, 21, 23, 59, 59, 120300, some 5400000000⟩
    T.Valid t ∧ Convertible t ∧ clock 1000 1 1 0 0 0 0 ≤ T.instant t ∧
      genSet true t = .ok "20171121222959.1203Z".toList := by
  unfold T.Valid IsDate Convertible; decide +kernel

example : let t : T := .ext ⟨2000, 2, 29, 12, 0, 0, 0, some 0⟩
    T.Valid t ∧ Convertible t ∧ T.instant t < clock 1 1 1 0 0 0 0 ∧ genSet true t = .ok "00000229120000Z".toList := by
  unfold T.Valid IsDate Convertible; decide +kernel

/-- The fraction is written without trailing zeros, and only if the time is not a whole number of seconds. -/
theorem C28_fraction (glibc : Bool) {t : T} {off : Int} (hv : T.Valid t) (htz : t.tz = some off) {s : Str}
    (hs : genSet glibc t = .ok s) :
    ∃ a f, s = a ++ f ++ ['Z'] ∧ (∀ c ∈ a, '0' ≤ c ∧ c ≤ '9') ∧
      (f = [] ∧ T.instant t % 1000000 = 0 ∨
        ∃ ds, f = '.' :: ds ∧ ds ≠ [] ∧ ds.length ≤ 6 ∧ ds.getLast? ≠ some '0' ∧ T.instant t % 1000000 ≠ 0) := by
  unfold genSet at hs
  rw [htz] at hs
  cases hr : t.astimezone off 0 with
  | error e => simp only [hr] at hs; cases hs
  | ok r =>
    simp only [hr, bind, Except.bind] at hs
    have hs := Except.ok.inj hs
    obtain ⟨h1, h2, h3⟩ := T.astimezone_utc hv hr
    have hinst : T.instant t = T.local r := by unfold T.instant; rw [htz, h2]; rfl
    obtain ⟨n, k, -, -, hf⟩ := genFraction_spec h1.2.2.2.2.2
    have hmod : T.instant t % 1000000 = r.fields.micro := by
      rw [hinst]
      have := h1.2.2.2.2.2
      unfold T.local DateTime.clock clock
      omega
    refine ⟨_, _, hs.symm, ?_, ?_⟩
    · cases r with
      | dt r =>
        simp only [T.strftime]
        rw [strftime_gen]
        intro c hc
        rcases List.mem_append.mp hc with hc | hc
        · split at hc
          · obtain ⟨d, hd, rfl⟩ := mem_pyStrNat _ c hc
            exact (isDig_iff _).mp (digit_of_char d hd).1
          · have hy := h1.1.2
            exact (pad_digits (w := 4) (by omega) (by omega)).2.1 c hc
        · exact rest14_all (fields_le h1) c hc
      | ext r =>
        simp only [T.strftime]
        rw [extStrftime_gen glibc h1.1]
        intro c hc
        rcases List.mem_append.mp hc with hc | hc
        · have : ∀ c ∈ "0000".toList, '0' ≤ c ∧ c ≤ '9' := by decide
          exact this c hc
        · exact rest14_all (fields_le h1) c hc
    · rw [hmod]
      rcases hf with ⟨hf, hz⟩ | ⟨ds, a, b, c, d, e⟩
      · left; exact ⟨hf, by omega⟩
      · right; exact ⟨ds, a, b, c, d, by omega⟩

/-- A naive time is refused. -/
theorem C28_naive (glibc : Bool) {t : T} (h : t.tz = none) : genSet glibc t = .error .valueError := by
  unfold genSet; rw [h]

/-- The property fails for a `datetime` of year 1 whose instant is in year 0: `GeneralizedTime` can hold it, but setting it is an
`OverflowError`. -/
theorem C28_early_fails (glibc : Bool) : ∃ t : T, T.Valid t ∧ t.tz = some 3600000000 ∧ 0 ≤ T.instant t ∧
    genSet glibc t = .error .overflowError ∧ genNative "00001231233000Z".toList = .ok (.ext ⟨2000, 12, 31, 23, 30, 0, 0, some 0⟩) ∧
    T.instant (.ext ⟨2000, 12, 31, 23, 30, 0, 0, some 0⟩) = T.instant t :=
  ⟨.dt ⟨1, 1, 1, 0, 30, 0, 0, some 3600000000⟩, by unfold T.Valid IsDate; decide +kernel, rfl, by decide +kernel,
    by cases glibc <;> decide +kernel, by decide +kernel, by decide +kernel⟩

/-- The property fails for years before 1000 with glibc, which does not pad `%Y`: year 999 cannot be read back, and a time of the
year 99 reads back as one of the year 9911. -/
theorem C28_glibc_fails :
    genSet true (.dt ⟨999, 1, 1, 0, 0, 0, 0, some 0⟩) = .ok "9990101000000Z".toList ∧
    genNative "9990101000000Z".toList = .error .valueError ∧
    genSet true (.dt ⟨99, 11, 12, 13, 14, 15, 0, some 0⟩) = .ok "991112131415Z".toList ∧
    genNative "991112131415Z".toList = .ok (.dt ⟨9911, 12, 13, 14, 15, 0, 0, some 0⟩) := by
  decide +kernel

/-- A text whose nearest microsecond is in the year 10000 is not read. -/
theorem C28_round_up_fails : genNative "99991231235959.9999999Z".toList = .error .overflowError ∧
    GenText "99991231235959.9999999Z".toList 9999 12 31 23 (some 59) (some 59) 9999999 7 (some 0) := by
  refine ⟨by decide +kernel, "9999".toList, "12".toList, "31".toList, "23".toList, "59".toList, "59".toList, ".9999999".toList,
    "Z".toList, [], rfl, ?_, ?_, ?_, ?_, ?_, ?_, by simp, .some (Or.inl rfl) (by decide) ?_, .zone .zulu, Or.inl rfl⟩
  all_goals first | (unfold Digits; decide) | (unfold OptDigits Digits; decide)

end Asn1.Time
