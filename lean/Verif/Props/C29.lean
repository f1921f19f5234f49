import Verif.Props.C28

/-!
# C29: the year 0
-/

namespace Asn1.Time
open Asn1 Asn1.Spec

/-- Only the year 0 is accepted, with the days and times of a leap year. -/
theorem C29_new (year : Int) (t : DateTime) :
    (∃ r, mkExt year t = .ok r) ↔
      year = 0 ∧ IsDate 0 t.month t.day ∧ t.hour ≤ 23 ∧ t.minute ≤ 59 ∧ t.second ≤ 59 ∧ t.micro ≤ 999999 := by
  unfold mkExt
  have key : (∃ r, (mkDateTime { t with year := 2000 } >>= fun y => Except.ok (T.ext y)) = .ok r) ↔ T.Valid (.ext { t with year := 2000 }) := by
    cases h : mkDateTime { t with year := 2000 } with
    | error e =>
      constructor
      · rintro ⟨r, hr⟩; cases hr
      · intro hv
        rw [mkDateTime_ok.mpr ⟨rfl, (ext_valid hv).1⟩] at h
        cases h
    | ok r =>
      obtain ⟨rfl, hv⟩ := mkDateTime_ok.mp h
      exact ⟨fun _ => valid_ext hv rfl, fun _ => ⟨_, rfl⟩⟩
  split
  · rename_i h
    constructor
    · rintro ⟨r, hr⟩; cases hr
    · rintro ⟨h0, _⟩; exact absurd h0 h
  · rename_i h
    rw [key]
    have h0 : year = 0 := by omega
    unfold T.Valid
    simp [T.year, T.fields, h0]

example : mkExt 0 ⟨0, 2, 29, 0, 0, 0, 0, none⟩ = .ok (.ext ⟨2000, 2, 29, 0, 0, 0, 0, none⟩) := by decide +kernel

/-- Comparison is the comparison of the instants; comparing an aware with a naive time is a `TypeError`. -/
theorem C29_order {y : DateTime} {o : T} (hy : T.Valid (.ext y)) (ho : T.Valid o) :
    extCmp y o = if y.tz.isNone = o.tz.isNone then .ok (Int.sign (T.instant (.ext y) - T.instant o)) else .error .typeError := by
  unfold extCmp
  by_cases h : y.tz.isNone = o.tz.isNone
  · rw [if_neg (by simp [h]), if_pos h]
    have := T.sub_ok hy ho h
    simp only [T.sub] at this
    rw [this]
    simp only [bind, Except.bind]
    generalize T.instant (.ext y) - T.instant o = d
    split
    · rw [Int.sign_eq_neg_one_of_neg (by assumption)]
    · split
      · rw [Int.sign_eq_one_of_pos (by assumption)]
      · rw [show d = 0 by omega]; rfl
  · rw [if_pos (by simpa using h), if_neg h]

/-- A time of the year 0 is before every `datetime` in the same zone. -/
theorem C29_before {y t : DateTime} (hy : T.Valid (.ext y)) (ht : T.Valid (.dt t)) (htz : y.tz = t.tz) : extCmp y (.dt t) = .ok (-1) := by
  rw [C29_order hy ht, if_pos (by simp [htz, T.tz])]
  have h1 := (local_ext_lt hy).2
  have h2 := (local_year ht 1).mpr ht.1.1
  rw [clock_first] at h2
  have : T.instant (.ext y) - T.instant (.dt t) < 0 := by
    unfold T.instant
    simp only [T.tz, htz]
    omega
  rw [Int.sign_eq_neg_one_of_neg this]

/-- Equality is equality of the instants; an aware time never equals a naive one. -/
theorem C29_equal {y : DateTime} {o : T} (hy : T.Valid (.ext y)) (ho : T.Valid o) :
    extEq y o = .ok (decide (y.tz.isNone = o.tz.isNone ∧ T.instant (.ext y) = T.instant o)) := by
  unfold extEq
  by_cases h : y.tz.isNone = o.tz.isNone
  · rw [if_neg (by simp [h]), C29_order hy ho, if_pos h]
    simp only [bind, Except.bind, h, true_and]
    congr 1
    rw [decide_eq_decide, Int.sign_eq_zero_iff_zero]
    omega
  · rw [if_pos (by simpa using h)]
    simp [h]

example : extCmp ⟨2000, 12, 31, 23, 30, 0, 0, some (-3600000000)⟩ (.dt ⟨1, 1, 1, 0, 15, 0, 0, some 0⟩) = .ok 1 := by decide +kernel
example : extEq ⟨2000, 12, 31, 23, 30, 0, 0, some (-3600000000)⟩ (.dt ⟨1, 1, 1, 0, 30, 0, 0, some 0⟩) = .ok true := by decide +kernel

/-- Subtraction of two times, of the year 0 or not, is the difference of the instants. -/
theorem C29_sub {a b : T} (ha : T.Valid a) (hb : T.Valid b) (h : a.tz.isNone = b.tz.isNone) :
    a.sub b = .ok (T.instant a - T.instant b) := T.sub_ok ha hb h

/-- What can be reached by addition: the years 0-7999 from a time of the year 0, the years 1-9999 from a `datetime`. -/
def Reachable (t : T) (us : Int) : Prop :=
  match t with
  | .dt _ => clock 1 1 1 0 0 0 0 ≤ us ∧ us < clock 10000 1 1 0 0 0 0
  | .ext _ => 0 ≤ us ∧ us < clock 8000 1 1 0 0 0 0

theorem clock_8000 : clock 8000 1 1 0 0 0 0 = 3652060 * usDay + us365 - us2000 := by
  have h := clock_2000 8000 ⟨0, 1, 1, 0, 0, 0, 0, none⟩
  have h2 := clock_last
  have h3 : clock 10000 1 1 0 0 0 0 = clock 8000 1 1 0 0 0 0 + us2000 := h
  omega

/-- Addition of a timedelta succeeds exactly if the result is reachable; the result is then that much later by the calendar, in the
same zone. For a time of the year 0 the results in 8000-9999 are missing: see `C29_add_fails`. -/
theorem C29_add_partial {t : T} (ht : T.Valid t) (d : Int) (r : T) :
    t.add d = .ok r ↔ T.Valid r ∧ r.tz = t.tz ∧ T.local r = T.local t + d ∧ Reachable t (T.local t + d) := by
  have hR : Reachable t (T.local t + d) ↔ addLow t ≤ T.local t + d ∧ T.local t + d < addHigh t := by
    cases t with
    | dt t => simp only [Reachable, addLow, addHigh, clock_first, clock_last]
    | ext t => simp only [Reachable, addLow, addHigh, clock_8000]
  rw [hR]
  constructor
  · intro h
    obtain ⟨h1, h2, h3⟩ := T.add_ok ht h
    exact ⟨h1, h3, h2, (T.add_total ht).mp ⟨r, h⟩⟩
  · rintro ⟨h1, h2, h3, h4⟩
    obtain ⟨r', hr'⟩ := (T.add_total ht).mpr h4
    obtain ⟨e1, e2, e3⟩ := T.add_ok ht hr'
    rw [hr', local_inj e1 h1 (by omega) (by rw [e3, h2])]

/-- Every reachable result is reached. -/
theorem C29_add_total {t : T} (ht : T.Valid t) (d : Int) (h : Reachable t (T.local t + d)) : ∃ r, t.add d = .ok r := by
  apply (T.add_total ht).mpr
  cases t with
  | dt t => simpa only [Reachable, addLow, addHigh, clock_first, clock_last] using h
  | ext t => simpa only [Reachable, addLow, addHigh, clock_8000] using h

/-- `(a + t) - a == t` -/
theorem C29_add_sub {t r : T} (ht : T.Valid t) {d : Int} (h : t.add d = .ok r) : r.sub t = .ok d := by
  obtain ⟨h1, h2, h3⟩ := T.add_ok ht h
  rw [T.sub_ok h1 ht (by rw [h3])]
  unfold T.instant
  rw [h2, h3]
  exact congrArg Except.ok (by omega)

example : T.add (.ext ⟨2000, 12, 31, 23, 59, 59, 999999, none⟩) 1 = .ok (.dt ⟨1, 1, 1, 0, 0, 0, 0, none⟩) := by decide +kernel
example : T.Valid (.ext ⟨2000, 12, 31, 23, 59, 59, 999999, none⟩) := by unfold T.Valid IsDate; decide +kernel

/-- The property fails for results after the year 7999: `0000-01-01` plus 2921940 days is `8000-01-01`, but is an `OverflowError`. -/
theorem C29_add_fails : T.Valid (.ext ⟨2000, 1, 1, 0, 0, 0, 0, none⟩) ∧
    T.add (.ext ⟨2000, 1, 1, 0, 0, 0, 0, none⟩) (2921940 * usDay) = .error .overflowError ∧
    T.local (.ext ⟨2000, 1, 1, 0, 0, 0, 0, none⟩) + 2921940 * usDay = T.local (.dt ⟨8000, 1, 1, 0, 0, 0, 0, none⟩) := by
  refine ⟨by unfold T.Valid IsDate; decide +kernel, by decide +kernel, ?_⟩
  have h : T.local (.dt ⟨8000, 1, 1, 0, 0, 0, 0, none⟩) = clock 8000 1 1 0 0 0 0 := rfl
  rw [h, clock_8000]
  decide +kernel

/-- Conversion to another zone keeps the instant. -/
theorem C29_astimezone {t r : T} {off tz : Int} (ht : T.Valid t) (htz : t.tz = some off) (h : t.astimezone off tz = .ok r) :
    T.Valid r ∧ r.tz = some tz ∧ T.instant r = T.instant t := by
  have key : ∀ a b : DateTime, a.astimezone off tz = .ok b → b.Valid ∧ b.naive = a.naive - off + tz ∧ b.tz = some tz := by
    intro a b hab
    unfold DateTime.astimezone at hab
    cases hu : ofNaive (a.naive - off) (some tz) with
    | error e => rw [hu] at hab; cases hab
    | ok u =>
      rw [hu] at hab
      simp only [bind, Except.bind] at hab
      obtain ⟨h1, h2, h3⟩ := ofNaive_ok hab
      obtain ⟨g1, g2, g3⟩ := ofNaive_ok hu
      exact ⟨h1, by rw [h2, g2], h3⟩
  cases t with
  | dt t =>
    have hv := (DateTime.valid_iff t).mpr ht
    simp only [T.astimezone] at h
    cases ha : t.astimezone off tz with
    | error e => rw [ha] at h; cases h
    | ok b =>
      rw [ha] at h
      have h : T.dt b = r := Except.ok.inj h
      subst h
      obtain ⟨h1, h2, h3⟩ := key t b ha
      refine ⟨(DateTime.valid_iff b).mp h1, h3, ?_⟩
      unfold T.instant
      rw [local_dt h1, local_dt hv, htz, h2]
      simp only [T.tz, h3, Option.getD_some]
      omega
  | ext y =>
    obtain ⟨hv, hy⟩ := ext_valid ht
    simp only [T.astimezone] at h
    cases ha : y.astimezone off tz with
    | error e => rw [ha] at h; cases h
    | ok b =>
      rw [ha] at h
      have h : fromY2k b = .ok r := h
      obtain ⟨h1, h2, h3⟩ := key y b ha
      by_cases hb : 2000 ≤ b.year
      · obtain ⟨t, e1, e2, e3, e4, _⟩ := fromY2k_ok h1 hb
        rw [e1] at h
        have h := Except.ok.inj h
        subst h
        refine ⟨e2, e4.trans h3, ?_⟩
        unfold T.instant
        rw [e3, local_ext ht, htz, h2, e4, h3]
        simp only [Option.getD_some]
        omega
      · rw [fromY2k_early (by omega)] at h
        cases h

example : T.astimezone (.ext ⟨2000, 12, 31, 23, 30, 0, 0, some (-3600000000)⟩) (-3600000000) 0 = .ok (.dt ⟨1, 1, 1, 0, 30, 0, 0, some 0⟩) := by
  decide +kernel

/-! ### Texts -/

/-- A format in which the year is written `0000` and its last two digits `00`. -/
def zeroFormat (t : DateTime) : Str → Str
  | [] => []
  | '%' :: 'Y' :: r => "0000".toList ++ zeroFormat t r
  | '%' :: 'y' :: r => "00".toList ++ zeroFormat t r
  | '%' :: 'm' :: r => pad 2 t.month ++ zeroFormat t r
  | '%' :: 'd' :: r => pad 2 t.day ++ zeroFormat t r
  | '%' :: 'H' :: r => pad 2 t.hour ++ zeroFormat t r
  | '%' :: 'M' :: r => pad 2 t.minute ++ zeroFormat t r
  | '%' :: 'S' :: r => pad 2 t.second ++ zeroFormat t r
  | '%' :: 'j' :: r => pad 3 (dayCount 0 t.month t.day + 1) ++ zeroFormat t r
  | c :: r => c :: zeroFormat t r

theorem yearDay_zero {y : DateTime} (h : IsDate 0 y.month y.day) (z : Nat) (hz : isLeap z = true) :
    daysBeforeMonth z y.month + y.day = dayCount 0 y.month y.day + 1 := by
  have : daysBeforeMonth z y.month = daysBeforeMonth 0 y.month := by
    unfold daysBeforeMonth; rw [hz]; rfl
  rw [this]
  unfold dayCount
  rw [sum_monthLength 0 _ h.1 h.2.1]
  have := h.2.2.1
  simp [sumBelow]
  omega

/-- `strftime` prints the year 0000, whatever else the format contains. -/
theorem C29_strftime (glibc : Bool) {y : DateTime} (h : T.Valid (.ext y)) (f : Str) : extStrftime glibc y f = zeroFormat y f := by
  have hy : y.year = 2000 := h.1
  have hd : IsDate 0 y.month y.day := h.2.1
  unfold extStrftime
  have p2 : (if glibc then pyStrNat 2000 else pad 4 2000) = "2000".toList := by cases glibc <;> decide +kernel
  have p4 : (if glibc then pyStrNat 4000 else pad 4 4000) = "4000".toList := by cases glibc <;> decide +kernel
  have p00 : pad 2 0 = "00".toList := by decide +kernel
  have j2 := yearDay_zero hd 2000 (by decide)
  have j4 := yearDay_zero hd 4000 (by decide)
  fun_induction zeroFormat y f with
  | case1 => rfl
  | case2 r ih =>
    simp only [strftime, hy, p2, p4]
    rw [zipYears_append (by decide), ih]; rfl
  | case3 r ih =>
    simp only [strftime, hy]
    rw [show 2000 % 100 = 0 from rfl, p00, zipYears_append rfl, ih]; rfl
  | case4 r ih => simp only [strftime]; rw [zipYears_append rfl, ih, zipYears_self]
  | case5 r ih => simp only [strftime]; rw [zipYears_append rfl, ih, zipYears_self]
  | case6 r ih => simp only [strftime]; rw [zipYears_append rfl, ih, zipYears_self]
  | case7 r ih => simp only [strftime]; rw [zipYears_append rfl, ih, zipYears_self]
  | case8 r ih => simp only [strftime]; rw [zipYears_append rfl, ih, zipYears_self]
  | case9 r ih => simp only [strftime, hy, j2, j4]; rw [zipYears_append rfl, ih, zipYears_self]
  | case10 c r h1 h2 h3 h4 h5 h6 h7 h8 ih =>
    rw [strftime.eq_10 _ _ _ _ h1 h2 h3 h4 h5 h6 h7 h8, strftime.eq_10 _ _ _ _ h1 h2 h3 h4 h5 h6 h7 h8]
    have := zipYears_append (a := [c]) (b := [c]) (c := strftime glibc y r) (d := strftime glibc { y with year := 4000 } r) rfl
    simp only [List.singleton_append] at this
    rw [this, ih, zipYears_self]; rfl

/-- `isoformat` prints the year 0000, the month, the day and the time in two digits each, a fraction of six digits unless it is
zero, and the offset (see C48). -/
theorem C29_isoformat {y : DateTime} (h : T.Valid (.ext y)) (sep : Char) :
    ∃ mo d hh mi se fr, extIsoformat y sep = "0000-".toList ++ mo ++ ['-'] ++ d ++ [sep] ++ hh ++ [':'] ++ mi ++ [':'] ++ se ++ fr ++
        formatOffset y.tz ∧ Digits 2 mo y.month ∧ Digits 2 d y.day ∧ Digits 2 hh y.hour ∧ Digits 2 mi y.minute ∧ Digits 2 se y.second ∧
      (fr = [] ∧ y.micro = 0 ∨ ∃ ds, fr = '.' :: ds ∧ Digits 6 ds y.micro ∧ y.micro ≠ 0) := by
  obtain ⟨l1, l2, l3, l4, l5⟩ := fields_le h
  have hm := h.2.2.2.2.2
  simp only [T.fields] at *
  refine ⟨_, _, _, _, _, _, rfl, pad_digits (by omega) (by omega), pad_digits (by omega) (by omega), pad_digits (by omega) (by omega),
    pad_digits (by omega) (by omega), pad_digits (by omega) (by omega), ?_⟩
  by_cases h0 : y.micro = 0
  · left; simp [h0]
  · right; exact ⟨_, by rw [if_pos h0], pad_digits (by omega) (by omega), h0⟩

example : extIsoformat ⟨2000, 2, 29, 1, 2, 3, 40, some (-5400000000)⟩ = "0000-02-29T01:02:03.000040-01:30".toList := by decide +kernel
example : extStrftime true ⟨2000, 2, 29, 1, 2, 3, 40, none⟩ "24 %Y-%j %y".toList = "24 0000-060 00".toList := by decide +kernel

/-! ### Dates -/

/-- Days from 0000-01-01. -/
def dateCount : D → Nat
  | .date y m d => dayCount y m d
  | .ext m d => dayCount 0 m d

def DateValid : D → Prop
  | .date y m d => 1 ≤ y ∧ y ≤ 9999 ∧ IsDate y m d
  | .ext m d => IsDate 0 m d

theorem C29_date_new (ext : Bool) (y m d : Nat) (r : D) :
    mkDate ext y m d = .ok r ↔ r = (if ext then .ext m d else .date y m d) ∧ DateValid r ∧ (ext = true → y = 0) := by
  have hm : ∀ z, (1 ≤ m ∧ m ≤ 12 ∧ 1 ≤ d ∧ d ≤ daysInMonth z m) ↔ IsDate z m d := by
    intro z
    unfold IsDate
    constructor
    · rintro ⟨a, b, c, e⟩; rw [daysInMonth_eq _ _ a b] at e; exact ⟨a, b, c, e⟩
    · rintro ⟨a, b, c, e⟩; rw [← daysInMonth_eq _ _ a b] at e; exact ⟨a, b, c, e⟩
  unfold mkDate
  cases ext with
  | true =>
    simp only [if_true]
    by_cases hy : y = 0
    · rw [if_neg (by simp [hy])]
      have := isDate_2000 (y := 0) (m := m) (d := d)
      rw [Nat.zero_add] at this
      by_cases hd : IsDate 0 m d
      · rw [if_pos ((hm 2000).mpr (this.mpr hd))]
        constructor
        · intro h; have := Except.ok.inj h; subst this; exact ⟨rfl, hd, fun _ => hy⟩
        · rintro ⟨rfl, _⟩; rfl
      · rw [if_neg (fun hh => hd (this.mp ((hm 2000).mp hh)))]
        constructor
        · intro h; cases h
        · rintro ⟨rfl, h, _⟩; exact absurd h hd
    · rw [if_pos hy]
      constructor
      · intro h; cases h
      · rintro ⟨_, _, h⟩; exact absurd (h trivial) hy
  | false =>
    simp only [Bool.false_eq_true, if_false]
    by_cases hd : 1 ≤ y ∧ y ≤ 9999 ∧ IsDate y m d
    · rw [if_pos ⟨hd.1, hd.2.1, (hm y).mpr hd.2.2⟩]
      constructor
      · intro h; have := Except.ok.inj h; subst this; exact ⟨rfl, hd, fun h => h.elim⟩
      · rintro ⟨rfl, _⟩; rfl
    · rw [if_neg (fun hh => hd ⟨hh.1, hh.2.1, (hm y).mp hh.2.2⟩)]
      constructor
      · intro h; cases h
      · rintro ⟨rfl, h, _⟩; exact absurd h hd

/-- A date of the year 0 compares with any date as their numbers of days do: it is before every `date`. -/
theorem C29_date_order {m d : Nat} {o : D} (h : DateValid (.ext m d)) (ho : DateValid o) :
    dateCmp m d o = Int.sign ((dateCount (.ext m d) : Int) - dateCount o) ∧
      dateEq m d o = decide (dateCount (.ext m d) = dateCount o) := by
  have h2000 : ∀ m d, IsDate 0 m d → ymd2ord 2000 m d + 365 = dayCount 0 m d + 730485 := by
    intro m d hd
    have h1 := ymd2ord_eq (y := 2000) (by omega) ((isDate_2000 (y := 0)).mpr hd)
    have h2 := dayCount_2000 0 m d
    rw [Nat.zero_add] at h2
    omega
  have e1 := h2000 m d h
  cases o with
  | date y m' d' =>
    obtain ⟨hy, _, hd'⟩ := ho
    have a := (dayCount_year h).2
    have b := (dayCount_year hd').1
    have c := sumBelow_mono yearLength hy
    rw [Nat.zero_add] at a
    have hlt : dayCount 0 m d < dayCount y m' d' := by omega
    refine ⟨(Int.sign_eq_neg_one_of_neg (by simp only [dateCount]; omega)).symm, ?_⟩
    exact (decide_eq_false (by simp only [dateCount]; omega)).symm
  | ext m' d' =>
    have e2 := h2000 m' d' ho
    have key : (if ymd2ord 2000 m d < ymd2ord 2000 m' d' then (-1 : Int) else if ymd2ord 2000 m d > ymd2ord 2000 m' d' then 1 else 0) =
        Int.sign ((dayCount 0 m d : Int) - dayCount 0 m' d') := by
      split
      · exact (Int.sign_eq_neg_one_of_neg (by omega)).symm
      · split
        · exact (Int.sign_eq_one_of_pos (by omega)).symm
        · rw [show (dayCount 0 m d : Int) - dayCount 0 m' d' = 0 by omega]; rfl
    refine ⟨key, ?_⟩
    have key' : dateCmp m d (.ext m' d') = Int.sign ((dayCount 0 m d : Int) - dayCount 0 m' d') := key
    show decide (dateCmp m d (.ext m' d') = 0) = decide (dayCount 0 m d = dayCount 0 m' d')
    rw [decide_eq_decide, key', Int.sign_eq_zero_iff_zero]
    omega

example : DateValid (.ext 2 29) ∧ DateValid (.date 1 1 1) := by unfold DateValid IsDate; decide

/-! ### Replacement -/

theorem fromY2k_2000 {t : DateTime} (h : t.year = 2000) : fromY2k t = mkExt 0 t := by
  unfold fromY2k
  rw [h]
  simp

/-- `replace` gives the time with the fields asked for, in the year 0 unless another year is asked for, and raises exactly when there is no such time. -/
theorem C29_replace (y : DateTime) (year : Option Nat) (c : Changes) (r : T) :
    extReplace y year c = .ok r ↔ T.Valid r ∧ T.year r = year.getD 0 ∧ r.fields.month = c.month.getD y.month ∧ r.fields.day = c.day.getD y.day ∧
      r.fields.hour = c.hour.getD y.hour ∧ r.fields.minute = c.minute.getD y.minute ∧ r.fields.second = c.second.getD y.second ∧
      r.fields.micro = c.micro.getD y.micro ∧ r.tz = c.tz.getD y.tz := by
  have hzero : ∀ r, (do let t ← y.replace 2000 c; fromY2k t) = .ok r ↔ T.Valid r ∧ T.year r = 0 ∧ r.fields.month = c.month.getD y.month ∧
      r.fields.day = c.day.getD y.day ∧ r.fields.hour = c.hour.getD y.hour ∧ r.fields.minute = c.minute.getD y.minute ∧
      r.fields.second = c.second.getD y.second ∧ r.fields.micro = c.micro.getD y.micro ∧ r.tz = c.tz.getD y.tz := by
    intro r
    constructor
    · intro h
      cases hm : y.replace 2000 c with
      | error e => rw [hm] at h; cases h
      | ok t =>
        rw [hm] at h
        obtain ⟨rfl, hv⟩ := mkDateTime_ok.mp hm
        simp only [bind, Except.bind] at h
        rw [fromY2k_2000 rfl] at h
        simp only [mkExt, ne_eq, not_true_eq_false, if_false] at h
        rw [mkDateTime_ok.mpr ⟨rfl, hv⟩] at h
        cases h
        exact ⟨valid_ext hv rfl, rfl, rfl, rfl, rfl, rfl, rfl, rfl, rfl⟩
    · rintro ⟨hv, h0, h1, h2, h3, h4, h5, h6, h7⟩
      cases r with
      | dt t => have := hv.1.1; simp only [T.year] at h0; omega
      | ext t =>
        obtain ⟨ye, mo, da, ho, mi, se, us, tz⟩ := t
        have hye : ye = 2000 := hv.1
        simp only [T.fields, T.tz] at h1 h2 h3 h4 h5 h6 h7
        subst hye h1 h2 h3 h4 h5 h6 h7
        have hv' := (ext_valid hv).1
        have hm : y.replace 2000 c = .ok _ := mkDateTime_ok.mpr ⟨rfl, hv'⟩
        rw [hm]
        simp only [bind, Except.bind]
        rw [fromY2k_2000 rfl]
        simp only [mkExt, ne_eq, not_true_eq_false, if_false]
        rw [mkDateTime_ok.mpr ⟨rfl, hv'⟩]
        rfl
  have h1 : extReplace y none c = (do let t ← y.replace 2000 c; fromY2k t) := by unfold extReplace; rfl
  have h2 : extReplace y (some 0) c = (do let t ← y.replace 2000 c; fromY2k t) := by unfold extReplace; rfl
  cases year with
  | none => rw [h1, Option.getD_none]; exact hzero r
  | some n =>
    cases n with
    | zero => rw [h2]; simp only [Option.getD_some]; exact hzero r
    | succ n =>
      have h3 : extReplace y (some (n + 1)) c = (do let t ← y.replace (n + 1) c; .ok (.dt t)) := by unfold extReplace; rfl
      rw [h3, Option.getD_some]
      constructor
      · intro h
        cases hm : y.replace (n + 1) c with
        | error e => rw [hm] at h; cases h
        | ok t =>
          rw [hm] at h
          obtain ⟨rfl, hv⟩ := mkDateTime_ok.mp hm
          cases h
          exact ⟨(DateTime.valid_iff _).mp hv, rfl, rfl, rfl, rfl, rfl, rfl, rfl, rfl⟩
      · rintro ⟨hv, h0, h1, h2, h3, h4, h5, h6, h7⟩
        cases r with
        | ext t => simp [T.year] at h0
        | dt t =>
          obtain ⟨ye, mo, da, ho, mi, se, us, tz⟩ := t
          simp only [T.fields, T.tz, T.year] at h0 h1 h2 h3 h4 h5 h6 h7
          subst h0 h1 h2 h3 h4 h5 h6 h7
          have hm : y.replace (n + 1) c = .ok _ := mkDateTime_ok.mpr ⟨rfl, (DateTime.valid_iff _).mpr hv⟩
          rw [hm]
          rfl

/-- Non-vacuity: 29 February of the year 0 cannot be moved to the year 1, but to the year 4. -/
example : extReplace ⟨2000, 2, 29, 0, 0, 0, 0, none⟩ (some 1) {} = .error .valueError ∧
    extReplace ⟨2000, 2, 29, 0, 0, 0, 0, none⟩ (some 4) { tz := some (some 0) } = .ok (.dt ⟨4, 2, 29, 0, 0, 0, 0, some 0⟩) := by decide +kernel

/-- The same for dates. -/
theorem C29_date_replace (m d : Nat) (year month day : Option Nat) (r : D) :
    dateReplace m d year month day = .ok r ↔ DateValid r ∧
      (r = .ext (month.getD m) (day.getD d) ∧ year.getD 0 = 0 ∨ r = .date (year.getD 0) (month.getD m) (day.getD d)) := by
  simp only [dateReplace, C29_date_new]
  by_cases h0 : year.getD 0 = 0
  · simp only [h0, gt_iff_lt, Nat.lt_irrefl, not_false_eq_true, decide_true, if_true, and_true]
    constructor
    · rintro ⟨rfl, hv, _⟩; exact ⟨hv, .inl rfl⟩
    · rintro ⟨hv, rfl | rfl⟩
      · exact ⟨rfl, hv, fun _ => trivial⟩
      · exact absurd hv.1 (by omega)
  · have h1 : ¬ (¬ year.getD 0 > 0) := by omega
    simp only [h0, decide_eq_true_eq, h1, if_false, and_false, false_or]
    constructor
    · rintro ⟨rfl, hv, _⟩; exact ⟨hv, rfl⟩
    · rintro ⟨hv, rfl⟩; exact ⟨rfl, hv, fun h => absurd h (by simp)⟩

/-- `timestamp` of a time with a timezone is the distance of its instant from the beginning of 1970 (UTC). -/
theorem C29_timestamp {y : DateTime} (hy : T.Valid (.ext y)) {off : Int} (ho : y.tz = some off) :
    extTimestamp y off = T.instant (.ext y) - clock 1970 1 1 0 0 0 0 := by
  have h := clock_naive (t := ⟨1970, 1, 1, 0, 0, 0, 0, none⟩) (by decide) (by unfold IsDate; decide)
  have h' : clock 1970 1 1 0 0 0 0 = DateTime.naive ⟨1970, 1, 1, 0, 0, 0, 0, none⟩ + us365 := h
  rw [h']
  unfold extTimestamp T.instant
  rw [local_ext hy]
  simp only [T.tz, ho, Option.getD_some]
  have h2 : us2000 = 5 * 146097 * usDay := by decide
  rw [h2]
  omega

end Asn1.Time
