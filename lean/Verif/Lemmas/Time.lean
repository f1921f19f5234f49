import Verif.Spec.Time
import Verif.Lemmas.PyStr

namespace Asn1.Time
open Asn1 Asn1.Spec

/-! ### Calendar -/

theorem isLeap_iff (y : Nat) : isLeap y = true ↔ Leap y := by
  unfold isLeap Leap
  simp only [Bool.and_eq_true, Bool.or_eq_true, decide_eq_true_eq, Nat.dvd_iff_mod_eq_zero, ne_eq]

theorem leap_iff (y : Nat) : Leap y ↔ y % 4 = 0 ∧ (y % 100 ≠ 0 ∨ y % 400 = 0) := by
  unfold Leap
  simp only [Nat.dvd_iff_mod_eq_zero, ne_eq]

theorem daysBeforeYear_succ (y : Nat) (h : 1 ≤ y) : daysBeforeYear (y + 1) = daysBeforeYear y + yearLength y := by
  obtain ⟨k, rfl⟩ : ∃ k, y = k + 1 := ⟨y - 1, by omega⟩
  unfold daysBeforeYear yearLength
  simp only [leap_iff, Nat.add_sub_cancel]
  have d4 : (k + 1) / 4 = k / 4 + if (k + 1) % 4 = 0 then 1 else 0 := by split <;> omega
  have d100 : (k + 1) / 100 = k / 100 + if (k + 1) % 100 = 0 then 1 else 0 := by split <;> omega
  have d400 : (k + 1) / 400 = k / 400 + if (k + 1) % 400 = 0 then 1 else 0 := by split <;> omega
  have m1 : (k + 1) % 400 = 0 → (k + 1) % 100 = 0 := by omega
  have m2 : (k + 1) % 100 = 0 → (k + 1) % 4 = 0 := by omega
  have l1 : k / 100 ≤ k * 365 + k / 4 := by omega
  rw [d4, d100, d400]
  generalize (k + 1) % 4 = x at *
  generalize (k + 1) % 100 = y at *
  generalize (k + 1) % 400 = z at *
  generalize k / 4 = a at *
  generalize k / 100 = b at *
  generalize k / 400 = c at *
  clear d4 d100 d400
  by_cases hz : z = 0
  · have hy := m1 hz
    have hx := m2 hy
    subst hz hy hx
    simp
    omega
  · by_cases hy : y = 0
    · have hx := m2 hy
      subst hy hx
      simp [hz]
      omega
    · by_cases hx : x = 0
      · subst hx
        simp [hy, hz]
        omega
      · simp [hx, hy, hz]
        omega

theorem sum_yearLength (y : Nat) (h : 1 ≤ y) : sumBelow yearLength y = 366 + daysBeforeYear y := by
  induction y with
  | zero => omega
  | succ y ih =>
    rcases Nat.eq_zero_or_pos y with rfl | hy
    · decide
    · rw [sumBelow, ih hy, daysBeforeYear_succ y hy]; omega

theorem monthTables (leap : Bool) : ∀ m, 1 ≤ m → m ≤ 12 →
    sumBelow (fun k => if k + 1 = 2 then (if leap then 29 else 28) else if k + 1 ∈ [4, 6, 9, 11] then 30 else 31) (m - 1) =
      daysBeforeMonthTable.getD m 0 + (if m > 2 && leap then 1 else 0) ∧
    (if m = 2 && leap then 29 else daysInMonthTable.getD m 0) =
      (if m = 2 then (if leap then 29 else 28) else if m ∈ [4, 6, 9, 11] then 30 else 31) := by
  intro m h1 h2
  have : ∀ m < 13, 1 ≤ m → 
    sumBelow (fun k => if k + 1 = 2 then (if leap then 29 else 28) else if k + 1 ∈ [4, 6, 9, 11] then 30 else 31) (m - 1) =
      daysBeforeMonthTable.getD m 0 + (if m > 2 && leap then 1 else 0) ∧
    (if m = 2 && leap then 29 else daysInMonthTable.getD m 0) =
      (if m = 2 then (if leap then 29 else 28) else if m ∈ [4, 6, 9, 11] then 30 else 31) := by
    cases leap <;> decide
  exact this m (by omega) h1

theorem monthLength_eq (y m : Nat) :
    monthLength y m = if m = 2 then (if isLeap y then 29 else 28) else if m ∈ [4, 6, 9, 11] then 30 else 31 := by
  unfold monthLength
  simp only [isLeap_iff]

theorem daysInMonth_eq (y m : Nat) (h1 : 1 ≤ m) (h2 : m ≤ 12) : daysInMonth y m = monthLength y m := by
  rw [monthLength_eq, ← (monthTables (isLeap y) m h1 h2).2]; rfl

theorem sum_monthLength (y m : Nat) (h1 : 1 ≤ m) (h2 : m ≤ 12) :
    sumBelow (fun k => monthLength y (k + 1)) (m - 1) = daysBeforeMonth y m := by
  simp only [monthLength_eq]
  rw [(monthTables (isLeap y) m h1 h2).1]; rfl

/-- The ordinal counts days. -/
theorem ymd2ord_eq {y m d : Nat} (hy : 1 ≤ y) (h : IsDate y m d) : ymd2ord y m d + 365 = dayCount y m d := by
  unfold ymd2ord dayCount
  rw [sum_yearLength y hy, sum_monthLength y m h.1 h.2.1]
  have := h.2.2.1
  omega

/-- Day of the year. -/
theorem monthDay_spec (leap : Bool) (n : Nat) (h : n < if leap then 366 else 365) :
    1 ≤ (monthDay leap n).1 ∧ (monthDay leap n).1 ≤ 12 ∧ 1 ≤ (monthDay leap n).2 ∧
    (monthDay leap n).2 ≤ (if (monthDay leap n).1 = 2 && leap then 29 else daysInMonthTable.getD (monthDay leap n).1 0) ∧
    daysBeforeMonthTable.getD (monthDay leap n).1 0 + (if (monthDay leap n).1 > 2 && leap then 1 else 0) + (monthDay leap n).2 = n + 1 := by
  cases leap
  · have : ∀ n < 365, 1 ≤ (monthDay false n).1 ∧ (monthDay false n).1 ≤ 12 ∧ 1 ≤ (monthDay false n).2 ∧
      (monthDay false n).2 ≤ (if (monthDay false n).1 = 2 && false then 29 else daysInMonthTable.getD (monthDay false n).1 0) ∧
      daysBeforeMonthTable.getD (monthDay false n).1 0 + (if (monthDay false n).1 > 2 && false then 1 else 0) + (monthDay false n).2 = n + 1 := by
      decide +kernel
    exact this n h
  · have : ∀ n < 366, 1 ≤ (monthDay true n).1 ∧ (monthDay true n).1 ≤ 12 ∧ 1 ≤ (monthDay true n).2 ∧
      (monthDay true n).2 ≤ (if (monthDay true n).1 = 2 && true then 29 else daysInMonthTable.getD (monthDay true n).1 0) ∧
      daysBeforeMonthTable.getD (monthDay true n).1 0 + (if (monthDay true n).1 > 2 && true then 1 else 0) + (monthDay true n).2 = n + 1 := by
      decide +kernel
    exact this n h

theorem ord2ymd_spec (n : Nat) (h : 1 ≤ n) :
    1 ≤ (ord2ymd n).1 ∧ IsDate (ord2ymd n).1 (ord2ymd n).2.1 (ord2ymd n).2.2 ∧
      ymd2ord (ord2ymd n).1 (ord2ymd n).2.1 (ord2ymd n).2.2 = n := by
  obtain ⟨k, rfl⟩ : ∃ k, n = k + 1 := ⟨n - 1, by omega⟩
  unfold ord2ymd
  simp only [Nat.add_sub_cancel]
  generalize ha : k / 146097 = a
  generalize hr1 : k % 146097 = r1
  generalize hb : r1 / 36524 = b
  generalize hr2 : r1 % 36524 = r2
  generalize hc : r2 / 1461 = c
  generalize hr3 : r2 % 1461 = r3
  generalize he : r3 / 365 = e
  generalize hr4 : r3 % 365 = r4
  have hk : k = 146097 * a + r1 := by omega
  have h1 : r1 = 36524 * b + r2 := by omega
  have h2 : r2 = 1461 * c + r3 := by omega
  have h3 : r3 = 365 * e + r4 := by omega
  have l1 : r1 < 146097 := by omega
  have l2 : r2 < 36524 := by omega
  have l3 : r3 < 1461 := by omega
  have l4 : r4 < 365 := by omega
  clear ha hr1 hb hr2 hc hr3 he hr4
  split
  · rename_i hx
    simp only
    have hy : Leap (a * 400 + 1 + b * 100 + c * 4 + e - 1) := by
      rw [leap_iff]
      rcases hx with rfl | rfl
      · have hc : c < 25 := by omega
        have hb : b ≤ 3 := by omega
        have hc' : c ≠ 24 ∨ b = 3 := by omega
        clear hk h1 h2 h3 l1 l2 l3 l4
        omega
      · have : c = 0 ∧ e = 0 := by omega
        omega
    refine ⟨by omega, ⟨by decide, by decide, by decide, ?_⟩, ?_⟩
    · simp [monthLength]
    · unfold ymd2ord daysBeforeMonth daysBeforeYear
      rw [(isLeap_iff _).mpr hy]
      have : daysBeforeMonthTable.getD 12 0 = 334 := rfl
      rw [this]
      simp only [gt_iff_lt, Bool.and_true]
      have q0 : a * 400 + 1 + b * 100 + c * 4 + e - 1 - 1 = a * 400 + (b * 100 + c * 4 + e - 1) := by omega
      rw [q0]
      rcases hx with rfl | rfl
      · have hc : c < 25 := by omega
        have hb : b ≤ 3 := by omega
        have q1 : (a * 400 + (b * 100 + c * 4 + 4 - 1)) / 4 = a * 100 + b * 25 + c := by omega
        have q2 : (a * 400 + (b * 100 + c * 4 + 4 - 1)) / 100 = a * 4 + b := by omega
        have q3 : (a * 400 + (b * 100 + c * 4 + 4 - 1)) / 400 = a := by omega
        rw [q1, q2, q3]
        simp; omega
      · obtain ⟨rfl, rfl⟩ : c = 0 ∧ e = 0 := by omega
        have q1 : (a * 400 + (4 * 100 + 0 * 4 + 0 - 1)) / 4 = a * 100 + 99 := by omega
        have q2 : (a * 400 + (4 * 100 + 0 * 4 + 0 - 1)) / 100 = a * 4 + 3 := by omega
        have q3 : (a * 400 + (4 * 100 + 0 * 4 + 0 - 1)) / 400 = a := by omega
        rw [q1, q2, q3]
        simp; omega
  · rename_i hx
    push Not at hx
    have hleap : (e = 3 && (c ≠ 24 || b = 3)) = isLeap (a * 400 + 1 + b * 100 + c * 4 + e) := by
      rw [Bool.eq_iff_iff, isLeap_iff, leap_iff]
      simp only [Bool.and_eq_true, Bool.or_eq_true, decide_eq_true_eq]
      omega
    rw [hleap]
    have hm := monthDay_spec (isLeap (a * 400 + 1 + b * 100 + c * 4 + e)) r4 (by split <;> omega)
    simp only
    generalize monthDay (isLeap (a * 400 + 1 + b * 100 + c * 4 + e)) r4 = md at hm ⊢
    obtain ⟨m, d⟩ := md
    obtain ⟨m1, m2, m3, m4, m5⟩ := hm
    simp only at m1 m2 m3 m4 m5 ⊢
    refine ⟨by omega, ⟨m1, m2, m3, ?_⟩, ?_⟩
    · rw [← daysInMonth_eq _ _ m1 m2]; exact m4
    · unfold ymd2ord daysBeforeMonth
      generalize hw : (if (m > 2 && isLeap (a * 400 + 1 + b * 100 + c * 4 + e)) = true then 1 else 0) = w at m5 ⊢
      have hc : c < 25 := by omega
      have hb : b ≤ 3 := by omega
      have he : e ≤ 3 := by omega
      have q1 : (a * 400 + 1 + b * 100 + c * 4 + e - 1) / 4 = a * 100 + b * 25 + c := by omega
      have q2 : (a * 400 + 1 + b * 100 + c * 4 + e - 1) / 100 = a * 4 + b := by omega
      have q3 : (a * 400 + 1 + b * 100 + c * 4 + e - 1) / 400 = a := by omega
      unfold daysBeforeYear
      rw [q1, q2, q3]
      clear hw hleap q1 q2 q3
      omega

theorem daysBeforeYear_mono {y y' : Nat} (h1 : 1 ≤ y) (h : y < y') : daysBeforeYear y + yearLength y ≤ daysBeforeYear y' := by
  induction y' with
  | zero => omega
  | succ z ih =>
    rcases Nat.lt_or_ge y z with hl | hl
    · rw [daysBeforeYear_succ z (by omega)]
      have := ih hl
      omega
    · obtain rfl : y = z := by omega
      rw [daysBeforeYear_succ y h1]

theorem dayOfYear_le {y m d : Nat} (h : IsDate y m d) : 1 ≤ daysBeforeMonth y m + d ∧ daysBeforeMonth y m + d ≤ yearLength y := by
  obtain ⟨h1, h2, h3, h4⟩ := h
  have hy : yearLength y = if isLeap y then 366 else 365 := by unfold yearLength; simp only [isLeap_iff]
  rw [hy]
  rw [← daysInMonth_eq _ _ h1 h2] at h4
  unfold daysInMonth at h4
  unfold daysBeforeMonth
  generalize isLeap y = leap at *
  have key : ∀ m < 13, 1 ≤ m → daysBeforeMonthTable.getD m 0 + (if m > 2 && leap then 1 else 0) +
      (if m = 2 && leap then 29 else daysInMonthTable.getD m 0) ≤ if leap then 366 else 365 := by
    cases leap <;> decide
  have := key m (by omega) h1
  omega

theorem monthDay_unique {leap : Bool} {m d m' d' : Nat} (h1 : 1 ≤ m) (h2 : m ≤ 12) (h3 : 1 ≤ d)
    (h4 : d ≤ if m = 2 && leap then 29 else daysInMonthTable.getD m 0) (h1' : 1 ≤ m') (h2' : m' ≤ 12) (h3' : 1 ≤ d')
    (h4' : d' ≤ if m' = 2 && leap then 29 else daysInMonthTable.getD m' 0)
    (h : daysBeforeMonthTable.getD m 0 + (if m > 2 && leap then 1 else 0) + d =
      daysBeforeMonthTable.getD m' 0 + (if m' > 2 && leap then 1 else 0) + d') : m = m' ∧ d = d' := by
  have key : ∀ m < 13, 1 ≤ m → ∀ m' < 13, m < m' →
      daysBeforeMonthTable.getD m 0 + (if m > 2 && leap then 1 else 0) + (if m = 2 && leap then 29 else daysInMonthTable.getD m 0) ≤
      daysBeforeMonthTable.getD m' 0 + (if m' > 2 && leap then 1 else 0) := by
    cases leap <;> decide
  rcases Nat.lt_trichotomy m m' with hl | rfl | hl
  · have := key m (by omega) h1 m' (by omega) hl
    omega
  · exact ⟨rfl, by omega⟩
  · have := key m' (by omega) h1' m (by omega) hl
    omega

theorem ymd2ord_inj {y m d y' m' d' : Nat} (hy : 1 ≤ y) (h : IsDate y m d) (hy' : 1 ≤ y') (h' : IsDate y' m' d')
    (he : ymd2ord y m d = ymd2ord y' m' d') : y = y' ∧ m = m' ∧ d = d' := by
  have a := dayOfYear_le h
  have a' := dayOfYear_le h'
  unfold ymd2ord at he
  rcases Nat.lt_trichotomy y y' with hl | rfl | hl
  · have := daysBeforeYear_mono hy hl; omega
  · refine ⟨rfl, ?_⟩
    have h4 := h.2.2.2
    have h4' := h'.2.2.2
    rw [← daysInMonth_eq _ _ h.1 h.2.1] at h4
    rw [← daysInMonth_eq _ _ h'.1 h'.2.1] at h4'
    exact monthDay_unique h.1 h.2.1 h.2.2.1 h4 h'.1 h'.2.1 h'.2.2.1 h4' (by unfold daysBeforeMonth at he; omega)
  · have := daysBeforeYear_mono hy' hl; omega

theorem ord2ymd_ymd2ord {y m d : Nat} (hy : 1 ≤ y) (h : IsDate y m d) : ord2ymd (ymd2ord y m d) = (y, m, d) := by
  have hp : 1 ≤ ymd2ord y m d := by have := dayOfYear_le h; unfold ymd2ord; omega
  obtain ⟨h1, h2, h3⟩ := ord2ymd_spec _ hp
  obtain ⟨e1, e2, e3⟩ := ymd2ord_inj h1 h2 hy h h3
  rw [Prod.ext_iff, Prod.ext_iff]
  exact ⟨e1, e2, e3⟩

/-! ### 2000 years -/

theorem leap_2000 (y : Nat) : Leap (y + 2000) ↔ Leap y := by
  simp only [leap_iff]
  have h1 : (y + 2000) % 4 = y % 4 := by omega
  have h2 : (y + 2000) % 100 = y % 100 := by omega
  have h3 : (y + 2000) % 400 = y % 400 := by omega
  rw [h1, h2, h3]

theorem monthLength_2000 (y m : Nat) : monthLength (y + 2000) m = monthLength y m := by
  unfold monthLength; simp only [leap_2000]

theorem isDate_2000 {y m d : Nat} : IsDate (y + 2000) m d ↔ IsDate y m d := by
  unfold IsDate; rw [monthLength_2000]

theorem sum_2000 (y : Nat) : sumBelow yearLength (y + 2000) = sumBelow yearLength y + 730485 := by
  induction y with
  | zero =>
    rw [Nat.zero_add, sum_yearLength 2000 (by omega)]; rfl
  | succ y ih =>
    have : yearLength (y + 2000) = yearLength y := by unfold yearLength; simp only [leap_2000]
    have e1 : sumBelow yearLength (y + 1 + 2000) = sumBelow yearLength (y + 2000) + yearLength (y + 2000) := by
      rw [show y + 1 + 2000 = (y + 2000) + 1 by omega]; rfl
    have e2 : sumBelow yearLength (y + 1) = sumBelow yearLength y + yearLength y := rfl
    omega

theorem dayCount_2000 (y m d : Nat) : dayCount (y + 2000) m d = dayCount y m d + 730485 := by
  unfold dayCount
  simp only [monthLength_2000, sum_2000]
  omega

/-! ### Microseconds -/

theorem DateTime.valid_iff (t : DateTime) : t.Valid ↔ T.Valid (.dt t) := by
  unfold DateTime.Valid T.Valid IsDate
  simp only [T.year, T.fields]
  constructor
  · rintro ⟨h1, h2, h3, h4, h5, h6, h7⟩
    rw [daysInMonth_eq _ _ h3 h4] at h6
    exact ⟨⟨h1, h2⟩, ⟨h3, h4, h5, h6⟩, h7⟩
  · rintro ⟨⟨h1, h2⟩, ⟨h3, h4, h5, h6⟩, h7⟩
    rw [← daysInMonth_eq _ _ h3 h4] at h6
    exact ⟨h1, h2, h3, h4, h5, h6, h7⟩

theorem DateTime.Valid.isDate {t : DateTime} (h : t.Valid) : IsDate t.year t.month t.day := ((DateTime.valid_iff t).mp h).2.1

/-- 365 days. -/
def us365 : Int := 31536000000000

theorem clock_naive {t : DateTime} (hy : 1 ≤ t.year) (h : IsDate t.year t.month t.day) :
    DateTime.clock t.year t = t.naive + us365 := by
  have := ymd2ord_eq hy h
  unfold DateTime.clock clock DateTime.naive us365 usDay
  rw [← this]
  push_cast
  omega

/-- The 2000 years of an `extended_datetime`. -/
def us2000 : Int := 63113904000000000

theorem clock_2000 (y : Nat) (t : DateTime) : DateTime.clock (y + 2000) t = DateTime.clock y t + us2000 := by
  unfold DateTime.clock clock us2000
  rw [dayCount_2000]
  push_cast
  omega

theorem local_dt {t : DateTime} (h : t.Valid) : T.local (.dt t) = t.naive + us365 := clock_naive h.1 h.isDate

theorem ext_valid {y : DateTime} (h : T.Valid (.ext y)) : y.Valid ∧ y.year = 2000 := by
  refine ⟨(DateTime.valid_iff y).mpr ?_, h.1⟩
  have h1 : y.year = 2000 := h.1
  refine ⟨⟨by omega, by omega⟩, ?_, h.2.2⟩
  show IsDate y.year _ _
  rw [h1]
  exact (isDate_2000 (y := 0)).mpr h.2.1

theorem valid_ext {y : DateTime} (h : y.Valid) (h2 : y.year = 2000) : T.Valid (.ext y) := by
  refine ⟨h2, ?_, ((DateTime.valid_iff y).mp h).2.2⟩
  have := h.isDate
  rw [h2] at this
  exact (isDate_2000 (y := 0)).mp this

theorem local_ext {y : DateTime} (h : T.Valid (.ext y)) : T.local (.ext y) = y.naive + us365 - us2000 := by
  obtain ⟨h1, h2⟩ := ext_valid h
  rw [← clock_naive h1.1 h1.isDate, h2, clock_2000 0]
  unfold T.local
  simp [T.year, T.fields]

theorem naive_day {t : DateTime} (h : t.Valid) : t.naive / usDay = ymd2ord t.year t.month t.day ∧
    t.naive % usDay = t.hour * 3600000000 + t.minute * 60000000 + t.second * 1000000 + t.micro := by
  obtain ⟨_, _, _, _, _, _, h7, h8, h9, h10⟩ := h
  unfold DateTime.naive usDay
  generalize (ymd2ord t.year t.month t.day : Int) = n
  constructor <;> omega

theorem ymd2ord_le {y m d : Nat} (hy : 1 ≤ y) (h : IsDate y m d) (h2 : y ≤ 9999) : ymd2ord y m d ≤ 3652059 := by
  have a := dayOfYear_le h
  have b := daysBeforeYear_mono (y' := 10000) hy (by omega)
  have c : daysBeforeYear 10000 = 3652059 := by decide
  unfold ymd2ord
  omega

theorem ofNaive_naive {t : DateTime} (h : t.Valid) : ofNaive t.naive t.tz = .ok t := by
  obtain ⟨h1, h2⟩ := naive_day h
  have hd := h.isDate
  have hle := ymd2ord_le h.1 hd h.2.1
  have hge : 1 ≤ ymd2ord t.year t.month t.day := by have := dayOfYear_le hd; unfold ymd2ord; omega
  unfold ofNaive
  simp only [h1, h2]
  rw [if_pos ⟨by omega, by omega⟩, Int.toNat_natCast, ord2ymd_ymd2ord h.1 hd]
  have hr : ((t.hour : Int) * 3600000000 + t.minute * 60000000 + t.second * 1000000 + t.micro).toNat =
      t.hour * 3600000000 + t.minute * 60000000 + t.second * 1000000 + t.micro := by omega
  rw [hr]
  obtain ⟨_, _, _, _, _, _, h7, h8, h9, h10⟩ := h
  obtain ⟨y, mo, d, hh, mm, ss, us, tz⟩ := t
  simp only at *
  congr 2 <;> omega

theorem ofNaive_ok {us : Int} {tz : Option Int} {r : DateTime} (h : ofNaive us tz = .ok r) :
    r.Valid ∧ r.naive = us ∧ r.tz = tz := by
  unfold ofNaive at h
  simp only at h
  split at h
  · rename_i hr
    injection h with h
    subst h
    have hp : 1 ≤ (us / usDay).toNat := by omega
    obtain ⟨h1, h2, h3⟩ := ord2ymd_spec _ hp
    have hy : (ord2ymd (us / usDay).toNat).1 ≤ 9999 := by
      by_contra hc
      have a := dayOfYear_le h2
      have c : daysBeforeYear 10000 = 3652059 := by decide
      have b : daysBeforeYear 10000 ≤ daysBeforeYear (ord2ymd (us / usDay).toNat).1 := by
        rcases Nat.lt_or_ge 10000 (ord2ymd (us / usDay).toNat).1 with hl | hl
        · have := daysBeforeYear_mono (y := 10000) (by omega) hl; omega
        · have : (ord2ymd (us / usDay).toNat).1 = 10000 := by omega
          rw [this]
      unfold ymd2ord at h3
      omega
    have hm : us % usDay < usDay ∧ 0 ≤ us % usDay :=
      ⟨Int.emod_lt_of_pos _ (by decide), Int.emod_nonneg _ (by decide)⟩
    refine ⟨?_, ?_, rfl⟩
    · rw [DateTime.valid_iff]
      refine ⟨⟨h1, hy⟩, h2, ?_, ?_, ?_, ?_⟩ <;> simp only [T.fields] <;> unfold usDay at * <;> omega
    · unfold DateTime.naive
      simp only
      rw [h3]
      unfold usDay at *
      omega
  · cases h

theorem ofNaive_total {us : Int} (h1 : usDay ≤ us) (h2 : us < 3652060 * usDay) (tz : Option Int) : ∃ r, ofNaive us tz = .ok r := by
  unfold ofNaive
  simp only
  rw [if_pos]
  · exact ⟨_, rfl⟩
  · unfold usDay at *; omega

theorem ofNaive_error {us : Int} {tz : Option Int} {e : PyErr} (h : ofNaive us tz = .error e) :
    e = .overflowError ∧ (us < usDay ∨ 3652060 * usDay ≤ us) := by
  unfold ofNaive at h
  simp only at h
  split at h
  · cases h
  · rename_i hr
    injection h with h
    refine ⟨h.symm, ?_⟩
    unfold usDay at *
    omega

theorem naive_range {t : DateTime} (h : t.Valid) : usDay ≤ t.naive ∧ t.naive < 3652060 * usDay := by
  have hd := h.isDate
  have hle := ymd2ord_le h.1 hd h.2.1
  have hge : 1 ≤ ymd2ord t.year t.month t.day := by have := dayOfYear_le hd; unfold ymd2ord; omega
  obtain ⟨_, _, _, _, _, _, h7, h8, h9, h10⟩ := h
  unfold DateTime.naive usDay
  constructor <;> omega

/-- Reverting the substitution of the year 2000. -/
theorem fromY2k_ok {v : DateTime} (h : v.Valid) (h2 : 2000 ≤ v.year) :
    ∃ t, fromY2k v = .ok t ∧ T.Valid t ∧ T.local t = v.naive + us365 - us2000 ∧ t.tz = v.tz ∧ t.fields.micro = v.micro := by
  unfold fromY2k
  simp only
  have hcl := clock_naive h.1 h.isDate
  by_cases hy : v.year = 2000
  · rw [if_neg (by omega), show (v.year : Int) - 2000 = 0 by omega]
    have hv : { v with year := 2000 } = v := by rw [← hy]
    unfold mkExt
    rw [if_neg (by simp), hv, mkDateTime, if_pos h]
    refine ⟨.ext v, rfl, valid_ext h hy, ?_, rfl, rfl⟩
    exact local_ext (valid_ext h hy)
  · rw [if_pos (by omega)]
    obtain ⟨k, hk⟩ : ∃ k, v.year = k + 2000 := ⟨v.year - 2000, by omega⟩
    have hk' : ((v.year : Int) - 2000).toNat = k := by omega
    rw [hk']
    have hval : T.Valid (.dt { v with year := k }) := by
      refine ⟨⟨by simp; omega, by have := h.2.1; simp; omega⟩, ?_, ((DateTime.valid_iff v).mp h).2.2⟩
      have := h.isDate
      rw [hk] at this
      exact isDate_2000.mp this
    rw [mkDateTime, if_pos ((DateTime.valid_iff _).mpr hval)]
    refine ⟨.dt { v with year := k }, rfl, hval, ?_, rfl, rfl⟩
    rw [← hcl, hk, clock_2000]
    show DateTime.clock k { v with year := k } = _
    unfold DateTime.clock
    simp

theorem fromY2k_early {v : DateTime} (h2 : v.year < 2000) : fromY2k v = .error .valueError := by
  unfold fromY2k mkExt
  simp only
  rw [if_neg (by omega), if_pos (by omega)]

theorem naive_2000 {v : DateTime} (h : v.Valid) : 2000 ≤ v.year ↔ us2000 - us365 ≤ v.naive := by
  have hd := h.isDate
  have a := dayOfYear_le hd
  have c : daysBeforeYear 2000 = 730119 := by decide
  have hn := (naive_day h).1
  have hm := Int.emod_nonneg v.naive (b := usDay) (by decide)
  have hm2 := Int.emod_lt_of_pos v.naive (b := usDay) (by decide)
  have hsplit := Int.mul_ediv_add_emod v.naive usDay
  rw [hn] at hsplit
  unfold ymd2ord at hsplit
  constructor
  · intro hy
    have b : daysBeforeYear 2000 ≤ daysBeforeYear v.year := by
      rcases Nat.lt_or_ge 2000 v.year with hl | hl
      · have := daysBeforeYear_mono (y := 2000) (by omega) hl; omega
      · have : v.year = 2000 := by omega
        rw [this]
    unfold us2000 us365 usDay at *
    push_cast at hsplit
    omega
  · intro hu
    by_contra hc
    have b := daysBeforeYear_mono (y := v.year) (y' := 2000) h.1 (by omega)
    unfold us2000 us365 usDay at *
    push_cast at hsplit
    omega

/-- The range of what addition to a time can produce. -/
def addLow : T → Int
  | .dt _ => usDay + us365
  | .ext _ => 0

def addHigh : T → Int
  | .dt _ => 3652060 * usDay + us365
  | .ext _ => 3652060 * usDay + us365 - us2000

theorem T.add_ok {t : T} (h : T.Valid t) {d : Int} {r : T} (hr : t.add d = .ok r) :
    T.Valid r ∧ T.local r = T.local t + d ∧ r.tz = t.tz := by
  cases t with
  | dt t =>
    simp only [T.add] at hr
    cases ha : t.add d with
    | error e => rw [ha] at hr; cases hr
    | ok v =>
      rw [ha] at hr
      injection hr with hr
      subst hr
      obtain ⟨h1, h2, h3⟩ := ofNaive_ok ha
      have hv := (DateTime.valid_iff t).mpr h
      refine ⟨(DateTime.valid_iff v).mp h1, ?_, h3⟩
      rw [local_dt h1, local_dt hv, h2]; omega
  | ext y =>
    simp only [T.add] at hr
    obtain ⟨hv, hy⟩ := ext_valid h
    cases ha : y.add d with
    | error e => rw [ha] at hr; cases hr
    | ok v =>
      rw [ha] at hr
      obtain ⟨h1, h2, h3⟩ := ofNaive_ok ha
      by_cases hvy : 2000 ≤ v.year
      · obtain ⟨t, e1, e2, e3, e4, _⟩ := fromY2k_ok h1 hvy
        have : fromY2k v = .ok r := hr
        rw [e1] at this
        injection this with this
        subst this
        refine ⟨e2, ?_, e4.trans h3⟩
        rw [e3, h2, local_ext h]; omega
      · have : fromY2k v = .ok r := hr
        rw [fromY2k_early (by omega)] at this
        cases this

theorem T.add_total {t : T} (h : T.Valid t) {d : Int} :
    (∃ r, t.add d = .ok r) ↔ addLow t ≤ T.local t + d ∧ T.local t + d < addHigh t := by
  cases t with
  | dt t =>
    have hv := (DateTime.valid_iff t).mpr h
    rw [local_dt hv]
    simp only [T.add, DateTime.add, addLow, addHigh]
    constructor
    · rintro ⟨r, hr⟩
      cases ha : ofNaive (t.naive + d) t.tz with
      | error e => rw [ha] at hr; cases hr
      | ok v =>
        obtain ⟨h1, h2, h3⟩ := ofNaive_ok ha
        have := naive_range h1
        rw [h2] at this
        omega
    · intro hr
      obtain ⟨v, hv⟩ := ofNaive_total (us := t.naive + d) (by omega) (by omega) t.tz
      exact ⟨.dt v, by rw [hv]; rfl⟩
  | ext y =>
    obtain ⟨hv, hy⟩ := ext_valid h
    rw [local_ext h]
    simp only [T.add, DateTime.add, addLow, addHigh]
    constructor
    · rintro ⟨r, hr⟩
      cases ha : ofNaive (y.naive + d) y.tz with
      | error e => rw [ha] at hr; cases hr
      | ok v =>
        rw [ha] at hr
        obtain ⟨h1, h2, h3⟩ := ofNaive_ok ha
        have hrange := naive_range h1
        rw [h2] at hrange
        by_cases hvy : 2000 ≤ v.year
        · have := (naive_2000 h1).mp hvy
          rw [h2] at this
          omega
        · have : fromY2k v = .ok r := hr
          rw [fromY2k_early (by omega)] at this
          cases this
    · intro hr
      obtain ⟨v, hv⟩ := ofNaive_total (us := y.naive + d) (by unfold usDay us2000 us365 at *; omega) (by omega) y.tz
      obtain ⟨h1, h2, h3⟩ := ofNaive_ok hv
      obtain ⟨t, e1, _⟩ := fromY2k_ok h1 ((naive_2000 h1).mpr (by omega))
      exact ⟨t, by rw [hv]; exact e1⟩

theorem sub_ok {a b : DateTime} (h : a.tz.isNone = b.tz.isNone) :
    a.sub b = .ok (a.naive - b.naive + b.tz.getD 0 - a.tz.getD 0) := by
  unfold DateTime.sub
  cases ha : a.tz <;> cases hb : b.tz <;> rw [ha, hb] at h
  · simp
  · simp at h
  · simp at h
  · simp

theorem sub_error {a b : DateTime} (h : a.tz.isNone ≠ b.tz.isNone) : a.sub b = .error .typeError := by
  unfold DateTime.sub
  cases ha : a.tz <;> cases hb : b.tz <;> simp [ha, hb] at h ⊢

theorem us2000_eq : daysIn2000Years * usDay = us2000 := by decide

theorem T.sub_ok {a b : T} (ha : T.Valid a) (hb : T.Valid b) (h : a.tz.isNone = b.tz.isNone) :
    a.sub b = .ok (T.instant a - T.instant b) := by
  cases a with
  | dt a =>
    have hva := (DateTime.valid_iff a).mpr ha
    cases b with
    | dt b =>
      have hvb := (DateTime.valid_iff b).mpr hb
      simp only [T.sub, T.instant]
      rw [Time.sub_ok h, local_dt hva, local_dt hvb]
      simp only [T.tz]
      exact congrArg Except.ok (by omega)
    | ext b =>
      simp only [T.sub, extSub, T.instant]
      have : b.sub a = _ := Time.sub_ok h.symm
      rw [this, local_dt hva, local_ext hb, us2000_eq]
      simp only [T.tz, bind, Except.bind]
      exact congrArg Except.ok (by omega)
  | ext a =>
    cases b with
    | dt b =>
      have hvb := (DateTime.valid_iff b).mpr hb
      simp only [T.sub, extSub, T.instant]
      have : a.sub b = _ := Time.sub_ok h
      rw [this, local_dt hvb, local_ext ha, us2000_eq]
      simp only [T.tz, bind, Except.bind]
      exact congrArg Except.ok (by omega)
    | ext b =>
      simp only [T.sub, extSub, T.instant]
      have : a.sub b = _ := Time.sub_ok h
      rw [this, local_ext ha, local_ext hb]
      simp only [T.tz]
      exact congrArg Except.ok (by omega)

/-! ### Years of instants -/

theorem sumBelow_mono (f : Nat → Nat) {a b : Nat} (h : a ≤ b) : sumBelow f a ≤ sumBelow f b := by
  induction b with
  | zero => rw [Nat.le_zero.mp h]
  | succ b ih =>
    rcases Nat.lt_or_ge b a with hl | hl
    · rw [show a = b + 1 by omega]
    · have := ih hl
      simp only [sumBelow]; omega

theorem dayCount_year {y m d : Nat} (h : IsDate y m d) :
    sumBelow yearLength y ≤ dayCount y m d ∧ dayCount y m d < sumBelow yearLength (y + 1) := by
  have a := dayOfYear_le h
  have := h.2.2.1
  unfold dayCount
  rw [sum_monthLength y m h.1 h.2.1, sumBelow]
  omega

theorem clock_year {y m d h mi s us : Nat} (hd : IsDate y m d) (h1 : h ≤ 23) (h2 : mi ≤ 59) (h3 : s ≤ 59) (h4 : us ≤ 999999) (Y : Nat) :
    clock Y 1 1 0 0 0 0 ≤ clock y m d h mi s us ↔ Y ≤ y := by
  obtain ⟨a, b⟩ := dayCount_year hd
  have hY : dayCount Y 1 1 = sumBelow yearLength Y := by simp [dayCount, sumBelow]
  unfold clock
  rw [hY]
  constructor
  · intro hh
    by_contra hc
    have := sumBelow_mono yearLength (a := y + 1) (b := Y) (by omega)
    push_cast at hh
    omega
  · intro hh
    have := sumBelow_mono yearLength (a := Y) (b := y) hh
    push_cast
    omega

theorem local_year {t : T} (h : T.Valid t) (Y : Nat) : clock Y 1 1 0 0 0 0 ≤ T.local t ↔ Y ≤ T.year t := by
  obtain ⟨_, h2, h3, h4, h5, h6⟩ := h
  exact clock_year h2 h3 h4 h5 h6 Y

/-- A time is determined by its local clock and its zone. -/
theorem local_inj {a b : T} (ha : T.Valid a) (hb : T.Valid b) (h : T.local a = T.local b) (htz : a.tz = b.tz) : a = b := by
  have key : T.year a = T.year b := by
    have h1 := local_year ha (T.year b)
    have h2 := local_year hb (T.year a)
    have h3 := local_year ha (T.year a)
    have h4 := local_year hb (T.year b)
    rw [h] at h1 h3
    have h5 := h1.mp (h4.mpr (le_refl _))
    have h6 := h2.mp (h3.mpr (le_refl _))
    omega
  cases a with
  | dt a =>
    have hva := (DateTime.valid_iff a).mpr ha
    cases b with
    | dt b =>
      have hvb := (DateTime.valid_iff b).mpr hb
      rw [local_dt hva, local_dt hvb] at h
      have e1 := ofNaive_naive hva
      have e2 := ofNaive_naive hvb
      have htz' : a.tz = b.tz := htz
      rw [show a.naive = b.naive by omega, htz', e2] at e1
      rw [Except.ok.inj e1]
    | ext b =>
      have : a.year = 0 := key
      have := hva.1
      omega
  | ext a =>
    cases b with
    | dt b =>
      have hvb := (DateTime.valid_iff b).mpr hb
      have : 0 = b.year := key
      have := hvb.1
      omega
    | ext b =>
      have hva := (ext_valid ha).1
      have hvb := (ext_valid hb).1
      rw [local_ext ha, local_ext hb] at h
      have e1 := ofNaive_naive hva
      have e2 := ofNaive_naive hvb
      have htz' : a.tz = b.tz := htz
      rw [show a.naive = b.naive by omega, htz', e2] at e1
      rw [Except.ok.inj e1]

theorem dayCount_first (y : Nat) : dayCount y 1 1 = sumBelow yearLength y := by simp [dayCount, sumBelow]

theorem clock_first : clock 1 1 1 0 0 0 0 = usDay + us365 := by
  unfold clock; rw [dayCount_first]; decide

theorem clock_last : clock 10000 1 1 0 0 0 0 = 3652060 * usDay + us365 := by
  have : dayCount 10000 1 1 = 366 + daysBeforeYear 10000 := by
    rw [← sum_yearLength 10000 (by omega)]; exact dayCount_first 10000
  unfold clock
  rw [this]; decide

theorem ofNaive_again {us : Int} {tz : Option Int} {v : DateTime} (h : ofNaive us tz = .ok v) (d : Int) (hd : d = 0) :
    ofNaive (v.naive + d) tz = .ok v := by
  obtain ⟨h1, h2, h3⟩ := ofNaive_ok h
  rw [hd, Int.add_zero, ← h3]
  exact ofNaive_naive h1

theorem bind_same (x : Py DateTime) (f : DateTime → Py DateTime) (h : ∀ v, x = .ok v → f v = .ok v) : x >>= f = x := by
  cases x with
  | error e => rfl
  | ok v => exact h v rfl

theorem astimezone_zero {t : DateTime} {off : Int} : t.astimezone off 0 = ofNaive (t.naive - off) (some 0) :=
  bind_same _ _ fun v h => ofNaive_again h 0 rfl

/-- `astimezone` to UTC of a `datetime`. -/
theorem astimezone_utc {t : DateTime} {off : Int} :
    (∀ r, t.astimezone off 0 = .ok r → r.Valid ∧ r.naive = t.naive - off ∧ r.tz = some 0) ∧
    (∀ e, t.astimezone off 0 = .error e → e = .overflowError ∧ (t.naive - off < usDay ∨ 3652060 * usDay ≤ t.naive - off)) := by
  rw [astimezone_zero]
  exact ⟨fun r hr => ofNaive_ok hr, fun e he => ofNaive_error he⟩

/-- What conversion of a time to UTC can produce. -/
theorem T.astimezone_utc {t : T} {off : Int} (h : T.Valid t) {r : T} (hr : t.astimezone off 0 = .ok r) :
    T.Valid r ∧ T.local r = T.local t - off ∧ r.tz = some 0 := by
  cases t with
  | dt t =>
    have hv := (DateTime.valid_iff t).mpr h
    simp only [T.astimezone, astimezone_zero] at hr
    cases ha : ofNaive (t.naive - off) (some 0) with
    | error e => rw [ha] at hr; cases hr
    | ok v =>
      rw [ha] at hr
      have hr : T.dt v = r := Except.ok.inj hr
      subst hr
      obtain ⟨h1, h2, h3⟩ := ofNaive_ok ha
      refine ⟨(DateTime.valid_iff v).mp h1, ?_, h3⟩
      rw [local_dt h1, local_dt hv, h2]; omega
  | ext y =>
    obtain ⟨hv, hy⟩ := ext_valid h
    simp only [T.astimezone, astimezone_zero] at hr
    cases ha : ofNaive (y.naive - off) (some 0) with
    | error e => rw [ha] at hr; cases hr
    | ok v =>
      rw [ha] at hr
      obtain ⟨h1, h2, h3⟩ := ofNaive_ok ha
      have hr : fromY2k v = .ok r := hr
      by_cases hvy : 2000 ≤ v.year
      · obtain ⟨t, e1, e2, e3, e4, _⟩ := fromY2k_ok h1 hvy
        rw [e1] at hr
        have hr := Except.ok.inj hr
        subst hr
        refine ⟨e2, ?_, e4.trans h3⟩
        rw [e3, h2, local_ext h]; omega
      · rw [fromY2k_early (by omega)] at hr
        cases hr

theorem T.astimezone_total {t : T} {off : Int} (h : T.Valid t) (h1 : addLow t ≤ T.local t - off) (h2 : T.local t - off < addHigh t) :
    ∃ r, t.astimezone off 0 = .ok r := by
  cases t with
  | dt t =>
    have hv := (DateTime.valid_iff t).mpr h
    rw [local_dt hv] at h1 h2
    simp only [addLow, addHigh] at h1 h2
    obtain ⟨v, hv⟩ := ofNaive_total (us := t.naive - off) (by omega) (by omega) (some 0)
    simp only [T.astimezone, astimezone_zero, hv]
    exact ⟨_, rfl⟩
  | ext y =>
    obtain ⟨hv, hy⟩ := ext_valid h
    rw [local_ext h] at h1 h2
    simp only [addLow, addHigh] at h1 h2
    obtain ⟨v, hv⟩ := ofNaive_total (us := y.naive - off) (by unfold usDay us2000 us365 at *; omega) (by omega) (some 0)
    obtain ⟨e1, e2, e3⟩ := ofNaive_ok hv
    obtain ⟨t, e4, _⟩ := fromY2k_ok e1 ((naive_2000 e1).mpr (by omega))
    simp only [T.astimezone, astimezone_zero, hv]
    exact ⟨t, e4⟩

theorem local_ext_lt {y : DateTime} (h : T.Valid (.ext y)) : 0 ≤ T.local (.ext y) ∧ T.local (.ext y) < usDay + us365 := by
  have h1 := local_year h 1
  have h0 := local_year h 0
  rw [clock_first] at h1
  have c0 : clock 0 1 1 0 0 0 0 = 0 := by decide
  rw [c0] at h0
  refine ⟨h0.mpr (Nat.zero_le _), ?_⟩
  by_contra hc
  have := h1.mp (by omega)
  simp [T.year] at this

end Asn1.Time
