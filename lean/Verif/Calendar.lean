import Verif.TimePoints
import Mathlib.Tactic.Linarith
import Mathlib.Tactic.IntervalCases

/-!
# The Gregorian calendar

Parts of a `datetime` as taken by `TimePoints.years`, `months`, `days`, `hours` and `weekdays`,
`openscm/core/time.py:197-248`. Times are whole seconds since 1970.
-/

namespace Openscm

/-- The year of the day `n`, counted from 0001-01-01 (`datetime._ord2ymd` in CPython). -/
def yearOfDay (n : Int) : Int :=
  let n400 := n / 146097
  let a := n % 146097
  let n100 := min 3 (a / 36524)
  let b := a - n100 * 36524
  let n4 := b / 1461
  let c := b % 1461
  let n1 := min 3 (c / 365)
  n400 * 400 + n100 * 100 + n4 * 4 + n1 + 1

/-- Leap years. -/
def isLeap (y : Int) : Bool := y % 4 = 0 && (y % 100 ≠ 0 || y % 400 = 0)

/-- Days in a month. -/
def monthDays (y : Int) (m : Int) : Int :=
  if m = 2 then (if isLeap y then 29 else 28)
  else if m = 4 ∨ m = 6 ∨ m = 9 ∨ m = 11 then 30 else 31

/-- Days in a year before the first of a month. -/
def daysBeforeMonth (y : Int) (m : Int) : Int :=
  let f : Int := if isLeap y then 1 else 0
  if m ≤ 1 then 0 else if m = 2 then 31 else if m = 3 then 59 + f else if m = 4 then 90 + f
  else if m = 5 then 120 + f else if m = 6 then 151 + f else if m = 7 then 181 + f else if m = 8 then 212 + f
  else if m = 9 then 243 + f else if m = 10 then 273 + f else if m = 11 then 304 + f else if m = 12 then 334 + f
  else 365 + f

/-- Days from 0001-01-01 to a date: `date.toordinal() - 1`. -/
def dayNumber (y m d : Int) : Int := daysBeforeYear y + daysBeforeMonth y m + (d - 1)

/-- Days from 0001-01-01 to 1970-01-01. -/
def epochDay : Int := 719162

/-- The day of a time, counted from 0001-01-01. -/
def timeDay (t : Int) : Int := t / 86400 + epochDay

/-- The month in which a day of the year (from 0) lies. -/
def monthOfYearDay (y : Int) (k : Int) : Int :=
  if k < daysBeforeMonth y 2 then 1 else if k < daysBeforeMonth y 3 then 2 else if k < daysBeforeMonth y 4 then 3
  else if k < daysBeforeMonth y 5 then 4 else if k < daysBeforeMonth y 6 then 5 else if k < daysBeforeMonth y 7 then 6
  else if k < daysBeforeMonth y 8 then 7 else if k < daysBeforeMonth y 9 then 8 else if k < daysBeforeMonth y 10 then 9
  else if k < daysBeforeMonth y 11 then 10 else if k < daysBeforeMonth y 12 then 11 else 12

def timeYear (t : Int) : Int := yearOfDay (timeDay t)
def timeMonth (t : Int) : Int := monthOfYearDay (timeYear t) (timeDay t - daysBeforeYear (timeYear t))
def timeDayOfMonth (t : Int) : Int :=
  timeDay t - daysBeforeYear (timeYear t) - daysBeforeMonth (timeYear t) (timeMonth t) + 1
def timeHour (t : Int) : Int := t % 86400 / 3600
/-- Monday is 0. -/
def timeWeekday (t : Int) : Int := timeDay t % 7

/-- The start of a date in seconds since 1970. -/
def dateTime (y m d : Int) : Int := (dayNumber y m d - epochDay) * 86400

/-! ## Facts -/

theorem daysBeforeYear_eq (y : Int) :
    daysBeforeYear y = (y - 1) * 365 + (y - 1) / 4 - (y - 1) / 100 + (y - 1) / 400 := rfl

theorem epochDay_eq : daysBeforeYear 1970 = epochDay := by decide

theorem yearToSeconds_eq (y : Int) : yearToSeconds y = (daysBeforeYear y - epochDay) * 86400 := by
  rw [yearToSeconds, epochDay_eq]

theorem yearOfDay_spec (n : Int) : daysBeforeYear (yearOfDay n) ≤ n ∧ n < daysBeforeYear (yearOfDay n + 1) := by
  simp only [yearOfDay, daysBeforeYear]
  generalize hq : n / 146097 = q
  generalize ha : n % 146097 = a
  have h1 : n = q * 146097 + a := by omega
  have h2 : 0 ≤ a ∧ a < 146097 := by omega
  clear hq ha
  subst h1
  generalize hh : min 3 (a / 36524) = h
  have h3 : 0 ≤ h ∧ h ≤ 3 ∧ h * 36524 ≤ a ∧ (a < (h + 1) * 36524 ∨ h = 3) := by omega
  clear hh
  obtain ⟨h31, h32, h33, h34⟩ := h3
  generalize hb : a - h * 36524 = b
  have h4 : a = h * 36524 + b := by omega
  clear hb
  subst h4
  have hb2 : 0 ≤ b ∧ b ≤ 36524 ∧ (b < 36524 ∨ h = 3) := by omega
  obtain ⟨hb1, hb2, hb3⟩ := hb2
  generalize hc4 : b / 1461 = k
  generalize hc : b % 1461 = c
  have h5 : b = k * 1461 + c := by omega
  have h6 : 0 ≤ c ∧ c < 1461 ∧ 0 ≤ k ∧ k ≤ 24 := by omega
  clear hc4 hc
  obtain ⟨h61, h62, h63, h64⟩ := h6
  generalize hj : min 3 (c / 365) = j
  have h7 : 0 ≤ j ∧ j ≤ 3 ∧ j * 365 ≤ c ∧ (c < (j + 1) * 365 ∨ j = 3) := by omega
  clear hj
  obtain ⟨h71, h72, h73, h74⟩ := h7
  subst h5
  have e1 : q * 400 + h * 100 + k * 4 + j + 1 - 1 = q * 400 + h * 100 + k * 4 + j := by ring
  have e2 : q * 400 + h * 100 + k * 4 + j + 1 + 1 - 1 = q * 400 + h * 100 + k * 4 + j + 1 := by ring
  rw [e1, e2]
  have d4 : (q * 400 + h * 100 + k * 4 + j) / 4 = q * 100 + h * 25 + k := by omega
  have d100 : (q * 400 + h * 100 + k * 4 + j) / 100 = q * 4 + h := by omega
  have d400 : (q * 400 + h * 100 + k * 4 + j) / 400 = q := by omega
  have f4 : (q * 400 + h * 100 + k * 4 + j + 1) / 4 = q * 100 + h * 25 + k + (if j = 3 then 1 else 0) := by
    split <;> omega
  have f100 : (q * 400 + h * 100 + k * 4 + j + 1) / 100 = q * 4 + h + (if j = 3 ∧ k = 24 then 1 else 0) := by
    split <;> omega
  have f400 : (q * 400 + h * 100 + k * 4 + j + 1) / 400 = q + (if j = 3 ∧ k = 24 ∧ h = 3 then 1 else 0) := by
    split <;> omega
  rw [d4, d100, d400, f4, f100, f400]
  constructor
  · omega
  · split <;> split <;> split <;> omega

theorem daysBeforeYear_step (y : Int) :
    daysBeforeYear (y + 1) = daysBeforeYear y + (if isLeap y then 366 else 365) := by
  have h : isLeap y = decide (y % 4 = 0 ∧ (y % 100 ≠ 0 ∨ y % 400 = 0)) := by simp [isLeap]
  rw [h]
  simp only [daysBeforeYear, decide_eq_true_eq]
  split <;> omega

theorem daysBeforeYear_lt {y z : Int} (h : y < z) : daysBeforeYear y < daysBeforeYear z := by
  simp only [daysBeforeYear]; omega

theorem daysBeforeYear_le {y z : Int} (h : y ≤ z) : daysBeforeYear y ≤ daysBeforeYear z := by
  simp only [daysBeforeYear]; omega

theorem yearOfDay_unique {n y : Int} (h1 : daysBeforeYear y ≤ n) (h2 : n < daysBeforeYear (y + 1)) :
    yearOfDay n = y := by
  obtain ⟨a, b⟩ := yearOfDay_spec n
  by_contra hne
  rcases lt_or_gt_of_ne hne with h | h
  · have := daysBeforeYear_le (show yearOfDay n + 1 ≤ y by omega)
    omega
  · have := daysBeforeYear_le (show y + 1 ≤ yearOfDay n by omega)
    omega

theorem daysBeforeMonth_step {y m : Int} (h1 : 1 ≤ m) (h2 : m ≤ 12) :
    daysBeforeMonth y (m + 1) = daysBeforeMonth y m + monthDays y m := by
  unfold daysBeforeMonth monthDays
  interval_cases m <;> cases isLeap y <;> simp

theorem monthDays_pos (y m : Int) : 28 ≤ monthDays y m ∧ monthDays y m ≤ 31 := by
  unfold monthDays
  split
  · split <;> omega
  · split <;> omega

theorem daysBeforeMonth_table (y : Int) : ∃ f : Int, (f = if isLeap y then 1 else 0) ∧ daysBeforeMonth y 1 = 0 ∧
    daysBeforeMonth y 2 = 31 ∧ daysBeforeMonth y 3 = 59 + f ∧ daysBeforeMonth y 4 = 90 + f ∧
    daysBeforeMonth y 5 = 120 + f ∧ daysBeforeMonth y 6 = 151 + f ∧ daysBeforeMonth y 7 = 181 + f ∧
    daysBeforeMonth y 8 = 212 + f ∧ daysBeforeMonth y 9 = 243 + f ∧ daysBeforeMonth y 10 = 273 + f ∧
    daysBeforeMonth y 11 = 304 + f ∧ daysBeforeMonth y 12 = 334 + f ∧ daysBeforeMonth y 13 = 365 + f := by
  refine ⟨_, rfl, ?_⟩
  unfold daysBeforeMonth
  simp

theorem monthOfYearDay_spec {y k : Int} (h1 : 0 ≤ k) (h2 : k < if isLeap y then 366 else 365) :
    1 ≤ monthOfYearDay y k ∧ monthOfYearDay y k ≤ 12 ∧ daysBeforeMonth y (monthOfYearDay y k) ≤ k ∧
      k < daysBeforeMonth y (monthOfYearDay y k + 1) := by
  obtain ⟨f, hf, e1, e2, e3, e4, e5, e6, e7, e8, e9, e10, e11, e12, e13⟩ := daysBeforeMonth_table y
  have h2' : k < 365 + f := by
    rw [hf]; revert h2; cases isLeap y <;> simp
  suffices H : ∀ P : Int → Prop, (∀ m, 1 ≤ m → m ≤ 12 → daysBeforeMonth y m ≤ k →
      k < daysBeforeMonth y (m + 1) → P m) → P (monthOfYearDay y k) from
    H (fun m => 1 ≤ m ∧ m ≤ 12 ∧ daysBeforeMonth y m ≤ k ∧ k < daysBeforeMonth y (m + 1))
      (fun m a b c d => ⟨a, b, c, d⟩)
  intro P hP
  have hP' : ∀ m n, n = m + 1 → 1 ≤ m → m ≤ 12 → daysBeforeMonth y m ≤ k → k < daysBeforeMonth y n → P m := by
    rintro m n rfl; exact hP m
  clear h2 hf hP
  rw [monthOfYearDay]
  by_cases a2 : k < daysBeforeMonth y 2
  · rw [if_pos a2]
    exact hP' 1 2 rfl (by decide) (by decide) (e1 ▸ h1) a2
  rw [if_neg a2]
  by_cases a3 : k < daysBeforeMonth y 3
  · rw [if_pos a3]
    exact hP' 2 3 rfl (by decide) (by decide) (not_lt.mp a2) a3
  rw [if_neg a3]
  by_cases a4 : k < daysBeforeMonth y 4
  · rw [if_pos a4]
    exact hP' 3 4 rfl (by decide) (by decide) (not_lt.mp a3) a4
  rw [if_neg a4]
  by_cases a5 : k < daysBeforeMonth y 5
  · rw [if_pos a5]
    exact hP' 4 5 rfl (by decide) (by decide) (not_lt.mp a4) a5
  rw [if_neg a5]
  by_cases a6 : k < daysBeforeMonth y 6
  · rw [if_pos a6]
    exact hP' 5 6 rfl (by decide) (by decide) (not_lt.mp a5) a6
  rw [if_neg a6]
  by_cases a7 : k < daysBeforeMonth y 7
  · rw [if_pos a7]
    exact hP' 6 7 rfl (by decide) (by decide) (not_lt.mp a6) a7
  rw [if_neg a7]
  by_cases a8 : k < daysBeforeMonth y 8
  · rw [if_pos a8]
    exact hP' 7 8 rfl (by decide) (by decide) (not_lt.mp a7) a8
  rw [if_neg a8]
  by_cases a9 : k < daysBeforeMonth y 9
  · rw [if_pos a9]
    exact hP' 8 9 rfl (by decide) (by decide) (not_lt.mp a8) a9
  rw [if_neg a9]
  by_cases a10 : k < daysBeforeMonth y 10
  · rw [if_pos a10]
    exact hP' 9 10 rfl (by decide) (by decide) (not_lt.mp a9) a10
  rw [if_neg a10]
  by_cases a11 : k < daysBeforeMonth y 11
  · rw [if_pos a11]
    exact hP' 10 11 rfl (by decide) (by decide) (not_lt.mp a10) a11
  rw [if_neg a11]
  by_cases a12 : k < daysBeforeMonth y 12
  · rw [if_pos a12]
    exact hP' 11 12 rfl (by decide) (by decide) (not_lt.mp a11) a12
  rw [if_neg a12]
  exact hP' 12 13 rfl (by decide) (by decide) (not_lt.mp a12) (e13 ▸ h2')

theorem daysBeforeMonth_le {y m n : Int} (h : m ≤ n) : daysBeforeMonth y m ≤ daysBeforeMonth y n := by
  induction n, h using Int.leInduction with
  | base => exact le_refl _
  | succ n _ ih =>
    refine le_trans ih ?_
    by_cases h1 : 1 ≤ n
    · by_cases h2 : n ≤ 12
      · rw [daysBeforeMonth_step h1 h2]
        have := monthDays_pos y n
        omega
      · unfold daysBeforeMonth
        simp (disch := omega) only [if_neg]
        exact le_refl _
    · unfold daysBeforeMonth
      simp (disch := omega) only [if_pos]
      exact le_refl _

theorem monthOfYearDay_unique {y m k : Int} (h1 : 1 ≤ m) (h2 : m ≤ 12) (h3 : daysBeforeMonth y m ≤ k)
    (h4 : k < daysBeforeMonth y (m + 1)) : monthOfYearDay y k = m := by
  have h0 : 0 ≤ k := by
    have := daysBeforeMonth_le (y := y) (show (1 : Int) ≤ m by omega)
    have e : daysBeforeMonth y 1 = 0 := by simp [daysBeforeMonth]
    omega
  have h5 : k < if isLeap y then 366 else 365 := by
    have := daysBeforeMonth_le (y := y) (show m + 1 ≤ 13 by omega)
    have e : daysBeforeMonth y 13 = if isLeap y then 366 else 365 := by
      unfold daysBeforeMonth; cases isLeap y <;> simp
    omega
  obtain ⟨a, b, c, d⟩ := monthOfYearDay_spec h0 h5
  by_contra hne
  rcases lt_or_gt_of_ne hne with h | h
  · have := daysBeforeMonth_le (y := y) (show monthOfYearDay y k + 1 ≤ m by omega)
    omega
  · have := daysBeforeMonth_le (y := y) (show m + 1 ≤ monthOfYearDay y k by omega)
    omega

theorem timeDay_between {t d e : Int} : d ≤ timeDay t ∧ timeDay t < e ↔
    (d - epochDay) * 86400 ≤ t ∧ t < (e - epochDay) * 86400 := by
  unfold timeDay
  omega

theorem timeYear_iff {t y : Int} : timeYear t = y ↔ yearToSeconds y ≤ t ∧ t < yearToSeconds (y + 1) := by
  rw [yearToSeconds_eq, yearToSeconds_eq, ← timeDay_between]
  constructor
  · rintro rfl; exact yearOfDay_spec _
  · rintro ⟨a, b⟩; exact yearOfDay_unique a b

/-- The parts of a date belong to an existing date. -/
theorem date_spec (t : Int) : (1 ≤ timeMonth t ∧ timeMonth t ≤ 12) ∧
    (1 ≤ timeDayOfMonth t ∧ timeDayOfMonth t ≤ monthDays (timeYear t) (timeMonth t)) ∧
    dayNumber (timeYear t) (timeMonth t) (timeDayOfMonth t) = timeDay t := by
  obtain ⟨a, b⟩ := yearOfDay_spec (timeDay t)
  have hy : yearOfDay (timeDay t) = timeYear t := rfl
  rw [hy] at a b
  rw [daysBeforeYear_step] at b
  obtain ⟨c1, c2, c3, c4⟩ := monthOfYearDay_spec (y := timeYear t) (k := timeDay t - daysBeforeYear (timeYear t))
    (by omega) (by omega)
  have hm : monthOfYearDay (timeYear t) (timeDay t - daysBeforeYear (timeYear t)) = timeMonth t := rfl
  rw [hm] at c1 c2 c3 c4
  rw [daysBeforeMonth_step c1 c2] at c4
  refine ⟨⟨c1, c2⟩, ?_, ?_⟩
  · unfold timeDayOfMonth; omega
  · unfold dayNumber timeDayOfMonth; ring

/-- A date is determined by its day number. -/
theorem date_unique {t y m d : Int} (hm : 1 ≤ m ∧ m ≤ 12) (hd : 1 ≤ d ∧ d ≤ monthDays y m)
    (h : dayNumber y m d = timeDay t) : timeYear t = y ∧ timeMonth t = m ∧ timeDayOfMonth t = d := by
  unfold dayNumber at h
  have h0 : 0 ≤ daysBeforeMonth y m := by
    have := daysBeforeMonth_le (y := y) (show (1 : Int) ≤ m by omega)
    have e : daysBeforeMonth y 1 = 0 := by simp [daysBeforeMonth]
    omega
  have h13 : daysBeforeMonth y m + monthDays y m ≤ if isLeap y then 366 else 365 := by
    rw [← daysBeforeMonth_step hm.1 hm.2]
    have := daysBeforeMonth_le (y := y) (show m + 1 ≤ 13 by omega)
    have e : daysBeforeMonth y 13 = if isLeap y then 366 else 365 := by
      unfold daysBeforeMonth; cases isLeap y <;> simp
    omega
  have hy : timeYear t = y := by
    unfold timeYear
    refine yearOfDay_unique (by omega) ?_
    rw [daysBeforeYear_step]
    omega
  have hmo : timeMonth t = m := by
    unfold timeMonth
    rw [hy]
    refine monthOfYearDay_unique hm.1 hm.2 (by omega) ?_
    rw [daysBeforeMonth_step hm.1 hm.2]
    omega
  refine ⟨hy, hmo, ?_⟩
  unfold timeDayOfMonth
  rw [hy, hmo]
  omega

/-- 2000-02-29 12:00 was a Tuesday. -/
example : timeYear 951825600 = 2000 ∧ timeMonth 951825600 = 2 ∧ timeDayOfMonth 951825600 = 29 ∧
    timeHour 951825600 = 12 ∧ timeWeekday 951825600 = 1 := by decide

end Openscm
