import Verif.FilterTime
import Verif.FrameSpec

/-!
# Offsets and ranges of times

`openscm/scmdataframe/offsets.py:62-253`, with the pandas offsets it wraps: multiples of months, quarters and
years (begin and end), of anchored weeks, and of fixed periods. Not modelled: other offsets of pandas, offsets
with `normalize`, time zones.
-/

namespace Openscm

/-! ## Model -/

inductive MonthKind
  | month
  | quarter
  | year
  deriving DecidableEq, Repr

def MonthKind.period : MonthKind → Int
  | .month => 1
  | .quarter => 3
  | .year => 12

/-- A pandas offset without its multiple. -/
inductive Rule
  /-- `MonthBegin`, `MonthEnd`, `QuarterBegin`, `QuarterEnd`, `YearBegin`, `YearEnd` -/
  | months (kind : MonthKind) (anchor : Int) (atEnd : Bool)
  /-- `Week(weekday)` -/
  | week (weekday : Int)
  /-- `Tick`: days, hours, minutes, seconds -/
  | tick (seconds : Int)
  deriving DecidableEq, Repr

/-- The day of the month of `_day_opt`: the first or the last. -/
def optDay (atEnd : Bool) (y m : Int) : Int := if atEnd then monthDays y m else 1

/-- `months_since` in `QuarterOffset.apply` and `YearOffset.apply`; `MonthOffset` has none. -/
def monthsSince : MonthKind → Int → Int → Int
  | .month, _, _ => 0
  | .quarter, a, m => m % 3 - a % 3
  | .year, a, m => m - a

/-- `roll_convention`, `roll_qtrday`, `roll_yearday`. -/
def rollN (ms day cmp n : Int) : Int :=
  if n > 0 then (if ms < 0 ∨ (ms = 0 ∧ day < cmp) then n - 1 else n)
  else (if ms > 0 ∨ (ms = 0 ∧ day > cmp) then n + 1 else n)

/-- `datetime` refuses times outside the years 1 to 9999. -/
def checkTime (t : Int) : Except Err Int := if datetimeRange t then .ok t else .error .valueError

/-- `shift_month`: the time of day is kept. -/
def shiftMonth (t months : Int) (atEnd : Bool) : Except Err Int :=
  let i := timeMonth t + months
  let dy := if i % 12 = 0 then i / 12 - 1 else i / 12
  let m := if i % 12 = 0 then 12 else i % 12
  let y := timeYear t + dy
  checkTime (dateTime y m (optDay atEnd y m) + t % 86400)

/-- `offset.apply`, with the multiple `n`. -/
def Rule.apply (r : Rule) (n t : Int) : Except Err Int :=
  match r with
  | .months kind a atEnd =>
    let ms := monthsSince kind a (timeMonth t)
    let n' := rollN ms (timeDayOfMonth t) (optDay atEnd (timeYear t) (timeMonth t)) n
    shiftMonth t (n' * kind.period - ms) atEnd
  | .week w =>
    if timeWeekday t ≠ w then
      checkTime (t + (w - timeWeekday t) % 7 * 86400 + (if n > 0 then n - 1 else n) * 604800)
    else checkTime (t + n * 604800)
  | .tick s => checkTime (t + n * s)

/-- `offset.onOffset`, which looks at the day only. -/
def Rule.on (r : Rule) (t : Int) : Bool :=
  match r with
  | .months .month _ atEnd => timeDayOfMonth t = optDay atEnd (timeYear t) (timeMonth t)
  | .months .quarter a atEnd =>
    (timeMonth t - a) % 3 = 0 && timeDayOfMonth t = optDay atEnd (timeYear t) (timeMonth t)
  | .months .year a atEnd => timeMonth t = a && timeDayOfMonth t = optDay atEnd (timeYear t) (timeMonth t)
  | .week w => timeWeekday t = w
  | .tick _ => true

/-- `apply_rollforward`, `openscm/scmdataframe/offsets.py:62-73`: by one unit, whatever the multiple. -/
def Rule.rollforward (r : Rule) (t : Int) : Except Err Int := if r.on t then .ok t else r.apply 1 t

/-- `apply_rollback`, `openscm/scmdataframe/offsets.py:76-87`. -/
def Rule.rollback (r : Rule) (t : Int) : Except Err Int := if r.on t then .ok t else r.apply (-1) t

/-- The loop of `generate_range`, `openscm/scmdataframe/offsets.py:243-253`: what it yields, and the error that
ends it, if any. The first argument bounds the number of rounds (see `genLoop_enough`). -/
def genLoop (r : Rule) (n stop : Int) : Nat → Int → List Int × Option Err
  | 0, _ => ([], some .unmodelled)
  | f + 1, cur =>
    if cur ≤ stop then
      match r.apply n cur with
      | .error e => ([cur], some e)
      | .ok next =>
        if next ≤ cur then ([cur], some .valueError)
        else let rest := genLoop r n stop f next; (cur :: rest.1, rest.2)
    else ([], none)

/-- `generate_range`, `openscm/scmdataframe/offsets.py:137-253`. -/
def generateRange (r : Rule) (n start stop : Int) : List Int × Option Err :=
  match r.rollback start with
  | .error e => ([], some e)
  | .ok s =>
    match r.rollforward stop with
    | .error e => ([], some e)
    | .ok e => genLoop r n e ((e - s).toNat + 2) s

/-! ## Specification -/

/-- Rules with sensible anchors. -/
def Rule.Valid : Rule → Prop
  | .months _ a _ => 1 ≤ a ∧ a ≤ 12
  | .week w => 0 ≤ w ∧ w < 7
  | .tick s => 0 < s

/-- The day of `t` is one of the days of the rule: the first or last day of a month that is a whole number of
periods away from the anchor, or the weekday. -/
def OnDay : Rule → Int → Prop
  | .months kind a atEnd, t => ∃ y m d, 1 ≤ m ∧ m ≤ 12 ∧ kind.period ∣ m - a ∧
      (if atEnd then d = monthDays y m else d = 1) ∧ dateTime y m d ≤ t ∧ t < dateTime y m d + 86400
  | .week w, t => WeekdayIs t w
  | .tick _, _ => True

/-- Two times at the same time of day. -/
def SameClock (t u : Int) : Prop := (86400 : Int) ∣ t - u

/-! ## Days of months -/

/-- First day of the month with number `i`, counted from January of year 0. -/
def firstDay (i : Int) : Int := dayNumber (i / 12) (i % 12 + 1) 1

def lenOf (i : Int) : Int := monthDays (i / 12) (i % 12 + 1)

theorem firstDay_step (i : Int) : firstDay (i + 1) = firstDay i + lenOf i := by
  unfold firstDay lenOf dayNumber
  by_cases h : i % 12 = 11
  · have h1 : (i + 1) / 12 = i / 12 + 1 := by omega
    have h2 : (i + 1) % 12 = 0 := by omega
    obtain ⟨f, hf, e1, -, -, -, -, -, -, -, -, -, -, e12, e13⟩ := daysBeforeMonth_table (i / 12)
    rw [h1, h2, h, daysBeforeYear_step]
    have h3 : daysBeforeMonth (i / 12 + 1) (0 + 1) = 0 := by simp [daysBeforeMonth]
    have h4 : monthDays (i / 12) (11 + 1) = 31 := by simp [monthDays]
    have h5 : daysBeforeMonth (i / 12) (11 + 1) = 334 + f := e12
    rw [h3, h4, h5, hf]
    split <;> omega
  · have h1 : (i + 1) / 12 = i / 12 := by omega
    have h2 : (i + 1) % 12 = i % 12 + 1 := by omega
    rw [h1, h2, daysBeforeMonth_step (by omega) (by omega)]
    omega

theorem lenOf_pos (i : Int) : 28 ≤ lenOf i ∧ lenOf i ≤ 31 := monthDays_pos _ _

def gridDay (atEnd : Bool) (i : Int) : Int := firstDay i + (if atEnd then lenOf i - 1 else 0)

theorem gridDay_bounds (atEnd : Bool) (i : Int) : firstDay i ≤ gridDay atEnd i ∧ gridDay atEnd i < firstDay (i + 1) := by
  have := lenOf_pos i
  have := firstDay_step i
  unfold gridDay
  cases atEnd <;> simp <;> omega

theorem firstDay_mono {i j : Int} (h : i ≤ j) : firstDay i ≤ firstDay j := by
  induction j, h using Int.leInduction with
  | base => exact le_refl _
  | succ n _ ih =>
    have := lenOf_pos n
    have := firstDay_step n
    omega

theorem gridDay_lt (atEnd : Bool) {i j : Int} (h : i < j) : gridDay atEnd i < gridDay atEnd j := by
  have h1 := (gridDay_bounds atEnd i).2
  have h2 := firstDay_mono (show i + 1 ≤ j by omega)
  have h3 := (gridDay_bounds atEnd j).1
  omega

/-- The number of the month of a time. -/
def monthNo (t : Int) : Int := 12 * timeYear t + timeMonth t - 1

theorem monthNo_parts (t : Int) : monthNo t / 12 = timeYear t ∧ monthNo t % 12 + 1 = timeMonth t := by
  obtain ⟨⟨h1, h2⟩, -, -⟩ := date_spec t
  unfold monthNo
  constructor <;> omega

theorem firstDay_monthNo (t : Int) : timeDay t = firstDay (monthNo t) + timeDayOfMonth t - 1 ∧
    firstDay (monthNo t) ≤ timeDay t ∧ timeDay t < firstDay (monthNo t + 1) := by
  obtain ⟨-, ⟨h1, h2⟩, h3⟩ := date_spec t
  obtain ⟨e1, e2⟩ := monthNo_parts t
  have h4 := firstDay_step (monthNo t)
  have e3 : lenOf (monthNo t) = monthDays (timeYear t) (timeMonth t) := by rw [lenOf, e1, e2]
  have h5 : firstDay (monthNo t) = dayNumber (timeYear t) (timeMonth t) 1 := by rw [firstDay, e1, e2]
  rw [h4, e3]
  unfold dayNumber at h3 h5
  refine ⟨?_, ?_, ?_⟩ <;> omega

/-- The time at a clock time on a day. -/
def atDay (d clock : Int) : Int := (d - epochDay) * 86400 + clock

theorem shiftMonth_eq (t months : Int) (atEnd : Bool) :
    shiftMonth t months atEnd = checkTime (atDay (gridDay atEnd (monthNo t + months)) (t % 86400)) := by
  obtain ⟨⟨h1, h2⟩, -, -⟩ := date_spec t
  unfold shiftMonth
  simp only
  have e1 : (monthNo t + months) / 12 = timeYear t + (if (timeMonth t + months) % 12 = 0 then
      (timeMonth t + months) / 12 - 1 else (timeMonth t + months) / 12) := by
    unfold monthNo; split <;> omega
  have e2 : (monthNo t + months) % 12 + 1 = (if (timeMonth t + months) % 12 = 0 then 12 else
      (timeMonth t + months) % 12) := by
    unfold monthNo; split <;> omega
  unfold atDay gridDay firstDay lenOf
  rw [e1, e2]
  congr 2
  unfold dateTime dayNumber optDay
  cases atEnd <;> simp

/-! ## Days of rules -/

/-- `g` numbers the days of the rule, and moving goes from number to number. -/
structure GridOf (r : Rule) (g : Int → Int) : Prop where
  mono : ∀ k, g k < g (k + 1)
  on : ∀ t, r.on t = true ↔ ∃ k, timeDay t = g k
  day : ∀ t, OnDay r t ↔ ∃ k, timeDay t = g k
  move : ∀ t, ∃ k, g k ≤ timeDay t ∧ timeDay t < g (k + 1) ∧
    ∀ n, n ≠ 0 → r.apply n t = checkTime (atDay (g (k + n + (if timeDay t ≠ g k ∧ n ≤ 0 then 1 else 0))) (t % 86400))

theorem months_grid (kind : MonthKind) {a : Int} (ha : 1 ≤ a ∧ a ≤ 12) (atEnd : Bool) :
    GridOf (.months kind a atEnd) (fun k => gridDay atEnd (kind.period * k + (a - 1) % kind.period)) := by
  have hp : 0 < kind.period := by cases kind <;> simp [MonthKind.period]
  refine ⟨fun k => gridDay_lt atEnd ?_, fun t => ?_, fun t => ?_, fun t => ?_⟩
  · rw [mul_add]; omega
  · -- on
    obtain ⟨h1, h2, h3⟩ := firstDay_monthNo t
    obtain ⟨⟨m1, m2⟩, ⟨d1, d2⟩, -⟩ := date_spec t
    obtain ⟨e1, e2⟩ := monthNo_parts t
    have hday : timeDayOfMonth t = optDay atEnd (timeYear t) (timeMonth t) ↔ timeDay t = gridDay atEnd (monthNo t) := by
      unfold optDay gridDay
      have e3 : lenOf (monthNo t) = monthDays (timeYear t) (timeMonth t) := by rw [lenOf, e1, e2]
      rw [e3]
      cases atEnd <;> simp <;> omega
    have huniq : ∀ i, timeDay t = gridDay atEnd i → i = monthNo t := by
      intro i hi
      have hb := gridDay_bounds atEnd i
      by_contra hne
      rcases lt_or_gt_of_ne hne with h | h
      · have := firstDay_mono (show i + 1 ≤ monthNo t by omega); omega
      · have := firstDay_mono (show monthNo t + 1 ≤ i by omega); omega
    have hk : (∃ k, timeDay t = gridDay atEnd (kind.period * k + (a - 1) % kind.period)) ↔
        (monthNo t % kind.period = (a - 1) % kind.period ∧ timeDayOfMonth t = optDay atEnd (timeYear t) (timeMonth t)) := by
      rw [hday]
      constructor
      · rintro ⟨k, hk⟩
        have := huniq _ hk
        rw [this] at hk
        refine ⟨?_, hk⟩
        rw [← this]
        cases kind <;> simp only [MonthKind.period] <;> omega
      · rintro ⟨h4, h5⟩
        refine ⟨monthNo t / kind.period, ?_⟩
        rw [h5]
        congr 1
        rw [← h4]
        exact (Int.mul_ediv_add_emod _ _).symm
    rw [hk]
    cases kind with
    | month => simp [Rule.on, MonthKind.period]
    | quarter =>
      simp only [Rule.on, MonthKind.period, Bool.and_eq_true, decide_eq_true_eq]
      refine and_congr_left fun _ => ?_
      unfold monthNo
      omega
    | year =>
      simp only [Rule.on, MonthKind.period, Bool.and_eq_true, decide_eq_true_eq]
      refine and_congr_left fun _ => ?_
      unfold monthNo
      omega
  · -- day
    constructor
    · rintro ⟨y, m, d, hm1, hm2, hdvd, hd, ht1, ht2⟩
      refine ⟨(12 * y + m - 1) / kind.period, ?_⟩
      have e0 : kind.period * ((12 * y + m - 1) / kind.period) + (a - 1) % kind.period = 12 * y + m - 1 := by
        cases kind <;> simp only [MonthKind.period] at hdvd ⊢ <;> omega
      rw [e0]
      have e1 : (12 * y + m - 1) / 12 = y := by omega
      have e2 : (12 * y + m - 1) % 12 + 1 = m := by omega
      have hda : timeDay t = dayNumber y m d := by unfold timeDay; unfold dateTime at ht1 ht2; omega
      rw [hda]
      unfold gridDay firstDay lenOf
      rw [e1, e2]
      unfold dayNumber
      cases atEnd <;> simp at hd ⊢ <;> omega
    · rintro ⟨k, hk⟩
      generalize hi : kind.period * k + (a - 1) % kind.period = i at hk
      refine ⟨i / 12, i % 12 + 1, if atEnd then monthDays (i / 12) (i % 12 + 1) else 1, by omega, by omega, ?_, ?_, ?_⟩
      · cases kind <;> simp only [MonthKind.period] at hi ⊢ <;> omega
      · cases atEnd <;> simp
      · have : timeDay t = dayNumber (i / 12) (i % 12 + 1) (if atEnd then monthDays (i / 12) (i % 12 + 1) else 1) := by
          rw [hk]
          unfold gridDay firstDay lenOf dayNumber
          cases atEnd <;> simp
        rw [dateTime, ← this]
        unfold timeDay
        constructor <;> omega
  · -- move
    obtain ⟨h1, h2, h3⟩ := firstDay_monthNo t
    obtain ⟨⟨m1, m2⟩, ⟨d1, d2⟩, -⟩ := date_spec t
    obtain ⟨e1, e2⟩ := monthNo_parts t
    have e3 : lenOf (monthNo t) = monthDays (timeYear t) (timeMonth t) := by rw [lenOf, e1, e2]
    have hcmp : gridDay atEnd (monthNo t) = firstDay (monthNo t) + optDay atEnd (timeYear t) (timeMonth t) - 1 := by
      unfold optDay gridDay
      rw [e3]
      cases atEnd <;> simp
      omega
    generalize hms : monthsSince kind a (timeMonth t) = ms
    have hbase : (monthNo t - ms) % kind.period = (a - 1) % kind.period := by
      rw [← hms]
      unfold monthNo monthsSince
      cases kind <;> simp only [MonthKind.period] <;> omega
    have hmsb : -kind.period < ms ∧ ms < kind.period := by
      rw [← hms]
      unfold monthsSince
      cases kind <;> simp only [MonthKind.period] <;> omega
    obtain ⟨b, hb⟩ : ∃ b, monthNo t - ms = kind.period * b + (a - 1) % kind.period :=
      ⟨(monthNo t - ms) / kind.period, by rw [← hbase]; exact (Int.mul_ediv_add_emod _ _).symm⟩
    have happly : ∀ n, (Rule.months kind a atEnd).apply n t = checkTime (atDay (gridDay atEnd
        (kind.period * (b + rollN ms (timeDayOfMonth t) (optDay atEnd (timeYear t) (timeMonth t)) n) + (a - 1) % kind.period))
        (t % 86400)) := by
      intro n
      unfold Rule.apply
      simp only [hms, shiftMonth_eq]
      congr 3
      rw [mul_add]
      generalize rollN ms (timeDayOfMonth t) (optDay atEnd (timeYear t) (timeMonth t)) n = x
      rw [mul_comm x]
      omega
    -- before or after the day of month `monthNo t - ms`
    by_cases hbefore : ms < 0 ∨ (ms = 0 ∧ timeDayOfMonth t < optDay atEnd (timeYear t) (timeMonth t))
    · refine ⟨b - 1, ?_, ?_, fun n hn => ?_⟩
      · have e : kind.period * (b - 1) + (a - 1) % kind.period = monthNo t - ms - kind.period := by
          rw [hb, mul_sub]; omega
        simp only [e]
        have := (gridDay_bounds atEnd (monthNo t - ms - kind.period)).2
        have := firstDay_mono (show monthNo t - ms - kind.period + 1 ≤ monthNo t by omega)
        omega
      · have e : kind.period * (b - 1 + 1) + (a - 1) % kind.period = monthNo t - ms := by rw [hb, sub_add_cancel]
        simp only [e]
        rcases hbefore with h | ⟨h, h'⟩
        · have := (gridDay_bounds atEnd (monthNo t - ms)).1
          have := firstDay_mono (show monthNo t + 1 ≤ monthNo t - ms by omega)
          omega
        · rw [h, sub_zero, hcmp]; omega
      · rw [happly]
        congr 4
        have hoff : timeDay t ≠ gridDay atEnd (kind.period * (b - 1) + (a - 1) % kind.period) := by
          have e : kind.period * (b - 1) + (a - 1) % kind.period = monthNo t - ms - kind.period := by
            rw [hb, mul_sub]; omega
          rw [e]
          have := (gridDay_bounds atEnd (monthNo t - ms - kind.period)).2
          have := firstDay_mono (show monthNo t - ms - kind.period + 1 ≤ monthNo t by omega)
          omega
        have hr : b + rollN ms (timeDayOfMonth t) (optDay atEnd (timeYear t) (timeMonth t)) n =
            b - 1 + n + (if timeDay t ≠ gridDay atEnd (kind.period * (b - 1) + (a - 1) % kind.period) ∧ n ≤ 0 then 1 else 0) := by
          unfold rollN
          by_cases hn0 : n > 0
          · rw [if_pos hn0, if_pos hbefore, if_neg (by omega)]; omega
          · rw [if_neg hn0, if_neg (by omega), if_pos ⟨hoff, by omega⟩]; omega
        rw [hr]
    · refine ⟨b, ?_, ?_, fun n hn => ?_⟩
      · rw [← hb]
        by_cases h0 : ms = 0
        · rw [h0, sub_zero, hcmp]; omega
        · have := (gridDay_bounds atEnd (monthNo t - ms)).2
          have := firstDay_mono (show monthNo t - ms + 1 ≤ monthNo t by omega)
          omega
      · have e : kind.period * (b + 1) + (a - 1) % kind.period = monthNo t - ms + kind.period := by
          rw [hb, mul_add]; omega
        simp only [e]
        have := (gridDay_bounds atEnd (monthNo t - ms + kind.period)).1
        have := firstDay_mono (show monthNo t + 1 ≤ monthNo t - ms + kind.period by omega)
        omega
      · rw [happly]
        congr 4
        have hon : timeDay t = gridDay atEnd (kind.period * b + (a - 1) % kind.period) ↔
            ms = 0 ∧ timeDayOfMonth t = optDay atEnd (timeYear t) (timeMonth t) := by
          rw [← hb]
          constructor
          · intro h
            by_cases h0 : ms = 0
            · rw [h0, sub_zero, hcmp] at h; exact ⟨h0, by omega⟩
            · have := (gridDay_bounds atEnd (monthNo t - ms)).2
              have := firstDay_mono (show monthNo t - ms + 1 ≤ monthNo t by omega)
              omega
          · rintro ⟨h0, h⟩; rw [h0, sub_zero, hcmp]; omega
        have hr : b + rollN ms (timeDayOfMonth t) (optDay atEnd (timeYear t) (timeMonth t)) n =
            b + n + (if timeDay t ≠ gridDay atEnd (kind.period * b + (a - 1) % kind.period) ∧ n ≤ 0 then 1 else 0) := by
          unfold rollN
          by_cases hn0 : n > 0
          · rw [if_pos hn0, if_neg hbefore, if_neg (by omega)]; omega
          · rw [if_neg hn0]
            by_cases ho : ms = 0 ∧ timeDayOfMonth t = optDay atEnd (timeYear t) (timeMonth t)
            · rw [if_neg (by omega), if_neg (fun h => h.1 (hon.2 ho))]; omega
            · rw [if_pos (by omega), if_pos ⟨fun h => ho (hon.1 h), by omega⟩]; omega
        rw [hr]

theorem week_grid {w : Int} (hw : 0 ≤ w ∧ w < 7) : GridOf (.week w) (fun k => 7 * k + w) := by
  refine ⟨fun k => by omega, fun t => ?_, fun t => ?_, fun t => ?_⟩
  · show decide (timeWeekday t = w) = true ↔ _
    rw [decide_eq_true_iff]
    unfold timeWeekday
    exact ⟨fun h => ⟨timeDay t / 7, by omega⟩, fun ⟨k, h⟩ => by omega⟩
  · simp only [OnDay, weekdayIs_iff, timeWeekday]
    exact ⟨fun h => ⟨timeDay t / 7, by omega⟩, fun ⟨k, h⟩ => by omega⟩
  · refine ⟨(timeDay t - w) / 7, by omega, by omega, fun n hn => ?_⟩
    simp only [Rule.apply]
    have hday : t = (timeDay t - epochDay) * 86400 + t % 86400 := by unfold timeDay; omega
    unfold atDay timeWeekday
    split
    · rename_i h
      congr 1
      by_cases hn0 : n > 0
      · rw [if_pos hn0, if_neg (by omega)]; omega
      · rw [if_neg hn0, if_pos (by omega)]; omega
    · rename_i h
      congr 1
      rw [if_neg (by omega)]
      omega

end Openscm
