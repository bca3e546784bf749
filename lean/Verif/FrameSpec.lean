import Verif.FrameLemmas
import Verif.FilterProps1

/-!
# What a filter asks of a cell

The specification of `filter`, for one cell (metadata and time) at a time.
-/

set_option linter.unusedSectionVars false

namespace Openscm

variable {K : Type} [Field K] [DecidableEq K]

/-! ## Metadata -/

/-- The text that a string filter sees. -/
def SeenAs (hasNan : Bool) (v : PyVal K) (text : String) : Prop :=
  v = .str text ∨ (hasNan = true ∧ v = .flt .nan ∧ text = "")

/-- `text` fits the pattern `p`: as a regular expression if wanted or if the pattern has characters that the
code does not escape, otherwise with stars for any text. -/
def PatternFits (regexp : Bool) (p text : String) : Prop :=
  if regexp = false ∧ ∀ c ∈ p.toList, unescaped c = false then WildLine p.toList text.toList
  else ∃ items, reCompile (if regexp then p.toList else wildcardRe p.toList) = .ok items ∧
    reMatch items true text.toList = true

/-- The depth is as the level says, if one is given (see C49 for what levels mean). -/
def LevelFits (sep : String) (level : Option (PyArg K)) (p text : String) : Prop :=
  ∀ lv, level = some lv → lv ≠ .val .none → ∃ t, levelTest lv = .ok t ∧ t (depthBelow sep p text) = true

/-- The metadata value `v` is what the filter value `w` asks for. -/
inductive ValueFits (o : FilterOpts K) (level : Option (PyArg K)) (v : PyVal K) : PyVal K → Prop
  | text {p text : String} : SeenAs o.hasNan v text → PatternFits o.regexp p text → LevelFits o.sep level p text →
      ValueFits o level v (.str p)
  | value {w : PyVal K} : (∀ s, w ≠ .str s) → w ≠ .none → v.eq w = true → ValueFits o level v w

/-- The value in column `c` of a row of metadata is what one of the filter values asks for. -/
def MetaFits (o : FilterOpts K) (level : Option (PyArg K)) (cols : List String) (row : List (PyVal K)) (c : String)
    (arg : PyArg K) : Prop :=
  ∃ (i : Nat) (v w : PyVal K), cols[i]? = some c ∧ row[i]? = some v ∧ w ∈ arg.values ∧ ValueFits o level v w

/-! ## Times -/

/-- Time `t` lies in year `y`. -/
def YearIs (t y : Int) : Prop := yearToSeconds y ≤ t ∧ t < yearToSeconds (y + 1)
/-- Time `t` lies in a month with number `m`. -/
def MonthIs (t m : Int) : Prop := 1 ≤ m ∧ m ≤ 12 ∧ ∃ y, dateTime y m 1 ≤ t ∧ t < dateTime y m 1 + monthDays y m * 86400
/-- Time `t` lies in a day with number `d` of its month. -/
def DayIs (t d : Int) : Prop := ∃ y m, 1 ≤ m ∧ m ≤ 12 ∧ 1 ≤ d ∧ d ≤ monthDays y m ∧
  dateTime y m d ≤ t ∧ t < dateTime y m d + 86400
/-- Time `t` lies in the hour `h` of its day. -/
def HourIs (t h : Int) : Prop := 0 ≤ h ∧ h < 24 ∧ ∃ n : Int, n * 86400 + h * 3600 ≤ t ∧ t < n * 86400 + (h + 1) * 3600
/-- Time `t` lies in a day that is `w` days after a Monday; 5 January 1970 was one. -/
def WeekdayIs (t w : Int) : Prop := 0 ≤ w ∧ w < 7 ∧ ∃ n : Int,
  dateTime 1970 1 5 + (n * 7 + w) * 86400 ≤ t ∧ t < dateTime 1970 1 5 + (n * 7 + w + 1) * 86400

/-- An argument for names: a string or a list that starts with a string. -/
def isText : PyArg K → Prop
  | .val (.str _) => True
  | .list (.str _ :: _) => True
  | _ => False

/-- The time is what the filter asks for. For what lists of months and weekdays select see C50. -/
inductive TimeFits (t : Int) : String → PyArg K → Prop
  | year {y : Int} {arg : PyArg K} : YearIs t y → PyVal.int y ∈ arg.values → TimeFits t "year" arg
  | month {m : Int} {arg : PyArg K} : MonthIs t m → (monthMatch [m] arg).1 = .ok [true] → TimeFits t "month" arg
  | weekday {w : Int} {arg : PyArg K} : isText arg → WeekdayIs t w → (dayMatch [w] arg).1 = .ok [true] →
      TimeFits t "day" arg
  | day {d : Int} {arg : PyArg K} : ¬ isText arg → DayIs t d → (dayMatch [d] arg).1 = .ok [true] →
      TimeFits t "day" arg
  | hour {h : Int} {arg : PyArg K} {v : PyVal K} : HourIs t h → v ∈ arg.values → (PyVal.int h).eq v = true →
      TimeFits t "hour" arg
  | time {arg : PyArg K} : PyVal.time t ∈ arg.values → TimeFits t "time" arg

/-! ## Cells -/

/-- A row of metadata and a time are what the filter `f`, one of `filters`, asks for. -/
def Wants (o : FilterOpts K) (filters : List (String × PyArg K)) (cols : List String) (row : List (PyVal K)) (t : Int)
    (f : String × PyArg K) : Prop :=
  if f.1 = "variable" then MetaFits o (levelOf filters) cols row "variable" f.2
  else if f.1 ∈ cols then MetaFits o none cols row f.1 f.2
  else if f.1 = "level" then
    (∃ g ∈ filters, g.1 = "variable") ∨ MetaFits o (some f.2) cols row "variable" (.val (.str "*"))
  else TimeFits t f.1 f.2

/-- All filters match. -/
def Matches (o : FilterOpts K) (filters : List (String × PyArg K)) (cols : List String) (row : List (PyVal K)) (t : Int) :
    Prop := ∀ f ∈ filters, Wants o filters cols row t f

/-! ## Facts about times -/

theorem yearIs_iff {t y : Int} : YearIs t y ↔ timeYear t = y := timeYear_iff.symm

theorem dateTime_le {t y m d : Int} : dateTime y m d ≤ t ↔ dayNumber y m d ≤ timeDay t := by
  unfold dateTime timeDay; omega

theorem lt_dateTime {t y m d n : Int} : t < dateTime y m d + n * 86400 ↔ timeDay t < dayNumber y m d + n := by
  unfold dateTime timeDay; omega

theorem monthIs_iff {t m : Int} : MonthIs t m ↔ timeMonth t = m := by
  obtain ⟨h1, h2, h3⟩ := date_spec t
  constructor
  · rintro ⟨a, b, y, c, d⟩
    rw [dateTime_le] at c
    rw [lt_dateTime] at d
    exact (date_unique (t := t) (y := y) (m := m) (d := timeDay t - dayNumber y m 1 + 1) ⟨a, b⟩ (by omega)
      (by simp only [dayNumber]; omega)).2.1
  · rintro rfl
    refine ⟨h1.1, h1.2, timeYear t, ?_, ?_⟩
    · rw [dateTime_le]; simp only [dayNumber] at h3 ⊢; omega
    · rw [lt_dateTime]; simp only [dayNumber] at h3 ⊢; omega

theorem dayIs_iff {t d : Int} : DayIs t d ↔ timeDayOfMonth t = d := by
  obtain ⟨h1, h2, h3⟩ := date_spec t
  constructor
  · rintro ⟨y, m, a, b, c, e, f, g⟩
    rw [dateTime_le] at f
    have g' : t < dateTime y m d + 1 * 86400 := by omega
    rw [lt_dateTime] at g'
    exact (date_unique (t := t) (y := y) (m := m) (d := d) ⟨a, b⟩ ⟨c, e⟩ (by omega)).2.2
  · rintro rfl
    refine ⟨timeYear t, timeMonth t, h1.1, h1.2, h2.1, h2.2, ?_, ?_⟩
    · rw [dateTime_le]; omega
    · have : t < dateTime (timeYear t) (timeMonth t) (timeDayOfMonth t) + 1 * 86400 := by
        rw [lt_dateTime]; omega
      omega

theorem hourIs_iff {t h : Int} : HourIs t h ↔ timeHour t = h := by
  unfold HourIs timeHour
  constructor
  · rintro ⟨a, b, n, c, d⟩; omega
  · rintro rfl; exact ⟨by omega, by omega, t / 86400, by omega, by omega⟩

theorem dateTime_monday : dateTime 1970 1 5 = 4 * 86400 := by decide

theorem weekdayIs_iff {t w : Int} : WeekdayIs t w ↔ timeWeekday t = w := by
  unfold WeekdayIs timeWeekday timeDay epochDay
  rw [dateTime_monday]
  constructor
  · rintro ⟨a, b, n, c, d⟩; omega
  · rintro rfl
    exact ⟨by omega, by omega, (t / 86400 + 719162) / 7 - 102738, by omega, by omega⟩

/-! ## Facts about values -/

theorem seenAs_iff {hasNan : Bool} {v : PyVal K} {text : String} :
    SeenAs hasNan v text ↔ filterText hasNan v = some text := by
  unfold SeenAs filterText
  cases v with
  | str s => simp
  | flt x => cases x <;> cases hasNan <;> simp [eq_comm]
  | _ => simp

theorem patternFits_iff {regexp : Bool} {p text : String} {items : List ReItem}
    (h : reCompile (if regexp then p.toList else wildcardRe p.toList) = .ok items) :
    PatternFits regexp p text ↔ reMatch items true text.toList = true := by
  unfold PatternFits
  split
  · rename_i hc
    obtain ⟨rfl, h2⟩ := hc
    simp only [Bool.false_eq_true, if_false] at h
    rw [wildcard_compile h2] at h
    cases h
    exact (reMatch_wild _ _ _).symm
  · rw [h]
    simp

theorem levelFits_given {sep : String} {level : Option (PyArg K)} {p text : String} :
    LevelFits sep level p text ↔ ∀ lv, givenLevel level = some lv → ∃ t, levelTest lv = .ok t ∧
      t (depthBelow sep p text) = true := by
  unfold LevelFits
  constructor
  · intro h lv hl
    unfold givenLevel at hl
    split at hl
    · cases hl
    · rename_i hne
      refine h lv hl ?_
      rintro rfl
      exact hne hl
  · intro h lv hl hne
    refine h lv ?_
    subst hl
    unfold givenLevel
    split
    · rename_i heq; exact absurd (Option.some.inj heq) hne
    · rfl

theorem hit_iff {o : FilterOpts K} {level : Option (PyArg K)} {v w : PyVal K}
    (hw : valueOk o.sep (givenLevel level) o.regexp w) :
    hit o.sep (givenLevel level) o.regexp o.hasNan w v = true ↔ ValueFits o level v w := by
  cases w with
  | str p =>
    obtain ⟨f, hf⟩ := hw
    have hf0 := hf
    unfold strTest at hf
    split at hf
    · cases hf
    · rename_i items hc
      have key : ∀ text, f text = true ↔ PatternFits o.regexp p text ∧ LevelFits o.sep level p text := by
        intro text
        rw [patternFits_iff hc, levelFits_given]
        split at hf
        · rename_i hl
          cases hf
          simp [hl]
        · rename_i lv hl
          split at hf
          · cases hf
          · rename_i t ht
            cases hf
            simp [hl, ht]
      simp only [hit, hf0]
      constructor
      · intro h
        cases hx : filterText o.hasNan v with
        | none => rw [hx] at h; simp at h
        | some x =>
          rw [hx] at h
          simp only at h
          obtain ⟨a, b⟩ := (key x).1 h
          exact .text (seenAs_iff.2 hx) a b
      · intro h
        cases h with
        | text h1 h2 h3 =>
          rw [seenAs_iff.1 h1]
          exact (key _).2 ⟨h2, h3⟩
        | value h1 _ _ => exact absurd rfl (h1 p)
  | none =>
    simp only [hit, PyVal.colEq, Bool.false_eq_true, false_iff]
    intro h
    cases h with
    | value _ h2 _ => exact h2 rfl
  | _ =>
    simp only [hit, PyVal.colEq]
    constructor
    · intro h; exact .value (by simp) (by simp) h
    · intro h
      cases h with
      | value _ _ h3 => exact h3

end Openscm
