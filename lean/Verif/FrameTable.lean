import Verif.FrameAppend2
import Verif.FilterTime
import Mathlib.Algebra.Field.Rat

/-!
# Frames made from tables

`_format_data`, `_format_long_data`, `_format_wide_data` and the rest of the constructor for pandas tables,
`openscm/scmdataframe/base.py:109-213`, `369-395`, and `timeseries()` seen as a table.

A table has named index levels or an unnamed index, columns with labels, and rows. Simplifications: labels are text,
integers or datetimes; text is folded to lower case for ASCII only; rows have the labels 0, 1, 2, …; which texts are
dates, and which dates, is a parameter.
-/

set_option linter.unusedSectionVars false

namespace Openscm

variable {K : Type} [Field K] [LinearOrder K] [IsStrictOrderedRing K]

/-- Label of a column. -/
inductive Label
  | text (s : String)
  | num (z : Int)
  | time (t : Int)
  deriving DecidableEq, Repr

/-- A pandas table. `index` has the names of the index levels, and none if the index has no name. Rows hold the values of
the index levels followed by those of the columns. -/
structure Table (K : Type) where
  index : List String
  cols : List Label
  rows : List (List (PyVal K))
  deriving DecidableEq

/-- What `float` and `dateutil` make of text: which texts they accept, and the times of a list of texts, as
`_parse_datetime`, `openscm/core/time.py:114-118`. -/
structure Clock where
  looks : String → Bool
  read : List String → Except Err (List Int)

/-- `str.lower`. -/
def lowerText (s : String) : String := String.ofList (s.toList.map Char.toLower)

def Label.lower : Label → Label
  | .text s => .text (lowerText s)
  | l => l

/-- The columns after `openscm/scmdataframe/base.py:136-142`: the index comes first and is not changed. -/
def Table.labels (T : Table K) : List Label := T.index.map .text ++ T.cols.map Label.lower

def textOf : Label → Option String
  | .text s => some s
  | _ => none

def numLabel : Label → Option Int
  | .num z => some z
  | _ => none

def timeLabel : Label → Option Int
  | .time t => some t
  | _ => none

/-- The value of a row in a column. -/
def cellOf (labels : List Label) (row : List (PyVal K)) (l : Label) : PyVal K := row.getD (labels.idxOf l) .none

/-! ## Long tables -/

/-- The time in the time column: years are numbers, `openscm/core/time.py:149-150`. -/
def cellTime : PyVal K → Option Int
  | .int y => some (yearToSeconds y)
  | .time t => some t
  | _ => none

/-- A cell as a float. -/
def cellFloat : PyVal K → Option (Fl K)
  | .int z => some (.num (z : K))
  | .flt x => some x
  | .none => some .nan
  | _ => none

def PyVal.isInt : PyVal K → Bool
  | .int _ => true
  | _ => false

def PyVal.isTime : PyVal K → Bool
  | .time _ => true
  | _ => false

/-- What a row contributes to the pivot table: rows with missing metadata are left out by `groupby`, missing values by
`dropna`. -/
def pivotEntry (labels : List Label) (tc : String) (cols : List String) (row : List (PyVal K)) :
    Option (List (PyVal K) × Int × K) :=
  let key := cols.map fun c => cellOf labels row (.text c)
  if key.all fun v => !v.isNull then
    match cellTime (cellOf labels row (.text tc)), cellFloat (cellOf labels row (.text "value")) with
    | some t, some (.num x) => some (key, t, x)
    | _, _ => none
  else none

/-- `pivot_table(columns=…, index=time_col).value` with metadata and sorted times. The order of the timeseries depends on
the hashes of the column names and is not modelled. -/
def pivotFrame (cols : List String) (es : List (List (PyVal K) × Int × K)) : DFrame K :=
  let keys := distinctRows (es.map (·.1))
  let times := (es.map (·.2.1)).dedup.insertionSort (· ≤ ·)
  DFrame.sortMeta
    { times := times, cols := cols
      data := keys.zipIdx.map fun ki => (ki.2, times.map fun t =>
        meanOf ((es.filter fun e => sameRow ki.1 e.1 && e.2.1 = t).map fun e => Fl.num e.2.2))
      «meta» := keys.zipIdx.map fun ki => (ki.2, ki.1) }

/-- `_format_long_data`, `openscm/scmdataframe/base.py:161-177`. Values that are no numbers, time columns with other
things than integers or datetimes, and tables without any number are not modelled. -/
def fromLong (labels : List Label) (rows : List (List (PyVal K))) : Except Err (DFrame K) :=
  if Label.text "year" ∈ labels ↔ Label.text "time" ∈ labels then .error .valueError
  else
    let tc := if Label.text "year" ∈ labels then "year" else "time"
    let names := labels.filterMap textOf
    let cols := requiredCols ++ names.filter fun c => c ∉ requiredCols ∧ c ≠ tc ∧ c ≠ "value"
    if names.length ≠ labels.length ∨ ¬ names.Nodup then .error .unmodelled
    else if rows.any fun r => (cellFloat (cellOf labels r (.text "value"))).isNone then .error .unmodelled
    else if ¬ (rows.all fun r => (cellOf labels r (.text tc)).isInt) ∧ ¬ (rows.all fun r => (cellOf labels r (.text tc)).isTime) then
      .error .unmodelled
    else if rows.filterMap (pivotEntry labels tc cols) = [] then .error .unmodelled
    else .ok (pivotFrame cols (rows.filterMap (pivotEntry labels tc cols)))

/-! ## Wide tables -/

/-- Does a column, other than the required ones, count as a time? `openscm/scmdataframe/base.py:186-204`. -/
def isTimeLabel (clock : Clock) : Label → Bool
  | .text s => decide (s ∉ requiredCols) && clock.looks s
  | _ => true

/-- `extra_cols`. -/
def extraCols (clock : Clock) (labels : List Label) : List String :=
  (labels.filterMap textOf).filter fun s => s ∉ requiredCols ∧ clock.looks s = false

/-- `df.sort_index()` and `TimePoints(df.index.values)`: labels in order and their times. Labels of different kinds cannot
be compared. -/
def orderLabels (clock : Clock) (ls : List Label) : Except Err (List Label × List Int) :=
  if (ls.filterMap numLabel).length = ls.length then
    let zs := (ls.filterMap numLabel).insertionSort (· ≤ ·)
    .ok (zs.map .num, zs.map yearToSeconds)
  else if (ls.filterMap timeLabel).length = ls.length then
    let ts := (ls.filterMap timeLabel).insertionSort (· ≤ ·)
    .ok (ts.map .time, ts)
  else if (ls.filterMap textOf).length = ls.length then
    let ss := (ls.filterMap textOf).insertionSort (· ≤ ·)
    match clock.read ss with
    | .error e => .error e
    | .ok ts => if ts.length = ss.length then .ok (ss.map .text, ts) else .error .unmodelled
  else .error .typeError

/-- The values of a row in the order of the times, as floats. -/
def rowFloats (labels : List Label) (sorted : List Label) (row : List (PyVal K)) : Except Err (List (Fl K)) :=
  mapExcept (fun l => match cellFloat (cellOf labels row l) with | some x => .ok x | none => .error .unmodelled) sorted

/-- `_format_wide_data`, `openscm/scmdataframe/base.py:180-213`, and `openscm/scmdataframe/base.py:153-156`,
`388-395`. -/
def fromWide (clock : Clock) (labels : List Label) (rows : List (List (PyVal K))) : Except Err (DFrame K) :=
  if labels.filter (isTimeLabel clock) = [] then .error .valueError
  else if ¬ labels.Nodup then .error .unmodelled
  else
    match orderLabels clock (labels.filter (isTimeLabel clock)) with
    | .error e => .error e
    | .ok (sorted, times) =>
      match mapExcept (rowFloats labels sorted) rows with
      | .error e => .error e
      | .ok vals =>
        let cols := requiredCols ++ extraCols clock labels
        .ok (DFrame.sortMeta
          { times := times, cols := cols
            data := vals.zipIdx.map fun vi => (vi.2, vi.1)
            «meta» := rows.zipIdx.map fun ri => (ri.2, cols.map fun c => cellOf labels ri.1 (.text c)) })

/-- `ScmDataFrame(table)`: `_format_data`, `openscm/scmdataframe/base.py:109-158`. -/
def fromTable (clock : Clock) (T : Table K) : Except Err (DFrame K) :=
  if ¬ ∀ c ∈ requiredCols, Label.text c ∈ T.labels then .error .valueError
  else if Label.text "value" ∈ T.labels then fromLong T.labels T.rows
  else fromWide clock T.labels T.rows

/-! ## Frames as tables -/

/-- The label of a time in `TimePoints.to_index`, `openscm/core/time.py:180-189`: times that `datetime` does not know
become integers. -/
def timeToLabel (t : Int) : Label := if datetimeRange t then .time t else .num t

/-- Index levels have NaN for missing values. -/
def indexValue (v : PyVal K) : PyVal K := if v.isNull then .flt .nan else v

/-- `timeseries()`, `openscm/scmdataframe/base.py:543-574`, as a table. -/
def DFrame.asTable (F : DFrame K) : Except Err (Table K) :=
  match F.timeseries with
  | .error e => .error e
  | .ok ts => .ok { index := F.cols, cols := F.times.map timeToLabel
                    rows := ts.map fun rv => rv.1.map indexValue ++ rv.2.map PyVal.flt }

/-! ## Specification -/

/-- The name of a column: in lower case. -/
def colName : Label → Option String
  | .text s => some (lowerText s)
  | _ => none

/-- There is an index level or a column called `c`. -/
def Table.HasCol (T : Table K) (c : String) : Prop := c ∈ T.index ∨ some c ∈ T.cols.map colName

/-- What a row has in the index level or the column called `c`; missing if there is none. -/
def Table.cell (T : Table K) (r : List (PyVal K)) (c : String) : PyVal K :=
  if c ∈ T.index then r.getD (T.index.idxOf c) .none
  else if some c ∈ T.cols.map colName then r.getD (T.index.length + (T.cols.map colName).idxOf (some c)) .none
  else .none

/-- All rows have as many values as there are columns. -/
def Table.Rect (T : Table K) : Prop := ∀ r ∈ T.rows, r.length = T.index.length + T.cols.length

/-- The metadata in a row of a long table. -/
def Table.longMeta (T : Table K) (r : List (PyVal K)) (c : String) : PyVal K :=
  if c = "value" ∨ c = "year" ∨ c = "time" then .none else T.cell r c

/-- The number in a cell. -/
inductive IsNumber : PyVal K → K → Prop
  | int (z : Int) : IsNumber (.int z) (z : K)
  | flt (x : K) : IsNumber (.flt (.num x)) x

/-- The time in a cell: a year begins on 1 January. -/
inductive IsTime : PyVal K → Int → Prop
  | year (y : Int) : IsTime (.int y) (dateTime y 1 1)
  | time (t : Int) : IsTime (.time t) t

/-- A row of a long table has metadata, all of it, a time and a number. -/
structure Table.Entry (T : Table K) (r : List (PyVal K)) (m : String → PyVal K) (t : Int) (x : K) : Prop where
  mem : r ∈ T.rows
  same : SameMeta m (T.longMeta r)
  full : ∀ c, T.HasCol c → c ≠ "value" → c ≠ "year" → c ≠ "time" → T.cell r c ≠ .none ∧ T.cell r c ≠ .flt .nan
  time : IsTime (T.cell r "year") t ∨ IsTime (T.cell r "time") t
  number : IsNumber (T.cell r "value") x

open Classical in
/-- The numbers that a long table has for the metadata `m` at the time `t`. -/
noncomputable def Table.numbers (T : Table K) (m : String → PyVal K) (t : Int) : List K :=
  T.rows.filterMap fun r => if h : ∃ x, T.Entry r m t x then some (Classical.choose h) else none

/-! ## Facts about columns and cells -/

theorem lower_text {l : Label} {c : String} : l.lower = .text c ↔ colName l = some c := by
  cases l <;> simp [Label.lower, colName]

theorem mem_labels {T : Table K} {c : String} : Label.text c ∈ T.labels ↔ T.HasCol c := by
  unfold Table.labels Table.HasCol
  simp only [List.mem_append, List.mem_map, Label.text.injEq, exists_eq_right, lower_text]

theorem idxOf_text (l : List String) (c : String) : (l.map Label.text).idxOf (.text c) = l.idxOf c := by
  induction l with
  | nil => rfl
  | cons a l ih => simp [List.idxOf_cons, ih, beq_eq_decide]

theorem idxOf_lower (l : List Label) (c : String) : (l.map Label.lower).idxOf (.text c) = (l.map colName).idxOf (some c) := by
  induction l with
  | nil => rfl
  | cons a l ih => simp [List.idxOf_cons, ih, beq_eq_decide, lower_text]

theorem labels_length (T : Table K) : T.labels.length = T.index.length + T.cols.length := by simp [Table.labels]

theorem cell_eq {T : Table K} {r : List (PyVal K)} (hr : r.length = T.index.length + T.cols.length) (c : String) :
    cellOf T.labels r (.text c) = T.cell r c := by
  unfold cellOf Table.cell
  by_cases h1 : c ∈ T.index
  · rw [if_pos h1, Table.labels, List.idxOf_append_of_mem (by simpa using h1), idxOf_text]
  · rw [if_neg h1]
    have hn : Label.text c ∉ T.index.map Label.text := by simpa using h1
    by_cases h2 : some c ∈ T.cols.map colName
    · rw [if_pos h2, Table.labels, List.idxOf_append_of_notMem hn, List.length_map, idxOf_lower]
    · rw [if_neg h2, List.idxOf_eq_length, List.getD_eq_getElem?_getD, List.getElem?_eq_none]
      · rfl
      · rw [labels_length, hr]
      · rw [mem_labels]
        exact not_or.2 ⟨h1, h2⟩

theorem cell_absent {T : Table K} {r : List (PyVal K)} {c : String} (h : ¬ T.HasCol c) : T.cell r c = .none := by
  unfold Table.HasCol at h
  rw [not_or] at h
  unfold Table.cell
  rw [if_neg h.1, if_neg h.2]

theorem cellFloat_num {v : PyVal K} {x : K} : cellFloat v = some (.num x) ↔ IsNumber v x := by
  constructor
  · intro h
    cases v with
    | int z => cases h; exact .int z
    | flt y => cases h; exact .flt x
    | _ => cases h
  · rintro (z | x) <;> rfl

theorem IsNumber.unique {v : PyVal K} {x y : K} (h : IsNumber v x) (h' : IsNumber v y) : x = y := by
  have := (cellFloat_num.2 h).symm.trans (cellFloat_num.2 h')
  cases this
  rfl

theorem yearToSeconds_date (y : Int) : yearToSeconds y = dateTime y 1 1 := by
  rw [yearToSeconds_eq, dateTime, dayNumber]
  simp [daysBeforeMonth]

theorem cellTime_iff {v : PyVal K} {t : Int} : cellTime v = some t ↔ IsTime v t := by
  constructor
  · intro h
    cases v with
    | int z =>
      cases h
      rw [yearToSeconds_date]
      exact .year z
    | time y => cases h; exact .time t
    | _ => cases h
  · rintro (z | x)
    · exact congrArg some (yearToSeconds_date z)
    · rfl

/-! ## The pivot table -/

theorem pivot_keys (cols : List String) (es : List (List (PyVal K) × Int × K)) {j : Nat} {k : List (PyVal K)}
    (h : (distinctRows (es.map (·.1)))[j]? = some k) :
    (pivotFrame cols es).meta[j]? = some (j, selectCols cols (sortedCols cols) k) ∧
    (pivotFrame cols es).data[j]? = some (j, (pivotFrame cols es).times.map fun t =>
      meanOf ((es.filter fun e => sameRow k e.1 && e.2.1 = t).map fun e => Fl.num e.2.2)) := by
  unfold pivotFrame DFrame.sortMeta
  simp only [List.getElem?_map, List.getElem?_zipIdx, h]
  simp

theorem pivot_length (cols : List String) (es : List (List (PyVal K) × Int × K)) :
    (pivotFrame cols es).data.length = (distinctRows (es.map (·.1))).length := by
  simp [pivotFrame, DFrame.sortMeta]

theorem pivot_times (cols : List String) (es : List (List (PyVal K) × Int × K)) :
    (pivotFrame cols es).times.Pairwise (· < ·) ∧ ∀ t, t ∈ (pivotFrame cols es).times ↔ ∃ e ∈ es, e.2.1 = t := by
  unfold pivotFrame DFrame.sortMeta
  simp only
  refine ⟨?_, fun t => ?_⟩
  · have h1 := List.pairwise_insertionSort (· ≤ ·) (es.map (·.2.1)).dedup
    have h2 : ((es.map (·.2.1)).dedup.insertionSort (· ≤ ·)).Nodup :=
      (List.perm_insertionSort _ _).nodup_iff.2 (List.nodup_dedup _)
    exact (h1.and h2).imp fun ⟨a, b⟩ => lt_of_le_of_ne a b
  · rw [List.mem_insertionSort, List.mem_dedup, List.mem_map]

theorem pivot_ok {cols : List String} (hn : cols.Nodup) {es : List (List (PyVal K) × Int × K)}
    (hl : ∀ e ∈ es, e.1.length = cols.length) : (pivotFrame cols es).Ok := by
  unfold pivotFrame
  apply DFrame.Ok.sortMeta
  refine ⟨?_, ?_, hn, ?_, ?_⟩
  · simp [List.map_map, Function.comp_def]
  · simp only [List.map_map, Function.comp_def]
    rw [show (fun x : List (PyVal K) × Nat => x.2) = Prod.snd from rfl, List.zipIdx_map_snd]
    exact List.nodup_range' ..
  · intro d hd
    obtain ⟨k, -, rfl⟩ := List.mem_map.1 hd
    simp
  · intro d hd
    obtain ⟨k, hk, rfl⟩ := List.mem_map.1 hd
    have : k.1 ∈ distinctRows (es.map (·.1)) := by
      have := List.mem_map_of_mem (f := Prod.fst) hk
      rw [List.zipIdx_map_fst] at this
      exact this
    obtain ⟨e, he, h⟩ := List.mem_map.1 (distinctRows_sub this)
    simp only
    rw [← h, hl e he]

theorem pivot_value {cols : List String} (hn : cols.Nodup) {es : List (List (PyVal K) × Int × K)}
    (hl : ∀ e ∈ es, e.1.length = cols.length) {j : Nat} {k : List (PyVal K)}
    (h : (distinctRows (es.map (·.1)))[j]? = some k) (t : Int) :
    (pivotFrame cols es).valueAt j t =
      average ((es.filter fun e => sameRow k e.1 && e.2.1 = t).map fun e => e.2.2) := by
  have hd := (pivot_keys cols es h).2
  by_cases ht : t ∈ (pivotFrame cols es).times
  · have hlt := List.idxOf_lt_length_of_mem ht
    rw [valueAt_eq, hd]
    simp only [Option.bind_some, atTime]
    rw [List.getD_eq_getElem?_getD, List.getElem?_map, List.getElem?_eq_getElem hlt, List.getElem_idxOf]
    simp only [Option.map_some, Option.getD_some]
    rw [numOf_meanOf, List.filterMap_map]
    congr 1
    rw [← List.filterMap_eq_map]
    rfl
  · rw [valueAt_absent (pivot_ok hn hl) ht]
    have : (es.filter fun e => sameRow k e.1 && e.2.1 = t) = [] := by
      rw [List.filter_eq_nil_iff]
      intro e he h'
      simp only [Bool.and_eq_true, decide_eq_true_eq] at h'
      exact ht (((pivot_times cols es).2 t).2 ⟨e, he, h'.2⟩)
    rw [this]
    rfl

/-! ## Long tables -/

/-- What a successful construction from a long table has done. -/
structure LongFacts (T : Table K) (R : DFrame K) (tc : String) (cols : List String) : Prop where
  req : ∀ c ∈ requiredCols, T.HasCol c
  tc_has : T.HasCol tc
  tc_time : tc = "year" ∧ ¬ T.HasCol "time" ∨ tc = "time" ∧ ¬ T.HasCol "year"
  nodup : cols.Nodup
  mem : ∀ c, c ∈ cols ↔ T.HasCol c ∧ ¬ (c = "value" ∨ c = "year" ∨ c = "time")
  res : R = pivotFrame cols (T.rows.filterMap (pivotEntry T.labels tc cols))

theorem textNames_mem {ls : List Label} {c : String} : c ∈ ls.filterMap textOf ↔ Label.text c ∈ ls := by
  rw [List.mem_filterMap]
  constructor
  · rintro ⟨l, hl, h⟩
    cases l <;> simp [textOf] at h
    subst h
    exact hl
  · exact fun h => ⟨_, h, rfl⟩

theorem required_special {c : String} (h : c ∈ requiredCols) : ¬ (c = "value" ∨ c = "year" ∨ c = "time") := by
  rintro (rfl | rfl | rfl) <;> revert h <;> decide

theorem mk_long {T : Table K} (hreq : ∀ c ∈ requiredCols, T.HasCol c) (htc : ¬ (T.HasCol "year" ↔ T.HasCol "time"))
    (hnames : (T.labels.filterMap textOf).Nodup) {tc : String}
    (htcd : (if Label.text "year" ∈ T.labels then "year" else "time") = tc) {cols : List String}
    (hcols : requiredCols ++ (T.labels.filterMap textOf).filter (fun c => c ∉ requiredCols ∧ c ≠ tc ∧ c ≠ "value") = cols) :
    LongFacts T (pivotFrame cols (T.rows.filterMap (pivotEntry T.labels tc cols))) tc cols := by
  subst hcols
  refine ⟨hreq, ?_, ?_, ?_, ?_, rfl⟩ <;> subst htcd
  · split
    · rename_i hy
      exact mem_labels.1 hy
    · rename_i hy
      rw [mem_labels] at hy
      by_contra hn
      exact htc ⟨fun h => absurd h hy, fun h => absurd h hn⟩
  · split
    · rename_i hy
      rw [mem_labels] at hy
      tauto
    · rename_i hy
      rw [mem_labels] at hy
      tauto
  · rw [List.nodup_append]
    refine ⟨by decide, hnames.filter _, ?_⟩
    rintro a ha b hb rfl
    have := (List.mem_filter.1 hb).2
    simp only [decide_eq_true_eq] at this
    exact this.1 ha
  · intro c
    rw [List.mem_append, List.mem_filter, textNames_mem, mem_labels]
    simp only [decide_eq_true_eq]
    constructor
    · rintro (hc | ⟨hc, h1, h2, h3⟩)
      · exact ⟨hreq c hc, required_special hc⟩
      · refine ⟨hc, ?_⟩
        rintro (rfl | rfl | rfl)
        · exact h3 rfl
        · rw [if_pos (mem_labels.2 hc)] at h2
          exact h2 rfl
        · rw [if_neg fun hy => htc ⟨fun _ => hc, fun _ => mem_labels.1 hy⟩] at h2
          exact h2 rfl
    · rintro ⟨hc, hn⟩
      by_cases hr : c ∈ requiredCols
      · exact .inl hr
      · refine .inr ⟨hc, hr, ?_, fun h => hn (.inl h)⟩
        rintro rfl
        apply hn
        split
        · exact .inr (.inl rfl)
        · exact .inr (.inr rfl)

theorem long_facts {clock : Clock} {T : Table K} (hv : T.HasCol "value") {R : DFrame K} (h : fromTable clock T = .ok R) :
    ∃ tc cols, LongFacts T R tc cols := by
  unfold fromTable at h
  split at h
  · cases h
  rename_i hreq
  rw [if_pos (mem_labels.2 hv)] at h
  have hreq : ∀ c ∈ requiredCols, T.HasCol c := fun c hc => mem_labels.1 (not_not.1 hreq c hc)
  unfold fromLong at h
  split at h
  · cases h
  rename_i htc
  rw [mem_labels, mem_labels] at htc
  dsimp only at h
  generalize htcd : (if Label.text "year" ∈ T.labels then "year" else "time") = tc at h
  split at h
  · cases h
  rename_i hnames
  rw [not_or, not_not, not_not] at hnames
  split at h
  · cases h
  split at h
  · cases h
  split at h
  · cases h
  cases h
  exact ⟨_, _, mk_long hreq htc hnames.2 htcd rfl⟩

theorem LongFacts.key {T : Table K} {R : DFrame K} {tc : String} {cols : List String} (hf : LongFacts T R tc cols)
    {r : List (PyVal K)} (hl : r.length = T.index.length + T.cols.length) :
    (cols.map fun c => cellOf T.labels r (.text c)) = cols.map (T.longMeta r) := by
  refine List.map_congr_left fun c hc => ?_
  rw [cell_eq hl, Table.longMeta, if_neg ((hf.mem c).1 hc).2]

theorem LongFacts.time {T : Table K} {R : DFrame K} {tc : String} {cols : List String} (hf : LongFacts T R tc cols)
    {r : List (PyVal K)} {t : Int} :
    IsTime (T.cell r tc) t ↔ IsTime (T.cell r "year") t ∨ IsTime (T.cell r "time") t := by
  have key : ∀ c : String, ¬ T.HasCol c → ¬ IsTime (T.cell r c) t := by
    intro c hc h
    rw [cell_absent hc] at h
    cases h
  rcases hf.tc_time with ⟨rfl, h⟩ | ⟨rfl, h⟩
  · exact ⟨.inl, fun h' => h'.resolve_right (key _ h)⟩
  · exact ⟨.inr, fun h' => h'.resolve_left (key _ h)⟩

theorem LongFacts.entry {T : Table K} {R : DFrame K} {tc : String} {cols : List String} (hf : LongFacts T R tc cols)
    {r : List (PyVal K)} (hr : r ∈ T.rows) (hl : r.length = T.index.length + T.cols.length) {e : List (PyVal K) × Int × K} :
    pivotEntry T.labels tc cols r = some e ↔
      e.1 = cols.map (T.longMeta r) ∧ T.Entry r (T.longMeta r) e.2.1 e.2.2 := by
  have hfull : (cols.map (T.longMeta r)).all (fun v => !v.isNull) = true ↔
      ∀ c, T.HasCol c → c ≠ "value" → c ≠ "year" → c ≠ "time" → T.cell r c ≠ .none ∧ T.cell r c ≠ .flt .nan := by
    simp only [List.all_map, List.all_eq_true, Function.comp_apply, Bool.not_eq_true', hf.mem]
    refine forall_congr' fun c => ?_
    unfold Table.longMeta
    constructor
    · intro h h0 h1 h2 h3
      have hn : ¬ (c = "value" ∨ c = "year" ∨ c = "time") := by tauto
      have := h ⟨h0, hn⟩
      rw [if_neg hn] at this
      constructor <;> intro h' <;> rw [h'] at this <;> cases this
    · rintro h ⟨h0, hn⟩
      rw [if_neg hn]
      have := h h0 (by tauto) (by tauto) (by tauto)
      cases hc : T.cell r c with
      | none => exact absurd hc this.1
      | flt x =>
        cases x with
        | nan => exact absurd hc this.2
        | num x => rfl
      | _ => rfl
  unfold pivotEntry
  simp only [hf.key hl]
  simp only [cell_eq hl]
  constructor
  · intro h
    split at h
    · rename_i ha
      split at h
      · rename_i t x ht hx
        cases h
        exact ⟨rfl, hr, .refl _, hfull.1 ha, hf.time.1 (cellTime_iff.1 ht), cellFloat_num.1 hx⟩
      · cases h
    · cases h
  · obtain ⟨k, t, x⟩ := e
    rintro ⟨rfl, h⟩
    rw [if_pos (hfull.2 h.full), cellTime_iff.2 (hf.time.2 h.time), cellFloat_num.2 h.number]

theorem LongFacts.outside {T : Table K} {R : DFrame K} {tc : String} {cols : List String} (hf : LongFacts T R tc cols)
    {r : List (PyVal K)} {c : String} (hc : c ∉ cols) : T.longMeta r c = .none := by
  unfold Table.longMeta
  split
  · rfl
  · rename_i hn
    exact cell_absent fun h => hc ((hf.mem c).2 ⟨h, hn⟩)

theorem LongFacts.same {T : Table K} {R : DFrame K} {tc : String} {cols : List String} (hf : LongFacts T R tc cols)
    {r s : List (PyVal K)} :
    sameRow (cols.map (T.longMeta r)) (cols.map (T.longMeta s)) = true ↔ SameMeta (T.longMeta r) (T.longMeta s) := by
  rw [sameRow_map]
  constructor
  · intro h c
    by_cases hc : c ∈ cols
    · exact h c hc
    · rw [hf.outside hc, hf.outside hc]
      exact .equal _
  · exact fun h c _ => h c

/-- Every timeseries of the result has the metadata of a row. -/
theorem LongFacts.series {T : Table K} (hT : T.Rect) {R : DFrame K} {tc : String} {cols : List String}
    (hf : LongFacts T R tc cols) {j : Nat} {k : List (PyVal K)}
    (hk : (distinctRows ((T.rows.filterMap (pivotEntry T.labels tc cols)).map (·.1)))[j]? = some k) :
    ∃ r t x, k = cols.map (T.longMeta r) ∧ R.metaAt j = T.longMeta r ∧ T.Entry r (R.metaAt j) t x := by
  obtain ⟨e, he, rfl⟩ := List.mem_map.1 (distinctRows_sub (List.mem_of_getElem? hk))
  obtain ⟨r, hr, hre⟩ := List.mem_filterMap.1 he
  obtain ⟨h1, h2⟩ := (hf.entry hr (hT r hr)).1 hre
  have hm : R.metaAt j = T.longMeta r := by
    rw [hf.res, metaAt_eq (pivot_keys cols _ hk).1]
    funext c
    have hmem : ∀ c, c ∈ sortedCols cols ↔ c ∈ cols := fun c =>
      sortedCols_mem fun c hc => (hf.mem c).2 ⟨hf.req c hc, required_special hc⟩
    show rowVal (sortedCols cols) _ c = _
    rw [h1, rowVal_select (by simp) hmem]
    by_cases hc : c ∈ cols
    · exact rowVal_map hc
    · rw [rowVal_absent (by simp) hc, hf.outside hc]
  exact ⟨r, e.2.1, e.2.2, h1, hm, hm ▸ h2⟩

theorem LongFacts.entries_length {T : Table K} {tc : String} {cols : List String} :
    ∀ e ∈ T.rows.filterMap (pivotEntry T.labels tc cols), e.1.length = cols.length := by
  intro e he
  obtain ⟨r, -, h⟩ := List.mem_filterMap.1 he
  unfold pivotEntry at h
  simp only at h
  split at h
  · split at h
    · cases h
      simp
    · cases h
  · cases h

theorem LongFacts.value {T : Table K} (hT : T.Rect) {R : DFrame K} {tc : String} {cols : List String}
    (hf : LongFacts T R tc cols) {j : Nat} (hj : j < R.data.length) (t : Int) :
    R.valueAt j t = average (T.numbers (R.metaAt j) t) := by
  have hlen := hj
  rw [hf.res, pivot_length] at hlen
  obtain ⟨r, -, -, hk, hm, -⟩ := hf.series hT (List.getElem?_eq_getElem hlen)
  have hv := pivot_value hf.nodup LongFacts.entries_length (List.getElem?_eq_getElem hlen) t
  rw [← hf.res] at hv
  rw [hv, hk, List.filter_filterMap, List.map_filterMap]
  congr 1
  unfold Table.numbers
  refine List.filterMap_congr fun s hs => ?_
  rw [hm]
  by_cases h : ∃ x, T.Entry s (T.longMeta r) t x
  · rw [dif_pos h]
    have hx := Classical.choose_spec h
    have he : pivotEntry T.labels tc cols s = some (cols.map (T.longMeta s), t, Classical.choose h) :=
      (hf.entry hs (hT s hs)).2 ⟨rfl, hs, .refl _, hx.full, hx.time, hx.number⟩
    rw [he, Option.filter_some_pos, Option.map_some]
    simp [hf.same.2 hx.same]
  · rw [dif_neg h, Option.map_eq_none_iff, Option.filter_eq_none_iff]
    rintro e he hp
    obtain ⟨h1, h2⟩ := (hf.entry hs (hT s hs)).1 he
    simp only [Bool.and_eq_true, decide_eq_true_eq] at hp
    rw [h1, hf.same] at hp
    refine h ⟨e.2.2, hs, hp.1, h2.full, ?_, h2.number⟩
    rw [← hp.2]
    exact h2.time

/-! ## Frames from long tables -/

/-- A frame made from a table with a column `value` has one timeseries for each metadata of its complete rows, the times of
these rows in order, and as value of a timeseries at a time the mean of the numbers of the rows with this metadata and this
time; no value if there are none. -/
theorem C65_values (clock : Clock) (T : Table K) (hT : T.Rect) (hv : T.HasCol "value") (R : DFrame K)
    (h : fromTable clock T = .ok R) :
    R.Ok ∧ R.times.Pairwise (· < ·) ∧
    (∀ t, t ∈ R.times ↔ ∃ r m x, T.Entry r m t x) ∧
    (∀ r m t x, T.Entry r m t x → ∃ j < R.data.length, SameMeta m (R.metaAt j)) ∧
    (∀ j < R.data.length, ∃ r t x, T.Entry r (R.metaAt j) t x) ∧
    (∀ i < R.data.length, ∀ j < R.data.length, SameMeta (R.metaAt i) (R.metaAt j) → i = j) ∧
    (∀ j < R.data.length, ∀ t, R.valueAt j t = average (T.numbers (R.metaAt j) t)) := by
  obtain ⟨tc, cols, hf⟩ := long_facts hv h
  have hlen : R.data.length = (distinctRows ((T.rows.filterMap (pivotEntry T.labels tc cols)).map (·.1))).length := by
    rw [hf.res, pivot_length]
  refine ⟨?_, ?_, ?_, ?_, ?_, ?_, fun j hj t => hf.value hT hj t⟩
  · rw [hf.res]
    exact pivot_ok hf.nodup LongFacts.entries_length
  · rw [hf.res]
    exact (pivot_times _ _).1
  · intro t
    rw [hf.res, (pivot_times _ _).2]
    constructor
    · rintro ⟨e, he, rfl⟩
      obtain ⟨r, hr, hre⟩ := List.mem_filterMap.1 he
      exact ⟨r, _, _, ((hf.entry hr (hT r hr)).1 hre).2⟩
    · rintro ⟨r, m, x, hx⟩
      exact ⟨(cols.map (T.longMeta r), t, x), List.mem_filterMap.2 ⟨r, hx.mem,
        (hf.entry hx.mem (hT r hx.mem)).2 ⟨rfl, hx.mem, .refl _, hx.full, hx.time, hx.number⟩⟩, rfl⟩
  · intro r m t x hx
    have he := (hf.entry (e := (cols.map (T.longMeta r), t, x)) hx.mem (hT r hx.mem)).2
      ⟨rfl, hx.mem, .refl _, hx.full, hx.time, hx.number⟩
    obtain ⟨k, hk, hs⟩ := distinctRows_cover
      (List.mem_map.2 ⟨_, List.mem_filterMap.2 ⟨r, hx.mem, he⟩, rfl⟩ :
        cols.map (T.longMeta r) ∈ (T.rows.filterMap (pivotEntry T.labels tc cols)).map (·.1))
    obtain ⟨j, hj, hjk⟩ := List.getElem_of_mem hk
    obtain ⟨s, -, -, hks, hm, -⟩ := hf.series hT (List.getElem?_eq_some_iff.2 ⟨hj, hjk⟩)
    refine ⟨j, hlen ▸ hj, ?_⟩
    rw [hks, hf.same] at hs
    rw [hm]
    exact fun c => (hx.same c).trans (hs c).symm
  · intro j hj
    obtain ⟨r, t, x, -, -, h⟩ := hf.series hT (List.getElem?_eq_getElem (hlen ▸ hj))
    exact ⟨r, t, x, h⟩
  · intro i hi j hj hs
    obtain ⟨r, -, -, hkr, hmr, -⟩ := hf.series hT (List.getElem?_eq_getElem (hlen ▸ hi))
    obtain ⟨s, -, -, hks, hms, -⟩ := hf.series hT (List.getElem?_eq_getElem (hlen ▸ hj))
    rw [hmr, hms, ← hf.same, ← hkr, ← hks] at hs
    have hd := List.pairwise_iff_getElem.1 (distinctRows_distinct ((T.rows.filterMap (pivotEntry T.labels tc cols)).map (·.1)))
    rcases Nat.lt_trichotomy i j with hij | hij | hij
    · exact absurd hs (hd i j _ _ hij)
    · exact hij
    · exact absurd (sameRow_symm hs) (hd j i _ _ hij)

theorem Table.Entry.congr {T : Table K} {r : List (PyVal K)} {m m' : String → PyVal K} {t : Int} {x : K} (h : SameMeta m m') :
    T.Entry r m t x ↔ T.Entry r m' t x :=
  ⟨fun e => ⟨e.mem, h.symm.trans e.same, e.full, e.time, e.number⟩, fun e => ⟨e.mem, h.trans e.same, e.full, e.time, e.number⟩⟩

/-- The same table with other rows. -/
theorem Table.Entry.rows {T T' : Table K} (hi : T'.index = T.index) (hc : T'.cols = T.cols) (hp : T'.rows.Perm T.rows)
    {r : List (PyVal K)} {m : String → PyVal K} {t : Int} {x : K} : T'.Entry r m t x ↔ T.Entry r m t x := by
  have e1 : T'.HasCol = T.HasCol := by
    unfold Table.HasCol
    rw [hi, hc]
  have e2 : T'.cell = T.cell := by
    unfold Table.cell
    rw [hi, hc]
  have e3 : T'.longMeta = T.longMeta := by
    unfold Table.longMeta
    rw [e2]
  constructor
  · rintro ⟨h1, h2, h3, h4, h5⟩
    exact ⟨hp.mem_iff.1 h1, e3 ▸ h2, e1 ▸ e2 ▸ h3, e2 ▸ h4, e2 ▸ h5⟩
  · rintro ⟨h1, h2, h3, h4, h5⟩
    exact ⟨hp.mem_iff.2 h1, e3 ▸ h2, e1 ▸ e2 ▸ h3, e2 ▸ h4, e2 ▸ h5⟩

theorem average_perm {l l' : List K} (h : l.Perm l') : average l = average l' := by
  unfold average
  rw [h.sum_eq, h.length_eq]
  by_cases hl : l = []
  · rw [if_pos hl, if_pos (by rw [hl] at h; exact h.nil_eq.symm)]
  · rw [if_neg hl, if_neg fun h' => hl (by rw [h'] at h; exact h.eq_nil)]

/-- The order of the rows makes no difference to the values. -/
theorem C65_order (clock : Clock) (T T' : Table K) (hT : T.Rect) (hv : T.HasCol "value") (hi : T'.index = T.index)
    (hc : T'.cols = T.cols) (hp : T'.rows.Perm T.rows) (R : DFrame K) (h : fromTable clock T = .ok R) :
    ∃ R', fromTable clock T' = .ok R' ∧ R'.times = R.times ∧ R'.data.length = R.data.length ∧
      ∀ j < R.data.length, ∃ j' < R'.data.length, SameMeta (R.metaAt j) (R'.metaAt j') ∧ ∀ t, R.valueAt j t = R'.valueAt j' t := by
  classical
  have hlab : T'.labels = T.labels := by
    unfold Table.labels
    rw [hi, hc]
  have hT' : T'.Rect := fun r hr => by
    rw [hi, hc]
    exact hT r (hp.mem_iff.1 hr)
  have hv' : T'.HasCol "value" := by
    unfold Table.HasCol at *
    rwa [hi, hc]
  have hex : ∃ R', fromTable clock T' = .ok R' := by
    unfold fromTable at *
    rw [hlab]
    split at h
    · cases h
    rename_i h0
    rw [if_neg h0, if_pos (mem_labels.2 hv)]
    rw [if_pos (mem_labels.2 hv)] at h
    unfold fromLong at *
    split at h
    · cases h
    rename_i h1
    rw [if_neg h1]
    dsimp only at *
    generalize (if Label.text "year" ∈ T.labels then "year" else "time") = tc at *
    generalize (requiredCols ++ List.filter (fun c => decide (c ∉ requiredCols ∧ c ≠ tc ∧ c ≠ "value")) (List.filterMap textOf T.labels)) = cols at *
    split at h
    · cases h
    rename_i h2
    rw [if_neg h2]
    split at h
    · cases h
    rename_i h3
    rw [if_neg (by rwa [hp.any_eq])]
    split at h
    · cases h
    rename_i h4
    rw [if_neg (by rwa [hp.all_eq, hp.all_eq])]
    split at h
    · cases h
    rename_i h5
    rw [if_neg fun h' => h5 (by
      have := hp.filterMap (pivotEntry T.labels tc cols)
      rw [h'] at this
      exact this.nil_eq.symm)]
    exact ⟨_, rfl⟩
  obtain ⟨R', h'⟩ := hex
  obtain ⟨-, a2, a3, a4, a5, a6, a7⟩ := C65_values clock T hT hv R h
  obtain ⟨-, b2, b3, b4, b5, b6, b7⟩ := C65_values clock T' hT' hv' R' h'
  have hE := fun {r m t x} => Table.Entry.rows (r := r) (m := m) (t := t) (x := x) hi hc hp
  have key : ∀ j < R.data.length, ∃ j' < R'.data.length, SameMeta (R.metaAt j) (R'.metaAt j') := fun j hj => by
    obtain ⟨r, t, x, e⟩ := a5 j hj
    exact b4 r _ t x (hE.2 e)
  have key' : ∀ j < R'.data.length, ∃ j' < R.data.length, SameMeta (R'.metaAt j) (R.metaAt j') := fun j hj => by
    obtain ⟨r, t, x, e⟩ := b5 j hj
    exact a4 r _ t x (hE.1 e)
  refine ⟨R', h', ?_, ?_, fun j hj => ?_⟩
  · refine List.Perm.eq_of_pairwise (le := (· < ·)) (fun a b _ _ h1 h2 => absurd h1 (not_lt_of_gt h2)) b2 a2 ?_
    refine (List.perm_ext_iff_of_nodup (b2.imp fun h => ne_of_lt h) (a2.imp fun h => ne_of_lt h)).2 fun t => ?_
    rw [a3, b3]
    exact exists_congr fun r => exists_congr fun m => exists_congr fun x => hE
  · apply le_antisymm
    · choose! f hf hfm using key'
      have := Finset.card_le_card_of_injOn (s := Finset.range R'.data.length) (t := Finset.range R.data.length) f
        (fun j hj => by simpa using hf j (by simpa using hj))
        (fun i hi j hj hij => b6 i (by simpa using hi) j (by simpa using hj)
          ((hfm i (by simpa using hi)).trans (by rw [hij]; exact (hfm j (by simpa using hj)).symm)))
      simpa using this
    · choose! f hf hfm using key
      have := Finset.card_le_card_of_injOn (s := Finset.range R.data.length) (t := Finset.range R'.data.length) f
        (fun j hj => by simpa using hf j (by simpa using hj))
        (fun i hi j hj hij => a6 i (by simpa using hi) j (by simpa using hj)
          ((hfm i (by simpa using hi)).trans (by rw [hij]; exact (hfm j (by simpa using hj)).symm)))
      simpa using this
  · obtain ⟨j', hj', hm⟩ := key j hj
    refine ⟨j', hj', hm, fun t => ?_⟩
    rw [a7 j hj, b7 j' hj']
    refine average_perm ?_
    unfold Table.numbers
    have e : (fun r => if h : ∃ x, T'.Entry r (R'.metaAt j') t x then some (Classical.choose h) else none) =
        fun r => if h : ∃ x, T.Entry r (R.metaAt j) t x then some (Classical.choose h) else none := by
      funext r
      have : (fun x => T'.Entry r (R'.metaAt j') t x) = fun x => T.Entry r (R.metaAt j) t x := by
        funext x
        exact propext (hE.trans (Table.Entry.congr hm.symm))
      simp only [this]
    rw [e]
    exact (hp.filterMap _).symm

/-- Tables without all of the required columns, and tables with a column `value` and both or neither of `year` and `time`,
raise `ValueError`. -/
theorem C65_refused (clock : Clock) (T : Table K) :
    ((∃ c ∈ requiredCols, ¬ T.HasCol c) → fromTable clock T = .error .valueError) ∧
    (T.HasCol "value" → (T.HasCol "year" ↔ T.HasCol "time") → fromTable clock T = .error .valueError) := by
  constructor
  · rintro ⟨c, hc, hn⟩
    unfold fromTable
    rw [if_pos fun h => hn (mem_labels.1 (h c hc))]
  · intro hv ht
    unfold fromTable
    split
    · rfl
    · rw [if_pos (mem_labels.2 hv), fromLong, if_pos (by rwa [mem_labels, mem_labels])]

/-- Tables with the required columns, `value`, one of `year` and `time`, and no two columns of the same name, whose times
are all years or all datetimes, whose values are numbers or missing, and of which some row is complete, are accepted. -/
theorem C65_works (clock : Clock) (T : Table K) (hT : T.Rect) (hr : ∀ c ∈ requiredCols, T.HasCol c) (hv : T.HasCol "value")
    (ht : ¬ (T.HasCol "year" ↔ T.HasCol "time")) (hl : ∀ l ∈ T.cols, ∃ s, l = .text s)
    (hn : (T.index.map some ++ T.cols.map colName).Nodup)
    (hx : ∀ r ∈ T.rows, (∃ x, IsNumber (T.cell r "value") x) ∨ T.cell r "value" = .none ∨ T.cell r "value" = .flt .nan)
    (htime : (∀ r ∈ T.rows, ∃ y, T.cell r "year" = .int y ∨ T.cell r "time" = .int y) ∨
      ∀ r ∈ T.rows, ∃ t, T.cell r "year" = .time t ∨ T.cell r "time" = .time t)
    (he : ∃ r m t x, T.Entry r m t x) : ∃ R, fromTable clock T = .ok R := by
  have hnames : (T.labels.filterMap textOf).map some = T.index.map some ++ T.cols.map colName := by
    unfold Table.labels
    rw [List.filterMap_append, List.map_append]
    congr 1
    · induction T.index with
      | nil => rfl
      | cons a l ih => simpa [textOf] using ih
    · have := hl
      clear hn
      generalize T.cols = ls at this
      induction ls with
      | nil => rfl
      | cons a l ih =>
        obtain ⟨s, rfl⟩ := this _ (List.mem_cons_self ..)
        have := ih fun l' h' => this l' (List.mem_cons_of_mem _ h')
        simpa [textOf, Label.lower, colName] using this
  have hcell : ∀ r ∈ T.rows, ∀ c, cellOf T.labels r (.text c) = T.cell r c := fun r h c => cell_eq (hT r h) c
  unfold fromTable
  rw [if_neg (not_not.2 fun c hc => mem_labels.2 (hr c hc)), if_pos (mem_labels.2 hv), fromLong,
    if_neg (by rwa [mem_labels, mem_labels])]
  have hnd : (T.labels.filterMap textOf).Nodup := by
    rw [← hnames] at hn
    exact List.Nodup.of_map _ hn
  dsimp only
  generalize htcd : (if Label.text "year" ∈ T.labels then "year" else "time") = tc
  generalize hcols : (requiredCols ++ List.filter (fun c => decide (c ∉ requiredCols ∧ c ≠ tc ∧ c ≠ "value"))
    (List.filterMap textOf T.labels)) = cols
  have hf := mk_long hr ht hnd htcd hcols
  rw [if_neg, if_neg, if_neg, if_neg]
  · exact ⟨_, rfl⟩
  · obtain ⟨r, m, t, x, e⟩ := he
    intro h
    have := (hf.entry (e := (cols.map (T.longMeta r), t, x)) e.mem (hT r e.mem)).2
      ⟨rfl, e.mem, .refl _, e.full, e.time, e.number⟩
    have := List.mem_filterMap.2 ⟨r, e.mem, this⟩
    rw [h] at this
    cases this
  · rintro ⟨h1, h2⟩
    have habs : ∀ r c, ¬ T.HasCol c → ∀ v : PyVal K, T.cell r c = v → v = .none := fun r c h v hv => by
      rw [← hv, cell_absent h]
    have hat : ∀ (r : List (PyVal K)) (v : PyVal K), v ≠ .none → T.cell r "year" = v ∨ T.cell r "time" = v →
        T.cell r tc = v := by
      intro r v hv h
      rcases hf.tc_time with ⟨rfl, hno⟩ | ⟨rfl, hno⟩
      · exact h.resolve_right fun h' => hv (habs r _ hno _ h')
      · exact h.resolve_left fun h' => hv (habs r _ hno _ h')
    rcases htime with h | h
    · refine h1 (List.all_eq_true.2 fun r hr => ?_)
      obtain ⟨y, hy⟩ := h r hr
      rw [hcell r hr, hat r _ (by simp) hy]
      rfl
    · refine h2 (List.all_eq_true.2 fun r hr => ?_)
      obtain ⟨y, hy⟩ := h r hr
      rw [hcell r hr, hat r _ (by simp) hy]
      rfl
  · simp only [List.any_eq_true, not_exists, not_and]
    intro r h
    rw [hcell r h]
    rcases hx r h with ⟨x, hx⟩ | hx | hx
    · rw [cellFloat_num.2 hx]
      simp
    · rw [hx]
      simp [cellFloat]
    · rw [hx]
      simp [cellFloat]
  · rw [not_or, not_not, not_not]
    constructor
    · have := congrArg List.length hnames
      simpa [Table.labels] using this
    · exact hnd

/-- A long table: two rows for the year 2000 of one timeseries, and a row with a missing climate model. -/
def longT : Table ℚ :=
  { index := []
    cols := [.text "Model", .text "scenario", .text "Region", .text "variable", .text "unit", .text "climate_model",
      .text "Year", .text "Value"]
    rows := [
      [.str "m", .str "s", .str "World", .str "v", .str "K", .str "a", .int 2000, .flt (.num 2)],
      [.str "m", .str "s", .str "World", .str "v", .str "K", .str "b", .int 1999, .int 5],
      [.str "m", .str "s", .str "World", .str "v", .str "K", .str "a", .int 2000, .flt (.num 4)],
      [.str "m", .str "s", .str "Other", .str "v", .str "K", .none, .int 2001, .flt (.num 7)]] }

def longR : DFrame ℚ :=
  { times := [dateTime 1999 1 1, dateTime 2000 1 1]
    cols := ["model", "scenario", "region", "variable", "unit", "climate_model"]
    data := [(0, [.nan, .num 3]), (1, [.num 5, .nan])]
    «meta» := [(0, [.str "m", .str "s", .str "World", .str "v", .str "K", .str "a"]),
      (1, [.str "m", .str "s", .str "World", .str "v", .str "K", .str "b"])] }

theorem longT_result (clock : Clock) : fromTable clock longT = .ok longR := by
  have e : ∀ c : Clock, fromTable c longT = fromLong longT.labels longT.rows := fun c => by
    unfold fromTable
    rw [if_neg (by decide +kernel), if_pos (by decide +kernel)]
  rw [e]
  decide +kernel

/-- `C65_values` applies to it. -/
example (clock : Clock) : longT.Rect ∧ longT.HasCol "value" ∧ ∃ R, fromTable clock longT = .ok R ∧ R.data.length = 2 := by
  refine ⟨?_, ?_, longR, longT_result clock, rfl⟩
  · unfold Table.Rect
    decide +kernel
  · unfold Table.HasCol
    decide +kernel

/-- `C65_order` applies to it and another order of its rows. -/
example (clock : Clock) :
    ∃ R', fromTable clock { longT with rows := longT.rows.reverse } = .ok R' ∧ R'.times = longR.times ∧ R'.data.length = 2 := by
  obtain ⟨R', h1, h2, h3, -⟩ := C65_order clock longT { longT with rows := longT.rows.reverse }
    (by unfold Table.Rect; decide +kernel) (by unfold Table.HasCol; decide +kernel) rfl rfl (List.reverse_perm _) longR
    (longT_result clock)
  exact ⟨R', h1, h2, h3⟩

/-- The hypotheses of `C65_works` hold for it. -/
example (clock : Clock) : ∃ R, fromTable clock longT = .ok R := by
  refine C65_works clock longT (by unfold Table.Rect; decide +kernel) (by unfold Table.HasCol; decide +kernel)
    (by unfold Table.HasCol; decide +kernel) (by unfold Table.HasCol; decide +kernel) ?_ (by decide +kernel) ?_ (.inl ?_) ?_
  · simp [longT]
  · have : ∀ r ∈ longT.rows, (cellFloat (longT.cell r "value")).isSome := by decide +kernel
    intro r hr
    have h := this r hr
    cases hc : longT.cell r "value" with
    | int z => exact .inl ⟨_, .int z⟩
    | flt x =>
      cases x with
      | nan => exact .inr (.inr rfl)
      | num x => exact .inl ⟨_, .flt x⟩
    | none => exact .inr (.inl rfl)
    | _ => rw [hc] at h; cases h
  · have : ∀ r ∈ longT.rows, (longT.cell r "year").isInt := by decide +kernel
    intro r hr
    have h := this r hr
    cases hc : longT.cell r "year" with
    | int z => exact ⟨z, .inl rfl⟩
    | _ => rw [hc] at h; cases h
  · have := (C65_values clock longT (by unfold Table.Rect; decide +kernel) (by unfold Table.HasCol; decide +kernel) longR
      (longT_result clock)).2.2.2.2.1 0 (by decide)
    obtain ⟨r, t, x, h⟩ := this
    exact ⟨r, _, t, x, h⟩

/-- Rows with missing metadata are dropped: no timeseries of the result has the metadata of the last row. -/
theorem C65_dropped (clock : Clock) : ∃ R, fromTable clock longT = .ok R ∧ ∃ r ∈ longT.rows,
    IsTime (longT.cell r "year") (dateTime 2001 1 1) ∧ IsNumber (longT.cell r "value") 7 ∧ dateTime 2001 1 1 ∉ R.times ∧
    ∀ j < R.data.length, ¬ SameMeta (R.metaAt j) (longT.longMeta r) := by
  refine ⟨longR, longT_result clock, [.str "m", .str "s", .str "Other", .str "v", .str "K", .none, .int 2001, .flt (.num 7)],
    by decide +kernel, ?_, ?_, by decide +kernel, ?_⟩
  · exact cellTime_iff.1 (by decide +kernel)
  · exact cellFloat_num.1 (by decide +kernel)
  · intro j hj h
    have h2 : PyVal.same (longR.metaAt j "region")
      (longT.longMeta [.str "m", .str "s", .str "Other", .str "v", .str "K", .none, .int 2001, .flt (.num 7)] "region") = true :=
      same_iff.2 (h "region")
    have : ∀ j < longR.data.length, PyVal.same (longR.metaAt j "region")
      (longT.longMeta [.str "m", .str "s", .str "Other", .str "v", .str "K", .none, .int 2001, .flt (.num 7)] "region") = false := by
      decide +kernel
    rw [this j hj] at h2
    cases h2

end Openscm
