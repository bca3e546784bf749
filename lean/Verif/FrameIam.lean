import Verif.FrameTable2

/-!
# Frames and pyam

`to_iamdataframe`, `openscm/scmdataframe/base.py:1361-1384`, `LongDatetimeIamDataFrame`,
`openscm/scmdataframe/pyam_compat.py:14-48`, and `ScmDataFrame(iamdataframe)`, `openscm/scmdataframe/base.py:376-377`.

`pyam` is not part of the repository; of `IamDataFrame(table)` what is needed is modelled after pyam 0.2: the table is
put in long form, rows with anything missing are left out, and rows that differ in nothing but the value are refused.
-/

set_option linter.unusedSectionVars false

namespace Openscm

variable {K : Type} [Field K] [LinearOrder K] [IsStrictOrderedRing K]

/-- A row in long form: metadata, time and value. -/
abbrev IamRow (K : Type) := List (PyVal K) × PyVal K × PyVal K

/-- Nothing is missing. -/
def iamComplete (e : IamRow K) : Bool := e.1.all (fun v => !v.isNull) && !e.2.1.isNull && !e.2.2.isNull

/-- `df[idx_cols].duplicated().any()` in pyam. -/
def iamDuplicates : List (IamRow K) → Bool
  | [] => false
  | e :: r => r.any (fun e' => sameRow e.1 e'.1 && decide (e.2.1 = e'.2.1)) || iamDuplicates r

def timeIsText : PyVal K → Bool
  | .str _ => true
  | _ => false

/-- `_format_datetime_col`, `openscm/scmdataframe/pyam_compat.py:29-48`: text is parsed, what then is no datetime is
refused. Years are left as they are by pyam. -/
def iamTime (clock : Clock) (tc : String) : PyVal K → Except Err (PyVal K)
  | .time t => if tc = "time" then .ok (.time t) else .error .unmodelled
  | .str s =>
    if tc = "time" then
      match clock.read [s] with
      | .ok [t] => .ok (.time t)
      | _ => .error .valueError
    else .error .unmodelled
  | .int y => if tc = "time" then .error .valueError else .ok (.int y)
  | _ => if tc = "time" then .error .valueError else .error .unmodelled

/-- A row of `iamdataframe.data`. -/
def iamRow (clock : Clock) (tc : String) (e : IamRow K) : Except Err (List (PyVal K)) :=
  match iamTime clock tc e.2.1 with
  | .error x => .error x
  | .ok t => .ok (e.1 ++ [t, .flt ((cellFloat e.2.2).getD .nan)])

/-- Some times are text and some are not; the parser refuses what is not text. -/
def iamMixed (es : List (IamRow K)) : Bool := es.any (fun e => timeIsText e.2.1) && es.any (fun e => !timeIsText e.2.1)

/-- The end of `format_data` in pyam, and the constructor after it. -/
def iamFinish (clock : Clock) (cols : List String) (tc : String) (es : List (IamRow K)) : Except Err (Table K) :=
  if es.any fun e => (cellFloat e.2.2).isNone then .error .unmodelled
  else if iamDuplicates (es.filter iamComplete) then .error .valueError
  else if tc = "time" ∧ iamMixed (es.filter iamComplete) = true then .error .typeError
  else
    match mapExcept (iamRow clock tc) (es.filter iamComplete) with
    | .error x => .error x
    | .ok rows => .ok { index := [], cols := (cols ++ [tc, "value"]).map .text, rows := rows }

/-- The cell for the time of a column. -/
def labelCell : Label → PyVal K
  | .num y => .int y
  | .time t => .time t
  | .text s => .str s

/-- The name of the column for the times of a wide table: years or datetimes, not both. -/
def wideTimeCol (ls : List Label) : Option String :=
  if ls = [] then none
  else if ls.all fun l => (numLabel l).isSome then some "year"
  else if ls.all fun l => (timeLabel l).isSome then some "time"
  else none

/-- `LongDatetimeIamDataFrame(table).data`. Not modelled: columns of the same name, a column `notes`, which pyam treats in
its own way, wide tables in which text counts as a time or with metadata called `year` or `time`. -/
def iamTable (clock : Clock) (T : Table K) : Except Err (Table K) :=
  let names := T.labels.filterMap textOf
  if ¬ ∀ c ∈ requiredCols, c ∈ names then .error .valueError
  else if ¬ T.labels.Nodup ∨ "notes" ∈ names then .error .unmodelled
  else if "value" ∈ names then
    if "year" ∈ names ↔ "time" ∈ names then .error .valueError
    else if names.length ≠ T.labels.length then .error .unmodelled
    else
      let tc := if "year" ∈ names then "year" else "time"
      let cols := requiredCols ++ names.filter fun c => c ∉ requiredCols ∧ c ≠ tc ∧ c ≠ "value"
      iamFinish clock cols tc (T.rows.map fun r => (cols.map fun c => cellOf T.labels r (.text c),
        cellOf T.labels r (.text tc), cellOf T.labels r (.text "value")))
  else if names.any fun c => c ∉ requiredCols ∧ (clock.looks c = true ∨ c = "year" ∨ c = "time") then .error .unmodelled
  else
    let ls := T.labels.filter fun l => (textOf l).isNone
    match wideTimeCol ls with
    | none => .error .valueError
    | some tc =>
      let cols := requiredCols ++ names.filter fun c => c ∉ requiredCols
      iamFinish clock cols tc (T.rows.flatMap fun r => ls.map fun l => (cols.map fun c => cellOf T.labels r (.text c),
        labelCell l, cellOf T.labels r l))

/-- `to_iamdataframe`, `openscm/scmdataframe/base.py:1361-1384`, with pyam installed. -/
def DFrame.toIam (clock : Clock) (F : DFrame K) : Except Err (Table K) :=
  match F.asTable with
  | .error e => .error e
  | .ok T => iamTable clock T

/-! ## Specification -/

/-- No metadata of timeseries `i` is missing. -/
def DFrame.Full (F : DFrame K) (i : Nat) : Prop := ∀ c ∈ F.cols, F.metaAt i c ≠ .none ∧ F.metaAt i c ≠ .flt .nan

/-! ## Tables of pyam -/

theorem iamDuplicates_iff {es : List (IamRow K)} :
    iamDuplicates es = false ↔ es.Pairwise fun e e' => ¬ (sameRow e.1 e'.1 = true ∧ e.2.1 = e'.2.1) := by
  induction es with
  | nil => simp [iamDuplicates]
  | cons e r ih =>
    rw [iamDuplicates, Bool.or_eq_false_iff, ih, List.pairwise_cons, List.any_eq_false]
    simp only [Bool.and_eq_true, decide_eq_true_eq]

/-- Names of columns that `_format_data` leaves as they are. -/
structure IamCols (cols : List String) (tc : String) : Prop where
  lower : ∀ c ∈ cols, lowerText c = c
  nodup : cols.Nodup
  plain : ∀ c ∈ cols, ¬ (c = "value" ∨ c = "year" ∨ c = "time")
  tc : tc = "year" ∨ tc = "time"
  req : ∀ c ∈ requiredCols, c ∈ cols

def iamOf (cols : List String) (tc : String) (rows : List (List (PyVal K))) : Table K :=
  { index := [], cols := (cols ++ [tc, "value"]).map .text, rows := rows }

theorem lower_value : lowerText "value" = "value" := by decide +kernel
theorem lower_year : lowerText "year" = "year" := by decide +kernel
theorem lower_time : lowerText "time" = "time" := by decide +kernel

theorem IamCols.lower_tc {cols : List String} {tc : String} (h : IamCols cols tc) : lowerText tc = tc := by
  rcases h.tc with rfl | rfl
  · exact lower_year
  · exact lower_time

theorem IamCols.all {cols : List String} {tc : String} (h : IamCols cols tc) :
    ((cols ++ [tc, "value"]).map Label.text).map colName = (cols ++ [tc, "value"]).map some := by
  rw [List.map_map]
  refine List.map_congr_left fun c hc => ?_
  show some (lowerText c) = some c
  rw [List.mem_append] at hc
  rcases hc with hc | hc
  · rw [h.lower c hc]
  · simp only [List.mem_cons, List.not_mem_nil, or_false] at hc
    rcases hc with rfl | rfl
    · rw [h.lower_tc]
    · rw [lower_value]

theorem IamCols.tc_ne {cols : List String} {tc : String} (h : IamCols cols tc) : tc ≠ "value" ∧ tc ∉ cols ∧ "value" ∉ cols := by
  refine ⟨?_, fun hc => h.plain _ hc (.inr h.tc), fun hc => h.plain _ hc (.inl rfl)⟩
  rcases h.tc with rfl | rfl <;> decide

theorem IamCols.has {cols : List String} {tc : String} (h : IamCols cols tc) {rows : List (List (PyVal K))} (c : String) :
    (iamOf cols tc rows).HasCol c ↔ c ∈ cols ∨ c = tc ∨ c = "value" := by
  unfold Table.HasCol iamOf
  rw [h.all]
  simp

theorem idxOf_some (l : List String) (c : String) : (l.map some).idxOf (some c) = l.idxOf c := by
  induction l with
  | nil => rfl
  | cons a l ih => simp [List.idxOf_cons, ih, beq_eq_decide]

theorem IamCols.cell {cols : List String} {tc : String} (h : IamCols cols tc) {rows : List (List (PyVal K))}
    {k : List (PyVal K)} (hk : k.length = cols.length) (t v : PyVal K) :
    (∀ c, c ≠ tc → c ≠ "value" → (iamOf cols tc rows).cell (k ++ [t, v]) c = rowVal cols k c) ∧
    (iamOf cols tc rows).cell (k ++ [t, v]) tc = t ∧ (iamOf cols tc rows).cell (k ++ [t, v]) "value" = v := by
  obtain ⟨h1, h2, h3⟩ := h.tc_ne
  have hcell : ∀ c, c ∈ cols ++ [tc, "value"] →
      (iamOf cols tc rows).cell (k ++ [t, v]) c = (k ++ [t, v]).getD ((cols ++ [tc, "value"]).idxOf c) .none := by
    intro c hc
    unfold Table.cell iamOf
    rw [h.all, if_neg (by simp), if_pos (List.mem_map_of_mem hc), idxOf_some]
    simp
  refine ⟨fun c hc1 hc2 => ?_, ?_, ?_⟩
  · by_cases hc : c ∈ cols
    · rw [hcell c (List.mem_append_left _ hc), List.idxOf_append_of_mem hc]
      have := List.idxOf_lt_length_of_mem hc
      unfold rowVal
      rw [List.getD_eq_getElem?_getD, List.getElem?_append_left (by omega), List.getD_eq_getElem?_getD]
    · rw [cell_absent, rowVal_absent hk hc]
      rw [h.has]
      simp [hc, hc1, hc2]
  · rw [hcell tc (by simp), List.idxOf_append_of_notMem h2]
    simp [← hk]
  · rw [hcell "value" (by simp), List.idxOf_append_of_notMem h3, List.idxOf_cons]
    have : (tc == "value") = false := by simpa using h1
    simp [this, ← hk]

theorem IamCols.longMeta {cols : List String} {tc : String} (h : IamCols cols tc) {rows : List (List (PyVal K))}
    {k : List (PyVal K)} (hk : k.length = cols.length) (t v : PyVal K) :
    (iamOf cols tc rows).longMeta (k ++ [t, v]) = rowVal cols k := by
  funext c
  unfold Table.longMeta
  split
  · rename_i hc
    rw [rowVal_absent hk fun hm => h.plain c hm hc]
  · rename_i hc
    rw [not_or, not_or] at hc
    refine (h.cell hk t v).1 c ?_ hc.1
    rintro rfl
    rcases h.tc with ht | ht
    · exact hc.2.1 ht
    · exact hc.2.2 ht

/-- The complete rows of a table of pyam. -/
theorem IamCols.entry {cols : List String} {tc : String} (h : IamCols cols tc) {rows : List (List (PyVal K))}
    {k : List (PyVal K)} {tv v : PyVal K} (hk : k.length = cols.length) (hnull : ∀ a ∈ k, a.isNull = false)
    (hr : k ++ [tv, v] ∈ rows) {m : String → PyVal K} {t : Int} {x : K} :
    (iamOf cols tc rows).Entry (k ++ [tv, v]) m t x ↔ SameMeta m (rowVal cols k) ∧ IsTime tv t ∧ IsNumber v x := by
  obtain ⟨h1, h2, h3⟩ := h.cell (rows := rows) hk tv v
  have hother : ∀ c, c = "year" ∨ c = "time" → c ≠ tc → (iamOf cols tc rows).cell (k ++ [tv, v]) c = .none := by
    intro c hc hct
    rw [cell_absent]
    rw [h.has]
    rintro (hm | hm | hm)
    · exact h.plain c hm (.inr hc)
    · exact hct hm
    · subst hm
      revert hc; decide
  have htime : IsTime ((iamOf cols tc rows).cell (k ++ [tv, v]) "year") t ∨ IsTime ((iamOf cols tc rows).cell (k ++ [tv, v]) "time") t ↔
      IsTime tv t := by
    rcases h.tc with rfl | rfl
    · rw [h2, hother "time" (.inr rfl) (by decide)]
      exact ⟨fun hh => hh.elim id (fun h' => nomatch h'), .inl⟩
    · rw [h2, hother "year" (.inl rfl) (by decide)]
      exact ⟨fun hh => hh.elim (fun h' => nomatch h') id, .inr⟩
  constructor
  · rintro ⟨a1, a2, a3, a4, a5⟩
    rw [h.longMeta hk] at a2
    rw [h3] at a5
    exact ⟨a2, htime.1 a4, a5⟩
  · rintro ⟨a2, a4, a5⟩
    refine ⟨hr, by rw [h.longMeta hk]; exact a2, fun c hc n1 n2 n3 => ?_, htime.2 a4, by rw [h3]; exact a5⟩
    have hct : c ≠ tc := by
      rintro rfl
      rcases h.tc with ht | ht
      · exact n2 ht
      · exact n3 ht
    rw [h1 c hct n1]
    have hcm : c ∈ cols := by
      rcases (h.has c).1 hc with hm | hm | hm
      · exact hm
      · exact absurd hm hct
      · exact absurd hm n1
    have hlt := List.idxOf_lt_length_of_mem hcm
    have := hnull (rowVal cols k c) (by
      unfold rowVal
      rw [List.getD_eq_getElem?_getD, List.getElem?_eq_getElem (by omega)]
      exact List.getElem_mem _)
    rw [← Bool.not_eq_true, isNull_iff, not_or] at this
    exact this

/-- Lists of numbers of which only one can be there. -/
theorem filterMap_one {α β : Type} {f : α → Option β} {l : List α} {a : α} {b : β} (ha : a ∈ l) (hb : f a = some b)
    (hp : l.Pairwise fun x y => ¬ ((f x).isSome = true ∧ (f y).isSome = true)) : l.filterMap f = [b] := by
  induction l with
  | nil => simp at ha
  | cons x l ih =>
    rw [List.pairwise_cons] at hp
    rcases List.mem_cons.1 ha with rfl | ha
    · rw [List.filterMap_cons, hb]
      have : l.filterMap f = [] := by
        rw [List.filterMap_eq_nil_iff]
        intro y hy
        have := hp.1 y hy
        rw [hb] at this
        cases hfy : f y with
        | none => rfl
        | some z => simp [hfy] at this
      rw [this]
    · have hx : f x = none := by
        have := hp.1 a ha
        rw [hb] at this
        cases hfx : f x with
        | none => rfl
        | some z => simp [hfx] at this
      rw [List.filterMap_cons, hx]
      exact ih ha hp.2

theorem average_one (x : K) : average [x] = some x := by simp [average]

end Openscm
