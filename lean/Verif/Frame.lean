import Verif.FilterTime

/-!
# Data frames and their filters (model)

`ScmDataFrameBase`, `openscm/scmdataframe/base.py:270-783`.

A frame holds the time points, the timeseries (the columns of the pandas frame `_data`) and one row of
metadata for each timeseries (`_meta`). Timeseries and metadata carry pandas labels: where pandas aligns
by label, the model does; where the code pairs by position, the model pairs by position.
-/

namespace Openscm

variable {K : Type} [Field K] [DecidableEq K]

/-- `ScmDataFrameBase`, `openscm/scmdataframe/base.py:270-296`. -/
structure DFrame (K : Type) where
  times : List Int
  /-- names of the metadata columns -/
  cols : List String
  data : List (Nat × List (Fl K))
  «meta» : List (Nat × List (PyVal K))
  deriving DecidableEq, Repr

/-- Frames as the constructor makes them: timeseries and metadata have the same labels in the same order,
labels and column names are not repeated, and all lengths agree. -/
structure DFrame.Ok (F : DFrame K) : Prop where
  labels : F.data.map (·.1) = F.meta.map (·.1)
  nodup : (F.data.map (·.1)).Nodup
  cols_nodup : F.cols.Nodup
  data_len : ∀ d ∈ F.data, d.2.length = F.times.length
  meta_len : ∀ r ∈ F.meta, r.2.length = F.cols.length

/-- `self.meta[c]`. -/
def DFrame.column (F : DFrame K) (c : String) : Except Err (List (PyVal K)) :=
  match F.cols.findIdx? (· = c) with
  | none => .error .keyError
  | some i => .ok (F.meta.map fun r => r.2.getD i .none)

/-- `acc &= m`; an empty accumulator is an array of floats, which has no `&`. -/
def andMask (acc m : List Bool) : Except Err (List Bool) :=
  if acc = [] then .error .typeError else .ok (List.zipWith (· && ·) acc m)

/-- What is fixed while filters are applied: the separator, `has_nan`, `regexp` and the level, if any. -/
structure FilterOpts (K : Type) where
  sep : String
  hasNan : Bool
  regexp : Bool

/-- `filters["level"] if "level" in filters else None`. -/
def levelOf (filters : List (String × PyArg K)) : Option (PyArg K) :=
  (filters.find? fun f => f.1 = "level").map (·.2)

/-- The mask of the filter of one metadata column. -/
def DFrame.metaMask (F : DFrame K) (o : FilterOpts K) (level : Option (PyArg K)) (c : String) (values : PyArg K) :
    Except Err (List Bool) :=
  match F.column c with
  | .error e => .error e
  | .ok col => patternMatch o.sep level o.regexp o.hasNan col values

/-- A mask of times made from a part of the times. -/
def partMask (part : Except Err (List Int)) (test : List Int → Except Err (List Bool)) : Except Err (List Bool) :=
  match part with
  | .error e => .error e
  | .ok data => test data

/-- The mask made by one filter: of the timeseries (`inl`) or of the times (`inr`); `none` if the filter does
nothing. -/
def DFrame.oneMask (F : DFrame K) (o : FilterOpts K) (filters : List (String × PyArg K)) (f : String × PyArg K) :
    Except Err (Option (List Bool ⊕ List Bool)) :=
  if f.1 = "variable" then (F.metaMask o (levelOf filters) "variable" f.2).map fun m => some (.inl m)
  else if f.1 ∈ F.cols then (F.metaMask o none f.1 f.2).map fun m => some (.inl m)
  else if f.1 = "year" then (partMask (tpYears F.times) fun d => yearsMatch d f.2).map fun m => some (.inr m)
  else if f.1 = "month" then (partMask (tpMonths F.times) fun d => (monthMatch d f.2).1).map fun m => some (.inr m)
  else if f.1 = "day" then (frameDayMatch F.times f.2).1.map fun m => some (.inr m)
  else if f.1 = "hour" then (partMask (tpHours F.times) fun d => hourMatch d f.2).map fun m => some (.inr m)
  else if f.1 = "time" then (datetimeMatch F.times f.2).map fun m => some (.inr m)
  else if f.1 = "level" then
    if filters.any fun g => g.1 = "variable" then .ok none
    else (F.metaMask o (some f.2) "variable" (.val (.str "*"))).map fun m => some (.inl m)
  else .error .valueError

/-- The loop of `_apply_filters`, `openscm/scmdataframe/base.py:718-766`. -/
def DFrame.applyLoop (F : DFrame K) (o : FilterOpts K) (filters : List (String × PyArg K)) :
    List (String × PyArg K) → List Bool → List Bool → Except Err (List Bool × List Bool)
  | [], ts, me => .ok (ts, me)
  | f :: r, ts, me =>
    match F.oneMask o filters f with
    | .error e => .error e
    | .ok none => F.applyLoop o filters r ts me
    | .ok (some (.inl m)) =>
      match andMask me m with
      | .error e => .error e
      | .ok me' => F.applyLoop o filters r ts me'
    | .ok (some (.inr m)) =>
      match andMask ts m with
      | .error e => .error e
      | .ok ts' => F.applyLoop o filters r ts' me

/-- `_apply_filters`, `openscm/scmdataframe/base.py:683-768`: masks of times and of timeseries. -/
def DFrame.applyFilters (F : DFrame K) (o : FilterOpts K) (filters : List (String × PyArg K)) :
    Except Err (List Bool × List Bool) :=
  F.applyLoop o filters filters (F.times.map fun _ => true) (F.meta.map fun _ => true)

def Fl.isNum : Fl K → Bool
  | .nan => false
  | .num _ => true

/-- Elements where the mask is true. -/
def pick {α : Type} : List Bool → List α → List α
  | b :: bs, a :: l => if b then a :: pick bs l else pick bs l
  | _, _ => []

/-- `DataFrame.where(idx)` for one timeseries. -/
def whereMask (ts : List Bool) (me keep : Bool) (vals : List (Fl K)) : List (Fl K) :=
  List.zipWith (fun t v => if (t && me) = keep then v else .nan) ts vals

/-- The times at which some timeseries has a value. -/
def presentTimes (times : List Int) (data : List (Nat × List (Fl K))) : List Bool :=
  data.foldr (fun s acc => List.zipWith (· || ·) (s.2.map Fl.isNum) acc) (times.map fun _ => false)

/-- `filter`, `openscm/scmdataframe/base.py:592-680`: the frame that is returned or, in place, the new state. -/
def DFrame.filter (F : DFrame K) (o : FilterOpts K) (keep : Bool) (filters : List (String × PyArg K)) :
    Except Err (DFrame K) :=
  match F.applyFilters o filters with
  | .error e => .error e
  | .ok (ts, me) =>
    if me.length ≠ F.data.length then .error .assertion
    else
      let d := List.zipWith (fun m (s : Nat × List (Fl K)) => (s.1, whereMask ts m keep s.2)) me F.data
      let keepT := presentTimes F.times d
      let kept := d.filter fun s => s.2.any Fl.isNum
      let meta' := F.meta.filter fun r => kept.any fun s => s.1 = r.1
      if kept.length ≠ meta'.length then .error .assertion
      else .ok { times := pick keepT F.times, cols := F.cols, data := kept.map fun s => (s.1, pick keepT s.2), «meta» := meta' }

/-- What a user sees: for each timeseries its metadata and its values that are not missing, with their times;
metadata and values are paired by position as in `timeseries()`, `openscm/scmdataframe/base.py:543-574`. -/
def DFrame.cells (F : DFrame K) : List (List (PyVal K) × Int × K) :=
  (F.meta.zip F.data).flatMap fun rd => (F.times.zip rd.2.2).filterMap fun tv =>
    match tv.2 with
    | .num x => some (rd.1.2, tv.1, x)
    | .nan => none

end Openscm
