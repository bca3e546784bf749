import Verif.FilterStr
import Verif.Calendar

/-!
# Filtering by time (model)

`openscm/scmdataframe/filters.py:209-425` and the parts of time points,
`openscm/core/time.py:191-248`.
-/

namespace Openscm

variable {K : Type} [Field K] [DecidableEq K]

/-! ## Parts of times -/

/-- Times that become `datetime` objects; `datetime` knows the years 1 to 9999. -/
def datetimeRange (t : Int) : Bool := yearToSeconds 1 ≤ t && t < yearToSeconds 10000

/-- `np.vectorize(f)(times)`: refuses an empty array; `e` is raised for times outside the range of
`datetime`, which stay integers. -/
def timeParts (e : Err) (f : Int → Int) (times : List Int) : Except Err (List Int) :=
  if times = [] then .error .valueError
  else if times.all datetimeRange then .ok (times.map f)
  else .error e

/-- `TimePoints.years()`, `openscm/core/time.py:191-200`. -/
def tpYears (times : List Int) : Except Err (List Int) := timeParts .attributeError timeYear times
/-- `TimePoints.months()`, `openscm/core/time.py:202-211`. -/
def tpMonths (times : List Int) : Except Err (List Int) := timeParts .attributeError timeMonth times
/-- `TimePoints.days()`, `openscm/core/time.py:213-222`. -/
def tpDays (times : List Int) : Except Err (List Int) := timeParts .attributeError timeDayOfMonth times
/-- `TimePoints.hours()`, `openscm/core/time.py:224-233`. -/
def tpHours (times : List Int) : Except Err (List Int) := timeParts .attributeError timeHour times
/-- `TimePoints.weekdays()`, `openscm/core/time.py:235-248`. -/
def tpWeekdays (times : List Int) : Except Err (List Int) := timeParts .typeError timeWeekday times

/-! ## Names -/

/-- The names that `time.strptime` knows for a format, and the number of the first. -/
structure NameTable where
  short : List (List Char)
  long : List (List Char)
  first : Int

/-- `%b` and `%B` with `tm_mon`, `openscm/scmdataframe/filters.py:263`. -/
def monthTable : NameTable where
  short := ["jan".toList, "feb".toList, "mar".toList, "apr".toList, "may".toList, "jun".toList, "jul".toList,
    "aug".toList, "sep".toList, "oct".toList, "nov".toList, "dec".toList]
  long := ["january".toList, "february".toList, "march".toList, "april".toList, "may".toList, "june".toList,
    "july".toList, "august".toList, "september".toList, "october".toList, "november".toList, "december".toList]
  first := 1

/-- `%a` and `%A` with `tm_wday`, `openscm/scmdataframe/filters.py:283`. -/
def dayTable : NameTable where
  short := ["mon".toList, "tue".toList, "wed".toList, "thu".toList, "fri".toList, "sat".toList, "sun".toList]
  long := ["monday".toList, "tuesday".toList, "wednesday".toList, "thursday".toList, "friday".toList,
    "saturday".toList, "sunday".toList]
  first := 0

/-- `getattr(time.strptime(t, code), attr)`: names are compared without regard to case. Simplification:
the locale is English and only ASCII letters are folded. -/
def strptime (names : List (List Char)) (first : Int) : PyVal K → Except Err Int
  | .str s =>
    match names.findIdx? (· = s.toList.map Char.toLower) with
    | some i => .ok (first + i)
    | none => .error .valueError
  | _ => .error .typeError

/-- A list comprehension that may raise. -/
def mapExcept {α β : Type} (f : α → Except Err β) : List α → Except Err (List β)
  | [] => .ok []
  | a :: r =>
    match f a with
    | .error e => .error e
    | .ok b =>
      match mapExcept f r with
      | .error e => .error e
      | .ok l => .ok (b :: l)

/-- `conv_strs`, `openscm/scmdataframe/filters.py:351-368`. -/
def convStrs (tbl : NameTable) (strs : List (PyVal K)) : Except Err (List Int) :=
  match mapExcept (strptime tbl.short tbl.first) strs with
  | .error .valueError => mapExcept (strptime tbl.long tbl.first) strs
  | r => r

/-- `s.split("-")`. -/
def splitDash : List Char → List (List Char)
  | [] => [[]]
  | c :: r =>
    if c = '-' then [] :: splitDash r
    else
      match splitDash r with
      | [] => [[c]]
      | a :: l => (c :: a) :: l

/-- `range(a, b + 1)`. -/
def intRange (a b : Int) : List Int := (List.range (b + 1 - a).toNat).map fun i : Nat => a + (i : Int)

/-- The loop that expands ranges, `openscm/scmdataframe/filters.py:373-386`: positions to delete and
integers to append. -/
def timeRanges (tbl : NameTable) : Nat → List (PyVal K) → Except Err (List Nat × List Int)
  | _, [] => .ok ([], [])
  | i, .str s :: r =>
    if '-' ∈ s.toList then
      match convStrs tbl ((splitDash s.toList).map fun p => (.str (String.ofList p) : PyVal K)) with
      | .error e => .error e
      | .ok ints =>
        match ints with
        | a :: b :: _ =>
          if a > b then .error .valueError
          else
            match timeRanges tbl (i + 1) r with
            | .error e => .error e
            | .ok (d, l) => .ok (i :: d, intRange a b ++ l)
        | _ => .error .indexError
    else timeRanges tbl (i + 1) r
  | _, _ :: _ => .error .typeError

/-- `for i in to_delete: del times_list[i]`, `openscm/scmdataframe/filters.py:388-389`: the list that is left
and whether all deletions succeeded. -/
def deleteAll {α : Type} : List Nat → List α → List α × Bool
  | [], l => (l, true)
  | i :: r, l => if i < l.length then deleteAll r (l.eraseIdx i) else (l, false)

/-- The body of `time_match` on a list, `openscm/scmdataframe/filters.py:370-394`: the result, and the list as it
is afterwards, which is that of the caller. -/
def timeMatchList (tbl : NameTable) (data : List Int) (l : List (PyVal K)) : Except Err (List Bool) × List (PyVal K) :=
  match l with
  | [] => (.error .indexError, l)
  | .str _ :: _ =>
    match timeRanges tbl 0 l with
    | .error e => (.error e, l)
    | .ok (toDelete, toAppend) =>
      match deleteAll toDelete l with
      | (l', false) => (.error .indexError, l')
      | (l', true) =>
        match convStrs tbl l' with
        | .error e => (.error e, l')
        | .ok ints => (.ok (data.map fun v => decide (v ∈ ints ++ toAppend)), l')
  | _ => (.ok (isIn (data.map .int) l), l)

/-- `time_match`, `openscm/scmdataframe/filters.py:307-394`. The second part is the argument as the caller sees
it afterwards. -/
def timeMatch (tbl : NameTable) (data : List Int) (arg : PyArg K) : Except Err (List Bool) × PyArg K :=
  match arg with
  | .val (.int z) => ((timeMatchList (K := K) tbl data [.int z]).1, arg)
  | .val (.str s) => ((timeMatchList (K := K) tbl data [.str s]).1, arg)
  | .val _ => (.error .typeError, arg)
  | .list l => ((timeMatchList tbl data l).1, .list (timeMatchList tbl data l).2)

/-! ## The other time filters -/

/-- `years_match`, `openscm/scmdataframe/filters.py:209-241`. -/
def yearsMatch (data : List Int) (arg : PyArg K) : Except Err (List Bool) :=
  match arg with
  | .val (.int z) => .ok (isIn (data.map (.int : Int → PyVal K)) [.int z])
  | .val _ => .error .typeError
  | .list l =>
    if l.all fun v => match v with | .int _ => true | _ => false then .ok (isIn (data.map .int) l)
    else .error .typeError

/-- `hour_match`, `openscm/scmdataframe/filters.py:286-304`. -/
def hourMatch (data : List Int) (arg : PyArg K) : Except Err (List Bool) :=
  match arg with
  | .val (.int z) => .ok (isIn (data.map (.int : Int → PyVal K)) [.int z])
  | .val _ => .error .typeError
  | .list l => .ok (isIn (data.map .int) l)

/-- `datetime_match`, `openscm/scmdataframe/filters.py:397-425`. Comparing times with other things than
datetimes is not modelled. -/
def datetimeMatch (data : List Int) (arg : PyArg K) : Except Err (List Bool) :=
  match arg with
  | .val (.time t) => .ok (isIn (data.map (.time : Int → PyVal K)) [.time t])
  | .val _ => .error .typeError
  | .list l =>
    if l.any fun v => match v with | .int _ => true | _ => false then .error .typeError
    else if l.all fun v => match v with | .time _ => true | _ => false then .ok (isIn (data.map .time) l)
    else .error .unmodelled

/-- `month_match`, `openscm/scmdataframe/filters.py:244-263`. -/
def monthMatch (data : List Int) (arg : PyArg K) : Except Err (List Bool) × PyArg K := timeMatch monthTable data arg

/-- `day_match`, `openscm/scmdataframe/filters.py:266-283`. -/
def dayMatch (data : List Int) (arg : PyArg K) : Except Err (List Bool) × PyArg K := timeMatch dayTable data arg

/-- `ScmDataFrameBase._day_match`, `openscm/scmdataframe/base.py:770-783`. -/
def frameDayMatch (times : List Int) (arg : PyArg K) : Except Err (List Bool) × PyArg K :=
  let wday : Except Err Bool := match arg with
    | .val (.str _) => .ok true
    | .val _ => .ok false
    | .list [] => .error .indexError
    | .list (.str _ :: _) => .ok true
    | .list _ => .ok false
  match wday with
  | .error e => (.error e, arg)
  | .ok w =>
    match (if w then tpWeekdays times else tpDays times) with
    | .error e => (.error e, arg)
    | .ok data => dayMatch data arg

end Openscm
