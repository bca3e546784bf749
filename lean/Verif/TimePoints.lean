import Verif.Core
import Mathlib.Data.Rat.Floor

/-!
# Creating and parsing time points

`openscm/core/time.py:94-288`. Times are whole seconds since 1970, as in `datetime64[s]`.
Simplification: floats are exact rationals.
-/

namespace Openscm

/-- `int(x)` and the conversion of a float array to an integer dtype: cut off towards zero. -/
def truncQ (q : ℚ) : ℤ := if 0 ≤ q then ⌊q⌋ else ⌈q⌉

/-! ## Years -/

/-- Days from 0001-01-01 to 1 January of year `y`: `datetime.date.toordinal`, minus one. -/
def daysBeforeYear (y : ℤ) : ℤ := (y - 1) * 365 + (y - 1) / 4 - (y - 1) / 100 + (y - 1) / 400

/-- `np.datetime64(y - 1970, "Y")` in seconds, `openscm/core/time.py:97-99`, `150`. -/
def yearToSeconds (y : ℤ) : ℤ := (daysBeforeYear y - daysBeforeYear 1970) * 86400

/-- `(datetime(y + 1, 1, 1) - datetime(y, 1, 1)).total_seconds()`,
`openscm/core/time.py:101-104`; `datetime` knows the years 1 to 9999. -/
def yearSeconds (y : ℤ) : Except Err ℤ :=
  if 1 ≤ y ∧ y + 1 ≤ 9999 then .ok ((daysBeforeYear (y + 1) - daysBeforeYear y) * 86400)
  else .error .valueError

/-- `_float_year_to_datetime`, `openscm/core/time.py:94-107`; `int(nan)` is a `ValueError`. -/
def floatYear : Fl ℚ → Except Err ℤ
  | .nan => .error .valueError
  | .num q =>
    match yearSeconds (truncQ q) with
    | .error e => .error e
    | .ok n => .ok (yearToSeconds (truncQ q) + truncQ ((n : ℚ) * (q - (truncQ q : ℚ))))

/-- Arrays accepted by `_format_datetime` that are modelled here. -/
inductive TimeInput
  /-- datetime64 or datetime objects, already in seconds -/
  | seconds (l : List ℤ)
  | floatYears (l : List (Fl ℚ))
  | intYears (l : List ℤ)

/-- `_format_datetime`, `openscm/core/time.py:121-154`, without strings. -/
def formatDatetime : TimeInput → Except Err (List ℤ)
  | .seconds l => .ok l
  | .floatYears l => mapLeaves floatYear l
  | .intYears l => .ok (l.map yearToSeconds)

/-! ## Equidistant time points -/

/-- `np.linspace(start, stop, num)` with the endpoint. -/
def linspace (start stop : ℚ) (num : Nat) : List ℚ :=
  (List.range num).map fun i =>
    if num = 1 then start
    else if i = num - 1 then stop
    else i * ((stop - start) / (num - 1 : Nat)) + start

/-- `create_time_points`, `openscm/core/time.py:251-288`. `start` and `period` are counted in ticks
of which there are `res` per second (`datetime64[s]`: 1, `datetime64[ms]`: 1000, ...). -/
def createTimePoints (res : ℤ) (start period : ℤ) (n : Nat) (ty : TyArg) : Except Err (List ℤ) :=
  match ty.parse with
  | .error e => .error e
  | .ok t =>
    let num := if t = .average then n + 1 else n
    let stop := start + ((num : ℤ) - 1) * period
    .ok ((linspace ((start / res : ℤ) : ℚ) ((stop / res : ℤ) : ℚ) num).map truncQ)

end Openscm
