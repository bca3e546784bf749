/-!
# Shared vocabulary: exceptions, parameter types, floats with NaN
-/

namespace Openscm

/-- Python exceptions as values.  `openscm/errors.py:11-82` plus the built-in ones that the
modelled code can raise.

`unmodelled` and `badHandle` are not Python exceptions: the first marks inputs on which the
behaviour of numpy/scipy is deliberately left out of the model (see DESIGN.md), the second marks
a view handle that no Python program could hold. -/
inductive Err
  | valueError
  | keyError
  | indexError
  | typeError
  | attributeError
  | notImplemented
  | parameterType
  | parameterRead
  | parameterWritten
  | parameterReadonly
  | parameterEmpty
  | parameterAggregation
  | regionAggregated
  | pointsValuesMismatch
  | insufficientData
  | dimensionality
  | undefinedUnit
  | adapterNeedsModule
  | zeroDivision
  | reError
  | assertion
  | unmodelled
  | badHandle
  deriving DecidableEq, Repr

/-- `ParameterType`, `openscm/core/parameters.py:36-44`. -/
inductive PType
  | scalar
  | average
  | point
  | generic
  deriving DecidableEq, Repr

/-- `ExtrapolationType`, `openscm/core/time.py:28-36`. -/
inductive Extrap
  | none
  | constant
  | linear
  deriving DecidableEq, Repr

/-- `InterpolationType`, `openscm/core/time.py:63-69`: only one value exists. -/
inductive Interp
  | linear
  deriving DecidableEq, Repr

/-- A Python float: NaN or an exact number.  Simplification: no rounding, no infinities. -/
inductive Fl (K : Type) where
  | nan
  | num (x : K)
  deriving DecidableEq, Repr

namespace Fl
variable {K : Type}

/-- NaN-propagating application of a unary operation. -/
def map (f : K → K) : Fl K → Fl K
  | nan => nan
  | num x => num (f x)

/-- NaN-propagating addition. -/
def add [Add K] : Fl K → Fl K → Fl K
  | num x, num y => num (x + y)
  | _, _ => nan

@[simp] theorem map_num (f : K → K) (x : K) : map f (num x) = num (f x) := rfl
@[simp] theorem map_nan (f : K → K) : map f (nan : Fl K) = nan := rfl
@[simp] theorem add_num [Add K] (x y : K) : add (num x) (num y) = num (x + y) := rfl
@[simp] theorem add_nan_left [Add K] (y : Fl K) : add nan y = nan := by cases y <;> rfl
@[simp] theorem add_nan_right [Add K] (x : Fl K) : add x nan = nan := by cases x <;> rfl

theorem map_map (f g : K → K) (x : Fl K) : map f (map g x) = map (fun y => f (g y)) x := by
  cases x <;> rfl

theorem map_id' (x : Fl K) : map (fun y => y) x = x := by cases x <;> rfl

/-- All entries of an array as exact numbers, or `none` if one of them is NaN. -/
def allNum : List (Fl K) → Option (List K)
  | [] => some []
  | nan :: _ => Option.none
  | num x :: r => (allNum r).map (x :: ·)

theorem allNum_map_num (l : List K) : allNum (l.map num) = some l := by
  induction l with
  | nil => rfl
  | cons a l ih => simp [allNum, ih]

theorem allNum_eq_some {l : List (Fl K)} {r : List K} : allNum l = some r ↔ l = r.map num := by
  constructor
  · intro h
    induction l generalizing r with
    | nil => simp [allNum] at h; subst h; rfl
    | cons a l ih =>
      cases a with
      | nan => simp [allNum] at h
      | num x =>
        simp only [allNum, Option.map_eq_some_iff] at h
        obtain ⟨r', h1, h2⟩ := h
        subst h2
        simp [ih h1]
  · rintro rfl; exact allNum_map_num r

end Fl

end Openscm
