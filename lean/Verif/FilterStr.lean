import Verif.Regex
import Mathlib.Algebra.Order.Field.Basic

/-!
# Filtering metadata by patterns (model)

`openscm/scmdataframe/filters.py:18-206`: `is_in`, `find_depth`, `pattern_match`.
-/

namespace Openscm

/-- Python values that occur as metadata and as filter arguments. -/
inductive PyVal (K : Type)
  | str (s : String)
  | int (z : Int)
  | flt (x : Fl K)
  | none
  /-- a `datetime`, in whole seconds since 1970 -/
  | time (t : Int)
  deriving DecidableEq, Repr

/-- Python values that can be filter arguments: a value or a list of values. -/
inductive PyArg (K : Type)
  | val (v : PyVal K)
  | list (l : List (PyVal K))
  deriving DecidableEq, Repr

variable {K : Type} [Field K] [DecidableEq K]

/-- `a == b` in Python. -/
def PyVal.eq : PyVal K → PyVal K → Bool
  | .str a, .str b => a = b
  | .int a, .int b => a = b
  | .int a, .flt (.num y) => (a : K) = y
  | .flt (.num x), .int b => x = (b : K)
  | .flt (.num x), .flt (.num y) => x = y
  | .none, .none => true
  | .time a, .time b => a = b
  | _, _ => false

/-- `a == b` element by element in a pandas column, which is never true for `None`
(`openscm/scmdataframe/filters.py:204`). -/
def PyVal.colEq (a b : PyVal K) : Bool :=
  match b with
  | .none => false
  | b => a.eq b

/-- `is_in`, `openscm/scmdataframe/filters.py:18-37`, with a list. -/
def isIn (vals items : List (PyVal K)) : List Bool := vals.map fun v => items.any fun i => v.eq i

/-! ## Depth -/

/-- `s.replace(old, "")`: remove `old` from left to right, without overlap. `skip` characters are part of
an occurrence that has been found. -/
def removeText (old : List Char) : Nat → List Char → List Char
  | _, [] => []
  | skip + 1, _ :: r => removeText old skip r
  | 0, c :: r =>
    if old ≠ [] ∧ old.isPrefixOf (c :: r) then removeText old (old.length - 1) r
    else c :: removeText old 0 r

/-- `len(re.findall(re.escape(sep), s))`: count from left to right, without overlap. An empty
separator is found before each character and at the end. -/
def countText (sep : List Char) : Nat → List Char → Nat
  | _, [] => if sep = [] then 1 else 0
  | skip + 1, _ :: r => countText sep skip r
  | 0, c :: r =>
    if sep.isPrefixOf (c :: r) then 1 + countText sep (sep.length - 1) r
    else countText sep 0 r

/-- White space as removed by `int()`. -/
def pySpace (c : Char) : Bool := c = ' ' || c = '\t' || c = '\n' || c = '\r' || c = '\x0b' || c = '\x0c'

/-- Digits, with single underscores between them. -/
def pyDigits : Nat → List Char → Option Nat
  | acc, [] => some acc
  | acc, '_' :: c :: r => if c.isDigit then pyDigits (acc * 10 + (c.toNat - '0'.toNat)) r else none
  | acc, c :: r => if c.isDigit then pyDigits (acc * 10 + (c.toNat - '0'.toNat)) r else none

/-- A number without sign. -/
def pyNat : List Char → Option Nat
  | [] => none
  | c :: r => if c.isDigit then pyDigits (c.toNat - '0'.toNat) r else none

/-- `int(s)` for a string. Simplification: ASCII only. -/
def pyInt (s : List Char) : Except Err Int :=
  let t := ((s.dropWhile pySpace).reverse.dropWhile pySpace).reverse
  let r : Option Int := match t with
    | '-' :: r => (pyNat r).map fun n => -(n : Int)
    | '+' :: r => (pyNat r).map fun n => (n : Int)
    | r => (pyNat r).map fun n => (n : Int)
  match r with
  | none => .error .valueError
  | some z => .ok z

/-- The test of the depth made from `level`, `openscm/scmdataframe/filters.py:75-95`. A list or a value
that is no number is compared with a number and never equal. -/
def levelTest (level : PyArg K) : Except Err (Nat → Bool) :=
  match level with
  | .val (.str s) =>
    match s.toList.getLast? with
    | none => .error .indexError
    | some c =>
      if c = '-' then
        match pyInt s.toList.dropLast with
        | .error e => .error e
        | .ok n => .ok fun x => (x : Int) ≤ n
      else if c = '+' then
        match pyInt s.toList.dropLast with
        | .error e => .error e
        | .ok n => .ok fun x => n ≤ (x : Int)
      else .error .valueError
  | .val v => .ok fun x => v.eq (.int x)
  | .list _ => .ok fun _ => false

/-- The depth of a value below the pattern `s`, `openscm/scmdataframe/filters.py:98-102`. -/
def depthBelow (sep s v : String) : Nat :=
  countText sep.toList 0 (removeText (s.toList.filter (· ≠ '*')) 0 v.toList)

/-- `find_depth`, `openscm/scmdataframe/filters.py:40-104`, for a column of strings. -/
def findDepth (sep s : String) (level : PyArg K) (col : List String) : Except Err (List Bool) :=
  match levelTest level with
  | .error e => .error e
  | .ok test => .ok (col.map fun v => test (depthBelow sep s v))

/-! ## Patterns -/

/-- `s.replace(c, t)` for one character. -/
def replaceChar (c : Char) (t : List Char) (s : List Char) : List Char :=
  s.flatMap fun x => if x = c then t else [x]

/-- The pseudo regular expression as a regular expression, `openscm/scmdataframe/filters.py:169-178`. -/
def wildcardRe (s : List Char) : List Char :=
  replaceChar '$' ['\\', '$'] (replaceChar ')' ['\\', ')'] (replaceChar '(' ['\\', '('] (replaceChar '+' ['\\', '+']
    (replaceChar '*' ['.', '*'] (replaceChar '.' ['\\', '.'] (replaceChar '|' ['\\', '|'] s)))))) ++ ['$']

/-- The column with NaN replaced by the empty string, `openscm/scmdataframe/filters.py:160-164`;
`np.isnan` refuses `None` and datetimes. -/
def nanToEmpty : List (PyVal K) → Except Err (List (PyVal K))
  | [] => .ok []
  | .none :: _ => .error .typeError
  | .time _ :: _ => .error .typeError
  | .flt .nan :: r => (nanToEmpty r).map (.str "" :: ·)
  | v :: r => (nanToEmpty r).map (v :: ·)

/-- The strings of a column, all of whose elements have to be strings to be matched with a regular
expression (`openscm/scmdataframe/filters.py:180-193`). -/
def colStrings : List (PyVal K) → Except Err (List String)
  | [] => .ok []
  | .str s :: r => (colStrings r).map (s :: ·)
  | _ :: _ => .error .typeError

/-- One string of `pattern_match`, `openscm/scmdataframe/filters.py:167-202`. -/
def matchString (sep : String) (level : Option (PyArg K)) (regexp : Bool) (col : List (PyVal K)) (s : String) :
    Except Err (List Bool) :=
  match reCompile (if regexp then s.toList else wildcardRe s.toList) with
  | .error e => .error e
  | .ok p =>
    match colStrings col with
    | .error e => .error e
    | .ok strs =>
      let subset := strs.filter fun m => reMatch p true m.toList
      match level with
      | none => .ok (strs.map fun m => subset.contains m)
      | some lv =>
        match findDepth sep s lv strs with
        | .error e => .error e
        | .ok depth => .ok (List.zipWith (fun m d => subset.contains m && d) strs depth)

/-- One value of `pattern_match`: `col` is the column as stored, `conv` the one with NaN replaced. -/
def matchOne (sep : String) (level : Option (PyArg K)) (regexp : Bool) (col conv : List (PyVal K)) (v : PyVal K) :
    Except Err (List Bool) :=
  match v with
  | .str s => matchString sep level regexp conv s
  | v => .ok (col.map fun m => m.colEq v)

/-- The loop over the values. -/
def matchValues (sep : String) (level : Option (PyArg K)) (regexp : Bool) (col conv : List (PyVal K)) :
    List (PyVal K) → List Bool → Except Err (List Bool)
  | [], acc => .ok acc
  | v :: r, acc =>
    match matchOne sep level regexp col conv v with
    | .error e => .error e
    | .ok m => matchValues sep level regexp col conv r (List.zipWith (· || ·) acc m)

/-- The values to look for, `openscm/scmdataframe/filters.py:150-154`. -/
def PyArg.values : PyArg K → List (PyVal K)
  | .val v => [v]
  | .list l => l

/-- `level=None` is no level, `openscm/scmdataframe/filters.py:197-199`. -/
def givenLevel : Option (PyArg K) → Option (PyArg K)
  | some (.val .none) => none
  | l => l

/-- `pattern_match(...).values`, `openscm/scmdataframe/filters.py:107-206` with
`openscm/scmdataframe/base.py:720-737,753-761`: without any value there is no pandas column whose `values`
can be taken. -/
def patternMatch (sep : String) (level : Option (PyArg K)) (regexp hasNan : Bool) (col : List (PyVal K))
    (values : PyArg K) : Except Err (List Bool) :=
  match (if hasNan then nanToEmpty col else .ok col) with
  | .error e => .error e
  | .ok conv =>
    if values.values = [] then .error .attributeError
    else matchValues sep (givenLevel level) regexp col conv values.values (col.map fun _ => false)

end Openscm
