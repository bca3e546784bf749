import Verif.FrameInterp
import Verif.FrameRename
import Verif.FreshRead
import Verif.NamesProps

/-!
# Frames to parameter sets and back (model)

`ScmDataFrameBase.to_parameterset`, `openscm/scmdataframe/base.py:453-534`, and
`convert_openscm_to_scmdataframe`, `openscm/scmdataframe/__init__.py:33-168`, as programs that make public calls on a
parameter set. Both end with the first exception. Generic parameters hold metadata values.

Simplifications: values are floats; variables, regions and units are text; at least two further metadata columns
(a frame has `model` and `scenario`), without which `squeeze` makes something other than a series of metadata;
`str.strip` strips the white space of `Char.isWhitespace`.
-/

set_option linter.unusedSectionVars false

namespace Openscm

variable {K : Type} [Field K] [LinearOrder K] [IsStrictOrderedRing K]

/-! ## `to_parameterset` -/

/-- The columns that are not metadata of the whole set, `openscm/scmdataframe/base.py:484`. -/
def seriesCols : List String := ["variable", "region", "unit", "parameter_type"]

/-- `meta_values`, `openscm/scmdataframe/base.py:483-494`. -/
def DFrame.commonMeta (F : DFrame K) : Except Err (List (String × PyVal K)) :=
  let cols := F.cols.filter fun c => c ∉ seriesCols
  match F.meta.map fun r => selectCols F.cols cols r.2 with
  | [] => .error .unmodelled
  | row :: rows =>
    if ¬ ∀ r ∈ rows, sameRow row r = true then .error .valueError
    else if cols.length < 2 then .error .unmodelled
    else if "climate_model" ∈ cols ∧ (rowVal cols row "climate_model").eq (.str "unspecified") = false then
      .error .valueError
    else .ok (cols.zip row)

/-- `variable`, `region` and `unit` of a row, `openscm/scmdataframe/base.py:501-503`. -/
def seriesNames (cols : List String) (row : List (PyVal K)) : Except Err (String × String × String) :=
  match rowVal cols row "variable", rowVal cols row "region", rowVal cols row "unit" with
  | .str v, .str r, .str u => .ok (v, r, u)
  | _, _, _ => .error .unmodelled

/-- `timeseries_type`, `openscm/scmdataframe/base.py:504-509`. -/
def seriesType (reg : Registry K) (cols : List String) (row : List (PyVal K)) (v u : String) : Except Err PType :=
  if "parameter_type" ∈ cols then
    match rowVal cols row "parameter_type" with
    | .str t => (TyArg.str t).parse
    | _ => .error .valueError
  else .ok (guessParameterType reg v (some u))

/-- `time_points`, `openscm/scmdataframe/base.py:511-514`. -/
def seriesPoints (times : List Int) (t : PType) : Except Err (List Int) :=
  if t = .average then extendPoints times else .ok times

/-- One round of the loop over the timeseries, `openscm/scmdataframe/base.py:498-522`. -/
def addSeries (env : Env K) (F : DFrame K) (d : Nat × List (Fl K)) : M K (PyVal K) Unit :=
  match F.meta.find? fun r => r.1 = d.1 with
  | none => M.throw .keyError
  | some r =>
    match seriesNames F.cols r.2 with
    | .error e => M.throw e
    | .ok (v, g, u) =>
      match seriesType env.units F.cols r.2 v u with
      | .error e => M.throw e
      | .ok t =>
        match seriesPoints F.times t with
        | .error e => M.throw e
        | .ok tps => do
          let o ← call env (.timeseries (.str v) u (toK tps) (.str g) (.enum t) (.enum .linear) (.enum .none))
          match o with
          | .view i => do let _ ← call env (.tSet i (.floats d.2)); pure ()
          | _ => M.throw .unmodelled

def addAllSeries (env : Env K) (F : DFrame K) : List (Nat × List (Fl K)) → M K (PyVal K) Unit
  | [] => pure ()
  | d :: ds => do addSeries env F d; addAllSeries env F ds

/-- `s.strip()`. -/
def stripChars (l : List Char) : List Char :=
  ((l.dropWhile Char.isWhitespace).reverse.dropWhile Char.isWhitespace).reverse

/-- Name and unit of a scalar, if the name of the column matches `.*\(.*\)`; `openscm/scmdataframe/base.py:524-528`. -/
def scalarKey (k : String) : Option (String × String) :=
  let l := k.toList
  if ')' ∈ (l.takeWhile (· ≠ '\n')).dropWhile (· ≠ '(') then
    some (String.ofList (stripChars (l.takeWhile (· ≠ '('))),
      String.ofList (stripChars ((((l.dropWhile (· ≠ '(')).tail.takeWhile (· ≠ '(')).takeWhile (· ≠ ')')))))
  else none

/-- The number that is assigned to a scalar view. Text and `None` cannot be multiplied by a float. -/
def PyVal.number : PyVal K → Except Err (Fl K)
  | .int z => .ok (.num (z : K))
  | .flt x => .ok x
  | .time _ => .error .unmodelled
  | _ => .error .typeError

/-- The region in which all metadata lives. -/
def worldName : List String := ["World"]

/-- One round of the loop over the metadata, `openscm/scmdataframe/base.py:525-532`. -/
def addMeta (env : Env K) (c : String × PyVal K) : M K (PyVal K) Unit :=
  match scalarKey c.1 with
  | some (n, u) => do
    let o ← call env (.scalar (.str n) u (.seq worldName))
    match o, c.2.number with
    | .view i, .ok x => do let _ ← call env (.sSet i x); pure ()
    | .view _, .error e => M.throw e
    | _, _ => M.throw .unmodelled
  | none => do
    let o ← call env (.generic (.str c.1) (.seq worldName))
    match o with
    | .view i => do let _ ← call env (.gSet i c.2); pure ()
    | _ => M.throw .unmodelled

def addAllMeta (env : Env K) : List (String × PyVal K) → M K (PyVal K) Unit
  | [] => pure ()
  | c :: cs => do addMeta env c; addAllMeta env cs

/-- `to_parameterset`, `openscm/scmdataframe/base.py:453-534`. -/
def toParameterset (env : Env K) (F : DFrame K) : M K (PyVal K) Unit :=
  match F.commonMeta with
  | .error e => M.throw e
  | .ok ms => do
    addAllSeries env F F.data
    addAllMeta env ms

/-! ## `convert_openscm_to_scmdataframe` -/

/-- `walk_parameters`, `openscm/scmdataframe/__init__.py:83-95`: names, regions and parameters. `fuel` bounds the
depth. -/
def walkAux (s : St K (PyVal K)) : Nat → Nat → List String → List (List String × List String × Nat)
  | 0, _, _ => []
  | fuel + 1, p, past =>
    match s.params[p]? with
    | none => []
    | some P => if P.children = [] then [(past ++ [P.name], regionName s P.region, p)]
      else P.children.flatMap fun c => walkAux s fuel c.2 (past ++ [P.name])

/-- The parameters of one region. -/
def walkRegion (s : St K (PyVal K)) (R : Region) : List (List String × List String × Nat) :=
  R.params.flatMap fun x => walkAux s s.params.length x.2 []

/-- `root_params`, `openscm/scmdataframe/__init__.py:111-122`: the root region and the regions directly below. No two
parameters have the same name and region, so the dictionary is a list. -/
def rootParams (s : St K (PyVal K)) : List (List String × List String × Nat) :=
  match s.regions[0]? with
  | none => []
  | some R => walkRegion s R ++ R.children.flatMap fun c =>
      match s.regions[c.2]? with
      | none => []
      | some Q => walkRegion s Q

/-- `d[k] = v` for a dictionary. -/
def dictSet {α : Type} (d : List (String × α)) (k : String) (v : α) : List (String × α) :=
  if k ∈ d.map (·.1) then d.map fun x => if x.1 = k then (k, v) else x else d ++ [(k, v)]

/-- `d[k].append(v)` for a dictionary of lists. -/
def dictAppend {α : Type} (d : List (String × List α)) (k : String) (v : α) : List (String × List α) :=
  d.map fun x => if x.1 = k then (k, x.2 ++ [v]) else x

/-- `metadata` and `data`. -/
structure Gathered (K : Type) where
  «meta» : List (String × List (PyVal K))
  data : List (List (Fl K))

/-- `openscm/scmdataframe/__init__.py:157-164`. -/
def Gathered.add (c : Gathered K) (name region : List String) (unit type : String) (vals : List (Fl K)) : Gathered K :=
  { «meta» := dictAppend (dictAppend (dictAppend (dictAppend c.meta "variable" (.str (joinName name)))
      "region" (.str (joinName region))) "unit" (.str unit)) "parameter_type" (.str type)
    data := c.data ++ [vals] }

/-- One round of the loop, `openscm/scmdataframe/__init__.py:124-164`. -/
def gatherOne (env : Env K) (times avg : List Int) (x : List String × List String × Nat) (c : Gathered K) :
    M K (PyVal K) (Gathered K) := do
  let P ← getParam x.2.2
  match P.ptype, P.unit with
  | some .generic, _ =>
    if x.2.1 ≠ worldName then M.throw .valueError
    else do
      let o ← call env (.generic (.seq x.1) (.seq x.2.1))
      match o with
      | .view i => do
        let g ← call env (.gGet i)
        match g with
        | .gen g => pure { c with «meta» := dictSet c.meta (joinName x.1) [g.getD .none] }
        | _ => M.throw .unmodelled
      | _ => M.throw .unmodelled
  | some .scalar, some u =>
    if x.2.1 ≠ worldName then M.throw .valueError
    else do
      let o ← call env (.scalar (.seq x.1) u (.seq worldName))
      match o with
      | .view i => do
        let y ← call env (.sGet i)
        match y with
        | .num y => pure { c with «meta» := dictSet c.meta (joinName x.1 ++ " (" ++ u ++ ")") [.flt y] }
        | _ => M.throw .unmodelled
      | _ => M.throw .unmodelled
  | some t, some u => do
    let o ← call env (.timeseries (.seq x.1) u (toK (if t = .point then times else avg)) (.seq x.2.1) (.enum t)
      (.enum .linear) (.enum .none))
    match o with
    | .view i => do
      let a ← call env (.tGet i)
      match a, tsTypeToString t with
      | .arr a, .ok ty => pure (c.add x.1 x.2.1 u ty a.vals)
      | _, _ => M.throw .unmodelled
    | _ => M.throw .unmodelled
  | _, _ => M.throw .valueError

def gatherAll (env : Env K) (times avg : List Int) :
    List (List String × List String × Nat) → Gathered K → M K (PyVal K) (Gathered K)
  | [], c => pure c
  | x :: xs, c => do
    let c ← gatherOne env times avg x c
    gatherAll env times avg xs c

/-- `metadata` at the beginning, `openscm/scmdataframe/__init__.py:100-108`. -/
def gatherStart (model scenario climateModel : String) : Gathered K :=
  { «meta» := [("climate_model", [.str climateModel]), ("scenario", [.str scenario]), ("model", [.str model]),
      ("variable", []), ("region", []), ("unit", []), ("parameter_type", [])]
    data := [] }

/-- `np.atleast_2d(data).T` for arrays of length `n`. -/
def transposed (n : Nat) (data : List (List (Fl K))) : List (List (Fl K)) :=
  (List.range n).map fun j => data.map fun l => l.getD j .nan

/-- `convert_openscm_to_scmdataframe`, `openscm/scmdataframe/__init__.py:33-168`. Without timeseries the array has the
wrong shape. -/
def convertToFrame (env : Env K) (times : List Int) (model scenario climateModel : String) :
    M K (PyVal K) (DFrame K) :=
  match extendPoints times with
  | .error e => M.throw e
  | .ok avg => do
    let xs ← M.gets rootParams
    let c ← gatherAll env times avg xs (gatherStart model scenario climateModel)
    if c.data = [] then M.throw .valueError
    else if ¬ ∀ l ∈ c.data, l.length = times.length then M.throw .unmodelled
    else M.ofExcept (fromTs c.data.length (transposed times.length c.data) times (c.meta.map fun x => (x.1, .list x.2)))

end Openscm
