import Verif.Names
import Verif.Units
import Verif.Time

/-!
# Parameter sets, parameters, regions and views (model)

`openscm/core/parameterset.py`, `regions.py`, `parameters.py`, `views.py`.

Regions, parameters and views live in lists and refer to each other by index.  Every public call
is one `Op`; `step` returns its outcome (a value or a Python exception) together with the state
as left behind, also when an exception was raised.
-/

set_option linter.unusedSectionVars false

namespace Openscm

/-! ## Heap objects -/

/-- `_Region`, `openscm/core/regions.py:13-49`. Dictionaries are association lists in insertion
order. -/
structure Region where
  name : String
  parent : Option Nat
  children : List (String × Nat)
  params : List (String × Nat)
  aggregated : Bool

/-- The `data` attribute of a `_Parameter`; `unset` is the missing attribute. -/
inductive Data (K G : Type) where
  | unset
  | scalar (x : Fl K)
  | series (l : List (Fl K))
  | generic (g : Option G)

/-- `_Parameter`, `openscm/core/parameters.py:111-167`. `tps = none` is the missing attribute. -/
structure Param (K G : Type) where
  name : String
  region : Nat
  parent : Option Nat
  children : List (String × Nat)
  readFrom : Bool
  written : Bool
  ptype : Option PType
  unit : Option String
  tps : Option (List K)
  data : Data K G
  version : Nat

/-- A numpy array of dtype float or int. -/
inductive Arr (K : Type) where
  | floats (l : List (Fl K))
  | ints (l : List Int)

/-- `ScalarView`, `openscm/core/views.py:149-194`. `kids` is `_child_data_views` (`none` is the
missing attribute): views of childless parameters, which hold only a parameter and a converter. -/
structure SView (K : Type) where
  param : Nat
  conv : Conv K
  writable : Bool
  kids : Option (List (Nat × Conv K))

/-- The part of a `TimeseriesView` (`openscm/core/views.py:245-316`) that children views use:
the parameter, both converters, `_data` (`None` is `none`) and `_version` (`none` is the missing
attribute). -/
structure TLeaf (K : Type) where
  param : Nat
  conv : Conv K
  ts : TSConv K
  data : Option (Arr K)
  version : Option Nat

/-- `TimeseriesView`, `openscm/core/views.py:245-343`. `_timeseries` is not `None` exactly when
`_data` is not (lines 404-407, 417-419), and wraps that very array. -/
structure TView (K : Type) where
  leaf : TLeaf K
  locked : Bool
  writable : Bool
  kids : Option (List (TLeaf K))

/-- `GenericView`, `openscm/core/views.py:460-478`. -/
structure GView where
  param : Nat
  writable : Bool

/-- A parameter set with all views handed out so far. Region 0 is the root
(`openscm/core/parameterset.py:37`). -/
structure St (K G : Type) where
  regions : List Region
  params : List (Param K G)
  sviews : List (SView K)
  tviews : List (TView K)
  gviews : List GView

/-- What the model does not fix: the unit registry of pint and the truncation of floats that are
assigned into integer arrays (numpy). -/
structure Env (K : Type) [Zero K] where
  units : Registry K
  trunc : K → Int

/-- Computations that may raise; the state survives an exception. -/
def M (K G α : Type) := St K G → Except Err α × St K G

namespace M
variable {K G α β : Type}

def pure (a : α) : M K G α := fun s => (.ok a, s)

def bind (m : M K G α) (f : α → M K G β) : M K G β := fun s =>
  match m s with
  | (.ok a, s') => f a s'
  | (.error e, s') => (.error e, s')

instance : Monad (M K G) where
  pure := M.pure
  bind := M.bind

/-- `raise e` -/
def throw (e : Err) : M K G α := fun s => (.error e, s)

/-- Raise or return according to a value. -/
def ofExcept : Except Err α → M K G α
  | .ok a => pure a
  | .error e => throw e

/-- Read something from the state. -/
def gets (f : St K G → α) : M K G α := fun s => (.ok (f s), s)

/-- Change the state. -/
def modify (f : St K G → St K G) : M K G Unit := fun s => (.ok (), f s)

/-- Compute something from the state, or raise. -/
def value (f : St K G → Except Err α) : M K G α := fun s => (f s, s)

/-- Index into the heap; a dangling reference cannot arise in Python. -/
def look (f : St K G → Option α) : M K G α := fun s =>
  match f s with
  | some a => (.ok a, s)
  | none => (.error .badHandle, s)

end M

variable {K G : Type} [Field K] [LinearOrder K] [IsStrictOrderedRing K]

/-! ## Small state updates -/

def St.setParam (s : St K G) (p : Nat) (f : Param K G → Param K G) : St K G :=
  { s with params := s.params.modify p f }

def St.setS (s : St K G) (i : Nat) (f : SView K → SView K) : St K G :=
  { s with sviews := s.sviews.modify i f }

def St.setT (s : St K G) (i : Nat) (f : TView K → TView K) : St K G :=
  { s with tviews := s.tviews.modify i f }

def St.setG (s : St K G) (i : Nat) (f : GView → GView) : St K G :=
  { s with gviews := s.gviews.modify i f }

def updParam (p : Nat) (f : Param K G → Param K G) : M K G Unit := M.modify (·.setParam p f)

def getParam (p : Nat) : M K G (Param K G) := M.look (·.params[p]?)

/-- `_Parameter.__init__`, `openscm/core/parameters.py:150-167`. -/
def newParam (name : String) (region : Nat) (parent : Option Nat) : Param K G :=
  { name := name, region := region, parent := parent, children := [], readFrom := false,
    written := false, ptype := none, unit := none, tps := none, data := .unset, version := 0 }

/-- `_Region.__init__`, `openscm/core/regions.py:36-49`. -/
def newRegion (name : String) (parent : Option Nat) : Region :=
  { name := name, parent := parent, children := [], params := [], aggregated := false }

/-- `ParameterSet.__init__`, `openscm/core/parameterset.py:27-37`. -/
def St.init (root : String) : St K G :=
  { regions := [newRegion root none], params := [], sviews := [], tviews := [], gviews := [] }

/-! ## Creating regions and parameters -/

/-- `_Region.get_or_create_subregion`, `openscm/core/regions.py:51-79`. -/
def subregion (r : Nat) (n : String) : M K G Nat := fun s =>
  match s.regions[r]? with
  | none => (.error .badHandle, s)
  | some R =>
    match R.children.lookup n with
    | some c => (.ok c, s)
    | none =>
      if R.aggregated then (.error .regionAggregated, s)
      else (.ok s.regions.length, { s with
        regions := s.regions.modify r
          (fun R => { R with children := R.children ++ [(n, s.regions.length)] })
          ++ [newRegion n (some r)] })

/-- Repeated `get_or_create_subregion`: `_get_or_create_region` recurses on `name[:-1]` and then
steps to `name[-1]` (`openscm/core/parameterset.py:61-63`), i.e. walks from left to right. -/
def walkRegions (r : Nat) : List String → M K G Nat
  | [] => pure r
  | n :: ns => do
    let c ← subregion r n
    walkRegions c ns

/-- `ParameterSet._get_or_create_region`, `openscm/core/parameterset.py:39-78`. -/
def getOrCreateRegion (name : HName) : M K G Nat :=
  match name.parts with
  | [] => M.throw .valueError
  | n :: ns => do
    let root ← M.look (·.regions[0]?)
    if n ≠ root.name then M.throw .valueError else walkRegions 0 ns

/-- `_Region.get_or_create_parameter`, `openscm/core/regions.py:105-123`. -/
def rootParam (r : Nat) (n : String) : M K G Nat := fun s =>
  match s.regions[r]? with
  | none => (.error .badHandle, s)
  | some R =>
    match R.params.lookup n with
    | some p => (.ok p, s)
    | none => (.ok s.params.length, { s with
        regions := s.regions.modify r
          (fun R => { R with params := R.params ++ [(n, s.params.length)] })
        params := s.params ++ [newParam n r none] })

/-- `_Parameter.get_or_create_child_parameter`, `openscm/core/parameters.py:169-202`. -/
def childParam (p : Nat) (n : String) : M K G Nat := fun s =>
  match s.params[p]? with
  | none => (.error .badHandle, s)
  | some P =>
    match P.children.lookup n with
    | some c => (.ok c, s)
    | none =>
      if P.written then (.error .parameterWritten, s)
      else if P.readFrom then (.error .parameterRead, s)
      else (.ok s.params.length, { s with
        params := s.params.modify p
          (fun P => { P with children := P.children ++ [(n, s.params.length)] })
          ++ [newParam n P.region (some p)] })

/-- Repeated `get_or_create_child_parameter`, see `walkRegions`. -/
def walkParams (p : Nat) : List String → M K G Nat
  | [] => pure p
  | n :: ns => do
    let c ← childParam p n
    walkParams c ns

/-- `ParameterSet._get_or_create_parameter`, `openscm/core/parameterset.py:102-136`. -/
def getOrCreateParam (name : HName) (r : Nat) : M K G Nat :=
  match name.parts with
  | [] => M.throw .valueError
  | n :: ns => do
    let p ← rootParam r n
    walkParams p ns

/-! ## Looking up without creating -/

/-- `_Region.get_subregion`, `openscm/core/regions.py:81-103`. -/
def findSubregion (s : St K G) (r : Nat) : List String → Option Nat
  | [] => some r
  | n :: ns =>
    match s.regions[r]? with
    | none => none
    | some R =>
      match R.children.lookup n with
      | none => none
      | some c => findSubregion s c ns

/-- `_Parameter.get_subparameter`, `openscm/core/parameters.py:204-227`. -/
def findSubparam (s : St K G) (p : Nat) : List String → Option Nat
  | [] => some p
  | n :: ns =>
    match s.params[p]? with
    | none => none
    | some P =>
      match P.children.lookup n with
      | none => none
      | some c => findSubparam s c ns

/-- `ParameterSet._get_region`, `openscm/core/parameterset.py:80-100` (`name[0]` of an empty
sequence raises `IndexError`). -/
def findRegion (s : St K G) (name : HName) : Except Err (Option Nat) :=
  match name.parts with
  | [] => .error .indexError
  | n :: ns =>
    match s.regions[0]? with
    | none => .error .badHandle
    | some root => if n ≠ root.name then .ok none else .ok (findSubregion s 0 ns)

/-- `_Region.get_parameter`, `openscm/core/regions.py:125-153`. -/
def findParam (s : St K G) (r : Nat) (name : HName) : Except Err (Option Nat) :=
  if name.truthy then
    match name.parts with
    | [] => .error .valueError
    | n :: ns =>
      match s.regions[r]? with
      | none => .error .badHandle
      | some R =>
        match R.params.lookup n with
        | none => .ok none
        | some p => .ok (findSubparam s p ns)
  else .error .valueError

/-- `_Region.full_name`, `openscm/core/regions.py:162-173` (a loop over parents; `fuel` bounds its
length, the number of regions always suffices). -/
def regionNameAux (rs : List Region) : Nat → Nat → List String
  | 0, _ => []
  | fuel + 1, r =>
    match rs[r]? with
    | none => []
    | some R =>
      match R.parent with
      | none => [R.name]
      | some q => regionNameAux rs fuel q ++ [R.name]

def regionName (s : St K G) (r : Nat) : List String := regionNameAux s.regions s.regions.length r

/-- `_Parameter.full_name`, `openscm/core/parameters.py:308-318`. -/
def paramNameAux (ps : List (Param K G)) : Nat → Nat → List String
  | 0, _ => []
  | fuel + 1, p =>
    match ps[p]? with
    | none => []
    | some P =>
      match P.parent with
      | none => [P.name]
      | some q => paramNameAux ps fuel q ++ [P.name]

def paramName (s : St K G) (p : Nat) : List String := paramNameAux s.params s.params.length p

/-! ## Reading and writing parameters -/

/-- First access of `_Parameter.attempt_read`, `openscm/core/parameters.py:259-277`: the new
parameter and the exception raised on the way, if any. `np.full(-1, ...)` raises `ValueError`. -/
def firstRead (P : Param K G) (t : PType) (unit : Option String) (tps : Option (List K)) :
    Param K G × Option Err :=
  let P := { P with unit := unit, ptype := some t }
  match t with
  | .scalar => ({ P with data := .scalar .nan }, none)
  | .generic =>
    if P.children = [] then ({ P with data := .generic none }, none)
    else (P, some .parameterAggregation)
  | .average =>
    match tps with
    | none => (P, some .typeError)
    | some [] => (P, some .valueError)
    | some (t0 :: ts) =>
      ({ P with data := .series (List.replicate ts.length .nan), tps := some (t0 :: ts) }, none)
  | .point =>
    match tps with
    | none => (P, some .typeError)
    | some ts => ({ P with data := .series (List.replicate ts.length .nan), tps := some ts }, none)

/-- `_Parameter.attempt_read`, `openscm/core/parameters.py:229-278`. -/
def attemptRead (p : Nat) (t : PType) (unit : Option String) (tps : Option (List K)) :
    M K G Unit := fun s =>
  match s.params[p]? with
  | none => (.error .badHandle, s)
  | some P =>
    match P.ptype with
    | some t' =>
      if t' ≠ t then (.error .parameterType, s)
      else (.ok (), s.setParam p (fun P => { P with readFrom := true }))
    | none =>
      match firstRead P t unit tps with
      | (P', some e) => (.error e, s.setParam p (fun _ => P'))
      | (P', none) => (.ok (), s.setParam p (fun _ => { P' with readFrom := true }))

/-- `_Parameter.attempt_write`, `openscm/core/parameters.py:280-306`. -/
def attemptWrite (p : Nat) (t : PType) (unit : Option String) (tps : Option (List K)) :
    M K G Unit := do
  let P ← getParam p
  if P.children ≠ [] then M.throw .parameterReadonly
  else do
    attemptRead p t unit tps
    updParam p (fun P => { P with written := true })

/-- `parameter.data = d; parameter.version += 1` (`openscm/core/views.py:228-229`, `364-367`,
`505-506`). -/
def store (p : Nat) (d : Data K G) : M K G Unit :=
  updParam p (fun P => { P with data := d, version := P.version + 1 })

/-! ## Leaves of the parameter tree -/

/-- `get_data_views_for_children_or_parameter`, `openscm/core/views.py:178-189`, `318-338`: the
childless parameters below (or equal to) `p`, in depth-first order. `fuel` bounds the depth. -/
def leavesAux (ps : List (Param K G)) : Nat → Nat → List Nat
  | 0, _ => []
  | fuel + 1, p =>
    match ps[p]? with
    | none => []
    | some P => if P.children = [] then [p]
      else P.children.flatMap (fun c => leavesAux ps fuel c.2)

def leaves (s : St K G) (p : Nat) : List Nat := leavesAux s.params s.params.length p

/-- Apply a constructor to each leaf, stopping at the first exception. -/
def mapLeaves {α β : Type} (f : α → Except Err β) : List α → Except Err (List β)
  | [] => .ok []
  | x :: xs =>
    match f x with
    | .error e => .error e
    | .ok y =>
      match mapLeaves f xs with
      | .error e => .error e
      | .ok ys => .ok (y :: ys)

/-! ## Scalar views -/

/-- `UnitConverter(parameter.unit, unit)` for parameter `p`, `openscm/core/views.py:175`. -/
def leafConv (env : Env K) (s : St K G) (unit : String) (p : Nat) : Except Err (Nat × Conv K) :=
  match s.params[p]? with
  | none => .error .badHandle
  | some P =>
    match mkConvOpt env.units P.unit unit with
    | .error e => .error e
    | .ok c => .ok (p, c)

/-- `ScalarView.__init__`, `openscm/core/views.py:163-194`. -/
def mkSView (env : Env K) (s : St K G) (p : Nat) (unit : String) : Except Err (SView K) :=
  match s.params[p]? with
  | none => .error .badHandle
  | some P =>
    match mkConvOpt env.units P.unit unit with
    | .error e => .error e
    | .ok c =>
      if P.children = [] then .ok { param := p, conv := c, writable := false, kids := none }
      else
        match mapLeaves (leafConv env s unit) (leaves s p) with
        | .error e => .error e
        | .ok kids => .ok { param := p, conv := c, writable := false, kids := some kids }

/-- `ScalarView.value` of a view without `_child_data_views`, `openscm/core/views.py:211-216`.
A scalar view of a parameter that holds no scalar can only be a child view (the type of children
is not checked); what Python then returns is left out of the model. -/
def readScalarLeaf (s : St K G) (p : Nat) (c : Conv K) : Except Err (Fl K) :=
  match s.params[p]? with
  | none => .error .badHandle
  | some P =>
    if P.children ≠ [] then .error .attributeError
    else if !P.written then .error .parameterEmpty
    else
      match P.data with
      | .scalar x => .ok (x.map c.convertFrom)
      | _ => .error .unmodelled

/-- `sum(v.value for v in self._child_data_views)`, `openscm/core/views.py:212`. -/
def sumScalarKids (s : St K G) (acc : Fl K) : List (Nat × Conv K) → Except Err (Fl K)
  | [] => .ok acc
  | (p, c) :: r =>
    match readScalarLeaf s p c with
    | .error e => .error e
    | .ok x => sumScalarKids s (acc.add x) r

/-- `ScalarView.value`, `openscm/core/views.py:196-216`. -/
def scalarValue (s : St K G) (v : SView K) : Except Err (Fl K) :=
  match s.params[v.param]? with
  | none => .error .badHandle
  | some P =>
    if P.children ≠ [] then
      match v.kids with
      | none => .error .attributeError
      | some kids => sumScalarKids s (.num 0) kids
    else readScalarLeaf s v.param v.conv

def updSView (i : Nat) (f : SView K → SView K) : M K G Unit :=
  M.modify (·.setS i f)

/-- The check before the first write of a scalar view, `openscm/core/views.py:223-227`. -/
def checkWriteS (i : Nat) (v : SView K) : M K G Unit :=
  if v.writable then pure ()
  else do
    attemptWrite v.param .scalar (some v.conv.target) none
    updSView i (fun v => { v with writable := true })

/-- `ScalarView.value` setter, `openscm/core/views.py:218-229`. -/
def setScalar (i : Nat) (x : Fl K) : M K G Unit := do
  let v ← M.look (·.sviews[i]?)
  checkWriteS i v
  store v.param (.scalar (x.map v.conv.convertTo))

/-! ## Generic views -/

def updGView (i : Nat) (f : GView → GView) : M K G Unit :=
  M.modify (·.setG i f)

/-- `GenericView.value`, `openscm/core/views.py:480-495`. -/
def genericValue (s : St K G) (v : GView) : Except Err (Option G) :=
  match s.params[v.param]? with
  | none => .error .badHandle
  | some P =>
    if !P.written then .error .parameterEmpty
    else
      match P.data with
      | .generic g => .ok g
      | _ => .error .unmodelled

/-- The check before the first write of a generic view, `openscm/core/views.py:502-504`. -/
def checkWriteG (i : Nat) (v : GView) : M K G Unit :=
  if v.writable then pure ()
  else do
    attemptWrite v.param .generic none none
    updGView i (fun v => { v with writable := true })

/-- `GenericView.value` setter, `openscm/core/views.py:497-506`. -/
def setGeneric (i : Nat) (g : G) : M K G Unit := do
  let v ← M.look (·.gviews[i]?)
  checkWriteG i v
  store v.param (.generic (some g))

/-! ## Timeseries views -/

/-- The numbers in an array. -/
def Arr.vals : Arr K → List (Fl K)
  | .floats l => l
  | .ints l => l.map (fun (i : Int) => .num (Int.cast i : K))

/-- `len(array)` -/
def Arr.length : Arr K → Nat
  | .floats l => l.length
  | .ints l => l.length

/-- `np.copyto(dst, src)` for arrays of equal length: casting `same_kind`, so floats cannot be
copied into an integer array. -/
def Arr.copyTo : Arr K → Arr K → Except Err (Arr K)
  | .floats _, src => .ok (.floats src.vals)
  | .ints _, .ints l => .ok (.ints l)
  | .ints _, .floats _ => .error .typeError

/-- Both converters of `TimeseriesView.__init__`, `openscm/core/views.py:305-312`, for parameter
`p` (which need not be the view's own: children are viewed with the type of the parent's view). -/
def mkTLeaf (env : Env K) (s : St K G) (unit : String) (tps : List K) (ty : PType) (ext : Extrap)
    (p : Nat) : Except Err (TLeaf K) :=
  match s.params[p]? with
  | none => .error .badHandle
  | some P =>
    match mkConvOpt env.units P.unit unit with
    | .error e => .error e
    | .ok c =>
      match P.tps with
      | none => .error .attributeError
      | some src =>
        match mkTSConv src tps ty ext with
        | .error e => .error e
        | .ok t => .ok { param := p, conv := c, ts := t, data := none, version := none }

/-- `TimeseriesView.__init__`, `openscm/core/views.py:277-343`. -/
def mkTView (env : Env K) (s : St K G) (p : Nat) (unit : String) (tps : List K) (ty : PType)
    (ext : Extrap) : Except Err (TView K) :=
  match s.params[p]? with
  | none => .error .badHandle
  | some P =>
    match mkTLeaf env s unit tps ty ext p with
    | .error e => .error e
    | .ok l =>
      if P.children = [] then .ok { leaf := l, locked := false, writable := false, kids := none }
      else
        match mapLeaves (mkTLeaf env s unit tps ty ext) (leaves s p) with
        | .error e => .error e
        | .ok kids => .ok { leaf := l, locked := false, writable := false, kids := some kids }

/-- `TimeseriesView._get_values` of a view without `_child_data_views`,
`openscm/core/views.py:370-385`. -/
def leafValues (s : St K G) (v : TLeaf K) : Except Err (List (Fl K)) :=
  match s.params[v.param]? with
  | none => .error .badHandle
  | some P =>
    if P.children ≠ [] then .error .attributeError
    else if !P.written then .error .parameterEmpty
    else
      match P.data with
      | .series l => v.ts.convertFrom (l.map (Fl.map v.conv.convertFrom))
      | _ => .error .unmodelled

/-- `TimeseriesView._read`, `openscm/core/views.py:345-351`, given the result of `_get_values`
and the version of the parameter. -/
def refresh (v : TLeaf K) (version : Nat) (values : Except Err (List (Fl K))) :
    Except Err (TLeaf K) :=
  match v.data with
  | none =>
    match values with
    | .error e => .error e
    | .ok a => .ok { v with data := some (.floats a), version := some version }
  | some d =>
    match v.version with
    | none => .error .attributeError
    | some ver =>
      if ver = version then .ok v
      else
        match values with
        | .error e => .error e
        | .ok a =>
          match d.copyTo (.floats a) with
          | .error e => .error e
          | .ok d' => .ok { v with data := some d', version := some version }

/-- `v.values` for a child view `v`: `_read`, then the cached array. -/
def readLeaf (s : St K G) (v : TLeaf K) : Except Err (TLeaf K) :=
  match s.params[v.param]? with
  | none => .error .badHandle
  | some P => refresh v P.version (leafValues s v)

def TLeaf.cache (v : TLeaf K) : List (Fl K) :=
  match v.data with
  | none => []
  | some d => d.vals

/-- `acc + x` in `sum`, where `none` is the initial `0`. -/
def addAcc (acc : Option (List (Fl K))) (x : List (Fl K)) : List (Fl K) :=
  match acc with
  | none => x
  | some a => List.zipWith Fl.add a x

/-- `sum((v.values for v in self._child_data_views))`, `openscm/core/views.py:371-374`: the
children's caches are refreshed one after the other; a failing child leaves the caches before it
refreshed. -/
def sumKids (s : St K G) (acc : Option (List (Fl K))) :
    List (TLeaf K) → List (TLeaf K) × Except Err (List (Fl K))
  | [] => ([], .ok (acc.getD []))
  | v :: r =>
    match readLeaf s v with
    | .error e => (v :: r, .error e)
    | .ok v' =>
      let (r', res) := sumKids s (some (addAcc acc v'.cache)) r
      (v' :: r', res)

/-- `TimeseriesView._read` including `_get_values`, `openscm/core/views.py:345-385`. The children
are only consulted when the cache is missing or out of date. -/
def readView (s : St K G) (v : TView K) : TView K × Except Err Unit :=
  match s.params[v.leaf.param]? with
  | none => (v, .error .badHandle)
  | some P =>
    if P.children ≠ [] then
      if v.leaf.data.isSome && (v.leaf.version == none || v.leaf.version == some P.version) then
        -- no call of `_get_values`
        match refresh v.leaf P.version (.error .badHandle) with
        | .error e => (v, .error e)
        | .ok l => ({ v with leaf := l }, .ok ())
      else
        match v.kids with
        | none => (v, .error .attributeError)
        | some kids =>
          let (kids', vals) := sumKids s none kids
          match refresh v.leaf P.version vals with
          | .error e => ({ v with kids := some kids' }, .error e)
          | .ok l => ({ v with leaf := l, kids := some kids' }, .ok ())
    else
      match readLeaf s v.leaf with
      | .error e => (v, .error e)
      | .ok l => ({ v with leaf := l }, .ok ())

def updTView (i : Nat) (f : TView K → TView K) : M K G Unit :=
  M.modify (·.setT i f)

/-- `self._read()` for view `i`. -/
def readT (i : Nat) : M K G Unit := fun s =>
  match s.tviews[i]? with
  | none => (.error .badHandle, s)
  | some v =>
    let (v', res) := readView s v
    (res, s.setT i (fun _ => v'))

/-- `TimeseriesView._check_write`, `openscm/core/views.py:353-360`. -/
def checkWrite (i : Nat) : M K G Unit := do
  let v ← M.look (·.tviews[i]?)
  if v.writable then pure ()
  else do
    attemptWrite v.leaf.param v.leaf.ts.ty (some v.leaf.conv.target) (some v.leaf.ts.target)
    updTView i (fun v => { v with writable := true })

/-- `TimeseriesView._write`, `openscm/core/views.py:362-368`. A view that never read nor wrote has
`_data = None`; subtracting from `None` raises `TypeError`. -/
def writeT (i : Nat) : M K G Unit := do
  let v ← M.look (·.tviews[i]?)
  if v.locked then pure ()
  else
    match v.leaf.data with
    | none => M.throw .typeError
    | some d => do
      let l ← M.ofExcept (v.leaf.ts.convertTo (d.vals.map (Fl.map v.leaf.conv.convertTo)))
      store v.leaf.param (.series l)
      let P ← getParam v.leaf.param
      updTView i (fun v => { v with leaf := { v.leaf with version := some P.version } })

/-- The cache after assigning a whole array, `openscm/core/views.py:417-421`. -/
def newCache (d : Option (Arr K)) (a : Arr K) : Except Err (Arr K) :=
  match d with
  | none => .ok a
  | some d => d.copyTo a

/-- `TimeseriesView.values` setter, `openscm/core/views.py:409-422`. -/
def setValues (i : Nat) (a : Arr K) : M K G Unit := do
  checkWrite i
  let v ← M.look (·.tviews[i]?)
  if a.length ≠ v.leaf.ts.targetLength then M.throw .pointsValuesMismatch
  else do
    let d ← M.ofExcept (newCache v.leaf.data a)
    updTView i (fun v => { v with leaf := { v.leaf with data := some d } })
    writeT i

/-- Python index to list position. -/
def pyIndex (n : Nat) (i : Int) : Option Nat :=
  if 0 ≤ i then (if i < n then some i.toNat else none)
  else if -(n : Int) ≤ i then some (i + n).toNat
  else none

/-- All positions of an indexing expression, or `none` if one is out of range. -/
def pyIndices (n : Nat) : List Int → Option (List Nat)
  | [] => some []
  | i :: r =>
    match pyIndex n i with
    | none => none
    | some j => (pyIndices n r).map (j :: ·)

/-- Assign the values one after the other. -/
def assignAt {α : Type} (l : List α) : List (Nat × α) → List α
  | [] => l
  | (j, x) :: r => assignAt (l.set j x) r

/-- Cast the assigned values to the dtype of an integer array: floats are truncated, NaN raises
`ValueError`. -/
def truncAll (trunc : K → Int) : List (Fl K) → Option (List Int)
  | [] => some []
  | .nan :: _ => none
  | .num x :: r => (truncAll trunc r).map (trunc x :: ·)

/-- `array[indices] = values` (numpy): a single index, a slice, a mask or a list of indices, given
as the list of positions it denotes, and as many values. -/
def Arr.setItems (trunc : K → Int) (a : Arr K) (ix : List (Int × Fl K)) : Except Err (Arr K) :=
  match pyIndices a.length (ix.map Prod.fst) with
  | none => .error .indexError
  | some js =>
    match a with
    | .floats l => .ok (.floats (assignAt l (js.zip (ix.map Prod.snd))))
    | .ints l =>
      match truncAll trunc (ix.map Prod.snd) with
      | none => .error .valueError
      | some vs => .ok (.ints (assignAt l (js.zip vs)))

/-- `np.ufunc(array, x, out=array)` with a float result: not allowed for integer arrays. -/
def Arr.inplace (f : K → K) : Arr K → Except Err (Arr K)
  | .floats l => .ok (.floats (l.map (Fl.map f)))
  | .ints _ => .error .typeError

/-- `_Timeseries.__setitem__` on an existing handle, `openscm/core/views.py:105-107`: no
`_check_write`, no `_read`. -/
def setItems (env : Env K) (i : Nat) (ix : List (Int × Fl K)) : M K G Unit := do
  let v ← M.look (·.tviews[i]?)
  match v.leaf.data with
  | none => M.throw .badHandle
  | some d => do
    let d' ← M.ofExcept (d.setItems env.trunc ix)
    updTView i (fun v => { v with leaf := { v.leaf with data := some d' } })
    writeT i

/-- `array[i]` -/
def Arr.getItem (a : Arr K) (i : Int) : Except Err (Fl K) :=
  match pyIndex a.length i with
  | none => .error .indexError
  | some j =>
    match a.vals[j]? with
    | none => .error .indexError
    | some x => .ok x

/-! ## Arguments given as enum value or as string -/

/-- `Union[ParameterType, str]` -/
inductive TyArg
  | enum (t : PType)
  | str (s : String)

/-- `ParameterType.from_timeseries_type`, `openscm/core/parameters.py:74-108`. Simplification:
`str.lower` acts on ASCII letters only (no other character lowers to a letter of these words). -/
def TyArg.parse : TyArg → Except Err PType
  | .str s =>
    if s.toLower = "average" then .ok .average
    else if s.toLower = "point" then .ok .point
    else .error .valueError
  | .enum t => if t = .average ∨ t = .point then .ok t else .error .valueError

/-- `ParameterType.timeseries_type_to_string`, `openscm/core/parameters.py:46-72`. -/
def tsTypeToString : PType → Except Err String
  | .average => .ok "average"
  | .point => .ok "point"
  | _ => .error .valueError

/-- `Union[ExtrapolationType, str]` -/
inductive ExtArg
  | enum (t : Extrap)
  | str (s : String)

/-- `ExtrapolationType.from_extrapolation_type`, `openscm/core/time.py:38-60`: enum lookup by
upper-cased name. Simplification: `str.upper` on ASCII letters only. -/
def ExtArg.parse : ExtArg → Except Err Extrap
  | .str s =>
    if s.toUpper = "NONE" then .ok .none
    else if s.toUpper = "CONSTANT" then .ok .constant
    else if s.toUpper = "LINEAR" then .ok .linear
    else .error .keyError
  | .enum t => .ok t

/-- `Union[InterpolationType, str]` -/
inductive IntArg
  | enum (t : Interp)
  | str (s : String)

/-- `InterpolationType.from_interpolation_type`, `openscm/core/time.py:71-91`. -/
def IntArg.parse : IntArg → Except Err Interp
  | .str s => if s.toUpper = "LINEAR" then .ok .linear else .error .keyError
  | .enum t => .ok t

/-! ## The public calls -/

/-- A view handed out earlier: the `i`-th scalar, timeseries or generic view. -/
inductive VRef
  | s (i : Nat)
  | t (i : Nat)
  | g (i : Nat)
  deriving DecidableEq

/-- Public calls. -/
inductive Op (K G : Type) where
  /-- `parameterset.scalar(name, unit, region)` -/
  | scalar (name : HName) (unit : String) (region : HName)
  /-- `parameterset.timeseries(name, unit, time_points, region, type, interpolation,
  extrapolation)` -/
  | timeseries (name : HName) (unit : String) (tps : List K) (region : HName) (ty : TyArg)
      (int : IntArg) (ext : ExtArg)
  /-- `parameterset.generic(name, region)` -/
  | generic (name : HName) (region : HName)
  /-- `parameterset.info(name, region)` and all its properties -/
  | info (name : HName) (region : HName)
  /-- `view.value` of a scalar view -/
  | sGet (i : Nat)
  /-- `view.value = x` of a scalar view -/
  | sSet (i : Nat) (x : Fl K)
  /-- `view.value` of a generic view -/
  | gGet (i : Nat)
  /-- `view.value = g` of a generic view -/
  | gSet (i : Nat) (g : G)
  /-- `np.array(view.values)` of a timeseries view, `openscm/core/views.py:387-407` -/
  | tGet (i : Nat)
  /-- `view.values = array` -/
  | tSet (i : Nat) (a : Arr K)
  /-- `view.values[j]` -/
  | tGetItem (i : Nat) (j : Int)
  /-- `view.values[j] = x`; several positions at once for slices, masks and index lists -/
  | tSetItem (i : Nat) (ix : List (Int × Fl K))
  /-- `h[j]` for a handle `h = view.values` kept from earlier -/
  | hGetItem (i : Nat) (j : Int)
  /-- `h[j] = x` for a handle kept from earlier -/
  | hSetItem (i : Nat) (ix : List (Int × Fl K))
  /-- `np.asarray(h)`, `repr(h)`, `h + 1` for a handle kept from earlier: the bare cache -/
  | hPeek (i : Nat)
  /-- `h += x`, `h *= x`, ... for a handle kept from earlier -/
  | hInplace (i : Nat) (f : K → K)
  /-- `view.values = view.values` for the view's own handle; together with `tGet` and `hInplace`
  this makes up `view.values += x` -/
  | tSetOwn (i : Nat)
  /-- `view.lock()`, `openscm/core/views.py:444-448` -/
  | tLock (i : Nat)
  /-- `view.unlock()`, `openscm/core/views.py:450-457` -/
  | tUnlock (i : Nat)
  /-- `view.length`, `openscm/core/views.py:431-436` -/
  | tLength (i : Nat)
  /-- `view.name`, `.region`, `.parameter_type`, `.unit`, `.empty`, `.version` -/
  | vInfo (v : VRef)
  /-- `view.ensure()`, `openscm/core/parameters.py:393-405` -/
  | ensure (v : VRef)

/-- `ParameterInfo` properties, `openscm/core/parameters.py:351-391`. -/
structure Info where
  name : List String
  region : List String
  ptype : Option PType
  unit : Option String
  empty : Bool
  version : Nat

/-- Results of public calls. -/
inductive Out (K G : Type) where
  | done
  | view (i : Nat)
  | num (x : Fl K)
  | arr (a : Arr K)
  | gen (g : Option G)
  | nat (n : Nat)
  | info (i : Option Info)

/-- `ParameterInfo` of parameter `p`. -/
def infoOf (s : St K G) (p : Nat) (P : Param K G) : Info :=
  { name := paramName s p, region := regionName s P.region, ptype := P.ptype, unit := P.unit,
    empty := !P.written, version := P.version }

/-- `ParameterSet.info`, `openscm/core/parameterset.py:266-294`. -/
def infoCall (s : St K G) (name region : HName) : Except Err (Option Info) :=
  match findRegion s region with
  | .error e => .error e
  | .ok none => .ok none
  | .ok (some r) =>
    match findParam s r name with
    | .error e => .error e
    | .ok none => .ok none
    | .ok (some p) =>
      match s.params[p]? with
      | none => .error .badHandle
      | some P => .ok (some (infoOf s p P))

/-- Parameter and displayed unit of a view: `unit` is overridden by scalar and timeseries views
(`openscm/core/views.py:231-236`, `424-429`). -/
def viewTarget (s : St K G) : VRef → Option (Nat × Option String)
  | .s i => (s.sviews[i]?).map (fun v => (v.param, some v.conv.target))
  | .t i => (s.tviews[i]?).map (fun v => (v.leaf.param, some v.leaf.conv.target))
  | .g i => (s.gviews[i]?).map (fun v => (v.param, (s.params[v.param]?).bind (·.unit)))

/-- `_get_or_create_parameter(name, _get_or_create_region(region))`,
`openscm/core/parameterset.py:167-169`, `221-223`, `259-261`. -/
def reach (name region : HName) : M K G Nat := do
  let r ← getOrCreateRegion region
  getOrCreateParam name r

/-- Hand out a new scalar view. -/
def addSView (v : SView K) : M K G Nat := fun s =>
  (.ok s.sviews.length, { s with sviews := s.sviews ++ [v] })

/-- Hand out a new timeseries view. -/
def addTView (v : TView K) : M K G Nat := fun s =>
  (.ok s.tviews.length, { s with tviews := s.tviews ++ [v] })

/-- Hand out a new generic view. -/
def addGView (v : GView) : M K G Nat := fun s =>
  (.ok s.gviews.length, { s with gviews := s.gviews ++ [v] })

/-- `ParameterSet.scalar`, `openscm/core/parameterset.py:138-172`. -/
def scalarCall (env : Env K) (name : HName) (unit : String) (region : HName) : M K G Nat := do
  let p ← reach name region
  attemptRead p .scalar (some unit) none
  let v ← M.value (fun s => mkSView env s p unit)
  addSView v

/-- `ParameterSet.timeseries`, `openscm/core/parameterset.py:174-228`. -/
def timeseriesCall (env : Env K) (name : HName) (unit : String) (tps : List K) (region : HName)
    (ty : TyArg) (int : IntArg) (ext : ExtArg) : M K G Nat := do
  let ty ← M.ofExcept ty.parse
  let _ ← M.ofExcept int.parse
  let ext ← M.ofExcept ext.parse
  let p ← reach name region
  attemptRead p ty (some unit) (some tps)
  let v ← M.value (fun s => mkTView env s p unit tps ty ext)
  addTView v

/-- `ParameterSet.generic`, `openscm/core/parameterset.py:230-264`. -/
def genericCall (name : HName) (region : HName) : M K G Nat := do
  let p ← reach name region
  attemptRead p .generic none none
  addGView { param := p, writable := false }

/-- The cached array of view `i`; it exists once the view has been read or written. -/
def handle (i : Nat) : M K G (Arr K) := do
  let v ← M.look (·.tviews[i]?)
  match v.leaf.data with
  | none => M.throw .badHandle
  | some d => pure d

/-- One public call. -/
def call (env : Env K) : Op K G → M K G (Out K G)
  | .scalar n u r => do let i ← scalarCall env n u r; pure (.view i)
  | .timeseries n u tps r ty int ext => do
    let i ← timeseriesCall env n u tps r ty int ext; pure (.view i)
  | .generic n r => do let i ← genericCall n r; pure (.view i)
  | .info n r => do let i ← M.value (fun s => infoCall s n r); pure (.info i)
  | .sGet i => do
    let v ← M.look (·.sviews[i]?)
    let x ← M.value (fun s => scalarValue s v)
    pure (.num x)
  | .sSet i x => do setScalar i x; pure .done
  | .gGet i => do
    let v ← M.look (·.gviews[i]?)
    let g ← M.value (fun s => genericValue s v)
    pure (.gen g)
  | .gSet i g => do setGeneric i g; pure .done
  | .tGet i => do readT i; let d ← handle i; pure (.arr d)
  | .tSet i a => do setValues i a; pure .done
  | .tGetItem i j => do
    readT i; let d ← handle i; let x ← M.ofExcept (d.getItem j); pure (.num x)
  | .tSetItem i ix => do readT i; setItems env i ix; pure .done
  | .hGetItem i j => do
    let _ ← handle i
    readT i; let d ← handle i; let x ← M.ofExcept (d.getItem j); pure (.num x)
  | .hSetItem i ix => do setItems env i ix; pure .done
  | .hPeek i => do let d ← handle i; pure (.arr d)
  | .hInplace i f => do
    let _ ← handle i
    readT i
    let d ← handle i
    let d' ← M.ofExcept (d.inplace f)
    updTView i (fun v => { v with leaf := { v.leaf with data := some d' } })
    writeT i
    pure .done
  | .tSetOwn i => do let d ← handle i; setValues i d; pure .done
  | .tLock i => do
    let _ ← M.look (·.tviews[i]?)
    updTView i (fun v => { v with locked := true })
    pure .done
  | .tUnlock i => do
    let _ ← M.look (·.tviews[i]?)
    updTView i (fun v => { v with locked := false })
    writeT i
    pure .done
  | .tLength i => do let v ← M.look (·.tviews[i]?); pure (.nat v.leaf.ts.targetLength)
  | .vInfo r => do
    let (p, u) ← M.look (viewTarget · r)
    let P ← getParam p
    let I ← M.gets (fun s => { infoOf s p P with unit := u })
    pure (.info (some I))
  | .ensure r => do
    let (p, _) ← M.look (viewTarget · r)
    let P ← getParam p
    if P.written then pure .done else M.throw .parameterEmpty

/-- Outcome of a public call. -/
abbrev Res (K G : Type) := Except Err (Out K G)

/-- A history: calls in order, with their outcomes. -/
def run (env : Env K) (s : St K G) : List (Op K G) → List (Op K G × Res K G) × St K G
  | [] => ([], s)
  | op :: ops =>
    let (r, s') := call env op s
    let (h, s'') := run env s' ops
    ((op, r) :: h, s'')

/-- The state after a history. -/
def after (env : Env K) (s : St K G) (ops : List (Op K G)) : St K G := (run env s ops).2

/-- States a program can reach from a new parameter set. -/
def Reachable (env : Env K) (s : St K G) : Prop :=
  ∃ root ops, s = after env (St.init root) ops

end Openscm
