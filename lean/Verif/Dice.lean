import Verif.TimePoints

/-!
# Adapters and the DICE model

`openscm/adapters/__init__.py:16-176`, `openscm/adapters/dice.py`, `openscm/core/__init__.py:66-116`.

The adapter is a client of two parameter sets: everything it does with them is a public call
(`call` of `Core.lean`).

Simplifications: the two parameter sets are different objects; times are `datetime64` and
`timedelta64` values of whole seconds, the unit of a `timedelta64` is kept because products with
floats are cut to it; `np.empty` returns arbitrary numbers, which are arguments of the calls here;
a division by zero raises `ZeroDivisionError` also where numpy would give an infinity.
-/

set_option linter.unusedSectionVars false

namespace Openscm

/-! ## Values -/

/-- Generic values: `np.datetime64` in seconds, `np.timedelta64` as a number of ticks and the seconds
per tick, `bool`, anything else. -/
inductive GVal
  | time (sec : Int)
  | delta (ticks tick : Int)
  | bool (b : Bool)
  | other (n : Nat)
  deriving DecidableEq

/-- Scalar inputs, `openscm/adapters/dice.py:26-84`. -/
inductive SName
  | mat0 | mateq | mat_lower | ml0 | mleq | ml_lower | mu0 | mueq | mu_lower
  | tatm0 | tatm_upper | tocean0 | tocean_lower | tocean_upper
  | b12 | b23 | c1 | c3 | c4 | fex0 | fex1 | fco22x | t2xco2
  deriving DecidableEq

/-- Generic inputs, `openscm/adapters/dice.py:67-84`. -/
inductive GName
  | period_length | original_rounding | forcoth_saturation_time | start_time | stop_time
  deriving DecidableEq

/-- Output timeseries. -/
inductive OName
  | mat | ml | mu | tatm | tocean | forc
  deriving DecidableEq

section
variable {K : Type} [Field K] [LinearOrder K]

/-- Arithmetic on floats that may be NaN. -/
instance : Add (Fl K) := ⟨Fl.add⟩
instance : Sub (Fl K) := ⟨fun
  | .num x, .num y => .num (x - y)
  | _, _ => .nan⟩
instance : Mul (Fl K) := ⟨fun
  | .num x, .num y => .num (x * y)
  | _, _ => .nan⟩

/-- `x / y` -/
def Fl.quot : Fl K → Fl K → Except Err (Fl K)
  | x, .num y =>
    if y = 0 then .error .zeroDivision
    else
      match x with
      | .num x => .ok (.num (x / y))
      | .nan => .ok .nan
  | _, .nan => .ok .nan

/-- Python's `max(a, b)`: `b` if `b > a`, else `a`; comparisons with NaN are false. -/
def Fl.pyMax : Fl K → Fl K → Fl K
  | .num a, .num b => if a < b then .num b else .num a
  | a, _ => a

/-- Python's `min(a, b)`: `b` if `b < a`, else `a`. -/
def Fl.pyMin : Fl K → Fl K → Fl K
  | .num a, .num b => if b < a then .num b else .num a
  | a, _ => a

/-- `math.log2`, given the logarithm for positive numbers. -/
def Fl.log2 (lg : K → K) : Fl K → Except Err (Fl K)
  | .nan => .ok .nan
  | .num x => if 0 < x then .ok (.num (lg x)) else .error .valueError

end

/-! ## State -/

/-- An adapter with its parameter sets: attributes of `Adapter` and of `DICE`. Missing views and
coefficients are attributes not yet set. -/
structure Dice (K : Type) where
  inp : St K GVal
  out : St K GVal
  initialized : Bool
  current : Int
  timestep : Nat
  count : Int
  sv : SName → Option Nat
  gv : GName → Option Nat
  ov : OName → Option Nat
  e : Option Nat
  b11 : Option (Fl K)
  b21 : Option (Fl K)
  b22 : Option (Fl K)
  b32 : Option (Fl K)
  b33 : Option (Fl K)

/-- `Adapter.__init__`, `openscm/adapters/__init__.py:40-57`. -/
def Dice.new {K : Type} (inp out : St K GVal) : Dice K :=
  { inp := inp, out := out, initialized := false, current := 0, timestep := 0, count := 0,
    sv := fun _ => none, gv := fun _ => none, ov := fun _ => none, e := none,
    b11 := none, b21 := none, b22 := none, b32 := none, b33 := none }

/-- Computations of the adapter: the state survives an exception. -/
def DM (K α : Type) := Dice K → Except Err α × Dice K

namespace DM
variable {K α β : Type}

def pure (a : α) : DM K α := fun d => (.ok a, d)

def bind (m : DM K α) (f : α → DM K β) : DM K β := fun d =>
  match m d with
  | (.ok a, d') => f a d'
  | (.error e, d') => (.error e, d')

instance : Monad (DM K) where
  pure := DM.pure
  bind := DM.bind

def throw (e : Err) : DM K α := fun d => (.error e, d)

def ofExcept : Except Err α → DM K α
  | .ok a => DM.pure a
  | .error e => throw e

def gets (f : Dice K → α) : DM K α := fun d => (.ok (f d), d)

def modify (f : Dice K → Dice K) : DM K Unit := fun d => (.ok (), f d)

/-- An attribute that may be missing. -/
def attr (f : Dice K → Option α) : DM K α := fun d =>
  match f d with
  | some a => (.ok a, d)
  | none => (.error .attributeError, d)

/-- A coefficient; before it is set it is a field descriptor of the `namedtuple` class
(`openscm/adapters/dice.py:126`), which cannot be multiplied. -/
def coef (f : Dice K → Option α) : DM K α := fun d =>
  match f d with
  | some a => (.ok a, d)
  | none => (.error .typeError, d)

end DM

variable {K : Type} [Field K] [LinearOrder K] [IsStrictOrderedRing K]

/-- What the adapter depends on: the environment of the parameter sets and the logarithm. -/
structure DEnv (K : Type) [Zero K] where
  env : Env K
  lg : K → K

/-- A public call on the input parameters. -/
def onInp (E : DEnv K) (op : Op K GVal) : DM K (Out K GVal) := fun d =>
  let (r, s) := call E.env op d.inp
  (r, { d with inp := s })

/-- A public call on the output parameters. -/
def onOut (E : DEnv K) (op : Op K GVal) : DM K (Out K GVal) := fun d =>
  let (r, s) := call E.env op d.out
  (r, { d with out := s })

/-- The root region, the default of all calls. -/
def rootRegion : HName := .seq ["World"]

def asView {K : Type} : Out K GVal → Except Err Nat
  | .view i => .ok i
  | _ => .error .unmodelled

def asNum {K : Type} : Out K GVal → Except Err (Fl K)
  | .num x => .ok x
  | _ => .error .unmodelled

def asGen {K : Type} : Out K GVal → Except Err (Option GVal)
  | .gen g => .ok g
  | _ => .error .unmodelled

def asEmpty {K : Type} : Out K GVal → Except Err Bool
  | .info (some I) => .ok I.empty
  | _ => .error .unmodelled

/-- `v.name.value` of a scalar input. -/
def sget (E : DEnv K) (n : SName) : DM K (Fl K) := do
  let i ← DM.attr (·.sv n)
  let r ← onInp E (.sGet i)
  DM.ofExcept (asNum r)

/-- `v.name.value` of a generic input. -/
def gget (E : DEnv K) (n : GName) : DM K (Option GVal) := do
  let i ← DM.attr (·.gv n)
  let r ← onInp E (.gGet i)
  DM.ofExcept (asGen r)

/-- A generic input that has to be a `timedelta64`: ticks and seconds per tick. -/
def gdelta (E : DEnv K) (n : GName) : DM K (Int × Int) := do
  match ← gget E n with
  | some (.delta k u) => pure (k, u)
  | _ => DM.throw .typeError

/-- A generic input that has to be a `datetime64`. -/
def gtime (E : DEnv K) (n : GName) : DM K Int := do
  match ← gget E n with
  | some (.time s) => pure s
  | _ => DM.throw .typeError

/-- A generic input used as a condition. -/
def gbool (E : DEnv K) (n : GName) : DM K Bool := do
  match ← gget E n with
  | some (.bool b) => pure b
  | _ => DM.throw .unmodelled

/-- `v.name.values[j]` of an output. -/
def oget (E : DEnv K) (o : OName) (j : Int) : DM K (Fl K) := do
  let i ← DM.attr (·.ov o)
  let r ← onOut E (.tGetItem i j)
  DM.ofExcept (asNum r)

/-- `v.E.values[j]` -/
def eget (E : DEnv K) (j : Int) : DM K (Fl K) := do
  let i ← DM.attr (·.e)
  let r ← onInp E (.tGetItem i j)
  DM.ofExcept (asNum r)

/-- `v.name.values[j] = x` -/
def oset (E : DEnv K) (o : OName) (j : Int) (x : Fl K) : DM K Unit := do
  let i ← DM.attr (·.ov o)
  let _ ← onOut E (.tSetItem i [(j, x)])
  pure ()

/-! ## Initialisation -/

/-- `MODEL_PARAMETER_DEFAULTS` and `STANDARD_PARAMETER_DEFAULTS`, scalar ones:
`openscm/adapters/dice.py:26-79`, with the full name under which they are found
(`openscm/adapters/dice.py:142-146`). -/
def scalarDefaults : List (SName × List String × String × ℚ) :=
  [(.mat0, ["DICE", "mat0"], "GtC", 8304 / 10), (.mateq, ["DICE", "mateq"], "GtC", 588),
    (.mat_lower, ["DICE", "mat_lower"], "GtC", 10), (.ml0, ["DICE", "ml0"], "GtC", 10010),
    (.mleq, ["DICE", "mleq"], "GtC", 10000), (.ml_lower, ["DICE", "ml_lower"], "GtC", 1000),
    (.mu0, ["DICE", "mu0"], "GtC", 1527), (.mueq, ["DICE", "mueq"], "GtC", 1350),
    (.mu_lower, ["DICE", "mu_lower"], "GtC", 100),
    (.tatm0, ["DICE", "tatm0"], "delta_degC", 8 / 10),
    (.tatm_upper, ["DICE", "tatm_upper"], "delta_degC", 40),
    (.tocean0, ["DICE", "tocean0"], "delta_degC", 68 / 10000),
    (.tocean_lower, ["DICE", "tocean_lower"], "delta_degC", -1),
    (.tocean_upper, ["DICE", "tocean_upper"], "delta_degC", 20),
    (.b12, ["DICE", "b12"], "", 181 / 10000), (.b23, ["DICE", "b23"], "", 71 / 100000),
    (.c1, ["DICE", "c1"], "delta_degC*m^2/W", 222 / 10000),
    (.c3, ["DICE", "c3"], "W/m^2/delta_degC", 9175 / 100000),
    (.c4, ["DICE", "c4"], "", 487 / 100000), (.fex0, ["DICE", "fex0"], "W/m^2", 25 / 100),
    (.fex1, ["DICE", "fex1"], "W/m^2", 7 / 10)]

/-- The generic ones, `openscm/adapters/dice.py:66-73`. -/
def genericDefaults : List (GName × List String × Option GVal) :=
  [(.period_length, ["DICE", "period_length"], some (.delta 365 86400)),
    (.original_rounding, ["DICE", "original_rounding"], some (.bool true)),
    (.forcoth_saturation_time, ["DICE", "forcoth_saturation_time"],
      some (.time (yearToSeconds 2100)))]

/-- `STANDARD_PARAMETER_DEFAULTS`, scalar ones. -/
def standardScalars : List (SName × List String × String × ℚ) :=
  [(.fco22x, ["Radiative Forcing Sensitivity"], "W/m^2", 38 / 10),
    (.t2xco2, ["Equilibrium Climate Sensitivity"], "delta_degC", 29 / 10)]

/-- `STANDARD_PARAMETER_DEFAULTS`, generic ones: no defaults. -/
def standardGenerics : List (GName × List String × Option GVal) :=
  [(.start_time, ["Start Time"], none), (.stop_time, ["Stop Time"], none)]

/-- `set_parameter` for a scalar, `openscm/adapters/dice.py:128-140`. -/
def setScalarParameter (E : DEnv K) (n : SName) (full : List String) (unit : String) (default : K) :
    DM K Unit := do
  let r ← onInp E (.scalar (.seq full) unit rootRegion)
  let i ← DM.ofExcept (asView r)
  let I ← onInp E (.vInfo (.s i))
  let empty ← DM.ofExcept (asEmpty I)
  if empty then do
    let _ ← onInp E (.sSet i (.num default))
    DM.modify (fun d => { d with sv := Function.update d.sv n (some i) })
  else DM.modify (fun d => { d with sv := Function.update d.sv n (some i) })

/-- `set_parameter` for a generic parameter. -/
def setGenericParameter (E : DEnv K) (n : GName) (full : List String) (default : Option GVal) :
    DM K Unit := do
  let r ← onInp E (.generic (.seq full) rootRegion)
  let i ← DM.ofExcept (asView r)
  match default with
  | none => DM.modify (fun d => { d with gv := Function.update d.gv n (some i) })
  | some g => do
    let I ← onInp E (.vInfo (.g i))
    let empty ← DM.ofExcept (asEmpty I)
    if empty then do
      let _ ← onInp E (.gSet i g)
      DM.modify (fun d => { d with gv := Function.update d.gv n (some i) })
    else DM.modify (fun d => { d with gv := Function.update d.gv n (some i) })

def setScalars (E : DEnv K) : List (SName × List String × String × ℚ) → DM K Unit
  | [] => pure ()
  | (n, full, unit, x) :: r => do
    setScalarParameter E n full unit (x : K)
    setScalars E r

def setGenerics (E : DEnv K) : List (GName × List String × Option GVal) → DM K Unit
  | [] => pure ()
  | (n, full, g) :: r => do
    setGenericParameter E n full g
    setGenerics E r

/-- `DICE._initialize_model`, `openscm/adapters/dice.py:104-146`. -/
def initializeModel (E : DEnv K) : DM K Unit := do
  DM.modify (fun d => { d with
    sv := fun _ => none, gv := fun _ => none, ov := fun _ => none, e := none,
    b11 := none, b21 := none, b22 := none, b32 := none, b33 := none })
  setScalars E scalarDefaults
  setGenerics E genericDefaults
  setScalars E standardScalars
  setGenerics E standardGenerics

/-- The names, units and types of the outputs, `openscm/adapters/dice.py:184-225`. -/
def outputName : OName → List String
  | .mat => ["Pool", "CO2", "Atmosphere"]
  | .ml => ["Pool", "CO2", "Ocean", "lower"]
  | .mu => ["Pool", "CO2", "Ocean", "shallow"]
  | .tatm => ["Surface Temperature", "Increase"]
  | .tocean => ["Ocean Temperature", "Increase"]
  | .forc => ["Radiative Forcing", "CO2"]

def outputUnit : OName → String
  | .mat | .ml | .mu => "GtC"
  | .tatm | .tocean => "delta_degC"
  | .forc => "W/m^2"

def outputType : OName → PType
  | .forc => .average
  | _ => .point

def outputTypeName : OName → String
  | .forc => "average"
  | _ => "point"

/-- The request of an output view. -/
def outputRequest (o : OName) (points averages : List K) : Op K GVal :=
  .timeseries (.seq (outputName o)) (outputUnit o) (if o = .forc then averages else points) rootRegion
    (.str (outputTypeName o)) (.enum .linear) (.enum .none)

/-- `self._values.name = self._output.timeseries(...)` -/
def requestOutput (E : DEnv K) (o : OName) (points averages : List K) : DM K Unit := do
  let r ← onOut E (outputRequest o points averages)
  let i ← DM.ofExcept (asView r)
  DM.modify (fun d => { d with ov := Function.update d.ov o (some i) })

/-- `create_time_points` with a `timestep_count` that may be negative, which `np.linspace` refuses. -/
def timePointsFor (start period count : Int) (ty : PType) : Except Err (List K) :=
  if (if ty = .average then count + 1 else count) < 0 then .error .valueError
  else
    match createTimePoints 1 start period count.toNat (.enum ty) with
    | .error e => .error e
    | .ok l => .ok (l.map (fun i : Int => (i : K)))

/-- `DICE._initialize_run_parameters`, `openscm/adapters/dice.py:151-225`. -/
def initializeRun (E : DEnv K) : DM K Unit := do
  DM.modify (fun d => { d with timestep := 0 })
  let stop ← gtime E .stop_time
  let start ← gtime E .start_time
  let (k, u) ← gdelta E .period_length
  if k * u = 0 then DM.throw .valueError
  else do
    let count := (stop - start).tdiv (k * u) + 1
    DM.modify (fun d => { d with count := count })
    let points ← DM.ofExcept (timePointsFor start (k * u) count .point)
    let averages ← DM.ofExcept (timePointsFor start (k * u) count .average)
    let rounding ← gbool E .original_rounding
    let r ← onInp E (.timeseries (.seq ["Emissions", "CO2"])
      (if rounding then "GtCO2/a" else "GtC/a") averages rootRegion (.str "average") (.enum .linear)
      (.enum .none))
    let i ← DM.ofExcept (asView r)
    DM.modify (fun d => { d with e := some i })
    requestOutput E .mat points averages
    requestOutput E .ml points averages
    requestOutput E .mu points averages
    requestOutput E .tatm points averages
    requestOutput E .tocean points averages
    requestOutput E .forc points averages

/-- `if not self._initialized: ...`, `openscm/adapters/__init__.py:72-74`, `85-87`. -/
def ensureInitialized (E : DEnv K) : DM K Unit := do
  if ← DM.gets (·.initialized) then pure ()
  else do
    initializeModel E
    DM.modify (fun d => { d with initialized := true })

/-- `Adapter.initialize_model_input`, `openscm/adapters/__init__.py:65-77`. -/
def initializeModelInput (E : DEnv K) : DM K Unit := ensureInitialized E

/-- `Adapter.initialize_run_parameters`, `openscm/adapters/__init__.py:79-91`. -/
def initializeRunParameters (E : DEnv K) : DM K Unit := do
  ensureInitialized E
  initializeRun E

/-! ## Reset -/

/-- `v.name.values = np.empty(self._timestep_count); v.name.values[0] = x`; a negative length is a
`ValueError`. `junk` is what `np.empty` returns. -/
def resetOutput (E : DEnv K) (o : OName) (junk : Nat → Fl K) (x : DM K (Fl K)) : DM K Unit := do
  let n ← DM.gets (·.count)
  if n < 0 then DM.throw .valueError
  else do
    let i ← DM.attr (·.ov o)
    let _ ← onOut E (.tSet i (.floats ((List.range n.toNat).map junk)))
    let y ← x
    oset E o 0 y

/-- `DICE._reset`, `openscm/adapters/dice.py:227-252`. -/
def diceReset (E : DEnv K) (junk : OName → Nat → Fl K) : DM K Unit := do
  DM.modify (fun d => { d with timestep := 0 })
  let b12 ← sget E .b12
  DM.modify (fun d => { d with b11 := some (.num 1 - b12) })
  let mateq ← sget E .mateq
  let mueq ← sget E .mueq
  let b21 ← DM.ofExcept (Fl.quot (b12 * mateq) mueq)
  DM.modify (fun d => { d with b21 := some b21 })
  let b23 ← sget E .b23
  DM.modify (fun d => { d with b22 := some (.num 1 - b21 - b23) })
  let mleq ← sget E .mleq
  let b32 ← DM.ofExcept (Fl.quot (b23 * mueq) mleq)
  DM.modify (fun d => { d with b32 := some b32, b33 := some (.num 1 - b32) })
  resetOutput E .mat (junk .mat) (sget E .mat0)
  resetOutput E .ml (junk .ml) (sget E .ml0)
  resetOutput E .mu (junk .mu) (sget E .mu0)
  resetOutput E .tatm (junk .tatm) (sget E .tatm0)
  resetOutput E .tocean (junk .tocean) (sget E .tocean0)
  resetOutput E .forc (junk .forc) (do
    let f ← sget E .fco22x
    let m ← sget E .mat0
    let q ← sget E .mateq
    let r ← DM.ofExcept (Fl.quot m q)
    let l ← DM.ofExcept (Fl.log2 E.lg r)
    let x ← sget E .fex0
    pure (f * l + x))

/-- `Adapter.reset`, `openscm/adapters/__init__.py:93-101`. -/
def adapterReset (E : DEnv K) (junk : OName → Nat → Fl K) : DM K Unit := do
  let r ← onInp E (.generic (.str "Start Time") rootRegion)
  let i ← DM.ofExcept (asView r)
  let g ← onInp E (.gGet i)
  match ← DM.ofExcept (asGen g) with
  | some (.time s) => do
    DM.modify (fun d => { d with current := s })
    diceReset E junk
  | _ => DM.throw .typeError

/-! ## A step -/

/-- The forcing by other gases, `openscm/adapters/dice.py:334-343`: the product of a float and a
`timedelta64` is a `timedelta64`, cut to whole ticks. -/
def forcoth (trunc : K → Int) (fex0 fex1 : Fl K) (start sat k u : Int) (t : Nat) : Fl K :=
  if sat ≤ start + k * u * t then fex1
  else fex0 + (fex1 - fex0).map (fun x =>
    ((trunc (x * ((k * t : Int) : K)) * u : Int) : K) / ((sat - start : Int) : K))

/-- The forcing by other gases as computed in a step. -/
def forcothStep (E : DEnv K) (t : Nat) : DM K (Fl K) := do
  let start ← gtime E .start_time
  let (k, u) ← gdelta E .period_length
  let sat ← gtime E .forcoth_saturation_time
  if sat ≤ start + k * u * t then sget E .fex1
  else do
    let fex0 ← sget E .fex0
    let fex1 ← sget E .fex1
    pure (forcoth E.env.trunc fex0 fex1 start sat k u t)

/-- The atmospheric pool, `openscm/adapters/dice.py:295-303`; `i` is `self._timestep - 1`. -/
def stepMat (E : DEnv K) (k u : Int) (t : Nat) : DM K Unit := do
  let lower ← sget E .mat_lower
  let mat ← oget E .mat ((t : Int) - 1)
  let b11 ← DM.coef (·.b11)
  let mu ← oget E .mu ((t : Int) - 1)
  let b21 ← DM.coef (·.b21)
  let e ← eget E ((t : Int) - 1)
  let rounding ← gbool E .original_rounding
  oset E .mat t (Fl.pyMax lower (mat * b11 + mu * b21
    + e.map (fun x => x * (((k * u : Int) : K) / 31536000) / (if rounding then 3666 / 1000 else 1))))

/-- The lower ocean, `openscm/adapters/dice.py:305-310`. -/
def stepMl (E : DEnv K) (t : Nat) : DM K Unit := do
  let lower ← sget E .ml_lower
  let ml ← oget E .ml ((t : Int) - 1)
  let b33 ← DM.coef (·.b33)
  let mu ← oget E .mu ((t : Int) - 1)
  let b23 ← sget E .b23
  oset E .ml t (Fl.pyMax lower (ml * b33 + mu * b23))

/-- The shallow ocean, `openscm/adapters/dice.py:312-318`. -/
def stepMu (E : DEnv K) (t : Nat) : DM K Unit := do
  let lower ← sget E .mu_lower
  let mat ← oget E .mat ((t : Int) - 1)
  let b12 ← sget E .b12
  let mu ← oget E .mu ((t : Int) - 1)
  let b22 ← DM.coef (·.b22)
  let ml ← oget E .ml ((t : Int) - 1)
  let b32 ← DM.coef (·.b32)
  oset E .mu t (Fl.pyMax lower (mat * b12 + mu * b22 + ml * b32))

/-- The ocean temperature, `openscm/adapters/dice.py:320-332`. -/
def stepTocean (E : DEnv K) (t : Nat) : DM K Unit := do
  let lower ← sget E .tocean_lower
  let upper ← sget E .tocean_upper
  let tocean ← oget E .tocean ((t : Int) - 1)
  let c4 ← sget E .c4
  let tatm ← oget E .tatm ((t : Int) - 1)
  oset E .tocean t (Fl.pyMax lower (Fl.pyMin upper (tocean + c4 * (tatm - tocean))))

/-- The forcing, `openscm/adapters/dice.py:334-349`. -/
def stepForc (E : DEnv K) (t : Nat) : DM K Unit := do
  let other ← forcothStep E t
  let fco22x ← sget E .fco22x
  let mat ← oget E .mat t
  let mateq ← sget E .mateq
  let q ← DM.ofExcept (Fl.quot mat mateq)
  let l ← DM.ofExcept (Fl.log2 E.lg q)
  oset E .forc t (fco22x * l + other)

/-- The atmospheric temperature, `openscm/adapters/dice.py:351-365`. -/
def stepTatm (E : DEnv K) (t : Nat) : DM K Unit := do
  let upper ← sget E .tatm_upper
  let tatm ← oget E .tatm ((t : Int) - 1)
  let c1 ← sget E .c1
  let forc ← oget E .forc t
  let fco22x ← sget E .fco22x
  let t2xco2 ← sget E .t2xco2
  let lam ← DM.ofExcept (Fl.quot fco22x t2xco2)
  let c3 ← sget E .c3
  let tocean ← oget E .tocean ((t : Int) - 1)
  oset E .tatm t (Fl.pyMin upper
    (tatm + c1 * (forc - lam * tatm - c3 * (tatm - tocean))))

/-- `DICE._calc_step`, `openscm/adapters/dice.py:287-365`. -/
def calcStep (E : DEnv K) : DM K Unit := do
  DM.modify (fun d => { d with timestep := d.timestep + 1 })
  let (k, u) ← gdelta E .period_length
  DM.modify (fun d => { d with current := d.current + k * u })
  let t ← DM.gets (·.timestep)
  stepMat E k u t
  stepMl E t
  stepMu E t
  stepTocean E t
  stepForc E t
  stepTatm E t

/-! ## Running -/

def steps (E : DEnv K) : Nat → DM K Unit
  | 0 => pure ()
  | n + 1 => do
    calcStep E
    steps E n

def lockOutput (E : DEnv K) (o : OName) : DM K Unit := do
  let i ← DM.attr (·.ov o)
  let _ ← onOut E (.tLock i)
  pure ()

def unlockOutput (E : DEnv K) (o : OName) : DM K Unit := do
  let i ← DM.attr (·.ov o)
  let _ ← onOut E (.tUnlock i)
  pure ()

/-- `DICE._run`, `openscm/adapters/dice.py:257-279`. -/
def diceRun (E : DEnv K) : DM K Unit := do
  lockOutput E .mat
  lockOutput E .ml
  lockOutput E .mu
  lockOutput E .tatm
  lockOutput E .tocean
  lockOutput E .forc
  let n ← DM.gets (·.count)
  steps E (n - 1).toNat
  unlockOutput E .forc
  unlockOutput E .mat
  unlockOutput E .ml
  unlockOutput E .mu
  unlockOutput E .tatm
  unlockOutput E .tocean
  unlockOutput E .forc

/-- `Adapter.step`, `openscm/adapters/__init__.py:109-119`. -/
def adapterStep (E : DEnv K) : DM K Int := do
  calcStep E
  DM.gets (·.current)

/-- `OpenSCM.reset_stepping`, `openscm/core/__init__.py:91-97`. -/
def resetStepping (E : DEnv K) (junk : OName → Nat → Fl K) : DM K Unit := do
  initializeModelInput E
  initializeRunParameters E
  adapterReset E junk

/-- `OpenSCM.run`, `openscm/core/__init__.py:99-104`. -/
def openscmRun (E : DEnv K) (junk : OName → Nat → Fl K) : DM K Unit := do
  resetStepping E junk
  diceRun E

/-- What a program can do: call the model and use the parameter sets. -/
inductive DOp (K : Type) where
  | resetStepping (junk : OName → Nat → Fl K)
  | run (junk : OName → Nat → Fl K)
  | step
  | initModelInput
  | initRunParameters
  | reset (junk : OName → Nat → Fl K)
  | adapterRun
  | input (op : Op K GVal)
  | output (op : Op K GVal)

/-- Results of these calls. -/
inductive DOut (K : Type) where
  | done
  | time (t : Int)
  | out (o : Out K GVal)

/-- One call. -/
def dcall (E : DEnv K) : DOp K → DM K (DOut K)
  | .resetStepping j => do resetStepping E j; pure .done
  | .run j => do openscmRun E j; pure .done
  | .step => do let t ← adapterStep E; pure (.time t)
  | .initModelInput => do initializeModelInput E; pure .done
  | .initRunParameters => do initializeRunParameters E; pure .done
  | .reset j => do adapterReset E j; pure .done
  | .adapterRun => do diceRun E; pure .done
  | .input op => do let o ← onInp E op; pure (.out o)
  | .output op => do let o ← onOut E op; pure (.out o)

/-- The state after a history of calls. -/
def dafter (E : DEnv K) (d : Dice K) : List (DOp K) → Dice K
  | [] => d
  | op :: ops => dafter E (dcall E op d).2 ops

end Openscm
