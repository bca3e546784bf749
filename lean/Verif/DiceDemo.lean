import Verif.CoreDemo
import Verif.DiceSession

/-!
# Concrete runs of DICE

Rational numbers, the units DICE uses and `x - 1` for the logarithm: enough to show that the
hypotheses of the property theorems about DICE are met by programs.
-/

namespace Openscm

/-- The units of the inputs and outputs of DICE; 1 GtC = 44/12 GtCO2. -/
def diceReg : Registry ℚ := fun s =>
  if s = "GtC" then some ⟨[("carbon", 1)], 1, 0, by norm_num⟩
  else if s = "GtC/a" then some ⟨[("carbon", 1), ("time", -1)], 1, 0, by norm_num⟩
  else if s = "GtCO2/a" then some ⟨[("carbon", 1), ("time", -1)], 12 / 44, 0, by norm_num⟩
  else if s = "delta_degC" then some ⟨[("temperature", 1)], 1, 0, by norm_num⟩
  else if s = "W/m^2" then some ⟨[("forcing", 1)], 1, 0, by norm_num⟩
  else if s = "" then some ⟨[], 1, 0, by norm_num⟩
  else if s = "delta_degC*m^2/W" then some ⟨[("temperature", 1), ("forcing", -1)], 1, 0, by norm_num⟩
  else if s = "W/m^2/delta_degC" then some ⟨[("forcing", 1), ("temperature", -1)], 1, 0, by norm_num⟩
  else none

def diceEnv : DEnv ℚ := ⟨⟨diceReg, demoEnv.trunc⟩, fun x => x - 1⟩

/-- Seconds of a DICE year. -/
def diceYear : ℤ := 31536000

/-- `parameterset.timeseries(("Emissions", "CO2"), unit, ...)` for `n` years from the start. -/
def emissionsOp (unit : String) (n : ℕ) : Op ℚ GVal :=
  .timeseries (.seq ["Emissions", "CO2"]) unit ((List.range (n + 1)).map fun i => ((diceYear * i : ℤ) : ℚ))
    rootRegion (.str "average") (.enum .linear) (.enum .none)

/-- A program that sets start and stop times (`n` years later) and constant emissions. -/
def diceInputs (n : ℕ) (e : ℚ) : List (DOp ℚ) :=
  [.input (.generic (.str "Start Time") rootRegion), .input (.gSet 0 (.time 0)),
    .input (.generic (.str "Stop Time") rootRegion), .input (.gSet 1 (.time (diceYear * n))),
    .input (emissionsOp "GtCO2/a" (n + 1)),
    .input (.tSet 0 (nums (List.replicate (n + 1) e)))]

def diceSt (ops : List (DOp ℚ)) : Dice ℚ := dafter diceEnv (Dice.new (St.init "World") (St.init "World")) ops

theorem diceSt_reach (ops : List (DOp ℚ)) : DReach diceEnv (diceSt ops) := ⟨_, _, ops, rfl⟩

/-- What `np.empty` returns here. -/
def noJunk : OName → ℕ → Fl ℚ := fun _ _ => .nan

/-- The call succeeded. -/
def isDone {α : Type} : Except Err α → Bool
  | .ok _ => true
  | .error _ => false

end Openscm
