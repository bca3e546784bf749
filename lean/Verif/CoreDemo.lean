import Verif.CoreFrame
import Mathlib.Data.Rat.Floor

/-!
# Concrete histories

Rational numbers, a registry with four units and natural numbers as generic values: enough to
show that the hypotheses of the property theorems are met by histories of public calls, and to
exhibit the histories that violate a property.
-/

namespace Openscm

deriving instance DecidableEq for Except
deriving instance DecidableEq for Arr
deriving instance DecidableEq for Info
deriving instance DecidableEq for Out

/-- Units of `demoReg`; floats are truncated toward zero. -/
def demoEnv : Env ℚ := ⟨demoReg, fun q => if 0 ≤ q then q.floor else q.ceil⟩

/-- State after a history of calls on a new parameter set with root region "World". -/
def demoSt (ops : List (Op ℚ ℕ)) : St ℚ ℕ := after demoEnv (St.init "World") ops

/-- Outcomes of a history of calls on a new parameter set with root region "World". -/
def demo (ops : List (Op ℚ ℕ)) : List (Res ℚ ℕ) :=
  (run demoEnv (St.init "World") ops).1.map Prod.snd

theorem demoSt_reachable (ops : List (Op ℚ ℕ)) : Reachable demoEnv (demoSt ops) :=
  ⟨"World", ops, rfl⟩

/-- The root region. -/
def world : HName := .seq ["World"]

/-- `parameterset.timeseries(name, unit, tps, ...)` in the root region, type `point`. -/
def points (name : List String) (unit : String) (tps : List ℚ) : Op ℚ ℕ :=
  .timeseries (.seq name) unit tps world (.enum .point) (.enum .linear) (.enum .linear)

/-- An array of numbers. -/
def nums (l : List ℚ) : Arr ℚ := .floats (l.map .num)

end Openscm
