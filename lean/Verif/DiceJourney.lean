import Verif.DiceSpec2
import Verif.DiceDemo

/-!
# A scenario for DICE

The scenario of the programs `diceInputs` in `DiceDemo.lean`, for the examples beside the theorems.
-/

namespace Openscm

def allScalars : List SName :=
  [.mat0, .mateq, .mat_lower, .ml0, .mleq, .ml_lower, .mu0, .mueq, .mu_lower, .tatm0, .tatm_upper, .tocean0,
    .tocean_lower, .tocean_upper, .b12, .b23, .c1, .c3, .c4, .fex0, .fex1, .fco22x, .t2xco2]

theorem allScalars_all (n : SName) : n ∈ allScalars := by cases n <;> decide

/-- The defaults of the scalar inputs. -/
def defaultValue (n : SName) : Fl ℚ :=
  match defaultScalars.find? (fun t => t.1 == (scalarSpec n).1) with
  | some t => .num (t.2.2 : ℚ)
  | none => .nan

/-- Defaults everywhere, three years from 1970 on with emissions of 10 GtCO2 a year. -/
def diceW : Scenario ℚ :=
  { p := defaultValue, start := 0, sat := 4102444800, ticks := 365, tick := 86400, rounding := true,
    emissions := List.replicate 4 (.num 10), stop := 3 * diceYear }

def dice0 : Dice ℚ := diceSt (diceInputs 3 10)

theorem diceW_given : Given diceEnv (prepared diceEnv dice0).inp diceW := by
  have h1 : ∀ n ∈ allScalars, freshScalar diceEnv.env (prepared diceEnv dice0).inp (scalarSpec n).1 (scalarSpec n).2
      = .ok (.num (diceW.p n)) := by decide +kernel
  have h2 : readEmissions diceEnv (prepared diceEnv dice0).inp diceW.rounding (diceW.axis (diceW.steps + 2))
      = .ok (.arr (.floats diceW.emissions)) := by decide +kernel
  refine ⟨fun n => h1 n (allScalars_all n), ?_, ?_, ?_, ?_, ?_, ?_⟩
  · decide +kernel
  · decide +kernel
  · decide +kernel
  · decide +kernel
  · decide +kernel
  · intro a ha
    rw [h2] at ha
    cases ha
    rfl

deriving instance DecidableEq for DOut

/-- The state after a run. -/
def dice1 : Dice ℚ := (dcall diceEnv (.run noJunk) dice0).2

theorem dice_run : dcall diceEnv (.run noJunk) dice0 = (.ok .done, dice1) := by
  have : (dcall diceEnv (.run noJunk) dice0).1 = .ok .done := by decide +kernel
  exact Prod.ext this rfl

theorem dice_axes (o : OName) : OnAxis dice0.out (outputKey o) (diceW.outAxis o) := by
  refine OnAxis.of_unused (env := diceEnv.env) (diceSt_reach _).out.inv ?_ _
  have : infoAt diceEnv.env dice0.out (outputKey o) = none := by cases o <;> decide +kernel
  intro I hI
  rw [show infoAt diceEnv.env dice0.out (outputKey o) = some I from hI] at this
  cases this

/-- The state after a reset, and after `n` steps more. -/
def diceAt : ℕ → Dice ℚ
  | 0 => (dcall diceEnv (.resetStepping noJunk) dice0).2
  | n + 1 => (dcall diceEnv .step (diceAt n)).2

theorem dice_reset : dcall diceEnv (.resetStepping noJunk) dice0 = (.ok .done, diceAt 0) := by
  have : (dcall diceEnv (.resetStepping noJunk) dice0).1 = .ok .done := by decide +kernel
  exact Prod.ext this rfl

theorem dice_step (n : ℕ) (hn : n < 3) :
    dcall diceEnv .step (diceAt n) = (.ok (.time (diceYear * (n + 1))), diceAt (n + 1)) := by
  have : ∀ n, n < 3 → (dcall diceEnv .step (diceAt n)).1 = .ok (.time (diceYear * (n + 1))) := by decide +kernel
  exact Prod.ext (this n hn) rfl

theorem dice_steps : Stepped diceEnv 3 (diceAt 0) (diceAt 3) :=
  ⟨_, _, dice_step 0 (by omega), _, _, dice_step 1 (by omega), _, _, dice_step 2 (by omega), rfl⟩

/-- The same without emissions, and pools of equilibrium size. -/
def diceEq0 : Dice ℚ := diceSt (diceInputs 3 0 ++
  [.input (.scalar (.str "DICE|mat0") "GtC" rootRegion), .input (.sSet 0 (.num 588)),
    .input (.scalar (.str "DICE|ml0") "GtC" rootRegion), .input (.sSet 1 (.num 10000)),
    .input (.scalar (.str "DICE|mu0") "GtC" rootRegion), .input (.sSet 2 (.num 1350))])

def diceEqW : Scenario ℚ :=
  { diceW with
    p := fun n => match n with
      | .mat0 => .num 588
      | .ml0 => .num 10000
      | .mu0 => .num 1350
      | n => defaultValue n
    emissions := List.replicate 4 (.num 0) }

theorem diceEqW_given : Given diceEnv (prepared diceEnv diceEq0).inp diceEqW := by
  have h1 : ∀ n ∈ allScalars, freshScalar diceEnv.env (prepared diceEnv diceEq0).inp (scalarSpec n).1
      (scalarSpec n).2 = .ok (.num (diceEqW.p n)) := by decide +kernel
  have h2 : readEmissions diceEnv (prepared diceEnv diceEq0).inp diceEqW.rounding (diceEqW.axis (diceEqW.steps + 2))
      = .ok (.arr (.floats diceEqW.emissions)) := by decide +kernel
  refine ⟨fun n => h1 n (allScalars_all n), ?_, ?_, ?_, ?_, ?_, ?_⟩
  · decide +kernel
  · decide +kernel
  · decide +kernel
  · decide +kernel
  · decide +kernel
  · intro a ha
    rw [h2] at ha
    cases ha
    rfl

def diceEq1 : Dice ℚ := (dcall diceEnv (.run noJunk) diceEq0).2

theorem diceEq_run : dcall diceEnv (.run noJunk) diceEq0 = (.ok .done, diceEq1) := by
  have : (dcall diceEnv (.run noJunk) diceEq0).1 = .ok .done := by decide +kernel
  exact Prod.ext this rfl

theorem diceEq_axes (o : OName) : OnAxis diceEq0.out (outputKey o) (diceEqW.outAxis o) := by
  refine OnAxis.of_unused (env := diceEnv.env) (diceSt_reach _).out.inv ?_ _
  have : infoAt diceEnv.env diceEq0.out (outputKey o) = none := by cases o <;> decide +kernel
  intro I hI
  rw [show infoAt diceEnv.env diceEq0.out (outputKey o) = some I from hI] at this
  cases this

/-- The forcing by other gases is saturated after two years. -/
def diceSat0 : Dice ℚ := diceSt (diceInputs 3 10 ++
  [.input (.generic (.str "DICE|forcoth_saturation_time") rootRegion), .input (.gSet 2 (.time (2 * diceYear)))])

def diceSatW : Scenario ℚ := { diceW with sat := 2 * diceYear }

theorem diceSatW_given : Given diceEnv (prepared diceEnv diceSat0).inp diceSatW := by
  have h1 : ∀ n ∈ allScalars, freshScalar diceEnv.env (prepared diceEnv diceSat0).inp (scalarSpec n).1
      (scalarSpec n).2 = .ok (.num (diceSatW.p n)) := by decide +kernel
  have h2 : readEmissions diceEnv (prepared diceEnv diceSat0).inp diceSatW.rounding
      (diceSatW.axis (diceSatW.steps + 2)) = .ok (.arr (.floats diceSatW.emissions)) := by decide +kernel
  refine ⟨fun n => h1 n (allScalars_all n), ?_, ?_, ?_, ?_, ?_, ?_⟩
  · decide +kernel
  · decide +kernel
  · decide +kernel
  · decide +kernel
  · decide +kernel
  · intro a ha
    rw [h2] at ha
    cases ha
    rfl

def diceSat1 : Dice ℚ := (dcall diceEnv (.run noJunk) diceSat0).2

theorem diceSat_run : dcall diceEnv (.run noJunk) diceSat0 = (.ok .done, diceSat1) := by
  have : (dcall diceEnv (.run noJunk) diceSat0).1 = .ok .done := by decide +kernel
  exact Prod.ext this rfl

theorem diceSat_axes (o : OName) : OnAxis diceSat0.out (outputKey o) (diceSatW.outAxis o) := by
  refine OnAxis.of_unused (env := diceEnv.env) (diceSt_reach _).out.inv ?_ _
  have : infoAt diceEnv.env diceSat0.out (outputKey o) = none := by cases o <;> decide +kernel
  intro I hI
  rw [show infoAt diceEnv.env diceSat0.out (outputKey o) = some I from hI] at this
  cases this

end Openscm
