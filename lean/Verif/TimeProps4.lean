import Verif.Time
import Mathlib.Algebra.Order.Ring.Rat
import Mathlib.Algebra.Field.Rat

/-! # When a converter of timeseries can be created -/

set_option linter.unusedSectionVars false

namespace Openscm

variable {K : Type} [Field K] [LinearOrder K] [IsStrictOrderedRing K]

/-- C27: a converter is refused with `InsufficientDataError` if and only if its source begins after its second target time.
It exists, and is for these points, if and only if the source does not; with no source time or fewer than two target times
there is an `IndexError`. -/
theorem C27_create (source target : List K) (ty : PType) (ext : Extrap) :
    (mkTSConv source target ty ext = .error .insufficientData ↔
      ∃ (h1 : 0 < source.length) (h2 : 1 < target.length), source[0] > target[1]) ∧
    (mkTSConv source target ty ext = .error .indexError ↔ source.length < 1 ∨ target.length < 2) ∧
    ∀ c, mkTSConv source target ty ext = .ok c ↔
      c = ⟨source, target, ty, ext⟩ ∧ ∃ (h1 : 0 < source.length) (h2 : 1 < target.length), source[0] ≤ target[1] := by
  cases source with
  | nil => simp [mkTSConv]
  | cons s src =>
    cases target with
    | nil => simp [mkTSConv]
    | cons t0 tgt =>
      cases tgt with
      | nil => simp [mkTSConv]
      | cons t1 tgt =>
        simp only [mkTSConv]
        by_cases h : t1 < s
        · rw [if_pos h]
          simp [h]
        · rw [if_neg h]
          simp [h, not_lt.1 h, eq_comm]

/-- Both cases occur. -/
example : mkTSConv [(2 : ℚ), 3, 4] [0, 1] .point .linear = .error .insufficientData ∧
    mkTSConv [(2 : ℚ), 3, 4] [0, 2] .point .linear = .ok ⟨[2, 3, 4], [0, 2], .point, .linear⟩ :=
  ⟨(C27_create _ _ _ _).1.2 ⟨by simp, by simp, by norm_num⟩, ((C27_create _ _ _ _).2.2 _).2 ⟨rfl, by simp, by simp, le_refl _⟩⟩

end Openscm
