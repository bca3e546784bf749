import Verif.Units
import Mathlib.Tactic.Ring
import Mathlib.Tactic.FieldSimp
import Mathlib.Tactic.LinearCombination
import Mathlib.Algebra.Order.Field.Rat
import Mathlib.Tactic.NormNum

/-!
# C32-C34: unit conversion

The specification is pint's own conversion `v ↦ (v * s.scale + s.offset - t.offset) / t.scale`,
i.e. "same amount in base units"; the code samples it at two points and goes on with an affine map.
-/

set_option linter.unusedSectionVars false

namespace Openscm
variable {K : Type} [Field K] [CharZero K]

theorem mkConv_ok {reg : Registry K} {a b : String} {c : Conv K} (h : mkConv reg a b = .ok c) :
    ∃ s t, reg a = some s ∧ reg b = some t ∧ s.dim = t.dim ∧ c.source = a ∧ c.target = b ∧
      c.scaling = s.scale / t.scale ∧ c.offset = (s.offset - t.offset) / t.scale := by
  unfold mkConv at h
  split at h
  · cases h
  · rename_i s hs
    split at h
    · cases h
    · rename_i t ht
      split at h
      · rename_i hd
        injection h with h
        have h2 : (2 : K) ≠ 0 := by norm_num
        have hne : ((-1 : K) - 1) ≠ 0 := by
          intro e; apply h2; linear_combination -e
        have htn := t.scale_ne
        refine ⟨s, t, hs, ht, hd, ?_, ?_, ?_, ?_⟩
        · rw [← h]
        · rw [← h]
        · rw [← h]; simp only [pintTo, UDef.toBase, UDef.ofBase]; field_simp; ring
        · rw [← h]; simp only [pintTo, UDef.toBase, UDef.ofBase]; field_simp; ring
      · cases h

/-- The converter of the code computes exactly pint's conversion for every value, although it only
looks at two sample values when it is created (C33). -/
theorem C33_convertFrom_is_pint {reg : Registry K} {a b : String} {c : Conv K}
    (h : mkConv reg a b = .ok c) (v : K) :
    ∃ s t, reg a = some s ∧ reg b = some t ∧ s.toBase v = t.toBase (c.convertFrom v) := by
  obtain ⟨s, t, hs, ht, _, _, _, h1, h2⟩ := mkConv_ok h
  refine ⟨s, t, hs, ht, ?_⟩
  have := t.scale_ne
  simp only [UDef.toBase, Conv.convertFrom, h1, h2]
  field_simp; ring

theorem mkConv_scaling_ne {reg : Registry K} {a b : String} {c : Conv K}
    (h : mkConv reg a b = .ok c) : c.scaling ≠ 0 := by
  obtain ⟨s, t, _, _, _, _, _, h1, _⟩ := mkConv_ok h
  rw [h1]; exact div_ne_zero s.scale_ne t.scale_ne

/-- C32: there and back, from the source unit. -/
theorem C32_to_from {reg : Registry K} {a b : String} {c : Conv K}
    (h : mkConv reg a b = .ok c) (v : K) : c.convertTo (c.convertFrom v) = v := by
  have := mkConv_scaling_ne h
  simp only [Conv.convertTo, Conv.convertFrom]; field_simp; ring

/-- C32: there and back, from the target unit. -/
theorem C32_from_to {reg : Registry K} {a b : String} {c : Conv K}
    (h : mkConv reg a b = .ok c) (v : K) : c.convertFrom (c.convertTo v) = v := by
  have := mkConv_scaling_ne h
  simp only [Conv.convertTo, Conv.convertFrom]; field_simp; ring

/-- C32: a converter from a unit to itself is the identity, in both directions. -/
theorem C32_same_unit {reg : Registry K} {a : String} {c : Conv K}
    (h : mkConv reg a a = .ok c) (v : K) : c.convertFrom v = v ∧ c.convertTo v = v := by
  obtain ⟨s, t, hs, ht, _, _, _, h1, h2⟩ := mkConv_ok h
  rw [hs] at ht; injection ht with ht; subst ht
  have := s.scale_ne
  constructor
  · simp only [Conv.convertFrom, h1, h2]; field_simp; ring
  · simp only [Conv.convertTo, h1, h2]; field_simp; ring

/-- C33: converting a → b → c is converting a → c, also for offset units. -/
theorem C33_compose {reg : Registry K} {x y z : String} {c1 c2 c3 : Conv K}
    (h1 : mkConv reg x y = .ok c1) (h2 : mkConv reg y z = .ok c2) (h3 : mkConv reg x z = .ok c3)
    (v : K) : c2.convertFrom (c1.convertFrom v) = c3.convertFrom v := by
  obtain ⟨s, t, hs, ht, _, _, _, a1, a2⟩ := mkConv_ok h1
  obtain ⟨t', u, ht', hu, _, _, _, b1, b2⟩ := mkConv_ok h2
  obtain ⟨s', u', hs', hu', _, _, _, d1, d2⟩ := mkConv_ok h3
  rw [ht] at ht'; injection ht' with ht'; subst ht'
  rw [hs] at hs'; injection hs' with hs'; subst hs'
  rw [hu] at hu'; injection hu' with hu'; subst hu'
  have := t.scale_ne; have := u.scale_ne
  simp only [Conv.convertFrom, a1, a2, b1, b2, d1, d2]; field_simp; ring

/-- C33: the reverse converter is the inverse. -/
theorem C33_reverse {reg : Registry K} {x y : String} {c1 c2 : Conv K}
    (h1 : mkConv reg x y = .ok c1) (h2 : mkConv reg y x = .ok c2) (v : K) :
    c2.convertFrom v = c1.convertTo v := by
  obtain ⟨s, t, hs, ht, _, _, _, a1, a2⟩ := mkConv_ok h1
  obtain ⟨t', s', ht', hs', _, _, _, b1, b2⟩ := mkConv_ok h2
  rw [ht] at ht'; injection ht' with ht'; subst ht'
  rw [hs] at hs'; injection hs' with hs'; subst hs'
  have := t.scale_ne; have := s.scale_ne
  simp only [Conv.convertFrom, Conv.convertTo, a1, a2, b1, b2]; field_simp; ring

/-- C33: a conversion with equal scale and offset zero in both units is linear: sums convert
term by term. (For offset units, such as degC to K, it is only affine.) -/
theorem C33_additive {reg : Registry K} {x y : String} {c : Conv K} {s t : UDef K}
    (h : mkConv reg x y = .ok c) (hs : reg x = some s) (ht : reg y = some t)
    (h0 : s.offset = 0) (h1 : t.offset = 0) (v w : K) :
    c.convertFrom (v + w) = c.convertFrom v + c.convertFrom w := by
  obtain ⟨s', t', hs', ht', _, _, _, a1, a2⟩ := mkConv_ok h
  rw [hs] at hs'; injection hs' with hs'; subst hs'
  rw [ht] at ht'; injection ht' with ht'; subst ht'
  simp only [Conv.convertFrom, a2, h0, h1]; ring

/-- C33: a weighted mean converts to the weighted mean of the converted values, for all units
(so unit conversion commutes with interpolation and averaging). -/
theorem C33_affine (c : Conv K) (v w p : K) :
    c.convertFrom (p * v + (1 - p) * w) = p * c.convertFrom v + (1 - p) * c.convertFrom w := by
  simp only [Conv.convertFrom]; ring

/-- C34: exactly when a converter exists. -/
theorem C34_exists_iff (reg : Registry K) (a b : String) :
    (∃ c, mkConv reg a b = .ok c) ↔
      ∃ s t, reg a = some s ∧ reg b = some t ∧ s.dim = t.dim := by
  constructor
  · rintro ⟨c, h⟩
    obtain ⟨s, t, hs, ht, hd, _⟩ := mkConv_ok h
    exact ⟨s, t, hs, ht, hd⟩
  · rintro ⟨s, t, hs, ht, hd⟩
    simp [mkConv, hs, ht, hd]

/-- C34: which error is raised. -/
theorem C34_undefined_iff (reg : Registry K) (a b : String) :
    mkConv reg a b = .error .undefinedUnit ↔ reg a = none ∨ reg b = none := by
  unfold mkConv
  cases reg a with
  | none => simp
  | some s =>
    cases reg b with
    | none => simp
    | some t => by_cases h : s.dim = t.dim <;> simp [h]

/-- C34: which error is raised. -/
theorem C34_dimensionality_iff (reg : Registry K) (a b : String) :
    mkConv reg a b = .error .dimensionality ↔
      ∃ s t, reg a = some s ∧ reg b = some t ∧ s.dim ≠ t.dim := by
  unfold mkConv
  cases reg a with
  | none => simp
  | some s =>
    cases reg b with
    | none => simp
    | some t => by_cases h : s.dim = t.dim <;> simp [h]

/-- A registry with kelvin, Celsius and metre, to exhibit the hypotheses above. -/
def demoReg : Registry ℚ := fun s =>
  if s = "K" then some ⟨[("temperature", 1)], 1, 0, by norm_num⟩
  else if s = "degC" then some ⟨[("temperature", 1)], 1, 5463 / 20, by norm_num⟩
  else if s = "mK" then some ⟨[("temperature", 1)], 1 / 1000, 0, by norm_num⟩
  else if s = "m" then some ⟨[("length", 1)], 1, 0, by norm_num⟩
  else none

/-- Non-vacuity: an offset conversion exists and does what one expects. -/
example : ∃ c, mkConv demoReg "K" "degC" = .ok c ∧ c.convertFrom 300 = 537 / 20 := by
  refine ⟨_, by simp [mkConv, demoReg]; rfl, ?_⟩
  simp [Conv.convertFrom, pintTo, UDef.toBase, UDef.ofBase]
  norm_num

example : mkConv demoReg "K" "m" = .error .dimensionality := by simp [mkConv, demoReg]
example : mkConv demoReg "K" "parsec" = .error .undefinedUnit := by simp [mkConv, demoReg]

end Openscm
