import Verif.DiceProps4
import Verif.FrameGroupProps

/-!
# Exactly what holds where a property fails

C45 and C62 are false of the code. Here is what is true of it without any restriction.
-/

set_option linter.unusedSectionVars false

namespace Openscm
variable {K : Type} [Field K] [LinearOrder K] [IsStrictOrderedRing K]

/-- C45, as the code computes it: before the saturation time the forcing by other gases has moved from `fex0` by a
whole number `q` of ticks, in units of the whole ramp, where `q` is `fex1 - fex0` times the ticks since the start, cut
to a whole number towards zero. -/
theorem C45_exact_partial {E : DEnv K} {d d' : Dice K} {W : Scenario K} {n : Nat} (h : Journey E d d' W n)
    (ht : TruncSpec E.env.trunc) (hu : 0 < W.tick) {a b : K}
    (ha : W.p .fex0 = .num a) (hb : W.p .fex1 = .num b) {j : Nat} (hj : j ≤ n)
    (hs : W.start + j * W.period < W.sat) {y : K} (hy : OtherForcing E d' W j y) :
    ∃ q : Int, y = a + ((q * W.tick : Int) : K) / ((W.sat - W.start : Int) : K) ∧
      |((q * W.tick : Int) : K)| ≤ |(b - a) * ((j * W.period : Int) : K)| ∧
      |(b - a) * ((j * W.period : Int) : K)| < |((q * W.tick : Int) : K)| + W.tick ∧
      0 ≤ (q : K) * ((b - a) * ((j * W.period : Int) : K)) := by
  have hk := h.ticks hu
  have hper : W.ticks * W.tick * (j : Int) = j * W.period := by unfold Scenario.period; ring
  have hu' : (0 : K) < (W.tick : K) := by exact_mod_cast hu
  have hX : ((b - a) * ((j * W.period : Int) : K)) = (b - a) * (W.ticks * j) * W.tick := by
    rw [← hper]; push_cast; ring
  have key : ∀ x : K, |((E.env.trunc x * W.tick : Int) : K)| ≤ |x * W.tick| ∧
      |x * W.tick| < |((E.env.trunc x * W.tick : Int) : K)| + W.tick ∧
      0 ≤ (E.env.trunc x : K) * (x * W.tick) := by
    have pos : ∀ x : K, 0 ≤ x → |((E.env.trunc x * W.tick : Int) : K)| ≤ |x * W.tick| ∧
      |x * W.tick| < |((E.env.trunc x * W.tick : Int) : K)| + W.tick ∧
      0 ≤ (E.env.trunc x : K) * (x * W.tick) := by
      intro x hx
      have h0 : (0 : K) ≤ E.env.trunc x := by exact_mod_cast ht.nonneg hx
      have h1 := mul_le_mul_of_nonneg_right (ht.le x hx) hu'.le
      have h2 := mul_lt_mul_of_pos_right (ht.lt x hx) hu'
      rw [Int.cast_mul, abs_of_nonneg (mul_nonneg h0 hu'.le), abs_of_nonneg (mul_nonneg hx hu'.le)]
      exact ⟨h1, by linarith, mul_nonneg h0 (mul_nonneg hx hu'.le)⟩
    intro x
    rcases le_total 0 x with hx | hx
    · exact pos x hx
    · obtain ⟨p1, p2, p3⟩ := pos (-x) (by linarith)
      rw [ht.neg] at p1 p2 p3
      rw [neg_mul, neg_mul, Int.cast_neg, abs_neg, abs_neg] at p1 p2
      refine ⟨p1, p2, ?_⟩
      push_cast at p3
      linarith
  rw [hX]
  rcases other_cases h ha hb hj hy with ⟨rfl, rfl⟩ | ⟨_, hs', rfl⟩ | ⟨_, hs', rfl⟩
  · exact ⟨0, by simp, by simp, by simpa using hu', by simp⟩
  · rw [hper] at hs'; omega
  · exact ⟨E.env.trunc ((b - a) * (W.ticks * j)), rfl, key _⟩

example : ∃ q : Int, (1 / 4 + 164 * 86400 / 4102444800 : ℚ) =
    1 / 4 + ((q * diceW.tick : Int) : ℚ) / ((diceW.sat - diceW.start : Int) : ℚ) := by
  obtain ⟨q, h, _⟩ := C45_exact_partial dice_journey demoTrunc (by decide) (a := 1 / 4) (b := 7 / 10) (by decide +kernel)
    (by decide +kernel) (j := 1) (by omega) (by decide) dice_other
  exact ⟨q, h⟩

/-- C62: a timeseries has a row with its metadata exactly if nothing is missing in its metadata. -/
theorem C62_covered_exact_partial [FloorSemiring K] {F : DFrame K} (hF : F.Ok) {drop : List String} {op : GroupOp K} {T : GroupTable K}
    (h : F.processOver drop op = .ok T) {i : Nat} (hi : i < F.data.length) :
    (∃ row ∈ T.rows, F.InGroup drop (T.metaOf row) i) ↔ F.Complete drop i := by
  refine ⟨?_, fun hc => C62_covered_partial hF h hi hc⟩
  rintro ⟨row, hrow, hin⟩ c hc hd
  obtain ⟨j, _, hj, hrj⟩ := C62_row h hrow
  have hcg : c ∈ T.cols := (C62_columns h c).2 ⟨hc, hd⟩
  have hm := hin c hc hd
  unfold GroupTable.metaOf at hm
  rw [hrj, rowVal_map hcg] at hm
  have hjc := hj c hc hd
  generalize F.metaAt i c = x at hm
  generalize F.metaAt j c = y at hm hjc
  cases hm with
  | missing h1 _ => rcases h1 with h1 | h1 <;> simp [h1] at hjc
  | equal => exact hjc
  | intFloat => simp
  | floatInt => simp

example : ∃ T, groupF.processOver ["scenario"] .mean = .ok T ∧ groupF.Ok ∧ groupF.data.length = 4 ∧
    groupF.Complete ["scenario"] 1 :=
  ⟨_, rfl, ⟨by decide +kernel, by decide +kernel, by decide +kernel, by decide +kernel, by decide +kernel⟩, rfl,
    by unfold DFrame.Complete; decide +kernel⟩

end Openscm
