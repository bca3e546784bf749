import Verif.TimeLemmas
import Mathlib.Algebra.BigOperators.Intervals
import Mathlib.Algebra.Order.Field.Rat
import Mathlib.Tactic.NormNum
import Mathlib.Order.Interval.Finset.Nat

/-!
# C22-C28: timeseries conversion

`convertNum ty ext src tgt vs` is what `TimeseriesConverter(src, tgt, ty, LINEAR, ext)
.convert_from(vs)` returns for an array `vs` without NaN.
"Strictly increasing" is `List.Pairwise (· < ·)`.
-/

set_option linter.unusedSectionVars false

namespace Openscm
variable {K : Type} [Field K] [LinearOrder K] [IsStrictOrderedRing K]

theorem getD_of_lt {l : List K} {i : Nat} (h : i < l.length) : l.getD i 0 = l[i] := by
  simp [h]

/-! ## C22: same time points -/

theorem zip_inc {src vs : List K} (hl : src.length = vs.length) (hsrc : src.Pairwise (· < ·)) :
    Inc (src.zip vs) := by
  unfold Inc; rw [zip_map_fst hl]; exact hsrc

/-- C22 for point timeseries. -/
theorem C22_point_identity (ext : Extrap) (src vs : List K) (h3 : 3 ≤ vs.length)
    (hl : src.length = vs.length) (hsrc : src.Pairwise (· < ·)) :
    convertNum .point ext src src vs = .ok (vs.map .num) := by
  have hi := zip_inc hl hsrc
  rw [convertNum_point h3 hl hsrc, evalAll_of (ys := vs) hl.symm ?_]
  · rfl
  · intro i hi'
    have hm := mem_zip_getElem hl i hi'
    have e := interp_knot hi hm (by rw [List.length_zip]; omega)
    rw [evalAt_inside (hi.firstX_le hm) (hi.le_lastX hm), e]

/-- C22 for average timeseries: `src` has one more point than there are averages. -/
theorem C22_average_identity (ext : Extrap) (src vs : List K) (h3 : 3 ≤ vs.length)
    (hl : src.length = vs.length + 1) (hsrc : src.Pairwise (· < ·)) :
    convertNum .average ext src src vs = .ok (vs.map .num) := by
  have hb : Bal src (avgKnots src vs) vs := bal_lin hsrc hl (by omega)
  rw [convertNum_average h3 hl hsrc, intervalAverages_of (r := vs.map .num) (by simp; omega) ?_]
  · rfl
  · intro i hi'
    obtain ⟨e1, m1⟩ := hb.mem _ (List.getElem_mem (by omega : i < src.length))
    obtain ⟨e2, m2⟩ := hb.mem _ (List.getElem_mem hi')
    have hlt : src[i] < src[i + 1] := List.pairwise_iff_getElem.1 hsrc i (i + 1) _ _ (by omega)
    have hne : src[i + 1] - src[i] ≠ 0 := (sub_pos.2 hlt).ne'
    have p1 := hb.prim_edge i (by omega)
    have p2 := hb.prim_edge (i + 1) hi'
    have hs := periodSum_take_succ src vs i hi' (by omega)
    unfold intervalAverage
    rw [quad_inside (hb.inc.firstX_le m1) (hb.inc.le_lastX m1) (hb.inc.firstX_le m2)
      (hb.inc.le_lastX m2)]
    simp only [hlt.ne', if_false, List.getElem_map]
    rw [p1, p2, hs, add_sub_cancel_left, mul_div_assoc, div_self hne, mul_one]

/-- C22 as seen through a converter object whose two grids are equal (both directions). -/
theorem C22_converter_identity (c : TSConv K) (vs : List K) (h3 : 3 ≤ vs.length)
    (heq : c.source = c.target) (hty : c.ty = .point ∨ c.ty = .average)
    (hl : c.targetLength = vs.length) (hsrc : c.target.Pairwise (· < ·)) :
    c.convertFrom (vs.map .num) = .ok (vs.map .num) ∧
    c.convertTo (vs.map .num) = .ok (vs.map .num) := by
  unfold TSConv.convertFrom TSConv.convertTo convert
  simp only [Fl.allNum_map_num, heq]
  unfold TSConv.targetLength pointsLength at hl
  rcases hty with h | h <;> rw [h] at hl ⊢
  · exact ⟨C22_point_identity _ _ _ h3 hl hsrc, C22_point_identity _ _ _ h3 hl hsrc⟩
  · have hl' : c.target.length = vs.length + 1 := by
      simp only at hl; omega
    exact ⟨C22_average_identity _ _ _ h3 hl' hsrc, C22_average_identity _ _ _ h3 hl' hsrc⟩

example : convertNum .average .none [0, 1, 3, 7, (8 : ℚ)] [0, 1, 3, 7, 8] [5, -2, 8, 1]
    = .ok [.num 5, .num (-2), .num 8, .num 1] :=
  C22_average_identity _ _ _ (by simp) (by simp) (by
    rw [← strictInc_iff]; norm_num [strictInc])

/-! ## C23: means and totals are preserved -/

/-- C23: over each source period the continuous representation integrates to value * length. -/
theorem C23_period_mean (ext : Extrap) (src vs : List K) (h3 : 3 ≤ vs.length)
    (hl : src.length = vs.length + 1) (hsrc : src.Pairwise (· < ·)) (i : Nat)
    (hi : i < vs.length) :
    quad ext (vs.headD 0) (vs.getLastD 0) (avgKnots src vs) (src[i]'(by omega))
      (src[i + 1]'(by omega)) = .ok (vs[i] * (src[i + 1]'(by omega) - src[i]'(by omega))) := by
  have hb : Bal src (avgKnots src vs) vs := bal_lin hsrc hl (by omega)
  obtain ⟨e1, m1⟩ := hb.mem _ (List.getElem_mem (by omega : i < src.length))
  obtain ⟨e2, m2⟩ := hb.mem _ (List.getElem_mem (by omega : i + 1 < src.length))
  rw [quad_inside (hb.inc.firstX_le m1) (hb.inc.le_lastX m1) (hb.inc.firstX_le m2)
      (hb.inc.le_lastX m2), hb.prim_edge i, hb.prim_edge (i + 1),
      periodSum_take_succ src vs i (by omega) hi, add_sub_cancel_left]

/-- Total over a grid, as a plain sum (specification). -/
def total (ts vs : List K) (a b : Nat) : K :=
  ∑ i ∈ Finset.Ico a b, vs.getD i 0 * (ts.getD (i + 1) 0 - ts.getD i 0)

theorem periodSum_eq_total (ts vs : List K) (i : Nat) (h1 : i < ts.length) (h2 : i ≤ vs.length) :
    periodSum (ts.take (i + 1)) (vs.take i) = total ts vs 0 i := by
  induction i with
  | zero => cases ts <;> simp [total, periodSum]
  | succ i ih =>
    rw [periodSum_take_succ ts vs i h1 (by omega), ih (by omega) (by omega)]
    unfold total
    rw [Finset.sum_Ico_succ_top (by omega)]
    rw [getD_of_lt (by omega : i < vs.length),
      getD_of_lt (by omega : i + 1 < ts.length),
      getD_of_lt (by omega : i < ts.length)]

/-- Telescoping: averages over consecutive intervals, weighted, add up to the integral. -/
theorem intervalAverages_telescope {ext : Extrap} {lo hi : K} {k : List (K × K)} {tgt : List K}
    {ys : List K} (h : intervalAverages ext lo hi k tgt = .ok (ys.map .num)) (n : Nat)
    (hn : n < tgt.length) (hn2 : 2 ≤ tgt.length) :
    ∃ A B, primAt ext lo hi k (tgt[0]'(by omega)) = .ok A ∧ primAt ext lo hi k tgt[n] = .ok B ∧
      total tgt ys 0 n = B - A := by
  have hlen := intervalAverages_length h
  rw [List.length_map] at hlen
  induction n with
  | zero =>
    have h0 := intervalAverages_getElem h 0 (by omega)
    unfold intervalAverage quad at h0
    cases hA : primAt ext lo hi k (tgt[0]'(by omega)) with
    | error e => rw [hA] at h0; simp at h0
    | ok A => exact ⟨A, A, rfl, rfl, by simp [total]⟩
  | succ n ih =>
    obtain ⟨A, B, hA, hB, ht⟩ := ih (by omega)
    have h0 := intervalAverages_getElem h n hn
    unfold intervalAverage quad at h0
    rw [hB] at h0
    cases hC : primAt ext lo hi k tgt[n + 1] with
    | error e => rw [hC] at h0; simp at h0
    | ok C =>
      rw [hC] at h0
      simp only [List.getElem_map] at h0
      by_cases hd : tgt[n + 1] = tgt[n]
      · rw [if_pos hd] at h0; injection h0 with h0; cases h0
      · rw [if_neg hd] at h0
        injection h0 with h0
        injection h0 with h0
        refine ⟨A, C, hA, rfl, ?_⟩
        have hne : tgt[n + 1] - tgt[n] ≠ 0 := sub_ne_zero.2 hd
        unfold total at ht ⊢
        rw [Finset.sum_Ico_succ_top (by omega), ht,
          getD_of_lt (by omega : n < ys.length),
          getD_of_lt (by omega : n + 1 < tgt.length),
          getD_of_lt (by omega : n < tgt.length), ← h0]
        field_simp; ring

/-- C23: whatever the target grid looks like in between, if it starts at source edge `a` and ends
at source edge `b`, the total (sum of average times interval length) is preserved. -/
theorem C23_total_preserved (ext : Extrap) (src tgt vs ys : List K) (h3 : 3 ≤ vs.length)
    (hl : src.length = vs.length + 1) (hsrc : src.Pairwise (· < ·))
    (h : convertNum .average ext src tgt vs = .ok (ys.map .num)) (ht : 2 ≤ tgt.length)
    (a b : Nat) (ha : a ≤ b) (hb : b ≤ vs.length)
    (hfirst : tgt[0]'(by omega) = src[a]'(by omega))
    (hlast : tgt[tgt.length - 1]'(by omega) = src[b]'(by omega)) :
    total tgt ys 0 (tgt.length - 1) = total src vs a b := by
  have hbal : Bal src (avgKnots src vs) vs := bal_lin hsrc hl (by omega)
  rw [convertNum_average h3 hl hsrc] at h
  have h' : intervalAverages ext (vs.headD 0) (vs.getLastD 0) (avgKnots src vs) tgt
      = .ok (ys.map .num) := by
    revert h
    cases intervalAverages ext (vs.headD 0) (vs.getLastD 0) (avgKnots src vs) tgt <;>
      simp [toInsufficient]
  obtain ⟨A, B, hA, hB, htot⟩ := intervalAverages_telescope h' (tgt.length - 1) (by omega) ht
  obtain ⟨e1, m1⟩ := hbal.mem _ (List.getElem_mem (by omega : a < src.length))
  obtain ⟨e2, m2⟩ := hbal.mem _ (List.getElem_mem (by omega : b < src.length))
  rw [hfirst, primAt_inside (hbal.inc.firstX_le m1) (hbal.inc.le_lastX m1)] at hA
  rw [hlast, primAt_inside (hbal.inc.firstX_le m2) (hbal.inc.le_lastX m2)] at hB
  injection hA with hA; injection hB with hB
  rw [htot, ← hA, ← hB, hbal.prim_edge a, hbal.prim_edge b,
    periodSum_eq_total src vs a (by omega) (by omega),
    periodSum_eq_total src vs b (by omega) (by omega)]
  unfold total
  rw [Finset.sum_Ico_eq_sub _ ha]
  simp only [Finset.range_eq_Ico]

/-! ## C24: point interpolation -/

theorem zip_split {src vs : List K} (hl : src.length = vs.length) (i : Nat)
    (hi : i + 1 < src.length) :
    src.zip vs = (src.zip vs).take i ++ (src[i], vs[i]'(by omega)) ::
      (src[i + 1], vs[i + 1]'(by omega)) :: (src.zip vs).drop (i + 2) := by
  have hz : (src.zip vs).length = src.length := by rw [List.length_zip]; omega
  have h1 : i < (src.zip vs).length := by omega
  have h2 : i + 1 < (src.zip vs).length := by omega
  have e1 : (src.zip vs)[i] = (src[i], vs[i]'(by omega)) := by simp
  have e2 : (src.zip vs)[i + 1] = (src[i + 1], vs[i + 1]'(by omega)) := by simp
  rw [← e1, ← e2, ← List.drop_eq_getElem_cons h2, ← List.drop_eq_getElem_cons h1,
    List.take_append_drop]

theorem convertNum_point_ok {ext : Extrap} {src tgt vs : List K} {r : List (Fl K)}
    (h3 : 3 ≤ vs.length) (hl : src.length = vs.length) (hsrc : src.Pairwise (· < ·))
    (h : convertNum .point ext src tgt vs = .ok r) :
    evalAll ext (vs.headD 0) (vs.getLastD 0) (src.zip vs) tgt = .ok r := by
  rw [convertNum_point h3 hl hsrc] at h
  revert h
  cases evalAll ext (vs.headD 0) (vs.getLastD 0) (src.zip vs) tgt <;> simp [toInsufficient]

theorem convertNum_average_ok {ext : Extrap} {src tgt vs : List K} {r : List (Fl K)}
    (h3 : 3 ≤ vs.length) (hl : src.length = vs.length + 1) (hsrc : src.Pairwise (· < ·))
    (h : convertNum .average ext src tgt vs = .ok r) :
    intervalAverages ext (vs.headD 0) (vs.getLastD 0) (avgKnots src vs) tgt = .ok r := by
  rw [convertNum_average h3 hl hsrc] at h
  revert h
  cases intervalAverages ext (vs.headD 0) (vs.getLastD 0) (avgKnots src vs) tgt <;>
    simp [toInsufficient]

/-- C24: between two neighbouring source times the result is on the straight line between the two
source values. -/
theorem C24_segment (ext : Extrap) (src tgt vs : List K) (r : List (Fl K)) (h3 : 3 ≤ vs.length)
    (hl : src.length = vs.length) (hsrc : src.Pairwise (· < ·))
    (h : convertNum .point ext src tgt vs = .ok r) (i j : Nat) (hi : i + 1 < src.length)
    (hj : j < tgt.length) (h1 : src[i] ≤ tgt[j]) (h2 : tgt[j] ≤ src[i + 1]) :
    r[j]? = some (.num (vs[i] + (vs[i + 1] - vs[i]) * ((tgt[j] - src[i]) /
      (src[i + 1] - src[i])))) := by
  have hinc := zip_inc hl hsrc
  have h' := convertNum_point_ok h3 hl hsrc h
  obtain ⟨y, hy, hr⟩ := evalAll_getElem h' j hj
  have m1 := mem_zip_getElem hl i (by omega)
  have m2 := mem_zip_getElem hl (i + 1) hi
  rw [evalAt_inside (le_trans (hinc.firstX_le m1) h1) (le_trans h2 (hinc.le_lastX m2))] at hy
  have hs := zip_split hl i hi
  have hseg := interp_segment (pre := (src.zip vs).take i) (post := (src.zip vs).drop (i + 2))
    (p := (src[i], vs[i])) (q := (src[i + 1], vs[i + 1])) (x := tgt[j])
    (by rw [← hs]; exact hinc) h1 h2
  rw [← hs] at hseg
  rw [hseg] at hy
  injection hy with hy
  rw [List.getElem?_eq_getElem (by rw [evalAll_length h']; exact hj), hr, ← hy]
  simp only [line]
  congr 2
  rw [div_mul_eq_mul_div, mul_div_assoc]; ring

/-- C24: a source time among the targets gets the source value. -/
theorem C24_knot (ext : Extrap) (src tgt vs : List K) (r : List (Fl K)) (h3 : 3 ≤ vs.length)
    (hl : src.length = vs.length) (hsrc : src.Pairwise (· < ·))
    (h : convertNum .point ext src tgt vs = .ok r) (i j : Nat) (hi : i < src.length)
    (hj : j < tgt.length) (he : tgt[j] = src[i]) : r[j]? = some (.num vs[i]) := by
  have hinc := zip_inc hl hsrc
  have h' := convertNum_point_ok h3 hl hsrc h
  obtain ⟨y, hy, hr⟩ := evalAll_getElem h' j hj
  have m1 := mem_zip_getElem hl i hi
  have e := interp_knot hinc m1 (by rw [List.length_zip]; omega)
  rw [he, evalAt_inside (hinc.firstX_le m1) (hinc.le_lastX m1), e] at hy
  injection hy with hy
  rw [List.getElem?_eq_getElem (by rw [evalAll_length h']; exact hj), hr, ← hy]

/-- C24: the interpolated value lies between its two neighbours. -/
theorem C24_between (ext : Extrap) (src tgt vs : List K) (r : List (Fl K)) (h3 : 3 ≤ vs.length)
    (hl : src.length = vs.length) (hsrc : src.Pairwise (· < ·))
    (h : convertNum .point ext src tgt vs = .ok r) (i j : Nat) (hi : i + 1 < src.length)
    (hj : j < tgt.length) (h1 : src[i] ≤ tgt[j]) (h2 : tgt[j] ≤ src[i + 1]) :
    ∃ y, r[j]? = some (.num y) ∧ min vs[i] vs[i + 1] ≤ y ∧ y ≤ max vs[i] vs[i + 1] := by
  refine ⟨_, C24_segment ext src tgt vs r h3 hl hsrc h i j hi hj h1 h2, ?_⟩
  have hlt : src[i] < src[i + 1] := List.pairwise_iff_getElem.1 hsrc i (i + 1) _ _ (by omega)
  have hpos : 0 < src[i + 1] - src[i] := sub_pos.2 hlt
  have w0 : 0 ≤ (tgt[j] - src[i]) / (src[i + 1] - src[i]) :=
    div_nonneg (sub_nonneg.2 h1) hpos.le
  have w1 : (tgt[j] - src[i]) / (src[i + 1] - src[i]) ≤ 1 := by
    rw [div_le_one hpos]; linarith
  generalize (tgt[j] - src[i]) / (src[i + 1] - src[i]) = w at *
  rcases le_total vs[i] vs[i + 1] with hv | hv
  · rw [min_eq_left hv, max_eq_right hv]
    constructor <;> nlinarith
  · rw [min_eq_right hv, max_eq_left hv]
    constructor <;> nlinarith

/-- The hypotheses are met by a real interpolation. -/
example : ∃ r, convertNum .point .none [0, 1, (3 : ℚ)] [1 / 2, 2] [0, 10, 30] = .ok r ∧
    r[0]? = some (.num 5) := by
  have hsrc : [0, 1, (3 : ℚ)].Pairwise (· < ·) := by rw [← strictInc_iff]; norm_num [strictInc]
  have hr : convertNum .point .none [0, 1, (3 : ℚ)] [1 / 2, 2] [0, 10, 30]
      = .ok [.num 5, .num 20] := by
    rw [convertNum_point (by simp) (by simp) hsrc]
    norm_num [toInsufficient, evalAll, evalAt, firstX, lastX, interp, line]
  refine ⟨_, hr, ?_⟩
  have := C24_segment .none _ _ _ _ (by simp) (by simp) hsrc hr 0 0 (by simp) (by simp)
    (by norm_num) (by norm_num)
  rw [this]; norm_num

/-! ## C26: extrapolation -/

theorem evalAll_error_iff {ext : Extrap} {lo hi : K} {k : List (K × K)} {tgt : List K} :
    (∃ e, evalAll ext lo hi k tgt = .error e) ↔ ∃ x ∈ tgt, ∃ e, evalAt ext lo hi k x = .error e := by
  induction tgt with
  | nil => simp [evalAll]
  | cons x tgt ih =>
    simp only [evalAll, List.mem_cons, exists_eq_or_imp, ← ih]
    cases evalAt ext lo hi k x with
    | error e => simp
    | ok y => cases evalAll ext lo hi k tgt <;> simp

theorem firstX_zip {src vs : List K} (hl : src.length = vs.length) (h : 0 < src.length) :
    firstX (src.zip vs) = src[0] := by
  unfold firstX; rw [zip_map_fst hl]
  match src, h with
  | a :: l, _ => rfl

theorem lastX_zip {src vs : List K} (hl : src.length = vs.length) (h : 0 < src.length) :
    lastX (src.zip vs) = src[src.length - 1] := by
  unfold lastX; rw [zip_map_fst hl]
  rw [List.getLastD_eq_getLast?, List.getLast?_eq_getElem?,
    List.getElem?_eq_getElem (by omega), Option.getD_some]

/-- C26: with extrapolation `none` a point conversion fails exactly when a target time lies
outside the source range, and then with `InsufficientDataError`. -/
theorem C26_none_error_iff (src tgt vs : List K) (h3 : 3 ≤ vs.length)
    (hl : src.length = vs.length) (hsrc : src.Pairwise (· < ·)) :
    convertNum .point .none src tgt vs = .error .insufficientData ↔
      ∃ x ∈ tgt, x < src[0] ∨ src[src.length - 1] < x := by
  rw [convertNum_point h3 hl hsrc]
  have : (toInsufficient (evalAll .none (vs.headD 0) (vs.getLastD 0) (src.zip vs) tgt)
      = .error .insufficientData) ↔
      ∃ e, evalAll .none (vs.headD 0) (vs.getLastD 0) (src.zip vs) tgt = .error e := by
    cases evalAll .none (vs.headD 0) (vs.getLastD 0) (src.zip vs) tgt <;> simp [toInsufficient]
  rw [this, evalAll_error_iff]
  simp only [evalAt, firstX_zip hl (by omega), lastX_zip hl (by omega)]
  constructor
  · rintro ⟨x, hx, e, he⟩
    refine ⟨x, hx, ?_⟩
    by_contra hc
    rw [if_neg hc] at he; cases he
  · rintro ⟨x, hx, hc⟩
    exact ⟨x, hx, .valueError, by rw [if_pos hc]⟩

/-- C26: with any other extrapolation type a point conversion never fails. -/
theorem C26_extrapolation_never_fails (ext : Extrap) (hext : ext ≠ .none) (src tgt vs : List K)
    (h3 : 3 ≤ vs.length) (hl : src.length = vs.length) (hsrc : src.Pairwise (· < ·)) :
    ∃ ys : List K, convertNum .point ext src tgt vs = .ok (ys.map .num) ∧ ys.length = tgt.length := by
  rw [convertNum_point h3 hl hsrc]
  induction tgt with
  | nil => exact ⟨[], by simp [evalAll, toInsufficient]⟩
  | cons x tgt ih =>
    obtain ⟨ys, h, hlen⟩ := ih
    have h' : evalAll ext (vs.headD 0) (vs.getLastD 0) (src.zip vs) tgt = .ok (ys.map .num) := by
      revert h
      cases evalAll ext (vs.headD 0) (vs.getLastD 0) (src.zip vs) tgt <;> simp [toInsufficient]
    have : ∃ y, evalAt ext (vs.headD 0) (vs.getLastD 0) (src.zip vs) x = .ok y := by
      cases ext with
      | none => exact absurd rfl hext
      | constant =>
        simp only [evalAt]; split_ifs <;> exact ⟨_, rfl⟩
      | linear => exact ⟨_, rfl⟩
    obtain ⟨y, hy⟩ := this
    exact ⟨y :: ys, by simp only [evalAll, hy, h', toInsufficient, List.map_cons],
      by simp [hlen]⟩

/-- C26: constant extrapolation repeats the first value before the range and the last value after
it. -/
theorem C26_constant (src tgt vs : List K) (r : List (Fl K)) (h3 : 3 ≤ vs.length)
    (hl : src.length = vs.length) (hsrc : src.Pairwise (· < ·))
    (h : convertNum .point .constant src tgt vs = .ok r) (j : Nat) (hj : j < tgt.length) :
    (tgt[j] < src[0] → r[j]? = some (.num vs[0])) ∧
    (src[src.length - 1] < tgt[j] → r[j]? = some (.num vs[vs.length - 1])) := by
  have h' := convertNum_point_ok h3 hl hsrc h
  obtain ⟨y, hy, hr⟩ := evalAll_getElem h' j hj
  rw [List.getElem?_eq_getElem (by rw [evalAll_length h']; exact hj), hr]
  simp only [evalAt, firstX_zip hl (by omega), lastX_zip hl (by omega)] at hy
  have hlo : vs.headD 0 = vs[0] := by
    match vs, h3 with
    | a :: l, _ => rfl
  have hhi : vs.getLastD 0 = vs[vs.length - 1] := by
    rw [List.getLastD_eq_getLast?, List.getLast?_eq_getElem?,
      List.getElem?_eq_getElem (by omega), Option.getD_some]
  have hle : src[0] ≤ src[src.length - 1] := by
    by_cases h0 : src.length - 1 = 0
    · omega
    · exact (List.pairwise_iff_getElem.1 hsrc 0 (src.length - 1) _ _ (by omega)).le
  constructor
  · intro hlt
    rw [if_pos hlt] at hy
    injection hy with hy
    rw [← hy, hlo]
  · intro hlt
    rw [if_neg (not_lt.2 (le_trans hle hlt.le)), if_pos hlt] at hy
    injection hy with hy
    rw [← hy, hhi]

theorem interp_last {pre : List (K × K)} {p q : K × K} {x : K} (hi : Inc (pre ++ [p, q]))
    (h : p.1 ≤ x) : interp (pre ++ [p, q]) x = line p q x := by
  induction pre with
  | nil => rfl
  | cons a pre ih =>
    cases hpre : pre with
    | nil =>
      subst hpre
      simp only [List.cons_append, List.nil_append] at *
      rw [interp_tail hi (by simp) h]; rfl
    | cons b pre' =>
      subst hpre
      have hb : b.1 ≤ p.1 := (Inc.lt (Inc.tail hi) (by simp)).le
      have := ih (Inc.tail hi)
      simp only [List.cons_append] at *
      rw [interp_tail hi (by simp) (le_trans hb h), this]

/-- C26: linear extrapolation continues the first and the last segment. -/
theorem C26_linear (src tgt vs : List K) (r : List (Fl K)) (h3 : 3 ≤ vs.length)
    (hl : src.length = vs.length) (hsrc : src.Pairwise (· < ·))
    (h : convertNum .point .linear src tgt vs = .ok r) (j : Nat) (hj : j < tgt.length) :
    (tgt[j] ≤ src[1] → r[j]? = some (.num (vs[0] + (vs[1] - vs[0]) *
      ((tgt[j] - src[0]) / (src[1] - src[0]))))) ∧
    (src[src.length - 2] ≤ tgt[j] →
      r[j]? = some (.num (vs[vs.length - 2] + (vs[vs.length - 1] - vs[vs.length - 2]) *
        ((tgt[j] - src[src.length - 2]) / (src[src.length - 1] - src[src.length - 2]))))) := by
  have hinc := zip_inc hl hsrc
  have h' := convertNum_point_ok h3 hl hsrc h
  obtain ⟨y, hy, hr⟩ := evalAll_getElem h' j hj
  rw [List.getElem?_eq_getElem (by rw [evalAll_length h']; exact hj), hr]
  simp only [evalAt] at hy
  injection hy with hy
  constructor
  · intro hle
    have hs := zip_split hl 0 (by omega)
    rw [hs] at hy
    simp only [List.take_zero, List.nil_append] at hy
    rw [interp_first hle] at hy
    rw [← hy]
    simp only [line]
    congr 2
    rw [div_mul_eq_mul_div, mul_div_assoc]; ring
  · intro hle
    have hs := zip_split hl (src.length - 2) (by omega)
    have hz : (src.zip vs).length = src.length := by rw [List.length_zip]; omega
    rw [List.drop_eq_nil_of_le (by omega)] at hs
    rw [hs] at hy
    rw [interp_last (by rw [← hs]; exact hinc) hle] at hy
    rw [← hy]
    have e1 : src.length - 2 + 1 = src.length - 1 := by omega
    simp only [line, e1]
    congr 2
    simp only [hl]
    rw [div_mul_eq_mul_div, mul_div_assoc]; ring

/-! ## C27: lengths and short data -/

/-- C27: fewer than three values are refused (for every type, grid and extrapolation). -/
theorem C27_short (ty : PType) (ext : Extrap) (src tgt : List K) (vals : List (Fl K))
    (h : vals.length < 3) : convert ty ext src tgt vals = .error .insufficientData := by
  unfold convert
  split
  · rename_i vs hvs
    rw [Fl.allNum_eq_some] at hvs
    subst hvs
    unfold convertNum
    rw [if_pos (by simpa using h)]
  · unfold convertNum
    rw [if_pos (by simpa using h)]

/-- C27: a number of values that does not fit the time points is refused. -/
theorem C27_misfit (ty : PType) (hty : ty = .point ∨ ty = .average) (ext : Extrap)
    (src tgt : List K) (vals : List (Fl K))
    (h : vals.length ≠ pointsLength ty src) :
    convert ty ext src tgt vals = .error .insufficientData := by
  have key : ∀ vs : List K, vs.length = vals.length →
      convertNum ty ext src tgt vs = .error .insufficientData := by
    intro vs hvs
    unfold convertNum
    split
    · rfl
    · unfold pointsLength at h
      rcases hty with rfl | rfl
      · simp only at h ⊢
        rw [if_pos (by omega)]
      · simp only at h ⊢
        rw [if_pos (by omega)]
  unfold convert
  split
  · rename_i vs hvs
    rw [Fl.allNum_eq_some] at hvs
    exact key vs (by rw [hvs]; simp)
  · rw [key _ (by simp)]

theorem convertNum_length {ty : PType} {ext : Extrap} {src tgt vs : List K} {r : List (Fl K)}
    (h : convertNum ty ext src tgt vs = .ok r) : r.length = pointsLength ty tgt := by
  unfold convertNum at h
  split at h
  · cases h
  · cases ty with
    | average =>
      simp only at h
      split at h
      · cases h
      · split at h
        · revert h
          cases hh : intervalAverages ext (vs.headD 0) (vs.getLastD 0)
            (sortKnots ((linPoints src).zip (linValues vs))) tgt with
          | error e => simp [toInsufficient]
          | ok r' =>
            intro h
            simp only [toInsufficient] at h
            injection h with h; subst h
            exact intervalAverages_length hh
        · cases h
    | point =>
      simp only at h
      split at h
      · cases h
      · split at h
        · revert h
          cases hh : evalAll ext (vs.headD 0) (vs.getLastD 0) (sortKnots (src.zip vs)) tgt with
          | error e => simp [toInsufficient]
          | ok r' =>
            intro h
            simp only [toInsufficient] at h
            injection h with h; subst h
            exact evalAll_length hh
        · cases h
    | scalar => cases h
    | generic => cases h

theorem gapAverages_length {ext : Extrap} {lo hi : Bool} {k : List (K × Bool)} {tgt : List K} :
    (gapAverages ext lo hi k tgt).length = tgt.length - 1 := by
  induction tgt with
  | nil => rfl
  | cons l tgt ih =>
    cases tgt with
    | nil => rfl
    | cons u tgt => rw [gapAverages, List.length_cons, ih]; rfl

theorem gaps_length {ty : PType} {ext : Extrap} {src tgt : List K} {ms : List Bool} :
    (gaps ty ext src tgt ms).length = pointsLength ty tgt := by
  cases ty with
  | average => exact gapAverages_length
  | _ => exact List.length_map ..

theorem blank_length {gs : List Bool} {r : List (Fl K)} {n : Nat} (h1 : gs.length = n) (h2 : r.length = n) :
    (blank gs r).length = n := by
  unfold blank
  rw [List.length_zipWith, h1, h2, min_self]

/-- C27: a conversion that succeeds returns exactly as many values as the target time points call
for. -/
theorem C27_length (ty : PType) (ext : Extrap) (src tgt : List K) (vals r : List (Fl K))
    (h : convert ty ext src tgt vals = .ok r) : r.length = pointsLength ty tgt := by
  unfold convert at h
  split at h
  · exact convertNum_length h
  · split at h
    · cases h
    · rename_i r' hr'
      injection h with h; subst h
      exact blank_length gaps_length (convertNum_length hr')

/-- C27 for converter objects. -/
theorem C27_converter_length (c : TSConv K) (vals r : List (Fl K)) :
    (c.convertFrom vals = .ok r → r.length = c.targetLength) ∧
    (c.convertTo vals = .ok r → r.length = c.sourceLength) :=
  ⟨C27_length _ _ _ _ _ _, C27_length _ _ _ _ _ _⟩

theorem evalAll_all_num {ext : Extrap} {lo hi : K} {k : List (K × K)} {tgt : List K}
    {r : List (Fl K)} (h : evalAll ext lo hi k tgt = .ok r) : ∃ ys : List K, r = ys.map .num := by
  induction tgt generalizing r with
  | nil => simp [evalAll] at h; exact ⟨[], by simp [h]⟩
  | cons x tgt ih =>
    simp only [evalAll] at h
    split at h
    · cases h
    · rename_i y hy
      split at h
      · cases h
      · rename_i ys hys
        injection h with h
        obtain ⟨zs, hz⟩ := ih hys
        exact ⟨y :: zs, by rw [← h, hz]; rfl⟩

/-- C27: for point series without NaN no NaN appears. -/
theorem C27_point_no_nan (ext : Extrap) (src tgt vs : List K) (r : List (Fl K))
    (h : convertNum .point ext src tgt vs = .ok r) : ∃ ys : List K, r = ys.map .num := by
  unfold convertNum at h
  split at h
  · cases h
  · simp only at h
    split at h
    · cases h
    · split at h
      · revert h
        cases hh : evalAll ext (vs.headD 0) (vs.getLastD 0) (sortKnots (src.zip vs)) tgt with
        | error e => simp [toInsufficient]
        | ok r' =>
          intro h
          simp only [toInsufficient] at h
          injection h with h; subst h
          exact evalAll_all_num hh
      · cases h

end Openscm
