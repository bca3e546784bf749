import Verif.TimeIntegral
import Verif.TimeProps2

/-!
# C75, C76: the range of converted values, and conversions there and back

The converter is `TimeseriesConverter`, `openscm/core/time.py:291-646` (`Time.lean`).
-/

set_option linter.unusedSectionVars false

namespace Openscm

variable {K : Type} [Field K] [LinearOrder K] [IsStrictOrderedRing K]

/-! ## C75: range -/

theorem line_bounds {p q : K × K} {x m M : K} (hp : m ≤ p.2 ∧ p.2 ≤ M) (hq : m ≤ q.2 ∧ q.2 ≤ M)
    (h1 : p.1 ≤ x) (h2 : x ≤ q.1) : m ≤ line p q x ∧ line p q x ≤ M := by
  unfold line
  rcases eq_or_lt_of_le (h1.trans h2) with he | hlt
  · have hx : x = p.1 := le_antisymm (he ▸ h2) h1
    rw [hx]; simpa using hp
  · have hpos : 0 < q.1 - p.1 := sub_pos.2 hlt
    have e : (q.2 - p.2) / (q.1 - p.1) * (x - p.1) + p.2
        = p.2 + (q.2 - p.2) * ((x - p.1) / (q.1 - p.1)) := by ring
    have w0 : 0 ≤ (x - p.1) / (q.1 - p.1) := div_nonneg (sub_nonneg.2 h1) hpos.le
    have w1 : (x - p.1) / (q.1 - p.1) ≤ 1 := by rw [div_le_one hpos]; linarith
    rw [e]
    generalize (x - p.1) / (q.1 - p.1) = w at *
    constructor <;> nlinarith [hp.1, hp.2, hq.1, hq.2, mul_nonneg w0 (sub_nonneg.2 hq.1),
      mul_nonneg w0 (sub_nonneg.2 hq.2), mul_nonneg (sub_nonneg.2 w1) (sub_nonneg.2 hp.1),
      mul_nonneg (sub_nonneg.2 w1) (sub_nonneg.2 hp.2)]

theorem interp_bounds {k : List (K × K)} (hi : Inc k) (h2 : 2 ≤ k.length) {x m M : K}
    (h : ∀ p ∈ k, m ≤ p.2 ∧ p.2 ≤ M) (hx1 : firstX k ≤ x) (hx2 : x ≤ lastX k) :
    m ≤ interp k x ∧ interp k x ≤ M := by
  induction k with
  | nil => simp at h2
  | cons p k ih =>
    cases k with
    | nil => simp at h2
    | cons q k =>
      have hp := h p (by simp)
      have hq := h q (by simp)
      by_cases hxq : x ≤ q.1
      · rw [interp_first hxq]
        exact line_bounds hp hq hx1 hxq
      · rw [not_le] at hxq
        cases k with
        | nil => exact absurd hxq (not_lt.2 hx2)
        | cons r k =>
          have e : interp (p :: q :: r :: k) x = interp (q :: r :: k) x := by
            simp only [interp, if_neg (not_le.2 hxq)]
          rw [e]
          refine ih hi.tail (by simp) (fun p' hp' => h p' (List.mem_cons_of_mem _ hp')) hxq.le ?_
          simpa [lastX] using hx2

theorem evalAt_bounds {ext : Extrap} {lo hi : K} {k : List (K × K)} (hk : Inc k) (h2 : 2 ≤ k.length)
    {x m M y : K} (h : ∀ p ∈ k, m ≤ p.2 ∧ p.2 ≤ M) (hlo : m ≤ lo ∧ lo ≤ M) (hhi : m ≤ hi ∧ hi ≤ M)
    (hext : ext ≠ .linear ∨ firstX k ≤ x ∧ x ≤ lastX k) (hy : evalAt ext lo hi k x = .ok y) :
    m ≤ y ∧ y ≤ M := by
  by_cases hin : firstX k ≤ x ∧ x ≤ lastX k
  · rw [evalAt_inside hin.1 hin.2] at hy
    cases hy
    exact interp_bounds hk h2 h hin.1 hin.2
  · rw [not_and_or, not_le, not_le] at hin
    cases ext with
    | none =>
      simp only [evalAt, if_pos hin] at hy
      cases hy
    | linear =>
      rcases hext with hext | hext
      · exact absurd rfl hext
      · exact absurd hext (by rw [not_and_or, not_le, not_le]; exact hin)
    | constant =>
      rcases hin with hin | hin
      · simp only [evalAt, if_pos hin] at hy
        cases hy
        exact hlo
      · by_cases h1 : x < firstX k
        · simp only [evalAt, if_pos h1] at hy
          cases hy
          exact hlo
        · simp only [evalAt, if_neg h1, if_pos hin] at hy
          cases hy
          exact hhi

theorem headD_mem {vs : List K} (h : vs ≠ []) : vs.headD 0 ∈ vs := by
  cases vs with
  | nil => exact absurd rfl h
  | cons a l => simp

theorem getLastD_mem {vs : List K} (h : vs ≠ []) : vs.getLastD 0 ∈ vs := by
  rw [List.getLastD_eq_getLast?, List.getLast?_eq_getLast_of_ne_nil h, Option.getD_some]
  exact List.getLast_mem h

/-- **C75**: the values of a point timeseries at other times lie between the smallest and the largest
value of the timeseries, unless they are extrapolated linearly. -/
theorem C75_point {ext : Extrap} {src tgt vs : List K} {r : List (Fl K)} (h3 : 3 ≤ vs.length)
    (hl : src.length = vs.length) (hsrc : src.Pairwise (· < ·))
    (h : convertNum .point ext src tgt vs = .ok r) {m M : K} (hv : ∀ v ∈ vs, m ≤ v ∧ v ≤ M)
    {j : Nat} (hj : j < tgt.length)
    (hext : ext ≠ .linear ∨ src[0] ≤ tgt[j] ∧ tgt[j] ≤ src[src.length - 1]) :
    ∃ y, r[j]? = some (.num y) ∧ m ≤ y ∧ y ≤ M := by
  have hinc := zip_inc hl hsrc
  have h' := convertNum_point_ok h3 hl hsrc h
  obtain ⟨y, hy, hr⟩ := evalAll_getElem h' j hj
  have hne : vs ≠ [] := by rintro rfl; simp at h3
  refine ⟨y, by rw [List.getElem?_eq_getElem (by rw [evalAll_length h']; exact hj), hr],
    evalAt_bounds hinc (by rw [List.length_zip]; omega) (fun p hp => ?_) (hv _ (headD_mem hne))
      (hv _ (getLastD_mem hne)) (hext.imp id fun hx => ?_) hy⟩
  · exact hv _ (List.of_mem_zip hp).2
  · rw [firstX_zip hl (by omega), lastX_zip hl (by omega)]
    exact hx

theorem zigTail_bounds {m M : K} {a : K} {l : List K} (ha : m ≤ a ∧ a ≤ M)
    (h : ∀ v ∈ l, m ≤ v ∧ v ≤ M) :
    ∀ y ∈ zigTail a l, m - (M - m) / 2 ≤ y ∧ y ≤ M + (M - m) / 2 := by
  induction l generalizing a with
  | nil => simp [zigTail]
  | cons v l ih =>
    have hv := h v (by simp)
    cases l with
    | nil =>
      intro y hy
      simp only [zigTail, List.mem_cons, List.not_mem_nil, or_false] at hy
      rcases hy with rfl | rfl | rfl <;> constructor <;> linarith [ha.1, ha.2, hv.1, hv.2]
    | cons w r =>
      have hw := h w (by simp)
      intro y hy
      simp only [zigTail, List.mem_cons] at hy
      rcases hy with rfl | rfl | hy
      · constructor <;> linarith [ha.1, ha.2, hv.1, hv.2]
      · constructor <;> linarith [ha.1, ha.2, hv.1, hv.2, hw.1, hw.2]
      · exact ih hv (fun u hu => h u (List.mem_cons_of_mem _ hu)) y hy

theorem linValues_bounds {m M : K} {vs : List K} (h2 : 2 ≤ vs.length) (h : ∀ v ∈ vs, m ≤ v ∧ v ≤ M) :
    ∀ y ∈ linValues vs, m - (M - m) / 2 ≤ y ∧ y ≤ M + (M - m) / 2 := by
  match vs, h2 with
  | a :: b :: r, _ =>
    have ha := h a (by simp)
    have hb := h b (by simp)
    rw [linValues_eq]
    intro y hy
    simp only [List.mem_cons] at hy
    rcases hy with rfl | rfl | hy
    · constructor <;> linarith [ha.1, ha.2, hb.1, hb.2]
    · constructor <;> linarith [ha.1, ha.2, hb.1, hb.2]
    · exact zigTail_bounds ha (fun v hv => h v (List.mem_cons_of_mem _ hv)) y hy

theorem Bal.ends {ts : List K} {k : List (K × K)} {vs : List K} (h : Bal ts k vs) :
    firstX k = ts.headD 0 ∧ lastX k = ts.getLastD 0 := by
  induction h with
  | last t e => exact ⟨rfl, rfl⟩
  | period htu hb hr ih =>
    refine ⟨rfl, ?_⟩
    have := ih.2
    simp only [lastX, List.map_cons, List.getLastD_cons] at this ⊢
    exact this

theorem intervalAverage_bounds {ext : Extrap} {lo hi : K} {k : List (K × K)} (hk : Inc k)
    (h2 : 2 ≤ k.length) {l u m M y : K} (h : ∀ p ∈ k, m ≤ p.2 ∧ p.2 ≤ M) (hlo : m ≤ lo ∧ lo ≤ M)
    (hhi : m ≤ hi ∧ hi ≤ M)
    (hext : ext ≠ .linear ∨ (firstX k ≤ l ∧ l ≤ lastX k) ∧ firstX k ≤ u ∧ u ≤ lastX k)
    (hy : intervalAverage ext lo hi k l u = .ok (.num y)) : m ≤ y ∧ y ≤ M := by
  have hlu : u ≠ l := by
    rintro rfl
    unfold intervalAverage at hy
    split at hy
    · cases hy
    · rw [if_pos rfl] at hy
      cases hy
  have key : ∀ {a b : K}, a < b → (∃ A, quad ext lo hi k a b = .ok A) →
      (ext ≠ .linear ∨ (firstX k ≤ a ∧ a ≤ lastX k) ∧ firstX k ≤ b ∧ b ≤ lastX k) →
      ∃ A, quad ext lo hi k a b = .ok A ∧ m * (b - a) ≤ A ∧ A ≤ M * (b - a) := by
    intro a b hab hq hx
    refine quad_bounds hk h2 hab.le fun z hz1 hz2 => ?_
    have hz : ∃ v, evalAt ext lo hi k z = .ok v := by
      cases ext with
      | linear => exact ⟨_, rfl⟩
      | constant =>
        unfold evalAt
        dsimp only
        split
        · exact ⟨_, rfl⟩
        · split <;> exact ⟨_, rfl⟩
      | none =>
        obtain ⟨A, hA⟩ := hq
        have hin : ∀ {w : K}, (∃ W, primAt .none lo hi k w = .ok W) → firstX k ≤ w ∧ w ≤ lastX k := by
          rintro w ⟨W, hW⟩
          unfold primAt at hW
          dsimp only at hW
          split at hW
          · cases hW
          · rename_i hc
            rw [not_or, not_lt, not_lt] at hc
            exact hc
        unfold quad at hA
        cases h1 : primAt .none lo hi k a with
        | error e => rw [h1] at hA; cases hA
        | ok X =>
          cases h3 : primAt .none lo hi k b with
          | error e => rw [h1, h3] at hA; cases hA
          | ok Y =>
            have i1 := hin ⟨X, h1⟩
            have i2 := hin ⟨Y, h3⟩
            exact ⟨_, evalAt_inside (i1.1.trans hz1) (hz2.trans i2.2)⟩
    obtain ⟨v, hv⟩ := hz
    exact ⟨v, hv, evalAt_bounds hk h2 h hlo hhi (hx.imp id fun hx => ⟨hx.1.1.trans hz1, hz2.trans hx.2.2⟩) hv⟩
  unfold intervalAverage at hy
  cases hq : quad ext lo hi k l u with
  | error e => rw [hq] at hy; cases hy
  | ok A =>
    rw [hq] at hy
    dsimp only at hy
    rw [if_neg hlu] at hy
    injection hy with hy
    injection hy with hy
    subst hy
    rcases lt_or_gt_of_ne hlu.symm with hlt | hgt
    · obtain ⟨A', hA', b1, b2⟩ := key hlt ⟨A, hq⟩ hext
      rw [hq] at hA'
      cases hA'
      have hpos := sub_pos.2 hlt
      exact ⟨(le_div_iff₀ hpos).2 b1, (div_le_iff₀ hpos).2 b2⟩
    · have hq' : quad ext lo hi k u l = .ok (-A) := by
        unfold quad at hq ⊢
        cases h1 : primAt ext lo hi k l with
        | error e => rw [h1] at hq; cases hq
        | ok X =>
          cases h3 : primAt ext lo hi k u with
          | error e => rw [h1, h3] at hq; cases hq
          | ok Y =>
            rw [h1, h3] at hq
            cases hq
            simp
      obtain ⟨A', hA', b1, b2⟩ := key hgt ⟨_, hq'⟩ (hext.imp id And.symm)
      rw [hq'] at hA'
      cases hA'
      have hpos := sub_pos.2 hgt
      have e : A / (u - l) = -A / (l - u) := by rw [← neg_sub, div_neg, neg_div]
      rw [e]
      exact ⟨(le_div_iff₀ hpos).2 b1, (div_le_iff₀ hpos).2 b2⟩

/-- **C75**: the averages over other periods exceed the range of the given averages by at most half
the difference between the largest and the smallest, unless they are extrapolated linearly. -/
theorem C75_average_partial {ext : Extrap} {src tgt vs : List K} {r : List (Fl K)}
    (h3 : 3 ≤ vs.length) (hl : src.length = vs.length + 1) (hsrc : src.Pairwise (· < ·))
    (h : convertNum .average ext src tgt vs = .ok r) {m M : K} (hv : ∀ v ∈ vs, m ≤ v ∧ v ≤ M)
    {j : Nat} (hj : j + 1 < tgt.length) (hne : tgt[j + 1] ≠ tgt[j])
    (hext : ext ≠ .linear ∨ ∀ t ∈ tgt, src[0] ≤ t ∧ t ≤ src[vs.length]) :
    ∃ y, r[j]? = some (.num y) ∧ m - (M - m) / 2 ≤ y ∧ y ≤ M + (M - m) / 2 := by
  have hb : Bal src (avgKnots src vs) vs := bal_lin hsrc hl (by omega)
  have h' := convertNum_average_ok h3 hl hsrc h
  have h0 := intervalAverages_getElem h' j hj
  have hlen := intervalAverages_length h'
  have hvs : vs ≠ [] := by rintro rfl; simp at h3
  have hmM : m ≤ M := (hv _ (headD_mem hvs)).1.trans (hv _ (headD_mem hvs)).2
  have hjr : j < r.length := by omega
  have hnum : ∃ y, r[j] = .num y := by
    cases hr : r[j] with
    | num y => exact ⟨y, rfl⟩
    | nan =>
      rw [hr] at h0
      unfold intervalAverage at h0
      split at h0
      · cases h0
      · rw [if_neg hne] at h0
        cases h0
  obtain ⟨y, hy⟩ := hnum
  rw [hy] at h0
  have hwide : ∀ {v : K}, m ≤ v ∧ v ≤ M → m - (M - m) / 2 ≤ v ∧ v ≤ M + (M - m) / 2 := by
    intro v hv
    constructor <;> linarith [hv.1, hv.2]
  have hlk : 2 ≤ (avgKnots src vs).length := by
    unfold avgKnots
    rw [List.length_zip, length_linValues (by omega)]
    match src, hl with
    | t :: ts, hl => rw [length_linPoints]; simp only [List.length_cons] at hl; omega
  have he := hb.ends
  have e1 : src.headD 0 = src[0] := by
    match src, hl with
    | t :: ts, hl => rfl
  have e2 : src.getLastD 0 = src[vs.length] := by
    rw [List.getLastD_eq_getLast?, List.getLast?_eq_getElem?, List.getElem?_eq_getElem (by omega),
      Option.getD_some]
    congr 1
    omega
  refine ⟨y, by rw [List.getElem?_eq_getElem hjr, hy], ?_⟩
  refine intervalAverage_bounds hb.inc hlk (fun p hp => ?_) (hwide (hv _ (headD_mem hvs)))
    (hwide (hv _ (getLastD_mem hvs))) (hext.imp id fun hx => ?_) h0
  · exact linValues_bounds (by omega) hv _ (List.of_mem_zip hp).2
  · rw [he.1, he.2, e1, e2]
    exact ⟨hx _ (List.getElem_mem _), hx _ (List.getElem_mem _)⟩

/-- **C75** violated for averages: emissions that are never negative become negative when they are
converted to half periods. -/
theorem C75_negative :
    convertNum .average .none [0, 1, 2, (3 : ℚ)] [0, 1 / 2, 1, 2, 3] [0, 4, 0]
      = .ok [.num (-1), .num 1, .num 4, .num 0] := by
  decide +kernel

/-- The bound on the excess is the best possible: for short target periods the average comes as
close to it as you like. -/
theorem C75_sharp (d : ℚ) (h0 : 0 < d) (h1 : d ≤ 1 / 2) :
    convertNum .average .none [0, 1, 2, (3 : ℚ)] [0, d, 3] [0, 1, 0]
      = .ok [.num (-1 / 2 + d / 2), .num ((1 / 2 + 1 / 2 - (-d / 2 + d ^ 2 / 2)) / (3 - d))] := by
  have hsrc : [0, 1, 2, (3 : ℚ)].Pairwise (· < ·) := by
    rw [← strictInc_iff]; norm_num [strictInc]
  rw [convertNum_average (by simp) (by simp) hsrc]
  have hk : avgKnots [0, 1, 2, (3 : ℚ)] [0, 1, 0]
      = [(0, -1 / 2), (1 / 2, 0), (1, 1 / 2), (3 / 2, 3 / 2), (2, 1 / 2), (5 / 2, 0), (3, -1 / 2)] := by
    decide +kernel
  rw [hk]
  have hd : prim [((0 : ℚ), (-1 / 2 : ℚ)), (1 / 2, 0), (1, 1 / 2), (3 / 2, 3 / 2), (2, 1 / 2),
      (5 / 2, 0), (3, -1 / 2)] d = -d / 2 + d ^ 2 / 2 := by
    rw [prim_first h1]
    simp only [lineArea]
    ring
  have h3 : prim [((0 : ℚ), (-1 / 2 : ℚ)), (1 / 2, 0), (1, 1 / 2), (3 / 2, 3 / 2), (2, 1 / 2),
      (5 / 2, 0), (3, -1 / 2)] 3 = 1 := by decide +kernel
  have hz : prim [((0 : ℚ), (-1 / 2 : ℚ)), (1 / 2, 0), (1, 1 / 2), (3 / 2, 3 / 2), (2, 1 / 2),
      (5 / 2, 0), (3, -1 / 2)] 0 = 0 := by decide +kernel
  have hf : firstX [((0 : ℚ), (-1 / 2 : ℚ)), (1 / 2, 0), (1, 1 / 2), (3 / 2, 3 / 2), (2, 1 / 2),
      (5 / 2, 0), (3, -1 / 2)] = 0 := rfl
  have hla : lastX [((0 : ℚ), (-1 / 2 : ℚ)), (1 / 2, 0), (1, 1 / 2), (3 / 2, 3 / 2), (2, 1 / 2),
      (5 / 2, 0), (3, -1 / 2)] = 3 := rfl
  generalize ([((0 : ℚ), (-1 / 2 : ℚ)), (1 / 2, 0), (1, 1 / 2), (3 / 2, 3 / 2), (2, 1 / 2),
      (5 / 2, 0), (3, -1 / 2)] : List (ℚ × ℚ)) = k at *
  have q1 : quad .none (List.headD [0, 1, 0] 0) (List.getLastD [0, 1, 0] 0) k 0 d
      = .ok (-d / 2 + d ^ 2 / 2) := by
    rw [quad_inside (by rw [hf]) (by rw [hla]; norm_num) (by rw [hf]; linarith) (by rw [hla]; linarith),
      hd, hz, sub_zero]
  have q2 : quad .none (List.headD [0, 1, 0] 0) (List.getLastD [0, 1, 0] 0) k d 3
      = .ok (1 - (-d / 2 + d ^ 2 / 2)) := by
    rw [quad_inside (by rw [hf]; linarith) (by rw [hla]; linarith) (by rw [hf]; norm_num) (by rw [hla]),
      hd, h3]
  have hd0 : d ≠ 0 := h0.ne'
  have hd3 : (3 : ℚ) ≠ d := by linarith
  simp only [intervalAverages, intervalAverage, q1, q2, if_neg hd0, if_neg hd3, toInsufficient]
  congr 3
  · field_simp
    ring
  · norm_num

/-- **C75** does not hold for linear extrapolation, nor is it meant to. -/
theorem C75_linear : convertNum .point .linear [0, 1, (2 : ℚ)] [-1, 3] [0, 1, 2]
    = .ok [.num (-1), .num 3] := by
  decide +kernel

/-- The hypotheses of `C75_point` and `C75_average_partial` met. -/
example : convertNum .point .constant [0, 1, (2 : ℚ)] [-1, 1 / 2, 3] [5, 1, 3]
      = .ok [.num 5, .num 3, .num 3] ∧
    convertNum .average .constant [0, 1, 2, (3 : ℚ)] [-1, 1, 5] [5, 1, 3]
      = .ok [.num 5, .num (5 / 2)] := by
  decide +kernel

/-! ## C76: there and back -/

theorem length_le_of_subset {a b : List K} (ha : a.Pairwise (· < ·)) (h : ∀ t ∈ a, t ∈ b) :
    a.length ≤ b.length := by
  have hn : a.Nodup := ha.imp fun h => h.ne
  exact (List.subperm_of_subset hn h).length_le

/-- **C76**: a point timeseries converted to time points that include its own, and back, is what it
was. -/
theorem C76_point {ext ext' : Extrap} {src tgt vs : List K} {r : List (Fl K)} (h3 : 3 ≤ vs.length)
    (hl : src.length = vs.length) (hsrc : src.Pairwise (· < ·)) (htgt : tgt.Pairwise (· < ·))
    (hsub : ∀ t ∈ src, t ∈ tgt) (h : convertNum .point ext src tgt vs = .ok r) :
    ∃ ys, r = ys.map .num ∧ convertNum .point ext' tgt src ys = .ok (vs.map .num) := by
  obtain ⟨ys, rfl⟩ := C27_point_no_nan _ _ _ _ _ h
  have hlen : ys.length = tgt.length := by
    have := convertNum_length h
    simpa [pointsLength] using this
  have hle := length_le_of_subset hsrc hsub
  refine ⟨ys, rfl, ?_⟩
  have hi := zip_inc hlen.symm htgt
  rw [convertNum_point (by omega) hlen.symm htgt, evalAll_of (ys := vs) hl.symm ?_]
  · rfl
  · intro i hi'
    obtain ⟨j, hj, hjt⟩ := List.getElem_of_mem (hsub _ (List.getElem_mem hi'))
    have hm := mem_zip_getElem hlen.symm j hj
    have e := interp_knot hi hm (by rw [List.length_zip]; omega)
    have hk := C24_knot ext src tgt vs _ h3 hl hsrc h i j hi' hj hjt
    rw [List.getElem?_map, List.getElem?_eq_getElem (by omega), Option.map_some, Option.some.injEq] at hk
    injection hk with hk
    dsimp only at e
    rw [← hjt, evalAt_inside (hi.firstX_le hm) (hi.le_lastX hm), e, hk]

theorem intervalAverages_num {ext : Extrap} {lo hi : K} {k : List (K × K)} {tgt : List K}
    {r : List (Fl K)} (htgt : tgt.Pairwise (· < ·)) (h : intervalAverages ext lo hi k tgt = .ok r) :
    ∃ ys : List K, r = ys.map .num := by
  induction tgt generalizing r with
  | nil => simp only [intervalAverages] at h; cases h; exact ⟨[], rfl⟩
  | cons l tgt ih =>
    cases tgt with
    | nil => simp only [intervalAverages] at h; cases h; exact ⟨[], rfl⟩
    | cons u tgt =>
      rw [List.pairwise_cons] at htgt
      have hlu : u ≠ l := (htgt.1 u (by simp)).ne'
      simp only [intervalAverages] at h
      split at h
      · cases h
      · rename_i y hy
        split at h
        · cases h
        · rename_i r' hr'
          cases h
          obtain ⟨ys, rfl⟩ := ih htgt.2 hr'
          unfold intervalAverage at hy
          split at hy
          · cases hy
          · rw [if_neg hlu] at hy
            cases hy
            exact ⟨_ :: ys, rfl⟩

/-- **C76**: averages converted to periods that subdivide (or extend) their own, and back, are what
they were. -/
theorem C76_average {ext ext' : Extrap} {src tgt vs : List K} {r : List (Fl K)} (h3 : 3 ≤ vs.length)
    (hl : src.length = vs.length + 1) (hsrc : src.Pairwise (· < ·)) (htgt : tgt.Pairwise (· < ·))
    (hsub : ∀ t ∈ src, t ∈ tgt) (h : convertNum .average ext src tgt vs = .ok r) :
    ∃ ys, r = ys.map .num ∧ convertNum .average ext' tgt src ys = .ok (vs.map .num) := by
  have hle := length_le_of_subset hsrc hsub
  have h' := convertNum_average_ok h3 hl hsrc h
  obtain ⟨ys, rfl⟩ := intervalAverages_num htgt h'
  have hlen : tgt.length = ys.length + 1 := by
    have := intervalAverages_length h'
    rw [List.length_map] at this
    omega
  refine ⟨ys, rfl, ?_⟩
  have hb : Bal src (avgKnots src vs) vs := bal_lin hsrc hl (by omega)
  have hb' : Bal tgt (avgKnots tgt ys) ys := bal_lin htgt hlen (by omega)
  rw [convertNum_average (by omega) hlen htgt,
    intervalAverages_of (r := vs.map .num) (by rw [List.length_map]; omega) ?_]
  · rfl
  · intro i hi'
    have hlt : src[i] < src[i + 1] := List.pairwise_iff_getElem.1 hsrc i (i + 1) _ _ (by omega)
    have hne : src[i + 1] - src[i] ≠ 0 := (sub_pos.2 hlt).ne'
    -- the edges of the period among the target time points
    obtain ⟨a, ha, hat⟩ := List.getElem_of_mem (hsub _ (List.getElem_mem (by omega : i < src.length)))
    obtain ⟨b, hb1, hbt⟩ := List.getElem_of_mem (hsub _ (List.getElem_mem hi'))
    -- on the fine periods
    obtain ⟨f1, n1⟩ := hb'.mem _ (List.getElem_mem ha)
    obtain ⟨f2, n2⟩ := hb'.mem _ (List.getElem_mem hb1)
    have q1 := hb'.prim_edge a ha
    have q2 := hb'.prim_edge b hb1
    rw [periodSum_eq_total tgt ys a ha (by omega)] at q1
    rw [periodSum_eq_total tgt ys b hb1 (by omega)] at q2
    obtain ⟨A, B1, hA, hB1, ht1⟩ := intervalAverages_telescope h' a ha (by omega)
    obtain ⟨A', B2, hA', hB2, ht2⟩ := intervalAverages_telescope h' b hb1 (by omega)
    rw [hA] at hA'
    cases hA'
    -- on the given periods
    obtain ⟨e1, m1⟩ := hb.mem _ (List.getElem_mem (by omega : i < src.length))
    obtain ⟨e2, m2⟩ := hb.mem _ (List.getElem_mem hi')
    rw [hat, primAt_inside (hb.inc.firstX_le m1) (hb.inc.le_lastX m1)] at hB1
    rw [hbt, primAt_inside (hb.inc.firstX_le m2) (hb.inc.le_lastX m2)] at hB2
    injection hB1 with hB1
    injection hB2 with hB2
    have p1 := hb.prim_edge i (by omega)
    have p2 := hb.prim_edge (i + 1) hi'
    have hs := periodSum_take_succ src vs i hi' (by omega)
    unfold intervalAverage
    rw [← hat, ← hbt, quad_inside (hb'.inc.firstX_le n1) (hb'.inc.le_lastX n1) (hb'.inc.firstX_le n2)
      (hb'.inc.le_lastX n2), q1, q2, ht1, ht2, ← hB1, ← hB2, p1, p2, hs, hat, hbt]
    simp only [List.getElem_map]
    rw [if_neg (sub_ne_zero.1 hne)]
    congr 2
    field_simp
    ring

/-- The hypotheses met: half-year steps and an extension, there and back. -/
example : convertNum .average .linear [0, 1, 2, (4 : ℚ)] [-1, 0, 1 / 2, 1, 2, 3, 4, 5] [3, 1, 2]
      = .ok [.num 5, .num (7 / 2), .num (5 / 2), .num 1, .num (7 / 4), .num (9 / 4), .num (11/4)] ∧
    convertNum .average .none [-1, 0, 1 / 2, 1, 2, 3, 4, 5] [0, 1, 2, (4 : ℚ)]
      [5, 7 / 2, 5 / 2, 1, 7 / 4, 9 / 4, 11/4] = .ok [.num 3, .num 1, .num 2] := by
  decide +kernel

end Openscm
