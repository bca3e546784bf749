import Verif.TimeProps

/-!
# C25, C28: straight lines and linearity
-/

set_option linter.unusedSectionVars false

namespace Openscm
variable {K : Type} [Field K] [LinearOrder K] [IsStrictOrderedRing K]

/-! ## C25 -/

theorem line_affine {p q : K × K} {a b x : K} (hlt : p.1 < q.1) (hp : p.2 = a * p.1 + b)
    (hq : q.2 = a * q.1 + b) : line p q x = a * x + b := by
  have : q.1 - p.1 ≠ 0 := (sub_pos.2 hlt).ne'
  simp only [line, hp, hq]; field_simp; ring

theorem interp_affine {a b x : K} {k : List (K × K)} (hi : Inc k) (h2 : 2 ≤ k.length)
    (h : ∀ p ∈ k, p.2 = a * p.1 + b) : interp k x = a * x + b := by
  induction k with
  | nil => simp at h2
  | cons p k ih =>
    match k, h2 with
    | [q], _ =>
      exact line_affine (hi.lt (by simp)) (h p (by simp)) (h q (by simp))
    | q :: r :: rs, _ =>
      simp only [interp]
      split
      · exact line_affine (hi.lt (by simp)) (h p (by simp)) (h q (by simp))
      · exact ih hi.tail (by simp) (fun p hp => h p (List.mem_cons_of_mem _ hp))

theorem lineArea_affine {p q : K × K} {a b x : K} (hlt : p.1 < q.1) (hp : p.2 = a * p.1 + b)
    (hq : q.2 = a * q.1 + b) :
    lineArea p q x = a * (x ^ 2 - p.1 ^ 2) / 2 + b * (x - p.1) := by
  have : q.1 - p.1 ≠ 0 := (sub_pos.2 hlt).ne'
  simp only [lineArea, hp, hq]; field_simp; ring

theorem prim_affine {a b x : K} {k : List (K × K)} (hi : Inc k) (h2 : 2 ≤ k.length)
    (h : ∀ p ∈ k, p.2 = a * p.1 + b) :
    prim k x = a * (x ^ 2 - firstX k ^ 2) / 2 + b * (x - firstX k) := by
  induction k with
  | nil => simp at h2
  | cons p k ih =>
    match k, h2 with
    | [q], _ =>
      exact lineArea_affine (hi.lt (by simp)) (h p (by simp)) (h q (by simp))
    | q :: r :: rs, _ =>
      simp only [prim]
      split
      · exact lineArea_affine (hi.lt (by simp)) (h p (by simp)) (h q (by simp))
      · rw [ih hi.tail (by simp) (fun p hp => h p (List.mem_cons_of_mem _ hp)),
          lineArea_affine (hi.lt (by simp)) (h p (by simp)) (h q (by simp)),
          firstX_cons, firstX_cons]
        ring

theorem mem_zip_exists {a b : List K} (hl : a.length = b.length) {p : K × K} (hp : p ∈ a.zip b) :
    ∃ i, ∃ h : i < a.length, p = (a[i], b[i]'(by omega)) := by
  obtain ⟨i, hi, rfl⟩ := List.getElem_of_mem hp
  rw [List.length_zip] at hi
  exact ⟨i, by omega, by simp⟩

/-- C25 for point timeseries: data on a straight line are converted to the same line at every
target time, inside the range whatever the extrapolation type, and everywhere with linear
extrapolation. -/
theorem C25_point_line (ext : Extrap) (src tgt vs : List K) (r : List (Fl K)) (a b : K)
    (h3 : 3 ≤ vs.length) (hl : src.length = vs.length) (hsrc : src.Pairwise (· < ·))
    (hline : ∀ i (hi : i < vs.length), vs[i] = a * src[i] + b)
    (h : convertNum .point ext src tgt vs = .ok r) (j : Nat) (hj : j < tgt.length)
    (hin : ext = .linear ∨ ext = .none ∨ (src[0] ≤ tgt[j] ∧ tgt[j] ≤ src[src.length - 1])) :
    r[j]? = some (.num (a * tgt[j] + b)) := by
  have hinc := zip_inc hl hsrc
  have h' := convertNum_point_ok h3 hl hsrc h
  obtain ⟨y, hy, hr⟩ := evalAll_getElem h' j hj
  have hk : ∀ p ∈ src.zip vs, p.2 = a * p.1 + b := by
    intro p hp
    obtain ⟨i, hi, rfl⟩ := mem_zip_exists hl hp
    exact hline i (by omega)
  have hz : 2 ≤ (src.zip vs).length := by rw [List.length_zip]; omega
  have he := interp_affine (x := tgt[j]) hinc hz hk
  rw [List.getElem?_eq_getElem (by rw [evalAll_length h']; exact hj), hr]
  have : evalAt ext (vs.headD 0) (vs.getLastD 0) (src.zip vs) tgt[j]
      = .ok (interp (src.zip vs) tgt[j]) := by
    rcases hin with rfl | rfl | ⟨h1, h2⟩
    · rfl
    · simp only [evalAt] at hy ⊢
      split at hy
      · cases hy
      · rename_i hc; rw [if_neg hc]
    · exact evalAt_inside (by rw [firstX_zip hl (by omega)]; exact h1)
        (by rw [lastX_zip hl (by omega)]; exact h2)
  rw [this, he] at hy
  injection hy with hy
  rw [hy]

/-- The line through the averages of a straight line over equal periods is that line: all
linearisation points of an equidistant grid are on it. -/
theorem zigTail_affine {a b h : K} (u : K) (ts : List K) (α v : K) (r : List K)
    (hlen : ts.length = r.length + 1)
    (hst : ∀ i (hi : i + 1 < (u :: ts).length), (u :: ts)[i + 1] = (u :: ts)[i] + h)
    (hα : α = a * (u - h / 2) + b)
    (hv : ∀ i (hi : i < (v :: r).length),
      (v :: r)[i] = a * (((u :: ts)[i]'(by simp at *; omega)) + h / 2) + b) :
    ∀ p ∈ (linPoints (u :: ts)).zip (zigTail α (v :: r)), p.2 = a * p.1 + b := by
  induction r generalizing u ts α v with
  | nil =>
    match ts, hlen with
    | [w], _ =>
      have hw : w = u + h := hst 0 (by simp)
      have hv0 : v = a * (u + h / 2) + b := hv 0 (by simp)
      intro p hp
      simp only [linPoints, zigTail, List.zip_cons_cons, List.zip_nil_left, List.mem_cons,
        List.not_mem_nil, or_false] at hp
      rcases hp with rfl | rfl | rfl <;> simp only [hα, hv0, hw] <;> ring
  | cons w r ih =>
    match ts, hlen with
    | x :: ts, hlen =>
      have hx : x = u + h := hst 0 (by simp)
      have hv0 : v = a * (u + h / 2) + b := hv 0 (by simp)
      have hw0 : w = a * (x + h / 2) + b := hv 1 (by simp)
      have := ih x ts v w (by simpa using hlen)
        (fun i hi => hst (i + 1) (by simpa using hi))
        (by rw [hv0, hx]; ring)
        (fun i hi => hv (i + 1) (by simpa using hi))
      intro p hp
      simp only [linPoints, zigTail, List.zip_cons_cons, List.mem_cons] at hp
      rcases hp with rfl | rfl | hp
      · simp only [hα, hv0]; ring
      · simp only [hα, hv0, hw0, hx]; ring
      · exact this p hp

theorem avgKnots_affine {a b h : K} {src vs : List K} (hl : src.length = vs.length + 1)
    (h2 : 2 ≤ vs.length)
    (hst : ∀ i (hi : i + 1 < src.length), src[i + 1] = src[i] + h)
    (hv : ∀ i (hi : i < vs.length), vs[i] = a * ((src[i] + src[i + 1]) / 2) + b) :
    ∀ p ∈ avgKnots src vs, p.2 = a * p.1 + b := by
  match vs, h2, src, hl with
  | v :: w :: r, _, t :: u :: ts, hl =>
    have hu : u = t + h := hst 0 (by simp)
    have hv0 : v = a * ((t + u) / 2) + b := hv 0 (by simp)
    have hw0 : w = a * ((u + ts[0]'(by simp at hl; omega)) / 2) + b := hv 1 (by simp)
    have hx : ts[0]'(by simp at hl; omega) = u + h := hst 1 (by simp at hl ⊢; omega)
    have hrec := zigTail_affine (a := a) (b := b) (h := h) u ts v w r (by simpa using hl)
      (fun i hi => hst (i + 1) (by simpa using hi)) (by rw [hv0, hu]; ring)
      (fun i hi => by
        have h1 := hv (i + 1) (by simpa using hi)
        have h2 := hst (i + 1) (by simp at hl hi ⊢; omega)
        simp only [List.getElem_cons_succ] at h1 h2 ⊢
        rw [h1, h2]; ring)
    intro p hp
    unfold avgKnots at hp
    rw [linValues_eq] at hp
    simp only [linPoints, List.zip_cons_cons, List.mem_cons] at hp
    rcases hp with rfl | rfl | hp
    · simp only [hv0, hw0, hx, hu]; ring
    · simp only [hv0]; ring
    · exact hrec p hp

theorem firstX_avgKnots {src vs : List K} (hl : src.length = vs.length + 1) (h2 : 2 ≤ vs.length) :
    firstX (avgKnots src vs) = src[0] := by
  match vs, h2, src, hl with
  | v :: w :: r, _, t :: u :: ts, hl =>
    unfold avgKnots; rw [linValues_eq]; rfl

theorem lastX_avgKnots {src vs : List K} (hl : src.length = vs.length + 1) (h2 : 2 ≤ vs.length)
    (hsrc : src.Pairwise (· < ·)) : lastX (avgKnots src vs) = src[vs.length] := by
  have hb : Bal src (avgKnots src vs) vs := bal_lin hsrc hl h2
  have key : ∀ (ts : List K) (k : List (K × K)) (ws : List K) (hb : Bal ts k ws),
      lastX k = ts[ws.length]'(by have := hb.length; omega) := by
    intro ts k ws hb
    induction hb with
    | last t e => rfl
    | period _ _ hr ih =>
      refine Eq.trans ?_ ih
      simp [lastX]
  exact key _ _ _ hb

theorem length_avgKnots {src vs : List K} (hl : src.length = vs.length + 1) (h2 : 2 ≤ vs.length) :
    (avgKnots src vs).length = 2 * vs.length + 1 := by
  unfold avgKnots
  match src, hl with
  | t :: ts, hl =>
    rw [List.length_zip, length_linValues h2, length_linPoints]
    simp at hl; omega

/-- C25 for average timeseries on an equidistant grid: averages of a straight line over the
source periods are converted to its averages over the target intervals (inside the range, or
anywhere with linear extrapolation). -/
theorem C25_average_line_uniform (ext : Extrap) (src tgt vs : List K) (r : List (Fl K)) (a b h : K)
    (h3 : 3 ≤ vs.length) (hl : src.length = vs.length + 1) (hpos : 0 < h)
    (hst : ∀ i (hi : i + 1 < src.length), src[i + 1] = src[i] + h)
    (hline : ∀ i (hi : i < vs.length), vs[i] = a * ((src[i] + src[i + 1]) / 2) + b)
    (hr : convertNum .average ext src tgt vs = .ok r) (j : Nat) (hj : j + 1 < tgt.length)
    (hne : tgt[j + 1] ≠ tgt[j])
    (hin : ext = .linear ∨ ext = .none ∨ (src[0] ≤ tgt[j] ∧ tgt[j] ≤ src[vs.length] ∧
      src[0] ≤ tgt[j + 1] ∧ tgt[j + 1] ≤ src[vs.length])) :
    r[j]? = some (.num (a * ((tgt[j] + tgt[j + 1]) / 2) + b)) := by
  have hsrc : src.Pairwise (· < ·) := by
    rw [List.pairwise_iff_getElem]
    intro i j hi hj hij
    obtain ⟨d, rfl⟩ : ∃ d, j = i + 1 + d := ⟨j - (i + 1), by omega⟩
    induction d with
    | zero => have := hst i (by omega); simp only [Nat.add_zero]; linarith
    | succ d ih =>
      have h1 := ih (by omega) (by omega)
      have h2 := hst (i + 1 + d) (by omega)
      have : src[i + 1 + (d + 1)] = src[i + 1 + d + 1] := rfl
      rw [this]; linarith
  have hb : Bal src (avgKnots src vs) vs := bal_lin hsrc hl (by omega)
  have h' := convertNum_average_ok h3 hl hsrc hr
  have h0 := intervalAverages_getElem h' j hj
  have hk := avgKnots_affine hl (by omega) hst hline
  have hp : ∀ x, prim (avgKnots src vs) x = _ := fun x =>
    prim_affine (x := x) hb.inc (by rw [length_avgKnots hl (by omega)]; omega) hk
  have hq : quad ext (vs.headD 0) (vs.getLastD 0) (avgKnots src vs) tgt[j] tgt[j + 1]
      = .ok (prim (avgKnots src vs) tgt[j + 1] - prim (avgKnots src vs) tgt[j]) := by
    rcases hin with rfl | rfl | ⟨h1, h2, h3', h4⟩
    · rfl
    · unfold intervalAverage quad at h0
      unfold quad
      simp only [primAt] at h0 ⊢
      by_cases c1 : tgt[j] < firstX (avgKnots src vs) ∨ lastX (avgKnots src vs) < tgt[j]
      · rw [if_pos c1] at h0; simp at h0
      · rw [if_neg c1] at h0 ⊢
        by_cases c2 : tgt[j + 1] < firstX (avgKnots src vs) ∨ lastX (avgKnots src vs) < tgt[j + 1]
        · rw [if_pos c2] at h0; simp at h0
        · rw [if_neg c2] at h0 ⊢
    · have hf := firstX_avgKnots hl (by omega : 2 ≤ vs.length)
      have hla := lastX_avgKnots hl (by omega) hsrc
      exact quad_inside (by rw [hf]; exact h1) (by rw [hla]; exact h2) (by rw [hf]; exact h3')
        (by rw [hla]; exact h4)
  unfold intervalAverage at h0
  rw [hq, hp, hp] at h0
  simp only [hne, if_false] at h0
  injection h0 with h0
  rw [List.getElem?_eq_getElem (by rw [intervalAverages_length h']; omega), ← h0]
  have hd : tgt[j + 1] - tgt[j] ≠ 0 := sub_ne_zero.2 hne
  congr 2
  field_simp; ring

theorem zigTail_const (c : K) (n : Nat) : ∀ x ∈ zigTail c (List.replicate (n + 1) c), x = c := by
  induction n with
  | zero => intro x hx; simp [zigTail] at hx; rcases hx with rfl | rfl | rfl <;> ring
  | succ n ih =>
    intro x hx
    have : List.replicate (n + 1 + 1) c = c :: c :: List.replicate n c := rfl
    rw [this] at hx
    simp only [zigTail, List.mem_cons] at hx
    rcases hx with rfl | rfl | hx
    · ring
    · ring
    · exact ih x hx

theorem avgKnots_const {c : K} {src : List K} {n : Nat} (h2 : 2 ≤ n) :
    ∀ p ∈ avgKnots src (List.replicate n c), p.2 = 0 * p.1 + c := by
  intro p hp
  obtain ⟨m, rfl⟩ : ∃ m, n = m + 2 := ⟨n - 2, by omega⟩
  have hr : List.replicate (m + 2) c = c :: c :: List.replicate m c := rfl
  unfold avgKnots at hp
  rw [hr, linValues_eq] at hp
  have := (List.of_mem_zip hp).2
  simp only [List.mem_cons] at this
  rw [zero_mul, zero_add]
  rcases this with h | h | h
  · rw [h]; ring
  · exact h
  · exact zigTail_const c m _ h

/-- C25: a constant average series stays constant on every grid (uniform or not) and with every
extrapolation type. -/
theorem C25_average_constant (ext : Extrap) (src tgt : List K) (n : Nat) (c : K)
    (r : List (Fl K)) (h3 : 3 ≤ n) (hl : src.length = n + 1) (hsrc : src.Pairwise (· < ·))
    (hr : convertNum .average ext src tgt (List.replicate n c) = .ok r) (j : Nat)
    (hj : j + 1 < tgt.length) (hne : tgt[j + 1] ≠ tgt[j]) : r[j]? = some (.num c) := by
  have hl' : src.length = (List.replicate n c).length + 1 := by simpa using hl
  have h3' : 3 ≤ (List.replicate n c).length := by simpa using h3
  have hb : Bal src (avgKnots src (List.replicate n c)) _ := bal_lin hsrc hl' (by omega)
  have h' := convertNum_average_ok h3' hl' hsrc hr
  have h0 := intervalAverages_getElem h' j hj
  have hlen := intervalAverages_length h'
  have hk := avgKnots_const (c := c) (src := src) (n := n) (by omega)
  have hlo : (List.replicate n c).headD 0 = c := by
    obtain ⟨m, rfl⟩ : ∃ m, n = m + 1 := ⟨n - 1, by omega⟩
    rfl
  have hhi : (List.replicate n c).getLastD 0 = c := by
    rw [List.getLastD_eq_getLast?, List.getLast?_replicate, if_neg (by omega)]; rfl
  simp only [hlo, hhi] at h0
  set k := avgKnots src (List.replicate n c) with hkdef
  have hp : ∀ x, prim k x = c * (x - firstX k) := fun x => by
    rw [prim_affine (x := x) hb.inc (by rw [hkdef, length_avgKnots hl' (by omega)]; omega) hk]
    ring
  have hq : ∀ x y, primAt ext c c k x = .ok y → y = c * (x - firstX k) := by
    intro x y hxy
    cases ext with
    | none =>
      simp only [primAt] at hxy
      split at hxy
      · cases hxy
      · injection hxy with hxy; rw [← hxy, hp]
    | constant =>
      simp only [primAt] at hxy
      split at hxy
      · injection hxy with hxy; rw [← hxy]
      · split at hxy
        · injection hxy with hxy; rw [← hxy, hp]; ring
        · injection hxy with hxy; rw [← hxy, hp]
    | linear => simp only [primAt] at hxy; injection hxy with hxy; rw [← hxy, hp]
  rw [List.getElem?_eq_getElem (by omega)]
  unfold intervalAverage quad at h0
  cases hA : primAt ext c c k tgt[j] with
  | error e => rw [hA] at h0; simp at h0
  | ok A =>
    rw [hA] at h0
    cases hB : primAt ext c c k tgt[j + 1] with
    | error e => rw [hB] at h0; simp at h0
    | ok B =>
      rw [hB] at h0
      simp only [hne, if_false] at h0
      injection h0 with h0
      rw [← h0, hq _ _ hA, hq _ _ hB]
      have hd : tgt[j + 1] - tgt[j] ≠ 0 := sub_ne_zero.2 hne
      congr 2
      field_simp; ring

/-- C25 is false for average series on a grid with unequal periods: the averages 1/2, 2, 7/2 of
the line `y = x` over the periods 0-1-3-4 do not give its averages over [0, 1/2] and [1/2, 1]. -/
theorem C25_average_line_nonuniform_fails :
    convertNum .average .none [0, 1, 3, (4 : ℚ)] [0, 1 / 2, 1] [1 / 2, 2, 7 / 2]
      = .ok [.num (1 / 8), .num (7 / 8)] := by
  have hsrc : [0, 1, 3, (4 : ℚ)].Pairwise (· < ·) := by
    rw [← strictInc_iff]; norm_num [strictInc]
  rw [convertNum_average (by simp) (by simp) hsrc]
  norm_num [toInsufficient, intervalAverages, intervalAverage, quad, primAt, firstX, lastX,
    avgKnots, linPoints, linValues, edgeValues, middleValues, interleave, prim, lineArea]

/-! ## C28: linearity -/

/-- Knots with values combined: `(x, y, z) ↦ (x, a y + b z)`. -/
def comb3 (a b : K) (t : K × K × K) : K × K := (t.1, a * t.2.1 + b * t.2.2)

theorem interp_comb (a b x : K) (T : List (K × K × K)) :
    interp (T.map (comb3 a b)) x
      = a * interp (T.map (fun t => (t.1, t.2.1))) x
        + b * interp (T.map (fun t => (t.1, t.2.2))) x := by
  induction T with
  | nil => simp [interp]
  | cons p T ih =>
    match T with
    | [] => simp [interp, comb3]
    | [q] => simp only [List.map, interp, line, comb3]; ring
    | q :: r :: rs =>
      simp only [List.map_cons, interp, comb3] at ih ⊢
      split
      · simp only [line]; ring
      · exact ih

theorem prim_comb (a b x : K) (T : List (K × K × K)) :
    prim (T.map (comb3 a b)) x
      = a * prim (T.map (fun t => (t.1, t.2.1))) x
        + b * prim (T.map (fun t => (t.1, t.2.2))) x := by
  induction T with
  | nil => simp [prim]
  | cons p T ih =>
    match T with
    | [] => simp only [List.map, prim, comb3]; ring
    | [q] => simp only [List.map, prim, lineArea, comb3]; ring
    | q :: r :: rs =>
      simp only [List.map_cons, prim, comb3] at ih ⊢
      split
      · simp only [lineArea]; ring
      · rw [ih]; simp only [lineArea]; ring

theorem firstX_map {f : K × K × K → K × K} (hf : ∀ t, (f t).1 = t.1) (T : List (K × K × K)) :
    firstX (T.map f) = (T.map (·.1)).headD 0 := by
  unfold firstX; rw [List.map_map]; congr 1; apply List.map_congr_left; intro t _; exact hf t

theorem lastX_map {f : K × K × K → K × K} (hf : ∀ t, (f t).1 = t.1) (T : List (K × K × K)) :
    lastX (T.map f) = (T.map (·.1)).getLastD 0 := by
  unfold lastX; rw [List.map_map]; congr 1; apply List.map_congr_left; intro t _; exact hf t

theorem evalAt_comb {ext : Extrap} {a b lo1 hi1 lo2 hi2 x y z : K} {T : List (K × K × K)}
    (hy : evalAt ext lo1 hi1 (T.map (fun t => (t.1, t.2.1))) x = .ok y)
    (hz : evalAt ext lo2 hi2 (T.map (fun t => (t.1, t.2.2))) x = .ok z) :
    evalAt ext (a * lo1 + b * lo2) (a * hi1 + b * hi2) (T.map (comb3 a b)) x
      = .ok (a * y + b * z) := by
  have f1 := firstX_map (f := fun t => (t.1, t.2.1)) (fun _ => rfl) T
  have f2 := firstX_map (f := fun t => (t.1, t.2.2)) (fun _ => rfl) T
  have f3 := firstX_map (f := comb3 a b) (fun _ => rfl) T
  have l1 := lastX_map (f := fun t => (t.1, t.2.1)) (fun _ => rfl) T
  have l2 := lastX_map (f := fun t => (t.1, t.2.2)) (fun _ => rfl) T
  have l3 := lastX_map (f := comb3 a b) (fun _ => rfl) T
  cases ext <;> simp only [evalAt, f1, f2, f3, l1, l2, l3] at hy hz ⊢
  · split at hy
    · cases hy
    · rename_i hc
      rw [if_neg hc] at hz ⊢
      injection hy with hy; injection hz with hz
      rw [interp_comb, hy, hz]
  · split at hy
    · rename_i hc
      rw [if_pos hc] at hz ⊢
      injection hy with hy; injection hz with hz
      rw [hy, hz]
    · rename_i hc
      rw [if_neg hc] at hz ⊢
      split at hy
      · rename_i hc2
        rw [if_pos hc2] at hz ⊢
        injection hy with hy; injection hz with hz
        rw [hy, hz]
      · rename_i hc2
        rw [if_neg hc2] at hz ⊢
        injection hy with hy; injection hz with hz
        rw [interp_comb, hy, hz]
  · injection hy with hy; injection hz with hz
    rw [interp_comb, hy, hz]

theorem primAt_comb {ext : Extrap} {lo1 hi1 lo2 hi2 x y z : K} (a b : K) {T : List (K × K × K)}
    (hy : primAt ext lo1 hi1 (T.map (fun t => (t.1, t.2.1))) x = .ok y)
    (hz : primAt ext lo2 hi2 (T.map (fun t => (t.1, t.2.2))) x = .ok z) :
    primAt ext (a * lo1 + b * lo2) (a * hi1 + b * hi2) (T.map (comb3 a b)) x
      = .ok (a * y + b * z) := by
  have f1 := firstX_map (f := fun t => (t.1, t.2.1)) (fun _ => rfl) T
  have f2 := firstX_map (f := fun t => (t.1, t.2.2)) (fun _ => rfl) T
  have f3 := firstX_map (f := comb3 a b) (fun _ => rfl) T
  have l1 := lastX_map (f := fun t => (t.1, t.2.1)) (fun _ => rfl) T
  have l2 := lastX_map (f := fun t => (t.1, t.2.2)) (fun _ => rfl) T
  have l3 := lastX_map (f := comb3 a b) (fun _ => rfl) T
  cases ext <;> simp only [primAt, f1, f2, f3, l1, l2, l3] at hy hz ⊢
  · split at hy
    · cases hy
    · rename_i hc
      rw [if_neg hc] at hz ⊢
      injection hy with hy; injection hz with hz
      rw [prim_comb, hy, hz]
  · split at hy
    · rename_i hc
      rw [if_pos hc] at hz ⊢
      injection hy with hy; injection hz with hz
      rw [← hy, ← hz]; congr 1; ring
    · rename_i hc
      rw [if_neg hc] at hz ⊢
      split at hy
      · rename_i hc2
        rw [if_pos hc2] at hz ⊢
        injection hy with hy; injection hz with hz
        rw [prim_comb, ← hy, ← hz]; congr 1; ring
      · rename_i hc2
        rw [if_neg hc2] at hz ⊢
        injection hy with hy; injection hz with hz
        rw [prim_comb, hy, hz]
  · injection hy with hy; injection hz with hz
    rw [prim_comb, hy, hz]

/-- `a * y + b * z` on floats with NaN. -/
def combFl (a b : K) (y z : Fl K) : Fl K := Fl.add (y.map (a * ·)) (z.map (b * ·))

theorem evalAll_comb {ext : Extrap} {lo1 hi1 lo2 hi2 : K} (a b : K) {T : List (K × K × K)}
    {tgt : List K} {r1 r2 : List (Fl K)}
    (h1 : evalAll ext lo1 hi1 (T.map (fun t => (t.1, t.2.1))) tgt = .ok r1)
    (h2 : evalAll ext lo2 hi2 (T.map (fun t => (t.1, t.2.2))) tgt = .ok r2) :
    evalAll ext (a * lo1 + b * lo2) (a * hi1 + b * hi2) (T.map (comb3 a b)) tgt
      = .ok (List.zipWith (combFl a b) r1 r2) := by
  induction tgt generalizing r1 r2 with
  | nil => simp [evalAll] at h1 h2; subst h1 h2; rfl
  | cons x tgt ih =>
    simp only [evalAll] at h1 h2 ⊢
    split at h1
    · cases h1
    · rename_i y hy
      split at h1
      · cases h1
      · rename_i ys hys
        split at h2
        · cases h2
        · rename_i z hz
          split at h2
          · cases h2
          · rename_i zs hzs
            injection h1 with h1; injection h2 with h2
            subst h1 h2
            rw [evalAt_comb hy hz, ih hys hzs]
            rfl

theorem intervalAverage_comb {ext : Extrap} {lo1 hi1 lo2 hi2 l u : K} (a b : K)
    {T : List (K × K × K)} {y z : Fl K}
    (h1 : intervalAverage ext lo1 hi1 (T.map (fun t => (t.1, t.2.1))) l u = .ok y)
    (h2 : intervalAverage ext lo2 hi2 (T.map (fun t => (t.1, t.2.2))) l u = .ok z) :
    intervalAverage ext (a * lo1 + b * lo2) (a * hi1 + b * hi2) (T.map (comb3 a b)) l u
      = .ok (combFl a b y z) := by
  unfold intervalAverage quad at *
  cases hA1 : primAt ext lo1 hi1 (T.map (fun t => (t.1, t.2.1))) l with
  | error e => rw [hA1] at h1; simp at h1
  | ok A1 =>
    cases hB1 : primAt ext lo1 hi1 (T.map (fun t => (t.1, t.2.1))) u with
    | error e => rw [hA1, hB1] at h1; simp at h1
    | ok B1 =>
      cases hA2 : primAt ext lo2 hi2 (T.map (fun t => (t.1, t.2.2))) l with
      | error e => rw [hA2] at h2; simp at h2
      | ok A2 =>
        cases hB2 : primAt ext lo2 hi2 (T.map (fun t => (t.1, t.2.2))) u with
        | error e => rw [hA2, hB2] at h2; simp at h2
        | ok B2 =>
          rw [hA1, hB1] at h1
          rw [hA2, hB2] at h2
          rw [primAt_comb a b hA1 hA2, primAt_comb a b hB1 hB2]
          simp only at h1 h2 ⊢
          injection h1 with h1; injection h2 with h2
          subst h1 h2
          congr 1
          by_cases hd : u = l
          · simp [hd, combFl]
          · simp only [hd, if_false, combFl, Fl.map_num, Fl.add_num]
            congr 1
            ring

theorem intervalAverages_comb {ext : Extrap} {lo1 hi1 lo2 hi2 : K} (a b : K)
    {T : List (K × K × K)} {tgt : List K} {r1 r2 : List (Fl K)}
    (h1 : intervalAverages ext lo1 hi1 (T.map (fun t => (t.1, t.2.1))) tgt = .ok r1)
    (h2 : intervalAverages ext lo2 hi2 (T.map (fun t => (t.1, t.2.2))) tgt = .ok r2) :
    intervalAverages ext (a * lo1 + b * lo2) (a * hi1 + b * hi2) (T.map (comb3 a b)) tgt
      = .ok (List.zipWith (combFl a b) r1 r2) := by
  induction tgt generalizing r1 r2 with
  | nil => simp [intervalAverages] at h1 h2; subst h1 h2; rfl
  | cons x tgt ih =>
    cases tgt with
    | nil => simp [intervalAverages] at h1 h2; subst h1 h2; rfl
    | cons u tgt =>
      simp only [intervalAverages] at h1 h2 ⊢
      split at h1
      · cases h1
      · rename_i y hy
        split at h1
        · cases h1
        · rename_i ys hys
          split at h2
          · cases h2
          · rename_i z hz
            split at h2
            · cases h2
            · rename_i zs hzs
              injection h1 with h1; injection h2 with h2
              subst h1 h2
              rw [intervalAverage_comb a b hy hz, ih hys hzs]
              rfl

/-- `a * ys + b * zs`, element by element (specification of "weighted sum of two arrays"). -/
def combList (a b : K) (ys zs : List K) : List K := List.zipWith (fun y z => a * y + b * z) ys zs

theorem headD_combList {a b : K} {ys zs : List K} (h : ys.length = zs.length) :
    (combList a b ys zs).headD 0 = a * ys.headD 0 + b * zs.headD 0 := by
  match ys, zs, h with
  | [], [], _ => simp [combList]
  | y :: ys, z :: zs, _ => simp [combList]

theorem getLastD_combList {a b : K} {ys zs : List K} (h : ys.length = zs.length) :
    (combList a b ys zs).getLastD 0 = a * ys.getLastD 0 + b * zs.getLastD 0 := by
  induction ys generalizing zs with
  | nil => match zs, h with | [], _ => simp [combList]
  | cons y ys ih =>
    match zs, h with
    | z :: zs, h =>
      match ys, zs, h with
      | [], [], _ => simp [combList]
      | y' :: ys, z' :: zs, h =>
        have := ih (zs := z' :: zs) (by simpa using h)
        simpa [combList, List.getLastD] using this

theorem zigTail_comb (a b α β : K) (ys zs : List K) (h : ys.length = zs.length) :
    zigTail (a * α + b * β) (combList a b ys zs) = combList a b (zigTail α ys) (zigTail β zs) := by
  induction ys generalizing zs α β with
  | nil => match zs, h with | [], _ => simp [combList, zigTail]
  | cons y ys ih =>
    match zs, h with
    | z :: zs, h =>
      match ys, zs, h with
      | [], [], _ => simp [combList, zigTail]; refine ⟨?_, ?_⟩ <;> ring
      | y' :: ys, z' :: zs, h =>
        have := ih y z (z' :: zs) (by simpa using h)
        simp only [combList, List.zipWith_cons_cons, zigTail] at this ⊢
        rw [this]
        congr 1
        · ring
        · congr 1; ring

theorem linValues_comb (a b : K) (ys zs : List K) (h : ys.length = zs.length)
    (h2 : 2 ≤ ys.length) :
    linValues (combList a b ys zs) = combList a b (linValues ys) (linValues zs) := by
  match ys, zs, h, h2 with
  | y :: y' :: ys, z :: z' :: zs, h, _ =>
    have := zigTail_comb a b y z (y' :: ys) (z' :: zs) (by simpa using h)
    rw [linValues_eq, linValues_eq]
    simp only [combList, List.zipWith_cons_cons] at this ⊢
    rw [linValues_eq, this]
    congr 1
    ring

theorem zip_combList (a b : K) (xs ys zs : List K) :
    xs.zip (combList a b ys zs) = (xs.zip (ys.zip zs)).map (comb3 a b) := by
  induction xs generalizing ys zs with
  | nil => rfl
  | cons x xs ih =>
    match ys, zs with
    | [], _ => simp [combList]
    | _ :: _, [] => simp [combList]
    | y :: ys, z :: zs =>
      have := ih ys zs
      simp only [combList, List.zipWith_cons_cons, List.zip_cons_cons, List.map_cons] at this ⊢
      rw [this]; rfl

theorem zip_fst3 (xs ys zs : List K) (h : ys.length = zs.length) :
    (xs.zip (ys.zip zs)).map (fun t => (t.1, t.2.1)) = xs.zip ys := by
  induction xs generalizing ys zs with
  | nil => rfl
  | cons x xs ih =>
    match ys, zs, h with
    | [], [], _ => simp
    | y :: ys, z :: zs, h => simp [ih ys zs (by simpa using h)]

theorem zip_snd3 (xs ys zs : List K) (h : ys.length = zs.length) :
    (xs.zip (ys.zip zs)).map (fun t => (t.1, t.2.2)) = xs.zip zs := by
  induction xs generalizing ys zs with
  | nil => rfl
  | cons x xs ih =>
    match ys, zs, h with
    | [], [], _ => simp
    | y :: ys, z :: zs, h => simp [ih ys zs (by simpa using h)]

/-- C28: converting a weighted sum of two arrays gives the weighted sum of the conversions, for
point and average series, every extrapolation type, every pair of grids (strictly increasing
source). -/
theorem C28_linear (ty : PType) (hty : ty = .point ∨ ty = .average) (ext : Extrap)
    (src tgt ys zs : List K) (a b : K) (r1 r2 : List (Fl K)) (hsrc : src.Pairwise (· < ·))
    (hyz : ys.length = zs.length)
    (h1 : convertNum ty ext src tgt ys = .ok r1) (h2 : convertNum ty ext src tgt zs = .ok r2) :
    convertNum ty ext src tgt (combList a b ys zs) = .ok (List.zipWith (combFl a b) r1 r2) := by
  have hlen : (combList a b ys zs).length = ys.length := by simp [combList, hyz]
  have h3 : 3 ≤ ys.length := by
    by_contra hc
    unfold convertNum at h1
    rw [if_pos (by omega)] at h1; cases h1
  rcases hty with rfl | rfl
  · have hl : src.length = ys.length := by
      by_contra hc
      unfold convertNum at h1
      rw [if_neg (by omega)] at h1
      simp only at h1
      rw [if_pos hc] at h1; cases h1
    have e1 := convertNum_point_ok h3 hl hsrc h1
    have e2 := convertNum_point_ok (by omega) (by omega) hsrc h2
    rw [convertNum_point (by omega) (by omega) hsrc, headD_combList hyz, getLastD_combList hyz,
      zip_combList, evalAll_comb a b (r1 := r1) (r2 := r2)]
    · rfl
    · rw [zip_fst3 _ _ _ hyz]; exact e1
    · rw [zip_snd3 _ _ _ hyz]; exact e2
  · have hl : src.length = ys.length + 1 := by
      by_contra hc
      unfold convertNum at h1
      rw [if_neg (by omega)] at h1
      simp only at h1
      rw [if_pos hc] at h1; cases h1
    have e1 := convertNum_average_ok h3 hl hsrc h1
    have e2 := convertNum_average_ok (by omega) (by omega) hsrc h2
    have hlv : (linValues ys).length = (linValues zs).length := by
      rw [length_linValues (by omega), length_linValues (by omega), hyz]
    rw [convertNum_average (by omega) (by omega) hsrc, headD_combList hyz, getLastD_combList hyz]
    unfold avgKnots at e1 e2 ⊢
    rw [linValues_comb a b ys zs hyz (by omega), zip_combList,
      intervalAverages_comb a b (r1 := r1) (r2 := r2)]
    · rfl
    · rw [zip_fst3 _ _ _ hlv]; exact e1
    · rw [zip_snd3 _ _ _ hlv]; exact e2

/-- Hypotheses of `C28_linear` are met: an average series converted to another grid. -/
example : ∃ r, convertNum .average .none [0, 1, 3, (4 : ℚ)] [0, 1 / 2, 1] [1 / 2, 2, 7 / 2]
    = .ok r := ⟨_, C25_average_line_nonuniform_fails⟩

end Openscm
