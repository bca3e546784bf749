import Verif.Time
import Mathlib.Tactic.Ring
import Mathlib.Tactic.Linarith
import Mathlib.Tactic.FieldSimp
import Mathlib.Tactic.LinearCombination
import Mathlib.Tactic.Positivity

/-!
# Timeseries conversion: helper lemmas
-/

set_option linter.unusedSectionVars false

namespace Openscm
variable {K : Type} [Field K] [LinearOrder K] [IsStrictOrderedRing K]

/-! ## Strictly increasing lists and sorting -/

theorem strictInc_iff (l : List K) : strictInc l = true ↔ l.Pairwise (· < ·) := by
  induction l with
  | nil => simp [strictInc]
  | cons a l ih =>
    cases l with
    | nil => simp [strictInc]
    | cons b r =>
      simp only [strictInc, Bool.and_eq_true, decide_eq_true_eq, ih]
      constructor
      · rintro ⟨h, hp⟩
        rw [List.pairwise_cons]
        refine ⟨?_, hp⟩
        intro c hc
        rcases List.mem_cons.1 hc with rfl | hc
        · exact h
        · exact lt_trans h ((List.pairwise_cons.1 hp).1 c hc)
      · intro hp
        rw [List.pairwise_cons] at hp
        exact ⟨hp.1 b (by simp), hp.2⟩

theorem sortKnots_of_strict {k : List (K × K)} (h : (k.map Prod.fst).Pairwise (· < ·)) :
    sortKnots k = k := by
  unfold sortKnots
  rw [List.pairwise_map] at h
  exact List.Pairwise.insertionSort_eq (h.imp (fun hab => le_of_lt hab))

theorem zip_map_fst {a b : List K} (h : a.length = b.length) : (a.zip b).map Prod.fst = a := by
  rw [List.map_fst_zip]; omega

/-! ## `interp` and `prim` on strictly increasing knots -/

theorem line_left (p q : K × K) : line p q p.1 = p.2 := by simp [line]

theorem line_right {p q : K × K} (h : p.1 < q.1) : line p q q.1 = q.2 := by
  have : q.1 - p.1 ≠ 0 := (sub_pos.2 h).ne'
  simp only [line]; field_simp; ring

theorem lineArea_left (p q : K × K) : lineArea p q p.1 = 0 := by simp [lineArea]

theorem lineArea_right {p q : K × K} (h : p.1 < q.1) :
    lineArea p q q.1 = (p.2 + q.2) / 2 * (q.1 - p.1) := by
  have : q.1 - p.1 ≠ 0 := (sub_pos.2 h).ne'
  simp only [lineArea]; field_simp; ring

/-- Increasing abscissas. -/
def Inc (k : List (K × K)) : Prop := (k.map Prod.fst).Pairwise (· < ·)

theorem Inc.tail {p : K × K} {k : List (K × K)} (h : Inc (p :: k)) : Inc k := by
  unfold Inc at *; simp only [List.map_cons, List.pairwise_cons] at h; exact h.2

theorem Inc.lt {p q : K × K} {k : List (K × K)} (h : Inc (p :: k)) (hq : q ∈ k) : p.1 < q.1 := by
  unfold Inc at *; simp only [List.map_cons, List.pairwise_cons] at h
  exact h.1 _ (List.mem_map_of_mem hq)

theorem Inc.cons {p q : K × K} {k : List (K × K)} (h : Inc (q :: k)) (hpq : p.1 < q.1) :
    Inc (p :: q :: k) := by
  unfold Inc at *
  rw [List.map_cons, List.pairwise_cons]
  refine ⟨?_, h⟩
  intro x hx
  rw [List.map_cons] at hx h
  rcases List.mem_cons.1 hx with rfl | hx
  · exact hpq
  · exact lt_trans hpq ((List.pairwise_cons.1 h).1 x hx)

theorem interp_first {p q : K × K} {k : List (K × K)} {x : K} (h : x ≤ q.1) :
    interp (p :: q :: k) x = line p q x := by
  cases k with
  | nil => rfl
  | cons r rs => simp [interp, h]

theorem interp_tail {p q : K × K} {k : List (K × K)} {x : K} (hi : Inc (p :: q :: k))
    (hk : k ≠ []) (h : q.1 ≤ x) : interp (p :: q :: k) x = interp (q :: k) x := by
  cases k with
  | nil => exact absurd rfl hk
  | cons r rs =>
    by_cases hx : x ≤ q.1
    · have hx' : x = q.1 := le_antisymm hx h
      subst hx'
      have h1 : p.1 < q.1 := hi.lt (by simp)
      have h2 : q.1 < r.1 := hi.tail.lt (by simp)
      rw [interp_first (le_refl _), interp_first h2.le, line_right h1, line_left]
    · simp [interp, hx]

theorem interp_segment {pre post : List (K × K)} {p q : K × K} {x : K}
    (hi : Inc (pre ++ p :: q :: post)) (h1 : p.1 ≤ x) (h2 : x ≤ q.1) :
    interp (pre ++ p :: q :: post) x = line p q x := by
  induction pre with
  | nil => exact interp_first h2
  | cons a pre ih =>
    have hi' := Inc.tail hi
    cases hpre : pre with
    | nil =>
      subst hpre
      rw [List.cons_append, List.nil_append, interp_tail (by simpa using hi) (by simp) h1]
      exact interp_first h2
    | cons b pre' =>
      subst hpre
      have hb : b.1 ≤ p.1 := (Inc.lt hi' (by simp)).le
      have := ih hi'
      simp only [List.cons_append] at *
      rw [interp_tail hi (by simp) (le_trans hb h1), this]

theorem interp_knot {k : List (K × K)} {p : K × K} (hi : Inc k) (hp : p ∈ k) (hk : 2 ≤ k.length) :
    interp k p.1 = p.2 := by
  obtain ⟨pre, post, rfl⟩ := List.append_of_mem hp
  cases post with
  | cons q post =>
    rw [interp_segment hi (le_refl _) ?_, line_left]
    have : Inc (p :: q :: post) := by
      unfold Inc at *; rw [List.map_append] at hi; exact (List.pairwise_append.1 hi).2.1
    exact (this.lt (by simp)).le
  | nil =>
    rcases List.eq_nil_or_concat pre with rfl | ⟨pre', q, rfl⟩
    · simp at hk
    · simp only [List.concat_eq_append, List.append_assoc, List.singleton_append] at *
      have : Inc (q :: [p]) := by
        unfold Inc at *; rw [List.map_append] at hi; exact (List.pairwise_append.1 hi).2.1
      have hlt : q.1 < p.1 := this.lt (by simp)
      rw [interp_segment hi hlt.le (le_refl _), line_right hlt]

theorem prim_first {p q : K × K} {k : List (K × K)} {x : K} (h : x ≤ q.1) :
    prim (p :: q :: k) x = lineArea p q x := by
  cases k with
  | nil => rfl
  | cons r rs => simp [prim, h]

theorem prim_tail {p q : K × K} {k : List (K × K)} {x : K} (hi : Inc (p :: q :: k))
    (hk : k ≠ []) (h : q.1 ≤ x) :
    prim (p :: q :: k) x = lineArea p q q.1 + prim (q :: k) x := by
  cases k with
  | nil => exact absurd rfl hk
  | cons r rs =>
    by_cases hx : x ≤ q.1
    · have hx' : x = q.1 := le_antisymm hx h
      subst hx'
      have h2 : q.1 < r.1 := hi.tail.lt (by simp)
      rw [prim_first (le_refl _), prim_first h2.le, lineArea_left, add_zero]
    · simp [prim, hx]

theorem prim_head {p : K × K} {k : List (K × K)} (hi : Inc (p :: k)) : prim (p :: k) p.1 = 0 := by
  cases k with
  | nil => simp [prim]
  | cons q k => rw [prim_first (hi.lt (by simp)).le, lineArea_left]

/-- Inside one segment the antiderivative is the value at its left end plus the area under the
line. -/
theorem prim_segment {pre post : List (K × K)} {p q : K × K} {x : K}
    (hi : Inc (pre ++ p :: q :: post)) (h1 : p.1 ≤ x) (h2 : x ≤ q.1) :
    prim (pre ++ p :: q :: post) x = prim (pre ++ p :: q :: post) p.1 + lineArea p q x := by
  induction pre with
  | nil =>
    have : p.1 ≤ q.1 := le_trans h1 h2
    simp only [List.nil_append] at *
    rw [prim_first h2, prim_first this, lineArea_left, zero_add]
  | cons a pre ih =>
    have hi' := Inc.tail hi
    have ih' := ih hi'
    cases hpre : pre with
    | nil =>
      subst hpre
      simp only [List.cons_append, List.nil_append] at *
      rw [prim_tail hi (by simp) h1, prim_tail hi (by simp) (le_refl _), ih', add_assoc]
    | cons b pre' =>
      subst hpre
      have hb : b.1 ≤ p.1 := (Inc.lt hi' (by simp)).le
      simp only [List.cons_append] at *
      rw [prim_tail hi (by simp) (le_trans hb h1), prim_tail hi (by simp) hb, ih', add_assoc]

/-! ## Ranges -/

theorem firstX_cons (p : K × K) (k : List (K × K)) : firstX (p :: k) = p.1 := rfl

theorem lastX_append (pre : List (K × K)) (p : K × K) : lastX (pre ++ [p]) = p.1 := by
  simp [lastX]

theorem Inc.firstX_le {k : List (K × K)} (hi : Inc k) {p : K × K} (hp : p ∈ k) :
    firstX k ≤ p.1 := by
  cases k with
  | nil => simp at hp
  | cons q k =>
    rw [firstX_cons]
    rcases List.mem_cons.1 hp with rfl | hp
    · exact le_refl _
    · exact (hi.lt hp).le

theorem Inc.le_lastX {k : List (K × K)} (hi : Inc k) {p : K × K} (hp : p ∈ k) :
    p.1 ≤ lastX k := by
  rcases List.eq_nil_or_concat k with rfl | ⟨k', q, rfl⟩
  · simp at hp
  · rw [List.concat_eq_append] at *
    rw [lastX_append]
    rcases List.mem_append.1 hp with hp | hp
    · unfold Inc at hi
      rw [List.map_append, List.pairwise_append] at hi
      exact (hi.2.2 p.1 (List.mem_map_of_mem hp) q.1 (by simp)).le
    · simp at hp; rw [hp]

theorem evalAt_inside {ext : Extrap} {lo hi : K} {k : List (K × K)} {x : K}
    (h1 : firstX k ≤ x) (h2 : x ≤ lastX k) : evalAt ext lo hi k x = .ok (interp k x) := by
  cases ext <;> simp [evalAt, not_lt.2 h1, not_lt.2 h2]

theorem primAt_inside {ext : Extrap} {lo hi : K} {k : List (K × K)} {x : K}
    (h1 : firstX k ≤ x) (h2 : x ≤ lastX k) : primAt ext lo hi k x = .ok (prim k x) := by
  cases ext <;> simp [primAt, not_lt.2 h1, not_lt.2 h2]

theorem quad_inside {ext : Extrap} {lo hi : K} {k : List (K × K)} {l u : K}
    (h1 : firstX k ≤ l) (h2 : l ≤ lastX k) (h3 : firstX k ≤ u) (h4 : u ≤ lastX k) :
    quad ext lo hi k l u = .ok (prim k u - prim k l) := by
  simp [quad, primAt_inside h1 h2, primAt_inside h3 h4]

/-! ## The mean-preserving linearisation -/

/-- Recursive form of the part of the linearisation right of the first midpoint; `a` is the
previous average. -/
def zigTail : K → List K → List K
  | _, [] => []
  | a, [v] => [(v + a) / 2, v, 2 * v - (v + a) / 2]
  | a, v :: w :: r =>
    (v + a) / 2 :: (4 * v - (v + a) / 2 - (w + v) / 2) / 2 :: zigTail v (w :: r)

theorem edgeValues_cons (a b : K) (r : List K) :
    edgeValues (a :: b :: r) = (b + a) / 2 :: edgeValues (b :: r) := by
  cases r <;> simp [edgeValues, List.dropLast]

theorem middleValues_cons (a b c : K) (r : List K) :
    middleValues (a :: b :: c :: r) =
      (4 * b - (b + a) / 2 - (c + b) / 2) / 2 :: middleValues (b :: c :: r) := by
  unfold middleValues
  rw [edgeValues_cons, edgeValues_cons]
  cases r with
  | nil => simp [edgeValues]
  | cons d r => rw [edgeValues_cons]; simp [List.dropLast]

theorem interleave_zigTail (a : K) (l : List K) (hl : l ≠ []) :
    interleave (edgeValues (a :: l)) (middleValues (a :: l) ++ [l.getLastD 0]) ++
      [2 * l.getLastD 0 - (edgeValues (a :: l)).getLastD 0] = zigTail a l := by
  induction l generalizing a with
  | nil => exact absurd rfl hl
  | cons v l ih =>
    cases l with
    | nil => simp [edgeValues, middleValues, interleave, zigTail]
    | cons w r =>
      rw [edgeValues_cons, middleValues_cons]
      have := ih v (by simp)
      simp only [List.cons_append, interleave, zigTail]
      rw [← this]
      have e1 : (v :: w :: r).getLastD 0 = (w :: r).getLastD 0 := by simp [List.getLastD]
      have e2 : ((v + a) / 2 :: edgeValues (v :: w :: r)).getLastD 0
          = (edgeValues (v :: w :: r)).getLastD 0 := by
        rw [edgeValues_cons]; simp [List.getLastD]
      rw [e1, e2]

theorem linValues_eq (a b : K) (r : List K) :
    linValues (a :: b :: r) = (2 * a - (b + a) / 2) :: a :: zigTail a (b :: r) := by
  have h := interleave_zigTail a (b :: r) (by simp)
  have e1 : (a :: b :: r).getLastD 0 = (b :: r).getLastD 0 := by simp [List.getLastD]
  rw [← h]
  unfold linValues
  simp only [e1, interleave, List.cons_append]
  rw [edgeValues_cons]
  simp

theorem length_zigTail (a v : K) (r : List K) : (zigTail a (v :: r)).length = 2 * r.length + 3 := by
  induction r generalizing a v with
  | nil => simp [zigTail]
  | cons w r ih => simp only [zigTail, List.length_cons, ih]; omega

theorem length_linValues {vs : List K} (h : 2 ≤ vs.length) :
    (linValues vs).length = 2 * vs.length + 1 := by
  match vs, h with
  | a :: b :: r, _ => rw [linValues_eq]; simp only [List.length_cons, length_zigTail]; omega

theorem length_linPoints (t : K) (ts : List K) :
    (linPoints (t :: ts)).length = 2 * ts.length + 1 := by
  induction ts generalizing t with
  | nil => rfl
  | cons u ts ih => simp only [linPoints, List.length_cons, ih]; omega

/-- `Bal ts k vs`: the knots `k` run through edges and midpoints of the periods `ts`, and in each
period the edge and midpoint values balance to the average `v`: `e + 2 m + e' = 4 v`. -/
inductive Bal : List K → List (K × K) → List K → Prop
  | last (t e : K) : Bal [t] [(t, e)] []
  | period {t u e m e' v : K} {ts : List K} {k : List (K × K)} {vs : List K} (h : t < u)
      (hb : e + 2 * m + e' = 4 * v) (hr : Bal (u :: ts) ((u, e') :: k) vs) :
      Bal (t :: u :: ts) ((t, e) :: ((u + t) / 2, m) :: (u, e') :: k) (v :: vs)

theorem bal_zigTail (u e : K) (ts : List K) (a v : K) (r : List K)
    (hlen : ts.length = r.length + 1) (hts : (u :: ts).Pairwise (· < ·))
    (he : e = (v + a) / 2) :
    ∃ k, (linPoints (u :: ts)).zip (zigTail a (v :: r)) = (u, e) :: k ∧
      Bal (u :: ts) ((u, e) :: k) (v :: r) := by
  induction r generalizing u e ts a v with
  | nil =>
    match ts, hlen with
    | [w], _ =>
      have huw : u < w := by simpa using hts
      refine ⟨[((w + u) / 2, v), (w, 2 * v - (v + a) / 2)], by simp [linPoints, zigTail, he], ?_⟩
      refine Bal.period huw ?_ (Bal.last w _)
      rw [he]; ring
  | cons w r ih =>
    match ts, hlen with
    | x :: ts, hlen =>
      have huw : u < x := (List.pairwise_cons.1 hts).1 x (by simp)
      obtain ⟨k, hk, hb⟩ := ih x ((w + v) / 2) ts v w (by simpa using hlen)
        (List.pairwise_cons.1 hts).2 rfl
      refine ⟨((x + u) / 2, (4 * v - (v + a) / 2 - (w + v) / 2) / 2) :: (x, (w + v) / 2) :: k,
        ?_, ?_⟩
      · simp only [linPoints, zigTail, List.zip_cons_cons, hk, he]
      · refine Bal.period huw ?_ hb
        rw [he]; ring

theorem bal_lin {src vs : List K} (hsrc : src.Pairwise (· < ·))
    (hlen : src.length = vs.length + 1) (h2 : 2 ≤ vs.length) :
    Bal src ((linPoints src).zip (linValues vs)) vs := by
  match vs, h2, src, hlen with
  | a :: b :: r, _, t :: u :: ts, hlen =>
    have htu : t < u := (List.pairwise_cons.1 hsrc).1 u (by simp)
    obtain ⟨k, hk, hb⟩ := bal_zigTail u ((b + a) / 2) ts a b r (by simpa using hlen)
      (List.pairwise_cons.1 hsrc).2 rfl
    rw [linValues_eq]
    simp only [linPoints, List.zip_cons_cons, hk]
    exact Bal.period htu (by ring) hb

theorem Bal.inc {ts : List K} {k : List (K × K)} {vs : List K} (h : Bal ts k vs) : Inc k := by
  induction h with
  | last t e => simp [Inc]
  | period htu hb hr ih =>
    rename_i t u _ _ _ _ _ _ _
    refine Inc.cons (Inc.cons ih ?_) ?_
    · show (u + t) / 2 < u; linarith
    · show t < (u + t) / 2; linarith

theorem Bal.length {ts : List K} {k : List (K × K)} {vs : List K} (h : Bal ts k vs) :
    ts.length = vs.length + 1 := by
  induction h with
  | last => rfl
  | period _ _ _ ih => simp only [List.length_cons] at *; omega

theorem Bal.mem {ts : List K} {k : List (K × K)} {vs : List K} (h : Bal ts k vs) :
    ∀ t ∈ ts, ∃ e, (t, e) ∈ k := by
  induction h with
  | last t e => intro x hx; simp at hx; subst hx; exact ⟨e, by simp⟩
  | period htu hb hr ih =>
    intro x hx
    rcases List.mem_cons.1 hx with rfl | hx
    · exact ⟨_, List.mem_cons_self⟩
    · obtain ⟨e, he⟩ := ih x hx
      exact ⟨e, List.mem_cons_of_mem _ (List.mem_cons_of_mem _ he)⟩

/-- Sum of value times period length. -/
def periodSum : List K → List K → K
  | t :: u :: ts, v :: vs => v * (u - t) + periodSum (u :: ts) vs
  | _, _ => 0

/-- One period of a balanced knot list contributes value times length. -/
theorem Bal.prim_period {t u e m e' v x : K} {k : List (K × K)} (htu : t < u)
    (hb : e + 2 * m + e' = 4 * v) (hi : Inc ((t, e) :: ((u + t) / 2, m) :: (u, e') :: k))
    (hx : u ≤ x) (hk : k ≠ [] ∨ x = u) :
    prim ((t, e) :: ((u + t) / 2, m) :: (u, e') :: k) x
      = v * (u - t) + prim ((u, e') :: k) x := by
  have h1 : t < (u + t) / 2 := by linarith
  have h2 : (u + t) / 2 < u := by linarith
  have a1 : lineArea (t, e) ((u + t) / 2, m) ((u + t) / 2) = (e + m) / 2 * ((u + t) / 2 - t) :=
    lineArea_right (p := (t, e)) (q := ((u + t) / 2, m)) h1
  have a2 : lineArea ((u + t) / 2, m) (u, e') u = (m + e') / 2 * (u - (u + t) / 2) :=
    lineArea_right (p := ((u + t) / 2, m)) (q := (u, e')) h2
  have hsum : (e + m) / 2 * ((u + t) / 2 - t) + (m + e') / 2 * (u - (u + t) / 2) = v * (u - t) := by
    have : e = 4 * v - 2 * m - e' := by linear_combination hb
    rw [this]; ring
  rw [prim_tail hi (by simp) (le_trans h2.le hx)]
  show lineArea (t, e) ((u + t) / 2, m) ((u + t) / 2) + _ = _
  rcases hk with hk | rfl
  · rw [prim_tail hi.tail hk hx]
    show _ + (lineArea ((u + t) / 2, m) (u, e') u + _) = _
    rw [a1, a2, ← hsum]; ring
  · cases k with
    | nil =>
      rw [prim_first (le_refl _), a1, a2]
      simp [prim, hsum]
    | cons q k =>
      rw [prim_tail hi.tail (by simp) (le_refl _)]
      show _ + (lineArea ((x + t) / 2, m) (x, e') x + _) = _
      rw [a1, a2, ← hsum]; ring

theorem Bal.prim_edge {ts : List K} {k : List (K × K)} {vs : List K} (h : Bal ts k vs) :
    ∀ i (hi : i < ts.length), prim k ts[i] = periodSum (ts.take (i + 1)) (vs.take i) := by
  induction h with
  | last t e => intro i hi; simp at hi; subst hi; simp [prim, periodSum]
  | period htu hb hr ih =>
    rename_i t u e m e' v ts k vs
    intro i hi
    have hinc := (Bal.period htu hb hr).inc
    cases i with
    | zero =>
      simp only [List.getElem_cons_zero]
      rw [prim_head hinc]; simp [periodSum]
    | succ i =>
      have hi' : i < (u :: ts).length := by simpa using hi
      have hge : u ≤ (u :: ts)[i] := by
        obtain ⟨e2, he2⟩ := hr.mem _ (List.getElem_mem hi')
        rcases List.mem_cons.1 he2 with h' | h'
        · injection h' with h' _; exact h'.ge
        · exact (hr.inc.lt h').le
      have hk : k ≠ [] ∨ (u :: ts)[i] = u := by
        cases hr with
        | last => right; simp at hi'; subst hi'; rfl
        | period => left; simp
      simp only [List.getElem_cons_succ, List.take_succ_cons]
      rw [Bal.prim_period htu hb hinc hge hk, ih i hi']
      cases i with
      | zero => simp [periodSum]
      | succ i => simp [periodSum]

theorem periodSum_take_succ (ts vs : List K) (i : Nat) (h1 : i + 1 < ts.length)
    (h2 : i < vs.length) :
    periodSum (ts.take (i + 2)) (vs.take (i + 1))
      = periodSum (ts.take (i + 1)) (vs.take i) + vs[i] * (ts[i + 1] - ts[i]) := by
  induction i generalizing ts vs with
  | zero =>
    match ts, vs, h1, h2 with
    | t :: u :: ts, v :: vs, _, _ => simp [periodSum]
  | succ i ih =>
    match ts, vs, h1, h2 with
    | t :: u :: ts, v :: vs, h1, h2 =>
      have := ih (u :: ts) vs (by simpa using h1) (by simpa using h2)
      simp only [List.take_succ_cons, periodSum, List.getElem_cons_succ] at *
      rw [this]; ring

/-! ## Averages over lists of intervals -/

theorem intervalAverages_length {ext : Extrap} {lo hi : K} {k : List (K × K)} {tgt : List K}
    {r : List (Fl K)} (h : intervalAverages ext lo hi k tgt = .ok r) :
    r.length = tgt.length - 1 := by
  induction tgt generalizing r with
  | nil => simp [intervalAverages] at h; subst h; rfl
  | cons l tgt ih =>
    cases tgt with
    | nil => simp [intervalAverages] at h; subst h; rfl
    | cons u tgt =>
      simp only [intervalAverages] at h
      split at h
      · cases h
      · split at h
        · cases h
        · rename_i ys hys
          injection h with h; subst h
          simp [ih hys]

theorem intervalAverages_getElem {ext : Extrap} {lo hi : K} {k : List (K × K)} {tgt : List K}
    {r : List (Fl K)} (h : intervalAverages ext lo hi k tgt = .ok r) (i : Nat)
    (hi' : i + 1 < tgt.length) :
    intervalAverage ext lo hi k tgt[i] tgt[i + 1]
      = .ok (r[i]'(by rw [intervalAverages_length h]; omega)) := by
  induction tgt generalizing r i with
  | nil => simp at hi'
  | cons l tgt ih =>
    cases tgt with
    | nil => simp at hi'
    | cons u tgt =>
      simp only [intervalAverages] at h
      split at h
      · cases h
      · rename_i y hy
        split at h
        · cases h
        · rename_i ys hys
          injection h with h; subst h
          cases i with
          | zero => simpa using hy
          | succ i => exact ih hys i (by simpa using hi')

theorem intervalAverages_of {ext : Extrap} {lo hi : K} {k : List (K × K)} {tgt : List K}
    {r : List (Fl K)} (hl : r.length = tgt.length - 1)
    (h : ∀ i (hi' : i + 1 < tgt.length), intervalAverage ext lo hi k tgt[i] tgt[i + 1]
      = .ok (r[i]'(by omega))) : intervalAverages ext lo hi k tgt = .ok r := by
  induction tgt generalizing r with
  | nil => simp at hl; subst hl; rfl
  | cons l tgt ih =>
    cases tgt with
    | nil => simp at hl; subst hl; rfl
    | cons u tgt =>
      match r, hl with
      | y :: r, hl =>
        have h0 := h 0 (by simp)
        simp only [List.getElem_cons_zero, List.getElem_cons_succ] at h0
        have := ih (r := r) (by simpa using hl) (fun i hi' =>
          h (i + 1) (by simpa using hi'))
        simp only [intervalAverages, h0, this]

theorem evalAll_length {ext : Extrap} {lo hi : K} {k : List (K × K)} {tgt : List K}
    {r : List (Fl K)} (h : evalAll ext lo hi k tgt = .ok r) : r.length = tgt.length := by
  induction tgt generalizing r with
  | nil => simp [evalAll] at h; subst h; rfl
  | cons l tgt ih =>
    simp only [evalAll] at h
    split at h
    · cases h
    · split at h
      · cases h
      · rename_i ys hys
        injection h with h; subst h
        simp [ih hys]

theorem evalAll_getElem {ext : Extrap} {lo hi : K} {k : List (K × K)} {tgt : List K}
    {r : List (Fl K)} (h : evalAll ext lo hi k tgt = .ok r) (i : Nat) (hi' : i < tgt.length) :
    ∃ y, evalAt ext lo hi k tgt[i] = .ok y ∧
      r[i]'(by rw [evalAll_length h]; exact hi') = .num y := by
  induction tgt generalizing r i with
  | nil => simp at hi'
  | cons l tgt ih =>
    simp only [evalAll] at h
    split at h
    · cases h
    · rename_i y hy
      split at h
      · cases h
      · rename_i ys hys
        injection h with h; subst h
        cases i with
        | zero => exact ⟨y, by simpa using hy, by simp⟩
        | succ i => simpa using ih hys i (by simpa using hi')

theorem evalAll_of {ext : Extrap} {lo hi : K} {k : List (K × K)} {tgt ys : List K}
    (hl : ys.length = tgt.length)
    (h : ∀ i (hi' : i < tgt.length), evalAt ext lo hi k tgt[i] = .ok (ys[i]'(by omega))) :
    evalAll ext lo hi k tgt = .ok (ys.map .num) := by
  induction tgt generalizing ys with
  | nil => simp at hl; subst hl; rfl
  | cons l tgt ih =>
    match ys, hl with
    | y :: ys, hl =>
      have h0 := h 0 (by simp)
      simp only [List.getElem_cons_zero] at h0
      have := ih (ys := ys) (by simpa using hl) (fun i hi' =>
        h (i + 1) (by simpa using hi'))
      simp only [evalAll, h0, this, List.map_cons]

/-! ## Unfolding `convertNum` on good input -/

/-- The knots used for an average series. -/
def avgKnots (src vs : List K) : List (K × K) := (linPoints src).zip (linValues vs)

theorem convertNum_average {ext : Extrap} {src tgt vs : List K} (h3 : 3 ≤ vs.length)
    (hl : src.length = vs.length + 1) (hsrc : src.Pairwise (· < ·)) :
    convertNum .average ext src tgt vs =
      toInsufficient
        (intervalAverages ext (vs.headD 0) (vs.getLastD 0) (avgKnots src vs) tgt) := by
  have hb := bal_lin hsrc hl (by omega)
  have hs : sortKnots ((linPoints src).zip (linValues vs)) = avgKnots src vs :=
    sortKnots_of_strict hb.inc
  have hst : strictInc ((avgKnots src vs).map Prod.fst) = true := (strictInc_iff _).2 hb.inc
  unfold convertNum
  simp only [hs, hst, hl]
  rw [if_neg (by omega)]
  simp

theorem convertNum_point {ext : Extrap} {src tgt vs : List K} (h3 : 3 ≤ vs.length)
    (hl : src.length = vs.length) (hsrc : src.Pairwise (· < ·)) :
    convertNum .point ext src tgt vs =
      toInsufficient (evalAll ext (vs.headD 0) (vs.getLastD 0) (src.zip vs) tgt) := by
  have hf : (src.zip vs).map Prod.fst = src := zip_map_fst hl
  have hs : sortKnots (src.zip vs) = src.zip vs := sortKnots_of_strict (by rw [hf]; exact hsrc)
  have hst : strictInc ((src.zip vs).map Prod.fst) = true := by
    rw [strictInc_iff, hf]; exact hsrc
  unfold convertNum
  simp only [hs, hst, hl]
  rw [if_neg (by omega)]
  simp

theorem mem_zip_getElem {a b : List K} (hl : a.length = b.length) (i : Nat) (h : i < a.length) :
    (a[i], b[i]'(by omega)) ∈ a.zip b := by
  have h' : i < (a.zip b).length := by rw [List.length_zip]; omega
  have := List.getElem_mem h'
  simpa using this

end Openscm
