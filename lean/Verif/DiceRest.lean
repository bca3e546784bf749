import Verif.DiceMono2
import Mathlib.Tactic.LinearCombination
import Mathlib.Tactic.FieldSimp

/-!
# C96: where DICE comes to rest

`openscm/adapters/dice.py:287-365`: without emissions the carbon pools approach their equilibrium shares of the carbon there
is, and the temperatures the equilibrium warming of the forcing.
-/

set_option linter.unusedSectionVars false

namespace Openscm
variable {K : Type} [Field K] [LinearOrder K] [IsStrictOrderedRing K]

/-! ## Specification -/

/-- The size of a carbon pool in equilibrium. -/
def poolEq : OName → Option SName
  | .mat => some .mateq
  | .ml => some .mleq
  | .mu => some .mueq
  | _ => none

/-- All carbon pools shown at time point `j` are at least `a` times their size in equilibrium. -/
def PoolsAbove (E : DEnv K) (d : Dice K) (W : Scenario K) (v : SName → K) (j : Nat) (a : K) : Prop :=
  ∀ o s, poolEq o = some s → ∃ x, Shows E d W o j x ∧ a * v s ≤ x

/-- All carbon pools shown at time point `j` are at most `b` times their size in equilibrium. -/
def PoolsBelow (E : DEnv K) (d : Dice K) (W : Scenario K) (v : SName → K) (j : Nat) (b : K) : Prop :=
  ∀ o s, poolEq o = some s → ∃ x, Shows E d W o j x ∧ x ≤ b * v s

/-- The lower bounds of the pools are below `b` times their sizes in equilibrium. -/
def BoundsBelow (v : SName → K) (b : K) : Prop := v .mat_lower ≤ b * v .mateq ∧ v .ml_lower ≤ b * v .mleq ∧ v .mu_lower ≤ b * v .mueq

/-- Every pool gets in a step at least the part `q` of its new content from the shallow ocean, measured in sizes in
equilibrium. -/
structure Mixes (v : SName → K) (q : K) : Prop where
  pos : 0 ≤ q
  mat : q ≤ v .b12
  mu : v .b12 * (v .mateq / v .mueq) + v .b23 + q ≤ 1
  ml : q ≤ v .b23 * (v .mueq / v .mleq)

/-! ## A step -/

theorem raw_ge {W : Scenario K} {v : SName → K} (hv : WellPosed W v) {e : K} (he : 0 ≤ e) {x : OName → K} {a p q : K} (hq : q = 0 ∨ Mixes v q) (hp : a ≤ p) (hpx : p * v .mueq ≤ x .mu)
    (ha : ∀ o s, poolEq o = some s → a * v s ≤ x o) :
    ((1 - q) * a + q * p) * v .mateq ≤ x .mat * (1 - v .b12) + x .mu * (v .b12 * v .mateq / v .mueq) + e ∧
      ((1 - q) * a + q * p) * v .mleq ≤ x .ml * (1 - v .b23 * v .mueq / v .mleq) + x .mu * v .b23 ∧
      ((1 - q) * a + q * p) * v .mueq ≤ x .mat * v .b12 + x .mu * (1 - v .b12 * v .mateq / v .mueq - v .b23) +
        x .ml * (v .b23 * v .mueq / v .mleq) := by
  have eA := hv.mateq
  have eU := hv.mueq
  have eL := hv.mleq
  have b12 := hv.b12
  have b23 := hv.b23
  have u1 : q ≤ v .b12 := by
    rcases hq with rfl | h
    · exact b12
    · exact h.mat
  have u2 : v .b12 * (v .mateq / v .mueq) + v .b23 + q ≤ 1 := by
    rcases hq with rfl | h
    · have := hv.upper; linarith
    · exact h.mu
  have u3 : q ≤ v .b23 * (v .mueq / v .mleq) := by
    rcases hq with rfl | h
    · positivity
    · exact h.ml
  have xA := ha .mat _ rfl
  have xU := ha .mu _ rfl
  have xL := ha .ml _ rfl
  have hd := sub_nonneg.2 hp
  have up := hv.upper
  have lo := hv.lower
  generalize hb21 : v .b12 * (v .mateq / v .mueq) = b21 at *
  generalize hb32 : v .b23 * (v .mueq / v .mleq) = b32 at *
  have m21 : v .mueq * b21 = v .b12 * v .mateq := by rw [← hb21]; field_simp
  have m32 : v .mleq * b32 = v .b23 * v .mueq := by rw [← hb32]; field_simp
  have n21 : 0 ≤ b21 := by rw [← hb21]; positivity
  have n32 : 0 ≤ b32 := by rw [← hb32]; positivity
  refine ⟨?_, ?_, ?_⟩
  · rw [mul_div_assoc, hb21]
    have t1 := mul_le_mul_of_nonneg_right xA (sub_nonneg.2 hv.b12_le)
    have t2 := mul_le_mul_of_nonneg_right hpx n21
    have t3 : 0 ≤ (p - a) * (v .b12 - q) * v .mateq := mul_nonneg (mul_nonneg hd (sub_nonneg.2 u1)) eA.le
    have t4 : p * v .mueq * b21 = p * (v .b12 * v .mateq) := by rw [mul_assoc, m21]
    linarith
  · rw [mul_div_assoc, hb32]
    have t1 := mul_le_mul_of_nonneg_right xL (sub_nonneg.2 lo)
    have t2 := mul_le_mul_of_nonneg_right hpx b23
    have t3 : 0 ≤ (p - a) * (b32 - q) * v .mleq := mul_nonneg (mul_nonneg hd (sub_nonneg.2 u3)) eL.le
    have t4 : p * v .mueq * v .b23 = p * (v .mleq * b32) := by rw [m32]; ring
    linarith
  · rw [mul_div_assoc, hb21, mul_div_assoc, hb32]
    have t1 := mul_le_mul_of_nonneg_right xA b12
    have t2 := mul_le_mul_of_nonneg_right hpx (show 0 ≤ 1 - b21 - v .b23 by linarith)
    have t3 := mul_le_mul_of_nonneg_right xL n32
    have t4 : 0 ≤ (p - a) * (1 - b21 - v .b23 - q) * v .mueq := mul_nonneg (mul_nonneg hd (by linarith)) eU.le
    have t5 : a * v .mateq * v .b12 = a * (v .mueq * b21) := by rw [m21]; ring
    have t6 : a * v .mleq * b32 = a * (v .b23 * v .mueq) := by rw [mul_assoc, m32]
    linarith

theorem NStep.pools_ge {lg : K → K} {W : Scenario K} {v : SName → K} (hv : WellPosed W v) {other e : K} (he : 0 ≤ e)
    {x x' : OName → K} (h : NStep lg v other e x x') {a p q : K} (hq : q = 0 ∨ Mixes v q) (hp : a ≤ p) (hpx : p * v .mueq ≤ x .mu)
    (ha : ∀ o s, poolEq o = some s → a * v s ≤ x o) : ∀ o s, poolEq o = some s → ((1 - q) * a + q * p) * v s ≤ x' o := by
  obtain ⟨r1, r2, r3⟩ := raw_ge hv he hq hp hpx ha
  intro o s ho
  cases o <;> simp only [poolEq, Option.some.injEq, reduceCtorEq] at ho
  · subst ho
    rw [h.mat]
    exact le_max_of_le_right r1
  · subst ho
    rw [h.ml]
    exact le_max_of_le_right r2
  · subst ho
    rw [h.mu]
    exact le_max_of_le_right r3

/-- What is there stays there. -/
theorem NStep.total {lg : K → K} {W : Scenario K} {v : SName → K} (hv : WellPosed W v) {other : K}
    {x x' : OName → K} (h : NStep lg v other 0 x x') {a : K} (ha : ∀ o s, poolEq o = some s → a * v s ≤ x o) (hl : BoundsBelow v a) :
    x' .mat + x' .ml + x' .mu = x .mat + x .ml + x .mu := by
  obtain ⟨r1, r2, r3⟩ := raw_ge hv (le_refl (0 : K)) (.inl rfl) (le_refl a) (ha .mu _ rfl) ha
  have e : (1 - 0) * a + 0 * a = a := by ring
  rw [e] at r1 r2 r3
  obtain ⟨l1, l2, l3⟩ := hl
  rw [h.mat, h.ml, h.mu, max_eq_right (l1.trans r1), max_eq_right (l2.trans r2), max_eq_right (l3.trans r3)]
  ring

theorem NStep.pools_le {lg : K → K} {W : Scenario K} {v : SName → K} (hv : WellPosed W v) {other e : K} (he : e ≤ 0)
    {x x' : OName → K} (h : NStep lg v other e x x') {b p q : K} (hq : q = 0 ∨ Mixes v q) (hp : p ≤ b) (hpx : x .mu ≤ p * v .mueq)
    (hb : ∀ o s, poolEq o = some s → x o ≤ b * v s) (hl : BoundsBelow v ((1 - q) * b + q * p)) :
    ∀ o s, poolEq o = some s → x' o ≤ ((1 - q) * b + q * p) * v s := by
  have eA := hv.mateq
  have eU := hv.mueq
  have eL := hv.mleq
  have b12 := hv.b12
  have b23 := hv.b23
  have u1 : q ≤ v .b12 := by
    rcases hq with rfl | h
    · exact b12
    · exact h.mat
  have u2 : v .b12 * (v .mateq / v .mueq) + v .b23 + q ≤ 1 := by
    rcases hq with rfl | h
    · have := hv.upper; linarith
    · exact h.mu
  have u3 : q ≤ v .b23 * (v .mueq / v .mleq) := by
    rcases hq with rfl | h
    · positivity
    · exact h.ml
  have xA := hb .mat _ rfl
  have xU := hb .mu _ rfl
  have xL := hb .ml _ rfl
  have hd := sub_nonneg.2 hp
  have up := hv.upper
  have lo := hv.lower
  generalize hb21 : v .b12 * (v .mateq / v .mueq) = b21 at *
  generalize hb32 : v .b23 * (v .mueq / v .mleq) = b32 at *
  have m21 : v .mueq * b21 = v .b12 * v .mateq := by rw [← hb21]; field_simp
  have m32 : v .mleq * b32 = v .b23 * v .mueq := by rw [← hb32]; field_simp
  have n21 : 0 ≤ b21 := by rw [← hb21]; positivity
  have n32 : 0 ≤ b32 := by rw [← hb32]; positivity
  obtain ⟨l1, l2, l3⟩ := hl
  intro o s ho
  cases o <;> simp only [poolEq, Option.some.injEq, reduceCtorEq] at ho
  · subst ho
    rw [h.mat, mul_div_assoc, hb21]
    refine max_le l1 ?_
    have t1 := mul_le_mul_of_nonneg_right xA (sub_nonneg.2 hv.b12_le)
    have t2 := mul_le_mul_of_nonneg_right hpx n21
    have t3 : 0 ≤ (b - p) * (v .b12 - q) * v .mateq := mul_nonneg (mul_nonneg hd (sub_nonneg.2 u1)) eA.le
    have t4 : p * v .mueq * b21 = p * (v .b12 * v .mateq) := by rw [mul_assoc, m21]
    linarith
  · subst ho
    rw [h.ml, mul_div_assoc, hb32]
    refine max_le l2 ?_
    have t1 := mul_le_mul_of_nonneg_right xL (sub_nonneg.2 lo)
    have t2 := mul_le_mul_of_nonneg_right hpx b23
    have t3 : 0 ≤ (b - p) * (b32 - q) * v .mleq := mul_nonneg (mul_nonneg hd (sub_nonneg.2 u3)) eL.le
    have t4 : p * v .mueq * v .b23 = p * (v .mleq * b32) := by rw [m32]; ring
    linarith
  · subst ho
    rw [h.mu, mul_div_assoc, hb21, mul_div_assoc, hb32]
    refine max_le l3 ?_
    have t1 := mul_le_mul_of_nonneg_right xA b12
    have t2 := mul_le_mul_of_nonneg_right hpx (show 0 ≤ 1 - b21 - v .b23 by linarith)
    have t3 := mul_le_mul_of_nonneg_right xL n32
    have t4 : 0 ≤ (b - p) * (1 - b21 - v .b23 - q) * v .mueq := mul_nonneg (mul_nonneg hd (by linarith)) eU.le
    have t5 : b * v .mateq * v .b12 = b * (v .mueq * b21) := by rw [m21]; ring
    have t6 : b * v .mleq * b32 = b * (v .b23 * v .mueq) := by rw [mul_assoc, m32]
    linarith

/-! ## Without emissions -/

theorem carbon_nonneg {W : Scenario K} (hp : 0 < W.period) {a : K} (h : 0 ≤ a) : 0 ≤ carbon W a := by
  unfold carbon
  have h1 : (0 : K) ≤ (W.period : K) / (365 * 24 * 60 * 60) := div_nonneg (by exact_mod_cast hp.le) (by norm_num)
  refine div_nonneg (mul_nonneg h h1) ?_
  split <;> norm_num

theorem carbon_nonpos {W : Scenario K} (hp : 0 < W.period) {a : K} (h : a ≤ 0) : carbon W a ≤ 0 := by
  have := carbon_nonneg hp (neg_nonneg.2 h)
  have e : carbon W (-a) = -carbon W a := by unfold carbon; ring
  rw [e] at this
  linarith

theorem carbon_zero (W : Scenario K) : carbon W 0 = 0 := by unfold carbon; ring

/-- The numbers behind what is shown. -/
theorem Journey.numbers {E : DEnv K} {d d' : Dice K} {W : Scenario K} {n : Nat} (h : Journey E d d' W n) {v : SName → K}
    (hv : ∀ s, W.p s = .num (v s)) {f : Nat → K} (hf : Emits W n f) :
    ∃ X : Nat → OName → K, (∀ j, j ≤ n → ∀ o x, Shows E d' W o j x → x = X j o) ∧
      ∀ j, j < n → NStep E.lg v (otherNum E.env.trunc W v (j + 1)) (carbon W (f j)) (X j) (X (j + 1)) := by
  obtain ⟨L, hp, -, hsh⟩ := h.spec
  obtain ⟨X, X1, -, X3⟩ := hp.numbers hv hf
  refine ⟨X, fun j hj o x hx => ?_, X3⟩
  have c := hsh _ _ _ hx
  rw [X1 j hj] at c
  exact (Fl.num.inj c).symm

/-- C96: from some time point on no carbon is taken out; if then all pools are at least `a` times their size in equilibrium,
they stay so. -/
theorem C96_pools_above {E : DEnv K} {d d' : Dice K} {W : Scenario K} {n : Nat} (h : Journey E d d' W n) {v : SName → K}
    (hv : WellPosed W v) {f : Nat → K} (hf : Emits W n f) {i j : Nat} (hij : i ≤ j) (hj : j ≤ n)
    (h0 : ∀ k, i ≤ k → k < j → 0 ≤ f k) {a : K} (ha : PoolsAbove E d' W v i a) {o : OName} {s : SName} (ho : poolEq o = some s) {x : K}
    (hx : Shows E d' W o j x) : a * v s ≤ x := by
  obtain ⟨X, X1, X2⟩ := h.numbers hv.val hf
  have key : ∀ k, i ≤ k → k ≤ j → ∀ o s, poolEq o = some s → a * v s ≤ X k o := by
    intro k hk
    induction k, hk using Nat.le_induction with
    | base =>
      intro _ o s hos
      obtain ⟨y, y1, y2⟩ := ha o s hos
      rw [← X1 i (by omega) o y y1]
      exact y2
    | succ k hk ih =>
      intro hkj o s hos
      have ih := ih (by omega)
      have := NStep.pools_ge hv (carbon_nonneg h.forward (h0 k hk (by omega))) (X2 k (by omega)) (.inl rfl) (le_refl a)
        (ih .mu _ rfl) ih o s hos
      simpa using this
  rw [X1 j hj o x hx]
  exact key j hij (le_refl _) o s ho

/-- C96: from some time point on nothing is emitted; if then all pools are at most `b` times their size in equilibrium, they
stay so. -/
theorem C96_pools_below {E : DEnv K} {d d' : Dice K} {W : Scenario K} {n : Nat} (h : Journey E d d' W n) {v : SName → K}
    (hv : WellPosed W v) {f : Nat → K} (hf : Emits W n f) {i j : Nat} (hij : i ≤ j) (hj : j ≤ n)
    (h0 : ∀ k, i ≤ k → k < j → f k ≤ 0) {b : K} (hl : BoundsBelow v b) (hb : PoolsBelow E d' W v i b) {o : OName} {s : SName}
    (ho : poolEq o = some s) {x : K} (hx : Shows E d' W o j x) : x ≤ b * v s := by
  obtain ⟨X, X1, X2⟩ := h.numbers hv.val hf
  have key : ∀ k, i ≤ k → k ≤ j → ∀ o s, poolEq o = some s → X k o ≤ b * v s := by
    intro k hk
    induction k, hk using Nat.le_induction with
    | base =>
      intro _ o s hos
      obtain ⟨y, y1, y2⟩ := hb o s hos
      rw [← X1 i (by omega) o y y1]
      exact y2
    | succ k hk ih =>
      intro hkj o s hos
      have ih := ih (by omega)
      have := NStep.pools_le hv (carbon_nonpos h.forward (h0 k hk (by omega))) (X2 k (by omega)) (.inl rfl) (le_refl b)
        (ih .mu _ rfl) ih (by simpa using hl) o s hos
      simpa using this
  rw [X1 j hj o x hx]
  exact key j hij (le_refl _) o s ho

/-- C96: without emissions the pools approach the shares they have in equilibrium of the carbon there is, by a constant
factor in every step. -/
theorem C96_rest {E : DEnv K} {d d' : Dice K} {W : Scenario K} {n : Nat} (h : Journey E d d' W n) {v : SName → K}
    (hv : WellPosed W v) {f : Nat → K} (hf : Emits W n f) {i j : Nat} (hij : i ≤ j) (hj : j ≤ n)
    (h0 : ∀ k, i ≤ k → k < j → f k = 0) {a b q : K} (hl : BoundsBelow v a) (hq : Mixes v q) (ha : PoolsAbove E d' W v i a)
    (hb : PoolsBelow E d' W v i b) {A U L : K} (hA : Shows E d' W .mat i A) (hU : Shows E d' W .mu i U) (hL : Shows E d' W .ml i L)
    {o : OName} {s : SName} (ho : poolEq o = some s) {x : K} (hx : Shows E d' W o j x) :
    |x / v s - (A + U + L) / (v .mateq + v .mueq + v .mleq)| ≤ (1 - q) ^ (j - i) * (b - a) := by
  obtain ⟨X, X1, X2⟩ := h.numbers hv.val hf
  have eA := hv.mateq
  have eU := hv.mueq
  have eL := hv.mleq
  have q1 : q ≤ 1 := hq.mat.trans hv.b12_le
  have hab : a ≤ b := by
    obtain ⟨y, y1, y2⟩ := ha .mu _ rfl
    obtain ⟨z, z1, z2⟩ := hb .mu _ rfl
    rw [X1 i (by omega) _ _ y1] at y2
    rw [X1 i (by omega) _ _ z1] at z2
    exact le_of_mul_le_mul_right (y2.trans z2) eU
  have key : ∀ k, i ≤ k → k ≤ j → ∃ a' b', a ≤ a' ∧ b' - a' = (1 - q) ^ (k - i) * (b - a) ∧
      (∀ o s, poolEq o = some s → a' * v s ≤ X k o) ∧ (∀ o s, poolEq o = some s → X k o ≤ b' * v s) ∧
      X k .mat + X k .ml + X k .mu = A + L + U := by
    intro k hk
    induction k, hk using Nat.le_induction with
    | base =>
      intro _
      refine ⟨a, b, le_refl _, by simp, fun o s hos => ?_, fun o s hos => ?_, ?_⟩
      · obtain ⟨y, y1, y2⟩ := ha o s hos
        rw [← X1 i (by omega) o y y1]
        exact y2
      · obtain ⟨y, y1, y2⟩ := hb o s hos
        rw [← X1 i (by omega) o y y1]
        exact y2
      · rw [← X1 i (by omega) _ _ hA, ← X1 i (by omega) _ _ hU, ← X1 i (by omega) _ _ hL]
    | succ k hk ih =>
      intro hkj
      obtain ⟨a', b', k1, k2, k3, k4, k5⟩ := ih (by omega)
      have st := X2 k (by omega)
      rw [h0 k hk (by omega), carbon_zero] at st
      have pU : X k .mu / v .mueq * v .mueq = X k .mu := div_mul_cancel₀ _ eU.ne'
      have p1 : a' ≤ X k .mu / v .mueq := by rw [le_div_iff₀ eU]; exact k3 .mu _ rfl
      have p2 : X k .mu / v .mueq ≤ b' := by rw [div_le_iff₀ eU]; exact k4 .mu _ rfl
      generalize hP : X k .mu / v .mueq = P at pU p1 p2
      have g1 : a' ≤ (1 - q) * a' + q * P := by nlinarith [hq.pos]
      have g2 : a' ≤ (1 - q) * b' + q * P := by nlinarith [hq.pos]
      have bnd : ∀ {t}, a ≤ t → BoundsBelow v t := fun {t} ht =>
        ⟨hl.1.trans (mul_le_mul_of_nonneg_right ht eA.le), hl.2.1.trans (mul_le_mul_of_nonneg_right ht eL.le),
          hl.2.2.trans (mul_le_mul_of_nonneg_right ht eU.le)⟩
      refine ⟨(1 - q) * a' + q * P, (1 - q) * b' + q * P, k1.trans g1, ?_,
        NStep.pools_ge hv (le_refl _) st (.inr hq) p1 pU.le k3,
        NStep.pools_le hv (le_refl _) st (.inr hq) p2 pU.ge k4 (bnd (k1.trans g2)), ?_⟩
      · rw [Nat.succ_sub hk, pow_succ]
        linear_combination (1 - q) * k2
      · rw [NStep.total hv st k3 (bnd k1), k5]
  obtain ⟨a', b', -, k2, k3, k4, k5⟩ := key j hij (le_refl _)
  have hE : 0 < v .mateq + v .mueq + v .mleq := by positivity
  have r1 : a' ≤ (A + U + L) / (v .mateq + v .mueq + v .mleq) := by
    rw [le_div_iff₀ hE]
    have := k3 .mat _ rfl
    have := k3 .mu _ rfl
    have := k3 .ml _ rfl
    linarith
  have r2 : (A + U + L) / (v .mateq + v .mueq + v .mleq) ≤ b' := by
    rw [div_le_iff₀ hE]
    have := k4 .mat _ rfl
    have := k4 .mu _ rfl
    have := k4 .ml _ rfl
    linarith
  have es : 0 < v s := by
    cases o <;> simp only [poolEq, Option.some.injEq, reduceCtorEq] at ho <;> subst ho
    · exact eA
    · exact eL
    · exact eU
  have s1 : a' ≤ x / v s := by
    rw [le_div_iff₀ es, X1 j hj o x hx]
    exact k3 o s ho
  have s2 : x / v s ≤ b' := by
    rw [div_le_iff₀ es, X1 j hj o x hx]
    exact k4 o s ho
  rw [abs_le]
  constructor <;> linarith

/-! ## Temperatures -/

/-- A temperature. -/
def OName.isTemp : OName → Bool
  | .tatm | .tocean => true
  | _ => false

/-- How much of a distance from the equilibrium the layers lose at least in two steps. -/
def relaxation (v : SName → K) : K := v .c4 * (v .c1 * (v .fco22x / v .t2xco2))

theorem relax_facts {W : Scenario K} {v : SName → K} (hv : WellPosed W v) :
    0 ≤ v .c1 * (v .fco22x / v .t2xco2) ∧ v .c1 * (v .fco22x / v .t2xco2) ≤ 1 ∧ 0 ≤ relaxation v ∧ relaxation v ≤ 1 := by
  have h1 := hv.c1
  have h2 := hv.fco22x
  have h3 := hv.t2xco2
  have h4 := hv.c3
  have a1 : 0 ≤ v .c1 * (v .fco22x / v .t2xco2) := by positivity
  have a2 : v .c1 * (v .fco22x / v .t2xco2) ≤ 1 := by
    have := hv.warm
    have : 0 ≤ v .c1 * v .c3 := by positivity
    linarith
  exact ⟨a1, a2, mul_nonneg hv.c4 a1, mul_le_one₀ hv.c4_le a1 a2⟩

theorem NStep.temp_le {lg : K → K} {W : Scenario K} {v : SName → K} (hv : WellPosed W v) {other e : K} {x x' : OName → K}
    (h : NStep lg v other e x x') {B D D' : K} (hB : v .tocean_lower ≤ B) (h0 : 0 ≤ D') (hD : D' ≤ D) (ha : x .tatm ≤ B + D')
    (ho : x .tocean ≤ B + D) (hf : x' .forc ≤ v .fco22x / v .t2xco2 * B) :
    x' .tatm ≤ B + (1 - v .c1 * (v .fco22x / v .t2xco2)) * D ∧ x' .tocean ≤ B + ((1 - v .c4) * D + v .c4 * D') := by
  have w := hv.warm
  rw [h.tatm, h.tocean]
  generalize v .fco22x / v .t2xco2 = lam at *
  constructor
  · refine (min_le_right _ _).trans ?_
    have t1 : 0 ≤ (1 - v .c1 * (lam + v .c3)) * (B + D - x .tatm) := mul_nonneg (by linarith) (by linarith)
    have t2 : 0 ≤ v .c1 * v .c3 * (B + D - x .tocean) := mul_nonneg (mul_nonneg hv.c1 hv.c3) (by linarith)
    have t3 : 0 ≤ v .c1 * (lam * B - x' .forc) := mul_nonneg hv.c1 (by linarith)
    rw [← sub_nonneg]
    refine (add_nonneg (add_nonneg t1 t2) t3).trans (le_of_eq ?_)
    ring
  · have t1 : 0 ≤ (1 - v .c4) * (B + D - x .tocean) := mul_nonneg (sub_nonneg.2 hv.c4_le) (by linarith)
    have t2 : 0 ≤ v .c4 * (B + D' - x .tatm) := mul_nonneg hv.c4 (by linarith)
    refine max_le ?_ ((min_le_right _ _).trans ?_)
    · have : 0 ≤ (1 - v .c4) * D + v .c4 * D' :=
        add_nonneg (mul_nonneg (sub_nonneg.2 hv.c4_le) (h0.trans hD)) (mul_nonneg hv.c4 h0)
      linarith
    · rw [← sub_nonneg]
      refine (add_nonneg t1 t2).trans (le_of_eq ?_)
      ring

theorem NStep.temp_ge {lg : K → K} {W : Scenario K} {v : SName → K} (hv : WellPosed W v) {other e : K} {x x' : OName → K}
    (h : NStep lg v other e x x') {B D D' : K} (hA : B ≤ v .tatm_upper) (hO : B ≤ v .tocean_upper) (h0 : 0 ≤ D') (hD : D' ≤ D)
    (ha : B - D' ≤ x .tatm) (ho : B - D ≤ x .tocean) (hf : v .fco22x / v .t2xco2 * B ≤ x' .forc) :
    B - (1 - v .c1 * (v .fco22x / v .t2xco2)) * D ≤ x' .tatm ∧ B - ((1 - v .c4) * D + v .c4 * D') ≤ x' .tocean := by
  obtain ⟨r1, r2, -, -⟩ := relax_facts hv
  have w := hv.warm
  rw [h.tatm, h.tocean]
  generalize v .fco22x / v .t2xco2 = lam at *
  constructor
  · refine le_min ?_ ?_
    · have : 0 ≤ (1 - v .c1 * lam) * D := mul_nonneg (sub_nonneg.2 r2) (h0.trans hD)
      linarith
    · have t1 : 0 ≤ (1 - v .c1 * (lam + v .c3)) * (x .tatm - (B - D)) := mul_nonneg (by linarith) (by linarith)
      have t2 : 0 ≤ v .c1 * v .c3 * (x .tocean - (B - D)) := mul_nonneg (mul_nonneg hv.c1 hv.c3) (by linarith)
      have t3 : 0 ≤ v .c1 * (x' .forc - lam * B) := mul_nonneg hv.c1 (by linarith)
      rw [← sub_nonneg]
      refine (add_nonneg (add_nonneg t1 t2) t3).trans (le_of_eq ?_)
      ring
  · have t1 : 0 ≤ (1 - v .c4) * (x .tocean - (B - D)) := mul_nonneg (sub_nonneg.2 hv.c4_le) (by linarith)
    have t2 : 0 ≤ v .c4 * (x .tatm - (B - D')) := mul_nonneg hv.c4 (by linarith)
    refine le_max_of_le_right (le_min ?_ ?_)
    · have : 0 ≤ (1 - v .c4) * D + v .c4 * D' :=
        add_nonneg (mul_nonneg (sub_nonneg.2 hv.c4_le) (h0.trans hD)) (mul_nonneg hv.c4 h0)
      linarith
    · rw [← sub_nonneg]
      refine (add_nonneg t1 t2).trans (le_of_eq ?_)
      ring

/-- Distances along two steps at a time. -/
theorem relax_seq {W : Scenario K} {v : SName → K} (hv : WellPosed W v) {P Q : Nat → K → Prop} {i j : Nat} {D : K} (h0 : 0 ≤ D)
    (hP : ∀ {k d d'}, d ≤ d' → P k d → P k d') (hQ : ∀ {k d d'}, d ≤ d' → Q k d → Q k d') (hs : P i D ∧ Q i D)
    (step : ∀ k, i ≤ k → k < j → ∀ d d', 0 ≤ d' → d' ≤ d → P k d' → Q k d →
      P (k + 1) ((1 - v .c1 * (v .fco22x / v .t2xco2)) * d) ∧ Q (k + 1) ((1 - v .c4) * d + v .c4 * d')) {k : Nat} (hik : i ≤ k)
    (hkj : k ≤ j) : P k ((1 - relaxation v) ^ ((k - i) / 2) * D) ∧ Q k ((1 - relaxation v) ^ ((k - i) / 2) * D) := by
  obtain ⟨r1, r2, r3, r4⟩ := relax_facts hv
  have rr : v .c4 * (v .c1 * (v .fco22x / v .t2xco2)) = relaxation v := rfl
  have r5 : relaxation v ≤ v .c1 * (v .fco22x / v .t2xco2) := by
    rw [← rr]
    exact mul_le_of_le_one_left r1 hv.c4_le
  generalize v .c1 * (v .fco22x / v .t2xco2) = g at *
  generalize relaxation v = r at *
  have pos : ∀ m, 0 ≤ (1 - r) ^ m * D := fun m => mul_nonneg (pow_nonneg (sub_nonneg.2 r4) m) h0
  have even : ∀ m, i + 2 * m ≤ j → P (i + 2 * m) ((1 - r) ^ m * D) ∧ Q (i + 2 * m) ((1 - r) ^ m * D) := by
    intro m
    induction m with
    | zero => intro _; simpa using hs
    | succ m ih =>
      intro hm
      obtain ⟨p1, p2⟩ := ih (by omega)
      have hd := pos m
      have e2 : (1 - r) ^ (m + 1) * D = (1 - r) * ((1 - r) ^ m * D) := by rw [pow_succ]; ring
      rw [e2]
      generalize (1 - r) ^ m * D = d at *
      obtain ⟨s1, s2⟩ := step _ (by omega) (by omega) d d hd (le_refl _) p1 p2
      have e1 : (1 - v .c4) * d + v .c4 * d = d := by ring
      rw [e1] at s2
      have g1 : 0 ≤ (1 - g) * d := mul_nonneg (by linarith) hd
      have g2 : (1 - g) * d ≤ d := by nlinarith
      obtain ⟨t1, t2⟩ := step _ (by omega) (by omega) d ((1 - g) * d) g1 g2 s1 s2
      have e3 : i + 2 * m + 1 + 1 = i + 2 * (m + 1) := by ring
      rw [e3] at t1 t2
      refine ⟨hP (by nlinarith) t1, hQ (le_of_eq ?_) t2⟩
      rw [← rr]
      ring
  obtain ⟨m, hm⟩ : ∃ m, k = i + 2 * m ∨ k = i + 2 * m + 1 := ⟨(k - i) / 2, by omega⟩
  rcases hm with rfl | rfl
  · have e : (i + 2 * m - i) / 2 = m := by omega
    rw [e]
    exact even m hkj
  · have e : (i + 2 * m + 1 - i) / 2 = m := by omega
    rw [e]
    obtain ⟨p1, p2⟩ := even m (by omega)
    have hd := pos m
    generalize (1 - r) ^ m * D = d at *
    obtain ⟨s1, s2⟩ := step _ (by omega) (by omega) d d hd (le_refl _) p1 p2
    exact ⟨hP (by nlinarith) s1, hQ (le_of_eq (by ring)) s2⟩

/-- C96: if the forcing shown is from some time point on at most the one that balances a warming of `B`, both temperatures
come down to `B`: in two steps the distance shrinks by a constant factor; once below, they stay. -/
theorem C96_cooling {E : DEnv K} {d d' : Dice K} {W : Scenario K} {n : Nat} (h : Journey E d d' W n) {v : SName → K}
    (hv : WellPosed W v) {f : Nat → K} (hf : Emits W n f) {i j : Nat} (hij : i ≤ j) (hj : j ≤ n) {B D : K} (hD : 0 ≤ D)
    (hB : v .tocean_lower ≤ B) (hs : ∀ o, o.isTemp = true → ∃ x, Shows E d' W o i x ∧ x ≤ B + D)
    (hF : ∀ k, i < k → k ≤ j → ∃ F, Shows E d' W .forc k F ∧ F ≤ v .fco22x / v .t2xco2 * B) {o : OName} (ho : o.isTemp = true) {x : K}
    (hx : Shows E d' W o j x) : x ≤ B + (1 - relaxation v) ^ ((j - i) / 2) * D := by
  obtain ⟨X, X1, X2⟩ := h.numbers hv.val hf
  have start : ∀ o, o.isTemp = true → X i o ≤ B + D := by
    intro o ho
    obtain ⟨y, y1, y2⟩ := hs o ho
    rw [← X1 i (by omega) o y y1]
    exact y2
  obtain ⟨k1, k2⟩ := relax_seq hv (P := fun k d => X k .tatm ≤ B + d) (Q := fun k d => X k .tocean ≤ B + d) hD
    (fun h1 h2 => h2.trans (by linarith)) (fun h1 h2 => h2.trans (by linarith)) ⟨start _ rfl, start _ rfl⟩
    (fun k hk hkj d d' h0 hdd hp hq => by
      obtain ⟨F, F1, F2⟩ := hF (k + 1) (by omega) (by omega)
      rw [X1 (k + 1) (by omega) _ _ F1] at F2
      exact NStep.temp_le hv (X2 k (by omega)) hB h0 hdd hp hq F2) hij (le_refl j)
  rw [X1 j hj o x hx]
  cases o <;> first | exact k1 | exact k2 | cases ho

/-- C96: if the forcing shown is from some time point on at least the one that balances a warming of `B`, both temperatures
rise to `B` in the same way. -/
theorem C96_warming {E : DEnv K} {d d' : Dice K} {W : Scenario K} {n : Nat} (h : Journey E d d' W n) {v : SName → K}
    (hv : WellPosed W v) {f : Nat → K} (hf : Emits W n f) {i j : Nat} (hij : i ≤ j) (hj : j ≤ n) {B D : K} (hD : 0 ≤ D)
    (hA : B ≤ v .tatm_upper) (hO : B ≤ v .tocean_upper) (hs : ∀ o, o.isTemp = true → ∃ x, Shows E d' W o i x ∧ B - D ≤ x)
    (hF : ∀ k, i < k → k ≤ j → ∃ F, Shows E d' W .forc k F ∧ v .fco22x / v .t2xco2 * B ≤ F) {o : OName} (ho : o.isTemp = true) {x : K}
    (hx : Shows E d' W o j x) : B - (1 - relaxation v) ^ ((j - i) / 2) * D ≤ x := by
  obtain ⟨X, X1, X2⟩ := h.numbers hv.val hf
  have start : ∀ o, o.isTemp = true → B - D ≤ X i o := by
    intro o ho
    obtain ⟨y, y1, y2⟩ := hs o ho
    rw [← X1 i (by omega) o y y1]
    exact y2
  obtain ⟨k1, k2⟩ := relax_seq hv (P := fun k d => B - d ≤ X k .tatm) (Q := fun k d => B - d ≤ X k .tocean) hD
    (fun h1 h2 => le_trans (by linarith) h2) (fun h1 h2 => le_trans (by linarith) h2) ⟨start _ rfl, start _ rfl⟩
    (fun k hk hkj d d' h0 hdd hp hq => by
      obtain ⟨F, F1, F2⟩ := hF (k + 1) (by omega) (by omega)
      rw [X1 (k + 1) (by omega) _ _ F1] at F2
      exact NStep.temp_ge hv (X2 k (by omega)) hA hO h0 hdd hp hq F2) hij (le_refl j)
  rw [X1 j hj o x hx]
  cases o <;> first | exact k1 | exact k2 | cases ho

/-- C96: without emissions, once the other gases' forcing is saturated, the forcing shown lies between those that belong to the
smallest and the largest pool, measured in sizes in equilibrium. -/
theorem C96_forcing {E : DEnv K} (hlg : ∀ x y, 0 < x → x ≤ y → E.lg x ≤ E.lg y) {d d' : Dice K} {W : Scenario K} {n : Nat}
    (h : Journey E d d' W n) {v : SName → K} (hv : WellPosed W v) {f : Nat → K} (hf : Emits W n f) {i j : Nat} (hij : i < j) (hj : j ≤ n)
    (h0 : ∀ k, i ≤ k → k < j → f k = 0) (hsat : W.sat ≤ W.start + W.period * j) {a b : K} (h1 : 0 < a) (hl : BoundsBelow v b)
    (ha : PoolsAbove E d' W v i a) (hb : PoolsBelow E d' W v i b) {F : K} (hF : Shows E d' W .forc j F) :
    v .fco22x * E.lg a + v .fex1 ≤ F ∧ F ≤ v .fco22x * E.lg b + v .fex1 := by
  obtain ⟨X, X1, X2⟩ := h.numbers hv.val hf
  have key : ∀ k, i ≤ k → k ≤ j → (∀ o s, poolEq o = some s → a * v s ≤ X k o) ∧ ∀ o s, poolEq o = some s → X k o ≤ b * v s := by
    intro k hk
    induction k, hk using Nat.le_induction with
    | base =>
      intro _
      refine ⟨fun o s hos => ?_, fun o s hos => ?_⟩
      · obtain ⟨y, y1, y2⟩ := ha o s hos
        rw [← X1 i (by omega) o y y1]
        exact y2
      · obtain ⟨y, y1, y2⟩ := hb o s hos
        rw [← X1 i (by omega) o y y1]
        exact y2
    | succ k hk ih =>
      intro hkj
      obtain ⟨i1, i2⟩ := ih (by omega)
      have st := X2 k (by omega)
      rw [h0 k hk (by omega), carbon_zero] at st
      have s1 := NStep.pools_ge hv (le_refl _) st (.inl rfl) (le_refl a) (i1 .mu _ rfl) i1
      have s2 := NStep.pools_le hv (le_refl _) st (.inl rfl) (le_refl b) (i2 .mu _ rfl) i2 (by simpa using hl)
      exact ⟨by simpa using s1, by simpa using s2⟩
  obtain ⟨k1, k2⟩ := key j hij.le (le_refl _)
  obtain ⟨j, rfl⟩ : ∃ k, j = k + 1 := ⟨j - 1, by omega⟩
  have st := X2 j (by omega)
  have eA := hv.mateq
  have m1 : a ≤ X (j + 1) .mat / v .mateq := by rw [le_div_iff₀ eA]; exact k1 .mat _ rfl
  have m2 : X (j + 1) .mat / v .mateq ≤ b := by rw [div_le_iff₀ eA]; exact k2 .mat _ rfl
  have ho : otherNum E.env.trunc W v (j + 1) = v .fex1 := by
    unfold otherNum
    rw [if_pos]
    exact hsat
  rw [X1 _ hj _ _ hF, st.forc, ho]
  exact ⟨add_le_add_left (mul_le_mul_of_nonneg_left (hlg _ _ h1 m1) hv.fco22x) _,
    add_le_add_left (mul_le_mul_of_nonneg_left (hlg _ _ st.pos m2) hv.fco22x) _⟩

/-- C96: with the defaults of the model every pool gets at least the part 0.00009585 from the shallow ocean, and the bounds are
low enough once no pool is below a tenth of its size in equilibrium. -/
theorem C96_defaults {W : Scenario K}
    (h : ∀ n, ∃ x : ℚ, ((scalarSpec n).1, (scalarSpec n).2, x) ∈ defaultScalars ∧ W.p n = .num (x : K)) :
    ∃ v, WellPosed W v ∧ Mixes v (9585 / 100000000) ∧ ∀ a, 1 / 10 ≤ a → BoundsBelow v a := by
  obtain ⟨v, hv⟩ := C90_defaults h
  have hd : ∀ x ∈ defaultScalars, ∀ y ∈ defaultScalars, x.1 = y.1 → x.2.2 = y.2.2 := by decide +kernel
  have m : ∀ n (u : String) (x : ℚ), ((scalarSpec n).1, u, x) ∈ defaultScalars → v n = (x : K) := by
    intro n u x hx
    obtain ⟨y, y1, y2⟩ := h n
    rw [hv.val] at y2
    rw [Fl.num.inj y2]
    exact congrArg _ (hd _ y1 _ hx rfl)
  have e1 := m .mateq "GtC" 588 (by decide +kernel)
  have e2 := m .mueq "GtC" 1350 (by decide +kernel)
  have e3 := m .mleq "GtC" 10000 (by decide +kernel)
  have e4 := m .b12 "" (181 / 10000) (by decide +kernel)
  have e5 := m .b23 "" (71 / 100000) (by decide +kernel)
  have e6 := m .mat_lower "GtC" 10 (by decide +kernel)
  have e7 := m .ml_lower "GtC" 1000 (by decide +kernel)
  have e8 := m .mu_lower "GtC" 100 (by decide +kernel)
  refine ⟨v, hv, ⟨by norm_num, ?_, ?_, ?_⟩, fun a ha => ⟨?_, ?_, ?_⟩⟩
  · rw [e4]; norm_num
  · rw [e1, e2, e4, e5]; norm_num
  · rw [e2, e3, e5]; norm_num
  · rw [e1, e6]; push_cast; linarith
  · rw [e3, e7]; push_cast; linarith
  · rw [e2, e8]; push_cast; linarith

/-! ## A case: no emissions after two years -/

/-- Is a number between these two shown? -/
def shownIn (d : Dice ℚ) (W : Scenario ℚ) (o : OName) (j : ℕ) (a b : ℚ) : Bool :=
  match seen diceEnv d W o j with
  | some (.num x) => decide (a ≤ x ∧ x ≤ b)
  | _ => false

theorem shownIn_shows {d : Dice ℚ} {W : Scenario ℚ} {o : OName} {j : ℕ} {a b : ℚ} (h : shownIn d W o j a b = true) :
    ∃ x, Shows diceEnv d W o j x ∧ a ≤ x ∧ x ≤ b := by
  unfold shownIn at h
  split at h
  · rename_i x hx
    exact ⟨x, shows_of hx, of_decide_eq_true h⟩
  · cases h

theorem diceLateW_posed : WellPosed diceLateW diceLateW.num := wellPosed_of (by decide +kernel) (by decide +kernel)

def lateEmissions (k : ℕ) : ℚ := if k < 2 then 10 else 0

theorem diceLate_emits : Emits diceLateW 4 lateEmissions := by unfold Emits; decide +kernel

theorem diceLate_pools : PoolsAbove diceEnv diceLate1 diceLateW diceLateW.num 2 1 ∧
    PoolsBelow diceEnv diceLate1 diceLateW diceLateW.num 2 (3 / 2) := by
  have k : ∀ p ∈ [(OName.mat, SName.mateq), (.ml, .mleq), (.mu, .mueq)],
      shownIn diceLate1 diceLateW p.1 2 (1 * diceLateW.num p.2) (3 / 2 * diceLateW.num p.2) = true := by decide +kernel
  have k' : ∀ o s, poolEq o = some s →
      shownIn diceLate1 diceLateW o 2 (1 * diceLateW.num s) (3 / 2 * diceLateW.num s) = true := by
    intro o s ho
    cases o <;> simp only [poolEq, Option.some.injEq, reduceCtorEq] at ho <;> subst ho
    · exact k (.mat, .mateq) (by simp)
    · exact k (.ml, .mleq) (by simp)
    · exact k (.mu, .mueq) (by simp)
  exact ⟨fun o s ho => let ⟨x, h1, h2, _⟩ := shownIn_shows (k' o s ho); ⟨x, h1, h2⟩,
    fun o s ho => let ⟨x, h1, _, h2⟩ := shownIn_shows (k' o s ho); ⟨x, h1, h2⟩⟩

example {A U L x : ℚ} (hA : Shows diceEnv diceLate1 diceLateW .mat 2 A) (hU : Shows diceEnv diceLate1 diceLateW .mu 2 U)
    (hL : Shows diceEnv diceLate1 diceLateW .ml 2 L) (hx : Shows diceEnv diceLate1 diceLateW .mat 4 x) :
    |x / 588 - (A + U + L) / (588 + 1350 + 10000)| ≤ (1 - 9585 / 100000000) ^ 2 * (3 / 2 - 1) := by
  have := C96_rest diceLate_journey diceLateW_posed diceLate_emits (i := 2) (j := 4) (by omega) (by omega)
    (by decide) (by unfold BoundsBelow; decide +kernel) (q := 9585 / 100000000)
    ⟨by decide +kernel, by decide +kernel, by decide +kernel, by decide +kernel⟩
    diceLate_pools.1 diceLate_pools.2 hA hU hL (o := .mat) (s := .mateq) rfl hx
  rw [show diceLateW.num .mateq = 588 by decide +kernel, show diceLateW.num .mueq = 1350 by decide +kernel,
    show diceLateW.num .mleq = 10000 by decide +kernel] at this
  exact this

example {o : OName} {s : SName} (ho : poolEq o = some s) {x : ℚ} (hx : Shows diceEnv diceLate1 diceLateW o 4 x) :
    1 * diceLateW.num s ≤ x ∧ x ≤ 3 / 2 * diceLateW.num s :=
  ⟨C96_pools_above diceLate_journey diceLateW_posed diceLate_emits (i := 2) (by omega) (by omega) (by decide) diceLate_pools.1 ho hx,
    C96_pools_below diceLate_journey diceLateW_posed diceLate_emits (i := 2) (by omega) (by omega) (by decide)
      (by unfold BoundsBelow; decide +kernel) diceLate_pools.2 ho hx⟩

/-- With forcings that balance at most 2 degrees, and temperatures below that. -/
example {o : OName} (ho : o.isTemp = true) {x : ℚ} (hx : Shows diceEnv diceLate1 diceLateW o 4 x) : x ≤ 2 + (1 - relaxation diceLateW.num) ^ 2 * 0 := by
  have h1 : ∀ o ∈ [OName.tatm, .tocean], shownIn diceLate1 diceLateW o 0 (-1) 2 = true := by decide +kernel
  have h2 : ∀ k, k < 5 → shownIn diceLate1 diceLateW .forc k (-10) (diceLateW.num .fco22x / diceLateW.num .t2xco2 * 2) = true := by
    decide +kernel
  refine C96_cooling diceLate_journey diceLateW_posed diceLate_emits (i := 0) (by omega) (le_refl _) (le_refl _) (by decide +kernel) ?_ ?_ ho hx
  · intro o ho
    obtain ⟨x, x1, -, x2⟩ := shownIn_shows (h1 o (by cases o <;> simp_all [OName.isTemp]))
    exact ⟨x, x1, by linarith⟩
  · intro k _ hk
    obtain ⟨x, x1, -, x2⟩ := shownIn_shows (h2 k (by omega))
    exact ⟨x, x1, x2⟩

/-- And at least one: the ocean gets warmer. -/
example {x : ℚ} (hx : Shows diceEnv diceLate1 diceLateW .tocean 4 x) : 1 - (1 - relaxation diceLateW.num) ^ 2 * 1 ≤ x := by
  have h1 : ∀ o ∈ [OName.tatm, .tocean], shownIn diceLate1 diceLateW o 0 0 2 = true := by decide +kernel
  have h2 : ∀ k, k < 5 → shownIn diceLate1 diceLateW .forc k (diceLateW.num .fco22x / diceLateW.num .t2xco2 * 1) 10 = true := by
    decide +kernel
  refine C96_warming diceLate_journey diceLateW_posed diceLate_emits (i := 0) (by omega) (le_refl _) (by norm_num) (by decide +kernel)
    (by decide +kernel) ?_ ?_ rfl hx
  · intro o ho
    obtain ⟨x, x1, x2, -⟩ := shownIn_shows (h1 o (by cases o <;> simp_all [OName.isTemp]))
    exact ⟨x, x1, by linarith⟩
  · intro k _ hk
    obtain ⟨x, x1, x2, -⟩ := shownIn_shows (h2 k (by omega))
    exact ⟨x, x1, x2⟩

/-- The same with other gases' forcing saturated from the beginning. -/
def diceRest0 : Dice ℚ := diceSt [.input (.generic (.str "Start Time") rootRegion), .input (.gSet 0 (.time 0)),
  .input (.generic (.str "Stop Time") rootRegion), .input (.gSet 1 (.time (diceYear * 4))),
  .input (emissionsOp "GtCO2/a" 5), .input (.tSet 0 (nums [10, 10, 0, 0, 0])),
  .input (.generic (.seq ["DICE", "forcoth_saturation_time"]) rootRegion), .input (.gSet 2 (.time 0))]

def diceRestW : Scenario ℚ := { diceLateW with sat := 0 }

theorem diceRestW_given : Given diceEnv (prepared diceEnv diceRest0).inp diceRestW := by
  have h1 : ∀ n ∈ allScalars, freshScalar diceEnv.env (prepared diceEnv diceRest0).inp (scalarSpec n).1
      (scalarSpec n).2 = .ok (.num (diceRestW.p n)) := by decide +kernel
  have h2 : readEmissions diceEnv (prepared diceEnv diceRest0).inp diceRestW.rounding
      (diceRestW.axis (diceRestW.steps + 2)) = .ok (.arr (.floats diceRestW.emissions)) := by decide +kernel
  refine ⟨fun n => h1 n (allScalars_all n), ?_, ?_, ?_, ?_, ?_, ?_⟩
  · decide +kernel
  · decide +kernel
  · decide +kernel
  · decide +kernel
  · decide +kernel
  · intro a ha
    rw [h2] at ha
    cases ha
    rfl

def diceRest1 : Dice ℚ := (dcall diceEnv (.run noJunk) diceRest0).2

theorem diceRest_run : dcall diceEnv (.run noJunk) diceRest0 = (.ok .done, diceRest1) := by
  have : (dcall diceEnv (.run noJunk) diceRest0).1 = .ok .done := by decide +kernel
  exact Prod.ext this rfl

theorem diceRest_axes (o : OName) : OnAxis diceRest0.out (outputKey o) (diceRestW.outAxis o) := by
  refine OnAxis.of_unused (env := diceEnv.env) (diceSt_reach _).out.inv ?_ _
  have : infoAt diceEnv.env diceRest0.out (outputKey o) = none := by cases o <;> decide +kernel
  intro I hI
  rw [show infoAt diceEnv.env diceRest0.out (outputKey o) = some I from hI] at this
  cases this

theorem diceRest_journey : Journey diceEnv diceRest0 diceRest1 diceRestW 4 :=
  ⟨diceSt_reach _, diceRestW_given, .inr ⟨noJunk, diceRest_run, (by decide +kernel : diceRestW.steps = 4).symm⟩, diceRest_axes,
    by decide⟩

example {F : ℚ} (hF : Shows diceEnv diceRest1 diceRestW .forc 4 F) :
    diceRestW.num .fco22x * diceEnv.lg 1 + diceRestW.num .fex1 ≤ F ∧ F ≤ diceRestW.num .fco22x * diceEnv.lg (3 / 2) + diceRestW.num .fex1 := by
  have k : ∀ p ∈ [(OName.mat, SName.mateq), (.ml, .mleq), (.mu, .mueq)],
      shownIn diceRest1 diceRestW p.1 2 (1 * diceRestW.num p.2) (3 / 2 * diceRestW.num p.2) = true := by decide +kernel
  have k' : ∀ o s, poolEq o = some s →
      shownIn diceRest1 diceRestW o 2 (1 * diceRestW.num s) (3 / 2 * diceRestW.num s) = true := by
    intro o s ho
    cases o <;> simp only [poolEq, Option.some.injEq, reduceCtorEq] at ho <;> subst ho
    · exact k (.mat, .mateq) (by simp)
    · exact k (.ml, .mleq) (by simp)
    · exact k (.mu, .mueq) (by simp)
  exact C96_forcing diceEnv_lg diceRest_journey (wellPosed_of (by decide +kernel) (by decide +kernel)) (f := lateEmissions)
    (by unfold Emits; decide +kernel) (i := 2) (by omega) (le_refl _) (by decide) (by decide +kernel) (by norm_num)
    (by unfold BoundsBelow; decide +kernel) (fun o s ho => let ⟨x, h1, h2, _⟩ := shownIn_shows (k' o s ho); ⟨x, h1, h2⟩)
    (fun o s ho => let ⟨x, h1, _, h2⟩ := shownIn_shows (k' o s ho); ⟨x, h1, h2⟩) hF

end Openscm
