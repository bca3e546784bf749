import Verif.DiceProps2
import Mathlib.Tactic.Positivity
import Mathlib.Algebra.Order.Field.Basic

/-!
# C90: more emissions, more carbon and more warming

Two programs run DICE for scenarios that differ in emissions, in the state at the start or in the climate sensitivity.
What somebody reads from their outputs is compared.
-/

set_option linter.unusedSectionVars false

namespace Openscm
variable {K : Type} [Field K] [LinearOrder K] [IsStrictOrderedRing K]

/-! ## Specification -/

/-- The inputs that give the state at the start. -/
def SName.isStart : SName → Bool
  | .mat0 | .ml0 | .mu0 | .tatm0 | .tocean0 => true
  | _ => false

/-- The inputs are numbers with which no pool gives away more than it has in a step, and no layer more warmth than makes
the layers equally warm. -/
structure WellPosed (W : Scenario K) (v : SName → K) : Prop where
  val : ∀ n, W.p n = .num (v n)
  mateq : 0 < v .mateq
  mueq : 0 < v .mueq
  mleq : 0 < v .mleq
  b12 : 0 ≤ v .b12
  b12_le : v .b12 ≤ 1
  b23 : 0 ≤ v .b23
  upper : v .b12 * (v .mateq / v .mueq) + v .b23 ≤ 1
  lower : v .b23 * (v .mueq / v .mleq) ≤ 1
  fco22x : 0 ≤ v .fco22x
  t2xco2 : 0 < v .t2xco2
  c1 : 0 ≤ v .c1
  c3 : 0 ≤ v .c3
  warm : v .c1 * (v .fco22x / v .t2xco2 + v .c3) ≤ 1
  c4 : 0 ≤ v .c4
  c4_le : v .c4 ≤ 1

/-- The first `m` annual emissions are these numbers. -/
def Emits (W : Scenario K) (m : Nat) (e : Nat → K) : Prop := ∀ k, k < m → W.emissions[k]? = some (.num (e k))

/-- Both scenarios have the same periods from the same time on, and the same inputs apart from emissions, start and, perhaps,
climate sensitivity. -/
structure Alike (W W' : Scenario K) : Prop where
  start : W'.start = W.start
  sat : W'.sat = W.sat
  ticks : W'.ticks = W.ticks
  tick : W'.tick = W.tick
  rounding : W'.rounding = W.rounding
  inputs : ∀ n, n.isStart = false → n ≠ .t2xco2 → W'.p n = W.p n

/-! ## The recurrence in numbers -/

structure NStep (lg : K → K) (v : SName → K) (other e : K) (x x' : OName → K) : Prop where
  mat : x' .mat = max (v .mat_lower) (x .mat * (1 - v .b12) + x .mu * (v .b12 * v .mateq / v .mueq) + e)
  ml : x' .ml = max (v .ml_lower) (x .ml * (1 - v .b23 * v .mueq / v .mleq) + x .mu * v .b23)
  mu : x' .mu = max (v .mu_lower) (x .mat * v .b12 + x .mu * (1 - v .b12 * v .mateq / v .mueq - v .b23) +
    x .ml * (v .b23 * v .mueq / v .mleq))
  tocean : x' .tocean = max (v .tocean_lower) (min (v .tocean_upper) (x .tocean + v .c4 * (x .tatm - x .tocean)))
  pos : 0 < x' .mat / v .mateq
  forc : x' .forc = v .fco22x * lg (x' .mat / v .mateq) + other
  tatm : x' .tatm = min (v .tatm_upper)
    (x .tatm + v .c1 * (x' .forc - v .fco22x / v .t2xco2 * x .tatm - v .c3 * (x .tatm - x .tocean)))

theorem pyMax_max (a b : K) : Fl.pyMax (.num a) (.num b) = .num (max a b) := by
  unfold Fl.pyMax
  simp only
  split
  · rename_i h
    rw [max_eq_right h.le]
  · rename_i h
    rw [max_eq_left (not_lt.1 h)]

theorem pyMin_min (a b : K) : Fl.pyMin (.num a) (.num b) = .num (min a b) := by
  unfold Fl.pyMin
  simp only
  split
  · rename_i h
    rw [min_eq_right h.le]
  · rename_i h
    rw [min_eq_left (not_lt.1 h)]

/-- The forcing by other gases as a number. -/
def otherNum (tr : K → Int) (W : Scenario K) (v : SName → K) (t : Nat) : K :=
  if W.sat ≤ W.start + W.ticks * W.tick * t then v .fex1
  else v .fex0 + ((tr ((v .fex1 - v .fex0) * ((W.ticks * t : Int) : K)) * W.tick : Int) : K) / ((W.sat - W.start : Int) : K)

theorem forcoth_otherNum (tr : K → Int) (W : Scenario K) {v : SName → K} (hv : ∀ n, W.p n = .num (v n)) (t : Nat) :
    forcoth tr (W.p .fex0) (W.p .fex1) W.start W.sat W.ticks W.tick t = .num (otherNum tr W v t) := by
  unfold forcoth otherNum
  rw [hv, hv]
  split
  · rfl
  · rfl

theorem log2_num {lg : K → K} {m A : K} {q l : Fl K} (h : Fl.quot (.num m) (.num A) = .ok q) (h' : Fl.log2 lg q = .ok l) :
    0 < m / A ∧ l = .num (lg (m / A)) := by
  obtain ⟨-, rfl⟩ := fl_quot h
  simp only [Fl.map, Fl.log2] at h'
  split at h'
  · rename_i hp
    exact ⟨hp, (Except.ok.inj h').symm⟩
  · cases h'

/-- A step from numbers leads to numbers. -/
theorem nstep {lg : K → K} {tr : K → Int} {W : Scenario K} {C : DiceCoefs K} {t : Nat} {c c' : OName → Fl K} {v : SName → K}
    (hv : ∀ n, W.p n = .num (v n)) (hC : CoefSpec W.p C) {e : K} (he : W.emissions[t]? = some (.num e))
    {x : OName → K} (hx : ∀ o, c o = .num (x o)) (h : DiceStep lg tr W.toDiceInputs C (t + 1) c c') :
    ∃ x', (∀ o, c' o = .num (x' o)) ∧ NStep lg v (otherNum tr W v (t + 1)) (carbon W e) x x' := by
  have b11 := hC.b11
  have b21 := hC.b21
  have b22 := hC.b22
  have b32 := hC.b32
  have b33 := hC.b33
  simp only [hv, fl_num_mul, fl_num_sub] at b11 b21 b22 b32 b33
  obtain ⟨-, b21⟩ := fl_quot b21
  obtain ⟨-, b32⟩ := fl_quot b32
  simp only [Fl.map] at b21 b32
  rw [b21] at b22
  rw [b32] at b33
  simp only [fl_num_sub] at b22 b33
  have ma := h.mat
  have ml := h.ml
  have mu := h.mu
  have oc := h.tocean
  obtain ⟨q, l, q1, q2, fo⟩ := h.forc
  obtain ⟨lam, l1, at'⟩ := h.tatm
  have hp : ∀ n, W.toDiceInputs.p n = .num (v n) := hv
  simp only [hp, hx, b11, b21, b22, b32, b33, emitted_of he, fl_num_mul, fl_num_add, fl_num_sub, pyMax_max, pyMin_min] at ma ml mu oc
  rw [ma, hp] at q1
  obtain ⟨q3, rfl⟩ := log2_num q1 q2
  have ho := forcoth_otherNum tr W hv (t + 1)
  rw [hp, ho] at fo
  simp only [fl_num_mul, fl_num_add] at fo
  rw [hp, hp] at l1
  obtain ⟨-, rfl⟩ := fl_quot l1
  simp only [Fl.map, fo, hp, hx, fl_num_mul, fl_num_add, fl_num_sub, pyMin_min] at at'
  have hx' : ∀ o, c' o = .num (match c' o with | .num y => y | .nan => 0) := by
    intro o
    cases o
    · rw [ma]
    · rw [ml]
    · rw [mu]
    · rw [at']
    · rw [oc]
    · rw [fo]
  exact ⟨fun o => match c' o with | .num y => y | .nan => 0, hx', by simp only [ma], by simp only [ml], by simp only [mu],
    by simp only [oc], by simp only [ma]; exact q3, by simp only [ma, fo], by simp only [at', fo]⟩

/-- All values up to time point `n` are numbers. -/
theorem Progress.numbers {E : DEnv K} {d d' : Dice K} {W : Scenario K} {n : Nat} {L : Series K} (hp : Progress E d d' W n L)
    {v : SName → K} (hv : ∀ s, W.p s = .num (v s)) {e : Nat → K} (he : Emits W n e) :
    ∃ x : Nat → OName → K, (∀ j, j ≤ n → ∀ o, col L j o = .num (x j o)) ∧
      ((x 0 .mat = v .mat0 ∧ x 0 .ml = v .ml0 ∧ x 0 .mu = v .mu0 ∧ x 0 .tatm = v .tatm0 ∧ x 0 .tocean = v .tocean0 ∧
        0 < v .mat0 / v .mateq ∧ x 0 .forc = v .fco22x * E.lg (v .mat0 / v .mateq) + v .fex0) ∧
      ∀ j, j < n → NStep E.lg v (otherNum E.env.trunc W v (j + 1)) (carbon W (e j)) (x j) (x (j + 1))) := by
  have start : ∃ x0 : OName → K, (∀ o, col L 0 o = .num (x0 o)) ∧
      (x0 .mat = v .mat0 ∧ x0 .ml = v .ml0 ∧ x0 .mu = v .mu0 ∧ x0 .tatm = v .tatm0 ∧ x0 .tocean = v .tocean0 ∧
        0 < v .mat0 / v .mateq ∧ x0 .forc = v .fco22x * E.lg (v .mat0 / v .mateq) + v .fex0) := by
    obtain ⟨q, l, q1, q2, q3⟩ := hp.start.forc
    rw [hv, hv] at q1
    obtain ⟨q4, rfl⟩ := log2_num q1 q2
    rw [hv, hv] at q3
    simp only [fl_num_mul, fl_num_add] at q3
    refine ⟨fun o => match o with
      | .mat => v .mat0
      | .ml => v .ml0
      | .mu => v .mu0
      | .tatm => v .tatm0
      | .tocean => v .tocean0
      | .forc => v .fco22x * E.lg (v .mat0 / v .mateq) + v .fex0, fun o => ?_, rfl, rfl, rfl, rfl, rfl, q4, rfl⟩
    cases o
    · exact hp.start.mat.trans (hv _)
    · exact hp.start.ml.trans (hv _)
    · exact hp.start.mu.trans (hv _)
    · exact hp.start.tatm.trans (hv _)
    · exact hp.start.tocean.trans (hv _)
    · exact q3
  obtain ⟨x0, s1, s2⟩ := start
  have key : ∀ j, j ≤ n → ∃ x : OName → K, ∀ o, col L j o = .num (x o) := by
    intro j
    induction j with
    | zero => exact fun _ => ⟨x0, s1⟩
    | succ j ih =>
      intro hj
      obtain ⟨x, hx⟩ := ih (by omega)
      obtain ⟨x', hx', -⟩ := nstep hv hp.coefs (he j (by omega)) hx (Journey.step hp (j := j) (by omega))
      exact ⟨x', hx'⟩
  have hx : ∀ j, j ≤ n → ∀ o, col L j o = .num (match col L j o with | .num y => y | .nan => 0) := by
    intro j hj o
    obtain ⟨x, hx⟩ := key j hj
    rw [hx o]
  refine ⟨fun j o => match col L j o with | .num y => y | .nan => 0, hx, ?_, fun j hj => ?_⟩
  · simp only [s1]
    exact s2
  · obtain ⟨x', hx', hs⟩ := nstep hv hp.coefs (he j hj) (hx j hj.le) (Journey.step hp (j := j) hj)
    have e : x' = fun o => match col L (j + 1) o with | .num y => y | .nan => 0 := by
      funext o
      rw [hx' o]
    rw [e] at hs
    exact hs

/-! ## Comparison -/

theorem WellPosed.upper' {W : Scenario K} {v : SName → K} (h : WellPosed W v) : v .b12 * v .mateq / v .mueq + v .b23 ≤ 1 := by
  rw [mul_div_assoc]
  exact h.upper

theorem WellPosed.lower' {W : Scenario K} {v : SName → K} (h : WellPosed W v) : v .b23 * v .mueq / v .mleq ≤ 1 := by
  rw [mul_div_assoc]
  exact h.lower

/-- A step keeps the order. -/
theorem NStep.mono {lg : K → K} (hlg : ∀ x y, 0 < x → x ≤ y → lg x ≤ lg y) {W W' : Scenario K} {v v' : SName → K} (hv : WellPosed W v)
    (hv' : WellPosed W' v')
    (hs : ∀ n, n.isStart = false → n ≠ .t2xco2 → v' n = v n) (hS : v .t2xco2 ≤ v' .t2xco2) {o o' e e' : K} (he : e ≤ e') (ho : o = o')
    {x x' y y' : OName → K} (hx : NStep lg v o e x x') (hy : NStep lg v' o' e' y y') (hxy : ∀ o, x o ≤ y o)
    (hw : v' .t2xco2 = v .t2xco2 ∨ 0 ≤ x .tatm) : ∀ o, x' o ≤ y' o := by
  subst ho
  have mat : x' .mat ≤ y' .mat := by
    rw [hx.mat, hy.mat, hs .mat_lower rfl (by decide), hs .b12 rfl (by decide), hs .mateq rfl (by decide), hs .mueq rfl (by decide)]
    refine max_le_max (le_refl _) (add_le_add (add_le_add ?_ ?_) he)
    · exact mul_le_mul_of_nonneg_right (hxy _) (sub_nonneg.2 hv.b12_le)
    · exact mul_le_mul_of_nonneg_right (hxy _) (div_nonneg (mul_nonneg hv.b12 hv.mateq.le) hv.mueq.le)
  have forc : x' .forc ≤ y' .forc := by
    have hp := hx.pos
    rw [hx.forc, hy.forc, hs .fco22x rfl (by decide), hs .mateq rfl (by decide)]
    refine add_le_add (mul_le_mul_of_nonneg_left (hlg _ _ hp ?_) hv.fco22x) (le_refl _)
    exact div_le_div_of_nonneg_right mat hv.mateq.le
  intro r
  cases r
  · exact mat
  · rw [hx.ml, hy.ml, hs .ml_lower rfl (by decide), hs .b23 rfl (by decide), hs .mueq rfl (by decide), hs .mleq rfl (by decide)]
    refine max_le_max (le_refl _) (add_le_add ?_ ?_)
    · exact mul_le_mul_of_nonneg_right (hxy _) (sub_nonneg.2 hv.lower')
    · exact mul_le_mul_of_nonneg_right (hxy _) hv.b23
  · rw [hx.mu, hy.mu, hs .mu_lower rfl (by decide), hs .b12 rfl (by decide), hs .b23 rfl (by decide), hs .mateq rfl (by decide),
      hs .mueq rfl (by decide), hs .mleq rfl (by decide)]
    refine max_le_max (le_refl _) (add_le_add (add_le_add ?_ ?_) ?_)
    · exact mul_le_mul_of_nonneg_right (hxy _) hv.b12
    · refine mul_le_mul_of_nonneg_right (hxy _) ?_
      have := hv.upper'
      linarith
    · exact mul_le_mul_of_nonneg_right (hxy _) (div_nonneg (mul_nonneg hv.b23 hv.mueq.le) hv.mleq.le)
  · have w := hv'.warm
    have h1 := hs .c1 rfl (by decide)
    have h3 := hs .c3 rfl (by decide)
    have hF := hs .fco22x rfl (by decide)
    rw [hx.tatm, hy.tatm, hs .tatm_upper rfl (by decide), h1, h3, hF]
    rw [h1, h3, hF] at w
    refine min_le_min (le_refl _) ?_
    have a1 : 0 ≤ (1 - v .c1 * (v .fco22x / v' .t2xco2 + v .c3)) * (y .tatm - x .tatm) :=
      mul_nonneg (by linarith) (sub_nonneg.2 (hxy _))
    have a2 : 0 ≤ v .c1 * (y' .forc - x' .forc) := mul_nonneg hv.c1 (sub_nonneg.2 forc)
    have a3 : 0 ≤ v .c1 * v .c3 * (y .tocean - x .tocean) := mul_nonneg (mul_nonneg hv.c1 hv.c3) (sub_nonneg.2 (hxy _))
    have a4 : 0 ≤ v .c1 * ((v .fco22x / v .t2xco2 - v .fco22x / v' .t2xco2) * x .tatm) := by
      rcases hw with hw | hw
      · rw [hw]
        simp
      · refine mul_nonneg hv.c1 (mul_nonneg (sub_nonneg.2 ?_) hw)
        exact div_le_div_of_nonneg_left hv.fco22x hv.t2xco2 hS
    have := add_nonneg (add_nonneg (add_nonneg a1 a2) a3) a4
    rw [← sub_nonneg]
    refine this.trans (le_of_eq ?_)
    ring
  · rw [hx.tocean, hy.tocean, hs .tocean_lower rfl (by decide), hs .tocean_upper rfl (by decide), hs .c4 rfl (by decide)]
    refine max_le_max (le_refl _) (min_le_min (le_refl _) ?_)
    have a1 : 0 ≤ (1 - v .c4) * (y .tocean - x .tocean) := mul_nonneg (sub_nonneg.2 hv.c4_le) (sub_nonneg.2 (hxy _))
    have a2 : 0 ≤ v .c4 * (y .tatm - x .tatm) := mul_nonneg hv.c4 (sub_nonneg.2 (hxy _))
    have := add_nonneg a1 a2
    rw [← sub_nonneg]
    refine this.trans (le_of_eq ?_)
    ring
  · exact forc

theorem carbon_mono {W W' : Scenario K} (h : Alike W W') (hp : 0 < W.period) {a b : K} (hab : a ≤ b) : carbon W a ≤ carbon W' b := by
  have e : W'.period = W.period := by unfold Scenario.period; rw [h.ticks, h.tick]
  unfold carbon
  rw [e, h.rounding]
  have h1 : (0 : K) ≤ (W.period : K) / (365 * 24 * 60 * 60) := div_nonneg (by exact_mod_cast hp.le) (by norm_num)
  refine div_le_div_of_nonneg_right (mul_le_mul_of_nonneg_right hab h1) ?_
  split <;> norm_num

/-- What is compared in both theorems. -/
theorem mono_core {E : DEnv K} (hlg : ∀ x y, 0 < x → x ≤ y → E.lg x ≤ E.lg y) {d d' e e' : Dice K} {W W' : Scenario K} {n n' m : Nat}
    (h : Journey E d d' W n) (h' : Journey E e e' W' n') (hm : m ≤ n) (hm' : m ≤ n') {v v' : SName → K} (hv : WellPosed W v)
    (hv' : WellPosed W' v') (ha : Alike W W') (hS : v .t2xco2 ≤ v' .t2xco2) (hs : ∀ s, s.isStart = true → v s ≤ v' s) {f f' : Nat → K}
    (hf : Emits W n f) (hf' : Emits W' n' f') (hff : ∀ k, k < m → f k ≤ f' k)
    (hw : v' .t2xco2 = v .t2xco2 ∨ ∀ j, j < m → ∃ x, Shows E d' W .tatm j x ∧ 0 ≤ x) {j : Nat} (hj : j ≤ m) {o : OName} {x x' : K}
    (hx : Shows E d' W o j x) (hx' : Shows E e' W' o j x') : x ≤ x' := by
  obtain ⟨L, hp, -, hsh⟩ := h.spec
  obtain ⟨L', hp', -, hsh'⟩ := h'.spec
  obtain ⟨X, X1, X2, X3⟩ := hp.numbers hv.val hf
  obtain ⟨Y, Y1, Y2, Y3⟩ := hp'.numbers hv'.val hf'
  have hi : ∀ n, n.isStart = false → n ≠ .t2xco2 → v' n = v n := fun n h1 h2 => by
    have := ha.inputs n h1 h2
    rw [hv.val, hv'.val] at this
    exact Fl.num.inj this
  have key : ∀ j, j ≤ m → ∀ o, X j o ≤ Y j o := by
    intro j
    induction j with
    | zero =>
      intro _ o
      obtain ⟨a1, a2, a3, a4, a5, a6, a7⟩ := X2
      obtain ⟨b1, b2, b3, b4, b5, b6, b7⟩ := Y2
      cases o
      · rw [a1, b1]; exact hs _ rfl
      · rw [a2, b2]; exact hs _ rfl
      · rw [a3, b3]; exact hs _ rfl
      · rw [a4, b4]; exact hs _ rfl
      · rw [a5, b5]; exact hs _ rfl
      · rw [a7, b7, hi .fco22x rfl (by decide), hi .mateq rfl (by decide), hi .fex0 rfl (by decide)]
        refine add_le_add (mul_le_mul_of_nonneg_left (hlg _ _ a6 ?_) hv.fco22x) (le_refl _)
        exact div_le_div_of_nonneg_right (hs _ rfl) hv.mateq.le
    | succ j ih =>
      intro hj
      refine NStep.mono hlg hv hv' hi hS (carbon_mono ha h.forward (hff j (by omega))) ?_ (X3 j (by omega)) (Y3 j (by omega))
        (ih (by omega)) ?_
      · unfold otherNum
        rw [ha.sat, ha.start, ha.ticks, ha.tick, hi .fex0 rfl (by decide), hi .fex1 rfl (by decide)]
      · rcases hw with hw | hw
        · exact .inl hw
        · obtain ⟨y, y1, y2⟩ := hw j (by omega)
          have := hsh _ _ _ y1
          rw [X1 j (by omega)] at this
          cases this
          exact .inr y2
  have c1 := hsh _ _ _ hx
  have c2 := hsh' _ _ _ hx'
  rw [X1 j (by omega)] at c1
  rw [Y1 j (by omega)] at c2
  cases c1
  cases c2
  exact key j hj o

/-! ## C90 -/

/-- The numbers among the inputs. -/
def Scenario.num (W : Scenario ℚ) (n : SName) : ℚ :=
  match W.p n with
  | .num x => x
  | .nan => 0

theorem wellPosed_of {W : Scenario ℚ} (h : ∀ n ∈ allScalars, W.p n = .num (W.num n))
    (h' : 0 < W.num .mateq ∧ 0 < W.num .mueq ∧ 0 < W.num .mleq ∧ 0 ≤ W.num .b12 ∧ W.num .b12 ≤ 1 ∧ 0 ≤ W.num .b23 ∧
      W.num .b12 * (W.num .mateq / W.num .mueq) + W.num .b23 ≤ 1 ∧ W.num .b23 * (W.num .mueq / W.num .mleq) ≤ 1 ∧
      0 ≤ W.num .fco22x ∧ 0 < W.num .t2xco2 ∧ 0 ≤ W.num .c1 ∧ 0 ≤ W.num .c3 ∧
      W.num .c1 * (W.num .fco22x / W.num .t2xco2 + W.num .c3) ≤ 1 ∧ 0 ≤ W.num .c4 ∧ W.num .c4 ≤ 1) : WellPosed W W.num := by
  obtain ⟨a1, a2, a3, a4, a5, a6, a7, a8, a9, a10, a11, a12, a13, a14, a15⟩ := h'
  exact ⟨fun n => h n (allScalars_all n), a1, a2, a3, a4, a5, a6, a7, a8, a9, a10, a11, a12, a13, a14, a15⟩

theorem diceW_posed : WellPosed diceW diceW.num := wellPosed_of (by decide +kernel) (by decide +kernel)

theorem diceEqW_posed : WellPosed diceEqW diceEqW.num := wellPosed_of (by decide +kernel) (by decide +kernel)

theorem diceEnv_lg : ∀ x y, 0 < x → x ≤ y → diceEnv.lg x ≤ diceEnv.lg y := fun _ _ _ h => sub_le_sub_right h 1

theorem alike_of {W W' : Scenario ℚ} (h : W'.start = W.start ∧ W'.sat = W.sat ∧ W'.ticks = W.ticks ∧ W'.tick = W.tick ∧
    W'.rounding = W.rounding) (h' : ∀ n ∈ allScalars, n.isStart = false → n ≠ .t2xco2 → W'.p n = W.p n) : Alike W W' :=
  ⟨h.1, h.2.1, h.2.2.1, h.2.2.2.1, h.2.2.2.2, fun n => h' n (allScalars_all n)⟩

/-- C90: if emissions are at least as high in every period before, and there is at least as much carbon and warmth in the
beginning, then all outputs are at least as high. -/
theorem C90_more {E : DEnv K} (hlg : ∀ x y, 0 < x → x ≤ y → E.lg x ≤ E.lg y) {d d' e e' : Dice K} {W W' : Scenario K} {n n' m : Nat}
    (h : Journey E d d' W n) (h' : Journey E e e' W' n') (hm : m ≤ n) (hm' : m ≤ n') {v v' : SName → K} (hv : WellPosed W v)
    (hv' : WellPosed W' v') (ha : Alike W W') (hS : W'.p .t2xco2 = W.p .t2xco2) (hs : ∀ s, s.isStart = true → v s ≤ v' s) {f f' : Nat → K}
    (hf : Emits W n f) (hf' : Emits W' n' f') (hff : ∀ k, k < m → f k ≤ f' k) {j : Nat} (hj : j ≤ m) {o : OName} {x x' : K}
    (hx : Shows E d' W o j x) (hx' : Shows E e' W' o j x') : x ≤ x' := by
  rw [hv.val, hv'.val] at hS
  have hS := Fl.num.inj hS
  exact mono_core hlg h h' hm hm' hv hv' ha hS.symm.le hs hf hf' hff (.inl hS) hj hx hx'

/-- A run with emissions shows at least as much as one in equilibrium. -/
example {j : ℕ} (hj : j ≤ 3) {o : OName} {x x' : ℚ} (hx : Shows diceEnv diceEq1 diceEqW o j x) (hx' : Shows diceEnv dice1 diceW o j x') :
    x ≤ x' :=
  C90_more diceEnv_lg diceEq_journey dice_journey (le_refl _) (le_refl _) diceEqW_posed diceW_posed
    (alike_of (by decide +kernel) (by decide +kernel)) (by decide +kernel)
    (fun s => (by decide +kernel : ∀ s ∈ allScalars, s.isStart = true → diceEqW.num s ≤ diceW.num s) s (allScalars_all s))
    (f := fun _ => 0) (f' := fun _ => 10) (by unfold Emits; decide +kernel) (by unfold Emits; decide +kernel) (by norm_num) hj hx hx'

example : Shows diceEnv diceEq1 diceEqW .mat 1 588 ∧ Shows diceEnv dice1 diceW .mat 1 (190204846391 / 229125000) :=
  ⟨shows_of (by decide +kernel), shows_of (by decide +kernel)⟩

/-- C90: a higher climate sensitivity makes no output lower, if it does not get colder than in the beginning of
industrialisation. -/
theorem C90_sensitivity {E : DEnv K} (hlg : ∀ x y, 0 < x → x ≤ y → E.lg x ≤ E.lg y) {d d' e e' : Dice K} {W W' : Scenario K}
    {n n' m : Nat} (h : Journey E d d' W n) (h' : Journey E e e' W' n') (hm : m ≤ n) (hm' : m ≤ n') {v v' : SName → K}
    (hv : WellPosed W v) (hv' : WellPosed W' v') (ha : Alike W W') (hS : v .t2xco2 ≤ v' .t2xco2)
    (hs : ∀ s, s.isStart = true → v s ≤ v' s) {f f' : Nat → K} (hf : Emits W n f) (hf' : Emits W' n' f') (hff : ∀ k, k < m → f k ≤ f' k)
    (hw : ∀ j, j < m → ∃ x, Shows E d' W .tatm j x ∧ 0 ≤ x) {j : Nat} (hj : j ≤ m) {o : OName} {x x' : K}
    (hx : Shows E d' W o j x) (hx' : Shows E e' W' o j x') : x ≤ x' :=
  mono_core hlg h h' hm hm' hv hv' ha hS hs hf hf' hff (.inr hw) hj hx hx'

/-- C90: after a whole run with inputs and emissions that are numbers, all outputs show numbers. -/
theorem C90_numbers {E : DEnv K} {d d' : Dice K} {W : Scenario K} (h : Journey E d d' W W.steps) {v : SName → K}
    (hv : ∀ s, W.p s = .num (v s)) {e : Nat → K} (he : Emits W W.steps e) (o : OName) {j : Nat} (hj : j ≤ W.steps) :
    ∃ x, Shows E d' W o j x := by
  obtain ⟨L, hp, hr, -⟩ := h.spec
  obtain ⟨X, X1, -, -⟩ := hp.numbers hv he
  obtain ⟨r, r1, r2⟩ := hr o
  have hl : L o = ((List.range (W.steps + 1)).map fun j => X j o).map .num := by
    apply List.ext_getElem (by simp [hp.length])
    intro j h1 h2
    rw [hp.length] at h1
    have := X1 j (by omega) o
    unfold col at this
    rw [List.getD_eq_getElem?_getD, List.getElem?_eq_getElem (by rw [hp.length]; exact h1)] at this
    simpa using this
  refine ⟨X j o, .floats r, r1, ?_⟩
  rw [r2.all (by rw [hl, Fl.allNum_map_num]; simp)]
  show (L o)[j]? = _
  rw [hl, List.getElem?_map, List.getElem?_map, List.getElem?_range (by omega)]
  rfl

/-- C90: the defaults of the model are such inputs. -/
theorem C90_defaults {W : Scenario K}
    (h : ∀ n, ∃ x : ℚ, ((scalarSpec n).1, (scalarSpec n).2, x) ∈ defaultScalars ∧ W.p n = .num (x : K)) : ∃ v, WellPosed W v := by
  choose q h1 h2 using h
  have e : ∀ n, ∀ x ∈ defaultScalars, x.1 = (scalarSpec n).1 → q n = x.2.2 := by
    intro n x hx hn
    have := h1 n
    have hd : ∀ a ∈ defaultScalars, ∀ b ∈ defaultScalars, a.1 = b.1 → a.2.2 = b.2.2 := by decide +kernel
    exact hd _ this x hx hn.symm
  have m : ∀ n (s : List String) (u : String) (x : ℚ), (scalarSpec n).1 = s → (s, u, x) ∈ defaultScalars → q n = x :=
    fun n s u x h h' => e n (s, u, x) h' h.symm
  have e_mateq : q .mateq = 588 := m .mateq ["DICE", "mateq"] "GtC" _ rfl (by decide +kernel)
  have e_mueq : q .mueq = 1350 := m .mueq ["DICE", "mueq"] "GtC" _ rfl (by decide +kernel)
  have e_mleq : q .mleq = 10000 := m .mleq ["DICE", "mleq"] "GtC" _ rfl (by decide +kernel)
  have e_b12 : q .b12 = 0.0181 := m .b12 ["DICE", "b12"] "" _ rfl (by decide +kernel)
  have e_b23 : q .b23 = 0.00071 := m .b23 ["DICE", "b23"] "" _ rfl (by decide +kernel)
  have e_c1 : q .c1 = 0.0222 := m .c1 ["DICE", "c1"] "delta_degC*m^2/W" _ rfl (by decide +kernel)
  have e_c3 : q .c3 = 0.09175 := m .c3 ["DICE", "c3"] "W/m^2/delta_degC" _ rfl (by decide +kernel)
  have e_c4 : q .c4 = 0.00487 := m .c4 ["DICE", "c4"] "" _ rfl (by decide +kernel)
  have e_fco22x : q .fco22x = 3.8 := m .fco22x ["Radiative Forcing Sensitivity"] "W/m^2" _ rfl (by decide +kernel)
  have e_t2xco2 : q .t2xco2 = 2.9 := m .t2xco2 ["Equilibrium Climate Sensitivity"] "delta_degC" _ rfl (by decide +kernel)
  refine ⟨fun n => (q n : K), h2, ?_, ?_, ?_, ?_, ?_, ?_, ?_, ?_, ?_, ?_, ?_, ?_, ?_, ?_, ?_⟩
  all_goals
    simp only [e_mateq, e_mueq, e_mleq, e_b12, e_b23, e_c1, e_c3, e_c4, e_fco22x, e_t2xco2]
    norm_num

end Openscm
