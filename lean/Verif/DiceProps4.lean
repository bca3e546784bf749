import Verif.DiceProps2

/-!
# C45: the forcing by other gases

The outputs show the radiative forcing and the carbon in the atmosphere; the forcing by other gases
is what is left of the former without the forcing of the latter.
-/

set_option linter.unusedSectionVars false

namespace Openscm
variable {K : Type} [Field K] [LinearOrder K] [IsStrictOrderedRing K]

/-! ## Specification -/

/-- The forcing that the outputs show at time point `j` is `y` more than that of the carbon. -/
def OtherForcing (E : DEnv K) (d : Dice K) (W : Scenario K) (j : Nat) (y : K) : Prop :=
  ∃ x m F A, Shows E d W .forc j x ∧ Shows E d W .mat j m ∧ W.p .fco22x = .num F ∧ W.p .mateq = .num A ∧
    x = F * E.lg (m / A) + y

/-- Casts to integers cut off the fraction. -/
structure TruncSpec (tr : K → Int) : Prop where
  le : ∀ x, 0 ≤ x → (tr x : K) ≤ x
  lt : ∀ x, 0 ≤ x → x < tr x + 1
  neg : ∀ x, tr (-x) = - tr x

/-! ## Lemmas -/

theorem TruncSpec.nonneg {tr : K → Int} (h : TruncSpec tr) {x : K} (hx : 0 ≤ x) : 0 ≤ tr x := by
  have := h.lt x hx
  have h2 : (0 : K) < tr x + 1 := lt_of_le_of_lt hx this
  have h3 : (0 : Int) < tr x + 1 := by exact_mod_cast h2
  omega

theorem TruncSpec.mono {tr : K → Int} (h : TruncSpec tr) {x y : K} (hx : 0 ≤ x) (hxy : x ≤ y) : tr x ≤ tr y := by
  have h1 := h.le x hx
  have h2 := h.lt y (hx.trans hxy)
  have h3 : (tr x : K) < tr y + 1 := lt_of_le_of_lt (h1.trans hxy) h2
  have h4 : tr x < tr y + 1 := by exact_mod_cast h3
  omega

/-- The forcing by other gases in numbers. -/
def ramp (tr : K → Int) (a b : K) (start sat k u : Int) (t : Nat) : K :=
  a + ((tr ((b - a) * (k * t)) * u : Int) : K) / ((sat - start : Int) : K)

theorem forcoth_num {tr : K → Int} {a b : K} {start sat k u : Int} {t : Nat} {y : K}
    (h : forcoth tr (.num a) (.num b) start sat k u t = .num y) :
    (sat ≤ start + k * u * t → y = b) ∧ (start + k * u * t < sat → y = ramp tr a b start sat k u t) := by
  unfold forcoth at h
  split at h
  · rename_i hs
    refine ⟨fun _ => (Fl.num.inj h).symm, fun hl => ?_⟩
    omega
  · rename_i hs
    refine ⟨fun hl => absurd hl hs, fun _ => ?_⟩
    unfold ramp
    simp only [fl_num_sub, Fl.map, fl_num_add, Fl.num.injEq] at h
    rw [← h, Int.cast_mul k, Int.cast_natCast]

/-- The shown forcing, in terms of the recurrence. -/
theorem other_spec {E : DEnv K} {d d' : Dice K} {W : Scenario K} {n : Nat} (h : Journey E d d' W n) {j : Nat}
    (hj : j ≤ n) {y : K} (hy : OtherForcing E d' W j y) :
    (j = 0 → W.p .fex0 = .num y) ∧ (1 ≤ j → forcoth E.env.trunc (W.p .fex0) (W.p .fex1) W.start W.sat W.ticks W.tick j
      = .num y) := by
  obtain ⟨x, m, F, A, h1, h2, h3, h4, h5⟩ := hy
  obtain ⟨L, hp, _, hsh⟩ := h.spec
  have e1 := hsh _ _ _ h1
  have e2 := hsh _ _ _ h2
  have key : ∀ (q l z : Fl K), Fl.quot (.num m) (.num A) = .ok q → Fl.log2 E.lg q = .ok l →
      (.num x : Fl K) = .num F * l + z → z = .num y := by
    intro q l z hq hl hx
    obtain ⟨hA, hq⟩ := fl_quot hq
    subst hq
    simp only [Fl.map, Fl.log2] at hl
    split at hl
    · simp only [Except.ok.injEq] at hl
      subst hl
      obtain ⟨y1, z1, g1, g2, g3⟩ := fl_add hx.symm
      obtain ⟨_, _, g4, g5, g6⟩ := fl_mul g1
      cases g4; cases g5
      rw [g2, Fl.num.injEq]
      linarith
    · simp at hl
  constructor
  · rintro rfl
    obtain ⟨q, l, q1, q2, q3⟩ := hp.start.forc
    rw [← hp.start.mat, e2, h4] at q1
    rw [e1, h3] at q3
    exact key q l _ q1 q2 q3
  · intro h1
    obtain ⟨i, rfl⟩ := Nat.exists_eq_add_of_le h1
    rw [Nat.add_comm] at e1 e2 ⊢
    obtain ⟨q, l, q1, q2, q3⟩ := (Journey.step hp (j := i) (by omega)).forc
    have h3' : W.toDiceInputs.p .fco22x = .num F := h3
    have h4' : W.toDiceInputs.p .mateq = .num A := h4
    rw [e2, h4'] at q1
    rw [e1, h3'] at q3
    exact key q l _ q1 q2 q3

section
variable {tr : K → Int} (ht : TruncSpec tr) {a b : K} {start sat k u : Int}
include ht

theorem ramp_up (hk : 0 ≤ k) (hu : 0 < u) {t : Nat} (hs : start + k * u * t < sat) (hab : a ≤ b) :
    a ≤ ramp tr a b start sat k u t ∧ ramp tr a b start sat k u t ≤ b ∧
      ramp tr a b start sat k u t ≤ a + (b - a) * (k * u * t / ((sat - start : Int) : K)) ∧
      a + (b - a) * (k * u * t / ((sat - start : Int) : K)) < ramp tr a b start sat k u t + u / ((sat - start : Int) : K) := by
  have hkt : (0 : Int) ≤ k * t := mul_nonneg hk (by omega)
  have hku : (0 : Int) ≤ k * u * t := by
    have : k * u * t = k * t * u := by ring
    rw [this]; exact mul_nonneg hkt hu.le
  have hD : (0 : Int) < sat - start := by omega
  have hD' : (0 : K) < ((sat - start : Int) : K) := by exact_mod_cast hD
  have hkt' : (0 : K) ≤ k * t := by exact_mod_cast hkt
  have hu' : (0 : K) < u := by exact_mod_cast hu
  have hx : 0 ≤ (b - a) * (k * t : K) := mul_nonneg (by linarith) hkt'
  have h1 := ht.le _ hx
  have h2 := ht.lt _ hx
  have h0 : (0 : K) ≤ tr ((b - a) * (k * t)) := by exact_mod_cast ht.nonneg hx
  have hlin : (b - a) * (k * u * t / ((sat - start : Int) : K)) = (b - a) * (k * t) * u / ((sat - start : Int) : K) := by
    rw [← mul_div_assoc]; ring
  have hle : (tr ((b - a) * (k * t)) * u : K) / ((sat - start : Int) : K)
      ≤ (b - a) * (k * t) * u / ((sat - start : Int) : K) := by
    rw [div_le_div_iff_of_pos_right hD']
    exact mul_le_mul_of_nonneg_right h1 hu'.le
  have hlast : (b - a) * (k * t) * u / ((sat - start : Int) : K) ≤ b - a := by
    rw [div_le_iff₀ hD']
    have : (k * u * t : K) ≤ ((sat - start : Int) : K) := by
      have : k * u * t ≤ sat - start := by omega
      exact_mod_cast this
    calc (b - a) * (k * t) * u = (b - a) * (k * u * t) := by ring
      _ ≤ (b - a) * ((sat - start : Int) : K) := mul_le_mul_of_nonneg_left this (by linarith)
  unfold ramp
  rw [Int.cast_mul, hlin]
  refine ⟨?_, by linarith, by linarith, ?_⟩
  · have : 0 ≤ (tr ((b - a) * (k * t)) * u : K) / ((sat - start : Int) : K) :=
      div_nonneg (mul_nonneg h0 hu'.le) hD'.le
    linarith
  · have : (b - a) * (k * t) * u / ((sat - start : Int) : K)
        < (tr ((b - a) * (k * t)) * u + u) / ((sat - start : Int) : K) := by
      rw [div_lt_div_iff_of_pos_right hD']
      have := mul_lt_mul_of_pos_right h2 hu'
      linarith
    rw [add_div] at this
    linarith

theorem ramp_neg (t : Nat) : ramp tr (-a) (-b) start sat k u t = - ramp tr a b start sat k u t := by
  unfold ramp
  have : (-b - -a) * (k * t : K) = -((b - a) * (k * t)) := by ring
  rw [this, ht.neg]
  push_cast
  ring

theorem ramp_mono (hk : 0 ≤ k) (hu : 0 < u) (hD : start < sat) {t t' : Nat} (htt : t ≤ t') (hab : a ≤ b) :
    ramp tr a b start sat k u t ≤ ramp tr a b start sat k u t' := by
  unfold ramp
  have hD' : (0 : K) < ((sat - start : Int) : K) := by exact_mod_cast (by omega : 0 < sat - start)
  have hk' : (0 : K) ≤ k := by exact_mod_cast hk
  have : tr ((b - a) * (k * t)) ≤ tr ((b - a) * (k * t')) := by
    refine ht.mono (mul_nonneg (by linarith) (mul_nonneg hk' (by positivity))) ?_
    refine mul_le_mul_of_nonneg_left (mul_le_mul_of_nonneg_left ?_ hk') (by linarith)
    exact_mod_cast htt
  have : tr ((b - a) * (k * t)) * u ≤ tr ((b - a) * (k * t')) * u := mul_le_mul_of_nonneg_right this hu.le
  have : ((tr ((b - a) * (k * t)) * u : Int) : K) ≤ ((tr ((b - a) * (k * t')) * u : Int) : K) := by exact_mod_cast this
  have := (div_le_div_iff_of_pos_right hD').2 this
  linarith

end

/-! ## C45 -/

/-- C45: at the start the forcing by other gases is `fex0`. -/
theorem C45_start {E : DEnv K} {d d' : Dice K} {W : Scenario K} {n : Nat} (h : Journey E d d' W n) {y : K}
    (hy : OtherForcing E d' W 0 y) : W.p .fex0 = .num y :=
  (other_spec h (Nat.zero_le _) hy).1 rfl

/-- C45: from the saturation time on it is `fex1`. -/
theorem C45_saturated {E : DEnv K} {d d' : Dice K} {W : Scenario K} {n : Nat} (h : Journey E d d' W n) {a b : K}
    (ha : W.p .fex0 = .num a) (hb : W.p .fex1 = .num b) {j : Nat} (h1 : 1 ≤ j) (hj : j ≤ n)
    (hs : W.sat ≤ W.start + j * W.period) {y : K} (hy : OtherForcing E d' W j y) : y = b := by
  have := (other_spec h hj hy).2 h1
  rw [ha, hb] at this
  refine (forcoth_num this).1 ?_
  unfold Scenario.period at hs
  rw [mul_comm (W.ticks * W.tick)]
  exact hs

example : ∃ y, OtherForcing diceEnv dice1 diceW 0 y ∧ diceW.p .fex0 = .num y :=
  have h : OtherForcing diceEnv dice1 diceW 0 (1 / 4) :=
    ⟨8901 / 4900, 4152 / 5, 38 / 10, 588, shows_of (by decide +kernel), shows_of (by decide +kernel), by decide +kernel,
      by decide +kernel, by decide +kernel⟩
  ⟨_, h, C45_start dice_journey h⟩

/-- What the forcing is at any time point. -/
theorem other_cases {E : DEnv K} {d d' : Dice K} {W : Scenario K} {n : Nat} (h : Journey E d d' W n) {a b : K}
    (ha : W.p .fex0 = .num a) (hb : W.p .fex1 = .num b) {j : Nat} (hj : j ≤ n) {y : K}
    (hy : OtherForcing E d' W j y) : (j = 0 ∧ y = a) ∨ (1 ≤ j ∧ W.sat ≤ W.start + W.ticks * W.tick * j ∧ y = b) ∨
      (1 ≤ j ∧ W.start + W.ticks * W.tick * j < W.sat ∧ y = ramp E.env.trunc a b W.start W.sat W.ticks W.tick j) := by
  obtain ⟨s1, s2⟩ := other_spec h hj hy
  rcases Nat.eq_zero_or_pos j with h0 | h1
  · have := s1 h0
    rw [ha] at this
    exact .inl ⟨h0, (Fl.num.inj this).symm⟩
  · have := s2 h1
    rw [ha, hb] at this
    obtain ⟨r1, r2⟩ := forcoth_num this
    rcases lt_or_ge (W.start + W.ticks * W.tick * j) W.sat with hl | hl
    · exact .inr (.inr ⟨h1, hl, r2 hl⟩)
    · exact .inr (.inl ⟨h1, hl, r1 hl⟩)

/-- Ticks of a positive length make periods of a positive number of ticks. -/
theorem Journey.ticks {E : DEnv K} {d d' : Dice K} {W : Scenario K} {n : Nat} (h : Journey E d d' W n)
    (hu : 0 < W.tick) : 0 ≤ W.ticks := by
  have := h.forward
  unfold Scenario.period at this
  by_contra hc
  have : W.ticks * W.tick ≤ 0 := mul_nonpos_of_nonpos_of_nonneg (by omega) hu.le
  omega

/-- C45: it never leaves the interval between `fex0` and `fex1`. -/
theorem C45_between {E : DEnv K} {d d' : Dice K} {W : Scenario K} {n : Nat} (h : Journey E d d' W n)
    (ht : TruncSpec E.env.trunc) (hu : 0 < W.tick) {a b : K}
    (ha : W.p .fex0 = .num a) (hb : W.p .fex1 = .num b) {j : Nat} (hj : j ≤ n) {y : K}
    (hy : OtherForcing E d' W j y) : min a b ≤ y ∧ y ≤ max a b := by
  have hk := h.ticks hu
  rcases other_cases h ha hb hj hy with ⟨_, rfl⟩ | ⟨_, _, rfl⟩ | ⟨_, hs, rfl⟩
  · exact ⟨min_le_left _ _, le_max_left _ _⟩
  · exact ⟨min_le_right _ _, le_max_right _ _⟩
  · rcases le_total a b with hab | hab
    · obtain ⟨h1, h2, _⟩ := ramp_up ht hk hu hs hab
      exact ⟨(min_le_left _ _).trans h1, h2.trans (le_max_right _ _)⟩
    · obtain ⟨h1, h2, _⟩ := ramp_up ht hk hu hs (neg_le_neg hab)
      rw [ramp_neg ht] at h1 h2
      exact ⟨(min_le_right _ _).trans (neg_le_neg_iff.1 h2), (neg_le_neg_iff.1 h1).trans (le_max_left _ _)⟩

/-- C45: it moves from `fex0` towards `fex1` and never back. -/
theorem C45_monotone {E : DEnv K} {d d' : Dice K} {W : Scenario K} {n : Nat} (h : Journey E d d' W n)
    (ht : TruncSpec E.env.trunc) (hu : 0 < W.tick) {a b : K}
    (ha : W.p .fex0 = .num a) (hb : W.p .fex1 = .num b) {i j : Nat} (hij : i ≤ j) (hj : j ≤ n) {y z : K}
    (hy : OtherForcing E d' W i y) (hz : OtherForcing E d' W j z) : (a ≤ b → y ≤ z) ∧ (b ≤ a → z ≤ y) := by
  have hk := h.ticks hu
  have bt := C45_between h ht hu ha hb (hij.trans hj) hy
  have bt' := C45_between h ht hu ha hb hj hz
  have hcase := other_cases h ha hb (hij.trans hj) hy
  have hcase' := other_cases h ha hb hj hz
  have hle : W.ticks * W.tick * i ≤ W.ticks * W.tick * j := by
    refine mul_le_mul_of_nonneg_left ?_ (mul_nonneg hk hu.le)
    exact_mod_cast hij
  have hpos : (0 : Int) ≤ W.ticks * W.tick * i := mul_nonneg (mul_nonneg hk hu.le) (by omega)
  constructor
  · intro hab
    rw [min_eq_left hab, max_eq_right hab] at bt bt'
    rcases hcase with ⟨_, rfl⟩ | ⟨i1, hs, rfl⟩ | ⟨_, hs, rfl⟩
    · exact bt'.1
    · rcases hcase' with ⟨rfl, rfl⟩ | ⟨_, _, rfl⟩ | ⟨_, hs', rfl⟩
      · omega
      · exact le_refl _
      · omega
    · rcases hcase' with ⟨rfl, rfl⟩ | ⟨_, _, rfl⟩ | ⟨_, hs', rfl⟩
      · omega
      · exact bt.2
      · exact ramp_mono ht hk hu (by omega) hij hab
  · intro hab
    rw [min_eq_right hab, max_eq_left hab] at bt bt'
    rcases hcase with ⟨_, rfl⟩ | ⟨i1, hs, rfl⟩ | ⟨_, hs, rfl⟩
    · exact bt'.2
    · rcases hcase' with ⟨rfl, rfl⟩ | ⟨_, _, rfl⟩ | ⟨_, hs', rfl⟩
      · omega
      · exact le_refl _
      · omega
    · rcases hcase' with ⟨rfl, rfl⟩ | ⟨_, _, rfl⟩ | ⟨_, hs', rfl⟩
      · omega
      · exact bt.1
      · have := ramp_mono ht hk hu (a := -a) (b := -b) (start := W.start) (sat := W.sat) (by omega) hij (neg_le_neg hab)
        rw [ramp_neg ht, ramp_neg ht] at this
        exact neg_le_neg_iff.1 this

/-- C45, up to the resolution of the time: before the saturation time the forcing differs from the
straight line by less than one tick's share. What is missing: the forcing is not on the line, see
`C45_not_linear`. -/
theorem C45_linear_partial {E : DEnv K} {d d' : Dice K} {W : Scenario K} {n : Nat} (h : Journey E d d' W n)
    (ht : TruncSpec E.env.trunc) (hu : 0 < W.tick) {a b : K}
    (ha : W.p .fex0 = .num a) (hb : W.p .fex1 = .num b) {j : Nat} (hj : j ≤ n)
    (hs : W.start + j * W.period < W.sat) {y : K} (hy : OtherForcing E d' W j y) :
    |y - (a + (b - a) * (((j * W.period : Int) : K) / ((W.sat - W.start : Int) : K)))|
      < (W.tick : K) / ((W.sat - W.start : Int) : K) := by
  have hk := h.ticks hu
  have hpos : (0 : Int) ≤ j * W.period := mul_nonneg (by omega) h.forward.le
  have hD' : (0 : K) < ((W.sat - W.start : Int) : K) := by exact_mod_cast (by omega : 0 < W.sat - W.start)
  have hu' : (0 : K) < (W.tick : K) := by exact_mod_cast hu
  have hper : W.ticks * W.tick * (j : Int) = j * W.period := by unfold Scenario.period; ring
  have hper' : ((j * W.period : Int) : K) = W.ticks * W.tick * j := by rw [← hper]; push_cast; ring
  have huD := div_pos hu' hD'
  rw [hper']
  rcases other_cases h ha hb hj hy with ⟨rfl, rfl⟩ | ⟨_, hs', rfl⟩ | ⟨_, hs', rfl⟩
  · simpa using huD
  · rw [hper] at hs'; omega
  · rcases le_total a b with hab | hab
    · obtain ⟨_, _, h3, h4⟩ := ramp_up ht hk hu hs' hab
      rw [abs_lt]
      constructor <;> linarith
    · obtain ⟨_, _, h3, h4⟩ := ramp_up ht hk hu hs' (neg_le_neg hab)
      rw [ramp_neg ht] at h3 h4
      have e : (-b - -a) * (W.ticks * W.tick * j / ((W.sat - W.start : Int) : K))
          = -((b - a) * (W.ticks * W.tick * j / ((W.sat - W.start : Int) : K))) := by ring
      rw [e] at h3 h4
      rw [abs_lt]
      constructor <;> linarith

/-! ## Concrete runs -/

theorem demoTrunc : TruncSpec diceEnv.env.trunc := by
  have h : ∀ x : ℚ, diceEnv.env.trunc x = if 0 ≤ x then ⌊x⌋ else ⌈x⌉ := fun x => by
    show (if 0 ≤ x then x.floor else x.ceil) = _
    rw [Rat.ceil_eq_neg_floor_neg]
    rfl
  refine ⟨fun x hx => ?_, fun x hx => ?_, fun x => ?_⟩
  · rw [h, if_pos hx]; exact Int.floor_le x
  · rw [h, if_pos hx]; exact Int.lt_floor_add_one x
  · rw [h, h]
    rcases lt_trichotomy x 0 with hx | hx | hx
    · rw [if_pos (by linarith), if_neg (by linarith), Int.floor_neg]
    · subst hx; simp
    · rw [if_neg (by linarith), if_pos hx.le, Int.ceil_neg]

/-- The forcing after one year. -/
theorem dice_other : OtherForcing diceEnv dice1 diceW 1 (1 / 4 + 164 * 86400 / 4102444800) :=
  ⟨593448023777161 / 326379397500000, 190204846391 / 229125000, 38 / 10, 588, shows_of (by decide +kernel),
    shows_of (by decide +kernel), by decide +kernel, by decide +kernel, by decide +kernel⟩

/-- C45 as stated does not hold: one year after the start the forcing is not on the straight line from
`fex0` at the start to `fex1` at the saturation time. The product of 0.45 and 365 days is cut to whole
days. -/
theorem C45_not_linear : ∃ (E : DEnv ℚ) (d d' : Dice ℚ) (W : Scenario ℚ) (n j : ℕ) (a b y : ℚ),
    Journey E d d' W n ∧ TruncSpec E.env.trunc ∧ 0 < W.tick ∧ W.p .fex0 = .num a ∧ W.p .fex1 = .num b ∧ j ≤ n ∧
    W.start + j * W.period < W.sat ∧ OtherForcing E d' W j y ∧
    y ≠ a + (b - a) * (((j * W.period : ℤ) : ℚ) / ((W.sat - W.start : ℤ) : ℚ)) :=
  ⟨diceEnv, dice0, dice1, diceW, 3, 1, 1 / 4, 7 / 10, _, dice_journey, demoTrunc, by decide, by decide +kernel,
    by decide +kernel, by omega, by decide, dice_other, by decide +kernel⟩

example : (1 / 4 : ℚ) ≤ 1 / 4 + 164 * 86400 / 4102444800 ∧ (1 / 4 + 164 * 86400 / 4102444800 : ℚ) ≤ 7 / 10 := by
  have := C45_between dice_journey demoTrunc (by decide) (a := 1 / 4) (b := 7 / 10) (by decide +kernel)
    (by decide +kernel) (j := 1) (by omega) dice_other
  rw [min_eq_left (by norm_num), max_eq_right (by norm_num)] at this
  exact this

theorem diceSat_journey : Journey diceEnv diceSat0 diceSat1 diceSatW 3 :=
  ⟨diceSt_reach _, diceSatW_given, .inr ⟨noJunk, diceSat_run, (by decide +kernel : diceSatW.steps = 3).symm⟩,
    diceSat_axes, by decide⟩

/-- The forcing after one year (ramp) and after two years (saturated). -/
example : ∃ y z, OtherForcing diceEnv diceSat1 diceSatW 1 y ∧ OtherForcing diceEnv diceSat1 diceSatW 2 z ∧
    y < z ∧ z = 7 / 10 := by
  have h1 : OtherForcing diceEnv diceSat1 diceSatW 1 (1 / 4 + 164 / 730) := by
    have hm : seen diceEnv diceSat1 diceSatW .mat 1 = some (.num (190204846391 / 229125000)) := by decide +kernel
    exact ⟨_, _, 38 / 10, 588, shows_of (x := 38 / 10 * (190204846391 / 229125000 / 588 - 1) + (1 / 4 + 164 / 730))
      (by decide +kernel), shows_of hm, by decide +kernel, by decide +kernel, rfl⟩
  have h2 : OtherForcing diceEnv diceSat1 diceSatW 2 (7 / 10) := by
    have hm : seen diceEnv diceSat1 diceSatW .mat 2 = some (.num (684542045280422353 / 824850000000000)) := by
      decide +kernel
    exact ⟨_, _, 38 / 10, 588, shows_of (x := 38 / 10 * (684542045280422353 / 824850000000000 / 588 - 1) + 7 / 10)
      (by decide +kernel), shows_of hm, by decide +kernel, by decide +kernel, rfl⟩
  have h3 := C45_saturated diceSat_journey (a := 1 / 4) (b := 7 / 10) (by decide +kernel) (by decide +kernel) (j := 2)
    (by omega) (by omega) (by decide +kernel) h2
  have h4 := (C45_monotone diceSat_journey demoTrunc (by decide) (a := 1 / 4) (b := 7 / 10) (by decide +kernel)
    (by decide +kernel) (i := 1) (j := 2) (by omega) (by omega) h1 h2).1 (by norm_num)
  exact ⟨_, _, h1, h2, lt_of_le_of_ne h4 (by norm_num), h3⟩

end Openscm
