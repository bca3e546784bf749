import Verif.DiceJourney
import Mathlib.Tactic.FieldSimp
import Mathlib.Tactic.LinearCombination

/-!
# C39, C40, C41: what DICE computes

A program resets the model and steps through it, or runs it; somebody reads the outputs through new
views. The scenario is what can be read from the inputs when the model has filled in its defaults.
-/

set_option linter.unusedSectionVars false

namespace Openscm
variable {K : Type} [Field K] [LinearOrder K] [IsStrictOrderedRing K]

/-! ## Specification -/

/-- From state `d` a program went `n` steps into scenario `W` and arrived at `d'`; the output
parameters, if they were used before `d`, were used with the time points of the scenario. -/
structure Journey (E : DEnv K) (d d' : Dice K) (W : Scenario K) (n : Nat) : Prop where
  reach : DReach E d
  given : Given E (prepared E d).inp W
  went : Went E d d' W n
  axes : ∀ o, OnAxis d.out (outputKey o) (W.outAxis o)
  forward : 0 < W.period

/-- Somebody who reads output `o` sees the number `x` at time point `j`. -/
def Shows (E : DEnv K) (d : Dice K) (W : Scenario K) (o : OName) (j : Nat) (x : K) : Prop :=
  ∃ a, readOutput E d W o = .ok (.arr a) ∧ a.vals[j]? = some (.num x)

/-- The scalar input that bounds an output from below. -/
def lowerBound : OName → Option SName
  | .mat => some .mat_lower
  | .ml => some .ml_lower
  | .mu => some .mu_lower
  | .tocean => some .tocean_lower
  | .tatm => none
  | .forc => none

/-- The scalar input that bounds an output from above. -/
def upperBound : OName → Option SName
  | .tocean => some .tocean_upper
  | .tatm => some .tatm_upper
  | _ => none

/-- Annual emissions `e` as the carbon emitted in one period, in GtC: a year has 365 days, and the
original model takes 3.666 t of CO2 for 1 t of carbon. -/
def carbon (W : Scenario K) (e : K) : K :=
  e * ((W.period : K) / (365 * 24 * 60 * 60)) / (if W.rounding then 3666 / 1000 else 1)

/-! ## Lemmas -/

/-- The values behind what is seen. -/
theorem Journey.spec {E : DEnv K} {d d' : Dice K} {W : Scenario K} {n : Nat} (h : Journey E d d' W n) :
    ∃ L, Progress E d d' W n L ∧ (∀ o, ∃ r, readOutput E d' W o = .ok (.arr (.floats r)) ∧ ShownAs (L o) r) ∧
      ∀ o j x, Shows E d' W o j x → col L j o = .num x := by
  obtain ⟨L, hL⟩ := went_spec h.reach h.given h.went
  refine ⟨L, hL, fun o => hL.read (h.axes o) h.forward, ?_⟩
  rintro o j x ⟨a, h1, h2⟩
  obtain ⟨r, hr, hs⟩ := hL.read (h.axes o) h.forward
  rw [hr] at h1
  cases h1
  have := hs.num j x h2
  unfold col
  rw [List.getD_eq_getElem?_getD, this]; rfl

theorem Journey.step {E : DEnv K} {d d' : Dice K} {W : Scenario K} {n : Nat} {L : Series K}
    (h : Progress E d d' W n L) {j : Nat} (hj : j < n) :
    DiceStep E.lg E.env.trunc W.toDiceInputs (coefsOf d') (j + 1) (col L j) (col L (j + 1)) := by
  have := h.traj j hj
  rwa [Nat.zero_add] at this

theorem pyMax_ge {a b : Fl K} {lo x : K} (ha : a = .num lo) (h : Fl.pyMax a b = .num x) : lo ≤ x := by
  subst ha
  cases b with
  | nan => unfold Fl.pyMax at h; cases h; exact le_refl _
  | num b =>
    unfold Fl.pyMax at h
    simp only at h
    split at h
    · rename_i hlt; cases h; exact hlt.le
    · cases h; exact le_refl _

theorem pyMin_le {a b : Fl K} {hi x : K} (ha : a = .num hi) (h : Fl.pyMin a b = .num x) : x ≤ hi := by
  subst ha
  cases b with
  | nan => unfold Fl.pyMin at h; cases h; exact le_refl _
  | num b =>
    unfold Fl.pyMin at h
    simp only at h
    split at h
    · rename_i hlt; cases h; exact hlt.le
    · cases h; exact le_refl _

theorem pyMax_le {lo hi x : K} {b : Fl K} (hb : ∀ y, b = .num y → y ≤ hi) (hlo : lo ≤ hi)
    (h : Fl.pyMax (.num lo) b = .num x) : x ≤ hi := by
  cases b with
  | nan => unfold Fl.pyMax at h; cases h; exact hlo
  | num b =>
    unfold Fl.pyMax at h
    simp only at h
    split at h
    · cases h; exact hb _ rfl
    · cases h; exact hlo

/-- A pool above its bound is not at the bound. -/
theorem pyMax_free {a b : Fl K} {x : K} (h : Fl.pyMax a b = .num x) (hx : a ≠ .num x) : b = .num x := by
  cases a with
  | nan => cases b <;> (unfold Fl.pyMax at h; cases h)
  | num a =>
    cases b with
    | nan => unfold Fl.pyMax at h; exact absurd h hx
    | num b =>
      unfold Fl.pyMax at h
      simp only at h
      split at h
      · exact h
      · exact absurd h hx

theorem pyMax_num {a b : K} (h : a ≤ b) : Fl.pyMax (.num a) (.num b) = .num b := by
  unfold Fl.pyMax
  simp only
  split
  · rfl
  · rename_i hn
    rw [le_antisymm h (not_lt.1 hn)]

theorem fl_add {a b : Fl K} {x : K} (h : a + b = .num x) : ∃ y z, a = .num y ∧ b = .num z ∧ x = y + z := by
  cases a with
  | nan => have : (Fl.nan : Fl K) + b = Fl.nan := by cases b <;> rfl
           rw [this] at h; cases h
  | num a =>
    cases b with
    | nan => cases h
    | num b => exact ⟨a, b, rfl, rfl, by injection h with h; exact h.symm⟩

theorem fl_sub {a b : Fl K} {x : K} (h : a - b = .num x) : ∃ y z, a = .num y ∧ b = .num z ∧ x = y - z := by
  cases a with
  | nan => cases b <;> cases h
  | num a =>
    cases b with
    | nan => cases h
    | num b => exact ⟨a, b, rfl, rfl, by injection h with h; exact h.symm⟩

theorem fl_mul {a b : Fl K} {x : K} (h : a * b = .num x) : ∃ y z, a = .num y ∧ b = .num z ∧ x = y * z := by
  cases a with
  | nan => cases b <;> cases h
  | num a =>
    cases b with
    | nan => cases h
    | num b => exact ⟨a, b, rfl, rfl, by injection h with h; exact h.symm⟩

@[simp] theorem fl_num_add (a b : K) : (Fl.num a + Fl.num b : Fl K) = .num (a + b) := rfl
@[simp] theorem fl_num_sub (a b : K) : (Fl.num a - Fl.num b : Fl K) = .num (a - b) := rfl
@[simp] theorem fl_num_mul (a b : K) : (Fl.num a * Fl.num b : Fl K) = .num (a * b) := rfl

theorem fl_quot {a : Fl K} {y : K} {r : Fl K} (h : Fl.quot a (.num y) = .ok r) : y ≠ 0 ∧ r = a.map (· / y) := by
  cases a with
  | nan =>
    simp only [Fl.quot] at h
    split at h
    · cases h
    · rename_i hy
      cases h
      exact ⟨hy, rfl⟩
  | num a =>
    simp only [Fl.quot] at h
    split at h
    · cases h
    · rename_i hy
      cases h
      exact ⟨hy, rfl⟩

theorem emitted_num {W : Scenario K} {t : Nat} {x : K} (h : emitted W.toDiceInputs (t + 1) = .num x) :
    ∃ e, W.emissions[t]? = some (.num e) ∧ x = carbon W e := by
  unfold emitted at h
  rw [Nat.add_sub_cancel, List.getD_eq_getElem?_getD] at h
  cases he : W.emissions[t]? with
  | none => rw [he] at h; cases h
  | some e =>
    rw [he] at h
    cases e with
    | nan => cases h
    | num e =>
      refine ⟨e, rfl, ?_⟩
      simp only [Option.getD_some, Fl.map, Fl.num.injEq] at h
      rw [← h]
      unfold carbon Scenario.period
      norm_num

theorem emitted_of {W : Scenario K} {t : Nat} {e : K} (h : W.emissions[t]? = some (.num e)) :
    emitted W.toDiceInputs (t + 1) = .num (carbon W e) := by
  unfold emitted
  rw [Nat.add_sub_cancel, List.getD_eq_getElem?_getD, h]
  simp only [Option.getD_some, Fl.map, Fl.num.injEq]
  unfold carbon Scenario.period
  norm_num

/-! ## A concrete journey -/

/-- The entry that somebody reads. -/
def seen (E : DEnv K) (d : Dice K) (W : Scenario K) (o : OName) (j : Nat) : Option (Fl K) :=
  match readOutput E d W o with
  | .ok (.arr a) => a.vals[j]?
  | _ => none

theorem shows_of {E : DEnv K} {d : Dice K} {W : Scenario K} {o : OName} {j : Nat} {x : K}
    (h : seen E d W o j = some (.num x)) : Shows E d W o j x := by
  unfold seen at h
  split at h
  · rename_i a ha
    exact ⟨a, ha, h⟩
  · cases h

theorem dice_steps_eq : diceW.steps = 3 := by decide +kernel

/-- A run of three years with emissions. -/
theorem dice_journey : Journey diceEnv dice0 dice1 diceW 3 :=
  ⟨diceSt_reach _, diceW_given, .inr ⟨noJunk, dice_run, dice_steps_eq.symm⟩, dice_axes, by decide⟩

/-- Two of three steps. -/
theorem dice_journey2 : Journey diceEnv dice0 (diceAt 2) diceW 2 :=
  ⟨diceSt_reach _, diceW_given, .inl ⟨noJunk, _, dice_reset, _, _, dice_step 0 (by omega), _, _, dice_step 1 (by omega),
    rfl⟩, dice_axes, by decide⟩

/-- A run of three years in equilibrium. -/
theorem diceEq_journey : Journey diceEnv diceEq0 diceEq1 diceEqW 3 :=
  ⟨diceSt_reach _, diceEqW_given, .inr ⟨noJunk, diceEq_run, (by decide +kernel : diceEqW.steps = 3).symm⟩, diceEq_axes,
    by decide⟩

/-! ## C39 -/

/-- C39: from the first step on, no output is below its lower bound. -/
theorem C39_lower {E : DEnv K} {d d' : Dice K} {W : Scenario K} {n : Nat} (h : Journey E d d' W n)
    {o : OName} {s : SName} (hs : lowerBound o = some s) {lo : K} (hlo : W.p s = .num lo) {j : Nat} (h1 : 1 ≤ j)
    (hj : j ≤ n) {x : K} (hx : Shows E d' W o j x) : lo ≤ x := by
  obtain ⟨L, hp, _, hsh⟩ := h.spec
  have hv := hsh o j x hx
  obtain ⟨i, rfl⟩ := Nat.exists_eq_add_of_le h1
  rw [Nat.add_comm] at hv
  have st := Journey.step hp (j := i) (by omega)
  cases o <;> cases hs
  · rw [st.mat] at hv; exact pyMax_ge hlo hv
  · rw [st.ml] at hv; exact pyMax_ge hlo hv
  · rw [st.mu] at hv; exact pyMax_ge hlo hv
  · rw [st.tocean] at hv; exact pyMax_ge hlo hv

/-- C39: from the first step on, no output is above its upper bound. For the ocean temperature the
lower bound has to be at or below the upper bound. -/
theorem C39_upper {E : DEnv K} {d d' : Dice K} {W : Scenario K} {n : Nat} (h : Journey E d d' W n)
    {o : OName} {s : SName} (hs : upperBound o = some s) {hi : K} (hhi : W.p s = .num hi)
    (hle : ∀ r, lowerBound o = some r → ∃ lo, W.p r = .num lo ∧ lo ≤ hi) {j : Nat} (h1 : 1 ≤ j)
    (hj : j ≤ n) {x : K} (hx : Shows E d' W o j x) : x ≤ hi := by
  obtain ⟨L, hp, _, hsh⟩ := h.spec
  have hv := hsh o j x hx
  obtain ⟨i, rfl⟩ := Nat.exists_eq_add_of_le h1
  rw [Nat.add_comm] at hv
  have st := Journey.step hp (j := i) (by omega)
  cases o <;> cases hs
  · obtain ⟨_, _, st⟩ := st.tatm
    rw [st] at hv
    exact pyMin_le hhi hv
  · obtain ⟨lo, l1, l2⟩ := hle _ rfl
    rw [st.tocean, l1] at hv
    exact pyMax_le (fun y hy => pyMin_le hhi hy) l2 hv

example : (10 : ℚ) ≤ 190204846391 / 229125000 :=
  C39_lower dice_journey (o := .mat) (s := .mat_lower) (j := 1) rfl (by decide +kernel) (by omega) (by omega)
    (shows_of (by decide +kernel))

example : (17 / 2500 : ℚ) ≤ 20 ∧ (10291339993838843857 / 12620003370000000000 : ℚ) ≤ 40 :=
  ⟨by norm_num, C39_upper dice_journey (o := .tatm) (s := .tatm_upper) (j := 1) rfl (by decide +kernel)
    (by intro r hr; cases hr) (by omega) (by omega) (shows_of (by decide +kernel))⟩

example : (2665721 / 250000000 : ℚ) ≤ 20 :=
  C39_upper dice_journey (o := .tocean) (s := .tocean_upper) (j := 1) rfl (by decide +kernel)
    (by intro r hr; cases hr; exact ⟨-1, by decide +kernel, by norm_num⟩) (by omega) (by omega)
    (shows_of (by decide +kernel))

/-! ## C40 -/

/-- C40: as long as no pool is at its lower bound, a step changes the total of the three pools by
exactly the carbon emitted in the period. -/
theorem C40_step {E : DEnv K} {d d' : Dice K} {W : Scenario K} {n : Nat} (h : Journey E d d' W n)
    {j : Nat} (hj : j < n) {x x' : OName → K}
    (hx : ∀ o, o = .mat ∨ o = .ml ∨ o = .mu → Shows E d' W o j (x o) ∧ Shows E d' W o (j + 1) (x' o))
    (hfree : ∀ o s, o = .mat ∨ o = .ml ∨ o = .mu → lowerBound o = some s → W.p s ≠ .num (x' o)) :
    ∃ e, W.emissions[j]? = some (.num e) ∧
      x' .mat + x' .ml + x' .mu = x .mat + x .ml + x .mu + carbon W e := by
  obtain ⟨L, hp, _, hsh⟩ := h.spec
  have st := Journey.step hp hj
  have hc := hp.coefs
  have v : ∀ o, o = .mat ∨ o = .ml ∨ o = .mu → col L j o = .num (x o) ∧ col L (j + 1) o = .num (x' o) :=
    fun o ho => ⟨hsh _ _ _ (hx o ho).1, hsh _ _ _ (hx o ho).2⟩
  obtain ⟨a0, a1⟩ := v .mat (.inl rfl)
  obtain ⟨l0, l1⟩ := v .ml (.inr (.inl rfl))
  obtain ⟨u0, u1⟩ := v .mu (.inr (.inr rfl))
  have ma := st.mat
  have ml := st.ml
  have mu := st.mu
  rw [a1, a0, u0] at ma
  rw [l1, l0, u0] at ml
  rw [u1, a0, l0, u0] at mu
  have ma := pyMax_free ma.symm (hfree .mat _ (.inl rfl) rfl)
  have ml := pyMax_free ml.symm (hfree .ml _ (.inr (.inl rfl)) rfl)
  have mu := pyMax_free mu.symm (hfree .mu _ (.inr (.inr rfl)) rfl)
  obtain ⟨p, q, p1, q1, r1⟩ := fl_add ma
  obtain ⟨p', q', p1', q1', r1'⟩ := fl_add p1
  obtain ⟨_, c11, e1, e2, e3⟩ := fl_mul p1'
  obtain ⟨_, c21, f1, f2, f3⟩ := fl_mul q1'
  cases e1; cases f1
  obtain ⟨p, q', p1, q1', r2⟩ := fl_add ml
  obtain ⟨_, c33, g1, g2, g3⟩ := fl_mul p1
  obtain ⟨_, c23, k1, k2, k3⟩ := fl_mul q1'
  cases g1; cases k1
  obtain ⟨p, q'', p1, q1'', r3⟩ := fl_add mu
  obtain ⟨p', q''', p1', q1''', r3'⟩ := fl_add p1
  obtain ⟨_, c12, m1, m2, m3⟩ := fl_mul p1'
  obtain ⟨_, c22, n1, n2, n3⟩ := fl_mul q1'''
  obtain ⟨_, c32, o1, o2, o3⟩ := fl_mul q1''
  cases m1; cases n1; cases o1
  have m2 : W.p .b12 = .num c12 := m2
  have k2 : W.p .b23 = .num c23 := k2
  obtain ⟨e, he, hq⟩ := emitted_num q1
  refine ⟨e, he, ?_⟩
  have b11 := hc.b11
  have b22 := hc.b22
  have b33 := hc.b33
  rw [e2, m2] at b11
  rw [n2, f2, k2] at b22
  rw [g2, o2] at b33
  simp only [fl_num_sub, Fl.num.injEq] at b11 b22 b33
  rw [r1, r1', e3, f3, r2, g3, k3, r3, r3', m3, n3, o3, b11, b22, b33, hq]
  ring

/-- C40: over `m` steps the total changes by the sum of the emissions. -/
theorem C40_total {E : DEnv K} {d d' : Dice K} {W : Scenario K} {n : Nat} (h : Journey E d d' W n)
    {x : Nat → OName → K} {m : Nat} (hm : m ≤ n)
    (hx : ∀ j o, j ≤ m → (o = .mat ∨ o = .ml ∨ o = .mu) → Shows E d' W o j (x j o))
    (hfree : ∀ j o s, 1 ≤ j → j ≤ m → (o = .mat ∨ o = .ml ∨ o = .mu) → lowerBound o = some s →
      W.p s ≠ .num (x j o)) :
    ∃ es : List K, W.emissions.take m = es.map .num ∧ es.length = m ∧
      x m .mat + x m .ml + x m .mu = x 0 .mat + x 0 .ml + x 0 .mu + (es.map (carbon W)).sum := by
  induction m with
  | zero => exact ⟨[], by simp, rfl, by simp⟩
  | succ m ih =>
    obtain ⟨es, e1, e2, e3⟩ := ih (by omega) (fun j o hj ho => hx j o (by omega) ho)
      (fun j o s h1 hj ho hs => hfree j o s h1 (by omega) ho hs)
    obtain ⟨e, he, h4⟩ := C40_step h (j := m) (by omega) (x := x m) (x' := x (m + 1))
      (fun o ho => ⟨hx m o (by omega) ho, hx (m + 1) o (le_refl _) ho⟩)
      (fun o s ho hs => hfree (m + 1) o s (by omega) (le_refl _) ho hs)
    refine ⟨es ++ [e], ?_, by simp [e2], ?_⟩
    · rw [List.take_add_one, e1, he]; simp
    · rw [h4, e3]; simp; ring

/-- The pools of the example. -/
def demoPools : ℕ → OName → ℚ
  | 0, .mat => 4152 / 5
  | 0, .ml => 10010
  | 0, .mu => 1527
  | 1, .mat => 190204846391 / 229125000
  | 1, .ml => 20020249423 / 2000000
  | 1, .mu => 1835840807 / 1200000
  | _, _ => 0

example : ∃ es : List ℚ, diceW.emissions.take 1 = es.map .num ∧ es.length = 1 ∧
    demoPools 1 .mat + demoPools 1 .ml + demoPools 1 .mu
      = demoPools 0 .mat + demoPools 0 .ml + demoPools 0 .mu + (es.map (carbon diceW)).sum := by
  refine C40_total dice_journey (x := demoPools) (m := 1) (by omega) ?_ ?_
  · intro j o hj ho
    have : j = 0 ∨ j = 1 := by omega
    rcases this with rfl | rfl <;> rcases ho with rfl | rfl | rfl <;> exact shows_of (by decide +kernel)
  · intro j o s h1 hj ho hs
    have : j = 1 := by omega
    subst this
    rcases ho with rfl | rfl | rfl <;> cases hs <;> decide +kernel

/-! ## C41 -/

theorem Progress.equilibrium {E : DEnv K} {d d' : Dice K} {W : Scenario K} {n : Nat} {L : Series K}
    (hp : Progress E d d' W n L)
    {A L' U b12 b23 : K} {lo : SName → K}
    (hA : W.p .mateq = .num A) (hL : W.p .mleq = .num L') (hU : W.p .mueq = .num U)
    (hA0 : W.p .mat0 = .num A) (hL0 : W.p .ml0 = .num L') (hU0 : W.p .mu0 = .num U)
    (hb12 : W.p .b12 = .num b12) (hb23 : W.p .b23 = .num b23)
    (hlo : ∀ s, s = .mat_lower ∨ s = .ml_lower ∨ s = .mu_lower → W.p s = .num (lo s))
    (hmat : lo .mat_lower ≤ A) (hml : lo .ml_lower ≤ L') (hmu : lo .mu_lower ≤ U)
    (he : ∀ j, j < n → W.emissions[j]? = some (.num 0)) :
    ∀ j, j ≤ n → col L j .mat = .num A ∧ col L j .ml = .num L' ∧ col L j .mu = .num U := by
  have hc := hp.coefs
  intro j
  induction j with
  | zero =>
    intro _
    exact ⟨hp.start.mat.trans hA0, hp.start.ml.trans hL0, hp.start.mu.trans hU0⟩
  | succ j ih =>
    intro hj
    obtain ⟨i1, i2, i3⟩ := ih (by omega)
    have st := Journey.step hp (j := j) (by omega)
    have b11 := hc.b11
    have b21 := hc.b21
    have b22 := hc.b22
    have b32 := hc.b32
    have b33 := hc.b33
    rw [hb12] at b11 b21
    rw [hA, hU] at b21
    rw [hb23] at b22 b32
    rw [hU, hL] at b32
    obtain ⟨nU, b21⟩ := fl_quot b21
    obtain ⟨nL, b32⟩ := fl_quot b32
    simp only [Fl.map] at b21 b32
    rw [b21] at b22
    rw [b32] at b33
    simp only [fl_num_sub] at b11 b22 b33
    have ma := st.mat
    have ml := st.ml
    have mu := st.mu
    rw [i1, i3, b11, b21, emitted_of (he j (by omega))] at ma
    rw [i2, i3, b33] at ml
    rw [i1, i2, i3, b22, b32] at mu
    have e1 : W.toDiceInputs.p .mat_lower = .num (lo .mat_lower) := hlo _ (.inl rfl)
    have e2 : W.toDiceInputs.p .ml_lower = .num (lo .ml_lower) := hlo _ (.inr (.inl rfl))
    have e3 : W.toDiceInputs.p .mu_lower = .num (lo .mu_lower) := hlo _ (.inr (.inr rfl))
    have e4 : W.toDiceInputs.p .b12 = .num b12 := hb12
    have e5 : W.toDiceInputs.p .b23 = .num b23 := hb23
    rw [e1] at ma
    rw [e2, e5] at ml
    rw [e3, e4] at mu
    simp only [fl_num_mul, fl_num_add] at ma ml mu
    have c0 : carbon W (0 : K) = 0 := by unfold carbon; simp
    have f1 : A * (1 - b12) + U * (b12 * A / U) + carbon W 0 = A := by
      rw [c0]; field_simp; ring
    have f2 : L' * (1 - b23 * U / L') + U * b23 = L' := by field_simp; ring
    have f3 : A * b12 + U * (1 - b12 * A / U - b23) + L' * (b23 * U / L') = U := by field_simp; ring
    rw [f1] at ma
    rw [f2] at ml
    rw [f3] at mu
    exact ⟨ma.trans (pyMax_num hmat), ml.trans (pyMax_num hml), mu.trans (pyMax_num hmu)⟩

/-- C41: without emissions, pools of equilibrium size stay as they are. The lower bounds have to be
at or below the equilibrium. -/
theorem C41_equilibrium {E : DEnv K} {d d' : Dice K} {W : Scenario K} {n : Nat} (h : Journey E d d' W n)
    {A L' U b12 b23 : K} {lo : SName → K}
    (hA : W.p .mateq = .num A) (hL : W.p .mleq = .num L') (hU : W.p .mueq = .num U)
    (hA0 : W.p .mat0 = .num A) (hL0 : W.p .ml0 = .num L') (hU0 : W.p .mu0 = .num U)
    (hb12 : W.p .b12 = .num b12) (hb23 : W.p .b23 = .num b23)
    (hlo : ∀ s, s = .mat_lower ∨ s = .ml_lower ∨ s = .mu_lower → W.p s = .num (lo s))
    (hmat : lo .mat_lower ≤ A) (hml : lo .ml_lower ≤ L') (hmu : lo .mu_lower ≤ U)
    (he : ∀ j, j < n → W.emissions[j]? = some (.num 0)) {j : Nat} (hj : j ≤ n) :
    (∀ x, Shows E d' W .mat j x → x = A) ∧ (∀ x, Shows E d' W .ml j x → x = L') ∧
      (∀ x, Shows E d' W .mu j x → x = U) := by
  obtain ⟨L, hp, _, hsh⟩ := h.spec
  have key := hp.equilibrium hA hL hU hA0 hL0 hU0 hb12 hb23 hlo hmat hml hmu he
  obtain ⟨k1, k2, k3⟩ := key j hj
  refine ⟨fun x hx => ?_, fun x hx => ?_, fun x hx => ?_⟩
  · have := hsh _ _ _ hx; rw [k1] at this; exact (Fl.num.inj this).symm
  · have := hsh _ _ _ hx; rw [k2] at this; exact (Fl.num.inj this).symm
  · have := hsh _ _ _ hx; rw [k3] at this; exact (Fl.num.inj this).symm

example : Shows diceEnv diceEq1 diceEqW .mat 3 588 ∧ ∀ x, Shows diceEnv diceEq1 diceEqW .mat 3 x → x = 588 :=
  ⟨shows_of (by decide +kernel), (C41_equilibrium diceEq_journey (A := 588) (L' := 10000) (U := 1350) (b12 := 181 / 10000)
    (b23 := 71 / 100000) (lo := fun s => match s with | .mat_lower => 10 | .ml_lower => 1000 | _ => 100)
    (by decide +kernel) (by decide +kernel) (by decide +kernel) (by decide +kernel) (by decide +kernel)
    (by decide +kernel) (by decide +kernel) (by decide +kernel)
    (by rintro s (rfl | rfl | rfl) <;> decide +kernel) (by norm_num) (by norm_num) (by norm_num)
    (by decide +kernel) (j := 3) (by omega)).1⟩

/-- C41 for whole runs: the pools read as constants. -/
theorem C41_run {E : DEnv K} {d d' : Dice K} {W : Scenario K} (h : Journey E d d' W W.steps)
    {A L' U b12 b23 : K} {lo : SName → K}
    (hA : W.p .mateq = .num A) (hL : W.p .mleq = .num L') (hU : W.p .mueq = .num U)
    (hA0 : W.p .mat0 = .num A) (hL0 : W.p .ml0 = .num L') (hU0 : W.p .mu0 = .num U)
    (hb12 : W.p .b12 = .num b12) (hb23 : W.p .b23 = .num b23)
    (hlo : ∀ s, s = .mat_lower ∨ s = .ml_lower ∨ s = .mu_lower → W.p s = .num (lo s))
    (hmat : lo .mat_lower ≤ A) (hml : lo .ml_lower ≤ L') (hmu : lo .mu_lower ≤ U)
    (he : ∀ j, j < W.steps → W.emissions[j]? = some (.num 0)) :
    readOutput E d' W .mat = .ok (.arr (.floats (List.replicate (W.steps + 1) (.num A)))) ∧
    readOutput E d' W .ml = .ok (.arr (.floats (List.replicate (W.steps + 1) (.num L')))) ∧
    readOutput E d' W .mu = .ok (.arr (.floats (List.replicate (W.steps + 1) (.num U)))) := by
  obtain ⟨L, hp, _, _⟩ := h.spec
  have key := hp.equilibrium hA hL hU hA0 hL0 hU0 hb12 hb23 hlo hmat hml hmu he
  have fin : ∀ o x, (∀ j, j ≤ W.steps → col L j o = .num x) →
      readOutput E d' W o = .ok (.arr (.floats (List.replicate (W.steps + 1) (.num x)))) := by
    intro o x hx
    have hl : L o = (List.replicate (W.steps + 1) x).map .num := by
      apply List.ext_getElem (by simp [hp.length])
      intro j h1 h2
      rw [hp.length] at h1
      have := hx j (by omega)
      unfold col at this
      rw [List.getD_eq_getElem?_getD, List.getElem?_eq_getElem (by rw [hp.length]; exact h1)] at this
      simpa using this
    obtain ⟨r, hr, hs⟩ := hp.read (h.axes o) h.forward
    rw [hr, hs.all (by rw [hl, Fl.allNum_map_num]; simp), hl]
    simp
  exact ⟨fin _ _ fun j hj => (key j hj).1, fin _ _ fun j hj => (key j hj).2.1, fin _ _ fun j hj => (key j hj).2.2⟩

example : readOutput diceEnv diceEq1 diceEqW .mat = .ok (.arr (.floats (List.replicate (diceEqW.steps + 1) (.num 588)))) :=
  (C41_run (A := 588) (L' := 10000) (U := 1350) (b12 := 181 / 10000) (b23 := 71 / 100000)
    (lo := fun s => match s with | .mat_lower => 10 | .ml_lower => 1000 | _ => 100)
    (show Journey diceEnv diceEq0 diceEq1 diceEqW diceEqW.steps by
      have : diceEqW.steps = 3 := by decide +kernel
      rw [this]; exact diceEq_journey)
    (by decide +kernel) (by decide +kernel) (by decide +kernel) (by decide +kernel) (by decide +kernel)
    (by decide +kernel) (by decide +kernel) (by decide +kernel)
    (by rintro s (rfl | rfl | rfl) <;> decide +kernel) (by norm_num) (by norm_num) (by norm_num)
    (by decide +kernel)).1

end Openscm
