import Verif.DiceMono

/-!
# C90 (example) and C91: causes before effects, and mixtures of emissions

What DICE shows up to some time does not depend on what comes later, and the carbon pools depend on emissions as an affine
function does.
-/

set_option linter.unusedSectionVars false

namespace Openscm
variable {K : Type} [Field K] [LinearOrder K] [IsStrictOrderedRing K]

/-! ## A run with a higher climate sensitivity -/

def diceHot0 : Dice ℚ := diceSt (diceInputs 3 10 ++
  [.input (.scalar (.str "Equilibrium Climate Sensitivity") "delta_degC" rootRegion), .input (.sSet 0 (.num 4))])

def diceHotW : Scenario ℚ :=
  { diceW with p := fun n => match n with
      | .t2xco2 => .num 4
      | n => defaultValue n }

theorem diceHotW_given : Given diceEnv (prepared diceEnv diceHot0).inp diceHotW := by
  have h1 : ∀ n ∈ allScalars, freshScalar diceEnv.env (prepared diceEnv diceHot0).inp (scalarSpec n).1
      (scalarSpec n).2 = .ok (.num (diceHotW.p n)) := by decide +kernel
  have h2 : readEmissions diceEnv (prepared diceEnv diceHot0).inp diceHotW.rounding
      (diceHotW.axis (diceHotW.steps + 2)) = .ok (.arr (.floats diceHotW.emissions)) := by decide +kernel
  refine ⟨fun n => h1 n (allScalars_all n), ?_, ?_, ?_, ?_, ?_, ?_⟩
  · decide +kernel
  · decide +kernel
  · decide +kernel
  · decide +kernel
  · decide +kernel
  · intro a ha
    rw [h2] at ha
    cases ha
    rfl

def diceHot1 : Dice ℚ := (dcall diceEnv (.run noJunk) diceHot0).2

theorem diceHot_run : dcall diceEnv (.run noJunk) diceHot0 = (.ok .done, diceHot1) := by
  have : (dcall diceEnv (.run noJunk) diceHot0).1 = .ok .done := by decide +kernel
  exact Prod.ext this rfl

theorem diceHot_axes (o : OName) : OnAxis diceHot0.out (outputKey o) (diceHotW.outAxis o) := by
  refine OnAxis.of_unused (env := diceEnv.env) (diceSt_reach _).out.inv ?_ _
  have : infoAt diceEnv.env diceHot0.out (outputKey o) = none := by cases o <;> decide +kernel
  intro I hI
  rw [show infoAt diceEnv.env diceHot0.out (outputKey o) = some I from hI] at this
  cases this

theorem diceHot_journey : Journey diceEnv diceHot0 diceHot1 diceHotW 3 :=
  ⟨diceSt_reach _, diceHotW_given, .inr ⟨noJunk, diceHot_run, (by decide +kernel : diceHotW.steps = 3).symm⟩, diceHot_axes,
    by decide⟩

/-- Is a nonnegative temperature shown? -/
def warmAt (d : Dice ℚ) (W : Scenario ℚ) (j : ℕ) : Bool :=
  match seen diceEnv d W .tatm j with
  | some (.num x) => decide (0 ≤ x)
  | _ => false

theorem warmAt_shows {d : Dice ℚ} {W : Scenario ℚ} {j : ℕ} (h : warmAt d W j = true) : ∃ x, Shows diceEnv d W .tatm j x ∧ 0 ≤ x := by
  unfold warmAt at h
  split at h
  · rename_i x hx
    exact ⟨x, shows_of hx, of_decide_eq_true h⟩
  · cases h

/-- The example for `C90_sensitivity`. -/
example {j : ℕ} (hj : j ≤ 3) {o : OName} {x x' : ℚ} (hx : Shows diceEnv dice1 diceW o j x)
    (hx' : Shows diceEnv diceHot1 diceHotW o j x') : x ≤ x' :=
  C90_sensitivity diceEnv_lg dice_journey diceHot_journey (le_refl _) (le_refl _) diceW_posed
    (wellPosed_of (by decide +kernel) (by decide +kernel))
    (alike_of (by decide +kernel) (by decide +kernel)) (by decide +kernel)
    (fun s => (by decide +kernel : ∀ s ∈ allScalars, s.isStart = true → diceW.num s ≤ diceHotW.num s) s (allScalars_all s))
    (f := fun _ => 10) (f' := fun _ => 10) (by unfold Emits; decide +kernel) (by unfold Emits; decide +kernel) (by norm_num)
    (fun j hj => warmAt_shows ((by decide +kernel : ∀ j, j < 3 → warmAt dice1 diceW j = true) j hj)) hj hx hx'

/-! ## C91: specification -/

/-- Both scenarios are the same up to time point `m`: they may stop at different times and have different emissions later. -/
structure SameUntil (W W' : Scenario K) (m : Nat) : Prop where
  start : W'.start = W.start
  sat : W'.sat = W.sat
  ticks : W'.ticks = W.ticks
  tick : W'.tick = W.tick
  rounding : W'.rounding = W.rounding
  inputs : W'.p = W.p
  emissions : ∀ k, k < m → W'.emissions[k]? = W.emissions[k]?

/-- A carbon pool. -/
def OName.isPool : OName → Bool
  | .mat | .ml | .mu => true
  | _ => false

/-! ## Facts -/

theorem CoefSpec.unique {p : SName → Fl K} {C C' : DiceCoefs K} (h : CoefSpec p C) (h' : CoefSpec p C') : C = C' := by
  have e1 : C.b21 = C'.b21 := Except.ok.inj (h.b21.symm.trans h'.b21)
  have e2 : C.b32 = C'.b32 := Except.ok.inj (h.b32.symm.trans h'.b32)
  have e3 : C.b11 = C'.b11 := h.b11.trans h'.b11.symm
  have e4 : C.b22 = C'.b22 := by rw [h.b22, h'.b22, e1]
  have e5 : C.b33 = C'.b33 := by rw [h.b33, h'.b33, e2]
  cases C
  cases C'
  simp only at e1 e2 e3 e4 e5
  subst e1 e2 e3 e4 e5
  rfl

theorem DiceStep.same {lg : K → K} {tr : K → Int} {W W' : Scenario K} {m : Nat} (hs : SameUntil W W' m) {C : DiceCoefs K} {t : Nat}
    (ht : t < m) {c c' : OName → Fl K} (h : DiceStep lg tr W'.toDiceInputs C (t + 1) c c') :
    DiceStep lg tr W.toDiceInputs C (t + 1) c c' := by
  have hp : W'.toDiceInputs.p = W.toDiceInputs.p := hs.inputs
  have he : emitted W'.toDiceInputs (t + 1) = emitted W.toDiceInputs (t + 1) := by
    unfold emitted
    have := hs.emissions t ht
    rw [Nat.add_sub_cancel, List.getD_eq_getElem?_getD, List.getD_eq_getElem?_getD, this, hs.ticks, hs.tick, hs.rounding]
  obtain ⟨h1, h2, h3, h4, h5, h6⟩ := h
  rw [hp] at h1 h2 h3 h4 h5 h6
  rw [he] at h1
  rw [hs.start, hs.sat, hs.ticks, hs.tick] at h5
  exact ⟨h1, h2, h3, h4, h5, h6⟩

/-! ## C91 -/

/-- C91: what is shown up to a time point depends only on the inputs and the emissions of the periods before it: not on
later emissions, and not on how long the model is run. -/
theorem C91_causal {E : DEnv K} {d d' e e' : Dice K} {W W' : Scenario K} {n n' m : Nat} (h : Journey E d d' W n)
    (h' : Journey E e e' W' n') (hm : m ≤ n) (hm' : m ≤ n') (hs : SameUntil W W' m) {j : Nat} (hj : j ≤ m) {o : OName} {x x' : K}
    (hx : Shows E d' W o j x) (hx' : Shows E e' W' o j x') : x = x' := by
  obtain ⟨L, hp, -, hsh⟩ := h.spec
  obtain ⟨L', hp', -, hsh'⟩ := h'.spec
  have hc : coefsOf e' = coefsOf d' := by
    have := hp'.coefs
    rw [hs.inputs] at this
    exact this.unique hp.coefs
  have key : ∀ j, j ≤ m → col L j = col L' j := by
    intro j
    induction j with
    | zero =>
      intro _
      have := hp'.start
      rw [hs.inputs] at this
      exact hp.start.det this
    | succ j ih =>
      intro hj
      have s1 := Journey.step hp (j := j) (by omega)
      have s2 := (Journey.step hp' (j := j) (by omega)).same hs (by omega)
      rw [hc, ← ih (by omega)] at s2
      exact s1.det s2
  have c1 := hsh _ _ _ hx
  have c2 := hsh' _ _ _ hx'
  rw [key j hj, c2] at c1
  exact (Fl.num.inj c1).symm

/-- Four years with emissions only in the first two, to be compared with three years of emissions. -/
def diceLate0 : Dice ℚ := diceSt [.input (.generic (.str "Start Time") rootRegion), .input (.gSet 0 (.time 0)),
  .input (.generic (.str "Stop Time") rootRegion), .input (.gSet 1 (.time (diceYear * 4))),
  .input (emissionsOp "GtCO2/a" 5), .input (.tSet 0 (nums [10, 10, 0, 0, 0]))]

def diceLateW : Scenario ℚ :=
  { diceW with emissions := [.num 10, .num 10, .num 0, .num 0, .num 0], stop := 4 * diceYear }

theorem diceLateW_given : Given diceEnv (prepared diceEnv diceLate0).inp diceLateW := by
  have h1 : ∀ n ∈ allScalars, freshScalar diceEnv.env (prepared diceEnv diceLate0).inp (scalarSpec n).1
      (scalarSpec n).2 = .ok (.num (diceLateW.p n)) := by decide +kernel
  have h2 : readEmissions diceEnv (prepared diceEnv diceLate0).inp diceLateW.rounding
      (diceLateW.axis (diceLateW.steps + 2)) = .ok (.arr (.floats diceLateW.emissions)) := by decide +kernel
  refine ⟨fun n => h1 n (allScalars_all n), ?_, ?_, ?_, ?_, ?_, ?_⟩
  · decide +kernel
  · decide +kernel
  · decide +kernel
  · decide +kernel
  · decide +kernel
  · intro a ha
    rw [h2] at ha
    cases ha
    rfl

def diceLate1 : Dice ℚ := (dcall diceEnv (.run noJunk) diceLate0).2

theorem diceLate_run : dcall diceEnv (.run noJunk) diceLate0 = (.ok .done, diceLate1) := by
  have : (dcall diceEnv (.run noJunk) diceLate0).1 = .ok .done := by decide +kernel
  exact Prod.ext this rfl

theorem diceLate_axes (o : OName) : OnAxis diceLate0.out (outputKey o) (diceLateW.outAxis o) := by
  refine OnAxis.of_unused (env := diceEnv.env) (diceSt_reach _).out.inv ?_ _
  have : infoAt diceEnv.env diceLate0.out (outputKey o) = none := by cases o <;> decide +kernel
  intro I hI
  rw [show infoAt diceEnv.env diceLate0.out (outputKey o) = some I from hI] at this
  cases this

theorem diceLate_journey : Journey diceEnv diceLate0 diceLate1 diceLateW 4 :=
  ⟨diceSt_reach _, diceLateW_given, .inr ⟨noJunk, diceLate_run, (by decide +kernel : diceLateW.steps = 4).symm⟩, diceLate_axes,
    by decide⟩

example {j : ℕ} (hj : j ≤ 2) {o : OName} {x x' : ℚ} (hx : Shows diceEnv dice1 diceW o j x)
    (hx' : Shows diceEnv diceLate1 diceLateW o j x') : x = x' :=
  C91_causal dice_journey diceLate_journey (by omega) (by omega)
    ⟨rfl, rfl, rfl, rfl, rfl, rfl, by decide +kernel⟩ hj hx hx'

/-- Later on, they differ. -/
example : ¬ ∃ x, seen diceEnv dice1 diceW .mat 3 = some x ∧ seen diceEnv diceLate1 diceLateW .mat 3 = some x := by
  have : seen diceEnv dice1 diceW .mat 3 ≠ seen diceEnv diceLate1 diceLateW .mat 3 := by decide +kernel
  rintro ⟨x, h1, h2⟩
  exact this (h1.trans h2.symm)

/-- A pool that is not at its bound is what the exchange makes it. -/
theorem max_free {a b x : K} (h : x = max a b) (hx : a ≠ x) : x = b ∧ a ≤ b := by
  rcases le_total a b with hab | hab
  · rw [max_eq_right hab] at h
    exact ⟨h, hab⟩
  · rw [max_eq_left hab] at h
    exact absurd h.symm hx

/-- C91: the carbon pools for a mixture of the emissions (and of the pools at the start) of two scenarios are the mixture of
their pools, as long as no pool of the two is at its lower bound. -/
theorem C91_mixture {E : DEnv K} {d d' e e' g g' : Dice K} {W W' V : Scenario K} {n n' r m : Nat} (h : Journey E d d' W n)
    (h' : Journey E e e' W' n') (k : Journey E g g' V r) (hm : m ≤ n) (hm' : m ≤ n') (hr : m ≤ r) {v v' u : SName → K}
    (hv : ∀ s, W.p s = .num (v s)) (hv' : ∀ s, W'.p s = .num (v' s)) (hu : ∀ s, V.p s = .num (u s)) (ha : Alike W W') (hb : Alike W V)
    {lam : K} (h0 : 0 ≤ lam) (h1 : lam ≤ 1)
    (hs : ∀ s, s = .mat0 ∨ s = .ml0 ∨ s = .mu0 → u s = (1 - lam) * v s + lam * v' s) {f f' F : Nat → K} (hf : Emits W n f)
    (hf' : Emits W' n' f') (hF : Emits V r F) (hmix : ∀ i, i < m → F i = (1 - lam) * f i + lam * f' i)
    (hfree : ∀ j o s, 1 ≤ j → j ≤ m → o.isPool = true → lowerBound o = some s →
      (∃ x, Shows E d' W o j x ∧ x ≠ v s) ∧ ∃ x, Shows E e' W' o j x ∧ x ≠ v s)
    {j : Nat} (hj : j ≤ m) {o : OName} (ho : o.isPool = true) {x x' y : K} (hx : Shows E d' W o j x) (hx' : Shows E e' W' o j x')
    (hy : Shows E g' V o j y) : y = (1 - lam) * x + lam * x' := by
  obtain ⟨L, hp, -, hsh⟩ := h.spec
  obtain ⟨L', hp', -, hsh'⟩ := h'.spec
  obtain ⟨M, hq, -, hshq⟩ := k.spec
  obtain ⟨X, X1, X2, X3⟩ := hp.numbers hv hf
  obtain ⟨Y, Y1, Y2, Y3⟩ := hp'.numbers hv' hf'
  obtain ⟨Z, Z1, Z2, Z3⟩ := hq.numbers hu hF
  have hi : ∀ n, n.isStart = false → n ≠ .t2xco2 → v' n = v n := fun n h1 h2 => by
    have := ha.inputs n h1 h2
    rw [hv, hv'] at this
    exact Fl.num.inj this
  have hiu : ∀ n, n.isStart = false → n ≠ .t2xco2 → u n = v n := fun n h1 h2 => by
    have := hb.inputs n h1 h2
    rw [hv, hu] at this
    exact Fl.num.inj this
  have free : ∀ j o s, 1 ≤ j → j ≤ m → o.isPool = true → lowerBound o = some s → v s ≠ X j o ∧ v s ≠ Y j o := by
    intro j o s j1 jm ho hs
    obtain ⟨⟨a, a1, a2⟩, ⟨b, b1, b2⟩⟩ := hfree j o s j1 jm ho hs
    have c1 := hsh _ _ _ a1
    have c2 := hsh' _ _ _ b1
    rw [X1 j (by omega)] at c1
    rw [Y1 j (by omega)] at c2
    cases c1
    cases c2
    exact ⟨a2.symm, b2.symm⟩
  have mixle : ∀ {a p q : K}, a ≤ p → a ≤ q → a ≤ (1 - lam) * p + lam * q := by
    intro a p q hp hq
    have e1 := mul_le_mul_of_nonneg_left hp (sub_nonneg.2 h1)
    have e2 := mul_le_mul_of_nonneg_left hq h0
    linarith
  have hcar : ∀ i, i < m → carbon V (F i) = (1 - lam) * carbon W (f i) + lam * carbon W' (f' i) := by
    intro i him
    have p1 : W'.period = W.period := by unfold Scenario.period; rw [ha.ticks, ha.tick]
    have p2 : V.period = W.period := by unfold Scenario.period; rw [hb.ticks, hb.tick]
    rw [hmix i him]
    unfold carbon
    rw [p1, p2, ha.rounding, hb.rounding]
    ring
  have key : ∀ j, j ≤ m → ∀ o, o.isPool = true → Z j o = (1 - lam) * X j o + lam * Y j o := by
    intro j
    induction j with
    | zero =>
      intro _ o ho
      obtain ⟨a1, a2, a3, -⟩ := X2
      obtain ⟨b1, b2, b3, -⟩ := Y2
      obtain ⟨c1, c2, c3, -⟩ := Z2
      cases o
      · rw [a1, b1, c1]; exact hs _ (.inl rfl)
      · rw [a2, b2, c2]; exact hs _ (.inr (.inl rfl))
      · rw [a3, b3, c3]; exact hs _ (.inr (.inr rfl))
      all_goals cases ho
    | succ j ih =>
      intro hj o ho
      have i1 := ih (by omega) .mat rfl
      have i2 := ih (by omega) .ml rfl
      have i3 := ih (by omega) .mu rfl
      have x3 := X3 j (by omega)
      have y3 := Y3 j (by omega)
      have z3 := Z3 j (by omega)
      have e12 := hi .b12 rfl (by decide)
      have e23 := hi .b23 rfl (by decide)
      have eA := hi .mateq rfl (by decide)
      have eU := hi .mueq rfl (by decide)
      have eL := hi .mleq rfl (by decide)
      have d12 := hiu .b12 rfl (by decide)
      have d23 := hiu .b23 rfl (by decide)
      have dA := hiu .mateq rfl (by decide)
      have dU := hiu .mueq rfl (by decide)
      have dL := hiu .mleq rfl (by decide)
      cases o
      · obtain ⟨f1, f2⟩ := free (j + 1) .mat _ (by omega) hj rfl rfl
        obtain ⟨g1, g2⟩ := max_free x3.mat f1
        have ym := y3.mat
        rw [hi .mat_lower rfl (by decide), e12, eA, eU] at ym
        obtain ⟨k1, k2⟩ := max_free ym f2
        have zm := z3.mat
        rw [hiu .mat_lower rfl (by decide), d12, dA, dU, i1, i3, hcar j (by omega)] at zm
        rw [zm, g1, k1, max_eq_right]
        · ring
        · exact (mixle g2 k2).trans (le_of_eq (by ring))
      · obtain ⟨f1, f2⟩ := free (j + 1) .ml _ (by omega) hj rfl rfl
        obtain ⟨g1, g2⟩ := max_free x3.ml f1
        have ym := y3.ml
        rw [hi .ml_lower rfl (by decide), e23, eU, eL] at ym
        obtain ⟨k1, k2⟩ := max_free ym f2
        have zm := z3.ml
        rw [hiu .ml_lower rfl (by decide), d23, dU, dL, i2, i3] at zm
        rw [zm, g1, k1, max_eq_right]
        · ring
        · exact (mixle g2 k2).trans (le_of_eq (by ring))
      · obtain ⟨f1, f2⟩ := free (j + 1) .mu _ (by omega) hj rfl rfl
        obtain ⟨g1, g2⟩ := max_free x3.mu f1
        have ym := y3.mu
        rw [hi .mu_lower rfl (by decide), e12, e23, eA, eU, eL] at ym
        obtain ⟨k1, k2⟩ := max_free ym f2
        have zm := z3.mu
        rw [hiu .mu_lower rfl (by decide), d12, d23, dA, dU, dL, i1, i2, i3] at zm
        rw [zm, g1, k1, max_eq_right]
        · ring
        · exact (mixle g2 k2).trans (le_of_eq (by ring))
      all_goals cases ho
  have c1 := hsh _ _ _ hx
  have c2 := hsh' _ _ _ hx'
  have c3 := hshq _ _ _ hy
  rw [X1 j (by omega)] at c1
  rw [Y1 j (by omega)] at c2
  rw [Z1 j (by omega)] at c3
  cases c1
  cases c2
  cases c3
  exact key j hj o ho

/-- Half of the emissions of both. -/
def diceMix0 : Dice ℚ := diceSt [.input (.generic (.str "Start Time") rootRegion), .input (.gSet 0 (.time 0)),
  .input (.generic (.str "Stop Time") rootRegion), .input (.gSet 1 (.time (diceYear * 4))),
  .input (emissionsOp "GtCO2/a" 5), .input (.tSet 0 (nums [10, 10, 5, 5, 5]))]

def diceMixW : Scenario ℚ :=
  { diceW with emissions := [.num 10, .num 10, .num 5, .num 5, .num 5], stop := 4 * diceYear }

theorem diceMixW_given : Given diceEnv (prepared diceEnv diceMix0).inp diceMixW := by
  have h1 : ∀ n ∈ allScalars, freshScalar diceEnv.env (prepared diceEnv diceMix0).inp (scalarSpec n).1
      (scalarSpec n).2 = .ok (.num (diceMixW.p n)) := by decide +kernel
  have h2 : readEmissions diceEnv (prepared diceEnv diceMix0).inp diceMixW.rounding
      (diceMixW.axis (diceMixW.steps + 2)) = .ok (.arr (.floats diceMixW.emissions)) := by decide +kernel
  refine ⟨fun n => h1 n (allScalars_all n), ?_, ?_, ?_, ?_, ?_, ?_⟩
  · decide +kernel
  · decide +kernel
  · decide +kernel
  · decide +kernel
  · decide +kernel
  · intro a ha
    rw [h2] at ha
    cases ha
    rfl

def diceMix1 : Dice ℚ := (dcall diceEnv (.run noJunk) diceMix0).2

theorem diceMix_run : dcall diceEnv (.run noJunk) diceMix0 = (.ok .done, diceMix1) := by
  have : (dcall diceEnv (.run noJunk) diceMix0).1 = .ok .done := by decide +kernel
  exact Prod.ext this rfl

theorem diceMix_axes (o : OName) : OnAxis diceMix0.out (outputKey o) (diceMixW.outAxis o) := by
  refine OnAxis.of_unused (env := diceEnv.env) (diceSt_reach _).out.inv ?_ _
  have : infoAt diceEnv.env diceMix0.out (outputKey o) = none := by cases o <;> decide +kernel
  intro I hI
  rw [show infoAt diceEnv.env diceMix0.out (outputKey o) = some I from hI] at this
  cases this

theorem diceMix_journey : Journey diceEnv diceMix0 diceMix1 diceMixW 4 :=
  ⟨diceSt_reach _, diceMixW_given, .inr ⟨noJunk, diceMix_run, (by decide +kernel : diceMixW.steps = 4).symm⟩, diceMix_axes,
    by decide⟩

/-- Is a pool shown that is not at its bound? -/
def freeAt (d : Dice ℚ) (W : Scenario ℚ) (j : ℕ) (o : OName) : Bool :=
  match seen diceEnv d W o j, lowerBound o with
  | some (.num x), some s => decide (x ≠ W.num s)
  | _, _ => false

theorem freeAt_shows {d : Dice ℚ} {W : Scenario ℚ} {j : ℕ} {o : OName} {s : SName} (hs : lowerBound o = some s)
    (h : freeAt d W j o = true) : ∃ x, Shows diceEnv d W o j x ∧ x ≠ W.num s := by
  unfold freeAt at h
  rw [hs] at h
  split at h
  · rename_i x s' hx e
    cases e
    exact ⟨x, shows_of hx, of_decide_eq_true h⟩
  · cases h

example {j : ℕ} (hj : j ≤ 3) {o : OName} (ho : o.isPool = true) {x x' y : ℚ} (hx : Shows diceEnv dice1 diceW o j x)
    (hx' : Shows diceEnv diceLate1 diceLateW o j x') (hy : Shows diceEnv diceMix1 diceMixW o j y) :
    y = (1 - 1 / 2) * x + 1 / 2 * x' := by
  have h1 : ∀ s ∈ allScalars, diceW.p s = .num (diceW.num s) := by decide +kernel
  have h1 : ∀ s, diceW.p s = .num (diceW.num s) := fun s => h1 s (allScalars_all s)
  refine C91_mixture dice_journey diceLate_journey diceMix_journey (m := 3) (by omega) (by omega) (by omega) (v := diceW.num)
    (v' := diceW.num) (u := diceW.num) h1 h1 h1 (alike_of (by decide +kernel) (by decide +kernel))
    (alike_of (by decide +kernel) (by decide +kernel)) (by norm_num) (by norm_num) (fun s _ => by ring) (f := fun _ => 10)
    (f' := fun i => if i < 2 then 10 else 0) (F := fun i => if i < 2 then 10 else 5) (by unfold Emits; decide +kernel)
    (by unfold Emits; decide +kernel) (by unfold Emits; decide +kernel) (by decide +kernel) ?_ hj ho hx hx' hy
  intro j o s j1 jm ho hs
  have k1 : ∀ j, j < 4 → 1 ≤ j → ∀ o ∈ [OName.mat, .ml, .mu], freeAt dice1 diceW j o = true := by decide +kernel
  have k2 : ∀ j, j < 4 → 1 ≤ j → ∀ o ∈ [OName.mat, .ml, .mu], freeAt diceLate1 diceLateW j o = true := by decide +kernel
  have ho' : o ∈ [OName.mat, .ml, .mu] := by cases o <;> simp_all [OName.isPool]
  exact ⟨freeAt_shows hs (k1 j (by omega) j1 o ho'), freeAt_shows hs (k2 j (by omega) j1 o ho')⟩

end Openscm
