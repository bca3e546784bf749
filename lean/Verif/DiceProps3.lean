import Verif.DiceForward
import Verif.DiceProps2

/-!
# C42, C43, C44: running, stepping and running again

`run()` and `reset_stepping()` with one `step()` per period leave the same outputs; running again
leaves them as they are; the clock of the steps.
-/

set_option linter.unusedSectionVars false

namespace Openscm
variable {K : Type} [Field K] [LinearOrder K] [IsStrictOrderedRing K]

/-! ## The values are determined by the scenario -/

theorem CoefSpec.det {p : SName → Fl K} {C C' : DiceCoefs K} (h : CoefSpec p C) (h' : CoefSpec p C') : C = C' := by
  have e1 := Except.ok.inj (h.b21.symm.trans h'.b21)
  have e2 := Except.ok.inj (h.b32.symm.trans h'.b32)
  have e3 := h.b11.trans h'.b11.symm
  have e4 : C.b22 = C'.b22 := h.b22.trans (by rw [e1, h'.b22])
  have e5 : C.b33 = C'.b33 := h.b33.trans (by rw [e2, h'.b33])
  cases C
  cases C'
  simp only at e1 e2 e3 e4 e5
  simp only [e1, e2, e3, e4, e5]

theorem Progress.det {E : DEnv K} {d d1 e d2 : Dice K} {W : Scenario K} {n : Nat} {L M : Series K}
    (h : Progress E d d1 W n L) (h' : Progress E e d2 W n M) : ∀ j, j ≤ n → col L j = col M j := by
  intro j
  induction j with
  | zero => exact fun _ => h.start.det h'.start
  | succ j ih =>
    intro hj
    have s1 := Journey.step h (j := j) (by omega)
    have s2 := Journey.step h' (j := j) (by omega)
    rw [← ih (by omega), ← h.coefs.det h'.coefs] at s2
    exact s1.det s2

theorem Progress.end_det {E : DEnv K} {d d1 e d2 : Dice K} {W : Scenario K} {L M : Series K}
    (h : Progress E d d1 W W.steps L) (h' : Progress E e d2 W W.steps M) : L = M := by
  funext o
  apply List.ext_getElem (by rw [h.length, h'.length])
  intro j h1 h2
  have := congrFun (h.det h' j (by rw [h.length] at h1; omega)) o
  unfold col at this
  rwa [List.getD_eq_getElem?_getD, List.getD_eq_getElem?_getD, List.getElem?_eq_getElem h1,
    List.getElem?_eq_getElem h2] at this

/-! ## What is stored -/

/-- What the parameter of output `o` holds after `n` steps. -/
theorem Progress.stored {E : DEnv K} {d d' : Dice K} {W : Scenario K} {n : Nat} {L : Series K}
    (h : Progress E d d' W n L) (o : OName) :
    ∃ p P u t c ts q, HasKey d'.out p (outputKey o) ∧ d'.out.params[p]? = some P ∧
      P.ptype = some (outputType o) ∧ P.children = [] ∧ P.written = true ∧ P.unit = some u ∧ P.tps = some t ∧
      mkConv E.env.units u (outputUnit o) = .ok c ∧ mkTSConv t (W.outAxis o) (outputType o) .none = .ok ts ∧
      ts.convertTo ((L o).map (Fl.map c.convertTo)) = .ok q ∧ P.data = .series q := by
  obtain ⟨i, v, v1, v2, v3, v4, v5, v6, v7⟩ := h.made o
  obtain ⟨i', v', P, o1, o2, o3, o4, o5, o6, o7⟩ := h.lives.ov o
  rw [v1] at o1; cases o1
  rw [v2] at o2; cases o2
  obtain ⟨c, t, P0, w1, w2⟩ := h.written o
  rw [OStat_of v1 v2 o4] at w1
  simp only [Option.some.injEq, Prod.mk.injEq] at w1
  have hwr : P.written = true := by
    have := w1.2.2
    rw [← this] at w2
    exact w2
  have hinv := h.lives.out
  have hgood := hinv.good.tviews i v v2
  obtain ⟨Q, u, t', q1, q2, q3, q4, q5, q6, q7, _⟩ := hgood.leaf.ex
  rw [o4] at q1; cases q1
  obtain ⟨Q, x1, x2, _⟩ := hgood.ex
  rw [o4] at x1; cases x1
  have hc := ((hinv.good.params _ P o4).1 hwr).1
  obtain ⟨q, d1, d2⟩ := o7 rfl
  rw [v4] at q4
  rw [v5, v6, v7] at q7
  rw [v6] at x2
  exact ⟨_, P, u, t', _, _, q, v3, o4, x2, hc, hwr, q3, q5, q4, q7, d2, d1⟩

/-- Two parameters that hold the same values in the same unit and on the same time points look the same. -/
theorem Progress.reads_same {E : DEnv K} {d d1 e d2 : Dice K} {W : Scenario K} {n m : Nat} {L : Series K}
    (h : Progress E d d1 W n L) (h' : Progress E e d2 W m L) (o : OName)
    (hp : ∀ p P P', HasKey d1.out p (outputKey o) → HasKey d2.out p (outputKey o) → d1.out.params[p]? = some P →
      d2.out.params[p]? = some P' → P'.unit = P.unit ∧ P'.tps = P.tps)
    (hk : ∀ p, HasKey d1.out p (outputKey o) → HasKey d2.out p (outputKey o))
    (w : String) (tps : List K) (ty : TyArg) (int : IntArg) (ext : ExtArg) :
    freshRead E.env d1.out (outputKey o) w tps ty int ext = freshRead E.env d2.out (outputKey o) w tps ty int ext := by
  obtain ⟨p, P, u, t, c, ts, q, a1, a2, a3, a4, a5, a6, a7, a8, a9, a10, a11⟩ := h.stored o
  obtain ⟨p', P', u', t', c', ts', q', b1, b2, b3, b4, b5, b6, b7, b8, b9, b10, b11⟩ := h'.stored o
  have := (hk p a1).inj h'.lives.out.tree b1
  subst this
  obtain ⟨e1, e2⟩ := hp p P P' a1 b1 a2 b2
  rw [b6, a6] at e1; cases e1
  rw [b7, a7] at e2; cases e2
  rw [b8] at a8; cases a8
  rw [b9] at a9; cases a9
  rw [b10] at a10; cases a10
  rw [freshRead_eq h.lives.out a1 a2 (by rw [a3]; simp) a4, freshRead_eq h'.lives.out b1 b2 (by rw [b3]; simp) b4]
  unfold freshOf
  rw [a3, b3, a5, b5, a6, b6, a7, b7, a11, b11]

/-! ## Success -/

theorem steps_stepped {E : DEnv K} : ∀ (n : Nat) {d d' : Dice K}, steps E n d = (.ok (), d') → Stepped E n d d'
  | 0, d, d', h => by
    obtain ⟨_, h⟩ := DM.pure_inv h
    exact h
  | n + 1, d, d', h => by
    obtain ⟨_, d1, a1, g1⟩ := DM.bind_inv (show (calcStep E >>= fun _ => steps E n) d = _ from h)
    refine ⟨d1.current, d1, ?_, steps_stepped n g1⟩
    show ((calcStep E >>= fun _ => DM.gets (·.current)) >>= fun t => (pure (DOut.time t) : DM K (DOut K))) d = _
    have : (calcStep E >>= fun _ => DM.gets (·.current)) d = (.ok d1.current, d1) := by rw [DM.bind_ok a1]; rfl
    rw [DM.bind_ok this]; rfl

/-- Whether a reset succeeds does not depend on what was in memory. -/
theorem resetStepping_junk {E : DEnv K} {junk : OName → Nat → Fl K} {d d' : Dice K} (h : Sound E d)
    (hout : Reachable E.env d.out) (hg : resetStepping E junk d = (.ok (), d')) (junk' : OName → Nat → Fl K) :
    ∃ d'', resetStepping E junk' d = (.ok (), d'') := by
  obtain ⟨_, d1, a1, g1⟩ := DM.bind_inv hg
  have a1' : ensureInitialized E d = (.ok (), d1) := a1
  obtain ⟨s1, s2⟩ := good_ensure h
  rw [a1'] at s1 s2
  have s2 := s2 rfl
  have s1 : Sound E d1 := s1
  have s2 : d1.initialized = true := s2
  have ho1 : d1.out = d.out := by
    have := a1'
    by_cases hi : d.initialized = true
    · rw [ensure_initialized hi] at this
      simp only [Prod.mk.injEq, true_and] at this
      rw [this]
    · obtain ⟨a, b, _, hb, _, h4⟩ := calls_ensureInitialized (E := E) (Q := fun _ => False) d
      rw [a1'] at h4
      cases b with
      | nil => exact h4
      | cons x l => exact (hb x (by simp)).elim
  obtain ⟨_, d2, a2, g2⟩ := DM.bind_inv g1
  have a2' : initializeRun E d1 = (.ok (), d2) := by
    have : (ensureInitialized E >>= fun _ => initializeRun E) d1 = (.ok (), d2) := a2
    rwa [DM.bind_ok (ensure_initialized s2)] at this
  obtain ⟨start, stop, k, u, rounding, pts, avg, R⟩ := initializeRun_spec (by rw [ho1]; exact hout) a2'
  obtain ⟨i2, r2, sv2, gv2, em2⟩ := R.inputs s1 s2
  obtain ⟨d3, g3, c3, i3, r3, sv3, gv3, em3, eq3, all3⟩ := adapterReset_inv i2 r2 (gv2 _ _ R.startT) g2
  have hfresh : ∀ o, OFresh d3 o := by
    intro o
    obtain ⟨i, v, v1, v2, _, v4, v5, _⟩ := R.reqs o
    exact ⟨i, v, by rw [eq3]; exact v1, by rw [eq3]; exact v2, v4, v5⟩
  have hkeys : OKeys d3 := by
    intro o
    obtain ⟨i, v, v1, v2, v3, _⟩ := R.reqs o
    exact ⟨i, v, by rw [eq3]; exact v1, by rw [eq3]; exact v2, by rw [eq3]; exact v3⟩
  have ho3 : d3.out = d2.out := by rw [eq3]
  have hinv3 : Inv E.env d3.out := by rw [ho3]; exact R.out.inv
  obtain ⟨L, S⟩ := diceReset_spec i3 hinv3 hkeys hfresh g3
  have hsv : ∀ n, sval d3 n = .ok (pval d3 n) := by
    intro n
    have := (read_scalar s1 (s1.ready s2) n).1
    unfold pval
    rw [sv3, sv2, this]
  obtain ⟨d4, g4⟩ := diceReset_ok junk' i3 hinv3 hkeys hfresh hsv S.coefs S.start
    (diceReset_assignable i3 hinv3 hkeys hfresh g3)
  refine ⟨d4, ?_⟩
  unfold resetStepping
  rw [DM.bind_ok a1, DM.bind_ok a2]
  rw [all3]; exact g4

theorem dcall_run {E : DEnv K} {junk : OName → Nat → Fl K} {d d' : Dice K} {r : DOut K}
    (h : dcall E (.run junk) d = (.ok r, d')) :
    ∃ d1, resetStepping E junk d = (.ok (), d1) ∧ diceRun E d1 = (.ok (), d') := by
  obtain ⟨_, d2, a1, g1⟩ := DM.bind_inv h
  obtain ⟨_, r1⟩ := DM.pure_inv g1
  subst r1
  obtain ⟨_, d1, a2, g2⟩ := DM.bind_inv a1
  exact ⟨d1, a2, g2⟩

theorem dcall_reset {E : DEnv K} {junk : OName → Nat → Fl K} {d d' : Dice K} {r : DOut K}
    (h : dcall E (.resetStepping junk) d = (.ok r, d')) : resetStepping E junk d = (.ok (), d') := by
  obtain ⟨_, d2, a1, g1⟩ := DM.bind_inv h
  obtain ⟨_, r1⟩ := DM.pure_inv g1
  subst r1
  exact a1

theorem dcall_reset_ok {E : DEnv K} {junk : OName → Nat → Fl K} {d d' : Dice K}
    (h : resetStepping E junk d = (.ok (), d')) : dcall E (.resetStepping junk) d = (.ok .done, d') := by
  show (resetStepping E junk >>= fun _ => (pure DOut.done : DM K (DOut K))) d = _
  rw [DM.bind_ok h]; rfl

/-- The values of a whole run are there for the taking after another reset. -/
theorem Progress.again {E : DEnv K} {d d0 d1 : Dice K} {W : Scenario K} {L M : Series K}
    (h : Progress E d d0 W 0 L) (h' : Progress E d d1 W W.steps M) :
    (W.steps ≠ 0 → 0 + W.steps ≤ (emis E d0).length) ∧ (∀ o, 0 + W.steps < (L o).length) ∧ col M 0 = col L 0 ∧
      Trajectory E.lg E.env.trunc (inputsOf E d0) (coefsOf d0) 0 W.steps M := by
  have hem : emis E d0 = emis E d1 := h.emisAt.trans h'.emisAt.symm
  refine ⟨fun _ => by rw [hem, Nat.zero_add]; exact h'.known, fun o => by rw [h.length]; omega,
    h'.start.det h.start, ?_⟩
  intro j hj
  have hne : emis E d0 ≠ [] := by
    intro h0
    have := h'.known
    rw [← hem, h0] at this
    simp at this
    omega
  have hin : inputsOf E d0 = W.toDiceInputs := by rw [h.inputs, h.emissions hne]
  rw [hin, h.coefs.det h'.coefs]
  exact h'.traj j hj

/-! ## C42 -/

/-- C42: `run()` leaves the same output data as `reset_stepping()` and one `step()` per period,
whatever was in memory: all new views of an output read the same. -/
theorem C42_same {E : DEnv K} {d d1 d0 d2 : Dice K} (h : DReach E d) {W : Scenario K}
    (hW : Given E (prepared E d).inp W) {junk junk' : OName → Nat → Fl K}
    (hrun : dcall E (.run junk) d = (.ok .done, d1)) (hreset : dcall E (.resetStepping junk') d = (.ok .done, d0))
    (hsteps : Stepped E W.steps d0 d2) (o : OName) (w : String) (tps : List K) (ty : TyArg) (int : IntArg)
    (ext : ExtArg) :
    freshRead E.env d1.out (outputKey o) w tps ty int ext = freshRead E.env d2.out (outputKey o) w tps ty int ext := by
  obtain ⟨L, hL⟩ := went_spec h hW (.inr ⟨junk, hrun, rfl⟩)
  obtain ⟨M, hM⟩ := went_spec h hW (.inl ⟨junk', d0, hreset, hsteps⟩)
  have := hL.end_det hM
  subst this
  obtain ⟨p0, P0, t0, k1, k2, k3, k4⟩ := hL.typed o
  have key1 : HasKey d1.out p0 (outputKey o) := k1.mono hL.pext (.of_eq hL.regions)
  have key2 : HasKey d2.out p0 (outputKey o) := k1.mono hM.pext (.of_eq hM.regions)
  refine hL.reads_same hM o (fun p P P' a1 a2 a3 a4 => ?_) (fun p a1 => ?_) w tps ty int ext
  · have := a1.inj hL.lives.out.tree key1
    subst this
    obtain ⟨Q, q1, q2⟩ := hL.pext p P0 k2
    obtain ⟨Q', q1', q2'⟩ := hM.pext p P0 k2
    rw [a3] at q1; cases q1
    rw [a4] at q1'; cases q1'
    exact ⟨by rw [q2.unit k3, q2'.unit k3], by rw [q2.tps _ k4, q2'.tps _ k4]⟩
  · have := a1.inj hL.lives.out.tree key1
    subst this
    exact key2

example (o : OName) : freshRead diceEnv.env dice1.out (outputKey o) (outputUnit o) (diceW.outAxis o)
      (.str (outputTypeName o)) (.enum .linear) (.enum .none)
    = freshRead diceEnv.env (diceAt 3).out (outputKey o) (outputUnit o) (diceW.outAxis o)
      (.str (outputTypeName o)) (.enum .linear) (.enum .none) :=
  C42_same (diceSt_reach _) diceW_given dice_run dice_reset (by rw [dice_steps_eq]; exact dice_steps) o _ _ _ _ _

/-- C42: one succeeds if and only if the other does. -/
theorem C42_succeeds {E : DEnv K} {d : Dice K} (h : DReach E d) {W : Scenario K}
    (hW : Given E (prepared E d).inp W) (junk junk' : OName → Nat → Fl K) :
    (dcall E (.run junk) d).1 = .ok .done ↔
      ∃ d0 d2, dcall E (.resetStepping junk') d = (.ok .done, d0) ∧ Stepped E W.steps d0 d2 := by
  constructor
  · intro hr
    have hrun : dcall E (.run junk) d = (.ok .done, (dcall E (.run junk) d).2) := Prod.ext hr rfl
    obtain ⟨M, hM⟩ := went_spec h hW (.inr ⟨junk, hrun, rfl⟩)
    obtain ⟨dA, a1, _⟩ := dcall_run hrun
    obtain ⟨d0, b1⟩ := resetStepping_junk h.sound h.out a1 junk'
    obtain ⟨L, hL, _⟩ := (resetStepping_spec h.sound h.out b1).2 W hW
    obtain ⟨c1, c2, c3, c4⟩ := hL.again hM
    have ht := hL.timestep
    obtain ⟨d2, e1⟩ := steps_ok (M := M) W.steps hL.lives hL.able (by rw [ht]; exact c1) (by rw [ht]; exact c2)
      (by rw [ht]; exact c3) (by rw [ht]; exact c4)
    exact ⟨d0, d2, dcall_reset_ok b1, steps_stepped _ e1⟩
  · rintro ⟨d0, d2, h1, h2⟩
    obtain ⟨M, hM⟩ := went_spec h hW (.inl ⟨junk', d0, h1, h2⟩)
    obtain ⟨dA, b1⟩ := resetStepping_junk h.sound h.out (dcall_reset h1) junk
    obtain ⟨L, hL, _⟩ := (resetStepping_spec h.sound h.out b1).2 W hW
    obtain ⟨c1, c2, c3, c4⟩ := hL.again hM
    have ht := hL.timestep
    have hc : (dA.count - 1).toNat = W.steps := by rw [hL.count]; omega
    obtain ⟨d3, e1⟩ := diceRun_ok (M := M) hL.lives hL.able (by rw [ht, hc]; exact c1) (by rw [ht, hc]; exact c2)
      (by rw [ht]; exact c3) (by rw [ht, hc]; exact c4)
    have e2 : openscmRun E junk d = (.ok (), d3) := by
      show (resetStepping E junk >>= fun _ => diceRun E) d = _
      rw [DM.bind_ok b1, e1]
    show ((openscmRun E junk >>= fun _ => (pure DOut.done : DM K (DOut K))) d).1 = _
    rw [DM.bind_ok e2]; rfl

/-- Both succeed for the example, also when other values are in memory. -/
example (junk junk' : OName → ℕ → Fl ℚ) : (dcall diceEnv (.run junk) dice0).1 = .ok .done ∧
    ∃ d0 d2, dcall diceEnv (.resetStepping junk') dice0 = (.ok .done, d0) ∧ Stepped diceEnv diceW.steps d0 d2 := by
  have h := (C42_succeeds (diceSt_reach _) diceW_given junk noJunk).2
    ⟨_, _, dice_reset, by rw [dice_steps_eq]; exact dice_steps⟩
  exact ⟨h, (C42_succeeds (diceSt_reach _) diceW_given junk junk').1 h⟩

/-- Both fail without emissions. -/
example : ¬ (dcall diceEnv (.run noJunk) (diceSt ((diceInputs 3 10).take 4))).1 = .ok .done := by decide +kernel

/-! ## C44 -/

/-- C44: the step after `n` steps returns the start time and `n + 1` periods, and it is one of the
`int((stop - start) / period)` steps. -/
theorem C44_time {E : DEnv K} {d d0 d1 d2 : Dice K} (h : DReach E d) {W : Scenario K}
    (hW : Given E (prepared E d).inp W) {junk : OName → Nat → Fl K}
    (hreset : dcall E (.resetStepping junk) d = (.ok .done, d0)) {n : Nat} (hsteps : Stepped E n d0 d1) {r : DOut K}
    (hstep : dcall E .step d1 = (.ok r, d2)) :
    r = .time (W.start + (n + 1) * W.period) ∧ (n + 1 : Int) ≤ (W.stop - W.start).tdiv W.period := by
  obtain ⟨L, hL⟩ := went_spec h hW (.inl ⟨junk, d0, hreset, hsteps⟩)
  obtain ⟨h1, h2⟩ := step_calc hstep
  have hs : steps E 1 d1 = (.ok (), d2) := by
    show (calcStep E >>= fun _ => steps E 0) d1 = _
    rw [DM.bind_ok h1]; rfl
  obtain ⟨M, hM, _⟩ := hL.steps hs
  refine ⟨?_, ?_⟩
  · rw [h2, hM.current]
    push_cast
    rw [mul_comm]
  · have := hM.fits
    have := hM.forward
    unfold Scenario.steps at *
    omega

example : (DOut.time (2 * diceYear) : DOut ℚ) = .time (diceW.start + (1 + 1) * diceW.period) := by
  have := (C44_time (diceSt_reach _) diceW_given dice_reset (n := 1) ⟨_, _, dice_step 0 (by omega), rfl⟩
    (dice_step 1 (by omega))).1
  exact this

theorem TyArg_average : (TyArg.str "average").parse = .ok .average := by
  have h2 : ("average" : String).toLower = "average" := by decide +kernel
  have := outputTy_parse .forc
  exact this

/-- What is read through a new view has the length of its time points. -/
theorem freshRead_length {env : Env K} {s : St K GVal} (hi : Inv env s) {k : Key} {w : String} {tps : List K}
    {ty : TyArg} {int : IntArg} {ext : ExtArg} {a : Arr K} {t : PType} (ht : ty.parse = .ok t)
    (h : freshRead env s k w tps ty int ext = .ok (.arr a)) : a.vals.length = pointsLength t tps := by
  unfold freshRead at h
  simp only at h
  split at h
  · rename_i i hr
    have hc : call env (.timeseries (.seq k.2) w tps (.seq k.1) ty int ext) s = (.ok (.view i),
        (call env (.timeseries (.seq k.2) w tps (.seq k.1) ty int ext) s).2) := Prod.ext hr rfl
    obtain ⟨v, ty', ext', v1, v2, v3, v4, v5, v6, v7, v8, v9, v10⟩ := timeseries_view hi hc
    rw [ht] at v1; cases v1
    rw [after_one] at h
    have hi' := call_inv (env := env) (.timeseries (.seq k.2) w tps (.seq k.1) ty int ext) hi
    unfold result at h
    rw [tGet_eq v3] at h
    unfold shown at h
    have hg := readView_good (hi'.good.tviews i v v3)
    have hsame := (readView_same (call env (.timeseries (.seq k.2) w tps (.seq k.1) ty int ext) s).2 v).2.2.2.2
    simp only at h
    split at h
    · simp at h
    · split at h
      · simp at h
      · rename_i dd hd
        have hl := hg.leaf.len dd hd
        cases h
        rw [hsame] at hl
        unfold TSConv.targetLength at hl
        rw [v6, v7] at hl
        rw [← hl]
        cases a <;> simp [Arr.vals, Arr.length]
  · rename_i hne
    unfold result at h
    obtain ⟨i, s1, b1, f1⟩ := M.bind_inv (show (timeseriesCall env (.seq k.2) w tps (.seq k.1) ty int ext >>=
      fun i => pure (Out.view i : Out K GVal)) s = (.ok (.arr a), _) from Prod.ext h rfl)
    have f1 : (Out.view i : Out K GVal) = .arr a := Except.ok.inj (congrArg Prod.fst f1)
    cases f1

/-- C44: when all steps have been made and the emissions can be read, one step more raises
`IndexError`. -/
theorem C44_end {E : DEnv K} {d d0 d1 : Dice K} (h : DReach E d) {W : Scenario K}
    (hW : Given E (prepared E d).inp W) {a : Arr K}
    (ha : readEmissions E (prepared E d).inp W.rounding (W.axis (W.steps + 2)) = .ok (.arr a))
    {junk : OName → Nat → Fl K} (hreset : dcall E (.resetStepping junk) d = (.ok .done, d0))
    (hsteps : Stepped E W.steps d0 d1) : (dcall E .step d1).1 = .error .indexError := by
  obtain ⟨L, hL⟩ := went_spec h hW (.inl ⟨junk, d0, hreset, hsteps⟩)
  have hlen : (emis E d1).length = W.steps + 1 := by
    rw [hL.reads a ha, freshRead_length (sound_reach h .initModelInput).inp TyArg_average ha]
    simp [pointsLength, Scenario.axis]
  have := (calcStep_ok hL.lives hL.able (by rw [hL.timestep, hlen]; omega)
    (fun o => by rw [hL.timestep, hL.length]; omega)).2 (by rw [hL.timestep, hL.length])
  cases hc : calcStep E d1 with
  | mk r d2 =>
    rw [hc] at this
    simp only at this
    subst this
    show (((calcStep E >>= fun _ => DM.gets (·.current)) >>= fun t => (pure (DOut.time t) : DM K (DOut K))) d1).1 = _
    have h2 : (calcStep E >>= fun _ => DM.gets (·.current)) d1 = (.error .indexError, d2) := DM.bind_error hc
    rw [DM.bind_error h2]

/-- C44: as long as there are steps left, the next one succeeds, if the emissions can be read and the
divisors and the argument of the logarithm are positive. -/
theorem C44_step {E : DEnv K} {d d0 d1 : Dice K} (h : DReach E d) {W : Scenario K}
    (hW : Given E (prepared E d).inp W) {a : Arr K}
    (ha : readEmissions E (prepared E d).inp W.rounding (W.axis (W.steps + 2)) = .ok (.arr a))
    {mateq lower t2xco2 : K} (h1 : W.p .mateq = .num mateq) (h1' : 0 < mateq) (h2 : W.p .mat_lower = .num lower)
    (h2' : 0 < lower) (h3 : W.p .t2xco2 = .num t2xco2) (h3' : t2xco2 ≠ 0)
    {junk : OName → Nat → Fl K} (hreset : dcall E (.resetStepping junk) d = (.ok .done, d0)) {n : Nat}
    (hn : n < W.steps) (hsteps : Stepped E n d0 d1) : ∃ t d2, dcall E .step d1 = (.ok (.time t), d2) := by
  obtain ⟨L, hL⟩ := went_spec h hW (.inl ⟨junk, d0, hreset, hsteps⟩)
  have hlen : (emis E d1).length = W.steps + 1 := by
    rw [hL.reads a ha, freshRead_length (sound_reach h .initModelInput).inp TyArg_average ha]
    simp [pointsLength, Scenario.axis]
  have hin : ∀ s, (inputsOf E d1).p s = W.p s := by
    intro s; rw [hL.inputs]
  have hq : ∀ z : Fl K, ∃ q l, Fl.quot (Fl.pyMax (.num lower) z) (.num mateq) = .ok q ∧ Fl.log2 E.lg q = .ok l := by
    intro z
    have : ∃ x, Fl.pyMax (.num lower) z = .num x ∧ 0 < x := by
      cases z with
      | nan => exact ⟨lower, rfl, h2'⟩
      | num z =>
        unfold Fl.pyMax
        simp only
        split
        · rename_i hlt
          exact ⟨z, rfl, h2'.trans hlt⟩
        · exact ⟨lower, rfl, h2'⟩
    obtain ⟨x, hx, hx'⟩ := this
    refine ⟨.num (x / mateq), .num (E.lg (x / mateq)), ?_, ?_⟩
    · rw [hx]; unfold Fl.quot; simp only [if_neg h1'.ne']
    · show (if 0 < x / mateq then _ else _) = _; rw [if_pos (div_pos hx' h1')]
  have hlam : ∃ lam, Fl.quot (W.p .fco22x) (.num t2xco2) = .ok lam := by
    unfold Fl.quot
    simp only [if_neg h3']
    cases W.p .fco22x with
    | nan => exact ⟨_, rfl⟩
    | num x => exact ⟨_, rfl⟩
  obtain ⟨d2, hd2⟩ := (calcStep_ok hL.lives hL.able (by rw [hL.timestep, hlen]; omega)
    (fun o => by rw [hL.timestep, hL.length]; omega)).1 (fun o => by rw [hL.timestep, hL.length]; omega) (by
      obtain ⟨lam, hlam⟩ := hlam
      let c := col L d1.timestep
      let C := coefsOf d1
      let I := inputsOf E d1
      let mat := Fl.pyMax (I.p .mat_lower) (c .mat * C.b11 + c .mu * C.b21 + emitted I (d1.timestep + 1))
      have hmat : mat = Fl.pyMax (.num lower) (c .mat * C.b11 + c .mu * C.b21 + emitted I (d1.timestep + 1)) := by
        rw [← h2, ← hin]
      obtain ⟨q, l, hq, hl⟩ := hq (c .mat * C.b11 + c .mu * C.b21 + emitted I (d1.timestep + 1))
      rw [← hmat, ← h1, ← hin] at hq
      rw [← h3, ← hin, ← hin] at hlam
      let forc := I.p .fco22x * l + forcoth E.env.trunc (I.p .fex0) (I.p .fex1) I.start I.sat I.ticks I.tick
        (d1.timestep + 1)
      refine ⟨fun o => match o with
        | .mat => mat
        | .ml => Fl.pyMax (I.p .ml_lower) (c .ml * C.b33 + c .mu * I.p .b23)
        | .mu => Fl.pyMax (I.p .mu_lower) (c .mat * I.p .b12 + c .mu * C.b22 + c .ml * C.b32)
        | .tocean => Fl.pyMax (I.p .tocean_lower) (Fl.pyMin (I.p .tocean_upper)
            (c .tocean + I.p .c4 * (c .tatm - c .tocean)))
        | .forc => forc
        | .tatm => Fl.pyMin (I.p .tatm_upper)
            (c .tatm + I.p .c1 * (forc - lam * c .tatm - I.p .c3 * (c .tatm - c .tocean))),
        rfl, rfl, rfl, rfl, ⟨q, l, hq, hl, rfl⟩, ⟨lam, hlam, rfl⟩⟩)
  refine ⟨d2.current, d2, ?_⟩
  show ((calcStep E >>= fun _ => DM.gets (·.current)) >>= fun t => (pure (DOut.time t) : DM K (DOut K))) d1 = _
  have : (calcStep E >>= fun _ => DM.gets (·.current)) d1 = (.ok d2.current, d2) := by rw [DM.bind_ok hd2]; rfl
  rw [DM.bind_ok this]; rfl

/-- Three steps and no more. -/
theorem dice_emissions : readEmissions diceEnv (prepared diceEnv dice0).inp diceW.rounding
    (diceW.axis (diceW.steps + 2)) = .ok (.arr (.floats diceW.emissions)) := by decide +kernel

example : (dcall diceEnv .step (diceAt 3)).1 = .error .indexError :=
  C44_end (diceSt_reach _) diceW_given dice_emissions dice_reset (by rw [dice_steps_eq]; exact dice_steps)

example (n : ℕ) (hn : n < diceW.steps) (d : Dice ℚ) (h : Stepped diceEnv n (diceAt 0) d) :
    ∃ t d2, dcall diceEnv .step d = (.ok (.time t), d2) :=
  C44_step (diceSt_reach _) diceW_given dice_emissions (mateq := 588) (lower := 10) (t2xco2 := 29 / 10)
    (by decide +kernel) (by norm_num) (by decide +kernel) (by norm_num) (by decide +kernel) (by norm_num) dice_reset hn h

/-! ## C43 -/

theorem dafter_out {E : DEnv K} : ∀ (ops : List (DOp K)) {d : Dice K}, Inv E.env d.out →
    PExt d.out (dafter E d ops).out ∧ RExt d.out (dafter E d ops).out
  | [], d, _ => ⟨.refl _, .of_eq rfl⟩
  | op :: ops, d, hi => by
    obtain ⟨_, b, _, _, _, hb⟩ := calls_dcall E op d
    have hi' : Inv E.env (dcall E op d).2.out := by rw [hb]; exact after_inv _ hi
    obtain ⟨h1, h2⟩ := dafter_out ops hi'
    have e1 := after_pext b hi
    have e2 := after_rext b hi
    rw [← hb] at e1 e2
    exact ⟨e1.trans h1, e2.trans h2⟩

theorem Stepped.reach {E : DEnv K} : ∀ (n : Nat) {d d' : Dice K}, Stepped E n d d' → DReach E d → DReach E d'
  | 0, d, d', h, hr => by
    have h : d' = d := h
    rw [h]; exact hr
  | n + 1, d, d', ⟨t, d1, h1, h2⟩, hr => by
    have := hr.dafter [.step]
    have e : dafter E d [.step] = d1 := by show (dcall E .step d).2 = d1; rw [h1]
    rw [e] at this
    exact Stepped.reach n h2 this

theorem Went.reach {E : DEnv K} {d d' : Dice K} {W : Scenario K} {n : Nat} (h : Went E d d' W n) (hr : DReach E d) :
    DReach E d' := by
  rcases h with ⟨junk, d0, h1, h2⟩ | ⟨junk, h1, _⟩
  · have := hr.dafter [.resetStepping junk]
    have e : dafter E d [.resetStepping junk] = d0 := by show (dcall E (.resetStepping junk) d).2 = d0; rw [h1]
    rw [e] at this
    exact Stepped.reach n h2 this
  · have := hr.dafter [.run junk]
    have e : dafter E d [.run junk] = d' := by show (dcall E (.run junk) d).2 = d'; rw [h1]
    rwa [e] at this

/-- C43: if the inputs are the same as in the first run, the second run leaves the same outputs,
whatever the program did in between. Both runs can be made by `run()` or by stepping. -/
theorem C43_same {E : DEnv K} {d d1 d2 : Dice K} (h : DReach E d) {W : Scenario K}
    (hW : Given E (prepared E d).inp W) (hw : Went E d d1 W W.steps) (ops : List (DOp K))
    (hW' : Given E (prepared E (dafter E d1 ops)).inp W)
    (hw' : Went E (dafter E d1 ops) d2 W W.steps) (o : OName) (w : String) (tps : List K) (ty : TyArg)
    (int : IntArg) (ext : ExtArg) :
    freshRead E.env d1.out (outputKey o) w tps ty int ext = freshRead E.env d2.out (outputKey o) w tps ty int ext := by
  have hr := (hw.reach h).dafter ops
  obtain ⟨L, hL⟩ := went_spec h hW hw
  obtain ⟨M, hM⟩ := went_spec hr hW' hw'
  have := hL.end_det hM
  subst this
  have hb := hr.out.inv
  obtain ⟨_, b, _, _, _, hbeg⟩ := calls_dcall E .initRunParameters (dafter E d1 ops)
  have x1 := dafter_out ops hL.lives.out
  have x2 := after_pext b hb
  have x2' := after_rext b hb
  rw [← hbeg] at x2 x2'
  have px : PExt d1.out d2.out := (x1.1.trans x2).trans hM.pext
  have rx : RExt d1.out d2.out := (x1.2.trans x2').trans (.of_eq hM.regions)
  refine hL.reads_same hM o (fun p P P' a1 a2 a3 a4 => ?_) (fun p a1 => a1.mono px rx) w tps ty int ext
  obtain ⟨p', P1, u, t, c, ts, q, b1, b2, b3, b4, b5, b6, b7, _⟩ := hL.stored o
  have := a1.inj hL.lives.out.tree b1
  subst this
  rw [a3] at b2; cases b2
  obtain ⟨Q, q1, q2⟩ := px p P a3
  rw [a4] at q1; cases q1
  exact ⟨q2.unit (by rw [b3]; simp), by rw [q2.tps _ b7, b7]⟩

/-- Calls that are not calls of the parameter set with the inputs. -/
def DOp.touchesInputs : DOp K → Bool
  | .input _ => true
  | _ => false

theorem generic_filled {env : Env K} {s : St K GVal} (hi : Inv env s) {name : List String} {i : Nat}
    {u : Option String} (h : ViewOf s (.g i) (["World"], name) u) {o : Out K GVal}
    (hx : freshGeneric env s name = .ok o) : Filled s (.g i) := by
  obtain ⟨p, t1, t2⟩ := h
  have t1' := t1
  simp only [viewTarget, Option.map_eq_some_iff] at t1
  obtain ⟨v, v1, v2⟩ := t1
  simp only [Prod.mk.injEq] at v2
  obtain ⟨P, p1, p2, p3, _⟩ := hi.good.gviews i v v1
  rw [v2.1] at p1
  refine ⟨p, u, P, t1', p1, ?_⟩
  unfold freshGeneric at hx
  have hc := generic_again (env := env) hi (name := .seq name) (region := rootRegion) t2 p1 p2 p3
  have hres : result env s (.generic (.seq name) rootRegion) = .ok (.view s.gviews.length) := by
    unfold result; rw [hc]
  rw [hres] at hx
  simp only [after_one, hc] at hx
  unfold result at hx
  rw [gGet_eq (v := { param := p, writable := false }) (by simp)] at hx
  by_contra hw
  have hw : P.written = false := by simpa using hw
  simp only [genericValue, p1, hw, Bool.not_false, if_true, Except.map, reduceCtorEq] at hx

/-- Calls of the model and of the output parameters do not change the scenario of an initialised model. -/
theorem Given.kept {E : DEnv K} {d : Dice K} (h : DReach E d) (hini : d.initialized = true) {W : Scenario K}
    (hW : Given E d.inp W) {I : Info} (hI : infoAt E.env d.inp (["World"], ["Emissions", "CO2"]) = some I)
    (he : I.empty = false) {op : DOp K} (ho : op.touchesInputs = false) :
    Given E (dcall E op d).2.inp W ∧
      ∃ J, infoAt E.env (dcall E op d).2.inp (["World"], ["Emissions", "CO2"]) = some J ∧ J.empty = false := by
  by_cases hm : op.model = true
  · obtain ⟨ops, hops⟩ := dcall_inp (E := E) op d
    have hs : Safe d.inp (after E.env d.inp ops) := by rw [← hops]; exact (keeps_dcall E hm d h.sound.inp).2
    have hi' := after_inv ops h.sound.inp
    have hk := C38_values_kept h hm hI he
    have hgen : ∀ n x, freshGeneric E.env d.inp (genericSpec n) = .ok (.gen x) →
        freshGeneric E.env (dcall E op d).2.inp (genericSpec n) = .ok (.gen x) := by
      intro n x hx
      obtain ⟨i, _, h2⟩ := ready_generic (h.sound.ready hini) n
      have hf := generic_filled h.sound.inp h2 hx
      rw [hops, freshGeneric_view hi' (h2.after h.sound.inp ops) (filled_after h.sound.inp hf ops)]
      have := read_safe h.sound.inp hs (r := .g i) (by intro j; simp) hf
      exact this.trans (by rw [← hx, freshGeneric_view h.sound.inp h2 hf]; rfl)
    refine ⟨⟨fun n => ?_, hgen _ _ hW.startT, hgen _ _ hW.stopT, hgen _ _ hW.satT, hgen _ _ hW.periodT,
      hgen _ _ hW.roundT, ?_⟩, ?_⟩
    · obtain ⟨i, _, h2, hf⟩ := ready_scalar (h.sound.ready hini) n
      rw [hops, freshScalar_view hi' (h2.after h.sound.inp ops) (filled_after h.sound.inp hf ops)]
      have := read_safe h.sound.inp hs (r := .s i) (by intro j; simp) hf
      exact this.trans (by rw [← hW.scalar n, freshScalar_view h.sound.inp h2 hf]; rfl)
    · intro a ha
      refine hW.emissionsT a ?_
      unfold readEmissions at ha ⊢
      rw [← hk.2.2]
      exact ha
    · obtain ⟨J, j1, j2, _⟩ := hk.1
      exact ⟨J, j1, j2⟩
  · have : (dcall E op d).2.inp = d.inp := by
      cases op with
      | output op =>
        show ((onOut E op >>= fun o => (pure (DOut.out o) : DM K (DOut K))) d).2.inp = _
        have he := onOut_eq (E := E) (op := op) (d := d)
        cases hc : (call E.env op d.out).1 with
        | error e => rw [hc] at he; rw [DM.bind_error he]
        | ok x => rw [hc] at he; rw [DM.bind_ok he]; rfl
      | input op => simp [DOp.touchesInputs] at ho
      | _ => exact absurd rfl hm
    rw [this]
    exact ⟨hW, I, hI, he⟩

theorem Given.kept_all {E : DEnv K} {W : Scenario K} : ∀ (ops : List (DOp K)) {d : Dice K}, DReach E d →
    d.initialized = true → Given E d.inp W →
    (∃ I, infoAt E.env d.inp (["World"], ["Emissions", "CO2"]) = some I ∧ I.empty = false) →
    (∀ op ∈ ops, op.touchesInputs = false) → Given E (dafter E d ops).inp W
  | [], _, _, _, h, _, _ => h
  | op :: ops, d, hr, hini, h, ⟨I, hI, he⟩, ho => by
    obtain ⟨h1, J, h2, h3⟩ := h.kept hr hini hI he (ho op (by simp))
    exact Given.kept_all ops (hr.dafter [op]) (initialized_dcall op d hini) h1 ⟨J, h2, h3⟩
      (fun o hm => ho o (by simp [hm]))

theorem prepared_again {E : DEnv K} {d : Dice K} (h : d.initialized = true) : prepared E d = d :=
  prepared_eq (ensure_initialized h)

/-- A run or a reset starts by filling in the defaults. -/
theorem from_prepared {E : DEnv K} {d d' : Dice K} {op : DOp K} {r : DOut K}
    (hop : (∃ j, op = .run j) ∨ ∃ j, op = .resetStepping j) (h : dcall E op d = (.ok r, d')) :
    (prepared E d).initialized = true ∧ dcall E op (prepared E d) = (.ok r, d') := by
  have key : ∀ {f : Unit → DM K (DOut K)}, (ensureInitialized E >>= f) d = (.ok r, d') →
      (prepared E d).initialized = true ∧ (ensureInitialized E >>= f) (prepared E d) = (.ok r, d') := by
    intro f hf
    obtain ⟨_, d1, a1, g1⟩ := DM.bind_inv hf
    have hi : d1.initialized = true := by
      have := a1
      unfold ensureInitialized at this
      obtain ⟨b, d2, a2, g2⟩ := DM.bind_inv this
      obtain ⟨e1, e2⟩ := DM.gets_inv a2
      cases hb : b with
      | true =>
        rw [hb] at g2
        obtain ⟨_, e3⟩ := DM.pure_inv (show (pure () : DM K Unit) d2 = _ from g2)
        rw [e3, e2, ← e1, hb]
      | false =>
        rw [hb] at g2
        obtain ⟨_, d3, a3, g3⟩ := DM.bind_inv (show (initializeModel E >>= fun _ =>
          DM.modify (fun d => { d with initialized := true })) d2 = _ from g2)
        rw [DM.modify_inv g3]
    rw [prepared_eq a1]
    exact ⟨hi, by rw [DM.bind_ok (ensure_initialized hi)]; exact g1⟩
  rcases hop with ⟨j, rfl⟩ | ⟨j, rfl⟩
  · have := @key (fun _ => ((initializeRunParameters E >>= fun _ => adapterReset E j) >>= fun _ => diceRun E) >>=
      fun _ => pure DOut.done)
    rw [← dm_assoc, ← dm_assoc] at this
    exact this h
  · have := @key (fun _ => (initializeRunParameters E >>= fun _ => adapterReset E j) >>= fun _ => pure DOut.done)
    rw [← dm_assoc] at this
    exact this h

/-- C43: running again without changing the inputs leaves the same outputs, whatever was run, stepped,
reset or done with the outputs in between. -/
theorem C43_again {E : DEnv K} {d d1 d2 : Dice K} (h : DReach E d) {W : Scenario K}
    (hW : Given E (prepared E d).inp W) {I : Info}
    (hI : infoAt E.env (prepared E d).inp (["World"], ["Emissions", "CO2"]) = some I) (he : I.empty = false)
    {junk junk' : OName → Nat → Fl K} (hrun : dcall E (.run junk) d = (.ok .done, d1)) (ops : List (DOp K))
    (hops : ∀ op ∈ ops, op.touchesInputs = false)
    (hrun' : dcall E (.run junk') (dafter E d1 ops) = (.ok .done, d2)) (o : OName) (w : String) (tps : List K)
    (ty : TyArg) (int : IntArg) (ext : ExtArg) :
    freshRead E.env d1.out (outputKey o) w tps ty int ext = freshRead E.env d2.out (outputKey o) w tps ty int ext := by
  obtain ⟨hini, hp⟩ := from_prepared (.inl ⟨junk, rfl⟩) hrun
  have hrp : DReach E (prepared E d) := h.dafter [.initModelInput]
  have e1 : dafter E (prepared E d) (.run junk :: ops) = dafter E d1 ops := by
    show dafter E (dcall E (.run junk) (prepared E d)).2 ops = _
    rw [hp]
  have hW' := Given.kept_all (.run junk :: ops) hrp hini hW ⟨I, hI, he⟩ (by
    intro op hm
    rcases List.mem_cons.1 hm with rfl | hm
    · rfl
    · exact hops op hm)
  have hini' := initialized_dafter (E := E) (.run junk :: ops) hini
  rw [e1] at hW' hini'
  exact C43_same h hW (.inr ⟨junk, hrun, rfl⟩) ops (by rw [prepared_again hini']; exact hW')
    (.inr ⟨junk', hrun', rfl⟩) o w tps ty int ext

/-- What the program does between two runs: a reset, two steps, a look at an output and a write to it. -/
def between : List (DOp ℚ) :=
  [.resetStepping noJunk, .step, .step,
    .output (.timeseries (.seq (outputName .mat)) "GtC" (diceW.outAxis .mat) rootRegion (.str "point") (.enum .linear)
      (.enum .none)),
    .output (.tGet 0), .output (.tSet 0 (nums [1, 2, 3, 4]))]

example : ∃ d2, dcall diceEnv (.run noJunk) (dafter diceEnv dice1 between) = (.ok .done, d2) ∧ ∀ o,
    freshRead diceEnv.env dice1.out (outputKey o) (outputUnit o) (diceW.outAxis o) (.str (outputTypeName o))
      (.enum .linear) (.enum .none)
    = freshRead diceEnv.env d2.out (outputKey o) (outputUnit o) (diceW.outAxis o) (.str (outputTypeName o))
      (.enum .linear) (.enum .none) := by
  have h : (dcall diceEnv (.run noJunk) (dafter diceEnv dice1 between)).1 = .ok .done := by decide +kernel
  have hI : infoAt diceEnv.env (prepared diceEnv dice0).inp (["World"], ["Emissions", "CO2"])
      = some ⟨["Emissions", "CO2"], ["World"], some .average, some "GtCO2/a", false, 1⟩ := by decide +kernel
  refine ⟨_, Prod.ext h rfl, fun o => ?_⟩
  exact C43_again (diceSt_reach _) diceW_given hI rfl dice_run between (by decide) (Prod.ext h rfl) o _ _ _ _ _

end Openscm
