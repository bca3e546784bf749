import Verif.DiceProps3

/-!
# C43: a run can be repeated

A run that succeeded succeeds again: the outputs have been written, so nothing can change their types, units, time points
or children any more, and the inputs are the same.
-/

set_option linter.unusedSectionVars false

namespace Openscm
variable {K : Type} [Field K] [LinearOrder K] [IsStrictOrderedRing K]

/-! ## Requests that are granted for ever -/

/-- There is a written timeseries at `k` that can be viewed in unit `w` at `tps`. -/
structure Served {G : Type} (env : Env K) (s : St K G) (k : Key) (w : String) (tps : List K) (ty : PType) (ext : Extrap)
    (p : Nat) (u : String) (t : List K) (c : Conv K) (ts : TSConv K) : Prop where
  key : HasKey s p k
  ex : ∃ P, s.params[p]? = some P ∧ P.ptype = some ty ∧ P.written = true ∧ P.unit = some u ∧ P.tps = some t
  conv : mkConv env.units u w = .ok c
  time : mkTSConv t tps ty ext = .ok ts

theorem Served.mono {G : Type} {env : Env K} {s s' : St K G} {k : Key} {w : String} {tps : List K} {ty : PType} {ext : Extrap}
    {p : Nat} {u : String} {t : List K} {c : Conv K} {ts : TSConv K} (h : Served env s k w tps ty ext p u t c ts)
    (hp : PExt s s') (hr : RExt s s') : Served env s' k w tps ty ext p u t c ts := by
  obtain ⟨P, h1, h2, h3, h4, h5⟩ := h.ex
  obtain ⟨P', g1, hle⟩ := hp p P h1
  exact ⟨h.key.mono hp hr, ⟨P', g1, hle.ptype _ h2, hle.written h3, by rw [hle.unit (by rw [h2]; simp)]; exact h4,
    hle.tps _ h5⟩, h.conv, h.time⟩

theorem Served.call {G : Type} {env : Env K} {s : St K G} (hi : Inv env s) {name region : HName} {w : String} {tps : List K}
    {ty : TyArg} {int : IntArg} {ext : ExtArg} {t' : PType} {int' : Interp} {ext' : Extrap} (hty : ty.parse = .ok t')
    (hint : int.parse = .ok int') (hext : ext.parse = .ok ext') {p : Nat} {u : String} {t : List K} {c : Conv K}
    {ts : TSConv K} (h : Served env s (region.parts, name.parts) w tps t' ext' p u t c ts) :
    ∃ i s', call env (.timeseries name w tps region ty int ext) s = (.ok (.view i), s') := by
  obtain ⟨P, h1, h2, h3, h4, h5⟩ := h.ex
  have hne := ((hi.good.params p P h1).1 h3).1
  have hr : reach name region s = (.ok p, s) := reach_existing (ns := []) hi.tree h.key (by simp)
  have ha : attemptRead p t' (some w) (some tps) s
      = (.ok (), s.setParam p (fun P => { P with readFrom := true })) := by
    unfold attemptRead; rw [h1]; simp [h2]
  have hp' : (s.setParam p (fun P => { P with readFrom := true })).params[p]? = some { P with readFrom := true } := by
    rw [setParam_self, h1]; rfl
  have hv : ∃ v, mkTView env (s.setParam p (fun P => { P with readFrom := true })) p w tps t' ext' = .ok v := by
    unfold mkTView mkTLeaf
    rw [hp']
    simp only [h4, mkConvOpt, hne, h.conv, h5, h.time, if_true]
    exact ⟨_, rfl⟩
  obtain ⟨v, hv⟩ := hv
  have e1 : (M.ofExcept ty.parse : M K G PType) s = (.ok t', s) := by rw [ofExcept_state, hty]
  have e2 : (M.ofExcept int.parse : M K G Interp) s = (.ok int', s) := by rw [ofExcept_state, hint]
  have e3 : (M.ofExcept ext.parse : M K G Extrap) s = (.ok ext', s) := by rw [ofExcept_state, hext]
  suffices h : (Openscm.call env (.timeseries name w tps region ty int ext) s).1 = .ok (.view s.tviews.length) from
    ⟨_, _, Prod.ext h rfl⟩
  show (((M.ofExcept ty.parse >>= _) >>= _) s).1 = _
  rw [M.bind_apply, M.bind_ok e1, M.bind_ok e2, M.bind_ok e3, M.bind_ok hr, M.bind_ok ha]
  rw [M.bind_apply, M.value_apply, hv]
  rfl

/-! ## The adapter -/

/-- Reading an input of an initialised adapter. -/
theorem gval_fresh {E : DEnv K} {d : Dice K} (h : Sound E d) (hr : Ready d) {n : GName} {x : Option GVal}
    (hx : freshGeneric E.env d.inp (genericSpec n) = .ok (.gen x)) : gval d n = .ok x := by
  obtain ⟨i, i1, h2⟩ := ready_generic hr n
  rw [freshGeneric_view h.inp h2 (generic_filled h.inp h2 hx)] at hx
  obtain ⟨p, t1, t2⟩ := id h2
  simp only [viewTarget, Option.map_eq_some_iff] at t1
  obtain ⟨v, v1, v2⟩ := t1
  unfold result at hx
  rw [gGet_eq v1] at hx
  unfold gval
  rw [i1]
  simp only [v1]
  simp only at hx
  cases hy : genericValue d.inp v with
  | error e => rw [hy] at hx; simp [Except.map] at hx
  | ok y => rw [hy] at hx; simpa [Except.map] using hx

theorem requestOutput_again {E : DEnv K} {d : Dice K} (hr : Reachable E.env d.out) {o : OName} {pts avg : List K}
    {p : Nat} {u : String} {t : List K} {c : Conv K} {ts : TSConv K}
    (h : Served E.env d.out (outputKey o) (outputUnit o) (outputPoints o pts avg) (outputType o) .none p u t c ts) :
    ∃ d', requestOutput E o pts avg d = (.ok (), d') ∧
      d'.out = Openscm.after E.env d.out [outputRequest o pts avg] := by
  obtain ⟨i, s', h1⟩ := Served.call hr.inv (name := .seq (outputName o)) (region := rootRegion)
    (int := .enum .linear) (ext := .enum .none) (outputTy_parse o) rfl rfl h
  have h1 : call E.env (outputRequest o pts avg) d.out = (.ok (.view i), s') := h1
  have g1 : onOut E (outputRequest o pts avg) d = (.ok (.view i), { d with out := s' }) := by rw [onOut_eq, h1]
  have g2 : (DM.ofExcept (asView (Out.view i : Out K GVal)) : DM K Nat) { d with out := s' } = (.ok i, { d with out := s' }) := rfl
  refine ⟨{ d with out := s', ov := Function.update d.ov o (some i) }, ?_, ?_⟩
  · unfold requestOutput
    rw [DM.bind_ok g1, DM.bind_ok g2]
    rfl
  · show s' = _
    rw [after_one, h1]

/-- All outputs can be requested. -/
def AllServed (E : DEnv K) (s : St K GVal) (pts avg : List K) : Prop :=
  ∀ o, ∃ p u t c ts, Served E.env s (outputKey o) (outputUnit o) (outputPoints o pts avg) (outputType o) .none p u t c ts

theorem AllServed.after {E : DEnv K} {s : St K GVal} {pts avg : List K} (h : AllServed E s pts avg) (hi : Inv E.env s)
    (ops : List (Op K GVal)) : AllServed E (Openscm.after E.env s ops) pts avg := by
  intro o
  obtain ⟨p, u, t, c, ts, h⟩ := h o
  exact ⟨p, u, t, c, ts, h.mono (after_pext ops hi) (after_rext ops hi)⟩

theorem requests_again {E : DEnv K} {pts avg : List K} (o : OName) {d : Dice K} (hr : Reachable E.env d.out)
    (h : AllServed E d.out pts avg) : ∃ d', requestOutput E o pts avg d = (.ok (), d') ∧ Reachable E.env d'.out ∧
      AllServed E d'.out pts avg := by
  obtain ⟨p, u, t, c, ts, ho⟩ := h o
  obtain ⟨d', h1, h2⟩ := requestOutput_again hr ho
  exact ⟨d', h1, by rw [h2]; exact hr.after _, by rw [h2]; exact h.after hr.inv _⟩

theorem initializeRun_again {E : DEnv K} {d : Dice K} (hi : Inv E.env d.inp) (ho : Reachable E.env d.out)
    {start stop k u : Int} {rounding : Bool} {pts avg : List K}
    (startT : gval d .start_time = .ok (some (.time start))) (stopT : gval d .stop_time = .ok (some (.time stop)))
    (period : gval d .period_length = .ok (some (.delta k u)))
    (round : gval d .original_rounding = .ok (some (.bool rounding))) (nonzero : k * u ≠ 0)
    (points : timePointsFor start (k * u) ((stop - start).tdiv (k * u) + 1) .point = .ok pts)
    (averages : timePointsFor start (k * u) ((stop - start).tdiv (k * u) + 1) .average = .ok avg)
    {p : Nat} {u' : String} {t : List K} {c : Conv K} {ts : TSConv K}
    (he : Served E.env d.inp (["World"], ["Emissions", "CO2"]) (if rounding then "GtCO2/a" else "GtC/a") avg .average .none
      p u' t c ts) (hs : AllServed E d.out pts avg) : ∃ d', initializeRun E d = (.ok (), d') := by
  have hm : ∀ (f : Dice K → Dice K) (d : Dice K), DM.modify f d = (.ok (), f d) := fun _ _ => rfl
  unfold initializeRun
  rw [DM.bind_ok (hm _ _)]
  have g1 : gtime E .stop_time { d with timestep := 0 } = (.ok stop, { d with timestep := 0 }) := gtime_ok stopT
  have g2 : gtime E .start_time { d with timestep := 0 } = (.ok start, { d with timestep := 0 }) := gtime_ok startT
  have g3 : gdelta E .period_length { d with timestep := 0 } = (.ok (k, u), { d with timestep := 0 }) := gdelta_ok period
  rw [DM.bind_ok g1, DM.bind_ok g2, DM.bind_ok g3]
  simp only
  rw [if_neg nonzero, DM.bind_ok (hm _ _)]
  obtain ⟨d1, hd1⟩ : ∃ d1 : Dice K, d1 = { d with timestep := 0, count := (stop - start).tdiv (k * u) + 1 } := ⟨_, rfl⟩
  have e0 : ({ ({ d with timestep := 0 } : Dice K) with count := (stop - start).tdiv (k * u) + 1 } : Dice K) = d1 := by
    rw [hd1]
  rw [e0]
  have g4 : (DM.ofExcept (timePointsFor start (k * u) ((stop - start).tdiv (k * u) + 1) .point) : DM K (List K)) d1
      = (.ok pts, d1) := by rw [points]; rfl
  have g5 : (DM.ofExcept (timePointsFor start (k * u) ((stop - start).tdiv (k * u) + 1) .average) : DM K (List K)) d1
      = (.ok avg, d1) := by rw [averages]; rfl
  have g6 : gbool E .original_rounding d1 = (.ok rounding, d1) := by
    apply gbool_ok; rw [hd1]; exact round
  have hinp1 : d1.inp = d.inp := by rw [hd1]
  have hout1 : d1.out = d.out := by rw [hd1]
  have hty : (TyArg.str "average").parse = .ok .average := by
    have := outputTy_parse .forc
    exact this
  obtain ⟨i, s', h7⟩ := Served.call hi (name := .seq ["Emissions", "CO2"]) (region := rootRegion) (ty := .str "average")
    (int := .enum .linear) (ext := .enum .none) hty rfl rfl he
  obtain ⟨r7, g7⟩ : ∃ d2 : Dice K, onInp E (.timeseries (.seq ["Emissions", "CO2"])
      (if rounding then "GtCO2/a" else "GtC/a") avg rootRegion (.str "average") (.enum .linear) (.enum .none)) d1
      = (.ok (.view i), d2) ∧ d2.out = d.out := by
    refine ⟨{ d1 with inp := s' }, ?_, hout1⟩
    rw [onInp_eq, hinp1, h7]
  obtain ⟨g7, o7⟩ := g7
  have g8 : (DM.ofExcept (asView (Out.view i : Out K GVal)) : DM K Nat) r7 = (.ok i, r7) := rfl
  rw [DM.bind_ok g4, DM.bind_ok g5, DM.bind_ok g6, DM.bind_ok g7, DM.bind_ok g8, DM.bind_ok (hm _ _)]
  obtain ⟨d3, hd3⟩ : ∃ d3 : Dice K, d3 = { r7 with e := some i } := ⟨_, rfl⟩
  rw [← hd3]
  have o3 : d3.out = d.out := by rw [hd3]; exact o7
  obtain ⟨f1, a1, b1, c1⟩ := requests_again (E := E) .mat (d := d3) (by rw [o3]; exact ho) (by rw [o3]; exact hs)
  obtain ⟨f2, a2, b2, c2⟩ := requests_again (E := E) .ml b1 c1
  obtain ⟨f3, a3, b3, c3⟩ := requests_again (E := E) .mu b2 c2
  obtain ⟨f4, a4, b4, c4⟩ := requests_again (E := E) .tatm b3 c3
  obtain ⟨f5, a5, b5, c5⟩ := requests_again (E := E) .tocean b4 c4
  obtain ⟨f6, a6, _, _⟩ := requests_again (E := E) .forc b5 c5
  rw [DM.bind_ok a1, DM.bind_ok a2, DM.bind_ok a3, DM.bind_ok a4, DM.bind_ok a5]
  exact ⟨f6, a6⟩

theorem adapterReset_again {E : DEnv K} (junk : OName → Nat → Fl K) {d : Dice K} (hi : Inv E.env d.inp) (hready : Ready d)
    {start : Int} (hs : gval d .start_time = .ok (some (.time start))) :
    ∃ d1, adapterReset E junk d = diceReset E junk d1 ∧ d1.out = d.out ∧ d1.ov = d.ov ∧ d1.count = d.count ∧
      Inv E.env d1.inp ∧ ∀ n, sval d1 n = sval d n := by
  obtain ⟨i, h1, p, h2, h3⟩ := ready_generic hready .start_time
  simp only [viewTarget, Option.map_eq_some_iff] at h2
  obtain ⟨v, v1, v2⟩ := h2
  simp only [Prod.mk.injEq] at v2
  obtain ⟨P, p1, p2, p3, _⟩ := hi.good.gviews i v v1
  rw [v2.1] at p1
  have hcall := generic_again (env := E.env) hi (name := .str "Start Time") (region := rootRegion) h3 p1 p2 p3
  obtain ⟨s', hs'⟩ : ∃ s' : St K GVal, s' = { d.inp with gviews := d.inp.gviews ++ [{ param := p, writable := false }] } :=
    ⟨_, rfl⟩
  rw [← hs'] at hcall
  have g1 : onInp E (.generic (.str "Start Time") rootRegion) d = (.ok (.view d.inp.gviews.length), { d with inp := s' }) := by
    rw [onInp_eq, hcall]
  have g2 : (DM.ofExcept (asView (Out.view d.inp.gviews.length : Out K GVal)) : DM K Nat) { d with inp := s' }
      = (.ok d.inp.gviews.length, { d with inp := s' }) := rfl
  have hnew : s'.gviews[d.inp.gviews.length]? = some { param := p, writable := false } := by
    rw [hs']; simp
  have hval : genericValue s' { param := p, writable := false } = .ok (some (.time start)) := by
    unfold gval at hs
    rw [h1] at hs
    simp only [v1] at hs
    rw [← hs, hs']
    unfold genericValue
    rw [v2.1]
  have g3 : onInp E (.gGet d.inp.gviews.length) { d with inp := s' }
      = (.ok (.gen (some (.time start))), { d with inp := s' }) := by
    rw [onInp_eq]
    show ((call E.env (.gGet d.inp.gviews.length) s').1, _) = _
    rw [gGet_eq hnew, hval]
    rfl
  have g4 : (DM.ofExcept (asGen (Out.gen (some (GVal.time start)) : Out K GVal)) : DM K (Option GVal)) { d with inp := s' }
      = (.ok (some (.time start)), { d with inp := s' }) := rfl
  have hm : ∀ (f : Dice K → Dice K) (d : Dice K), DM.modify f d = (.ok (), f d) := fun _ _ => rfl
  refine ⟨{ d with inp := s', current := start }, ?_, rfl, rfl, rfl, ?_, fun n => ?_⟩
  · unfold adapterReset
    rw [DM.bind_ok g1, DM.bind_ok g2, DM.bind_ok g3, DM.bind_ok g4]
    simp only
    rw [DM.bind_ok (hm _ _)]
  · have := call_inv (env := E.env) (.generic (.str "Start Time") rootRegion) hi
    rw [hcall] at this
    exact this
  · have hp' : s'.params = d.inp.params := by rw [hs']
    have hv' : s'.sviews = d.inp.sviews := by rw [hs']
    unfold sval
    simp only [hv', scalarValue_params hp']

theorem dafter_inp {E : DEnv K} : ∀ (ops : List (DOp K)) {d : Dice K}, Inv E.env d.inp →
    PExt d.inp (dafter E d ops).inp ∧ RExt d.inp (dafter E d ops).inp
  | [], d, _ => ⟨.refl _, .of_eq rfl⟩
  | op :: ops, d, hi => by
    obtain ⟨a, _, _, _, ha, _⟩ := calls_dcall E op d
    have hi' : Inv E.env (dcall E op d).2.inp := by rw [ha]; exact after_inv _ hi
    obtain ⟨h1, h2⟩ := dafter_inp ops hi'
    have e1 := after_pext a hi
    have e2 := after_rext a hi
    rw [← ha] at e1 e2
    exact ⟨e1.trans h1, e2.trans h2⟩

/-- What a reset that succeeds tells about the initialisation of the run. -/
theorem resetStepping_init {E : DEnv K} {junk : OName → Nat → Fl K} {d d' : Dice K} (h : Sound E d)
    (hout : Reachable E.env d.out) (hg : resetStepping E junk d = (.ok (), d')) :
    Sound E (prepared E d) ∧ (prepared E d).initialized = true ∧
    ∃ d2 start stop k u rounding pts avg, (begun E d).2 = d2 ∧
      RunInit E (prepared E d) d2 start stop k u rounding pts avg := by
  obtain ⟨_, d1, a1, g1⟩ := DM.bind_inv hg
  have a1' : ensureInitialized E d = (.ok (), d1) := a1
  obtain ⟨s1, s2⟩ := good_ensure h
  rw [a1'] at s1 s2
  have s2 := s2 rfl
  have s1 : Sound E d1 := s1
  have s2 : d1.initialized = true := s2
  have ho1 : d1.out = d.out := by
    have := a1'
    by_cases hi : d.initialized = true
    · rw [ensure_initialized hi] at this
      simp only [Prod.mk.injEq, true_and] at this
      rw [this]
    · obtain ⟨a, b, _, hb, _, h4⟩ := calls_ensureInitialized (E := E) (Q := fun _ => False) d
      rw [a1'] at h4
      cases b with
      | nil => exact h4
      | cons x l => exact (hb x (by simp)).elim
  obtain ⟨_, d2, a2, g2⟩ := DM.bind_inv g1
  have a2' : initializeRun E d1 = (.ok (), d2) := by
    have : (ensureInitialized E >>= fun _ => initializeRun E) d1 = (.ok (), d2) := a2
    rwa [DM.bind_ok (ensure_initialized s2)] at this
  rw [prepared_eq a1']
  obtain ⟨start, stop, k, u, rounding, pts, avg, R⟩ := initializeRun_spec (by rw [ho1]; exact hout) a2'
  refine ⟨s1, s2, d2, start, stop, k, u, rounding, pts, avg, ?_, R⟩
  show (((ensureInitialized E >>= fun _ => initializeRun E) >>= fun _ => (pure DOut.done : DM K (DOut K))) d).2 = _
  have : (ensureInitialized E >>= fun _ => initializeRun E) d = (.ok (), d2) := by
    rw [DM.bind_ok a1', a2']
  rw [DM.bind_ok this]; rfl

/-- The emissions of a run whose initialisation succeeded, if they are stored in the parameter itself. -/
theorem RunInit.served {E : DEnv K} {d d' : Dice K} {start stop k u : Int} {rounding : Bool} {pts avg : List K}
    (h : Sound E d) (hr : RunInit E d d' start stop k u rounding pts avg) {I : Info}
    (hI : infoAt E.env d.inp (["World"], ["Emissions", "CO2"]) = some I) (he : I.empty = false) :
    ∃ p u' t c ts, Served E.env d.inp (["World"], ["Emissions", "CO2"]) (if rounding then "GtCO2/a" else "GtC/a") avg
      .average .none p u' t c ts := by
  have hi := h.inp
  obtain ⟨p, P, hk, hp, rfl⟩ := (infoAt_some hi.tree).1 hI
  have hw : P.written = true := by simpa using he
  obtain ⟨i, _, e2⟩ := hr.e
  obtain ⟨v, ty', ext', v1, v2, v3, v4, v5, v6, v7, v8, v9, v10⟩ := timeseries_view hi e2
  have hty : ty' = .average := (Except.ok.inj ((outputTy_parse .forc).symm.trans v1)).symm
  have hext : ext' = .none := (Except.ok.inj (show Except.ok Extrap.none = _ from v2)).symm
  have hi' : Inv E.env d'.inp := by
    have := call_inv (emissionRequest rounding avg) hi
    rw [e2] at this; exact this
  have hpx : PExt d.inp d'.inp := by
    have := call_pext (emissionRequest rounding avg) hi
    rw [e2] at this; exact this
  have hrx : RExt d.inp d'.inp := by
    have := call_rext (emissionRequest rounding avg) hi
    rw [e2] at this; exact this
  have hpp := v4.inj hi'.tree (hk.mono hpx hrx)
  have hgood := hi'.good.tviews i v v3
  obtain ⟨Q, u', t, q1, q2, q3, q4, q5, q6, q7, _⟩ := hgood.leaf.ex
  obtain ⟨Q', x1, x2, _⟩ := hgood.ex
  rw [q1] at x1; cases x1
  rw [hpp] at q1
  obtain ⟨P', y1, y2⟩ := hpx p P hp
  rw [q1] at y1; cases y1
  obtain ⟨g1, g2⟩ := hi.good.params p P hp
  have hpt : P.ptype ≠ none := by
    intro h0
    rw [h0] at g2
    have := (g1 hw).2
    simp only at g2
    rw [g2.1] at this
    simp at this
  have hpt' : P.ptype = some .average := by
    cases hx : P.ptype with
    | none => exact absurd hx hpt
    | some a =>
      have := y2.ptype _ hx
      rw [x2, v7, hty] at this
      exact this.symm
  have hreq : request (emissionRequest rounding avg : Op K GVal)
      = some (HName.seq ["Emissions", "CO2"], rootRegion) := rfl
  have hgrow := request_grows E.env _ _ hreq d.inp hi
  rw [e2] at hgrow
  obtain ⟨P2, z1, _, _, z4⟩ := hgrow.old p P hp
  rw [show d'.inp.params[p]? = some P2 from z1] at q1; cases q1
  have htps : P.tps = some t := by
    rw [← tps_kept y2 ⟨g1, g2⟩ (hi'.good.params p _ z1) (z4 hpt) (.inl hpt')]
    exact q5
  rw [v5] at q4
  rw [v6, v7, v8, hty, hext] at q7
  refine ⟨p, u', t, _, _, ⟨hk, ⟨P, hp, hpt', hw, ?_, htps⟩, q4, q7⟩⟩
  rw [← y2.unit hpt]; exact q3

/-- Emissions are kept by calls that are not calls of the input parameter set. -/
theorem readEmissions_kept {E : DEnv K} (rounding : Bool) (tps : List K) : ∀ (ops : List (DOp K)) {d : Dice K},
    DReach E d → (∃ I, infoAt E.env d.inp (["World"], ["Emissions", "CO2"]) = some I ∧ I.empty = false) →
    (∀ op ∈ ops, op.touchesInputs = false) →
    readEmissions E (dafter E d ops).inp rounding tps = readEmissions E d.inp rounding tps
  | [], _, _, _, _ => rfl
  | op :: ops, d, hr, ⟨I, hI, he⟩, ho => by
    have hop := ho op (by simp)
    have key : (∃ J, infoAt E.env (dcall E op d).2.inp (["World"], ["Emissions", "CO2"]) = some J ∧ J.empty = false) ∧
        readEmissions E (dcall E op d).2.inp rounding tps = readEmissions E d.inp rounding tps := by
      by_cases hm : op.model = true
      · have hk := C38_values_kept hr hm hI he
        obtain ⟨J, j1, j2, _⟩ := hk.1
        exact ⟨⟨J, j1, j2⟩, hk.2.2 _ _ _ _ _⟩
      · have : (dcall E op d).2.inp = d.inp := by
          cases op with
          | output op =>
            show ((onOut E op >>= fun o => (pure (DOut.out o) : DM K (DOut K))) d).2.inp = _
            have he := onOut_eq (E := E) (op := op) (d := d)
            cases hc : (call E.env op d.out).1 with
            | error e => rw [hc] at he; rw [DM.bind_error he]
            | ok x => rw [hc] at he; rw [DM.bind_ok he]; rfl
          | input op => simp [DOp.touchesInputs] at hop
          | _ => exact absurd rfl hm
        rw [this]
        exact ⟨⟨I, hI, he⟩, rfl⟩
    exact (readEmissions_kept rounding tps ops (hr.dafter [op]) key.1 (fun o h => ho o (by simp [h]))).trans key.2

/-- **C43**: a run that succeeded succeeds again if the inputs have not been changed, whatever was run, stepped, reset
or done with the outputs in between. -/
theorem C43_succeeds {E : DEnv K} {d d1 : Dice K} (h : DReach E d) {W : Scenario K} (hW : Given E (prepared E d).inp W)
    {I : Info} (hI : infoAt E.env (prepared E d).inp (["World"], ["Emissions", "CO2"]) = some I) (he : I.empty = false)
    {junk : OName → Nat → Fl K} (hrun : dcall E (.run junk) d = (.ok .done, d1)) (ops : List (DOp K))
    (hops : ∀ op ∈ ops, op.touchesInputs = false) (junk' : OName → Nat → Fl K) :
    (dcall E (.run junk') (dafter E d1 ops)).1 = .ok .done := by
  obtain ⟨hini, hp⟩ := from_prepared (.inl ⟨junk, rfl⟩) hrun
  have hrp : DReach E (prepared E d) := h.dafter [.initModelInput]
  have e1 : dafter E (prepared E d) (.run junk :: ops) = dafter E d1 ops := by
    show dafter E (dcall E (.run junk) (prepared E d)).2 ops = _
    rw [hp]
  have hops' : ∀ op ∈ DOp.run junk :: ops, op.touchesInputs = false := by
    intro op hm
    rcases List.mem_cons.1 hm with rfl | hm
    · rfl
    · exact hops op hm
  have hW' := Given.kept_all (.run junk :: ops) hrp hini hW ⟨I, hI, he⟩ hops'
  have hini' := initialized_dafter (E := E) (.run junk :: ops) hini
  have hem := readEmissions_kept W.rounding (W.axis (W.steps + 2)) (.run junk :: ops) hrp ⟨I, hI, he⟩ hops'
  have hre := hrp.dafter (.run junk :: ops)
  have hpx := dafter_inp (E := E) (.run junk :: ops) hrp.sound.inp
  rw [e1] at hW' hini' hem hre hpx
  -- the first run
  obtain ⟨M, hM⟩ := went_spec h hW (.inr ⟨junk, hrun, rfl⟩)
  obtain ⟨dA, a1, _⟩ := dcall_run hrun
  obtain ⟨s1, s2, d2, start, stop, k, u, rounding, pts, avg, hbeg, R⟩ := resetStepping_init h.sound h.out a1
  have r1 := s1.ready s2
  have w1 : W.start = start := by simpa using hW.startT.symm.trans (read_generic s1 r1 R.startT)
  have w2 : W.stop = stop := by simpa using hW.stopT.symm.trans (read_generic s1 r1 R.stopT)
  have w3 : W.ticks = k ∧ W.tick = u := by simpa using hW.periodT.symm.trans (read_generic s1 r1 R.period)
  have w4 : W.rounding = rounding := by simpa using hW.roundT.symm.trans (read_generic s1 r1 R.round)
  obtain ⟨k1, k2⟩ := w3
  subst w1 w2 k1 k2 w4
  have hsteps : ((W.stop - W.start).tdiv (W.ticks * W.tick)).toNat = W.steps := rfl
  have hfwd : 0 ≤ (W.stop - W.start).tdiv (W.ticks * W.tick) := hM.forward
  have hc0 : 0 ≤ (W.stop - W.start).tdiv (W.ticks * W.tick) + 1 := by omega
  have hcn : ((W.stop - W.start).tdiv (W.ticks * W.tick) + 1).toNat = W.steps + 1 := by omega
  have hpts := timePoints_eq (.inl rfl) R.points hc0
  have havg := timePoints_eq (.inr rfl) R.averages hc0
  rw [hcn] at hpts havg
  simp only [reduceCtorEq, if_false, if_true] at hpts havg
  have hpts : pts = W.axis (W.steps + 1) := hpts
  have havg : avg = W.axis (W.steps + 2) := havg
  have hout : ∀ o, outputPoints o pts avg = W.outAxis o := by
    intro o
    unfold outputPoints Scenario.outAxis
    split <;> simp only [hpts, havg]
  obtain ⟨pe, ue, te, ce, tse, hse⟩ := R.served s1 hI he
  have hse := hse.mono hpx.1 hpx.2
  -- the outputs
  have hox := dafter_out (E := E) ops hM.lives.out
  have hstored : ∀ o, ∃ p u t c ts q, Served E.env (dafter E d1 ops).out (outputKey o) (outputUnit o)
      (outputPoints o pts avg) (outputType o) .none p u t c ts ∧
      ts.convertTo ((M o).map (Fl.map c.convertTo)) = .ok q := by
    intro o
    obtain ⟨p, P, u, t, c, ts, q, b1, b2, b3, b4, b5, b6, b7, b8, b9, b10, b11⟩ := hM.stored o
    refine ⟨p, u, t, c, ts, q, Served.mono ⟨b1, ⟨P, b2, b3, b5, b6, b7⟩, b8, ?_⟩ hox.1 hox.2, b10⟩
    rw [hout]; exact b9
  have hall : AllServed E (dafter E d1 ops).out pts avg := fun o => by
    obtain ⟨p, u, t, c, ts, _, g, _⟩ := hstored o
    exact ⟨p, u, t, c, ts, g⟩
  -- initialisation
  generalize hd : dafter E d1 ops = dd at *
  have sd := hre.sound
  have rd := sd.ready hini'
  obtain ⟨dI, hI2⟩ := initializeRun_again sd.inp hre.out (gval_fresh sd rd hW'.startT) (gval_fresh sd rd hW'.stopT)
    (gval_fresh sd rd hW'.periodT) (gval_fresh sd rd hW'.roundT) R.nonzero R.points R.averages hse hall
  obtain ⟨start', stop', k', u', rounding', pts', avg', R'⟩ := initializeRun_spec hre.out hI2
  have x1 : W.start = start' := by simpa using hW'.startT.symm.trans (read_generic sd rd R'.startT)
  have x2 : W.stop = stop' := by simpa using hW'.stopT.symm.trans (read_generic sd rd R'.stopT)
  have x3 : W.ticks = k' ∧ W.tick = u' := by simpa using hW'.periodT.symm.trans (read_generic sd rd R'.period)
  have x4 : W.rounding = rounding' := by simpa using hW'.roundT.symm.trans (read_generic sd rd R'.round)
  obtain ⟨k1, k2⟩ := x3
  subst x1 x2 k1 k2 x4
  have y1 : pts' = pts := Except.ok.inj (R'.points.symm.trans R.points)
  have y2 : avg' = avg := Except.ok.inj (R'.averages.symm.trans R.averages)
  subst y1 y2
  obtain ⟨i2, r2, sv2, gv2, em2⟩ := R'.inputs sd hini'
  -- the reset
  obtain ⟨d3, g3, o3, v3, c3, i3, sv3⟩ := adapterReset_again junk' i2 r2 (gv2 _ _ R'.startT)
  have hfresh : ∀ o, OFresh d3 o := by
    intro o
    obtain ⟨i, v, v1, v2, _, v4, v5, _⟩ := R'.reqs o
    exact ⟨i, v, by rw [v3]; exact v1, by rw [o3]; exact v2, v4, v5⟩
  have hkeys : OKeys d3 := by
    intro o
    obtain ⟨i, v, v1, v2, vk, _⟩ := R'.reqs o
    exact ⟨i, v, by rw [v3]; exact v1, by rw [o3]; exact v2, by rw [o3]; exact vk⟩
  have hinv3 : Inv E.env d3.out := by rw [o3]; exact R'.out.inv
  have hcount : d3.count = (W.steps + 1 : Nat) := by
    rw [c3, R'.count]; omega
  obtain ⟨oo, oo1, _⟩ := R'.outs
  have hassign : Assignable d3 := by
    refine ⟨by rw [hcount]; omega, fun o => ?_⟩
    obtain ⟨p, u, t, c, ts, q, f1, f2⟩ := hstored o
    have f1 := f1.mono (after_pext oo hre.out.inv) (after_rext oo hre.out.inv)
    rw [← oo1] at f1
    obtain ⟨i, v, v1, v2, vk, v4, v5, v6, v7, v8, v9⟩ := R'.reqs o
    have hpp := vk.inj R'.out.inv.tree f1.key
    have hgood := R'.out.inv.good.tviews i v v2
    obtain ⟨Q, u', t', q1, q2, q3, q4, q5, q6, q7, _⟩ := hgood.leaf.ex
    obtain ⟨P, p1, p2, p3, p4, p5⟩ := f1.ex
    have q1' := q1
    rw [hpp, p1] at q1'
    have hPQ := Option.some.inj q1'
    subst hPQ
    rw [p4] at q3; cases q3
    rw [p5] at q5; cases q5
    have hcc : v.leaf.conv = c := by
      have := f1.conv
      rw [v6] at q4
      exact Except.ok.inj (q4.symm.trans this)
    have htt : v.leaf.ts = ts := by
      have := f1.time
      rw [v7, v8, v9] at q7
      exact Except.ok.inj (q7.symm.trans this)
    have hne := ((R'.out.inv.good.params p P p1).1 p3).1
    refine ⟨(v.leaf.conv, v.leaf.ts, pstat P), M o, ?_, by rw [hM.length, hcount]; rfl, ?_⟩
    · exact OStat_of (by rw [v3]; exact v1) (by rw [o3]; exact v2) (by rw [o3]; exact q1)
    · unfold setOutcome
      have hch : (pstat P).children = [] := hne
      have hlen : (M o).length = v.leaf.ts.targetLength := by
        rw [hM.length]
        unfold TSConv.targetLength
        rw [v7, v8, hpts, havg]
        unfold pointsLength outputType Scenario.axis
        cases o <;> simp
      simp only [hch, ne_eq, not_true_eq_false, if_false, hlen]
      rw [hcc, htt, f2]
  have hsv : ∀ n, sval d3 n = .ok (W.p n) := by
    intro n
    have := read_scalar sd rd n
    rw [sv3, sv2, this.1]
    have h2 := hW'.scalar n
    rw [this.2] at h2
    simpa using h2
  obtain ⟨d4, g4⟩ := diceReset_ok junk' i3 hinv3 hkeys hfresh hsv hM.coefs hM.start hassign
  have hreset : resetStepping E junk' dd = (.ok (), d4) := by
    unfold resetStepping
    have b1 : initializeModelInput E dd = (.ok (), dd) := ensure_initialized hini'
    have b2 : initializeRunParameters E dd = (.ok (), dI) := by
      show (ensureInitialized E >>= fun _ => initializeRun E) dd = _
      rw [DM.bind_ok (ensure_initialized hini'), hI2]
    rw [DM.bind_ok b1, DM.bind_ok b2, g3, g4]
  -- the steps
  obtain ⟨L, hL, _⟩ := (resetStepping_spec sd hre.out hreset).2 W (by rw [prepared_again hini']; exact hW')
  have hemis : emis E d4 = emis E d1 := by
    obtain ⟨_, _, _, _, em1⟩ := R.inputs s1 s2
    have b1 : (begun E dd).2 = dI := by
      show ((((ensureInitialized E >>= fun _ => initializeRun E) >>= fun _ => (pure DOut.done : DM K (DOut K))) dd)).2 = dI
      have b2 : (ensureInitialized E >>= fun _ => initializeRun E) dd = (.ok (), dI) := by
        rw [DM.bind_ok (ensure_initialized hini'), hI2]
      rw [DM.bind_ok b2]; rfl
    rw [hL.emisAt, hM.emisAt, b1, hbeg]
    rw [havg, hem] at em2
    rw [havg] at em1
    generalize readEmissions E (prepared E d).inp W.rounding (W.axis (W.steps + 2)) = x at em1 em2
    rcases x with e | o
    · exact em2.trans em1.symm
    · cases o <;> exact em2.trans em1.symm
  have hne : W.steps ≠ 0 → inputsOf E d4 = W.toDiceInputs := by
    intro h0
    rw [hL.inputs, hL.emissions ?_]
    intro h1
    have := hM.known
    rw [← hemis, h1] at this
    simp at this
    exact h0 this
  have ht := hL.timestep
  have hc : (d4.count - 1).toNat = W.steps := by rw [hL.count]; omega
  obtain ⟨d5, e5⟩ := diceRun_ok (M := M) hL.lives hL.able
    (by rw [ht, hc, hemis, Nat.zero_add]; exact fun _ => hM.known) (by intro o; rw [ht, hc, hL.length]; omega)
    (by rw [ht]; exact hM.start.det hL.start) (by
      rw [ht, hc]
      intro j hj
      rw [hne (by omega), hL.coefs.det hM.coefs]
      exact hM.traj j hj)
  have e6 : openscmRun E junk' dd = (.ok (), d5) := by
    show (resetStepping E junk' >>= fun _ => diceRun E) dd = _
    rw [DM.bind_ok hreset, e5]
  show ((openscmRun E junk' >>= fun _ => (pure DOut.done : DM K (DOut K))) dd).1 = _
  rw [DM.bind_ok e6]; rfl

/-- The example: any list of calls of the model and the outputs, here also one that requests children of outputs. -/
example (junk : OName → ℕ → Fl ℚ) :
    (dcall diceEnv (.run junk) (dafter diceEnv dice1 (between ++ [.output (.timeseries (.seq (outputName .mat ++ ["x"]))
      "GtC" (diceW.outAxis .mat) rootRegion (.str "point") (.enum .linear) (.enum .none)), .run junk, .step]))).1
      = .ok .done := by
  have hI : infoAt diceEnv.env (prepared diceEnv dice0).inp (["World"], ["Emissions", "CO2"])
      = some ⟨["Emissions", "CO2"], ["World"], some .average, some "GtCO2/a", false, 1⟩ := by decide +kernel
  have hb : ∀ op ∈ between, op.touchesInputs = false := by decide
  refine C43_succeeds (diceSt_reach _) diceW_given hI rfl dice_run _ ?_ junk
  intro op h
  rcases List.mem_append.1 h with h | h
  · exact hb op h
  · simp only [List.mem_cons, List.not_mem_nil, or_false] at h
    rcases h with rfl | rfl | rfl <;> rfl

end Openscm
