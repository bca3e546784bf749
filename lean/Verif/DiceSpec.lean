import Verif.DiceProps1
import Verif.DiceRunInit
import Verif.TimeProps3
import Verif.CoreProps9

/-!
# The DICE adapter: what a reset leaves behind

Helper file. `Given` says which scenario somebody reads from the input parameters; it is stated with
public calls only.
-/

set_option linter.unusedSectionVars false

namespace Openscm
variable {K : Type} [Field K] [LinearOrder K] [IsStrictOrderedRing K]

/-! ## Scenarios -/

/-- Everything that is given to the model. -/
structure Scenario (K : Type) extends DiceInputs K where
  stop : Int

/-- Length of a period in seconds. -/
def Scenario.period (W : Scenario K) : Int := W.ticks * W.tick

/-- Number of steps. -/
def Scenario.steps (W : Scenario K) : Nat := ((W.stop - W.start).tdiv W.period).toNat

/-- `n` time points from the start, one period apart. -/
def Scenario.axis (W : Scenario K) (n : Nat) : List K :=
  (List.range n).map fun i : Nat => ((W.start + i * W.period : Int) : K)

/-- Name and unit of the scalar inputs. -/
def scalarSpec : SName → List String × String
  | .mat0 => (["DICE", "mat0"], "GtC")
  | .mateq => (["DICE", "mateq"], "GtC")
  | .mat_lower => (["DICE", "mat_lower"], "GtC")
  | .ml0 => (["DICE", "ml0"], "GtC")
  | .mleq => (["DICE", "mleq"], "GtC")
  | .ml_lower => (["DICE", "ml_lower"], "GtC")
  | .mu0 => (["DICE", "mu0"], "GtC")
  | .mueq => (["DICE", "mueq"], "GtC")
  | .mu_lower => (["DICE", "mu_lower"], "GtC")
  | .tatm0 => (["DICE", "tatm0"], "delta_degC")
  | .tatm_upper => (["DICE", "tatm_upper"], "delta_degC")
  | .tocean0 => (["DICE", "tocean0"], "delta_degC")
  | .tocean_lower => (["DICE", "tocean_lower"], "delta_degC")
  | .tocean_upper => (["DICE", "tocean_upper"], "delta_degC")
  | .b12 => (["DICE", "b12"], "")
  | .b23 => (["DICE", "b23"], "")
  | .c1 => (["DICE", "c1"], "delta_degC*m^2/W")
  | .c3 => (["DICE", "c3"], "W/m^2/delta_degC")
  | .c4 => (["DICE", "c4"], "")
  | .fex0 => (["DICE", "fex0"], "W/m^2")
  | .fex1 => (["DICE", "fex1"], "W/m^2")
  | .fco22x => (["Radiative Forcing Sensitivity"], "W/m^2")
  | .t2xco2 => (["Equilibrium Climate Sensitivity"], "delta_degC")

/-- Names of the generic inputs. -/
def genericSpec : GName → List String
  | .period_length => ["DICE", "period_length"]
  | .original_rounding => ["DICE", "original_rounding"]
  | .forcoth_saturation_time => ["DICE", "forcoth_saturation_time"]
  | .start_time => ["Start Time"]
  | .stop_time => ["Stop Time"]

/-- The CO2 emissions as read from the input parameters now. -/
def readEmissions (E : DEnv K) (s : St K GVal) (rounding : Bool) (tps : List K) : Res K GVal :=
  freshRead E.env s (["World"], ["Emissions", "CO2"]) (if rounding then "GtCO2/a" else "GtC/a") tps
    (.str "average") (.enum .linear) (.enum .none)

/-- The scenario that can be read from the input parameters. -/
structure Given (E : DEnv K) (s : St K GVal) (W : Scenario K) : Prop where
  scalar : ∀ n, freshScalar E.env s (scalarSpec n).1 (scalarSpec n).2 = .ok (.num (W.p n))
  startT : freshGeneric E.env s (genericSpec .start_time) = .ok (.gen (some (.time W.start)))
  stopT : freshGeneric E.env s (genericSpec .stop_time) = .ok (.gen (some (.time W.stop)))
  satT : freshGeneric E.env s (genericSpec .forcoth_saturation_time) = .ok (.gen (some (.time W.sat)))
  periodT : freshGeneric E.env s (genericSpec .period_length) = .ok (.gen (some (.delta W.ticks W.tick)))
  roundT : freshGeneric E.env s (genericSpec .original_rounding) = .ok (.gen (some (.bool W.rounding)))
  emissionsT : ∀ a, readEmissions E s W.rounding (W.axis (W.steps + 2)) = .ok (.arr a) → a.vals = W.emissions

/-- The state in which the defaults of the model have been filled in. -/
def prepared (E : DEnv K) (d : Dice K) : Dice K := (dcall E .initModelInput d).2

/-! ## Reading inputs -/

theorem ready_scalar {d : Dice K} (h : Ready d) (n : SName) :
    ∃ i, d.sv n = some i ∧ ViewOf d.inp (.s i) (["World"], (scalarSpec n).1) (some (scalarSpec n).2) ∧
      Filled d.inp (.s i) := by
  have : ∀ n : SName, ∃ e ∈ scalarDefaults ++ standardScalars, e.1 = n ∧ (e.2.1, e.2.2.1) = scalarSpec n := by
    intro n; cases n <;> decide +kernel
  obtain ⟨e, e1, e2, e3⟩ := this n
  have hm : scalarEntry e ∈ entries K := by
    unfold entries
    rcases List.mem_append.1 e1 with hn | hn
    · simp only [List.mem_append]; exact .inl (.inl (.inl (List.mem_map_of_mem hn)))
    · simp only [List.mem_append]; exact .inl (.inr (List.mem_map_of_mem hn))
  obtain ⟨r, r1, r2, r3, r4⟩ := h _ hm
  simp only [scalarEntry, Dice.slot, e2, Option.map_eq_some_iff] at r1
  obtain ⟨i, i1, rfl⟩ := r1
  refine ⟨i, i1, ?_, r4 (by simp [scalarEntry])⟩
  rw [← e3]
  exact r3

theorem ready_generic {d : Dice K} (h : Ready d) (n : GName) :
    ∃ i, d.gv n = some i ∧ ViewOf d.inp (.g i) (["World"], genericSpec n) none := by
  have : ∀ n : GName, ∃ e ∈ genericDefaults ++ standardGenerics, e.1 = n ∧ e.2.1 = genericSpec n := by
    intro n; cases n <;> decide +kernel
  obtain ⟨e, e1, e2, e3⟩ := this n
  have hm : genericEntry e ∈ entries K := by
    unfold entries
    rcases List.mem_append.1 e1 with hn | hn
    · simp only [List.mem_append]; exact .inl (.inl (.inr (List.mem_map_of_mem hn)))
    · simp only [List.mem_append]; exact .inr (List.mem_map_of_mem hn)
  obtain ⟨r, r1, r2, r3, r4⟩ := h _ hm
  simp only [genericEntry, Dice.slot, e2, Option.map_eq_some_iff] at r1
  obtain ⟨i, i1, rfl⟩ := r1
  refine ⟨i, i1, ?_⟩
  rw [← e3]
  exact r3

theorem read_scalar {E : DEnv K} {d : Dice K} (h : Sound E d) (hr : Ready d) (n : SName) :
    sval d n = .ok (pval d n) ∧
      freshScalar E.env d.inp (scalarSpec n).1 (scalarSpec n).2 = .ok (.num (pval d n)) := by
  obtain ⟨i, h1, h2, h3⟩ := ready_scalar hr n
  rw [freshScalar_view h.inp h2 h3]
  obtain ⟨p, t1, t2⟩ := h2
  obtain ⟨q, w, P, f1, f2, f3⟩ := h3
  rw [t1] at f1; cases f1
  simp only [viewTarget, Option.map_eq_some_iff] at t1
  obtain ⟨v, v1, v2⟩ := t1
  simp only [Prod.mk.injEq, Option.some.injEq] at v2
  have hc := ((h.inp.good.params p P f2).1 f3).1
  obtain ⟨Q, x, q1, q2, q3, q4, q5, _⟩ := (h.inp.good.sviews i v v1).ex
  rw [v2.1, f2] at q1; cases q1
  have hg := (h.inp.good.params p P f2).2
  rw [q2] at hg
  have hs : sval d n = scalarValue d.inp v := by
    unfold sval
    rw [h1]
    simp only [v1]
  have hsv : ∃ x, scalarValue d.inp v = .ok x := by
    unfold scalarValue readScalarLeaf
    rw [v2.1]
    simp only [f2, hc, f3, ne_eq, not_true_eq_false, if_false, Bool.not_true, Bool.false_eq_true]
    obtain ⟨_, y, hy⟩ := hg.2
    rw [hy]
    exact ⟨_, rfl⟩
  obtain ⟨x, hx⟩ := hsv
  have hp : pval d n = x := by unfold pval; rw [hs, hx]
  rw [hp, hs]
  refine ⟨hx, ?_⟩
  unfold result
  rw [sGet_eq v1, hx]; rfl

theorem read_generic {E : DEnv K} {d : Dice K} (h : Sound E d) (hr : Ready d) {n : GName} {x : Option GVal}
    (hx : gval d n = .ok x) : freshGeneric E.env d.inp (genericSpec n) = .ok (.gen x) := by
  obtain ⟨i, h1, h2⟩ := ready_generic hr n
  obtain ⟨p, t1, t2⟩ := id h2
  simp only [viewTarget, Option.map_eq_some_iff] at t1
  obtain ⟨v, v1, v2⟩ := t1
  simp only [Prod.mk.injEq] at v2
  unfold gval at hx
  rw [h1] at hx
  simp only [v1] at hx
  have hf : Filled d.inp (.g i) := by
    obtain ⟨P, p1, p2, p3, p4⟩ := h.inp.good.gviews i v v1
    refine ⟨p, none, P, by simp only [viewTarget, v1, Option.map_some, v2.2]; rw [v2.1], by rw [← v2.1]; exact p1, ?_⟩
    unfold genericValue at hx
    rw [p1] at hx
    by_contra hc
    have hc : P.written = false := by simpa using hc
    simp only [hc, Bool.not_false, if_true, reduceCtorEq] at hx
  rw [freshGeneric_view h.inp h2 hf]
  unfold result
  rw [gGet_eq v1, hx]; rfl

theorem read_sat {E : DEnv K} {d : Dice K} (h : Sound E d) (hr : Ready d) {x : Option GVal}
    (hx : freshGeneric E.env d.inp (genericSpec .forcoth_saturation_time) = .ok (.gen x)) :
    gval d .forcoth_saturation_time = .ok x := by
  have hm : genericEntry (.forcoth_saturation_time, ["DICE", "forcoth_saturation_time"],
      some (.time (yearToSeconds 2100))) ∈ entries K := by
    unfold entries
    simp only [List.mem_append]
    exact .inl (.inl (.inr (List.mem_map_of_mem (by simp [genericDefaults]))))
  obtain ⟨r, r1, r2, r3, r4⟩ := hr _ hm
  simp only [genericEntry, Dice.slot, Option.map_eq_some_iff] at r1
  obtain ⟨i, i1, rfl⟩ := r1
  have hfv : freshGeneric E.env d.inp (genericSpec .forcoth_saturation_time) = result E.env d.inp (.gGet i) :=
    freshGeneric_view h.inp r3 (r4 (by simp [genericEntry]))
  rw [hfv] at hx
  obtain ⟨p, t1, t2⟩ := id r3
  simp only [viewTarget, Option.map_eq_some_iff] at t1
  obtain ⟨v, v1, v2⟩ := t1
  unfold result at hx
  rw [gGet_eq v1] at hx
  unfold gval
  rw [i1]
  simp only [v1]
  simp only at hx
  cases hy : genericValue d.inp v with
  | error e => rw [hy] at hx; simp [Except.map] at hx
  | ok y => rw [hy] at hx; simpa [Except.map] using hx

/-! ## Time points -/

theorem timePoints_eq {start period count : Int} {ty : PType} (hty : ty = .point ∨ ty = .average) {l : List K}
    (h : timePointsFor start period count ty = .ok l) (hc : 0 ≤ count) :
    l = (List.range (if ty = .average then count.toNat + 1 else count.toNat)).map
      fun i : Nat => ((start + i * period : Int) : K) := by
  unfold timePointsFor at h
  rw [if_neg (by split <;> omega)] at h
  cases hl' : createTimePoints 1 start period count.toNat (.enum ty) with
  | error e => rw [hl'] at h; simp at h
  | ok l' =>
      rw [hl'] at h
      injection h with h
      have hp : (TyArg.enum ty).parse = .ok ty := by rcases hty with rfl | rfl <;> rfl
      have := C29_points hl'
      rw [hp] at this
      rw [← h, this, List.map_map]
      simp only [Except.ok.injEq]
      rfl

/-! ## Before the reset -/

/-- Initialising a run does not change what is read from the inputs. -/
theorem RunInit.inputs {E : DEnv K} {d d' : Dice K} {start stop k u : Int} {rounding : Bool} {pts avg : List K}
    (h : Sound E d) (hi : d.initialized = true) (hr : RunInit E d d' start stop k u rounding pts avg) :
    Inv E.env d'.inp ∧ Ready d' ∧ (∀ n, sval d' n = sval d n) ∧ (∀ n x, gval d n = .ok x → gval d' n = .ok x) ∧
      (match readEmissions E d.inp rounding avg with
        | .ok (.arr a) => emis E d' = a.vals
        | _ => emis E d' = []) := by
  obtain ⟨i, e1, e2⟩ := hr.e
  have hinp : d'.inp = (call E.env (emissionRequest rounding avg) d.inp).2 := by rw [e2]
  have hinp' : d'.inp = after E.env d.inp [emissionRequest rounding avg] := by rw [hinp, after_one]
  have hreq : request (emissionRequest rounding avg : Op K GVal)
      = some (HName.seq ["Emissions", "CO2"], rootRegion) := rfl
  have hgrow := request_grows E.env _ _ hreq d.inp h.inp
  have hstill := hgrow.still
  rw [← hinp] at hgrow hstill
  have hsv : d'.sv = d.sv := by rw [hr.eq]
  have hgv : d'.gv = d.gv := by rw [hr.eq]
  refine ⟨by rw [hinp]; exact call_inv _ h.inp, (h.ready hi).after h.inp hsv hgv hinp',
    fun n => safe_sval h hi hinp' (Still.safe h.inp hstill) hsv n, fun n x hx => still_gval h.inp hstill hgv hgrow.gv n hx, ?_⟩
  have hfr : readEmissions E d.inp rounding avg = (call E.env (.tGet i) d'.inp).1 := by
    unfold readEmissions freshRead
    have : result E.env d.inp (.timeseries (.seq ["Emissions", "CO2"]) (if rounding then "GtCO2/a" else "GtC/a") avg
        (.seq ["World"]) (.str "average") (.enum .linear) (.enum .none)) = .ok (.view i) := by
      unfold result
      exact congrArg Prod.fst e2
    simp only [this]
    show result E.env (after E.env d.inp [emissionRequest rounding avg]) (.tGet i) = _
    rw [← hinp']; rfl
  unfold emis
  rw [e1, hfr]
  simp only
  cases hx : (call E.env (.tGet i) d'.inp).1 with
  | error e => rfl
  | ok o => cases o <;> rfl

/-- `reset` of the adapter: the clock is set and the outputs are reset. -/
theorem adapterReset_inv {E : DEnv K} {junk : OName → Nat → Fl K} {d d' : Dice K} (hi : Inv E.env d.inp)
    (hready : Ready d) {start : Int} (hs : gval d .start_time = .ok (some (.time start)))
    (hg : adapterReset E junk d = (.ok (), d')) :
    ∃ d1, diceReset E junk d1 = (.ok (), d') ∧ d1.current = start ∧ Inv E.env d1.inp ∧ Ready d1 ∧
      (∀ n, sval d1 n = sval d n) ∧ (∀ n, gval d1 n = gval d n) ∧ emis E d1 = emis E d ∧
      d1 = { d with inp := d1.inp, current := start } ∧
      ∀ junk', adapterReset E junk' d = diceReset E junk' d1 := by
  obtain ⟨i, h1, p, h2, h3⟩ := ready_generic hready .start_time
  simp only [viewTarget, Option.map_eq_some_iff] at h2
  obtain ⟨v, v1, v2⟩ := h2
  simp only [Prod.mk.injEq] at v2
  obtain ⟨P, p1, p2, p3, _⟩ := hi.good.gviews i v v1
  rw [v2.1] at p1
  have hcall := generic_again (env := E.env) hi (name := .str "Start Time") (region := rootRegion) h3 p1 p2 p3
  unfold adapterReset at hg ⊢
  obtain ⟨r, d1, a1, g1⟩ := DM.bind_inv hg
  have first := fun junk' : OName → Nat → Fl K => DM.bind_ok (f := fun r => do
    let i ← DM.ofExcept (asView r)
    let g ← onInp E (.gGet i)
    match ← DM.ofExcept (asGen g) with
    | some (.time s) => do
      DM.modify (fun d => { d with current := s })
      diceReset E junk'
    | _ => DM.throw .typeError) a1
  obtain ⟨c1, c2⟩ := onInp_ok a1
  rw [hcall] at c1 c2
  simp only [Prod.mk.injEq, Except.ok.injEq] at c1
  rw [← c1.1] at g1
  obtain ⟨j, d2, a2, g2⟩ := DM.bind_inv g1
  obtain ⟨e2, r2⟩ := DM.ofExcept_inv a2
  have := asView_inv e2
  simp only [Out.view.injEq] at this
  rw [← this, r2] at g2
  obtain ⟨x, d3, a3, g3⟩ := DM.bind_inv g2
  have hnew : d1.inp.gviews[d.inp.gviews.length]? = some { param := p, writable := false } := by
    rw [← c1.2]; simp
  have hval : genericValue d1.inp { param := p, writable := false } = .ok (some (.time start)) := by
    unfold gval at hs
    rw [h1] at hs
    simp only [v1] at hs
    rw [← hs, ← c1.2]
    unfold genericValue
    rw [v2.1]
  obtain ⟨c3, c4⟩ := onInp_ok a3
  rw [gGet_eq hnew, hval] at c3 c4
  simp only [Prod.mk.injEq] at c3
  obtain ⟨y, d4, a4, g4⟩ := DM.bind_inv g3
  obtain ⟨e4, r4⟩ := DM.ofExcept_inv a4
  have hy : y = some (.time start) := by
    rw [← Except.ok.inj (c3.1 : Except.ok (Out.gen (some (GVal.time start))) = Except.ok x)] at e4
    exact (Except.ok.inj e4).symm
  subst hy
  obtain ⟨_, d5, a5, g5⟩ := DM.bind_inv g4
  have e5 := DM.modify_inv a5
  have hd5 : d5 = { d with inp := d1.inp, current := start } := by
    rw [e5, r4, c4, c2]
  have hinp : d5.inp = { d.inp with gviews := d.inp.gviews ++ [{ param := p, writable := false }] } := by
    rw [hd5]; exact c1.2.symm
  have hinv : Inv E.env d5.inp := by
    rw [hinp]
    have := call_inv (env := E.env) (.generic (.str "Start Time") rootRegion) hi
    rw [hcall] at this
    exact this
  have hgv : d5.gv = d.gv := by rw [hd5]
  have hsv : d5.sv = d.sv := by rw [hd5]
  refine ⟨d5, g5, by rw [hd5], hinv, ?_, ?_, ?_, ?_, by rw [hd5], fun junk' => ?_⟩
  rotate_left 4
  · refine (first junk').trans ?_
    rw [← c1.1, DM.bind_ok a2, ← this, r2, DM.bind_ok a3, DM.bind_ok a4]
    exact DM.bind_ok a5
  · refine hready.after hi hsv hgv (ops := [.generic (.str "Start Time") rootRegion]) ?_
    rw [after_one, hcall, hinp]
  · intro n
    unfold sval
    have hp' : d5.inp.params = d.inp.params := by rw [hinp]
    have hv' : d5.inp.sviews = d.inp.sviews := by rw [hinp]
    rw [hsv, hv']
    simp only [scalarValue_params hp']
  · intro n
    obtain ⟨j, j1, q, j2, _⟩ := ready_generic hready n
    simp only [viewTarget, Option.map_eq_some_iff] at j2
    obtain ⟨w, w1, _⟩ := j2
    unfold gval
    rw [hgv, j1]
    have : d5.inp.gviews[j]? = some w := by
      rw [hinp]
      have hlt := (List.getElem?_eq_some_iff.1 w1).1
      simp only [List.getElem?_append_left hlt, w1]
    simp only [this, w1]
    unfold genericValue
    rw [hinp]
  · have he : d5.e = d.e := by rw [hd5]
    unfold emis
    rw [he]
    cases d.e with
    | none => rfl
    | some k =>
      simp only
      have : (call E.env (.tGet k) d5.inp).1 = (call E.env (.tGet k) d.inp).1 := by
        rw [hinp]
        cases hv : d.inp.tviews[k]? with
        | none => 
          have hn : ∀ s : St K GVal, s.tviews[k]? = none → (call E.env (.tGet k) s).1 = .error .badHandle := by
            intro s hs
            have : call E.env (.tGet k) s = (.error .badHandle, s) := M.bind_error (readT_none hs)
            rw [this]
          rw [hn d.inp hv]
          exact hn { d.inp with gviews := d.inp.gviews ++ [{ param := p, writable := false }] } hv
        | some w =>
          rw [tGet_eq hv, tGet_eq (s := { d.inp with gviews := d.inp.gviews ++ [{ param := p, writable := false }] }) hv]
          have hrt : readView { d.inp with gviews := d.inp.gviews ++ [{ param := p, writable := false }] } w
              = readView d.inp w :=
            readView_params (s' := { d.inp with gviews := d.inp.gviews ++ [{ param := p, writable := false }] })
              (s := d.inp) rfl w
          simp only [hrt]
      rw [this]

theorem Ready.same {d d' : Dice K} (h : Ready d) (hs : SameInputs d d') : Ready d' := by
  intro e he
  obtain ⟨r, r1, r2, ⟨p, r3, r3'⟩, r4⟩ := h e he
  have ht : ∀ r, (∀ i, r ≠ .t i) → viewTarget d'.inp r = viewTarget d.inp r := by
    intro r hr
    cases r with
    | s i => simp only [viewTarget, hs.sviews]
    | t i => exact absurd rfl (hr i)
    | g i => simp only [viewTarget, hs.gviews, hs.params]
  refine ⟨r, ?_, r2, ⟨p, by rw [ht r r2]; exact r3, r3'.mono (.of_eq hs.params) (.of_eq hs.regions)⟩, fun hd => ?_⟩
  · rw [← r1]
    cases e.slot with
    | inl n => simp only [Dice.slot, hs.sv]
    | inr n => simp only [Dice.slot, hs.gv]
  · obtain ⟨q, w, P, f1, f2, f3⟩ := r4 hd
    exact ⟨q, w, P, by rw [ht r r2]; exact f1, by rw [hs.params]; exact f2, f3⟩

/-! ## After the reset -/

/-- The time points of output `o` in scenario `W`. -/
def Scenario.outAxis (W : Scenario K) (o : OName) : List K :=
  W.axis (if o = .forc then W.steps + 2 else W.steps + 1)

/-- The view of output `o` was made for scenario `W`. -/
def OMade (d : Dice K) (o : OName) (W : Scenario K) : Prop :=
  ∃ i v, d.ov o = some i ∧ d.out.tviews[i]? = some v ∧ HasKey d.out v.leaf.param (outputKey o) ∧
    v.leaf.conv.target = outputUnit o ∧ v.leaf.ts.target = W.outAxis o ∧ v.leaf.ts.ty = outputType o ∧
    v.leaf.ts.ext = .none

/-- The initialisation of a run. -/
def begun (E : DEnv K) (d : Dice K) : Except Err (DOut K) × Dice K := dcall E .initRunParameters d

/-- What holds after a reset and `n` steps. -/
structure Progress (E : DEnv K) (d d' : Dice K) (W : Scenario K) (n : Nat) (L : Series K) : Prop where
  lives : Lives E d' (fun _ => false) L
  inputs : inputsOf E d' = { W.toDiceInputs with emissions := emis E d' }
  emissions : emis E d' ≠ [] → emis E d' = W.emissions
  ready : Ready d'
  initialized : d'.initialized = true
  coefs : CoefSpec W.p (coefsOf d')
  start : DiceStart E.lg W.p (col L 0)
  traj : Trajectory E.lg E.env.trunc W.toDiceInputs (coefsOf d') 0 n L
  fits : n ≤ W.steps
  known : n ≤ (emis E d').length
  length : ∀ o, (L o).length = W.steps + 1
  count : d'.count = W.steps + 1
  timestep : d'.timestep = n
  current : d'.current = W.start + W.period * n
  nonzero : W.period ≠ 0
  forward : 0 ≤ (W.stop - W.start).tdiv W.period
  made : ∀ o, OMade d' o W
  written : ∀ o, ∃ c t P, OStat d' o = some (c, t, P) ∧ P.written = true
  axes : ∀ o, OnAxis d.out (outputKey o) (W.outAxis o) → OnAxis d'.out (outputKey o) (W.outAxis o)
  attrs : coefAttrs d' = (some (coefsOf d').b11, some (coefsOf d').b21, some (coefsOf d').b22,
    some (coefsOf d').b32, some (coefsOf d').b33)
  svals : ∀ n, sval d' n = .ok (W.p n)
  gvals : gval d' .start_time = .ok (some (.time W.start)) ∧ gval d' .stop_time = .ok (some (.time W.stop)) ∧
    gval d' .forcoth_saturation_time = .ok (some (.time W.sat)) ∧
    gval d' .period_length = .ok (some (.delta W.ticks W.tick)) ∧
    gval d' .original_rounding = .ok (some (.bool W.rounding))
  begun : (begun E d).1 = .ok .done
  pext : PExt (Openscm.begun E d).2.out d'.out
  regions : d'.out.regions = (Openscm.begun E d).2.out.regions
  typed : ∀ o, ∃ p P t, HasKey (Openscm.begun E d).2.out p (outputKey o) ∧
    (Openscm.begun E d).2.out.params[p]? = some P ∧ P.ptype ≠ none ∧ P.tps = some t
  reads : ∀ a, readEmissions E (prepared E d).inp W.rounding (W.axis (W.steps + 2)) = .ok (.arr a) →
    emis E d' = a.vals
  emisAt : emis E d' = emis E (Openscm.begun E d).2

/-- Scenarios read from the same state differ at most in emissions that cannot be read. -/
theorem Given.same {E : DEnv K} {s : St K GVal} {W W' : Scenario K} (h : Given E s W) (h' : Given E s W') :
    W' = { W with emissions := W'.emissions } := by
  have e1 : W'.p = W.p := by
    funext n
    have := (h'.scalar n).symm.trans (h.scalar n)
    simpa using this
  have e2 : W'.start = W.start := by simpa using h'.startT.symm.trans h.startT
  have e3 : W'.stop = W.stop := by simpa using h'.stopT.symm.trans h.stopT
  have e4 : W'.sat = W.sat := by simpa using h'.satT.symm.trans h.satT
  have e5 : W'.ticks = W.ticks ∧ W'.tick = W.tick := by simpa using h'.periodT.symm.trans h.periodT
  have e6 : W'.rounding = W.rounding := by simpa using h'.roundT.symm.trans h.roundT
  obtain ⟨⟨p, start, sat, ticks, tick, rounding, emissions⟩, stop⟩ := W
  obtain ⟨⟨p', start', sat', ticks', tick', rounding', emissions'⟩, stop'⟩ := W'
  simp only at e1 e2 e3 e4 e5 e6
  simp only [e1, e2, e3, e4, e5.1, e5.2, e6]

theorem prepared_eq {E : DEnv K} {d d1 : Dice K} (h : ensureInitialized E d = (.ok (), d1)) :
    prepared E d = d1 := by
  unfold prepared
  show ((ensureInitialized E >>= fun _ => (pure DOut.done : DM K (DOut K))) d).2 = d1
  rw [DM.bind_ok h]; rfl

/-- A reset that succeeds: there is a scenario to read, and the outputs are set up for it. -/
theorem resetStepping_spec {E : DEnv K} {junk : OName → Nat → Fl K} {d d' : Dice K} (h : Sound E d)
    (hout : Reachable E.env d.out) (hg : resetStepping E junk d = (.ok (), d')) :
    (∀ t, freshGeneric E.env (prepared E d).inp (genericSpec .forcoth_saturation_time)
      = .ok (.gen (some (.time t))) → ∃ W, Given E (prepared E d).inp W) ∧
    ∀ W, Given E (prepared E d).inp W → ∃ L, Progress E d d' W 0 L ∧
      (∀ o j, 0 < j → (L o)[j]? = if j < W.steps + 1 then some (junk o j) else none) := by
  obtain ⟨_, d1, a1, g1⟩ := DM.bind_inv hg
  have a1' : ensureInitialized E d = (.ok (), d1) := a1
  obtain ⟨s1, s2⟩ := good_ensure h
  rw [a1'] at s1 s2
  have s2 := s2 rfl
  have s1 : Sound E d1 := s1
  have s2 : d1.initialized = true := s2
  have ho1 : d1.out = d.out := by
    have := a1'
    by_cases hi : d.initialized = true
    · rw [ensure_initialized hi] at this
      simp only [Prod.mk.injEq, true_and] at this
      rw [this]
    · obtain ⟨a, b, _, hb, _, h4⟩ := calls_ensureInitialized (E := E) (Q := fun _ => False) d
      rw [a1'] at h4
      cases b with
      | nil => exact h4
      | cons x l => exact (hb x (by simp)).elim
  obtain ⟨_, d2, a2, g2⟩ := DM.bind_inv g1
  have a2' : initializeRun E d1 = (.ok (), d2) := by
    have : (ensureInitialized E >>= fun _ => initializeRun E) d1 = (.ok (), d2) := a2
    rwa [DM.bind_ok (ensure_initialized s2)] at this
  rw [prepared_eq a1']
  obtain ⟨start, stop, k, u, rounding, pts, avg, R⟩ := initializeRun_spec (by rw [ho1]; exact hout) a2'
  obtain ⟨i2, r2, sv2, gv2, em2⟩ := R.inputs s1 s2
  have r1 := s1.ready s2
  obtain ⟨d3, g3, c3, i3, r3, sv3, gv3, em3, eq3, _⟩ := adapterReset_inv i2 r2 (gv2 _ _ R.startT) g2
  have hfresh : ∀ o, OFresh d3 o := by
    intro o
    obtain ⟨i, v, v1, v2, _, v4, v5, _⟩ := R.reqs o
    exact ⟨i, v, by rw [eq3]; exact v1, by rw [eq3]; exact v2, v4, v5⟩
  have hkeys : OKeys d3 := by
    intro o
    obtain ⟨i, v, v1, v2, v3, _⟩ := R.reqs o
    exact ⟨i, v, by rw [eq3]; exact v1, by rw [eq3]; exact v2, by rw [eq3]; exact v3⟩
  have ho3 : d3.out = d2.out := by rw [eq3]
  have hov3 : d3.ov = d2.ov := by rw [eq3]
  obtain ⟨L, S⟩ := diceReset_spec i3 (by rw [ho3]; exact R.out.inv) hkeys hfresh g3
  have hpos : 0 < d2.count := by
    have := S.pos
    rw [eq3] at this
    exact this
  have hq : 0 ≤ (stop - start).tdiv (k * u) := by
    have := R.count
    omega
  have hcount : d2.count = (((stop - start).tdiv (k * u)).toNat + 1 : Nat) := by
    have := R.count
    omega
  have hc0 : 0 ≤ (stop - start).tdiv (k * u) + 1 := by omega
  have hcn : ((stop - start).tdiv (k * u) + 1).toNat = ((stop - start).tdiv (k * u)).toNat + 1 := by omega
  have hpts := timePoints_eq (.inl rfl) R.points hc0
  have havg := timePoints_eq (.inr rfl) R.averages hc0
  rw [hcn] at hpts havg
  simp only [reduceCtorEq, if_false, if_true] at hpts havg
  -- scenarios
  have hstart := read_generic s1 r1 R.startT
  have hstop := read_generic s1 r1 R.stopT
  have hper := read_generic s1 r1 R.period
  have hround := read_generic s1 r1 R.round
  have hbeg : begun E d = (.ok .done, d2) := by
    show ((ensureInitialized E >>= fun _ => initializeRun E) >>= fun _ => (pure DOut.done : DM K (DOut K))) d = _
    have : (ensureInitialized E >>= fun _ => initializeRun E) d = (.ok (), d2) := by
      rw [DM.bind_ok a1', a2']
    rw [DM.bind_ok this]; rfl
  refine ⟨fun t ht => ?_, fun W hW => ?_⟩
  · refine ⟨⟨⟨pval d1, start, t, k, u, rounding, emis E d2⟩, stop⟩, fun n => (read_scalar s1 r1 n).2, hstart, hstop,
      ht, hper, hround, ?_⟩
    intro a ha
    have hax : (Scenario.axis ⟨⟨pval d1, start, t, k, u, rounding, emis E d2⟩, stop⟩
        (((stop - start).tdiv (k * u)).toNat + 2) : List K) = avg := by rw [havg]; rfl
    have ha' : readEmissions E d1.inp rounding avg = .ok (.arr a) := by
      rw [← hax]; exact ha
    rw [ha'] at em2
    exact em2.symm
  · -- the given scenario is the one of the run
    have w1 : W.start = start := by simpa using hW.startT.symm.trans hstart
    have w2 : W.stop = stop := by simpa using hW.stopT.symm.trans hstop
    have w3 : W.ticks = k ∧ W.tick = u := by simpa using hW.periodT.symm.trans hper
    have w4 : W.rounding = rounding := by simpa using hW.roundT.symm.trans hround
    have w5 : W.p = pval d1 := by
      funext n
      simpa using (hW.scalar n).symm.trans (read_scalar s1 r1 n).2
    have w6 := read_sat s1 r1 hW.satT
    have wsteps : W.steps = ((stop - start).tdiv (k * u)).toNat := by
      unfold Scenario.steps Scenario.period
      rw [w1, w2, w3.1, w3.2]
    have waxis : ∀ n, W.axis n = (List.range n).map fun i : Nat => ((start + i * (k * u) : Int) : K) := by
      intro n
      unfold Scenario.axis Scenario.period
      rw [w1, w3.1, w3.2]
    have wpts : pts = W.axis (W.steps + 1) := by rw [hpts, waxis, wsteps]
    have wavg : avg = W.axis (W.steps + 2) := by rw [havg, waxis, wsteps]
    have wout : ∀ o, outputPoints o pts avg = W.outAxis o := by
      intro o
      unfold outputPoints Scenario.outAxis
      split <;> simp only [wpts, wavg]
    have wp3 : pval d3 = W.p := by
      rw [w5]
      funext n
      unfold pval
      rw [sv3, sv2]
    have wcount : d3.count = (W.steps + 1 : Nat) := by
      rw [wsteps, ← hcount, eq3]
    have wem : emis E d' = emis E d2 := by
      have := congrArg DiceInputs.emissions S.inputs
      exact this.trans em3
    refine ⟨L, ⟨S.lives, ?_, ?_, ?_, ?_, ?_, ?_, ?_, Nat.zero_le _, Nat.zero_le _, ?_, ?_, S.timestep, ?_, ?_, ?_,
      ?_, ?_, ?_, S.attrs, ?_, ?_, ?_, ?_, ?_, ?_, ?_, ?_⟩, ?_⟩
    · have hi3 : inputsOf E d3 = { W.toDiceInputs with emissions := emis E d3 } := by
        have t1 : tval d3 .start_time = W.start := by
          unfold tval; rw [gv3, gv2 _ _ R.startT, w1]
        have t2 : tval d3 .forcoth_saturation_time = W.sat := by
          unfold tval; rw [gv3, gv2 _ _ w6]
        have t3 : dval d3 .period_length = (W.ticks, W.tick) := by
          unfold dval; rw [gv3, gv2 _ _ R.period, w3.1, w3.2]
        have t4 : bval d3 .original_rounding = W.rounding := by
          unfold bval; rw [gv3, gv2 _ _ R.round, w4]
        unfold inputsOf
        rw [wp3, t1, t2, t3, t4]
      rw [S.inputs, hi3, em3, wem]
    · rw [wem]
      intro hne
      have hW' := hW.emissionsT
      rw [w4, ← wavg] at hW'
      cases hre : readEmissions E d1.inp rounding avg with
      | error e => rw [hre] at em2; exact absurd em2 hne
      | ok o =>
        rw [hre] at em2 hW'
        cases o with
        | arr a => exact em2.trans (hW' a rfl)
        | done => exact absurd em2 hne
        | view i => exact absurd em2 hne
        | num x => exact absurd em2 hne
        | gen g => exact absurd em2 hne
        | _ => exact absurd em2 hne
    · exact r3.same S.same
    · rw [S.initialized, eq3, R.eq]
      exact s2
    · have := S.coefs
      rwa [wp3] at this
    · have := S.start
      rwa [wp3] at this
    · intro j hj
      omega
    · intro o
      rw [S.length o, wcount]
      rfl
    · rw [S.count, wcount]; simp
    · rw [S.current, c3, w1]; simp
    · unfold Scenario.period; rw [w3.1, w3.2]; exact R.nonzero
    · unfold Scenario.period; rw [w1, w2, w3.1, w3.2]; exact hq
    · intro o
      obtain ⟨i, v, v1, v2, v3, v4, v5, v6, v7, v8, v9⟩ := R.reqs o
      have hov : d3.ov o = some i := by rw [hov3]; exact v1
      obtain ⟨v', x1, x2⟩ := S.frame.view o i v hov (by rw [ho3]; exact v2)
      have hst := congrArg Prod.fst x2
      simp only [TView.stat, TLeaf.stat, Prod.mk.injEq] at hst
      obtain ⟨y1, y2, y3⟩ := hst
      refine ⟨i, v', by rw [S.frame.ov]; exact hov, x1, ?_, by rw [y2]; exact v6, ?_, by rw [y3]; exact v8,
        by rw [y3]; exact v9⟩
      · rw [y1]
        exact (show HasKey d3.out _ _ by rw [ho3]; exact v3).mono S.frame.pext (.of_eq S.frame.regions)
      · rw [y3, v7, ← wout]; rfl
    · intro o
      obtain ⟨i, v, v1, v2, P, p1, _⟩ := hkeys o
      rw [S.stat o, OStat_of v1 v2 p1]
      exact ⟨_, _, _, rfl, rfl⟩
    · intro o ha
      have h2 := R.axes o (by rw [ho1, wout]; exact ha)
      rw [wout, ← ho3] at h2
      obtain ⟨i, v, v1, v2, v3, _⟩ := R.reqs o
      obtain ⟨P, p1, p2, _⟩ := (R.out.inv.good.tviews i v v2).ex
      exact h2.used S.lives.out.tree (p := v.leaf.param) (P := P) (by rw [ho3]; exact v3) (by rw [ho3]; exact p1)
        (by rw [p2]; simp) S.frame.pext (.of_eq S.frame.regions)
    · intro n
      rw [S.same.sval, sv3, sv2, w5]
      exact (read_scalar s1 r1 n).1
    · refine ⟨?_, ?_, ?_, ?_, ?_⟩
      · rw [S.same.gval, gv3, gv2 _ _ R.startT, w1]
      · rw [S.same.gval, gv3, gv2 _ _ R.stopT, w2]
      · rw [S.same.gval, gv3, gv2 _ _ w6]
      · rw [S.same.gval, gv3, gv2 _ _ R.period, w3.1, w3.2]
      · rw [S.same.gval, gv3, gv2 _ _ R.round, w4]
    · rw [hbeg]
    · rw [hbeg, ← ho3]; exact S.frame.pext
    · rw [hbeg, ← ho3]; exact S.frame.regions
    · intro o
      rw [hbeg]
      obtain ⟨i, v, v1, v2, v3, _⟩ := R.reqs o
      obtain ⟨P, p1, p2, _⟩ := (R.out.inv.good.tviews i v v2).ex
      obtain ⟨Q, u', t', q1, q2, q3, q4, q5, _⟩ := (R.out.inv.good.tviews i v v2).leaf.ex
      rw [p1] at q1; cases q1
      exact ⟨_, P, t', v3, p1, by rw [p2]; simp, q5⟩
    · intro a ha
      rw [prepared_eq a1', w4, ← wavg] at ha
      rw [wem]
      rw [ha] at em2
      exact em2
    · rw [hbeg]; exact wem
    · intro o j hj
      rw [S.rest o j hj, wcount]; rfl

end Openscm
