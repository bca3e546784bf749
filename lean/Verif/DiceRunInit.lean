import Verif.DiceSession
import Verif.FreshRead
import Verif.Axis

/-!
# The DICE adapter: initialising a run and resetting

Helper file: what `initialize_run_parameters`, `reset` and `reset_stepping` do when they succeed.
-/

set_option linter.unusedSectionVars false

namespace Openscm
variable {K : Type} [Field K] [LinearOrder K] [IsStrictOrderedRing K]

/-! ## Requests -/

/-- A successful timeseries request hands out a new view. -/
theorem timeseries_view {env : Env K} {s : St K GVal} (hi : Inv env s) {name region : HName} {w : String}
    {tps : List K} {ty : TyArg} {int : IntArg} {ext : ExtArg} {i : Nat} {s' : St K GVal}
    (h : call env (.timeseries name w tps region ty int ext) s = (.ok (.view i), s')) :
    ∃ v ty' ext', ty.parse = .ok ty' ∧ ext.parse = .ok ext' ∧ s'.tviews[i]? = some v ∧
      HasKey s' v.leaf.param (region.parts, name.parts) ∧ v.leaf.conv.target = w ∧
      v.leaf.ts.target = tps ∧ v.leaf.ts.ty = ty' ∧ v.leaf.ts.ext = ext' ∧ v.leaf.data = none ∧
      v.locked = false := by
  obtain ⟨p, v, ty', int', ext', h1, h2, h3, h4, h5, h6⟩ := timeseries_ok hi (by unfold result; rw [h])
  have hs' : (call env (.timeseries name w tps region ty int ext) s).2 = s' := by rw [h]
  rw [hs'] at h4 h5 h6
  have hi' : Inv env s' := by rw [← hs']; exact call_inv _ hi
  have hl : mkTLeaf env s' w tps ty' ext' p = .ok v.leaf ∧ v.locked = false := by
    unfold mkTView at h6
    split at h6
    · simp at h6
    · split at h6
      · simp at h6
      · rename_i l hl
        split at h6
        · injection h6 with h6; subst h6; exact ⟨hl, rfl⟩
        · split at h6
          · simp at h6
          · injection h6 with h6; subst h6; exact ⟨hl, rfl⟩
  obtain ⟨_, g1, g2, g3, g4, g5, g6, _⟩ := mkTLeaf_good (tyArg_parse h1) hi'.good.params hl.1
  exact ⟨v, ty', ext', h1, h3, h5, by rw [g1]; exact h4, g2, g3, g4, g5, g6, hl.2⟩

/-- The view of output `o` is new and was made for time points `pts` or `avg`. -/
def OReq (d : Dice K) (o : OName) (pts avg : List K) : Prop :=
  ∃ i v, d.ov o = some i ∧ d.out.tviews[i]? = some v ∧ HasKey d.out v.leaf.param (outputKey o) ∧
    v.leaf.data = none ∧ v.locked = false ∧ v.leaf.conv.target = outputUnit o ∧
    v.leaf.ts.target = (if o = .forc then avg else pts) ∧ v.leaf.ts.ty = outputType o ∧
    v.leaf.ts.ext = .none

theorem outputTy_parse (o : OName) : (TyArg.str (outputTypeName o)).parse = .ok (outputType o) := by
  have h1 : ("point" : String).toLower = "point" := by decide +kernel
  have h2 : ("average" : String).toLower = "average" := by decide +kernel
  have h3 : ("point" : String) ≠ "average" := by decide +kernel
  cases o <;> simp only [outputTypeName, outputType, TyArg.parse, h1, h2, h3, if_true, if_false]

/-- The time points of an output. -/
def outputPoints (o : OName) (pts avg : List K) : List K := if o = .forc then avg else pts

theorem requestOutput_spec {E : DEnv K} {d d' : Dice K} (hr : Reachable E.env d.out) {o : OName} {pts avg : List K}
    (hg : requestOutput E o pts avg d = (.ok (), d')) :
    Reachable E.env d'.out ∧ OReq d' o pts avg ∧ (∀ o', o' ≠ o → OReq d o' pts avg → OReq d' o' pts avg) ∧
      (∀ o', OnAxis d.out (outputKey o') (outputPoints o' pts avg) →
        OnAxis d'.out (outputKey o') (outputPoints o' pts avg)) ∧
      d' = { d with out := d'.out, ov := d'.ov } ∧
      d'.out = after E.env d.out [outputRequest o pts avg] := by
  have hi := hr.inv
  obtain ⟨r, d1, a1, g1⟩ := DM.bind_inv hg
  obtain ⟨i, d2, a2, g2⟩ := DM.bind_inv g1
  obtain ⟨e2, r2⟩ := DM.ofExcept_inv a2
  subst r2
  have := asView_inv e2
  subst this
  have g2 := DM.modify_inv g2
  rw [onOut_eq] at a1
  simp only [Prod.mk.injEq] at a1
  obtain ⟨c1, c2⟩ := a1
  have hreq : request (outputRequest o pts avg) = some (HName.seq (outputName o), rootRegion) := rfl
  have hgrow := request_grows E.env _ _ hreq d.out hi
  have hcall : call E.env (outputRequest o pts avg) d.out
      = (.ok (.view i), (call E.env (outputRequest o pts avg) d.out).2) := Prod.ext c1 rfl
  obtain ⟨v, ty', ext', v1, v2, v3, v4, v5, v6, v7, v8, v9, v10⟩ := timeseries_view hi hcall
  have hout : d'.out = (call E.env (outputRequest o pts avg) d.out).2 := by rw [g2, ← c2]
  have hov : d'.ov = Function.update d.ov o (some i) := by rw [g2, ← c2]
  refine ⟨by rw [hout, ← after_one]; exact hr.after _, ⟨i, v, by rw [hov, Function.update_self], by rw [hout]; exact v3,
    by rw [hout]; exact v4, v9, v10, v5, v6, ?_, ?_⟩, ?_, ?_,
    by rw [g2, ← c2], by rw [hout, after_one]⟩
  · rw [v7]
    exact (Except.ok.inj ((outputTy_parse o).symm.trans v1)).symm
  · rw [v8]
    exact (Except.ok.inj v2).symm
  · rintro o' hne ⟨j, w, w1, w2, w3, w4⟩
    refine ⟨j, w, by rw [hov, Function.update_of_ne hne]; exact w1, by rw [hout]; exact hgrow.tv j w w2, ?_, w4⟩
    rw [hout]
    exact w3.mono (call_pext _ hi) (call_rext _ hi)
  · intro o' ha
    rw [hout]
    have hask : asks (outputRequest o pts avg) = some (outputType o) := by
      simp only [outputRequest, asks, outputTy_parse]
      rfl
    refine ha.request hr hreq hask c1 (fun hkey => ?_)
    have := outputKey_inj (o := o') (o' := o) hkey
    subst this
    rfl

/-! ## Values of inputs in later states -/

theorem still_gval {env : Env K} {d d' : Dice K} (hi : Inv env d.inp) (hs : Still d.inp d'.inp)
    (hg : d'.gv = d.gv) (hv : ∀ (i : Nat) v, d.inp.gviews[i]? = some v → d'.inp.gviews[i]? = some v) (n : GName)
    {x : Option GVal} (hx : gval d n = .ok x) : gval d' n = .ok x := by
  unfold gval at hx ⊢
  rw [hg]
  cases h1 : d.gv n with
  | none => rw [h1] at hx; simp at hx
  | some i =>
    rw [h1] at hx
    simp only at hx ⊢
    cases h2 : d.inp.gviews[i]? with
    | none => rw [h2] at hx; simp at hx
    | some v =>
      rw [h2] at hx
      rw [hv i v h2]
      simp only at hx ⊢
      obtain ⟨P, p1, p2, _⟩ := hi.good.gviews i v h2
      obtain ⟨P', q1, q2, _, q4⟩ := hs.old _ P p1
      unfold genericValue at hx ⊢
      rw [p1] at hx
      rw [q1]
      simp only at hx ⊢
      rw [q2, q4 (by rw [p2]; simp)]
      exact hx

/-- Scalar inputs of an initialised adapter keep their values. -/
theorem safe_sval {E : DEnv K} {d d' : Dice K} (h : Sound E d) (hini : d.initialized = true)
    {ops : List (Op K GVal)} (ho : d'.inp = after E.env d.inp ops) (hs : Safe d.inp d'.inp)
    (hv : d'.sv = d.sv) (n : SName) : sval d' n = sval d n := by
  have hslot : ∃ e ∈ entries K, e.slot = .inl n ∧ e.default ≠ none := by
    have : ∀ n : SName, ∃ e ∈ scalarDefaults ++ standardScalars, e.1 = n := by
      intro n; cases n <;> decide +kernel
    obtain ⟨e, e1, e2⟩ := this n
    refine ⟨scalarEntry e, ?_, by simp [scalarEntry, e2], by simp [scalarEntry]⟩
    unfold entries
    rcases List.mem_append.1 e1 with hn | hn
    · simp only [List.mem_append]; exact .inl (.inl (.inl (List.mem_map_of_mem hn)))
    · simp only [List.mem_append]; exact .inl (.inr (List.mem_map_of_mem hn))
  obtain ⟨e, e1, e2, e3⟩ := hslot
  obtain ⟨r, r1, r2, r3, r4⟩ := h.ready hini e e1
  rw [e2] at r1
  simp only [Dice.slot, Option.map_eq_some_iff] at r1
  obtain ⟨i, i1, rfl⟩ := r1
  have hread := read_safe h.inp (by rw [← ho]; exact hs) r2 (r4 e3)
  rw [← ho] at hread
  obtain ⟨p, p1, _⟩ := r3
  simp only [viewTarget, Option.map_eq_some_iff] at p1
  obtain ⟨v, v1, _⟩ := p1
  obtain ⟨v', w1, _⟩ := after_sview h.inp ops v1
  rw [← ho] at w1
  have hread : result E.env d'.inp (.sGet i) = result E.env d.inp (.sGet i) := hread
  unfold result at hread
  rw [sGet_eq v1, sGet_eq w1] at hread
  unfold sval
  rw [hv, i1]
  simp only [v1, w1]
  simp only at hread
  cases hx : scalarValue d.inp v with
  | error e =>
    rw [hx] at hread
    cases hy : scalarValue d'.inp v' with
    | error e' => rw [hy] at hread; simpa [Except.map] using hread
    | ok y => rw [hy] at hread; simp [Except.map] at hread
  | ok x =>
    rw [hx] at hread
    cases hy : scalarValue d'.inp v' with
    | error e' => rw [hy] at hread; simp [Except.map] at hread
    | ok y => rw [hy] at hread; simpa [Except.map] using hread

/-! ## Initialising a run -/

/-- The request of the emissions. -/
def emissionRequest (rounding : Bool) (avg : List K) : Op K GVal :=
  .timeseries (.seq ["Emissions", "CO2"]) (if rounding then "GtCO2/a" else "GtC/a") avg rootRegion
    (.str "average") (.enum .linear) (.enum .none)

structure RunInit (E : DEnv K) (d d' : Dice K) (start stop k u : Int) (rounding : Bool) (pts avg : List K) :
    Prop where
  startT : gval d .start_time = .ok (some (.time start))
  stopT : gval d .stop_time = .ok (some (.time stop))
  period : gval d .period_length = .ok (some (.delta k u))
  round : gval d .original_rounding = .ok (some (.bool rounding))
  nonzero : k * u ≠ 0
  points : timePointsFor start (k * u) ((stop - start).tdiv (k * u) + 1) .point = .ok pts
  averages : timePointsFor start (k * u) ((stop - start).tdiv (k * u) + 1) .average = .ok avg
  count : d'.count = (stop - start).tdiv (k * u) + 1
  timestep : d'.timestep = 0
  e : ∃ i, d'.e = some i ∧ call E.env (emissionRequest rounding avg) d.inp = (.ok (.view i), d'.inp)
  eq : d' = { d with
    inp := d'.inp, out := d'.out, ov := d'.ov, e := d'.e, count := d'.count, timestep := 0 }
  outs : ∃ ops, d'.out = after E.env d.out ops ∧ ∀ op ∈ ops, assigns op = false
  out : Reachable E.env d'.out
  reqs : ∀ o, OReq d' o pts avg
  axes : ∀ o, OnAxis d.out (outputKey o) (outputPoints o pts avg) →
    OnAxis d'.out (outputKey o) (outputPoints o pts avg)

theorem initializeRun_spec {E : DEnv K} {d d' : Dice K} (ho : Reachable E.env d.out)
    (hg : initializeRun E d = (.ok (), d')) :
    ∃ start stop k u rounding pts avg, RunInit E d d' start stop k u rounding pts avg := by
  unfold initializeRun at hg
  obtain ⟨_, d0, a0, g0⟩ := DM.bind_inv hg
  have e0 := DM.modify_inv a0
  obtain ⟨stop, d1, a1, g1⟩ := DM.bind_inv g0
  obtain ⟨e1, r1⟩ := gtime_inv a1
  obtain ⟨start, d2, a2, g2⟩ := DM.bind_inv g1
  obtain ⟨e2, r2⟩ := gtime_inv a2
  obtain ⟨⟨k, u⟩, d3, a3, g3⟩ := DM.bind_inv g2
  obtain ⟨e3, r3⟩ := gdelta_inv a3
  simp only at g3
  by_cases hku : k * u = 0
  · rw [if_pos hku] at g3; exact (DM.throw_inv g3).elim
  rw [if_neg hku] at g3
  obtain ⟨_, d4, a4, g4⟩ := DM.bind_inv g3
  have e4 := DM.modify_inv a4
  obtain ⟨pts, d5, a5, g5⟩ := DM.bind_inv g4
  obtain ⟨e5, r5⟩ := DM.ofExcept_inv a5
  obtain ⟨avg, d6, a6, g6⟩ := DM.bind_inv g5
  obtain ⟨e6, r6⟩ := DM.ofExcept_inv a6
  obtain ⟨rounding, d7, a7, g7⟩ := DM.bind_inv g6
  obtain ⟨e7, r7⟩ := gbool_inv a7
  obtain ⟨r, d8, a8, g8⟩ := DM.bind_inv g7
  obtain ⟨i, d9, a9, g9⟩ := DM.bind_inv g8
  obtain ⟨e9, r9⟩ := DM.ofExcept_inv a9
  have := asView_inv e9
  subst this
  obtain ⟨c8, e8⟩ := onInp_ok a8
  obtain ⟨_, d10, a10, g10⟩ := DM.bind_inv g9
  have e10 := DM.modify_inv a10
  rw [r9] at e10
  rw [r7, r6, r5] at e8 c8
  rw [r2, r1] at e3
  rw [r1] at e2
  rw [r3, r2, r1] at e4
  rw [r6, r5] at e7
  rw [r9] at a9
  obtain ⟨_, d11, a11, g11⟩ := DM.bind_inv g10
  obtain ⟨_, d12, a12, g12⟩ := DM.bind_inv g11
  obtain ⟨_, d13, a13, g13⟩ := DM.bind_inv g12
  obtain ⟨_, d14, a14, g14⟩ := DM.bind_inv g13
  obtain ⟨_, d15, a15, g15⟩ := DM.bind_inv g14
  have ho10 : d10.out = d.out := by rw [e10, e8, e4, e0]
  obtain ⟨i1, q1, p1, b1, f1, x1⟩ := requestOutput_spec (by rw [ho10]; exact ho) a11
  obtain ⟨i2, q2, p2, b2, f2, x2⟩ := requestOutput_spec i1 a12
  obtain ⟨i3, q3, p3, b3, f3, x3⟩ := requestOutput_spec i2 a13
  obtain ⟨i4, q4, p4, b4, f4, x4⟩ := requestOutput_spec i3 a14
  obtain ⟨i5, q5, p5, b5, f5, x5⟩ := requestOutput_spec i4 a15
  obtain ⟨i6, q6, p6, b6, f6, x6⟩ := requestOutput_spec i5 g15
  have hfin : d' = { d10 with out := d'.out, ov := d'.ov } := by rw [f6, f5, f4, f3, f2, f1]
  have hgv : ∀ n, gval d0 n = gval d n := by intro n; rw [e0]; rfl
  refine ⟨start, stop, k, u, rounding, pts, avg, by rw [← hgv]; exact e2, by rw [← hgv]; exact e1,
    by rw [← hgv]; exact e3, ?_, hku, e5, e6, ?_, ?_, ⟨i, ?_, ?_⟩, ?_, ?_, i6, ?_, fun o ha => b6 o (b5 o (b4 o (b3 o (b2 o (b1 o (by rw [ho10]; exact ha))))))⟩
  · have : gval d4 .original_rounding = gval d .original_rounding := by rw [e4, e0]; rfl
    rw [← this]; exact e7
  · rw [hfin, e10, e8, e4]
  · rw [hfin, e10, e8, e4, e0]
  · rw [hfin, e10]
  · have h1 : d4.inp = d.inp := by rw [e4, e0]
    have h2 : d'.inp = d8.inp := by rw [hfin, e10]
    rw [h1] at c8
    rw [h2]
    exact c8
  · rw [hfin, e10, e8, e4, e0]
  · refine ⟨[outputRequest .mat pts avg, outputRequest .ml pts avg, outputRequest .mu pts avg,
      outputRequest .tatm pts avg, outputRequest .tocean pts avg, outputRequest .forc pts avg], ?_, ?_⟩
    · rw [x6, x5, x4, x3, x2, x1, ho10]; rfl
    · intro op hop
      simp only [List.mem_cons, List.not_mem_nil, or_false] at hop
      rcases hop with rfl | rfl | rfl | rfl | rfl | rfl <;> rfl
  · intro o
    cases o
    · exact p6 _ (by simp) (p5 _ (by simp) (p4 _ (by simp) (p3 _ (by simp) (p2 _ (by simp) q1))))
    · exact p6 _ (by simp) (p5 _ (by simp) (p4 _ (by simp) (p3 _ (by simp) q2)))
    · exact p6 _ (by simp) (p5 _ (by simp) (p4 _ (by simp) q3))
    · exact p6 _ (by simp) (p5 _ (by simp) q4)
    · exact p6 _ (by simp) q5
    · exact q6

end Openscm
