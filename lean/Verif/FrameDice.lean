import Verif.FrameLoad2
import Verif.CoreOpaque
import Verif.DiceProps3

/-!
# DICE with emissions from a frame (C100)

`OpenSCM("DICE", df.to_parameterset())`: what the model takes as emissions are the values of the frame, interpolated to
the periods of the model and converted to its unit.

The model of frames has metadata as generic values, that of DICE has times, periods and switches. Both are models of the
same parameter sets (`Core.lean` does not look at generic values, see `CoreOpaque.lean`), so a parameter set is handed
from one to the other by any map of generic values.
-/

set_option linter.unusedSectionVars false

namespace Openscm
variable {K : Type} [Field K] [LinearOrder K] [IsStrictOrderedRing K]

/-! ## Parameters nobody wrote to -/

theorem after_steps {G : Type} {env : Env K} : ∀ (ops : List (Op K G)) {s : St K G}, Inv env s →
    ∃ l, Steps env s l (after env s ops)
  | [], s, _ => ⟨[], .refl s⟩
  | op :: ops, s, hi => by
    obtain ⟨l, h⟩ := call_steps env op s hi.good.tyOK
    obtain ⟨l', h'⟩ := after_steps ops (h.inv hi)
    rw [after_cons]
    exact ⟨l ++ l', h.trans h'⟩

/-- C14: while the version of a parameter with a value stays the same, so does what anybody is shown of it. -/
theorem C14_same_version {G : Type} {env : Env K} {s : St K G} (hs : Reachable env s) {k : Key} {I J : Info}
    (hI : infoAt env s k = some I) (he : I.empty = false) (ops : List (Op K G))
    (hJ : infoAt env (after env s ops) k = some J) (hv : J.version = I.version) :
    J = I ∧ ∀ w tps ty int ext, freshRead env (after env s ops) k w tps ty int ext = freshRead env s k w tps ty int ext := by
  have hi := hs.inv
  have hi' := after_inv ops hi
  obtain ⟨p, P, hk, hp, rfl⟩ := (infoAt_some hi.tree).1 hI
  obtain ⟨p', P', hk', hp', rfl⟩ := (infoAt_some hi'.tree).1 hJ
  obtain rfl := hk'.inj hi'.tree (after_key hi ops hk)
  have hw : P.written = true := by simpa using he
  simp only at hv
  obtain ⟨l, hl⟩ := after_steps ops hi
  obtain ⟨Q, q1, q2, q3⟩ := hl.eff hi hp
  rw [hp'] at q1
  cases q1
  obtain ⟨Q, g1, g2⟩ := after_pext ops hi p' P hp
  rw [hp'] at g1
  cases g1
  have hgood := hi.good.params p' P hp
  have hpt : P.ptype ≠ none := by
    intro h
    have h2 := (hgood.1 hw).2
    have h3 := hgood.2
    rw [h] at h3
    rw [h3.1] at h2
    cases h2
  have hno : ∀ e ∈ l, e.1 ≠ p' := by
    have h0 : storesTo p' l = 0 := by omega
    unfold storesTo at h0
    rw [List.countP_eq_zero] at h0
    intro e he' h'
    exact h0 e he' (by simpa using h')
  have hdata := q3 hpt hno
  have hpt' : P'.ptype = P.ptype := by
    cases ht : P.ptype with
    | none => exact absurd ht hpt
    | some t => exact g2.ptype t ht
  have hw' : P'.written = true := g2.written hw
  have hc := hgood.1 hw
  refine ⟨by rw [hpt', g2.unit hpt, hw, hw', hv], fun w tps ty int ext => ?_⟩
  rw [freshRead_eq hi hk hp hpt hc.1, freshRead_eq hi' hk' hp' (by rw [hpt']; exact hpt) (by rw [g2.frozen hc.2, hc.1])]
  exact freshOf_congr hpt' (g2.unit hpt) (tps_kept g2 hgood (hi'.good.params p' P' hp') hdata) (by rw [hw', hw]) hdata
    _ _ _ _ _

/-! ## Handing over -/

theorem infoAt_mapG {G H : Type} (f : G → H) (env : Env K) (s : St K G) (k : Key) :
    infoAt env (s.mapG f) k = infoAt env s k := by
  have h := call_mapG (f := f) env (.info (.seq k.2) (.seq k.1)) s
  unfold infoAt result
  rw [show (Op.info (.seq k.2) (.seq k.1) : Op K H) = (Op.info (.seq k.2) (.seq k.1) : Op K G).mapG f from rfl, h]
  simp only
  cases (call env (Op.info (.seq k.2) (.seq k.1) : Op K G) s).1 with
  | error e => rfl
  | ok o => cases o <;> rfl

theorem freshRead_mapG {G H : Type} (f : G → H) (env : Env K) (s : St K G) (k : Key) (w : String) (tps : List K)
    (ty : TyArg) (int : IntArg) (ext : ExtArg) : freshRead env (s.mapG f) k w tps ty int ext =
      Except.map (Out.mapG f) (freshRead env s k w tps ty int ext) := by
  unfold freshRead result
  simp only
  have h := call_mapG (f := f) env (.timeseries (.seq k.2) w tps (.seq k.1) ty int ext) s
  rw [show (Op.timeseries (.seq k.2) w tps (.seq k.1) ty int ext : Op K H) =
    (Op.timeseries (.seq k.2) w tps (.seq k.1) ty int ext : Op K G).mapG f from rfl]
  have ha : after env (s.mapG f) [(Op.timeseries (.seq k.2) w tps (.seq k.1) ty int ext : Op K G).mapG f] =
      (after env s [Op.timeseries (.seq k.2) w tps (.seq k.1) ty int ext]).mapG f :=
    after_mapG env [Op.timeseries (.seq k.2) w tps (.seq k.1) ty int ext] s
  rw [ha, h]
  generalize (call env (Op.timeseries (.seq k.2) w tps (.seq k.1) ty int ext : Op K G) s).1 = r
  cases r with
  | error e => rfl
  | ok o =>
    cases o with
    | view j =>
      show (call env ((Op.tGet j : Op K G).mapG f) _).1 = _
      rw [call_mapG]
    | _ => rfl

theorem freshRead_mapG_floats {G H : Type} (f : G → H) (env : Env K) (s : St K G) (k : Key) (w : String) (tps : List K)
    (ty : TyArg) (int : IntArg) (ext : ExtArg) (l : List (Fl K)) :
    freshRead env (s.mapG f) k w tps ty int ext = .ok (.arr (.floats l)) ↔
      freshRead env s k w tps ty int ext = .ok (.arr (.floats l)) := by
  rw [freshRead_mapG]
  cases freshRead env s k w tps ty int ext with
  | error e => simp [Except.map]
  | ok o => cases o <;> simp [Except.map, Out.mapG]

/-- The adapter on a parameter set that has been filled before. -/
theorem handed_reach {E : DEnv K} {s : St K (PyVal K)} (hs : Reachable E.env s)
    (f : PyVal K → GVal) (r : String) : DReach E (Dice.new (s.mapG f) (St.init r)) := by
  obtain ⟨root, ops, rfl⟩ := hs
  refine ⟨root, r, (ops.map (Op.mapG f)).map .input, ?_⟩
  have : ∀ (l : List (Op K GVal)) (t : St K GVal),
      dafter E (Dice.new t (St.init r)) (l.map .input) = Dice.new (after E.env t l) (St.init r) := by
    intro l
    induction l with
    | nil => intro t; rfl
    | cons op l ih =>
      intro t
      rw [List.map_cons, dafter, after_cons]
      have h1 : (dcall E (.input op) (Dice.new t (St.init r))).2 = Dice.new (call E.env op t).2 (St.init r) := by
        show ((onInp E op >>= fun o => pure (DOut.out o)) (Dice.new t (St.init r))).2 = _
        unfold onInp
        cases hc : call E.env op t with
        | mk a b =>
          cases a <;> simp [bind, DM.bind, pure, DM.pure, Dice.new, hc]
      rw [h1, ih]
  rw [this, ← after_mapG]
  rfl

theorem dafter_calls {E : DEnv K} : ∀ (ops : List (DOp K)) (d : Dice K),
    ∃ iops, (dafter E d ops).inp = after E.env d.inp iops
  | [], _ => ⟨[], rfl⟩
  | op :: ops, d => by
    obtain ⟨l, h⟩ := dcall_inp (E := E) op d
    obtain ⟨l', h'⟩ := dafter_calls ops (dcall E op d).2
    refine ⟨l ++ l', ?_⟩
    rw [dafter, h', h, after_append]

theorem dafter_snoc {E : DEnv K} : ∀ (ops : List (DOp K)) (op : DOp K) (d : Dice K),
    dafter E d (ops ++ [op]) = (dcall E op (dafter E d ops)).2
  | [], _, _ => rfl
  | o :: ops, op, d => by
    rw [List.cons_append, dafter, dafter_snoc ops op, dafter]

/-! ## C100 -/

/-- The unit in which the model takes emissions. -/
def diceUnit (rounding : Bool) : String := if rounding then "GtCO2/a" else "GtC/a"

/-- Nobody assigned emissions since the frame was made into the parameter set. -/
def Untouched (E : DEnv K) (s : St K (PyVal K)) (d : Dice K) : Prop :=
  ∃ I J, infoAt E.env s (["World"], ["Emissions", "CO2"]) = some I ∧
    infoAt E.env d.inp (["World"], ["Emissions", "CO2"]) = some J ∧ J.version = I.version

/-- The beginnings of the periods of the model. -/
def Scenario.begins (W : Scenario K) : List Int := (List.range (W.steps + 1)).map fun i : Nat => W.start + i * W.period

theorem begins_axis {W : Scenario K} (h : 1 ≤ W.steps) :
    Axis W.begins .average (W.axis (W.steps + 2)) := by
  obtain ⟨n, hn⟩ : ∃ n, W.steps = n + 1 := ⟨W.steps - 1, by omega⟩
  have hone : OneMore W.begins ((List.range (W.steps + 2)).map fun i : Nat => W.start + i * W.period) := by
    refine ⟨(List.range n).map fun i : Nat => W.start + i * W.period, W.start + n * W.period,
      W.start + (n + 1 : Nat) * W.period, ?_, ?_⟩
    · unfold Scenario.begins
      rw [hn, List.range_succ, List.range_succ]
      simp
    · rw [hn, List.range_succ, List.range_succ, List.range_succ]
      simp
      ring
  have := Axis.average (K := K) hone
  rw [List.map_map] at this
  exact this

theorem written_row {E : DEnv K} {F : DFrame K} (hT : F.Tidy) {s : St K (PyVal K)}
    (hto : toParameterset E.env F (St.init "World") = (.ok (), s)) {i : Nat} {u : String} {old : List (Fl K)}
    (hrow : F.IsRow i "Emissions|CO2" "World" u old) {I : Info}
    (hI : infoAt E.env s (["World"], ["Emissions", "CO2"]) = some I) : I.empty = false := by
  obtain ⟨q, P, r, t, tps0, xs, hi, m1, hx, m2, m3, m4, m5, m6, m7, m8, m9, m10, m11, a0, ha0⟩ := loaded_param hT hto hrow
  rw [show (splitName "World", splitName "Emissions|CO2") = ((["World"], ["Emissions", "CO2"]) : Key) by decide] at m4
  rw [infoAt_of hi.tree m4 m5] at hI
  cases hI
  simp [m6]

/-- **C100**. Whatever the model and its user did with the parameter set made of a frame, as long as nobody assigned
emissions the model reads those of the frame: exactly what a view of the parameter set, as average and in the unit of
the model, shows of the row. -/
theorem C100_emissions {E : DEnv K} {F : DFrame K} (hT : F.Tidy) {s : St K (PyVal K)}
    (hto : toParameterset E.env F (St.init "World") = (.ok (), s)) {i : Nat} {u : String} {old : List (Fl K)}
    (hrow : F.IsRow i "Emissions|CO2" "World" u old) (f : PyVal K → GVal) (r : String) (ops : List (DOp K))
    (hu : Untouched E s (dafter E (Dice.new (s.mapG f) (St.init r)) ops)) (rounding : Bool) (tps : List K)
    (vals : List (Fl K)) :
    readEmissions E (dafter E (Dice.new (s.mapG f) (St.init r)) ops).inp rounding tps = .ok (.arr (.floats vals)) ↔
      Sees E.env s "Emissions|CO2" "World" (diceUnit rounding) tps (.str "average") (.enum .linear) (.enum .none) vals := by
  obtain ⟨I, J, hI, hJ, hv⟩ := hu
  have hs : Reachable E.env s :=
    (toParameterset_holds hT.sorted (fun d hd => nums_of (hT.nums d hd)) hT.distinct hto).1
  have hd := handed_reach hs f r
  obtain ⟨iops, hiops⟩ := dafter_calls (E := E) ops (Dice.new (s.mapG f) (St.init r))
  have hI' : infoAt E.env (Dice.new (s.mapG f) (St.init r)).inp (["World"], ["Emissions", "CO2"]) = some I := by
    show infoAt E.env (s.mapG f) _ = _
    rw [infoAt_mapG, hI]
  rw [hiops] at hJ
  obtain ⟨_, hsame⟩ := C14_same_version hd.inp hI' (written_row hT hto hrow hI) iops hJ hv
  unfold readEmissions
  rw [hiops, hsame]
  show freshRead E.env (s.mapG f) _ _ _ _ _ _ = _ ↔ _
  rw [freshRead_mapG_floats, sees_iff,
    show (splitName "World", splitName "Emissions|CO2") = ((["World"], ["Emissions", "CO2"]) : Key) by decide]
  rfl

/-- **C100**. A run of the model takes the emissions of the frame interpolated to the periods of the model, converted to
its unit. -/
theorem C100_interpolated {E : DEnv K} {views : Bool} {F G : DFrame K} (hT : F.Tidy)
    (hr : ∀ c ∈ requiredCols, c ∈ F.cols) {s : St K (PyVal K)}
    (hto : toParameterset E.env F (St.init "World") = (.ok (), s)) (f : PyVal K → GVal) (r : String) (ops : List (DOp K))
    (hu : Untouched E s (dafter E (Dice.new (s.mapG f) (St.init r)) ops)) {d' : Dice K} {W : Scenario K} {n : Nat}
    (hjour : Journey E (dafter E (Dice.new (s.mapG f) (St.init r)) ops) d' W n) (hsteps : 1 ≤ W.steps)
    (hG : F.interpolate E.env.units views W.begins .none = .ok G) (hviews : views = true ∨ "parameter_type" ∈ F.cols)
    {i : Nat} {u : String} {new : List (Fl K)} (hrow : G.IsRow i "Emissions|CO2" "World" u new)
    (hav : G.HasMeta i "parameter_type" (.str "average")) {a b : UDef K} (ha : E.env.units u = some a)
    (hb : E.env.units (diceUnit W.rounding) = some b) (hab : a.dim = b.dim) :
    W.emissions = new.map (Fl.map (pintTo a b)) := by
  obtain ⟨gok, gt, gl, gm, gd⟩ := C56_placed_partial hT.ok hr hG
  have hrowF : ∃ old, F.IsRow i "Emissions|CO2" "World" u old := by
    obtain ⟨n1, n2, n3, dn, n4, n5⟩ := hrow
    have hlen : i < F.data.length := by
      have := congrArg List.length gl
      simp only [List.length_map] at this
      rw [← this]
      exact (List.getElem?_eq_some_iff.1 n4).1
    exact ⟨_, (gm i _ _ (by decide)).1 n1, (gm i _ _ (by decide)).1 n2, (gm i _ _ (by decide)).1 n3, _,
      List.getElem?_eq_getElem hlen, rfl⟩
  obtain ⟨old, hrowF⟩ := hrowF
  obtain ⟨p, pts, hp, hax, _, hsee⟩ := C97_interpolated hT hr hto hG hviews hrow
  have hpa : p = .average := by
    have := HasMeta.unique gok hp hav
    rcases axis_kind hax with rfl | rfl
    · rfl
    · simp [typeText] at this
  subst hpa
  have hpts : pts = W.axis (W.steps + 2) := by
    have h2 := (axis_iff (.inl rfl)).1 hax
    have h3 := (axis_iff (.inl rfl)).1 (begins_axis hsteps)
    obtain ⟨m, e1, rfl⟩ := h2
    obtain ⟨m', e2, e3⟩ := h3
    rw [e1] at e2
    cases e2
    exact e3.symm
  have hs2 := hsee _ a b ha hb hab
  rw [hpts] at hs2
  -- the same by name
  have hs3 : Sees E.env s "Emissions|CO2" "World" (diceUnit W.rounding) (W.axis (W.steps + 2)) (.str "average")
      (.enum .linear) (.enum .none) (new.map (Fl.map (pintTo a b))) := by
    obtain ⟨k, p, src, xs, _, _, _, _, hiff⟩ := C97_loaded hT hto hrowF
    rw [hiff] at hs2 ⊢
    obtain ⟨⟨rfl, _⟩, h2, h3⟩ := hs2
    exact ⟨parse_type.1 (by decide +kernel), h2, h3⟩
  have hu' : Untouched E s (dafter E (Dice.new (s.mapG f) (St.init r)) (ops ++ [.initModelInput])) := by
    obtain ⟨I, J, hI, hJ, hv⟩ := hu
    have hs : Reachable E.env s :=
      (toParameterset_holds hT.sorted (fun d hd => nums_of (hT.nums d hd)) hT.distinct hto).1
    have hd := handed_reach hs f r
    obtain ⟨iops, hiops⟩ := dafter_calls (E := E) ops (Dice.new (s.mapG f) (St.init r))
    have hI' : infoAt E.env (Dice.new (s.mapG f) (St.init r)).inp (["World"], ["Emissions", "CO2"]) = some I := by
      show infoAt E.env (s.mapG f) _ = _
      rw [infoAt_mapG, hI]
    have hJ0 := hJ
    rw [hiops] at hJ0
    have hJI := (C14_same_version hd.inp hI' (written_row hT hto hrowF hI) iops hJ0 hv).1
    obtain ⟨⟨J', j1, _, j3⟩, _, _⟩ := C38_values_kept (op := .initModelInput) hjour.reach rfl hJ
      (by rw [hJI]; exact written_row hT hto hrowF hI)
    refine ⟨I, J', hI, ?_, j3.trans hv⟩
    rw [dafter_snoc]
    exact j1
  have hread := (C100_emissions hT hto hrowF f r (ops ++ [.initModelInput]) hu' W.rounding _ _).2 hs3
  rw [dafter_snoc] at hread
  have := hjour.given.emissionsT _ hread
  exact this.symm

/-- **C100**. And carbon is conserved from the frame to the pools: over `m` steps, as long as no pool is at its lower
bound, the total of the pools changes by what the first `m` values of the interpolated row emit. -/
theorem C100_carbon {E : DEnv K} {views : Bool} {F G : DFrame K} (hT : F.Tidy)
    (hr : ∀ c ∈ requiredCols, c ∈ F.cols) {s : St K (PyVal K)}
    (hto : toParameterset E.env F (St.init "World") = (.ok (), s)) (f : PyVal K → GVal) (r : String) (ops : List (DOp K))
    (hu : Untouched E s (dafter E (Dice.new (s.mapG f) (St.init r)) ops)) {d' : Dice K} {W : Scenario K} {n : Nat}
    (hjour : Journey E (dafter E (Dice.new (s.mapG f) (St.init r)) ops) d' W n) (hsteps : 1 ≤ W.steps)
    (hG : F.interpolate E.env.units views W.begins .none = .ok G) (hviews : views = true ∨ "parameter_type" ∈ F.cols)
    {i : Nat} {u : String} {new : List (Fl K)} (hrow : G.IsRow i "Emissions|CO2" "World" u new)
    (hav : G.HasMeta i "parameter_type" (.str "average")) {a b : UDef K} (ha : E.env.units u = some a)
    (hb : E.env.units (diceUnit W.rounding) = some b) (hab : a.dim = b.dim)
    {x : Nat → OName → K} {m : Nat} (hm : m ≤ n)
    (hx : ∀ j o, j ≤ m → (o = .mat ∨ o = .ml ∨ o = .mu) → Shows E d' W o j (x j o))
    (hfree : ∀ j o s, 1 ≤ j → j ≤ m → (o = .mat ∨ o = .ml ∨ o = .mu) → lowerBound o = some s →
      W.p s ≠ .num (x j o)) :
    ∃ es : List K, new.take m = es.map .num ∧ es.length = m ∧
      x m .mat + x m .ml + x m .mu =
        x 0 .mat + x 0 .ml + x 0 .mu + (es.map fun e => carbon W (pintTo a b e)).sum := by
  have hem := C100_interpolated hT hr hto f r ops hu hjour hsteps hG hviews hrow hav ha hb hab
  obtain ⟨es, e1, e2, e3⟩ := C40_total hjour hm hx hfree
  rw [hem, ← List.map_take] at e1
  have key : ∀ (l : List (Fl K)) (es : List K), l.map (Fl.map (pintTo a b)) = es.map .num →
      ∃ es' : List K, l = es'.map .num ∧ es = es'.map (pintTo a b) := by
    intro l
    induction l with
    | nil => intro es h; cases es with
      | nil => exact ⟨[], rfl, rfl⟩
      | cons _ _ => simp at h
    | cons y l ih =>
      intro es h
      cases es with
      | nil => simp at h
      | cons e es =>
        simp only [List.map_cons, List.cons.injEq] at h
        obtain ⟨es', h1, h2⟩ := ih es h.2
        cases y with
        | nan => simp [Fl.map] at h
        | num y =>
          refine ⟨y :: es', by rw [h1]; rfl, ?_⟩
          have := h.1
          simp only [Fl.map, Fl.num.injEq] at this
          rw [List.map_cons, this, h2]
  obtain ⟨es', h1, h2⟩ := key _ _ e1
  refine ⟨es', h1, by rw [← e2, h2, List.length_map], ?_⟩
  rw [e3, h2, List.map_map]
  rfl

/-! ## An example

Emissions every two years, in another unit than that of the model, which makes steps of one year. -/

def diceF : DFrame ℚ :=
  { times := [0, 2 * diceYear, 4 * diceYear, 6 * diceYear]
    cols := ["model", "scenario", "region", "variable", "unit", "climate_model", "parameter_type"]
    data := [(0, [.num 10, .num 14, .num 12, .num 8]), (1, [.num 5, .num 6, .num 8, .num 7])]
    «meta» := [(0, [.str "m", .str "s", .str "World", .str "Emissions|CO2", .str "GtC/a", .str "unspecified",
                 .str "average"]),
               (1, [.str "m", .str "s", .str "World", .str "Emissions|N2O", .str "GtC/a", .str "unspecified",
                 .str "average"])] }

theorem diceF_variable {i : Nat} {v : PyVal ℚ} (h : diceF.HasMeta i "variable" v) :
    i = 0 ∧ v = .str "Emissions|CO2" ∨ i = 1 ∧ v = .str "Emissions|N2O" := by
  obtain ⟨k, row, hk, hrow, hv⟩ := h
  have hk3 : k = 3 := by
    have hl := (List.getElem?_eq_some_iff.1 hk).1
    have hall : ∀ k < diceF.cols.length, diceF.cols[k]? = some "variable" → k = 3 := by decide +kernel
    exact hall k hl hk
  subst hk3
  match i, hrow with
  | 0, hrow => left; cases hrow; cases hv; exact ⟨rfl, rfl⟩
  | 1, hrow => right; cases hrow; cases hv; exact ⟨rfl, rfl⟩
  | i + 2, hrow => simp [diceF] at hrow

theorem diceF_tidy : diceF.Tidy := by
  have ok0 : diceF.Ok := ⟨by decide +kernel, by decide +kernel, by decide +kernel, by decide +kernel, by decide +kernel⟩
  refine ⟨ok0, by decide +kernel, by decide, by decide +kernel, ?_⟩
  intro i j v g h1 _ h2 _
  rcases diceF_variable h1 with ⟨rfl, rfl⟩ | ⟨rfl, rfl⟩ <;> rcases diceF_variable h2 with ⟨rfl, h⟩ | ⟨rfl, h⟩ <;>
    first | rfl | exact absurd h (by decide +kernel)

def diceFSt : St ℚ (PyVal ℚ) := (toParameterset diceEnv.env diceF (St.init "World")).2

theorem diceF_to : toParameterset diceEnv.env diceF (St.init "World") = (.ok (), diceFSt) := by
  have : (toParameterset diceEnv.env diceF (St.init "World")).1 = .ok () := by decide +kernel
  exact Prod.ext this rfl

/-- The user says when the run is to begin and to end. -/
def diceFOps : List (DOp ℚ) :=
  [.input (.generic (.str "Start Time") rootRegion), .input (.gSet 3 (.time 0)),
    .input (.generic (.str "Stop Time") rootRegion), .input (.gSet 4 (.time (diceYear * 3)))]

def diceF0 : Dice ℚ := dafter diceEnv (Dice.new (diceFSt.mapG fun _ => .other 0) (St.init "World")) diceFOps

/-- The three years of the run take the emissions of the frame, in GtCO2. -/
def diceFW : Scenario ℚ := { diceW with emissions := [.num 33, .num (121 / 3), .num (605 / 12), .num (209 / 4)] }

theorem diceFW_given : Given diceEnv (prepared diceEnv diceF0).inp diceFW := by
  have h1 : ∀ n ∈ allScalars, freshScalar diceEnv.env (prepared diceEnv diceF0).inp (scalarSpec n).1
      (scalarSpec n).2 = .ok (.num (diceFW.p n)) := by decide +kernel
  have h2 : readEmissions diceEnv (prepared diceEnv diceF0).inp diceFW.rounding (diceFW.axis (diceFW.steps + 2))
      = .ok (.arr (.floats diceFW.emissions)) := by decide +kernel
  refine ⟨fun n => h1 n (allScalars_all n), ?_, ?_, ?_, ?_, ?_, ?_⟩
  · decide +kernel
  · decide +kernel
  · decide +kernel
  · decide +kernel
  · decide +kernel
  · intro a ha
    rw [h2] at ha
    cases ha
    rfl

def diceF1 : Dice ℚ := (dcall diceEnv (.run noJunk) diceF0).2

theorem diceF_journey : Journey diceEnv diceF0 diceF1 diceFW 3 := by
  have hreach : DReach diceEnv diceF0 := by
    have h := handed_reach (E := diceEnv)
      (toParameterset_holds diceF_tidy.sorted (fun d hd => nums_of (diceF_tidy.nums d hd)) diceF_tidy.distinct
        diceF_to).1 (fun _ => .other 0) "World"
    obtain ⟨r1, r2, l, h⟩ := h
    refine ⟨r1, r2, l ++ diceFOps, ?_⟩
    rw [diceF0, h]
    clear h
    generalize Dice.new (St.init r1) (St.init r2) = d
    induction l generalizing d with
    | nil => rfl
    | cons o l ih => rw [List.cons_append, dafter, dafter, ih]
  have hrun : dcall diceEnv (.run noJunk) diceF0 = (.ok .done, diceF1) := by
    have : (dcall diceEnv (.run noJunk) diceF0).1 = .ok .done := by decide +kernel
    exact Prod.ext this rfl
  refine ⟨hreach, diceFW_given, .inr ⟨noJunk, hrun, (by decide +kernel : diceFW.steps = 3).symm⟩, fun o => ?_, by decide⟩
  refine OnAxis.of_unused (env := diceEnv.env) hreach.out.inv ?_ _
  have : infoAt diceEnv.env diceF0.out (outputKey o) = none := by cases o <;> decide +kernel
  intro I hI
  rw [show infoAt diceEnv.env diceF0.out (outputKey o) = some I from hI] at this
  cases this

theorem diceF_untouched : Untouched diceEnv diceFSt diceF0 := by
  have h : ((infoAt diceEnv.env diceFSt (["World"], ["Emissions", "CO2"])).bind fun I =>
      (infoAt diceEnv.env diceF0.inp (["World"], ["Emissions", "CO2"])).map fun J => decide (J.version = I.version)) =
        some true := by decide +kernel
  unfold Untouched
  generalize infoAt diceEnv.env diceFSt (["World"], ["Emissions", "CO2"]) = a at h ⊢
  generalize infoAt diceEnv.env diceF0.inp (["World"], ["Emissions", "CO2"]) = b at h ⊢
  cases a with
  | none => cases h
  | some I =>
    cases b with
    | none => cases h
    | some J => exact ⟨I, J, rfl, rfl, by simpa using h⟩

/-- The frame interpolated to the periods of the model. -/
def diceG : DFrame ℚ :=
  match diceF.interpolate diceEnv.env.units true diceFW.begins .none with
  | .ok G => G
  | .error _ => diceF

theorem diceG_eq : diceF.interpolate diceEnv.env.units true diceFW.begins .none = .ok diceG := by
  have h : (diceF.interpolate diceEnv.env.units true diceFW.begins .none).isOk = true := by decide +kernel
  unfold diceG
  cases hc : diceF.interpolate diceEnv.env.units true diceFW.begins .none with
  | ok G => rfl
  | error e => rw [hc] at h; cases h

theorem diceG_row : diceG.IsRow 0 "Emissions|CO2" "World" "GtC/a" [.num 9, .num 11, .num (55 / 4), .num (57 / 4)] := by
  have hc : diceG.cols = diceF.cols := by decide +kernel
  have hm : diceG.meta[0]? = diceF.meta[0]? := by decide +kernel
  have hd : diceG.data[0]? = some (0, [.num 9, .num 11, .num (55 / 4), .num (57 / 4)]) := by decide +kernel
  refine ⟨⟨3, diceF.meta[0], ?_, ?_, rfl⟩, ⟨2, diceF.meta[0], ?_, ?_, rfl⟩, ⟨4, diceF.meta[0], ?_, ?_, rfl⟩, _,
    hd, rfl⟩ <;> first | (rw [hc]; rfl) | (rw [hm]; rfl)

theorem diceG_average : diceG.HasMeta 0 "parameter_type" (.str "average") := by
  have hc : diceG.cols = diceF.cols := by decide +kernel
  have hm : diceG.meta[0]? = diceF.meta[0]? := by decide +kernel
  refine ⟨6, diceF.meta[0], ?_, ?_, rfl⟩ <;> first | (rw [hc]; rfl) | (rw [hm]; rfl)

/-- The pools at the beginning and after one step. -/
def diceFPools : ℕ → OName → ℚ
  | 0, .mat => 4152 / 5
  | 0, .ml => 10010
  | 0, .mu => 1527
  | 1, .mat => 191642346391 / 229125000
  | 1, .ml => 20020249423 / 2000000
  | 1, .mu => 1835840807 / 1200000
  | _, _ => 0

example : diceFW.emissions = ([9, 11, 55 / 4, 57 / 4] : List ℚ).map fun x => .num (x * (44 / 12)) := by
  have h := C100_interpolated diceF_tidy (by decide) diceF_to (fun _ => .other 0) "World" diceFOps diceF_untouched
    diceF_journey (by decide +kernel) diceG_eq (.inl rfl) diceG_row diceG_average rfl rfl (by decide +kernel)
  rw [h]
  decide +kernel

example : ∃ es : List ℚ, ([.num 9, .num 11, .num (55 / 4), .num (57 / 4)] : List (Fl ℚ)).take 1 = es.map .num ∧
    es.length = 1 ∧ diceFPools 1 .mat + diceFPools 1 .ml + diceFPools 1 .mu =
      diceFPools 0 .mat + diceFPools 0 .ml + diceFPools 0 .mu + (es.map fun e => carbon diceFW (pintTo
        ⟨[("carbon", 1), ("time", -1)], 1, 0, by norm_num⟩ ⟨[("carbon", 1), ("time", -1)], 12 / 44, 0, by norm_num⟩ e)).sum := by
  refine C100_carbon diceF_tidy (by decide) diceF_to (fun _ => .other 0) "World" diceFOps diceF_untouched
    diceF_journey (by decide +kernel) diceG_eq (.inl rfl) diceG_row diceG_average rfl rfl (by decide +kernel)
    (m := 1) (by omega) ?_ ?_
  · intro j o hj ho
    have : j = 0 ∨ j = 1 := by omega
    rcases this with rfl | rfl <;> rcases ho with rfl | rfl | rfl <;> exact shows_of (by decide +kernel)
  · intro j o s h1 hj ho hs
    have : j = 1 := by omega
    subst this
    rcases ho with rfl | rfl | rfl <;> cases hs <;> decide +kernel

end Openscm
