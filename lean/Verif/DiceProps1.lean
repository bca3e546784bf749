import Verif.DiceDemo
import Verif.FreshRead

/-!
# C38: the model input is initialised once and values of the user win

Adapters initialise the model input on the first call that needs it. Whatever a program does, no
call of the model changes a parameter that holds a value; once the initialisation succeeded, no
call of the model assigns anything to the input parameters; the documented defaults appear exactly
where there was no value.
-/

set_option linter.unusedSectionVars false

namespace Openscm
variable {K : Type} [Field K] [LinearOrder K] [IsStrictOrderedRing K]

/-! ## Specification -/

/-- The documented defaults of scalar inputs: name, unit and value. -/
def defaultScalars : List (List String × String × ℚ) :=
  [(["DICE", "mat0"], "GtC", 830.4), (["DICE", "mateq"], "GtC", 588), (["DICE", "mat_lower"], "GtC", 10),
    (["DICE", "ml0"], "GtC", 10010), (["DICE", "mleq"], "GtC", 10000), (["DICE", "ml_lower"], "GtC", 1000),
    (["DICE", "mu0"], "GtC", 1527), (["DICE", "mueq"], "GtC", 1350), (["DICE", "mu_lower"], "GtC", 100),
    (["DICE", "tatm0"], "delta_degC", 0.8), (["DICE", "tatm_upper"], "delta_degC", 40),
    (["DICE", "tocean0"], "delta_degC", 0.0068), (["DICE", "tocean_lower"], "delta_degC", -1),
    (["DICE", "tocean_upper"], "delta_degC", 20), (["DICE", "b12"], "", 0.0181),
    (["DICE", "b23"], "", 0.00071), (["DICE", "c1"], "delta_degC*m^2/W", 0.0222),
    (["DICE", "c3"], "W/m^2/delta_degC", 0.09175), (["DICE", "c4"], "", 0.00487),
    (["DICE", "fex0"], "W/m^2", 0.25), (["DICE", "fex1"], "W/m^2", 0.7),
    (["Radiative Forcing Sensitivity"], "W/m^2", 3.8),
    (["Equilibrium Climate Sensitivity"], "delta_degC", 2.9)]

/-- The documented defaults of generic inputs: 365 days, `True`, 2100-01-01T00:00:00 (seconds since
1970). -/
def defaultGenerics : List (List String × GVal) :=
  [(["DICE", "period_length"], .delta 365 86400), (["DICE", "original_rounding"], .bool true),
    (["DICE", "forcoth_saturation_time"], .time 4102444800)]

/-- Calls that run the model. -/
def DOp.runs : DOp K → Bool
  | .run _ => true
  | .step => true
  | .adapterRun => true
  | .reset _ => true
  | .resetStepping _ => true
  | _ => false

/-- Calls that initialise the model input. -/
def DOp.inits : DOp K → Bool
  | .run _ => true
  | .resetStepping _ => true
  | .initModelInput => true
  | .initRunParameters => true
  | _ => false

/-! ## Lemmas -/

theorem viewOf_read {env : Env K} {s : St K GVal} (hi : Inv env s) {r r' : VRef} {k : Key} {u : Option String}
    (h : ViewOf s r k u) (h' : ViewOf s r' k u) (hf : Filled s r)
    (hsame : (∃ i j, r = .s i ∧ r' = .s j) ∨ (∃ i j, r = .g i ∧ r' = .g j)) :
    result env s (readOp r') = result env s (readOp r) := by
  obtain ⟨p, h1, h2⟩ := h
  obtain ⟨p', h1', h2'⟩ := h'
  obtain rfl := h2.inj hi.tree h2'
  obtain ⟨q, w, P, f1, f2, f3⟩ := hf
  rw [h1] at f1; cases f1
  have hc := ((hi.good.params p P f2).1 f3).1
  rcases hsame with ⟨i, j, rfl, rfl⟩ | ⟨i, j, rfl, rfl⟩
  · simp only [viewTarget, Option.map_eq_some_iff] at h1 h1'
    obtain ⟨v, v1, v2⟩ := h1
    obtain ⟨v', w1, w2⟩ := h1'
    simp only [Prod.mk.injEq] at v2 w2
    obtain ⟨Q, x, q1, _, _, q4, q5, _⟩ := (hi.good.sviews i v v1).ex
    obtain ⟨Q', x', q1', _, _, q4', q5', _⟩ := (hi.good.sviews j v' w1).ex
    rw [v2.1] at q1; rw [w2.1] at q1'
    rw [f2] at q1 q1'; cases q1; cases q1'
    rw [q4] at q4'; cases q4'
    have ht : v.conv.target = v'.conv.target := by
      have := v2.2.trans w2.2.symm
      simpa using this
    rw [ht] at q5
    rw [q5] at q5'
    have hconv : v.conv = v'.conv := by simpa using q5'
    show result _ _ (.sGet j) = result _ _ (.sGet i)
    unfold result
    rw [sGet_eq v1, sGet_eq w1]
    simp only
    congr 1
    unfold scalarValue
    rw [v2.1, w2.1, hconv]
    simp only [f2, hc, ne_eq, not_true_eq_false, if_false]
  · simp only [viewTarget, Option.map_eq_some_iff] at h1 h1'
    obtain ⟨v, v1, v2⟩ := h1
    obtain ⟨v', w1, w2⟩ := h1'
    simp only [Prod.mk.injEq] at v2 w2
    show result _ _ (.gGet j) = result _ _ (.gGet i)
    unfold result
    rw [gGet_eq v1, gGet_eq w1]
    simp only
    congr 1
    unfold genericValue
    rw [v2.1, w2.1]

/-- Calls of the model, as calls on the input parameters. -/
theorem dcall_inp {E : DEnv K} (op : DOp K) (d : Dice K) :
    ∃ ops, (dcall E op d).2.inp = after E.env d.inp ops := by
  obtain ⟨a, _, _, _, h, _⟩ := calls_dcall E op d
  exact ⟨a, h⟩

theorem sound_reach {E : DEnv K} {d : Dice K} (h : DReach E d) (op : DOp K) : Sound E (dcall E op d).2 :=
  sound_dcall op d h.sound

theorem dm_assoc {α β γ : Type} (m : DM K α) (f : α → DM K β) (g : β → DM K γ) :
    ((m >>= f) >>= g) = (m >>= fun a => f a >>= g) := by
  funext d
  cases hm : m d with
  | mk r d1 =>
    cases r with
    | error e => rw [DM.bind_error hm, DM.bind_error (DM.bind_error hm)]
    | ok a =>
      rw [DM.bind_ok hm]
      cases hf : f a d1 with
      | mk r2 d2 =>
        have h2 : (m >>= f) d = (r2, d2) := by rw [DM.bind_ok hm, hf]
        cases r2 with
        | error e => rw [DM.bind_error hf, DM.bind_error h2]
        | ok b => rw [DM.bind_ok hf, DM.bind_ok h2]

/-! ## Values of the user win -/

/-- C38: no call of the model, whether it succeeds or fails, changes a parameter that holds a value:
it still holds a value, no assignment was counted, and everything anybody reads from it is the same
as before, through existing scalar or generic views and through new timeseries views. -/
theorem C38_values_kept {E : DEnv K} {d : Dice K} (h : DReach E d) {op : DOp K} (hm : op.model = true)
    {k : Key} {I : Info} (hI : infoAt E.env d.inp k = some I) (he : I.empty = false) :
    (∃ J, infoAt E.env (dcall E op d).2.inp k = some J ∧ J.empty = false ∧ J.version = I.version) ∧
    (∀ r, (∀ i, r ≠ .t i) → viewKey E.env d.inp r = some k →
      result E.env (dcall E op d).2.inp (readOp r) = result E.env d.inp (readOp r)) ∧
    (∀ w tps ty int ext, freshRead E.env (dcall E op d).2.inp k w tps ty int ext
      = freshRead E.env d.inp k w tps ty int ext) := by
  have hi := h.inp.inv
  obtain ⟨p, P, hk, hp, rfl⟩ := (infoAt_some hi.tree).1 hI
  have hw : P.written = true := by simpa using he
  obtain ⟨hi', hs⟩ := keeps_dcall E hm d hi
  obtain ⟨ops, hops⟩ := dcall_inp (E := E) op d
  obtain ⟨P', q1, q2, q3, q4⟩ := hs p P hp hw
  have hk' : HasKey (dcall E op d).2.inp p k := by rw [hops]; exact after_key hi ops hk
  refine ⟨⟨_, infoAt_of hi'.tree hk' q1, by simp [q2], q3⟩, fun r hr hv => ?_, fun w tps ty int ext => ?_⟩
  · obtain ⟨q, u, t1, t2⟩ := (viewKey_some hi).1 hv
    obtain rfl := t2.inj hi.tree hk
    rw [hops]
    exact read_safe hi (by rw [← hops]; exact hs) hr ⟨q, u, P, t1, hp, hw⟩
  · obtain ⟨P'', g1, g2⟩ := after_pext ops hi p P hp
    rw [← hops, q1] at g1; cases g1
    have hc := (hi.good.params p P hp).1 hw
    have hpt := written_type hi hp hw
    have hpt' : P'.ptype = P.ptype := by
      cases ht : P.ptype with
      | none => exact absurd ht hpt
      | some t => exact g2.ptype t ht
    rw [freshRead_eq hi hk hp hpt hc.1, freshRead_eq hi' hk' q1 (by rw [hpt']; exact hpt)
      (by rw [g2.frozen hc.2, hc.1])]
    exact freshOf_congr hpt' (g2.unit hpt) (tps_kept g2 (hi.good.params p P hp) (hi'.good.params p P' q1) q4) (by rw [q2, hw]) q4 _ _ _ _ _

/-- The user sets `mat0` before anything else; running does not change it, while other inputs that
were left alone get values. -/
example :
    let ops := diceInputs 3 10 ++ [.input (.scalar (.str "DICE|mat0") "GtC" rootRegion),
      .input (.sSet 0 (.num 900))]
    infoAt diceEnv.env (diceSt ops).inp (["World"], ["DICE", "mat0"])
      = some ⟨["DICE", "mat0"], ["World"], some .scalar, some "GtC", false, 1⟩ ∧
    viewKey diceEnv.env (diceSt ops).inp (.s 0) = some (["World"], ["DICE", "mat0"]) ∧
    result diceEnv.env (dcall diceEnv (.run noJunk) (diceSt ops)).2.inp (.sGet 0) = .ok (.num (.num 900)) ∧
    (dcall diceEnv (.run noJunk) (diceSt ops)).2.initialized = true := by
  decide +kernel

/-! ## At most once -/

/-- A call that initialises and succeeds has initialised. -/
theorem inits_ok {E : DEnv K} {d : Dice K} (h : Sound E d) {op : DOp K} (hop : op.inits = true) {o : DOut K}
    (ho : (dcall E op d).1 = .ok o) : (dcall E op d).2.initialized = true := by
  have first : ∀ {α β : Type} {m : DM K α} {f : α → DM K β},
      (∀ x, (m d).1 = .ok x → (m d).2.initialized = true) →
      (∀ a (d : Dice K), d.initialized = true → (f a d).2.initialized = true) →
      ∀ x, ((m >>= f) d).1 = .ok x → ((m >>= f) d).2.initialized = true := by
    intro α β m f hm hf x hx
    cases hd : m d with
    | mk r d1 =>
      rw [hd] at hm
      cases r with
      | error e => rw [DM.bind_error hd] at hx; simp at hx
      | ok u => rw [DM.bind_ok hd]; exact hf u d1 (hm u rfl)
  have keep : ∀ {α β : Type} {m : DM K α} {f : α → DM K β},
      (∀ d : Dice K, d.initialized = true → (m d).2.initialized = true) →
      (∀ a (d : Dice K), d.initialized = true → (f a d).2.initialized = true) →
      ∀ d : Dice K, d.initialized = true → ((m >>= f) d).2.initialized = true := by
    intro α β m f hm hf d hd
    cases hc : m d with
    | mk r d1 =>
      have h1 := hm d hd
      rw [hc] at h1
      cases r with
      | error e => rw [DM.bind_error hc]; exact h1
      | ok u => rw [DM.bind_ok hc]; exact hf u d1 h1
  have hens : ∀ x, (ensureInitialized E d).1 = .ok x → (ensureInitialized E d).2.initialized = true :=
    fun x hx => (good_ensure h).2 hx
  have kens : ∀ d : Dice K, d.initialized = true → (ensureInitialized E d).2.initialized = true := by
    intro d hd; rw [ensure_initialized hd]; exact hd
  have kfix : ∀ {α : Type} {m : DM K α} {b : Bool}, Fixed b m →
      ∀ d : Dice K, d.initialized = true → (m d).2.initialized = true := by
    intro α m b hm d hd; rw [(hm d).2.2.1]; exact hd
  have hp : ∀ {α : Type} (x : α) (d : Dice K), d.initialized = true →
      ((Pure.pure x : DM K α) d).2.initialized = true := fun _ _ h => h
  have krun := keep kens (f := fun _ => initializeRun E) (fun _ => kfix fixed_initializeRun)
  have freset : ∀ j x, (resetStepping E j d).1 = .ok x → (resetStepping E j d).2.initialized = true :=
    fun j => first hens (fun _ => keep krun fun _ => kfix (fixed_adapterReset (b := true) j))
  cases op with
  | initModelInput => exact first hens (fun _ => hp _) o ho
  | initRunParameters => exact first (first hens (fun _ => kfix fixed_initializeRun)) (fun _ => hp _) o ho
  | resetStepping j => exact first (freset j) (fun _ => hp _) o ho
  | run j => exact first (first (freset j) (fun _ => kfix (fixed_diceRun (b := true)))) (fun _ => hp _) o ho
  | _ => simp [DOp.inits] at hop

theorem initialized_dafter {E : DEnv K} : ∀ (ops : List (DOp K)) {d : Dice K}, d.initialized = true →
    (dafter E d ops).initialized = true
  | [], _, h => h
  | op :: ops, d, h => initialized_dafter ops (initialized_dcall op d h)

theorem DReach.dafter {E : DEnv K} {d : Dice K} (h : DReach E d) (ops : List (DOp K)) :
    DReach E (dafter E d ops) := by
  obtain ⟨r, r', ops', rfl⟩ := h
  refine ⟨r, r', ops' ++ ops, ?_⟩
  generalize Dice.new (St.init r) (St.init r') = d
  induction ops' generalizing d with
  | nil => rfl
  | cons a l ih => exact ih _

/-- C38: once a call that initialises the model has succeeded, no call of the model in any later
state, whatever the program did in between, assigns anything to an input parameter: all parameters
count the assignments they counted before and hold a value or not as before. -/
theorem C38_initialised_once {E : DEnv K} {d : Dice K} (h : DReach E d) {op : DOp K} (hop : op.inits = true)
    {o : DOut K} (ho : (dcall E op d).1 = .ok o) (ops : List (DOp K)) {op' : DOp K} (hm : op'.model = true) :
    let s := dafter E (dcall E op d).2 ops
    let s' := (dcall E op' s).2
    ∀ k J, infoAt E.env s'.inp k = some J →
      (∃ I, infoAt E.env s.inp k = some I ∧ J.empty = I.empty ∧ J.version = I.version) ∨
      (infoAt E.env s.inp k = none ∧ J.empty = true ∧ J.version = 0) := by
  intro s s' k J hJ
  have hr : DReach E s := DReach.dafter (h.dafter [op]) ops
  have hini : s.initialized = true := initialized_dafter ops (inits_ok h.sound hop ho)
  have hi := hr.sound.inp
  have hst : Still s.inp s'.inp := still_dcall hm hi hini
  obtain ⟨calls, hcalls⟩ := dcall_inp (E := E) op' s
  have hi' : Inv E.env s'.inp := (sound_reach hr op').inp
  obtain ⟨p, P', hk', hp', rfl⟩ := (infoAt_some hi'.tree).1 hJ
  cases hp : s.inp.params[p]? with
  | some P =>
    obtain ⟨k0, hk0⟩ := HasKey.exists hi.tree hp
    have := after_key hi calls hk0
    rw [← hcalls] at this
    obtain rfl := this.det hk'
    obtain ⟨P'', q1, q2, q3, _⟩ := hst.old p P hp
    have hp' : s'.inp.params[p]? = some P' := hp'
    rw [hp'] at q1; cases q1
    exact .inl ⟨_, infoAt_of hi.tree hk0 hp, by simp [q2], q3⟩
  | none =>
    obtain ⟨n1, n2⟩ := hst.new p P' hp' hp
    refine .inr ⟨?_, by simp [n1], n2⟩
    rw [infoAt_none hi.tree]
    rintro ⟨q, hq⟩
    have h1 := after_key hi calls hq
    rw [← hcalls] at h1
    obtain rfl := h1.inj hi'.tree hk'
    obtain ⟨Q, hQ, _⟩ := hq
    rw [hp] at hQ; simp at hQ

/-- A first run initialises; the user then overwrites a default; two more runs do not touch it. -/
example :
    let ops := diceInputs 3 10 ++ [.run noJunk]
    let later : List (DOp ℚ) := [.input (.scalar (.str "DICE|mat0") "GtC" rootRegion),
      .input (.sSet 23 (.num 900)), .run noJunk]
    isDone (dcall diceEnv (.run noJunk) (diceSt (diceInputs 3 10))).1 = true ∧
    isDone (dcall diceEnv (.run noJunk) (dafter diceEnv (diceSt ops) later)).1 = true ∧
    infoAt diceEnv.env (dcall diceEnv (.run noJunk) (dafter diceEnv (diceSt ops) later)).2.inp
        (["World"], ["DICE", "mat0"])
      = some ⟨["DICE", "mat0"], ["World"], some .scalar, some "GtC", false, 2⟩ ∧
    infoAt diceEnv.env (dcall diceEnv (.run noJunk) (dafter diceEnv (diceSt ops) later)).2.inp
        (["World"], ["DICE", "mateq"])
      = some ⟨["DICE", "mateq"], ["World"], some .scalar, some "GtC", false, 1⟩ := by
  decide +kernel

/-! ## Defaults -/

/-- What somebody sees who asks for a scalar view of `name` in the root region now and reads it. -/
def freshScalar (env : Env K) (s : St K GVal) (name : List String) (unit : String) : Res K GVal :=
  match result env s (.scalar (.seq name) unit rootRegion) with
  | .ok (.view j) => result env (after env s [.scalar (.seq name) unit rootRegion]) (.sGet j)
  | r => r

/-- What somebody sees who asks for a generic view of `name` in the root region now and reads it. -/
def freshGeneric (env : Env K) (s : St K GVal) (name : List String) : Res K GVal :=
  match result env s (.generic (.seq name) rootRegion) with
  | .ok (.view j) => result env (after env s [.generic (.seq name) rootRegion]) (.gGet j)
  | r => r

theorem freshScalar_view {env : Env K} {s : St K GVal} (hi : Inv env s) {name : List String} {unit : String}
    {i : Nat} (h : ViewOf s (.s i) (["World"], name) (some unit)) (hf : Filled s (.s i)) :
    freshScalar env s name unit = result env s (.sGet i) := by
  obtain ⟨p, h1, h2⟩ := h
  obtain ⟨q, w, P, f1, f2, f3⟩ := hf
  rw [h1] at f1; cases f1
  have hc := ((hi.good.params p P f2).1 f3).1
  simp only [viewTarget, Option.map_eq_some_iff] at h1
  obtain ⟨v, v1, v2⟩ := h1
  simp only [Prod.mk.injEq, Option.some.injEq] at v2
  obtain ⟨Q, x, q1, q2, q3, q4, q5, _⟩ := (hi.good.sviews i v v1).ex
  rw [v2.1, f2] at q1; cases q1
  rw [v2.2] at q5
  have hr : reach (.seq name) rootRegion s = (.ok p, s) := reach_existing (ns := []) hi.tree h2 (by simp [HName.parts])
  have ha : attemptRead p .scalar (some unit) (none : Option (List K)) s = (.ok (), s) := by
    unfold attemptRead
    rw [f2]
    simp only [q2, ne_eq, not_true_eq_false, if_false]
    rw [setParam_id f2 (by cases P; simp_all)]
  have hm : mkSView env s p unit = .ok { param := p, conv := v.conv, writable := false, kids := none } := by
    unfold mkSView
    rw [f2]
    simp only [q4, mkConvOpt, q5, hc, if_true]
  have hcall : call env (.scalar (.seq name) unit rootRegion) s = (.ok (.view s.sviews.length),
      { s with sviews := s.sviews ++ [{ param := p, conv := v.conv, writable := false, kids := none }] }) := by
    show (scalarCall env (.seq name) unit rootRegion >>= fun i => pure (Out.view i : Out K GVal)) s = _
    unfold scalarCall
    have : (reach (.seq name) rootRegion >>= fun p => attemptRead p .scalar (some unit) none >>= fun _ =>
        M.value (fun s => mkSView env s p unit) >>= addSView) s = (.ok s.sviews.length,
          { s with sviews := s.sviews ++ [{ param := p, conv := v.conv, writable := false, kids := none }] }) := by
      rw [M.bind_ok hr, M.bind_ok ha, M.bind_apply, M.value_apply, hm]; rfl
    rw [M.bind_ok this]; rfl
  unfold freshScalar
  simp only [result, after_one]
  rw [hcall]
  simp only
  rw [sGet_eq v1, sGet_eq (v := { param := p, conv := v.conv, writable := false, kids := none }) (by simp)]
  simp only
  congr 1
  unfold scalarValue
  rw [v2.1]
  simp only [f2, hc, ne_eq, not_true_eq_false, if_false]
  rfl

theorem freshGeneric_view {env : Env K} {s : St K GVal} (hi : Inv env s) {name : List String} {u : Option String}
    {i : Nat} (h : ViewOf s (.g i) (["World"], name) u) (hf : Filled s (.g i)) :
    freshGeneric env s name = result env s (.gGet i) := by
  obtain ⟨p, h1, h2⟩ := h
  obtain ⟨q, w, P, f1, f2, f3⟩ := hf
  rw [h1] at f1; cases f1
  simp only [viewTarget, Option.map_eq_some_iff] at h1
  obtain ⟨v, v1, v2⟩ := h1
  simp only [Prod.mk.injEq] at v2
  obtain ⟨Q, q1, q2, _⟩ := hi.good.gviews i v v1
  rw [v2.1, f2] at q1; cases q1
  have hcall := generic_again (env := env) hi (name := .seq name) (region := rootRegion) h2 f2 q2
    ((hi.good.params p P f2).1 f3).2
  unfold freshGeneric
  simp only [result, after_one]
  rw [hcall]
  simp only
  rw [gGet_eq v1, gGet_eq (v := { param := p, writable := false }) (by simp)]
  simp only
  congr 1
  unfold genericValue
  rw [v2.1]

/-- The call that initialises: the defaults are set first, then nothing more is assigned. -/
theorem init_call {E : DEnv K} {d : Dice K} (hs : Sound E d) (h0 : d.initialized = false) (op : DOp K)
    (h1 : (dcall E op d).2.initialized = true) :
    ∃ d1 calls, initializeModel E d = (.ok (), d1) ∧ (dcall E op d).2.inp = after E.env d1.inp calls ∧
      Safe d1.inp (dcall E op d).2.inp := by
  have fixed : ∀ {α : Type} {m : DM K α} {b : Bool}, Fixed b m → (m d).2.initialized = true → False := by
    intro α m b hm h; rw [(hm d).2.2.1, h0] at h; simp at h
  have first : ∀ {β : Type} {f : Unit → DM K β}, KeepsIn E (f ()) → Calls E AnyOp AnyOp (f ()) →
      ((ensureInitialized E >>= f) d).2.initialized = true →
      ∃ d1 calls, initializeModel E d = (.ok (), d1) ∧
        ((ensureInitialized E >>= f) d).2.inp = after E.env d1.inp calls ∧
        Safe d1.inp ((ensureInitialized E >>= f) d).2.inp := by
    intro β f hk hc h
    have he : ensureInitialized E d = (initializeModel E >>= fun _ =>
        DM.modify (fun d => { d with initialized := true })) d := by
      unfold ensureInitialized
      rw [DM.bind_ok (by rfl : DM.gets (·.initialized) d = (.ok d.initialized, d)), h0]; rfl
    cases hm : initializeModel E d with
    | mk r d1 =>
      cases r with
      | error e =>
        have : ensureInitialized E d = (.error e, d1) := by rw [he, DM.bind_error hm]
        rw [DM.bind_error this] at h
        have h2 := (flag_initializeModel E d).1
        rw [hm, h0] at h2
        simp only at h h2
        rw [h2] at h; simp at h
      | ok u =>
        have e2 : ensureInitialized E d = (.ok (), { d1 with initialized := true }) := by
          rw [he, DM.bind_ok hm]; rfl
        rw [DM.bind_ok e2]
        obtain ⟨a, _, _, _, c1, _⟩ := hc { d1 with initialized := true }
        have hi1 : Inv E.env d1.inp := by
          have := (keeps_initializeModel E d hs.inp).1
          rw [hm] at this; exact this
        exact ⟨d1, a, rfl, c1, (hk { d1 with initialized := true } hi1).2⟩
  have w : ∀ {α : Type} {m : DM K α}, Calls E Reads AnyOp m → Calls E AnyOp AnyOp m :=
    fun h => h.mono (fun _ _ => trivial) fun _ h => h
  have kp : ∀ {α : Type} (x : α), KeepsIn E (Pure.pure x : DM K α) := fun _ => .quiet fun _ => rfl
  have cp : ∀ {α : Type} (x : α), Calls E AnyOp AnyOp (Pure.pure x : DM K α) := fun _ => .pure _
  have kr : KeepsIn E (initializeRunParameters E) :=
    (keeps_ensureInitialized E).bind fun _ => (calls_initializeRun E).keepsIn
  have cr : Calls E AnyOp AnyOp (initializeRunParameters E) :=
    (calls_ensureInitialized E).bind fun _ => w (calls_initializeRun E)
  cases op with
  | input op => exact (fixed ((Fixed.onInp (b := true) op).bind fun _ => .pure _) h1).elim
  | output op => exact (fixed ((Fixed.onOut (b := true) op).bind fun _ => .pure _) h1).elim
  | step => exact (fixed ((fixed_adapterStep (b := true)).bind fun _ => .pure _) h1).elim
  | reset j => exact (fixed ((fixed_adapterReset (b := true) j).bind fun _ => .pure _) h1).elim
  | adapterRun => exact (fixed ((fixed_diceRun (b := true)).bind fun _ => .pure _) h1).elim
  | initModelInput => exact first (f := fun _ => Pure.pure (DOut.done : DOut K)) (kp _) (cp _) h1
  | initRunParameters =>
    have := first (f := fun _ => initializeRun E >>= fun _ => Pure.pure (DOut.done : DOut K))
      ((calls_initializeRun E).keepsIn.bind fun _ => kp _) ((w (calls_initializeRun E)).bind fun _ => cp _)
    rw [← dm_assoc] at this
    exact this h1
  | resetStepping j =>
    have := first (f := fun _ => (initializeRunParameters E >>= fun _ => adapterReset E j) >>= fun _ =>
        Pure.pure (DOut.done : DOut K))
      ((kr.bind fun _ => (calls_adapterReset E j).keepsIn).bind fun _ => kp _)
      ((cr.bind fun _ => w (calls_adapterReset E j)).bind fun _ => cp _)
    rw [← dm_assoc] at this
    exact this h1
  | run j =>
    have := first (f := fun _ => ((initializeRunParameters E >>= fun _ => adapterReset E j) >>= fun _ =>
        diceRun E) >>= fun _ => Pure.pure (DOut.done : DOut K))
      (((kr.bind fun _ => (calls_adapterReset E j).keepsIn).bind fun _ => (calls_diceRun E).keepsIn).bind
        fun _ => kp _)
      (((cr.bind fun _ => w (calls_adapterReset E j)).bind fun _ => w (calls_diceRun E)).bind fun _ => cp _)
    rw [← dm_assoc, ← dm_assoc] at this
    exact this h1

/-- C38: the call that runs the initialisation leaves every documented default where there was no
value: whoever asks for the parameter afterwards reads it. -/
theorem C38_defaults {E : DEnv K} {d : Dice K} (h : DReach E d) (h0 : d.initialized = false) {op : DOp K}
    (h1 : (dcall E op d).2.initialized = true) :
    (∀ t ∈ defaultScalars, (∀ I, infoAt E.env d.inp (["World"], t.1) = some I → I.empty = true) →
      freshScalar E.env (dcall E op d).2.inp t.1 t.2.1 = .ok (.num (.num (t.2.2 : K)))) ∧
    (∀ t ∈ defaultGenerics, (∀ I, infoAt E.env d.inp (["World"], t.1) = some I → I.empty = true) →
      freshGeneric E.env (dcall E op d).2.inp t.1 = .ok (.gen (some t.2))) := by
  obtain ⟨d1, calls, g1, g2, g3⟩ := init_call h.sound h0 op h1
  have hs := initializeModel_spec h.sound.inp g1
  have hset := hs.set
  have hi' := (sound_reach h op).inp
  have key : ∀ e ∈ entries K, ∀ o, e.default = some o → EmptyAt E.env d.inp e.key →
      ∃ r, d1.slot e.slot = some r ∧ ViewOf (dcall E op d).2.inp r e.key e.unit ∧
        Filled (dcall E op d).2.inp r ∧ result E.env (dcall E op d).2.inp (readOp r) = .ok o := by
    intro e he o ho hemp
    obtain ⟨r, r1, r2, r3, r4⟩ := hset e he
    obtain ⟨r5, r6⟩ := r4 o ho
    refine ⟨r, r1, by rw [g2]; exact r3.after hs.inv calls, by rw [g2]; exact filled_after hs.inv r5 calls, ?_⟩
    rw [g2] at g3 ⊢
    rw [read_safe hs.inv g3 r2 r5]
    exact r6 hemp
  have tab : ∀ t ∈ defaultScalars, ∃ n, (n, t) ∈ scalarDefaults ++ standardScalars := by
    have : ∀ t ∈ defaultScalars, ∃ e ∈ scalarDefaults ++ standardScalars, e.2 = t := by decide +kernel
    intro t ht
    obtain ⟨⟨n, e⟩, e1, rfl⟩ := this t ht
    exact ⟨n, e1⟩
  have tabG : ∀ t ∈ defaultGenerics, ∃ n, (n, t.1, some t.2) ∈ genericDefaults := by
    have : ∀ t ∈ defaultGenerics, ∃ e ∈ genericDefaults, e.2 = (t.1, some t.2) := by decide +kernel
    intro t ht
    obtain ⟨⟨n, e⟩, e1, e2⟩ := this t ht
    exact ⟨n, by rw [← e2]; exact e1⟩
  constructor
  · intro t ht hemp
    obtain ⟨n, hn⟩ := tab t ht
    have he : (scalarEntry (n, t) : Dflt K) ∈ entries K := by
      unfold entries
      rcases List.mem_append.1 hn with hn | hn
      · simp only [List.mem_append]; exact .inl (.inl (.inl (List.mem_map_of_mem hn)))
      · simp only [List.mem_append]; exact .inl (.inr (List.mem_map_of_mem hn))
    obtain ⟨r, r1, r2, r3, r4⟩ := key _ he _ rfl hemp
    simp only [scalarEntry, Dice.slot, Option.map_eq_some_iff] at r1
    obtain ⟨i, i1, rfl⟩ := r1
    rw [freshScalar_view hi' r2 r3]
    exact r4
  · intro t ht hemp
    obtain ⟨n, hn⟩ := tabG t ht
    have he : (genericEntry (n, t.1, some t.2) : Dflt K) ∈ entries K := by
      unfold entries
      simp only [List.mem_append]; exact .inl (.inl (.inr (List.mem_map_of_mem hn)))
    obtain ⟨r, r1, r2, r3, r4⟩ := key _ he _ rfl hemp
    simp only [genericEntry, Dice.slot, Option.map_eq_some_iff] at r1
    obtain ⟨i, i1, rfl⟩ := r1
    rw [freshGeneric_view hi' r2 r3]
    exact r4

/-- All inputs but one are left to their defaults. -/
example :
    let d := diceSt (diceInputs 3 10 ++ [.input (.scalar (.str "DICE|mat0") "GtC" rootRegion),
      .input (.sSet 0 (.num 900))])
    let d' := (dcall diceEnv .initModelInput d).2
    d.initialized = false ∧ d'.initialized = true ∧
    (∀ t ∈ defaultScalars, t.1 ≠ ["DICE", "mat0"] → infoAt diceEnv.env d.inp (["World"], t.1) = none) ∧
    freshScalar diceEnv.env d'.inp ["DICE", "fex0"] "W/m^2" = .ok (.num (.num (1 / 4))) ∧
    freshScalar diceEnv.env d'.inp ["DICE", "mat0"] "GtC" = .ok (.num (.num 900)) := by
  decide +kernel

/-! ## Before the run -/

theorem ready_info {E : DEnv K} {d : Dice K} (h : Sound E d) (hi : d.initialized = true) :
    (∀ t ∈ defaultScalars, ∃ I, infoAt E.env d.inp (["World"], t.1) = some I ∧ I.empty = false) ∧
    (∀ t ∈ defaultGenerics, ∃ I, infoAt E.env d.inp (["World"], t.1) = some I ∧ I.empty = false) := by
  have hr := h.ready hi
  have key : ∀ e ∈ entries K, e.default ≠ none → ∃ I, infoAt E.env d.inp e.key = some I ∧ I.empty = false := by
    intro e he hd
    obtain ⟨r, r1, r2, ⟨p, p1, p2⟩, r4⟩ := hr e he
    obtain ⟨q, u, P, f1, f2, f3⟩ := r4 hd
    rw [p1] at f1; cases f1
    exact ⟨_, infoAt_of h.inp.tree p2 f2, by simp [f3]⟩
  have tab : ∀ t ∈ defaultScalars, ∃ e ∈ scalarDefaults ++ standardScalars, e.2 = t := by decide +kernel
  have tabG : ∀ t ∈ defaultGenerics, ∃ e ∈ genericDefaults, e.2 = (t.1, some t.2) := by decide +kernel
  constructor
  · intro t ht
    obtain ⟨e, e1, rfl⟩ := tab t ht
    refine key (scalarEntry e) ?_ (by simp [scalarEntry])
    unfold entries
    rcases List.mem_append.1 e1 with hn | hn
    · simp only [List.mem_append]; exact .inl (.inl (.inl (List.mem_map_of_mem hn)))
    · simp only [List.mem_append]; exact .inl (.inr (List.mem_map_of_mem hn))
  · intro t ht
    obtain ⟨e, e1, e2⟩ := tabG t ht
    have hk : (genericEntry e : Dflt K).key = (["World"], t.1) := by simp [genericEntry, e2]
    rw [← hk]
    refine key (genericEntry e) ?_ (by simp [genericEntry, e2])
    unfold entries
    simp only [List.mem_append]; exact .inl (.inl (.inr (List.mem_map_of_mem e1)))

/-- Without output views, `m` raises. -/
def Stuck {α : Type} (m : DM K α) : Prop := ∀ d : Dice K, (∀ o, d.ov o = none) → ∀ x, (m d).1 ≠ .ok x

theorem Stuck.left {α β : Type} {m : DM K α} {f : α → DM K β} (h : Stuck m) : Stuck (m >>= f) := by
  intro d hd x hx
  cases hm : m d with
  | mk r d1 =>
    cases r with
    | error e => rw [DM.bind_error hm] at hx; simp at hx
    | ok a => exact h d hd a (by rw [hm])

theorem Stuck.right {α β : Type} {m : DM K α} {f : α → DM K β} (hm : Fixed true m) (h : ∀ a, Stuck (f a)) :
    Stuck (m >>= f) := by
  intro d hd x hx
  cases hc : m d with
  | mk r d1 =>
    cases r with
    | error e => rw [DM.bind_error hc] at hx; simp at hx
    | ok a =>
      rw [DM.bind_ok hc] at hx
      have hov := (hm d).2.2.2 rfl
      rw [hc] at hov
      exact h a d1 (fun o => by rw [hov]; exact hd o) x hx

theorem Stuck.attr (o : OName) : Stuck (K := K) (DM.attr (·.ov o)) := by
  intro d hd x hx
  simp only [DM.attr, hd o, reduceCtorEq] at hx

theorem Stuck.throw {α : Type} (e : Err) : Stuck (DM.throw e : DM K α) := by
  intro d _ x hx; simp [DM.throw] at hx

theorem stuck_resetOutput (E : DEnv K) (o : OName) (j : Nat → Fl K) (x : DM K (Fl K)) :
    Stuck (resetOutput E o j x) := by
  unfold resetOutput
  refine .right (Fixed.gets _) fun n => ?_
  by_cases hn : n < 0
  · rw [if_pos hn]; exact .throw _
  · rw [if_neg hn]; exact (Stuck.attr o).left

theorem stuck_diceReset (E : DEnv K) (j : OName → Nat → Fl K) : Stuck (diceReset E j) := by
  unfold diceReset
  refine .right (fun _ => ⟨rfl, rfl, rfl, fun _ => rfl⟩) fun _ => ?_
  refine .right (Fixed.sget _) fun _ => ?_
  refine .right (fun _ => ⟨rfl, rfl, rfl, fun _ => rfl⟩) fun _ => ?_
  refine .right (Fixed.sget _) fun _ => ?_
  refine .right (Fixed.sget _) fun _ => ?_
  refine .right (Fixed.ofExcept _) fun _ => ?_
  refine .right (fun _ => ⟨rfl, rfl, rfl, fun _ => rfl⟩) fun _ => ?_
  refine .right (Fixed.sget _) fun _ => ?_
  refine .right (fun _ => ⟨rfl, rfl, rfl, fun _ => rfl⟩) fun _ => ?_
  refine .right (Fixed.sget _) fun _ => ?_
  refine .right (Fixed.ofExcept _) fun _ => ?_
  refine .right (fun _ => ⟨rfl, rfl, rfl, fun _ => rfl⟩) fun _ => ?_
  exact (stuck_resetOutput E _ _ _).left

theorem stuck_adapterReset (E : DEnv K) (j : OName → Nat → Fl K) : Stuck (adapterReset E j) := by
  unfold adapterReset
  refine .right (Fixed.onInp _) fun _ => ?_
  refine .right (Fixed.ofExcept _) fun _ => ?_
  refine .right (Fixed.onInp _) fun _ => ?_
  refine .right (Fixed.ofExcept _) fun g => ?_
  split
  · exact .right (fun _ => ⟨rfl, rfl, rfl, fun _ => rfl⟩) fun _ => stuck_diceReset E j
  · exact .throw _

theorem stuck_calcStep (E : DEnv K) : Stuck (calcStep E) := by
  unfold calcStep
  refine .right (fun _ => ⟨rfl, rfl, rfl, fun _ => rfl⟩) fun _ => ?_
  refine .right (Fixed.gdelta _) fun ku => ?_
  refine .right (fun _ => ⟨rfl, rfl, rfl, fun _ => rfl⟩) fun _ => ?_
  refine .right (Fixed.gets _) fun t => ?_
  refine Stuck.left ?_
  unfold stepMat
  refine .right (Fixed.sget _) fun _ => Stuck.left ?_
  exact (Stuck.attr _).left

theorem stuck_diceRun (E : DEnv K) : Stuck (diceRun E) := by
  unfold diceRun lockOutput
  exact (Stuck.attr _).left.left

/-- C38: whenever a call that runs the model succeeds, the initialisation has been done: all inputs
that have defaults hold values. -/
theorem C38_before_run {E : DEnv K} {d : Dice K} (h : DReach E d) {op : DOp K} (hop : op.runs = true)
    {o : DOut K} (ho : (dcall E op d).1 = .ok o) :
    (∀ t ∈ defaultScalars, ∃ I, infoAt E.env (dcall E op d).2.inp (["World"], t.1) = some I ∧ I.empty = false) ∧
    (∀ t ∈ defaultGenerics, ∃ I, infoAt E.env (dcall E op d).2.inp (["World"], t.1) = some I ∧
      I.empty = false) := by
  refine ready_info (sound_reach h op) ?_
  by_cases hd : d.initialized = true
  · exact initialized_dcall op d hd
  have hov := h.sound.views (by simpa using hd)
  cases op with
  | run j => exact inits_ok h.sound rfl ho
  | resetStepping j => exact inits_ok h.sound rfl ho
  | step => exact ((stuck_calcStep E).left.left d hov o ho).elim
  | adapterRun => exact ((stuck_diceRun E).left d hov o ho).elim
  | reset j => exact ((stuck_adapterReset E j).left d hov o ho).elim
  | _ => simp [DOp.runs] at hop

/-- A run and a step after it succeed or not as one expects; a step without initialisation raises. -/
example :
    isDone (dcall diceEnv .step (diceSt (diceInputs 3 10))).1 = false ∧
    isDone (dcall diceEnv (.run noJunk) (diceSt (diceInputs 3 10))).1 = true ∧
    isDone (dcall diceEnv .step (diceSt (diceInputs 3 10 ++ [.resetStepping noJunk]))).1 = true := by
  decide +kernel

end Openscm
