import Verif.DiceSame
import Verif.RoundMeta2

/-!
# DICE with scalars from a frame (C114)

`OpenSCM("DICE", df.to_parameterset())`: a column of the frame such as `DICE|mat0 (GtC)` is a scalar of the parameter
set (`openscm/scmdataframe/base.py:525-532`), and it is what the model takes, in its own unit, instead of its default
(`openscm/adapters/dice.py:128-146`).
-/

set_option linter.unusedSectionVars false

namespace Openscm
variable {K : Type} [Field K] [LinearOrder K] [IsStrictOrderedRing K]

/-- What a new scalar view shows of a parameter with a value. -/
theorem freshScalar_of {env : Env K} {s : St K GVal} (hi : Inv env s) {name : List String} {p : Nat} {P : Param K GVal}
    (hk : HasKey s p (["World"], name)) (hP : s.params[p]? = some P) (hw : P.written = true)
    (ht : P.ptype = some .scalar) {u w : String} (hu : P.unit = some u) {cv : Conv K}
    (hcv : mkConv env.units u w = .ok cv) {y : Fl K} (hd : P.data = .scalar y) :
    freshScalar env s name w = .ok (.num (y.map cv.convertFrom)) := by
  obtain ⟨hch, hrd⟩ := (hi.good.params p P hP).1 hw
  have hre : reach (.seq name) rootRegion s = (.ok p, s) := reach_existing (ns := []) hi.tree hk (by simp [HName.parts])
  have hcall : scalarCall env (.seq name) w rootRegion s = (.ok s.sviews.length,
      { s with sviews := s.sviews ++ [{ param := p, conv := cv, writable := false, kids := none }] }) := by
    unfold scalarCall
    rw [M.bind_ok hre, M.bind_ok (attemptRead_again hP ht hrd), M.bind_apply, M.value_apply]
    unfold mkSView
    rw [hP]
    simp only [hu, mkConvOpt, hcv, hch, if_true]
    rfl
  have hc : call env (.scalar (.seq name) w rootRegion) s = (.ok (.view s.sviews.length),
      { s with sviews := s.sviews ++ [{ param := p, conv := cv, writable := false, kids := none }] }) := by
    show (scalarCall env (.seq name) w rootRegion >>= fun i => pure (Out.view i : Out K GVal)) s = _
    rw [M.bind_ok hcall]; rfl
  unfold freshScalar
  simp only [result, after_one]
  rw [hc]
  simp only
  rw [sGet_eq (v := { param := p, conv := cv, writable := false, kids := none }) (by simp)]
  have hval : scalarValue
      ({ s with sviews := s.sviews ++ [{ param := p, conv := cv, writable := false, kids := none }] } :
        St K GVal) { param := p, conv := cv, writable := false, kids := none } = .ok (y.map cv.convertFrom) := by
    unfold scalarValue readScalarLeaf
    have : ({ s with sviews := s.sviews ++ [{ param := p, conv := cv, writable := false, kids := none }] } :
      St K GVal).params[p]? = some P := hP
    simp only [this, hch, hw, hd, ne_eq, not_true_eq_false, if_false, Bool.not_true, Bool.false_eq_true]
  rw [hval]
  rfl

theorem hasKey_mapG {G H : Type} (f : G → H) {s : St K G} {p : Nat} {k : Key} (h : HasKey s p k) :
    HasKey (s.mapG f) p k := by
  obtain ⟨P, h1, h2, h3⟩ := h
  have hget : ∀ {q : Nat} {Q : Param K G}, s.params[q]? = some Q → (s.mapG f).params[q]? = some (Q.mapG f) := by
    intro q Q hq
    rw [St.params_mapG, hq]
    rfl
  refine ⟨P.mapG f, hget h1, ?_, ?_⟩
  · clear h1 h3
    show RName (s.mapG f) P.region k.1
    generalize P.region = q at h2 ⊢
    generalize k.1 = ns at h2 ⊢
    induction h2 with
    | root hr hp => exact .root hr hp
    | sub hr hp _ ih => exact .sub hr hp ih
  · clear h1 h2
    generalize k.2 = ns at h3 ⊢
    induction h3 with
    | top hr hp => exact .top (P := Param.mapG f _) (hget hr) hp
    | sub hr hp _ ih => exact .sub (P := Param.mapG f _) (hget hr) hp ih

/-- Nobody assigned the parameter since the frame was made into the parameter set. -/
def Unassigned (E : DEnv K) (s : St K (PyVal K)) (d : Dice K) (k : Key) : Prop :=
  ∃ I J, infoAt E.env s k = some I ∧ infoAt E.env d.inp k = some J ∧ J.version = I.version

theorem untouched_iff {E : DEnv K} {s : St K (PyVal K)} {d : Dice K} :
    Untouched E s d ↔ Unassigned E s d (["World"], ["Emissions", "CO2"]) := Iff.rfl

/-- The parameter of a scalar column, in the set made of the frame. -/
theorem scalar_param {env : Env K} {F : DFrame K} (h : F.Tidy) {s : St K (PyVal K)}
    (hto : toParameterset env F (St.init "World") = (.ok (), s)) {n u : String} (hs : ScalarColumn F n u)
    {v : PyVal K} {x : Fl K} (hx : NumberOf v x) (hv : F.HasMeta 0 (n ++ " (" ++ u ++ ")") v) :
    Reachable env s ∧ ∃ p P, HasKey s p (["World"], splitName n) ∧ s.params[p]? = some P ∧ P.written = true ∧
      (Item.scalar u x).In env P := by
  have hd : ∀ d ∈ F.data, ∃ xs : List K, d.2 = xs.map .num := fun d hd => nums_of (h.nums d hd)
  obtain ⟨hs', L, hL, _, _, _, ms, hms, _, hfind, hunit⟩ := toParameterset_holds h.sorted hd h.distinct hto
  exact ⟨hs', hL.items _ (scalar_kept h.ok hms hfind hunit hs hx hv)⟩

/-- **C114**. Whatever the model and its user did with the parameter set made of a frame, as long as nobody assigned the
scalar of a column, whoever asks for it is shown the value of the column, converted to the unit asked for. -/
theorem C114_scalar {E : DEnv K} {F : DFrame K} (hT : F.Tidy) {s : St K (PyVal K)}
    (hto : toParameterset E.env F (St.init "World") = (.ok (), s)) {n u : String} (hs : ScalarColumn F n u)
    {v : PyVal K} {x : Fl K} (hx : NumberOf v x) (hv : F.HasMeta 0 (n ++ " (" ++ u ++ ")") v)
    (f : PyVal K → GVal) (r : String) (ops : List (DOp K))
    (hu : Unassigned E s (dafter E (Dice.new (s.mapG f) (St.init r)) ops) (["World"], splitName n))
    {w : String} {a b : UDef K} (ha : E.env.units u = some a) (hb : E.env.units w = some b) (hab : a.dim = b.dim) :
    freshScalar E.env (dafter E (Dice.new (s.mapG f) (St.init r)) ops).inp (splitName n) w =
      .ok (.num (x.map (pintTo a b))) := by
  obtain ⟨I, J, hI, hJ, hver⟩ := hu
  obtain ⟨hre, p, P, hk, hP, hw, ht, hun, cv, y, hcv, hd, hval⟩ := scalar_param hT hto hs hx hv
  rw [infoAt_of hre.inv.tree hk hP] at hI
  cases hI
  have hdr := handed_reach hre f r
  obtain ⟨iops, hiops⟩ := dafter_calls (E := E) ops (Dice.new (s.mapG f) (St.init r))
  rw [hiops] at hJ ⊢
  have hi : Inv E.env (Dice.new (s.mapG f) (St.init r)).inp := hdr.inp.inv
  have hi' := after_inv iops hi
  have hk0 : HasKey (Dice.new (s.mapG f) (St.init r)).inp p (["World"], splitName n) := hasKey_mapG f hk
  have hP0 : (Dice.new (s.mapG f) (St.init r)).inp.params[p]? = some (P.mapG f) := by
    show (s.mapG f).params[p]? = _
    rw [St.params_mapG, hP]; rfl
  generalize (Dice.new (s.mapG f) (St.init r)).inp = t at *
  obtain ⟨p', P', hk', hp', rfl⟩ := (infoAt_some hi'.tree).1 hJ
  obtain rfl := hk'.inj hi'.tree (after_key hi iops hk0)
  obtain ⟨l, hl⟩ := after_steps iops hi
  obtain ⟨Q, q1, q2, q3⟩ := hl.eff hi hP0
  rw [hp'] at q1
  cases q1
  obtain ⟨Q, g1, g2⟩ := after_pext iops hi p' _ hP0
  rw [hp'] at g1
  cases g1
  have hpt : (P.mapG f).ptype = some .scalar := ht
  have hne : (P.mapG f).ptype ≠ none := by rw [hpt]; simp
  have hno : ∀ e ∈ l, e.1 ≠ p' := by
    have h0 : storesTo p' l = 0 := by
      have h1 : (P.mapG f).version = P.version := rfl
      simp only at hver
      omega
    unfold storesTo at h0
    rw [List.countP_eq_zero] at h0
    intro e he' h'
    exact h0 e he' (by simpa using h')
  have hdata := q3 hne hno
  have hcv' : ∃ c', mkConv E.env.units u w = .ok c' := by
    unfold mkConv
    rw [ha, hb]
    simp only [hab]
    exact ⟨_, rfl⟩
  obtain ⟨c', hc'⟩ := hcv'
  have hd' : P'.data = .scalar y := by
    rw [hdata]
    show (P.data).mapG f = _
    rw [hd]; rfl
  rw [freshScalar_of hi' hk' hp' (g2.written hw) (g2.ptype _ hpt) ((g2.unit hne).trans hun) hc' hd', ← hval]
  obtain ⟨_, _, _, _, _, _, t1, _⟩ := mkConv_ok hcv
  obtain ⟨_, _, _, _, _, _, t2, _⟩ := mkConv_ok hc'
  obtain ⟨a', b', e1, e2, _, e3⟩ := convertFrom_pintTo (c := cv) (c' := c') (by rw [t1]; exact hcv) (by rw [t2]; exact hc')
  rw [t1, ha] at e1
  rw [t2, hb] at e2
  cases e1
  cases e2
  cases y with
  | nan => rfl
  | num y => simp only [Fl.map, e3]

/-- **C114**. So a run of the model takes the scalars of the frame, each in the unit of the model, whatever the default. -/
theorem C114_run {E : DEnv K} {F : DFrame K} (hT : F.Tidy) {s : St K (PyVal K)}
    (hto : toParameterset E.env F (St.init "World") = (.ok (), s)) {n u : String} (hs : ScalarColumn F n u)
    {v : PyVal K} {x : Fl K} (hx : NumberOf v x) (hv : F.HasMeta 0 (n ++ " (" ++ u ++ ")") v)
    (f : PyVal K → GVal) (r : String) (ops : List (DOp K))
    (hu : Unassigned E s (dafter E (Dice.new (s.mapG f) (St.init r)) ops) (["World"], splitName n))
    {d' : Dice K} {W : Scenario K} {m : Nat}
    (hjour : Journey E (dafter E (Dice.new (s.mapG f) (St.init r)) ops) d' W m)
    {o : SName} (ho : (scalarSpec o).1 = splitName n)
    {a b : UDef K} (ha : E.env.units u = some a) (hb : E.env.units (scalarSpec o).2 = some b) (hab : a.dim = b.dim) :
    W.p o = x.map (pintTo a b) := by
  have hu' : Unassigned E s (dafter E (Dice.new (s.mapG f) (St.init r)) (ops ++ [.initModelInput]))
      (["World"], splitName n) := by
    obtain ⟨I, J, hI, hJ, hver⟩ := hu
    obtain ⟨hre, p, P, hk, hP, hw, _⟩ := scalar_param hT hto hs hx hv
    have hIe : I.empty = false := by
      have hI' := hI
      rw [infoAt_of hre.inv.tree hk hP] at hI'
      cases hI'
      simp [hw]
    have hd := handed_reach hre f r
    obtain ⟨iops, hiops⟩ := dafter_calls (E := E) ops (Dice.new (s.mapG f) (St.init r))
    have hI' : infoAt E.env (Dice.new (s.mapG f) (St.init r)).inp (["World"], splitName n) = some I := by
      show infoAt E.env (s.mapG f) _ = _
      rw [infoAt_mapG, hI]
    have hJ0 := hJ
    rw [hiops] at hJ0
    have hJI := (C14_same_version hd.inp hI' hIe iops hJ0 hver).1
    obtain ⟨⟨J', j1, _, j3⟩, _, _⟩ := C38_values_kept (op := .initModelInput) hjour.reach rfl hJ (by rw [hJI]; exact hIe)
    refine ⟨I, J', hI, ?_, j3.trans hver⟩
    rw [dafter_snoc]
    exact j1
  have h1 := C114_scalar hT hto hs hx hv f r (ops ++ [.initModelInput]) hu' ha hb hab
  rw [dafter_snoc, ← ho] at h1
  have h2 := hjour.given.scalar o
  rw [show (prepared E (dafter E (Dice.new (s.mapG f) (St.init r)) ops)) =
    (dcall E .initModelInput (dafter E (Dice.new (s.mapG f) (St.init r)) ops)).2 from rfl, h1] at h2
  simp only [Except.ok.injEq, Out.num.injEq] at h2
  exact h2.symm

/-- The scalar input an output starts from. -/
def startOf : OName → Option SName
  | .mat => some .mat0
  | .ml => some .ml0
  | .mu => some .mu0
  | .tatm => some .tatm0
  | .tocean => some .tocean0
  | .forc => none

/-- **C114**. Pools and temperatures of the run start from the values of the frame. -/
theorem C114_start {E : DEnv K} {F : DFrame K} (hT : F.Tidy) {s : St K (PyVal K)}
    (hto : toParameterset E.env F (St.init "World") = (.ok (), s)) {n u : String} (hs : ScalarColumn F n u)
    {v : PyVal K} {x : Fl K} (hx : NumberOf v x) (hv : F.HasMeta 0 (n ++ " (" ++ u ++ ")") v)
    (f : PyVal K → GVal) (r : String) (ops : List (DOp K))
    (hu : Unassigned E s (dafter E (Dice.new (s.mapG f) (St.init r)) ops) (["World"], splitName n))
    {d' : Dice K} {W : Scenario K} {m : Nat}
    (hjour : Journey E (dafter E (Dice.new (s.mapG f) (St.init r)) ops) d' W m)
    {i : OName} {o : SName} (hi : startOf i = some o) (ho : (scalarSpec o).1 = splitName n)
    {a b : UDef K} (ha : E.env.units u = some a) (hb : E.env.units (scalarSpec o).2 = some b) (hab : a.dim = b.dim)
    {y : K} (hy : Shows E d' W i 0 y) : .num y = x.map (pintTo a b) := by
  rw [← C114_run hT hto hs hx hv f r ops hu hjour ho ha hb hab]
  obtain ⟨L, hp, _, hsh⟩ := hjour.spec
  have h0 := hsh i 0 y hy
  have hst := hp.start
  cases i <;> cases hi
  · exact h0.symm.trans hst.mat
  · exact h0.symm.trans hst.ml
  · exact h0.symm.trans hst.mu
  · exact h0.symm.trans hst.tatm
  · exact h0.symm.trans hst.tocean

/-- **C114**. And from the first step on nothing is below or above the bounds of the frame. -/
theorem C114_bounds {E : DEnv K} {F : DFrame K} (hT : F.Tidy) {s : St K (PyVal K)}
    (hto : toParameterset E.env F (St.init "World") = (.ok (), s)) {n u : String} (hs : ScalarColumn F n u)
    {v : PyVal K} {lo : K} (hx : NumberOf v (.num lo)) (hv : F.HasMeta 0 (n ++ " (" ++ u ++ ")") v)
    (f : PyVal K → GVal) (r : String) (ops : List (DOp K))
    (hu : Unassigned E s (dafter E (Dice.new (s.mapG f) (St.init r)) ops) (["World"], splitName n))
    {d' : Dice K} {W : Scenario K} {m : Nat}
    (hjour : Journey E (dafter E (Dice.new (s.mapG f) (St.init r)) ops) d' W m)
    {i : OName} {o : SName} (ho : (scalarSpec o).1 = splitName n)
    {a b : UDef K} (ha : E.env.units u = some a) (hb : E.env.units (scalarSpec o).2 = some b) (hab : a.dim = b.dim)
    {j : Nat} (h1 : 1 ≤ j) (hj : j ≤ m) {y : K} (hy : Shows E d' W i j y) :
    (lowerBound i = some o → pintTo a b lo ≤ y) ∧
      (upperBound i = some o → (∀ r, lowerBound i = some r → ∃ l, W.p r = .num l ∧ l ≤ pintTo a b lo) →
        y ≤ pintTo a b lo) := by
  have hp := C114_run hT hto hs hx hv f r ops hu hjour ho ha hb hab
  exact ⟨fun hi => C39_lower hjour hi hp h1 hj hy, fun hi hle => C39_upper hjour hi hp hle h1 hj hy⟩

/-! ## An example

The atmosphere starts from 900000 MtC and is not to go below 905 GtC. -/

def diceEnvM : DEnv ℚ :=
  ⟨⟨fun s => if s = "MtC" then some ⟨[("carbon", 1)], 1 / 1000, 0, by norm_num⟩ else diceReg s, demoEnv.trunc⟩,
    fun x => x - 1⟩

def diceS : DFrame ℚ :=
  { times := [0, 2 * diceYear, 4 * diceYear, 6 * diceYear]
    cols := ["model", "scenario", "region", "variable", "unit", "climate_model", "parameter_type", "DICE|mat0 (MtC)",
      "DICE|mat_lower (GtC)"]
    data := [(0, [.num 10, .num 14, .num 12, .num 8])]
    «meta» := [(0, [.str "m", .str "s", .str "World", .str "Emissions|CO2", .str "GtC/a", .str "unspecified",
                 .str "average", .int 900000, .flt (.num 905)])] }

theorem diceS_tidy : diceS.Tidy := by
  have ok0 : diceS.Ok := ⟨by decide +kernel, by decide +kernel, by decide +kernel, by decide +kernel, by decide +kernel⟩
  refine ⟨ok0, by decide +kernel, by decide, by decide +kernel, ?_⟩
  intro i j v g h1 _ h2 _
  obtain ⟨_, _, _, h1, _⟩ := h1
  obtain ⟨_, _, _, h2, _⟩ := h2
  match i, j, h1, h2 with
  | 0, 0, _, _ => rfl
  | i + 1, _, h1, _ => simp [diceS] at h1
  | _, j + 1, _, h2 => simp [diceS] at h2

def diceSSt : St ℚ (PyVal ℚ) := (toParameterset diceEnvM.env diceS (St.init "World")).2

theorem diceS_to : toParameterset diceEnvM.env diceS (St.init "World") = (.ok (), diceSSt) := by
  have : (toParameterset diceEnvM.env diceS (St.init "World")).1 = .ok () := by decide +kernel
  exact Prod.ext this rfl

theorem not_labelled {c n : String} (hne : c.toList.head?.all (fun x => !x.isWhitespace) = true)
    (h : c.toList.take n.toList.length ≠ n.toList) : ¬ Labelled c n := by
  rintro ⟨a, b, rest, hw, he⟩
  cases a with
  | nil =>
    apply h
    rw [he]
    simp
  | cons y a =>
    rw [he] at hne
    have := hw y (by simp)
    simp [this] at hne

theorem diceS_opened : ∀ c ∈ diceS.cols, '(' ∈ c.toList → c = "DICE|mat0 (MtC)" ∨ c = "DICE|mat_lower (GtC)" := by
  decide +kernel

theorem labelled_open {c n : String} (h : Labelled c n) : '(' ∈ c.toList := by
  obtain ⟨a, b, rest, -, h⟩ := h
  rw [h]
  simp

theorem diceS_mat0 : ScalarColumn diceS "DICE|mat0" "MtC" := by
  refine ⟨by decide, by decide, ⟨?_, ?_⟩, fun c hc hl => ?_⟩
  · rintro x (h | h) <;> cases h <;> decide
  · rintro x (h | h) <;> cases h <;> decide
  · rcases diceS_opened c hc (labelled_open hl) with rfl | rfl
    · decide
    · exact absurd hl (not_labelled (by decide) (by decide))

theorem diceS_lower : ScalarColumn diceS "DICE|mat_lower" "GtC" := by
  refine ⟨by decide, by decide, ⟨?_, ?_⟩, fun c hc hl => ?_⟩
  · rintro x (h | h) <;> cases h <;> decide
  · rintro x (h | h) <;> cases h <;> decide
  · rcases diceS_opened c hc (labelled_open hl) with rfl | rfl
    · exact absurd hl (not_labelled (by decide) (by decide))
    · decide

def diceS0 : Dice ℚ := dafter diceEnvM (Dice.new (diceSSt.mapG fun _ => .other 0) (St.init "World")) diceFOps

def diceS1 : Dice ℚ := (dcall diceEnvM (.run noJunk) diceS0).2

/-- The scenario of the run: that of C100, with two values that are not the defaults. -/
def diceSW : Scenario ℚ :=
  { diceFW with p := fun
      | .mat0 => .num 900
      | .mat_lower => .num 905
      | n => defaultValue n }

theorem diceSW_given : Given diceEnvM (prepared diceEnvM diceS0).inp diceSW := by
  have h1 : ∀ n ∈ allScalars, freshScalar diceEnvM.env (prepared diceEnvM diceS0).inp (scalarSpec n).1
      (scalarSpec n).2 = .ok (.num (diceSW.p n)) := by decide +kernel
  have h2 : readEmissions diceEnvM (prepared diceEnvM diceS0).inp diceSW.rounding (diceSW.axis (diceSW.steps + 2))
      = .ok (.arr (.floats diceSW.emissions)) := by decide +kernel
  refine ⟨fun n => h1 n (allScalars_all n), ?_, ?_, ?_, ?_, ?_, ?_⟩
  · decide +kernel
  · decide +kernel
  · decide +kernel
  · decide +kernel
  · decide +kernel
  · intro a ha
    rw [h2] at ha
    cases ha
    rfl

theorem diceS_journey : Journey diceEnvM diceS0 diceS1 diceSW 3 := by
  have hreach : DReach diceEnvM diceS0 := by
    have h := handed_reach (E := diceEnvM)
      (toParameterset_holds diceS_tidy.sorted (fun d hd => nums_of (diceS_tidy.nums d hd)) diceS_tidy.distinct
        diceS_to).1 (fun _ => .other 0) "World"
    obtain ⟨r1, r2, l, h⟩ := h
    refine ⟨r1, r2, l ++ diceFOps, ?_⟩
    rw [diceS0, h]
    clear h
    generalize Dice.new (St.init r1) (St.init r2) = d
    induction l generalizing d with
    | nil => rfl
    | cons o l ih => rw [List.cons_append, dafter, dafter, ih]
  have hrun : dcall diceEnvM (.run noJunk) diceS0 = (.ok .done, diceS1) := by
    have : (dcall diceEnvM (.run noJunk) diceS0).1 = .ok .done := by decide +kernel
    exact Prod.ext this rfl
  refine ⟨hreach, diceSW_given, .inr ⟨noJunk, hrun, (by decide +kernel : diceSW.steps = 3).symm⟩, fun o => ?_, by decide⟩
  refine OnAxis.of_unused (env := diceEnvM.env) hreach.out.inv ?_ _
  have : infoAt diceEnvM.env diceS0.out (outputKey o) = none := by cases o <;> decide +kernel
  intro I hI
  rw [show infoAt diceEnvM.env diceS0.out (outputKey o) = some I from hI] at this
  cases this

theorem diceS_unassigned {k : Key} (h : ((infoAt diceEnvM.env diceSSt k).bind fun I =>
    (infoAt diceEnvM.env diceS0.inp k).map fun J => decide (J.version = I.version)) = some true) :
    Unassigned diceEnvM diceSSt diceS0 k := by
  unfold Unassigned
  generalize infoAt diceEnvM.env diceSSt k = a at h ⊢
  generalize infoAt diceEnvM.env diceS0.inp k = b at h ⊢
  cases a with
  | none => cases h
  | some I =>
    cases b with
    | none => cases h
    | some J => exact ⟨I, J, rfl, rfl, by simpa using h⟩

theorem diceS_u1 : Unassigned diceEnvM diceSSt diceS0 (["World"], splitName "DICE|mat0") :=
  diceS_unassigned (by decide +kernel)

theorem diceS_u2 : Unassigned diceEnvM diceSSt diceS0 (["World"], splitName "DICE|mat_lower") :=
  diceS_unassigned (by decide +kernel)

/-- Asked for in its own unit, and by the model in another one. -/
example : freshScalar diceEnvM.env diceS0.inp ["DICE", "mat0"] "MtC" = .ok (.num (.num 900000)) ∧
    diceSW.p .mat0 = .num 900 := by
  refine ⟨?_, ?_⟩
  · refine (C114_scalar (n := "DICE|mat0") (w := "MtC") diceS_tidy diceS_to diceS_mat0 (.inl ⟨900000, rfl, rfl⟩)
      ⟨7, _, rfl, rfl, rfl⟩ (fun _ => .other 0) "World" diceFOps diceS_u1 rfl rfl rfl).trans ?_
    decide +kernel
  · refine (C114_run diceS_tidy diceS_to diceS_mat0 (.inl ⟨900000, rfl, rfl⟩) ⟨7, _, rfl, rfl, rfl⟩
      (fun _ => .other 0) "World" diceFOps diceS_u1 diceS_journey (o := .mat0) (by decide) rfl rfl
      (by decide +kernel)).trans ?_
    decide +kernel

/-- The atmosphere starts where the frame says, not at the default of 830.4 GtC. -/
example : (.num 900 : Fl ℚ) = (Fl.num ((900000 : ℤ) : ℚ)).map
    (pintTo ⟨[("carbon", 1)], 1 / 1000, 0, by norm_num⟩ ⟨[("carbon", 1)], 1, 0, by norm_num⟩) :=
  C114_start diceS_tidy diceS_to diceS_mat0 (.inl ⟨900000, rfl, rfl⟩) ⟨7, _, rfl, rfl, rfl⟩
    (fun _ => .other 0) "World" diceFOps diceS_u1 diceS_journey (i := .mat) (o := .mat0) rfl (by decide) rfl rfl rfl
    (shows_of (by decide +kernel))

/-- The first step ends at the bound, which without it would be below. -/
example : pintTo (⟨[("carbon", 1)], 1, 0, by norm_num⟩ : UDef ℚ) ⟨[("carbon", 1)], 1, 0, by norm_num⟩ 905 ≤ 905 :=
  (C114_bounds diceS_tidy diceS_to diceS_lower (.inr rfl) ⟨8, _, rfl, rfl, rfl⟩
    (fun _ => .other 0) "World" diceFOps diceS_u2 diceS_journey (i := .mat) (o := .mat_lower) (by decide) rfl rfl rfl
    (j := 1) (by omega) (by omega) (shows_of (by decide +kernel))).1 rfl

end Openscm
