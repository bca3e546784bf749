import Verif.DiceScalars
import Verif.DiceMono2

/-!
# DICE shows the same outputs for frames that say the same (C115)

From the frame (`to_parameterset`, `openscm/scmdataframe/base.py:453-534`) through a run of the model
(`openscm/adapters/dice.py:257-280`) to what is read from its outputs.
-/

set_option linter.unusedSectionVars false

namespace Openscm
variable {K : Type} [Field K] [LinearOrder K] [IsStrictOrderedRing K]

/-- Filling in the defaults assigns no emissions. -/
theorem untouched_prepared {E : DEnv K} {F : DFrame K} (hT : F.Tidy) {s : St K (PyVal K)}
    (hto : toParameterset E.env F (St.init "World") = (.ok (), s)) {i : Nat} {u : String} {old : List (Fl K)}
    (hrow : F.IsRow i "Emissions|CO2" "World" u old) (f : PyVal K → GVal) (r : String) (ops : List (DOp K))
    (hu : Untouched E s (dafter E (Dice.new (s.mapG f) (St.init r)) ops))
    (hd0 : DReach E (dafter E (Dice.new (s.mapG f) (St.init r)) ops)) :
    Untouched E s (dafter E (Dice.new (s.mapG f) (St.init r)) (ops ++ [.initModelInput])) := by
  obtain ⟨I, J, hI, hJ, hv⟩ := hu
  have hs : Reachable E.env s :=
    (toParameterset_holds hT.sorted (fun d hd => nums_of (hT.nums d hd)) hT.distinct hto).1
  have hd := handed_reach hs f r
  obtain ⟨iops, hiops⟩ := dafter_calls (E := E) ops (Dice.new (s.mapG f) (St.init r))
  have hI' : infoAt E.env (Dice.new (s.mapG f) (St.init r)).inp (["World"], ["Emissions", "CO2"]) = some I := by
    show infoAt E.env (s.mapG f) _ = _
    rw [infoAt_mapG, hI]
  have hJ0 := hJ
  rw [hiops] at hJ0
  have hJI := (C14_same_version hd.inp hI' (written_row hT hto hrow hI) iops hJ0 hv).1
  obtain ⟨⟨J', j1, _, j3⟩, _, _⟩ := C38_values_kept (op := .initModelInput) hd0 rfl hJ
    (by rw [hJI]; exact written_row hT hto hrow hI)
  refine ⟨I, J', hI, ?_, j3.trans hv⟩
  rw [dafter_snoc]
  exact j1

/-- **C115**. The emissions of a run are what a view of the parameter set made of the frame shows for the periods of the
model. -/
theorem C115_emissions {E : DEnv K} {F : DFrame K} (hT : F.Tidy) {s : St K (PyVal K)}
    (hto : toParameterset E.env F (St.init "World") = (.ok (), s)) {i : Nat} {u : String} {old : List (Fl K)}
    (hrow : F.IsRow i "Emissions|CO2" "World" u old) (f : PyVal K → GVal) (r : String) (ops : List (DOp K))
    (hu : Untouched E s (dafter E (Dice.new (s.mapG f) (St.init r)) ops)) {d' : Dice K} {W : Scenario K} {n : Nat}
    (hjour : Journey E (dafter E (Dice.new (s.mapG f) (St.init r)) ops) d' W n) {vals : List (Fl K)}
    (hsee : Sees E.env s "Emissions|CO2" "World" (diceUnit W.rounding) (W.axis (W.steps + 2)) (.str "average")
      (.enum .linear) (.enum .none) vals) : W.emissions = vals := by
  have hread := (C100_emissions hT hto hrow f r (ops ++ [.initModelInput])
    (untouched_prepared hT hto hrow f r ops hu hjour.reach) W.rounding _ _).2 hsee
  rw [dafter_snoc] at hread
  exact (hjour.given.emissionsT _ hread).symm

/-- The two runs have the same inputs, except perhaps for their emissions. -/
structure SameSettings (W W' : Scenario K) : Prop where
  start : W'.start = W.start
  stop : W'.stop = W.stop
  sat : W'.sat = W.sat
  ticks : W'.ticks = W.ticks
  tick : W'.tick = W.tick
  rounding : W'.rounding = W.rounding
  scalars : W'.p = W.p

theorem SameSettings.axis {W W' : Scenario K} (h : SameSettings W W') : W'.axis (W'.steps + 2) = W.axis (W.steps + 2) := by
  have hp : W'.period = W.period := by unfold Scenario.period; rw [h.ticks, h.tick]
  unfold Scenario.axis Scenario.steps
  rw [hp, h.start, h.stop]

theorem SameSettings.until {W W' : Scenario K} (h : SameSettings W W') (he : W'.emissions = W.emissions) (m : Nat) :
    SameUntil W W' m :=
  ⟨h.start, h.sat, h.ticks, h.tick, h.rounding, h.scalars, fun _ _ => by rw [he]⟩

/-- **C115**. Two frames with the same timeseries of emissions, whatever else they have: runs with the same other inputs
show the same outputs, up to where the shorter of them ended. -/
theorem C115_alone {E : DEnv K} {F G : DFrame K} (hF : F.Tidy) (hG : G.Tidy) (ht : F.times = G.times)
    (hc : "parameter_type" ∈ F.cols ↔ "parameter_type" ∈ G.cols) {s t : St K (PyVal K)}
    (hs : toParameterset E.env F (St.init "World") = (.ok (), s))
    (ht' : toParameterset E.env G (St.init "World") = (.ok (), t)) {i j : Nat} (h : SameSeries F i G j)
    {u : String} {old : List (Fl K)} (hrow : F.IsRow i "Emissions|CO2" "World" u old) (f f' : PyVal K → GVal) (r r' : String)
    (ops ops' : List (DOp K)) (hu : Untouched E s (dafter E (Dice.new (s.mapG f) (St.init r)) ops))
    (hu' : Untouched E t (dafter E (Dice.new (t.mapG f') (St.init r')) ops'))
    {d d' : Dice K} {W W' : Scenario K} {n n' : Nat}
    (hj : Journey E (dafter E (Dice.new (s.mapG f) (St.init r)) ops) d W n)
    (hj' : Journey E (dafter E (Dice.new (t.mapG f') (St.init r')) ops') d' W' n') (hW : SameSettings W W')
    {vals : List (Fl K)} (hsee : Sees E.env s "Emissions|CO2" "World" (diceUnit W.rounding) (W.axis (W.steps + 2))
      (.str "average") (.enum .linear) (.enum .none) vals)
    {k : Nat} (hk : k ≤ n) (hk' : k ≤ n') {o : OName} {x x' : K} (hx : Shows E d W o k x) (hx' : Shows E d' W' o k x') :
    x = x' := by
  obtain ⟨a, b, ha, hb, hab⟩ := h.values
  have hrow' : G.IsRow j "Emissions|CO2" "World" u a.2 := ⟨(h.info _ (by decide) _).1 hrow.1,
    (h.info _ (by decide) _).1 hrow.2.1, (h.info _ (by decide) _).1 hrow.2.2.1, b, hb, hab.symm⟩
  have hsee' := (C111_alone hF hG ht hc hs ht' h hrow.1 hrow.2.1 _ _ _ _ _ _).1 hsee
  have e1 := C115_emissions hF hs hrow f r ops hu hj hsee
  rw [← hW.axis, ← hW.rounding] at hsee'
  have e2 := C115_emissions hG ht' hrow' f' r' ops' hu' hj' hsee'
  exact C91_causal hj hj' hk hk' (hW.until (e2.trans e1.symm) k) (le_refl k) hx hx'

/-- **C115**. A frame converted to other units, without context: the outputs are those of the frame before. -/
theorem C115_converted {E : DEnv K} {F G : DFrame K} (hT : F.Tidy) (hr : ∀ c ∈ requiredCols, c ∈ F.cols)
    (hpar : ∀ c ∈ F.cols, c ∉ ofSeries → '(' ∉ c.toList) (hnew : "unit_context" ∉ F.cols)
    (hname : ∀ i v, F.HasMeta i "variable" (.str v) → v ≠ "unit_context" ∧ ¬ NameBelow "unit_context" v)
    (hcol : ∀ c ∈ F.cols, ¬ NameBelow "unit_context" c) {o : FilterOpts K} {keep : Bool}
    {filters : List (String × PyArg K)} {unit : String} {F' : DFrame K} (hf : OtherColumns F.cols filters)
    (hu : unit ≠ "") (hn : ∀ i, ¬ F.HasMeta i "unit" (.str "")) {s : St K (PyVal K)}
    (hto : toParameterset E.env F (St.init "World") = (.ok (), s))
    (h : F.convertUnit (unitConv E.env.units unit) o keep filters unit .none false = (.ok (some G), F')) {i : Nat}
    {u : String} {old : List (Fl K)} (hrow : F.IsRow i "Emissions|CO2" "World" u old) :
    ∃ t, toParameterset E.env G (St.init "World") = (.ok (), t) ∧
      ∀ (f f' : PyVal K → GVal) (r r' : String) (ops ops' : List (DOp K)),
        Untouched E s (dafter E (Dice.new (s.mapG f) (St.init r)) ops) →
        Untouched E t (dafter E (Dice.new (t.mapG f') (St.init r')) ops') →
        ∀ (d d' : Dice K) (W W' : Scenario K) (n n' : Nat) (vals : List (Fl K)),
          Journey E (dafter E (Dice.new (s.mapG f) (St.init r)) ops) d W n →
          Journey E (dafter E (Dice.new (t.mapG f') (St.init r')) ops') d' W' n' → SameSettings W W' →
          Sees E.env s "Emissions|CO2" "World" (diceUnit W.rounding) (W.axis (W.steps + 2)) (.str "average")
            (.enum .linear) (.enum .none) vals →
          ∀ k o x x', k ≤ n → k ≤ n' → Shows E d W o k x → Shows E d' W' o k x' → x = x' := by
  obtain ⟨hTG, t, h1, h2⟩ := converted_views hT hr hpar hnew hname hcol hf hu hn hto h
  obtain ⟨⟨u', new, hrow'⟩, hsees⟩ := h2 i _ _ u old hrow
  refine ⟨t, h1, fun f f' r r' ops ops' k k' d d' W W' n n' vals hj hj' hW hsee m o x x' hm hm' hx hx' => ?_⟩
  have hsee' := (hsees _ _ _ _ _ _).2 hsee
  have e1 := C115_emissions hT hto hrow f r ops k hj hsee
  rw [← hW.axis, ← hW.rounding] at hsee'
  have e2 := C115_emissions hTG h1 hrow' f' r' ops' k' hj' hsee'
  exact C91_causal hj hj' hm hm' (hW.until (e2.trans e1.symm) m) (le_refl m) hx hx'

/-! ## Examples -/

/-- A first run of a model that was given the parameter set made of a frame. -/
theorem frame_journey {E : DEnv K} {F : DFrame K} (hT : F.Tidy) {s : St K (PyVal K)}
    (hto : toParameterset E.env F (St.init "World") = (.ok (), s)) (f : PyVal K → GVal) (r : String) (ops : List (DOp K))
    {d d' : Dice K} (hd : d = dafter E (Dice.new (s.mapG f) (St.init r)) ops) {W : Scenario K} {junk : OName → Nat → Fl K}
    (hW : Given E (prepared E d).inp W) (hrun : dcall E (.run junk) d = (.ok .done, d')) (hf : 0 < W.period)
    (hout : ∀ o, infoAt E.env d.out (outputKey o) = none) : Journey E d d' W W.steps := by
  have hreach : DReach E d := by
    obtain ⟨r1, r2, l, h⟩ := handed_reach (E := E)
      (toParameterset_holds hT.sorted (fun d hd => nums_of (hT.nums d hd)) hT.distinct hto).1 f r
    refine ⟨r1, r2, l ++ ops, ?_⟩
    rw [hd, h]
    clear h
    generalize Dice.new (St.init r1) (St.init r2) = d
    induction l generalizing d with
    | nil => rfl
    | cons o l ih => rw [List.cons_append, dafter, dafter, ih]
  refine ⟨hreach, hW, .inr ⟨junk, hrun, rfl⟩, fun o => ?_, hf⟩
  refine OnAxis.of_unused (env := E.env) hreach.out.inv ?_ _
  intro I hI
  have := hout o
  rw [hI] at this
  cases this

/-- The frame of C113 that says the same of the emissions. -/
theorem diceOther_tidy : diceOther.Tidy := by
  have ok0 : diceOther.Ok := ⟨by decide +kernel, by decide +kernel, by decide +kernel, by decide +kernel, by decide +kernel⟩
  refine ⟨ok0, by decide +kernel, by decide, by decide +kernel, ?_⟩
  have h : ∀ i < 2, ∀ j < 2, diceOther.metaAt i "variable" = diceOther.metaAt j "variable" → i = j := by decide +kernel
  intro i j v g h1 _ h2 _
  obtain ⟨a1, _, a2⟩ := (metaAt_iff ok0).1 h1
  obtain ⟨b1, _, b2⟩ := (metaAt_iff ok0).1 h2
  exact h i a1 j b1 (a2.trans b2.symm)

def diceOSt : St ℚ (PyVal ℚ) := (toParameterset diceEnv.env diceOther (St.init "World")).2

theorem diceO_to : toParameterset diceEnv.env diceOther (St.init "World") = (.ok (), diceOSt) := by
  have : (toParameterset diceEnv.env diceOther (St.init "World")).1 = .ok () := by decide +kernel
  exact Prod.ext this rfl

def diceO0 : Dice ℚ := dafter diceEnv (Dice.new (diceOSt.mapG fun _ => .other 0) (St.init "World")) diceFOps

def diceO1 : Dice ℚ := (dcall diceEnv (.run noJunk) diceO0).2

theorem diceO_given : Given diceEnv (prepared diceEnv diceO0).inp diceFW := by
  have h1 : ∀ n ∈ allScalars, freshScalar diceEnv.env (prepared diceEnv diceO0).inp (scalarSpec n).1
      (scalarSpec n).2 = .ok (.num (diceFW.p n)) := by decide +kernel
  have h2 : readEmissions diceEnv (prepared diceEnv diceO0).inp diceFW.rounding (diceFW.axis (diceFW.steps + 2))
      = .ok (.arr (.floats diceFW.emissions)) := by decide +kernel
  refine ⟨fun n => h1 n (allScalars_all n), ?_, ?_, ?_, ?_, ?_, ?_⟩
  · decide +kernel
  · decide +kernel
  · decide +kernel
  · decide +kernel
  · decide +kernel
  · intro a ha
    rw [h2] at ha
    cases ha
    rfl

theorem diceO_journey : Journey diceEnv diceO0 diceO1 diceFW diceFW.steps := by
  have hrun : dcall diceEnv (.run noJunk) diceO0 = (.ok .done, diceO1) := by
    have : (dcall diceEnv (.run noJunk) diceO0).1 = .ok .done := by decide +kernel
    exact Prod.ext this rfl
  exact frame_journey diceOther_tidy diceO_to (fun _ => .other 0) "World" diceFOps rfl diceO_given hrun (by decide)
    (by intro o; cases o <;> decide +kernel)

theorem diceO_untouched : Untouched diceEnv diceOSt diceO0 := by
  have h : ((infoAt diceEnv.env diceOSt (["World"], ["Emissions", "CO2"])).bind fun I =>
      (infoAt diceEnv.env diceO0.inp (["World"], ["Emissions", "CO2"])).map fun J => decide (J.version = I.version)) =
        some true := by decide +kernel
  unfold Untouched
  generalize infoAt diceEnv.env diceOSt (["World"], ["Emissions", "CO2"]) = a at h ⊢
  generalize infoAt diceEnv.env diceO0.inp (["World"], ["Emissions", "CO2"]) = b at h ⊢
  cases a with
  | none => cases h
  | some I =>
    cases b with
    | none => cases h
    | some J => exact ⟨I, J, rfl, rfl, by simpa using h⟩

theorem diceF_sees : Sees diceEnv.env diceFSt "Emissions|CO2" "World" (diceUnit diceFW.rounding)
    (diceFW.axis (diceFW.steps + 2)) (.str "average") (.enum .linear) (.enum .none) diceFW.emissions := by
  rw [sees_iff]
  decide +kernel

theorem diceF_row : diceF.IsRow 0 "Emissions|CO2" "World" "GtC/a" [.num 10, .num 14, .num 12, .num 8] :=
  ⟨⟨3, _, rfl, rfl, rfl⟩, ⟨2, _, rfl, rfl, rfl⟩, ⟨4, _, rfl, rfl, rfl⟩, _, rfl, rfl⟩

example : diceFW.emissions = [.num 33, .num (121 / 3), .num (605 / 12), .num (209 / 4)] :=
  C115_emissions diceF_tidy diceF_to diceF_row (fun _ => .other 0) "World" diceFOps diceF_untouched diceF_journey diceF_sees

/-- Two models, given the two frames: both show the same carbon in the atmosphere after a year. -/
example : (191642346391 / 229125000 : ℚ) = 191642346391 / 229125000 := by
  refine C115_alone (i := 0) (j := 0) (k := 1) (o := .mat) diceF_tidy diceOther_tidy rfl (by decide +kernel) diceF_to diceO_to
    ⟨⟨_, _, rfl, rfl, rfl⟩, fun c hc v => ?_⟩ diceF_row (fun _ => .other 0) (fun _ => .other 0) "World" "World" diceFOps diceFOps
    diceF_untouched diceO_untouched diceF_journey diceO_journey ⟨rfl, rfl, rfl, rfl, rfl, rfl, rfl⟩ diceF_sees (by omega)
    (by decide) (shows_of (by decide +kernel)) (shows_of (by decide +kernel))
  rw [metaAt_iff diceF_tidy.ok, metaAt_iff diceOther_tidy.ok]
  have h : ∀ c ∈ ofSeries, diceF.metaAt 0 c = diceOther.metaAt 0 c := by decide +kernel
  rw [h c hc]
  exact Iff.rfl

/-- The frame in GtCO2, without context. -/
def diceC : DFrame ℚ :=
  match (diceF.convertUnit (unitConv diceEnv.env.units "GtCO2/a") demoO true [] "GtCO2/a" .none false).1 with
  | .ok (some G) => G
  | _ => diceF

def diceCSt : St ℚ (PyVal ℚ) := (toParameterset diceEnv.env diceC (St.init "World")).2

theorem diceC_to : toParameterset diceEnv.env diceC (St.init "World") = (.ok (), diceCSt) := by
  have : (toParameterset diceEnv.env diceC (St.init "World")).1 = .ok () := by decide +kernel
  exact Prod.ext this rfl

theorem diceC_eq : diceF.convertUnit (unitConv diceEnv.env.units "GtCO2/a") demoO true [] "GtCO2/a" .none false =
    (.ok (some diceC), diceF) := by
  have h2 := C53_unchanged (unitConv diceEnv.env.units "GtCO2/a") diceF demoO true [] "GtCO2/a" .none
  have h1 : ((diceF.convertUnit (unitConv diceEnv.env.units "GtCO2/a") demoO true [] "GtCO2/a" .none false).1.map
      Option.isSome) = .ok true := by decide +kernel
  refine Prod.ext ?_ h2
  show _ = Except.ok (some diceC)
  unfold diceC
  revert h1
  generalize (diceF.convertUnit (unitConv diceEnv.env.units "GtCO2/a") demoO true [] "GtCO2/a" .none false).1 = x
  intro h1
  match x, h1 with
  | .ok (some G), _ => rfl

/-- The metadata of this frame has one more column. -/
def diceCOps : List (DOp ℚ) :=
  [.input (.generic (.str "Start Time") rootRegion), .input (.gSet 4 (.time 0)),
    .input (.generic (.str "Stop Time") rootRegion), .input (.gSet 5 (.time (diceYear * 3)))]

def diceC0 : Dice ℚ := dafter diceEnv (Dice.new (diceCSt.mapG fun _ => .other 0) (St.init "World")) diceCOps

def diceC1 : Dice ℚ := (dcall diceEnv (.run noJunk) diceC0).2

theorem diceC_tidy : diceC.Tidy := by
  have ok0 : diceC.Ok := ⟨by decide +kernel, by decide +kernel, by decide +kernel, by decide +kernel, by decide +kernel⟩
  refine ⟨ok0, by decide +kernel, by decide +kernel, by decide +kernel, ?_⟩
  have hl : diceC.meta.length = 2 := by decide +kernel
  have h : ∀ i < 2, ∀ j < 2, diceC.metaAt i "variable" = diceC.metaAt j "variable" → i = j := by decide +kernel
  intro i j v g h1 _ h2 _
  obtain ⟨a1, _, a2⟩ := (metaAt_iff ok0).1 h1
  obtain ⟨b1, _, b2⟩ := (metaAt_iff ok0).1 h2
  exact h i (hl ▸ a1) j (hl ▸ b1) (a2.trans b2.symm)

theorem diceC_given : Given diceEnv (prepared diceEnv diceC0).inp diceFW := by
  have h1 : ∀ n ∈ allScalars, freshScalar diceEnv.env (prepared diceEnv diceC0).inp (scalarSpec n).1
      (scalarSpec n).2 = .ok (.num (diceFW.p n)) := by decide +kernel
  have h2 : readEmissions diceEnv (prepared diceEnv diceC0).inp diceFW.rounding (diceFW.axis (diceFW.steps + 2))
      = .ok (.arr (.floats diceFW.emissions)) := by decide +kernel
  refine ⟨fun n => h1 n (allScalars_all n), ?_, ?_, ?_, ?_, ?_, ?_⟩
  · decide +kernel
  · decide +kernel
  · decide +kernel
  · decide +kernel
  · decide +kernel
  · intro a ha
    rw [h2] at ha
    cases ha
    rfl

theorem diceC_journey : Journey diceEnv diceC0 diceC1 diceFW diceFW.steps := by
  have hrun : dcall diceEnv (.run noJunk) diceC0 = (.ok .done, diceC1) := by
    have : (dcall diceEnv (.run noJunk) diceC0).1 = .ok .done := by decide +kernel
    exact Prod.ext this rfl
  exact frame_journey diceC_tidy diceC_to (fun _ => .other 0) "World" diceCOps rfl diceC_given hrun (by decide)
    (by intro o; cases o <;> decide +kernel)

theorem diceC_untouched : Untouched diceEnv diceCSt diceC0 := by
  have h : ((infoAt diceEnv.env diceCSt (["World"], ["Emissions", "CO2"])).bind fun I =>
      (infoAt diceEnv.env diceC0.inp (["World"], ["Emissions", "CO2"])).map fun J => decide (J.version = I.version)) =
        some true := by decide +kernel
  unfold Untouched
  generalize infoAt diceEnv.env diceCSt (["World"], ["Emissions", "CO2"]) = a at h ⊢
  generalize infoAt diceEnv.env diceC0.inp (["World"], ["Emissions", "CO2"]) = b at h ⊢
  cases a with
  | none => cases h
  | some I =>
    cases b with
    | none => cases h
    | some J => exact ⟨I, J, rfl, rfl, by simpa using h⟩

/-- And so does a model that was given the frame in another unit. -/
example : (191642346391 / 229125000 : ℚ) = 191642346391 / 229125000 := by
  obtain ⟨t, ht, h⟩ := C115_converted (E := diceEnv) diceF_tidy (by decide +kernel) (by decide +kernel) (by decide +kernel)
    (by
      intro i v hv
      rcases diceF_variable hv with ⟨-, h⟩ | ⟨-, h⟩ <;> cases h <;> refine ⟨by decide, ?_⟩ <;> rintro ⟨t, h⟩ <;>
        exact absurd (congrArg (fun l => l.toList.head?) h) (by simp))
    (by
      rintro c hc ⟨t, rfl⟩
      have hb : ∀ c ∈ diceF.cols, '|' ∉ c.toList := by decide +kernel
      exact hb _ hc (by simp))
    (filters := []) (by intro f hf; cases hf) (by decide)
    (by
      intro i hi
      have h2 : ∀ i < diceF.meta.length, diceF.metaAt i "unit" ≠ .str "" := by decide +kernel
      obtain ⟨h3, -, h4⟩ := (metaAt_iff diceF_tidy.ok).1 hi
      exact h2 i h3 h4) diceF_to diceC_eq diceF_row
  have e := ht.symm.trans diceC_to
  simp only [Prod.mk.injEq, true_and] at e
  subst e
  exact h (fun _ => .other 0) (fun _ => .other 0) "World" "World" diceFOps diceCOps diceF_untouched diceC_untouched _ _ _ _ _ _ _
    diceF_journey diceC_journey ⟨rfl, rfl, rfl, rfl, rfl, rfl, rfl⟩ diceF_sees 1 .mat _ _ (by omega) (by decide)
    (shows_of (by decide +kernel)) (shows_of (by decide +kernel))

end Openscm
