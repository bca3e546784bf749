import Verif.FrameAlone
import Verif.FrameDice

/-!
# C113: DICE takes the same emissions of frames that say the same

What DICE (`openscm/adapters/dice.py`) reads as emissions from the parameter set made of a frame
(`to_parameterset`, `openscm/scmdataframe/base.py:453-534`) depends on the timeseries of the emissions alone, and not on the
unit in which the frame has them.
-/

set_option linter.unusedSectionVars false

namespace Openscm

variable {K : Type} [Field K] [LinearOrder K] [IsStrictOrderedRing K]

/-- C113: two frames with the same timeseries of emissions, whatever else they have: two models, whatever was done with
them except for assigning emissions, read the same. -/
theorem C113_alone {E : DEnv K} {F G : DFrame K} (hF : F.Tidy) (hG : G.Tidy) (ht : F.times = G.times)
    (hc : "parameter_type" ∈ F.cols ↔ "parameter_type" ∈ G.cols) {s t : St K (PyVal K)}
    (hs : toParameterset E.env F (St.init "World") = (.ok (), s))
    (ht' : toParameterset E.env G (St.init "World") = (.ok (), t)) {i j : Nat} (h : SameSeries F i G j)
    {u : String} {old : List (Fl K)} (hrow : F.IsRow i "Emissions|CO2" "World" u old) (f f' : PyVal K → GVal) (r r' : String)
    (ops ops' : List (DOp K)) (hu : Untouched E s (dafter E (Dice.new (s.mapG f) (St.init r)) ops))
    (hu' : Untouched E t (dafter E (Dice.new (t.mapG f') (St.init r')) ops')) (rounding : Bool) (tps : List K)
    (vals : List (Fl K)) :
    readEmissions E (dafter E (Dice.new (s.mapG f) (St.init r)) ops).inp rounding tps = .ok (.arr (.floats vals)) ↔
      readEmissions E (dafter E (Dice.new (t.mapG f') (St.init r')) ops').inp rounding tps = .ok (.arr (.floats vals)) := by
  obtain ⟨d, e, hd, he, hde⟩ := h.values
  have hrow' : G.IsRow j "Emissions|CO2" "World" u d.2 := ⟨(h.info _ (by decide) _).1 hrow.1,
    (h.info _ (by decide) _).1 hrow.2.1, (h.info _ (by decide) _).1 hrow.2.2.1, e, he, hde.symm⟩
  rw [C100_emissions hF hs hrow f r ops hu rounding tps vals, C100_emissions hG ht' hrow' f' r' ops' hu' rounding tps vals]
  exact C111_alone hF hG ht hc hs ht' h hrow.1 hrow.2.1 _ _ _ _ _ _

/-- C113: a frame converted to other units, without context, can be given to the model like the frame before, and the
model reads the same emissions. -/
theorem C113_converted {E : DEnv K} {F G : DFrame K} (hT : F.Tidy) (hr : ∀ c ∈ requiredCols, c ∈ F.cols)
    (hpar : ∀ c ∈ F.cols, c ∉ ofSeries → '(' ∉ c.toList) (hnew : "unit_context" ∉ F.cols)
    (hname : ∀ i v, F.HasMeta i "variable" (.str v) → v ≠ "unit_context" ∧ ¬ NameBelow "unit_context" v)
    (hcol : ∀ c ∈ F.cols, ¬ NameBelow "unit_context" c) {o : FilterOpts K} {keep : Bool}
    {filters : List (String × PyArg K)} {unit : String} {F' : DFrame K} (hf : OtherColumns F.cols filters)
    (hu : unit ≠ "") (hn : ∀ i, ¬ F.HasMeta i "unit" (.str "")) {s : St K (PyVal K)}
    (hto : toParameterset E.env F (St.init "World") = (.ok (), s))
    (h : F.convertUnit (unitConv E.env.units unit) o keep filters unit .none false = (.ok (some G), F')) {i : Nat}
    {u : String} {old : List (Fl K)} (hrow : F.IsRow i "Emissions|CO2" "World" u old) :
    ∃ t, toParameterset E.env G (St.init "World") = (.ok (), t) ∧
      ∀ (f f' : PyVal K → GVal) (r r' : String) (ops ops' : List (DOp K)),
        Untouched E s (dafter E (Dice.new (s.mapG f) (St.init r)) ops) →
        Untouched E t (dafter E (Dice.new (t.mapG f') (St.init r')) ops') → ∀ rounding tps vals,
          (readEmissions E (dafter E (Dice.new (t.mapG f') (St.init r')) ops').inp rounding tps = .ok (.arr (.floats vals)) ↔
            readEmissions E (dafter E (Dice.new (s.mapG f) (St.init r)) ops).inp rounding tps = .ok (.arr (.floats vals))) := by
  obtain ⟨hTG, t, h1, h2⟩ := converted_views hT hr hpar hnew hname hcol hf hu hn hto h
  obtain ⟨⟨u', new, hrow'⟩, hsees⟩ := h2 i _ _ u old hrow
  refine ⟨t, h1, fun f f' r r' ops ops' k k' rounding tps vals => ?_⟩
  rw [C100_emissions hT hto hrow f r ops k rounding tps vals, C100_emissions hTG h1 hrow' f' r' ops' k' rounding tps vals]
  exact hsees _ _ _ _ _ _

/-! ## Examples -/

/-- What a model reads that was given a frame, after the calls of the example of C100. -/
def emissionsRead (F : DFrame ℚ) : Except Err (Out ℚ GVal) :=
  readEmissions diceEnv (dafter diceEnv (Dice.new ((toParameterset diceEnv.env F (St.init "World")).2.mapG fun _ => .other 0)
    (St.init "World")) diceFOps).inp diceFW.rounding (diceFW.axis (diceFW.steps + 2))

/-- Whether the version of the emissions is still the same then. -/
def emissionsVersions (F : DFrame ℚ) : Option Bool :=
  let s := (toParameterset diceEnv.env F (St.init "World")).2
  (infoAt diceEnv.env s (["World"], ["Emissions", "CO2"])).bind fun I =>
    (infoAt diceEnv.env (dafter diceEnv (Dice.new (s.mapG fun _ => .other 0) (St.init "World")) diceFOps).inp
      (["World"], ["Emissions", "CO2"])).map fun J => decide (J.version = I.version)

/-- Hypotheses of `C113_converted`, with the frame of C100 converted from GtC to GtCO2: values are others, emissions are
the same. -/
example : diceF.Tidy ∧ (∀ c ∈ requiredCols, c ∈ diceF.cols) ∧ (∀ c ∈ diceF.cols, c ∉ ofSeries → '(' ∉ c.toList) ∧
    "unit_context" ∉ diceF.cols ∧ diceF.IsRow 0 "Emissions|CO2" "World" "GtC/a" [.num 10, .num 14, .num 12, .num 8] ∧
    emissionsVersions diceF = some true ∧ emissionsRead diceF = .ok (.arr (.floats diceFW.emissions)) ∧
    (diceF.convertUnit (unitConv diceEnv.env.units "GtCO2/a") demoO true [] "GtCO2/a" .none false).1.map
      (Option.map fun G => (G.data.map fun d => d.2.take 1, emissionsVersions G)) =
        .ok (some ([[.num (110 / 3)], [.num (55 / 3)]], some true)) ∧
    (diceF.convertUnit (unitConv diceEnv.env.units "GtCO2/a") demoO true [] "GtCO2/a" .none false).1.map
      (Option.map fun G => emissionsRead G) = .ok (some (.ok (.arr (.floats diceFW.emissions)))) :=
  ⟨diceF_tidy, by decide +kernel, by decide +kernel, by decide +kernel,
    ⟨⟨3, _, rfl, rfl, rfl⟩, ⟨2, _, rfl, rfl, rfl⟩, ⟨4, _, rfl, rfl, rfl⟩, _, rfl, rfl⟩, by decide +kernel, by decide +kernel,
    by decide +kernel, by decide +kernel⟩

/-- All hypotheses of `C113_converted`, and so of `C110_views`, at once. -/
example : ∃ G t, (diceF.convertUnit (unitConv diceEnv.env.units "GtCO2/a") demoO true [] "GtCO2/a" .none false).1 = .ok (some G) ∧
    toParameterset diceEnv.env G (St.init "World") = (.ok (), t) := by
  have hc := C53_unchanged (unitConv diceEnv.env.units "GtCO2/a") diceF demoO true [] "GtCO2/a" .none
  have h1 : ((diceF.convertUnit (unitConv diceEnv.env.units "GtCO2/a") demoO true [] "GtCO2/a" .none false).1.map
      Option.isSome) = .ok true := by decide +kernel
  revert h1
  generalize hx : diceF.convertUnit (unitConv diceEnv.env.units "GtCO2/a") demoO true [] "GtCO2/a" .none false = x at hc
  obtain ⟨_ | _ | G, F'⟩ := x
  · intro h1; cases h1
  · intro h1; cases h1
  · intro _
    obtain ⟨t, ht, -⟩ := C113_converted diceF_tidy (by decide +kernel) (by decide +kernel) (by decide +kernel)
      (by
        intro i v hv
        rcases diceF_variable hv with ⟨-, h⟩ | ⟨-, h⟩ <;> cases h <;> refine ⟨by decide, ?_⟩ <;> rintro ⟨t, h⟩ <;>
          exact absurd (congrArg (fun l => l.toList.head?) h) (by simp))
      (by
        rintro c hc ⟨t, rfl⟩
        have hb : ∀ c ∈ diceF.cols, '|' ∉ c.toList := by decide +kernel
        exact hb _ hc (by simp))
      (filters := []) (by intro f hf; cases hf) (by decide)
      (by
        intro i hi
        have h2 : ∀ i < diceF.meta.length, diceF.metaAt i "unit" ≠ .str "" := by decide +kernel
        obtain ⟨h3, -, h4⟩ := (metaAt_iff diceF_tidy.ok).1 hi
        exact h2 i h3 h4) diceF_to hx (i := 0)
      ⟨⟨3, _, rfl, rfl, rfl⟩, ⟨2, _, rfl, rfl, rfl⟩, ⟨4, _, rfl, rfl, rfl⟩, _, rfl, rfl⟩
    exact ⟨G, t, rfl, ht⟩

/-- Hypotheses of `C113_alone`: another model and scenario, and other emissions of N2O. -/
def diceOther : DFrame ℚ :=
  { diceF with
    data := [(0, [.num 10, .num 14, .num 12, .num 8]), (1, [.num 1, .num 1, .num 1, .num 1])]
    «meta» := [(0, [.str "x", .str "y", .str "World", .str "Emissions|CO2", .str "GtC/a", .str "unspecified",
                 .str "average"]),
               (1, [.str "x", .str "y", .str "World|z", .str "Emissions|N2O", .str "GtCO2/a", .str "unspecified",
                 .str "average"])] }

example : emissionsVersions diceOther = some true ∧
    (toParameterset diceEnv.env diceOther (St.init "World")).1 = .ok () ∧
    (∃ d e, diceF.data[0]? = some d ∧ diceOther.data[0]? = some e ∧ d.2 = e.2) ∧
    (∀ c ∈ ofSeries, diceF.metaAt 0 c = diceOther.metaAt 0 c) ∧
    emissionsRead diceOther = .ok (.arr (.floats diceFW.emissions)) :=
  ⟨by decide +kernel, by decide +kernel, ⟨_, _, rfl, rfl, rfl⟩, by decide +kernel, by decide +kernel⟩

end Openscm
