import Verif.ContextState
import Verif.FrameUnits2

/-!
# C77: `convert_unit` in the context of a metric

`convert_unit`, `openscm/scmdataframe/base.py:1216-1272`, with the converters of `ContextState.lean`: each group of
timeseries with the same unit makes one request for a converter, which may change the state of the unit registry.
-/

set_option linter.unusedSectionVars false

namespace Openscm

/-! ## Model -/

/-- `uc.convert_from` applied to values, of which some may be missing. -/
def ConvFl.apply (c : ConvFl ℚ) : Fl ℚ → Fl ℚ
  | .nan => .nan
  | .num v => c.convertFrom v

/-- The argument `context` as metadata. -/
def contextVal : Option String → PyVal ℚ
  | none => .none
  | some name => .str name

/-- The loop, `openscm/scmdataframe/base.py:1260-1266`, with the state of the unit registry. -/
def convertLoopIn (reg : Registry ℚ) (context : Option String) (unit : String) :
    List (String × List Nat) → DFrame ℚ → RegState → (Except Err Unit × DFrame ℚ) × RegState
  | [], F, st => ((.ok (), F), st)
  | (u, ls) :: r, F, st =>
    match unitConverter reg ⟨context, u, unit⟩ st with
    | (.error e, st') => ((.error e, F), st')
    | (.ok c, st') => convertLoopIn reg context unit r (F.convertLabels ls c.apply unit (contextVal context)) st'

/-- `convert_unit`, `openscm/scmdataframe/base.py:1216-1272`: what it returns or raises, the frame afterwards and the
unit registry afterwards. -/
def DFrame.convertUnitIn (reg : Registry ℚ) (F : DFrame ℚ) (o : FilterOpts ℚ) (keep : Bool)
    (filters : List (String × PyArg ℚ)) (unit : String) (context : Option String) (inplace : Bool) (st : RegState) :
    (Except Err (Option (DFrame ℚ)) × DFrame ℚ) × RegState :=
  match F.withContext.filter o keep filters with
  | .error e => ((.error e, if inplace then F.withContext else F), st)
  | .ok T =>
    match unitGroups T with
    | .error e => ((.error e, if inplace then F.withContext else F), st)
    | .ok gs =>
      match convertLoopIn reg context unit gs F.withContext st with
      | ((.error e, G), st') => ((.error e, if inplace then G else F), st')
      | ((.ok _, G), st') => (if inplace then (.ok none, G) else (.ok (some G), F), st')

/-! ## Specification -/

/-- The warming potential of a gas in a metric, as in the table; that of CO2 is 1. -/
def Gwp (metric gas : String) (g : Fl ℚ) : Prop :=
  (gas = "CO2" ∧ g = .num 1 ∧ metric ∈ metricNames) ∨ MetricValue metric gas g

/-- Every value multiplied by a factor; missing values stay missing. -/
def scaleAll (f : ℚ) (vals : List (Fl ℚ)) : List (Fl ℚ) := vals.map (Fl.map (· * f))

/-! ## The state of the registry does not matter -/

/-- The converters of a frame. -/
def frameConv (reg : Registry ℚ) (st : RegState) (context : Option String) (unit u : String) :
    Except Err (Fl ℚ → Fl ℚ) :=
  match (unitConverter reg ⟨context, u, unit⟩ st).1 with
  | .error e => .error e
  | .ok c => .ok c.apply

theorem afterReqs_snoc (reg : Registry ℚ) (qs : List ConvReq) (q : ConvReq) (st : RegState) :
    afterReqs reg (qs ++ [q]) st = (unitConverter reg q (afterReqs reg qs st)).2 := by
  induction qs generalizing st with
  | nil => rfl
  | cons p r ih => exact ih _

theorem convertLoopIn_eq {reg : Registry ℚ} (hreg : HasGases reg)
    {own : List (String × List (Edge ℚ))} (hown : ∀ n ∈ scmContexts, n ∉ own.map Prod.fst)
    (context : Option String) (unit : String) (gs : List (String × List Nat)) (F : DFrame ℚ) (before : List ConvReq) :
    (convertLoopIn reg context unit gs F (afterReqs reg before (importState own))).1
      = convertLoop (frameConv reg (importState own) context unit) unit (contextVal context) gs F := by
  induction gs generalizing F before with
  | nil => rfl
  | cons g r ih =>
    obtain ⟨u, ls⟩ := g
    have h := C74_history hreg hown before ⟨context, u, unit⟩
    have hs := afterReqs_snoc reg before ⟨context, u, unit⟩ (importState own)
    simp only [convertLoopIn, convertLoop, frameConv, ← h]
    generalize unitConverter reg ⟨context, u, unit⟩ (afterReqs reg before (importState own)) = k at hs
    obtain ⟨k1, k2⟩ := k
    cases k1 with
    | error e => rfl
    | ok c =>
      simp only at hs ⊢
      rw [← hs]
      exact ih _ _

/-- **C77**: whatever units have been converted before, the call does what it does right after import. -/
theorem convertUnitIn_eq {reg : Registry ℚ} (hreg : HasGases reg)
    {own : List (String × List (Edge ℚ))} (hown : ∀ n ∈ scmContexts, n ∉ own.map Prod.fst) (before : List ConvReq)
    (F : DFrame ℚ) (o : FilterOpts ℚ) (keep : Bool) (filters : List (String × PyArg ℚ)) (unit : String)
    (context : Option String) (inplace : Bool) :
    (F.convertUnitIn reg o keep filters unit context inplace (afterReqs reg before (importState own))).1
      = F.convertUnit (frameConv reg (importState own) context unit) o keep filters unit (contextVal context) inplace := by
  unfold DFrame.convertUnitIn DFrame.convertUnit
  cases F.withContext.filter o keep filters with
  | error e => rfl
  | ok T =>
    dsimp only
    cases unitGroups T with
    | error e => rfl
    | ok gs =>
      dsimp only
      have h := convertLoopIn_eq hreg hown context unit gs F.withContext before
      rw [← h]
      generalize convertLoopIn reg context unit gs F.withContext (afterReqs reg before (importState own)) = k
      obtain ⟨⟨k1, k2⟩, k3⟩ := k
      cases k1 <;> rfl

/-- **C77**: the result does not depend on what has been converted before. -/
theorem C77_history {reg : Registry ℚ} (hreg : HasGases reg)
    {own : List (String × List (Edge ℚ))} (hown : ∀ n ∈ scmContexts, n ∉ own.map Prod.fst) (before : List ConvReq)
    (F : DFrame ℚ) (o : FilterOpts ℚ) (keep : Bool) (filters : List (String × PyArg ℚ)) (unit : String)
    (context : Option String) (inplace : Bool) :
    (F.convertUnitIn reg o keep filters unit context inplace (afterReqs reg before (importState own))).1
      = (F.convertUnitIn reg o keep filters unit context inplace (importState own)).1 := by
  rw [convertUnitIn_eq hreg hown before]
  exact (convertUnitIn_eq hreg hown [] F o keep filters unit context inplace).symm

/-! ## Factors -/

theorem gwp_converts {reg : Registry ℚ} (hreg : HasGases reg) {metric x y : String} {gx gy : Fl ℚ}
    (hx : Gwp metric x gx) (hy : Gwp metric y gy) (hxy : x ≠ y) {φ : Form} {a b : String} {m m' : ℚ}
    (ha : InForm reg φ x m a) (hb : InForm reg φ y m' b) :
    ∃ ctx, contextOf reg metric = .ok ctx ∧
      ConvertsBy reg ctx a b (Fl.map₂ (fun gx gy => gx / gy * m / m') gx gy) := by
  rcases hx with ⟨rfl, rfl, hm⟩ | hx
  · rcases hy with ⟨rfl, -, -⟩ | hy
    · exact absurd rfl hxy
    · obtain ⟨ctx, h1, h2⟩ := C35_from_co2 hreg hy ha hb
      refine ⟨ctx, h1, ?_⟩
      cases gy <;> exact h2
  · rcases hy with ⟨rfl, rfl, -⟩ | hy
    · obtain ⟨ctx, h1, h2⟩ := C35_to_co2 hreg hx ha hb
      refine ⟨ctx, h1, ?_⟩
      cases gx with
      | nan => exact h2
      | num g =>
        simp only [Fl.map₂, div_one]
        exact h2
    · exact C35_ratio hreg hx hy hxy ha hb

theorem Gwp.metric {metric gas : String} {g : Fl ℚ} (h : Gwp metric gas g) : metric ∈ scmContexts := by
  have hm : metric ∈ metricNames := by
    rcases h with ⟨-, -, h⟩ | ⟨n, h, -⟩
    · exact h
    · exact List.mem_of_getElem? h
  simp only [metricNames, scmContexts, List.mem_cons, List.not_mem_nil, or_false] at hm ⊢
  rcases hm with h | h | h <;> simp [h]

/-- Warming potentials are not zero. -/
theorem Gwp.ne_zero {metric gas : String} {g : ℚ} (h : Gwp metric gas (.num g)) : g ≠ 0 := by
  rcases h with ⟨-, h, -⟩ | ⟨n, hn, h⟩
  · injection h with h
    rw [h]
    exact one_ne_zero
  · have hlt : n < 3 := (List.getElem?_eq_some_iff.1 hn).1
    have key : ∀ k < 3, ∀ e ∈ metricColumn k, e.2 ≠ .num 0 := by decide +kernel
    rintro rfl
    exact key n hlt _ h rfl

theorem InForm.ne_zero {reg : Registry ℚ} {φ : Form} {gas a : String} {m : ℚ} (h : InForm reg φ gas m a) : m ≠ 0 := by
  obtain ⟨s, u, _, _, _, _, _, h⟩ := h
  rintro rfl
  exact s.scale_ne (by rw [h, zero_mul])

/-- The converter of a frame in a metric. -/
theorem frameConv_metric {reg : Registry ℚ} (hreg : HasGases reg)
    {own : List (String × List (Edge ℚ))} (hown : ∀ n ∈ scmContexts, n ∉ own.map Prod.fst)
    {metric x y : String} {gx gy : Fl ℚ}
    (hx : Gwp metric x gx) (hy : Gwp metric y gy) (hxy : x ≠ y) {φ : Form} {a b : String} {m m' : ℚ}
    (ha : InForm reg φ x m a) (hb : InForm reg φ y m' b) :
    ∃ f, frameConv reg (importState own) (some metric) b a = .ok f ∧
      ∀ v, f v = Fl.map₂ (fun v k => v * k) v (Fl.map₂ (fun gx gy => gx / gy * m / m') gx gy) := by
  obtain ⟨ctx, h1, c, h2, h3⟩ := gwp_converts hreg hx hy hxy ha hb
  have hk : ConvReq.Known reg ⟨some metric, a, b⟩ := by
    obtain ⟨s, _, _, hs, _⟩ := ha
    obtain ⟨t, _, _, ht, _⟩ := hb
    exact ⟨s, t, hs, ht⟩
  obtain ⟨ctx', h4, h5⟩ := ((C74_result hreg hown a b metric).2 hk).2 hx.metric
  rw [h1] at h4
  cases h4
  refine ⟨c.apply, by unfold frameConv; rw [h5, h2], fun v => ?_⟩
  cases v with
  | nan => rfl
  | num v =>
    show c.convertFrom v = _
    rw [h3]
    generalize Fl.map₂ (fun gx gy => gx / gy * m / m') gx gy = k
    cases k <;> rfl

/-! ## C77 -/

section
variable {reg : Registry ℚ} {own : List (String × List (Edge ℚ))} {F : DFrame ℚ} {o : FilterOpts ℚ} {keep : Bool}
  {filters : List (String × PyArg ℚ)} {unit : String} {inplace : Bool} {res : Option (DFrame ℚ)} {F' : DFrame ℚ}

/-- One converted timeseries. -/
theorem RowConverted.of_selected {conv : String → Except Err (Fl ℚ → Fl ℚ)} {ctx : PyVal ℚ} {cols : List String}
    (hn : cols.Nodup) (hu : "unit" ∈ cols) (hc : "unit_context" ∈ cols) {sel : SRow ℚ → Prop} {rd rd' : SRow ℚ}
    (h : RowConverted conv unit ctx cols sel rd rd') (hl : rd.1.2.length = cols.length) (hs : sel rd) {a : String}
    (ha : unitIn cols rd.1.2 = .str a) {f : Fl ℚ → Fl ℚ} (hf : conv a = .ok f) :
    rd'.2 = (rd.2.1, rd.2.2.map f) ∧ rd'.1.2.length = rd.1.2.length ∧
      rd'.1.2[cols.idxOf "unit"]? = some (.str unit) ∧ rd'.1.2[cols.idxOf "unit_context"]? = some ctx ∧
      AgreeButUnit cols rd.1.2 rd'.1.2 := by
  have huni : ∀ j, cols[j]? = some "unit" → j = cols.idxOf "unit" := fun j hj => (idxOf_of_getElem? hn hj).symm
  have hrow := getElem?_idxOf_unit hu hl
  rw [ha] at hrow
  cases h with
  | @converted l l' row row' vals j u f' hs' hj hrow' hcf hlen p1 p2 p3 =>
    obtain rfl := huni j hj
    simp only at hrow hl
    rw [hrow] at hrow'
    cases hrow'
    rw [hf] at hcf
    cases hcf
    have l1 := List.idxOf_lt_length_of_mem hu
    have l2 := List.idxOf_lt_length_of_mem hc
    have e1 := List.getElem?_eq_getElem (l := row') (i := cols.idxOf "unit") (by omega)
    have e2 := List.getElem?_eq_getElem (l := row') (i := cols.idxOf "unit_context") (by omega)
    refine ⟨rfl, hlen, ?_, ?_, p3⟩
    · simp only
      rw [e1, p1 _ _ (getElem?_idxOf' hu) e1]
    · simp only
      rw [e2, p2 _ _ (getElem?_idxOf' hc) e2]
  | unselected hns => exact absurd hs hns
  | @noUnit _ j v hj hv hvn =>
    obtain rfl := huni j hj
    rw [hrow] at hv
    cases hv
    exact absurd rfl (hvn a)

/-- **C77**: in the context of a metric every selected timeseries of a gas `x` is multiplied by the ratio of the
warming potentials of `x` and the gas `y` it is converted to (and of the units); where the metric has no value for a gas,
all values are missing. Its unit and the metric are noted, and its other metadata kept. -/
theorem C77_metric (hreg : HasGases reg) (hown : ∀ n ∈ scmContexts, n ∉ own.map Prod.fst) (before : List ConvReq)
    (hF : F.Ok) (hr : ∀ c ∈ requiredCols, c ∈ F.cols) {metric : String}
    (h : (F.convertUnitIn reg o keep filters unit (some metric) inplace (afterReqs reg before (importState own))).1
      = (.ok res, F')) :
    ∃ G, res = (if inplace then none else some G) ∧ F' = (if inplace then G else F) ∧ G.times = F.times ∧
      ∀ {x y : String} {gx gy : Fl ℚ}, Gwp metric x gx → Gwp metric y gy → x ≠ y →
      ∀ {φ : Form} {a : String} {m m' : ℚ}, InForm reg φ x m a → InForm reg φ y m' unit →
      ∀ {i : Nat} {rd : SRow ℚ}, F.withContext.rows[i]? = some rd →
        Selected o keep filters F.times F.withContext.cols rd → unitIn F.withContext.cols rd.1.2 = .str a →
        (∃ l vals, G.data[i]? = some (l, vals) ∧ match gx, gy with
          | .num p, .num q => vals = scaleAll (p / q * m / m') rd.2.2
          | _, _ => vals = rd.2.2.map fun _ => .nan) ∧
        (∀ v, G.HasMeta i "unit" v ↔ v = .str unit) ∧ (∀ v, G.HasMeta i "unit_context" v ↔ v = .str metric) ∧
        ∀ c v, c ≠ "unit" → c ≠ "unit_context" → (G.HasMeta i c v ↔ F.HasMeta i c v) := by
  rw [convertUnitIn_eq hreg hown before] at h
  obtain ⟨G, e1, e2, g1, g2, g3, g4⟩ := C53_converted hF hr h
  refine ⟨G, e1, e2, g2, fun {x y gx gy} hx hy hxy {φ a m m'} ha hb {i rd} hi hs hu => ?_⟩
  obtain ⟨f, hf, hfv⟩ := frameConv_metric hreg hown hx hy hxy ha hb
  obtain ⟨hum, hcm⟩ := unit_mem_withContext hF hr
  obtain ⟨r1, r2, r3, r4, r5⟩ := hF.withContext.rows_ok
  have hlt := (List.getElem?_eq_some_iff.1 hi).1
  have hlt' : i < G.rows.length := g4.length_eq ▸ hlt
  have hrel := g4.get hlt hlt'
  have hrd : F.withContext.rows[i] = rd := (List.getElem?_eq_some_iff.1 hi).2
  simp only [List.get_eq_getElem] at hrel
  rw [hrd] at hrel
  obtain ⟨k1, k2, k3, k4, k5⟩ := hrel.of_selected r3 hum hcm (r5 rd (List.mem_of_getElem? hi)) hs hu hf
  have hd : G.data[i]? = some (rd.2.1, rd.2.2.map f) := by
    rw [g1.data_eq, List.getElem?_map, List.getElem?_eq_getElem hlt', Option.map_some, k1]
  have hm : G.meta[i]? = some (G.rows[i]).1 := by
    rw [g1.meta_eq, List.getElem?_map, List.getElem?_eq_getElem hlt', Option.map_some]
  have hm0 : F.withContext.meta[i]? = some rd.1 := by
    rw [hF.withContext.meta_eq, List.getElem?_map, hi, Option.map_some]
  have hcols : ∀ {c : String} {j : Nat}, F.withContext.cols[j]? = some c → j = F.withContext.cols.idxOf c :=
    fun hj => (idxOf_of_getElem? r3 hj).symm
  obtain ⟨-, -, -, -, s5, -⟩ := withContext_spec hF hr
  refine ⟨⟨_, _, hd, ?_⟩, fun v => ?_, fun v => ?_, fun c v hc1 hc2 => ?_⟩
  · cases gx with
    | nan => exact List.map_congr_left fun v _ => by rw [hfv]; cases v <;> rfl
    | num p =>
      cases gy with
      | nan => exact List.map_congr_left fun v _ => by rw [hfv]; cases v <;> rfl
      | num q => exact List.map_congr_left fun v _ => by rw [hfv]; cases v <;> rfl
  · constructor
    · rintro ⟨j, r, h1, h2, h3⟩
      rw [hm] at h2
      cases h2
      rw [g3] at h1
      rw [hcols h1, k3] at h3
      exact (Option.some.inj h3).symm
    · rintro rfl
      exact ⟨_, _, by rw [g3]; exact getElem?_idxOf' hum, hm, k3⟩
  · constructor
    · rintro ⟨j, r, h1, h2, h3⟩
      rw [hm] at h2
      cases h2
      rw [g3] at h1
      rw [hcols h1, k4] at h3
      exact (Option.some.inj h3).symm
    · rintro rfl
      exact ⟨_, _, by rw [g3]; exact getElem?_idxOf' hcm, hm, k4⟩
  · rw [← s5 i c v hc2]
    constructor
    · rintro ⟨j, r, h1, h2, h3⟩
      rw [hm] at h2
      cases h2
      rw [g3] at h1
      exact ⟨j, _, h1, hm0, by rw [← k5 j c h1 hc1 hc2]; exact h3⟩
    · rintro ⟨j, r, h1, h2, h3⟩
      rw [hm0] at h2
      cases h2
      exact ⟨j, _, by rw [g3]; exact h1, hm, by rw [k5 j c h1 hc1 hc2]; exact h3⟩

/-- **C77**: exactly when the call works, if the filter does and all selected timeseries have strings as units or none:
each of the units is known and of the same dimension as the wanted one, or both stand for gases of the metric in the same
form. -/
theorem C77_works (hreg : HasGases reg) (hown : ∀ n ∈ scmContexts, n ∉ own.map Prod.fst) (before : List ConvReq)
    (hF : F.Ok) (hr : ∀ c ∈ requiredCols, c ∈ F.cols) {metric : String} (hm : metric ∈ metricNames) (unit : String)
    (inplace : Bool) {T : DFrame ℚ} (hT : F.withContext.filter o keep filters = .ok T)
    (hs : ∀ rd ∈ F.withContext.rows, Selected o keep filters F.times F.withContext.cols rd →
      (∃ u, unitIn F.withContext.cols rd.1.2 = .str u) ∨ unitIn F.withContext.cols rd.1.2 = .none ∨
        unitIn F.withContext.cols rd.1.2 = .flt .nan) :
    (∃ r F', (F.convertUnitIn reg o keep filters unit (some metric) inplace
        (afterReqs reg before (importState own))).1 = (.ok r, F')) ↔
      ∀ rd ∈ F.withContext.rows, Selected o keep filters F.times F.withContext.cols rd →
        ∀ u, unitIn F.withContext.cols rd.1.2 = .str u →
          ∃ s t, reg u = some s ∧ reg unit = some t ∧ (s.dim = t.dim ∨ ∃ (φ : Form) (x y : String),
            s.dim = φ.dim x ∧ t.dim = φ.dim y ∧ KnownBase reg metric x ∧ KnownBase reg metric y) := by
  rw [convertUnitIn_eq hreg hown before, (C53_works hF hr unit (contextVal (some metric)) inplace hT hs).1]
  refine forall_congr' fun rd => forall_congr' fun _ => forall_congr' fun _ => forall_congr' fun u =>
    forall_congr' fun _ => ?_
  rw [← C74_metric_iff hreg hown hm u unit]
  unfold frameConv
  cases (unitConverter reg ⟨some metric, u, unit⟩ (importState own)).1 with
  | error e => simp
  | ok c => simp

/-- **C77**: to another gas and back in the same metric restores all values and units. -/
theorem C77_back (hreg : HasGases reg) (hown : ∀ n ∈ scmContexts, n ∉ own.map Prod.fst) (before before' : List ConvReq)
    (hF : F.Ok) (hr : ∀ c ∈ requiredCols, c ∈ F.cols) (hf : NotAboutUnits filters) {metric : String} {x y : String}
    {p q : ℚ} (hx : Gwp metric x (.num p)) (hy : Gwp metric y (.num q)) (hxy : x ≠ y) {φ : Form} {a b : String} {m m' : ℚ}
    (ha : InForm reg φ x m a) (hb : InForm reg φ y m' b)
    (hsel : ∀ rd ∈ F.withContext.rows, Selected o keep filters F.times F.withContext.cols rd →
      ∀ u, unitIn F.withContext.cols rd.1.2 = .str u → u = a)
    {G H F' G' : DFrame ℚ}
    (h1 : (F.convertUnitIn reg o keep filters b (some metric) false (afterReqs reg before (importState own))).1
      = (.ok (some G), F'))
    (h2 : (G.convertUnitIn reg o keep filters a (some metric) false (afterReqs reg before' (importState own))).1
      = (.ok (some H), G')) :
    H.times = F.times ∧ H.data = F.data ∧ H.cols = F.withContext.cols ∧
    ∀ i c v, c ≠ "unit_context" → (H.HasMeta i c v ↔ F.HasMeta i c v) := by
  rw [convertUnitIn_eq hreg hown] at h1 h2
  obtain ⟨f, hf1, hf2⟩ := frameConv_metric hreg hown hx hy hxy ha hb
  obtain ⟨g, hg1, hg2⟩ := frameConv_metric hreg hown hy hx hxy.symm hb ha
  refine convert_back hF hr hf hsel ⟨?_, ?_⟩ h1 h2
  · intro f' hf' v
    rw [hf1] at hf'
    cases hf'
    rw [hf2]
    exact ⟨_, rfl⟩
  · intro f' g' hf' hg' v
    rw [hf1] at hf'
    cases hf'
    rw [hg1] at hg'
    cases hg'
    rw [hf2, hg2]
    cases v with
    | nan => rfl
    | num v =>
      have := hx.ne_zero; have := hy.ne_zero; have := ha.ne_zero; have := hb.ne_zero
      simp only [Fl.map₂]
      congr 1
      field_simp

/-- The metric in which values were converted is noted but not checked: converting back in another metric is accepted and
multiplies them by the ratio of the two warming potentials. -/
theorem C77_other_metric (hreg : HasGases reg) (hown : ∀ n ∈ scmContexts, n ∉ own.map Prod.fst)
    (before before' : List ConvReq) (hF : F.Ok) (hr : ∀ c ∈ requiredCols, c ∈ F.cols) (hf : NotAboutUnits filters)
    {metric metric' gas : String} {p q : ℚ} (hx : Gwp metric gas (.num p)) (hy : Gwp metric' gas (.num q))
    (hco2 : gas ≠ "CO2") {φ : Form} {a b : String} {m m' : ℚ} (ha : InForm reg φ gas m a) (hb : InForm reg φ "CO2" m' b)
    {G H F' G' : DFrame ℚ}
    (h1 : (F.convertUnitIn reg o keep filters b (some metric) false (afterReqs reg before (importState own))).1
      = (.ok (some G), F'))
    (h2 : (G.convertUnitIn reg o keep filters a (some metric') false (afterReqs reg before' (importState own))).1
      = (.ok (some H), G'))
    {i : Nat} {rd : SRow ℚ} (hi : F.withContext.rows[i]? = some rd)
    (hs : Selected o keep filters F.times F.withContext.cols rd) (hu : unitIn F.withContext.cols rd.1.2 = .str a) :
    G.HasMeta i "unit_context" (.str metric) ∧ H.HasMeta i "unit" (.str a) ∧
      ∃ l, H.data[i]? = some (l, scaleAll (p / q) rd.2.2) := by
  have hc : ∀ {metric : String} {g : Fl ℚ}, Gwp metric gas g → Gwp metric "CO2" (.num 1) := by
    rintro metric g (⟨_, _, h⟩ | ⟨n, h, _⟩)
    · exact .inl ⟨rfl, rfl, h⟩
    · exact .inl ⟨rfl, rfl, List.mem_of_getElem? h⟩
  obtain ⟨G1, e1, -, -, h3⟩ := C77_metric hreg hown before hF hr h1
  simp only [Bool.false_eq_true, if_false, Option.some.injEq] at e1
  subst e1
  obtain ⟨⟨l, vals, d1, d2⟩, -, d4, -⟩ := h3 hx (hc hx) hco2 ha hb hi hs hu
  simp only [div_one] at d2
  -- the frame in between
  have h1' := h1
  rw [convertUnitIn_eq hreg hown] at h1'
  obtain ⟨G1, e1, -, g1, g2, g3, g4⟩ := C53_converted hF hr h1'
  simp only [Bool.false_eq_true, if_false, Option.some.injEq] at e1
  subst e1
  obtain ⟨hum, hcm⟩ := unit_mem_withContext hF hr
  have hGc : G.withContext = G := by
    unfold DFrame.withContext
    rw [if_pos (g3 ▸ hcm)]
  have hrG : ∀ c ∈ requiredCols, c ∈ G.cols := by
    intro c hcr
    rw [g3]
    exact ((withContext_spec hF hr).2.2.2.1 c).2 (.inl (hr c hcr))
  obtain ⟨f, hf1, hf2⟩ := frameConv_metric hreg hown hx (hc hx) hco2 ha hb
  obtain ⟨r1, r2, r3, r4, r5⟩ := hF.withContext.rows_ok
  have hlt := (List.getElem?_eq_some_iff.1 hi).1
  have hlt' : i < G.rows.length := g4.length_eq ▸ hlt
  have hrel := g4.get hlt hlt'
  have hrd : F.withContext.rows[i] = rd := (List.getElem?_eq_some_iff.1 hi).2
  simp only [List.get_eq_getElem] at hrel
  rw [hrd] at hrel
  obtain ⟨k1, k2, k3, k4, k5⟩ := hrel.of_selected r3 hum hcm (r5 rd (List.mem_of_getElem? hi)) hs hu hf1
  have hiG : G.withContext.rows[i]? = some G.rows[i] := by rw [hGc]; exact List.getElem?_eq_getElem hlt'
  have hsG : Selected o keep filters G.times G.withContext.cols G.rows[i] := by
    rw [hGc, g2, g3]
    obtain ⟨k, t, v, q1, q2, q3⟩ := hs
    refine ⟨k, t, v * (p / 1 * m / m'), q1, ?_, by rw [matches_agree hf k5]; exact q3⟩
    rw [k1]
    simp only
    rw [List.getElem?_map, q2, Option.map_some, hf2]
    rfl
  have huG : unitIn G.withContext.cols (G.rows[i]).1.2 = .str b := by
    rw [hGc, g3]
    unfold unitIn
    rw [List.getD_eq_getElem?_getD, k3, Option.getD_some]
  obtain ⟨H1, e2, -, -, h4⟩ := C77_metric hreg hown before' g1 hrG h2
  simp only [Bool.false_eq_true, if_false, Option.some.injEq] at e2
  subst e2
  obtain ⟨⟨l', vals', d5, d6⟩, d7, -, -⟩ := h4 (hc hy) hy (Ne.symm hco2) hb ha hiG hsG huG
  refine ⟨(d4 _).2 rfl, (d7 _).2 rfl, l', ?_⟩
  have hdv : (G.rows[i]).2.2 = vals := by
    rw [g1.data_eq, List.getElem?_map, List.getElem?_eq_getElem hlt', Option.map_some] at d1
    have := Option.some.inj d1
    rw [this]
  simp only at d6
  rw [d5, d6, hdv, d2]
  unfold scaleAll
  rw [List.map_map]
  refine congrArg some (Prod.ext rfl (List.map_congr_left fun v _ => ?_))
  have := hx.ne_zero; have := hy.ne_zero; have := ha.ne_zero; have := hb.ne_zero
  cases v with
  | nan => rfl
  | num v =>
    simp only [Function.comp, Fl.map]
    congr 1
    field_simp

end

/-! ## Cases -/

/-- Emissions of methane and of carbon dioxide. -/
def emissionsF : DFrame ℚ :=
  { times := [0, 100]
    cols := ["model", "scenario", "region", "variable", "unit"]
    data := [(0, [.num 2, .nan]), (1, [.num 7, .num 9])]
    «meta» := [(0, [.str "m", .str "a", .str "World", .str "E", .str "tCH4"]),
      (1, [.str "m", .str "a", .str "World", .str "C", .str "gCO2"])] }

theorem emissionsF_ok : emissionsF.Ok where
  labels := by decide +kernel
  nodup := by decide +kernel
  cols_nodup := by decide +kernel
  data_len := by decide +kernel
  meta_len := by decide +kernel

/-- The hypotheses of `C77_metric` met: 2 t of methane become 56000000 g of carbon dioxide, which itself is left as it
is. -/
example : ∃ G F', (emissionsF.convertUnitIn gasRegistry demoO true [] "gCO2" (some "AR5GWP100") false
      (importState [])).1 = (.ok (some G), F') ∧
    (∃ l, G.data[0]? = some (l, [.num 56000000, .nan])) ∧ G.HasMeta 0 "unit_context" (.str "AR5GWP100") := by
  have hreg : HasGases gasRegistry := fun a u h => h
  have hown : ∀ n ∈ scmContexts, n ∉ ([] : List (String × List (Edge ℚ))).map Prod.fst := by decide
  obtain ⟨hm, _, _, _, hch4, hco2, _⟩ := C35_example
  obtain ⟨s1, u1, b1, i1, i2, i3, i4, i5⟩ := id hch4
  obtain ⟨s2, u2, b2, j1, j2, j3, j4, j5⟩ := id hco2
  have hr : ∀ c ∈ requiredCols, c ∈ emissionsF.cols := by decide +kernel
  have hT : ∃ T, emissionsF.withContext.filter demoO true [] = .ok T := ⟨_, rfl⟩
  obtain ⟨T, hT⟩ := hT
  have hrows : ∀ rd ∈ emissionsF.withContext.rows, unitIn emissionsF.withContext.cols rd.1.2 = .str "tCH4" ∨
      unitIn emissionsF.withContext.cols rd.1.2 = .str "gCO2" := by decide +kernel
  have hw := (C77_works hreg hown [] emissionsF_ok hr (metric := "AR5GWP100") (by decide) "gCO2" false hT
    (fun rd hrd _ => .inl ((hrows rd hrd).elim (⟨_, ·⟩) (⟨_, ·⟩)))).2 (by
      intro rd hrd _ u hu
      rcases hrows rd hrd with h | h
      · rw [h] at hu
        cases hu
        refine ⟨s1, s2, i1, j1, .inr ⟨.mass, b1, b2, i4, j4, .inr ⟨"CH4", _, u1, hm, i2, i3⟩, .inl ?_⟩⟩
        have h1 : rootOf scmDefs 1000 "CO2" = some (12 / 44, ["carbon"]) := rootOf_of_key (by decide +kernel)
        rw [gasRegistry_of (by norm_num) h1] at j2
        cases j2
        simpa [eq_comm] using j3
      · rw [h] at hu
        cases hu
        exact ⟨s2, s2, j1, j1, .inl rfl⟩)
  obtain ⟨r, F', h⟩ := hw
  obtain ⟨G, e1, e2, e3, e4⟩ := C77_metric hreg hown [] emissionsF_ok hr h
  simp only [Bool.false_eq_true, if_false] at e1
  subst e1
  obtain ⟨⟨l, vals, k1, k2⟩, -, k4, -⟩ := e4 (.inr hm) (.inl ⟨rfl, rfl, by decide⟩) (by decide) hch4 hco2 (i := 0) rfl
    ⟨0, 0, 2, rfl, rfl, by simp [Matches]⟩ (by decide +kernel)
  refine ⟨G, F', h, ⟨l, ?_⟩, (k4 _).2 rfl⟩
  rw [k1, k2]
  simp only [scaleAll]
  congr 2
  decide +kernel

end Openscm
