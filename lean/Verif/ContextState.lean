import Verif.ContextProps

/-!
# C74: unit converters and the state of the unit registry

`openscm/core/units.py:251-281`, `317-451`, `480-527`: the unit registry is one global object. Its
contexts are loaded when a context is used for the first time, and a context is active while a
converter is created. Here is that state, and what creating converters does to it.

Of pint: `add_context`, `enable_contexts`, `disable_contexts`, `context` (which disables the
context also when the conversion inside raises), and conversions with all active contexts.
pint's own contexts are an arbitrary list `own`.
-/

set_option linter.unusedSectionVars false

namespace Openscm

/-! ## Model -/

/-- The state of the global unit registry: `_contexts_loaded`, `_contexts` and the active contexts,
the one enabled last first. -/
structure RegState where
  loaded : Bool
  contexts : List (String × List (Edge ℚ))
  active : List (List (Edge ℚ))

/-- The registry after import, `openscm/core/units.py:454-460`. -/
def importState (own : List (String × List (Edge ℚ))) : RegState := ⟨false, own, []⟩

/-- `add_context` of pint: `_contexts[name] = context`. -/
def setContext (cs : List (String × List (Edge ℚ))) (name : String) (ctx : List (Edge ℚ)) :
    List (String × List (Edge ℚ)) :=
  if cs.any (fun c => c.1 = name) then cs.map fun c => if c.1 = name then (name, ctx) else c
  else cs ++ [(name, ctx)]

def addContext (st : RegState) (name : String) (ctx : List (Edge ℚ)) : RegState :=
  { st with contexts := setContext st.contexts name ctx }

/-- `_load_metric_conversions`, `openscm/core/units.py:356-451`: one context per column. -/
def loadMetrics (reg : Registry ℚ) : List (String × Nat) → RegState → Except Err Unit × RegState
  | [], st => (.ok (), st)
  | (name, n) :: r, st =>
    match metricContext reg (metricColumn n) with
    | .error e => (.error e, st)
    | .ok ctx => loadMetrics reg r (addContext st name ctx)

/-- `_load_contexts`, `openscm/core/units.py:317-354`. -/
def loadContexts (reg : Registry ℚ) (st : RegState) : Except Err Unit × RegState :=
  loadMetrics reg metricNames.zipIdx
    (addContext (addContext st "CH4_conversions" ch4Context) "NOx_conversions" noxContext)

/-- `enable_contexts` of pint for one name. -/
def pintEnable (name : String) (st : RegState) : Except Err Unit × RegState :=
  match st.contexts.lookup name with
  | none => (.error .keyError, st)
  | some ctx => (.ok (), { st with active := ctx :: st.active })

/-- `enable_contexts`, `openscm/core/units.py:272-281`. -/
def enableContext (reg : Registry ℚ) (name : String) (st : RegState) : Except Err Unit × RegState :=
  if st.loaded then pintEnable name { st with loaded := true }
  else
    match loadContexts reg st with
    | (.error e, st') => (.error e, st')
    | (.ok (), st') => pintEnable name { st' with loaded := true }

/-- `disable_contexts(1)` of pint. -/
def disableContext (st : RegState) : RegState := { st with active := st.active.tail }

/-- `Quantity(v, s).to(t)` of pint in a state of the registry; of several transformations between
the same dimensions that of the context enabled last is used. -/
def toIn (st : RegState) (s t : UDef ℚ) (v : ℚ) : Except Err (Fl ℚ) :=
  if st.active = [] then
    if s.dim = t.dim then .ok (.num (pintTo s t v)) else .error .dimensionality
  else ctxTo st.active.reverse.flatten s t v

/-- Lines 508-513 and 526-527 of `openscm/core/units.py`: scaling and offset from two samples. -/
def sampleConv (st : RegState) (s t : UDef ℚ) : Except Err (ConvFl ℚ) :=
  match toIn st s t 1, toIn st s t (-1) with
  | .ok t1, .ok t2 =>
    let scaling := (Fl.map₂ (· - ·) t2 t1).map (· / (-1 - 1))
    .ok { scaling := scaling, offset := Fl.map₂ (· - ·) t1 (scaling.map (· * 1)) }
  | .error e, _ => .error e
  | _, .error e => .error e

/-- A request for a converter: context, source unit, target unit. -/
structure ConvReq where
  context : Option String
  source : String
  target : String

/-- `UnitConverter.__init__`, `openscm/core/units.py:480-527`. -/
def unitConverter (reg : Registry ℚ) (q : ConvReq) (st : RegState) :
    Except Err (ConvFl ℚ) × RegState :=
  match reg q.source with
  | none => (.error .undefinedUnit, st)
  | some s =>
    match reg q.target with
    | none => (.error .undefinedUnit, st)
    | some t =>
      match q.context with
      | none => (sampleConv st s t, st)
      | some name =>
        match enableContext reg name st with
        | (.error e, st') => (.error e, st')
        | (.ok (), st') => (sampleConv st' s t, disableContext st')

/-- The state after a sequence of requests, whether they succeed or not. -/
def afterReqs (reg : Registry ℚ) : List ConvReq → RegState → RegState
  | [], st => st
  | q :: r, st => afterReqs reg r (unitConverter reg q st).2

/-- `UnitConverter.contexts`, `openscm/core/units.py:561-566`. -/
def contextNames (st : RegState) : List String := st.contexts.map Prod.fst

/-! ## Specification -/

/-- The contexts openscm adds. -/
def scmContexts : List String :=
  ["CH4_conversions", "NOx_conversions", "SARGWP100", "AR4GWP100", "AR5GWP100"]

/-- Both units are known. -/
def ConvReq.Known (reg : Registry ℚ) (q : ConvReq) : Prop :=
  ∃ s t, reg q.source = some s ∧ reg q.target = some t

/-- A request that makes the registry load its contexts. -/
def ConvReq.Loads (reg : Registry ℚ) (q : ConvReq) : Prop := q.context ≠ none ∧ q.Known reg

/-! ## What the states reached have in common -/

theorem setContext_new {cs : List (String × List (Edge ℚ))} {name : String} {ctx : List (Edge ℚ)}
    (h : name ∉ cs.map Prod.fst) : setContext cs name ctx = cs ++ [(name, ctx)] := by
  unfold setContext
  rw [if_neg]
  intro h'
  obtain ⟨c, hc, hn⟩ := List.any_eq_true.1 h'
  exact h (List.mem_map.2 ⟨c, hc, by simpa using hn⟩)

/-- The contexts openscm adds, with their transformations. -/
def Loaded (reg : Registry ℚ) (mine : List (String × List (Edge ℚ))) : Prop :=
  mine.map Prod.fst = scmContexts ∧ ∀ c ∈ mine, contextOf reg c.1 = .ok c.2

theorem loadContexts_eq {reg : Registry ℚ} (hreg : HasGases reg)
    {own : List (String × List (Edge ℚ))} (hown : ∀ n ∈ scmContexts, n ∉ own.map Prod.fst)
    (b : Bool) (act : List (List (Edge ℚ))) :
    ∃ mine, Loaded reg mine ∧ loadContexts reg ⟨b, own, act⟩ = (.ok (), ⟨b, own ++ mine, act⟩) := by
  obtain ⟨c0, _, _, _, h0, _⟩ := metric_setup hreg 0
  obtain ⟨c1, _, _, _, h1, _⟩ := metric_setup hreg 1
  obtain ⟨c2, _, _, _, h2, _⟩ := metric_setup hreg 2
  refine ⟨[("CH4_conversions", ch4Context), ("NOx_conversions", noxContext), ("SARGWP100", c0),
    ("AR4GWP100", c1), ("AR5GWP100", c2)], ⟨rfl, ?_⟩, ?_⟩
  · intro c hc
    simp only [List.mem_cons, List.not_mem_nil, or_false] at hc
    rcases hc with rfl | rfl | rfl | rfl | rfl
    · rfl
    · rfl
    · exact (contextOf_metric (n := 0) rfl).trans h0
    · exact (contextOf_metric (n := 1) rfl).trans h1
    · exact (contextOf_metric (n := 2) rfl).trans h2
  · have e : metricNames.zipIdx = [("SARGWP100", 0), ("AR4GWP100", 1), ("AR5GWP100", 2)] := rfl
    have k0 := hown "CH4_conversions" (by decide)
    have k1 := hown "NOx_conversions" (by decide)
    have k2 := hown "SARGWP100" (by decide)
    have k3 := hown "AR4GWP100" (by decide)
    have k4 := hown "AR5GWP100" (by decide)
    unfold loadContexts
    rw [e]
    simp only [loadMetrics, h0, h1, h2, addContext]
    rw [setContext_new k0,
      setContext_new (name := "NOx_conversions") (by simp only [List.map_append, List.mem_append, not_or]; exact ⟨k1, by simp⟩),
      setContext_new (name := "SARGWP100") (by simp only [List.map_append, List.mem_append, not_or]; exact ⟨⟨k2, by simp⟩, by simp⟩),
      setContext_new (name := "AR4GWP100") (by simp only [List.map_append, List.mem_append, not_or]; exact ⟨⟨⟨k3, by simp⟩, by simp⟩, by simp⟩),
      setContext_new (name := "AR5GWP100") (by simp only [List.map_append, List.mem_append, not_or]; exact ⟨⟨⟨⟨k4, by simp⟩, by simp⟩, by simp⟩, by simp⟩)]
    simp only [List.append_assoc, List.cons_append, List.nil_append]

/-- The states of the registry that can be reached: before and after loading. -/
def RegOK (own mine : List (String × List (Edge ℚ))) (st : RegState) : Prop :=
  st = ⟨false, own, []⟩ ∨ st = ⟨true, own ++ mine, []⟩

section
variable {reg : Registry ℚ} {own mine : List (String × List (Edge ℚ))}

theorem enable_eq (hload : loadContexts reg ⟨false, own, []⟩ = (.ok (), ⟨false, own ++ mine, []⟩))
    {st : RegState} (h : RegOK own mine st) (name : String) :
    enableContext reg name st = pintEnable name ⟨true, own ++ mine, []⟩ := by
  rcases h with rfl | rfl
  · simp only [enableContext, Bool.false_eq_true, if_false]
    rw [hload]
  · rfl

/-- The converter and the next state, for a state that can be reached. -/
theorem unitConverter_eq
    (hload : loadContexts reg ⟨false, own, []⟩ = (.ok (), ⟨false, own ++ mine, []⟩))
    {st : RegState} (h : RegOK own mine st) (q : ConvReq) :
    (unitConverter reg q st).1 = (unitConverter reg q ⟨true, own ++ mine, []⟩).1 ∧
    ((¬ q.Loads reg ∧ (unitConverter reg q st).2 = st) ∨
      (q.Loads reg ∧ (unitConverter reg q st).2 = ⟨true, own ++ mine, []⟩)) := by
  have hact : st.active = [] := by rcases h with rfl | rfl <;> rfl
  unfold unitConverter
  cases hs : reg q.source with
  | none => exact ⟨rfl, Or.inl ⟨fun ⟨_, s, t, h1, h2⟩ => (by rw [hs] at h1; cases h1), rfl⟩⟩
  | some s =>
    cases ht : reg q.target with
    | none => exact ⟨rfl, Or.inl ⟨fun ⟨_, s, t, h1, h2⟩ => (by rw [ht] at h2; cases h2), rfl⟩⟩
    | some t =>
      cases hc : q.context with
      | none =>
        refine ⟨?_, Or.inl ⟨fun ⟨h1, _⟩ => h1 hc, rfl⟩⟩
        simp only [sampleConv, toIn, hact]
      | some name =>
        have hl : q.Loads reg := ⟨by rw [hc]; simp, s, t, hs, ht⟩
        dsimp only
        rw [enable_eq hload h, enable_eq hload (Or.inr rfl)]
        refine ⟨rfl, Or.inr ⟨hl, ?_⟩⟩
        unfold pintEnable
        cases (own ++ mine).lookup name <;> rfl

theorem afterReqs_ok
    (hload : loadContexts reg ⟨false, own, []⟩ = (.ok (), ⟨false, own ++ mine, []⟩))
    (qs : List ConvReq) {st : RegState} (h : RegOK own mine st) :
    ((∀ q ∈ qs, ¬ q.Loads reg) ∧ afterReqs reg qs st = st) ∨
      ((∃ q ∈ qs, q.Loads reg) ∧ afterReqs reg qs st = ⟨true, own ++ mine, []⟩) := by
  induction qs generalizing st with
  | nil => exact Or.inl ⟨by simp, rfl⟩
  | cons q r ih =>
    rcases (unitConverter_eq hload h q).2 with ⟨h1, h2⟩ | ⟨h1, h2⟩
    · rcases ih (st := (unitConverter reg q st).2) (by rw [h2]; exact h) with ⟨h3, h4⟩ | ⟨⟨q', hq', h3⟩, h4⟩
      · refine Or.inl ⟨fun q' hq' => ?_, h4.trans h2⟩
        rcases List.mem_cons.1 hq' with rfl | hq'
        · exact h1
        · exact h3 q' hq'
      · exact Or.inr ⟨⟨q', List.mem_cons_of_mem _ hq', h3⟩, h4⟩
    · refine Or.inr ⟨⟨q, List.mem_cons_self .., h1⟩, ?_⟩
      rcases ih (st := (unitConverter reg q st).2) (Or.inr h2) with ⟨_, h4⟩ | ⟨_, h4⟩
      · exact h4.trans h2
      · exact h4

theorem afterReqs_RegOK
    (hload : loadContexts reg ⟨false, own, []⟩ = (.ok (), ⟨false, own ++ mine, []⟩))
    (qs : List ConvReq) {st : RegState} (h : RegOK own mine st) :
    RegOK own mine (afterReqs reg qs st) := by
  rcases afterReqs_ok hload qs h with ⟨_, h1⟩ | ⟨_, h1⟩
  · rw [h1]; exact h
  · rw [h1]; exact Or.inr rfl

end

/-! ## C74 -/

/-- **C74**: what has been requested before, with or without contexts, successfully or not, does not
change which converter a request gives or which error it raises. -/
theorem C74_history {reg : Registry ℚ} (hreg : HasGases reg)
    {own : List (String × List (Edge ℚ))} (hown : ∀ n ∈ scmContexts, n ∉ own.map Prod.fst)
    (before : List ConvReq) (q : ConvReq) :
    (unitConverter reg q (afterReqs reg before (importState own))).1
      = (unitConverter reg q (importState own)).1 := by
  obtain ⟨mine, _, hload⟩ := loadContexts_eq hreg hown false []
  have h0 : RegOK own mine (importState own) := Or.inl rfl
  rw [(unitConverter_eq hload (afterReqs_RegOK hload before h0) q).1, (unitConverter_eq hload h0 q).1]

/-- **C74**: no context stays active. -/
theorem C74_none_active {reg : Registry ℚ} (hreg : HasGases reg)
    {own : List (String × List (Edge ℚ))} (hown : ∀ n ∈ scmContexts, n ∉ own.map Prod.fst)
    (before : List ConvReq) : (afterReqs reg before (importState own)).active = [] := by
  obtain ⟨mine, _, hload⟩ := loadContexts_eq hreg hown false []
  rcases afterReqs_RegOK hload before (Or.inl rfl : RegOK own mine (importState own)) with h | h <;>
    rw [h]

/-- **C74**: the list of contexts a converter shows is not constant: it names the contexts of openscm
only once a context has been asked for with two known units. -/
theorem C74_contexts {reg : Registry ℚ} (hreg : HasGases reg)
    {own : List (String × List (Edge ℚ))} (hown : ∀ n ∈ scmContexts, n ∉ own.map Prod.fst)
    (before : List ConvReq) :
    ((∃ q ∈ before, q.Loads reg) →
      contextNames (afterReqs reg before (importState own)) = own.map Prod.fst ++ scmContexts) ∧
    ((∀ q ∈ before, ¬ q.Loads reg) →
      contextNames (afterReqs reg before (importState own)) = own.map Prod.fst) := by
  obtain ⟨mine, ⟨hm, _⟩, hload⟩ := loadContexts_eq hreg hown false []
  rcases afterReqs_ok hload before (Or.inl rfl : RegOK own mine (importState own)) with
    ⟨h1, h2⟩ | ⟨⟨q, hq, h1⟩, h2⟩
  · exact ⟨fun ⟨q, hq, h⟩ => absurd h (h1 q hq), fun _ => by rw [h2]; rfl⟩
  · refine ⟨fun _ => ?_, fun h => absurd h1 (h q hq)⟩
    rw [h2]
    simp only [contextNames, List.map_append, hm]

theorem lookup_map_fst {α : Type} {l : List (String × α)} {n : String} {a : α}
    (h : l.lookup n = some a) : (n, a) ∈ l := by
  induction l with
  | nil => simp at h
  | cons c r ih =>
    rw [List.lookup_cons] at h
    split at h
    · rename_i hn
      rw [beq_iff_eq] at hn
      cases h
      subst hn
      exact List.mem_cons_self ..
    · exact List.mem_cons_of_mem _ (ih h)

theorem lookup_of_not_mem {α : Type} {l : List (String × α)} {n : String}
    (h : n ∉ l.map Prod.fst) : l.lookup n = none := by
  cases hl : l.lookup n with
  | none => rfl
  | some a => exact absurd (List.mem_map.2 ⟨_, lookup_map_fst hl, rfl⟩) h

theorem lookup_isSome_of_mem {α : Type} {l : List (String × α)} {n : String}
    (h : n ∈ l.map Prod.fst) : ∃ a, l.lookup n = some a := by
  induction l with
  | nil => simp at h
  | cons c r ih =>
    rw [List.lookup_cons]
    split
    · exact ⟨_, rfl⟩
    · rename_i hn
      rcases List.mem_cons.1 h with rfl | h
      · simp at hn
      · exact ih h

theorem sampleConv_ctx {reg : Registry ℚ} {ctx : List (Edge ℚ)} {st : RegState} {a b : String}
    {s t : UDef ℚ} (ha : reg a = some s) (hb : reg b = some t) (hst : st.active = [ctx]) :
    sampleConv st s t = mkConvCtx reg ctx a b := by
  unfold sampleConv mkConvCtx toIn
  rw [ha, hb, hst]
  simp only [List.cons_ne_self, if_false, List.reverse_singleton, List.flatten_singleton]
  cases ctxTo ctx s t 1 <;> cases ctxTo ctx s t (-1) <;> rfl

/-- **C74**: what a request gives. Unknown units are refused first, then unknown contexts; with a
context of openscm the conversion is that of the context. -/
theorem C74_result {reg : Registry ℚ} (hreg : HasGases reg)
    {own : List (String × List (Edge ℚ))} (hown : ∀ n ∈ scmContexts, n ∉ own.map Prod.fst)
    (a b : String) (name : String) :
    (¬ ConvReq.Known reg ⟨some name, a, b⟩ →
      (unitConverter reg ⟨some name, a, b⟩ (importState own)).1 = .error .undefinedUnit) ∧
    (ConvReq.Known reg ⟨some name, a, b⟩ →
      (name ∉ own.map Prod.fst ++ scmContexts →
        (unitConverter reg ⟨some name, a, b⟩ (importState own)).1 = .error .keyError) ∧
      (name ∈ scmContexts → ∃ ctx, contextOf reg name = .ok ctx ∧
        (unitConverter reg ⟨some name, a, b⟩ (importState own)).1 = mkConvCtx reg ctx a b)) := by
  constructor
  · intro h
    unfold unitConverter
    dsimp only
    cases hs : reg a with
    | none => rfl
    | some s =>
      cases ht : reg b with
      | none => rfl
      | some t => exact absurd ⟨s, t, hs, ht⟩ h
  · rintro ⟨s, t, hs, ht⟩
    dsimp only at hs ht
    obtain ⟨mine, ⟨hm1, hm2⟩, hload⟩ := loadContexts_eq hreg hown false []
    have hen := enable_eq hload (Or.inl rfl : RegOK own mine (importState own)) name
    unfold unitConverter
    dsimp only
    rw [hs, ht]
    dsimp only
    rw [hen]
    constructor
    · intro hn
      unfold pintEnable
      dsimp only
      rw [lookup_of_not_mem (by rw [List.map_append, hm1]; exact hn)]
    · intro hn
      obtain ⟨ctx, hctx⟩ := lookup_isSome_of_mem (l := own ++ mine) (n := name)
        (by rw [List.map_append, hm1]; exact List.mem_append_right _ hn)
      have hmem : (name, ctx) ∈ mine := by
        rcases List.mem_append.1 (lookup_map_fst hctx) with h | h
        · exact absurd (List.mem_map.2 ⟨_, h, rfl⟩) (hown name hn)
        · exact h
      refine ⟨ctx, hm2 _ hmem, ?_⟩
      unfold pintEnable
      dsimp only
      rw [hctx]
      exact sampleConv_ctx hs ht rfl

/-- **C74**: without a context the converter is the one of the units alone. -/
theorem C74_no_context {reg : Registry ℚ} (own : List (String × List (Edge ℚ))) (a b : String) :
    (∀ e, mkConv reg a b = .error e →
      (unitConverter reg ⟨none, a, b⟩ (importState own)).1 = .error e) ∧
    (∀ c, mkConv reg a b = .ok c →
      ∃ c', (unitConverter reg ⟨none, a, b⟩ (importState own)).1 = .ok c' ∧
        ∀ v, c'.convertFrom v = .num (c.convertFrom v)) := by
  unfold unitConverter mkConv
  dsimp only
  cases hs : reg a with
  | none => exact ⟨fun e h => (by cases h; rfl), fun c h => (by cases h)⟩
  | some s =>
    cases ht : reg b with
    | none => exact ⟨fun e h => (by cases h; rfl), fun c h => (by cases h)⟩
    | some t =>
      by_cases hd : s.dim = t.dim
      · dsimp only
        rw [if_pos hd]
        refine ⟨fun e h => (by cases h), fun c h => ?_⟩
        cases h
        refine ⟨_, by simp only [sampleConv, toIn, importState, if_pos hd, if_true]; rfl, fun v => ?_⟩
        simp only [ConvFl.convertFrom, Fl.map₂, Fl.map_num, Conv.convertFrom]
      · dsimp only
        rw [if_neg hd]
        refine ⟨fun e h => ?_, fun c h => (by cases h)⟩
        cases h
        simp only [sampleConv, toIn, importState, if_neg hd, if_true]

/-- The bases of the gases a metric knows, and carbon. -/
def KnownBase (reg : Registry ℚ) (metric z : String) : Prop :=
  z = "carbon" ∨ ∃ gas g u, MetricValue metric gas g ∧ reg gas = some u ∧ u.dim = [(z, 1)]

/-- **C74**: exactly which conversions a metric allows: those allowed anyway, and those between gases
of the table (or CO2) in the same form. Where the table has no value the converter exists, too. -/
theorem C74_metric_iff {reg : Registry ℚ} (hreg : HasGases reg)
    {own : List (String × List (Edge ℚ))} (hown : ∀ n ∈ scmContexts, n ∉ own.map Prod.fst)
    {metric : String} (hm : metric ∈ metricNames) (a b : String) :
    (∃ c, (unitConverter reg ⟨some metric, a, b⟩ (importState own)).1 = .ok c) ↔
      ∃ s t, reg a = some s ∧ reg b = some t ∧ (s.dim = t.dim ∨ ∃ (φ : Form) (x y : String),
        s.dim = φ.dim x ∧ t.dim = φ.dim y ∧ KnownBase reg metric x ∧ KnownBase reg metric y) := by
  have hr := C74_result hreg hown a b metric
  by_cases hk : ConvReq.Known reg ⟨some metric, a, b⟩
  · have hms : metric ∈ scmContexts := by
      simp only [metricNames, scmContexts, List.mem_cons, List.not_mem_nil, or_false] at hm ⊢
      rcases hm with h | h | h <;> simp [h]
    obtain ⟨ctx, hctx, hres⟩ := (hr.2 hk).2 hms
    rw [hres]
    obtain ⟨s, t, hs, ht⟩ := hk
    dsimp only at hs ht
    constructor
    · rintro ⟨c, hc⟩
      refine ⟨s, t, hs, ht, ?_⟩
      by_contra hno
      rw [not_or] at hno
      obtain ⟨ctx', hctx', herr⟩ := C35_refused hreg hm hs ht hno.1 (by
        rintro ⟨φ, x, y, h1, h2, h3⟩
        exact hno.2 ⟨φ, x, y, h1, h2, h3 x (by simp), h3 y (by simp)⟩)
      rw [hctx] at hctx'
      cases hctx'
      rw [hc] at herr
      cases herr
    · rintro ⟨s', t', hs', ht', h⟩
      rw [hs] at hs'; cases hs'
      rw [ht] at ht'; cases ht'
      by_cases hd : s.dim = t.dim
      · obtain ⟨c, _, hc, _⟩ := C35_same_dimension (ctx := ctx) hs ht hd
        exact ⟨c, hc⟩
      · obtain ⟨φ, x, y, h1, h2, hx, hy⟩ := h.resolve_left hd
        obtain ⟨n, hn⟩ := List.getElem?_of_mem hm
        rw [contextOf_metric hn] at hctx
        obtain ⟨ctx', co2, out, back, k1, _, _, k4, k5, _⟩ := metric_setup hreg n
        rw [hctx] at k1
        cases k1
        have hleaf : ∀ {z : String}, z ≠ "carbon" → KnownBase reg metric z →
            ∃ f g, back z = some f ∧ out z = some g := by
          rintro z hz (rfl | ⟨gas, g, u, ⟨k, hk1, hk2⟩, hu, hud⟩)
          · exact absurd rfl hz
          · have hkn : k = n := by
              have hnd : metricNames.Nodup := by decide +kernel
              obtain ⟨p1, p2⟩ := List.getElem?_eq_some_iff.1 hn
              obtain ⟨p3, p4⟩ := List.getElem?_eq_some_iff.1 hk1
              exact (hnd.getElem_inj_iff).1 (p4.trans p2.symm)
            subst hkn
            obtain ⟨u', z', hu', hd', _, _, hb', ho'⟩ := k5 gas g hk2
            rw [hu] at hu'
            cases hu'
            rw [hud] at hd'
            simp only [List.cons.injEq, Prod.mk.injEq, and_true] at hd'
            subst hd'
            exact ⟨_, _, hb', ho'⟩
        by_cases hxc : x = "carbon"
        · have hyc : y ≠ "carbon" := by rintro rfl; subst hxc; exact hd (h1.trans h2.symm)
          obtain ⟨f, g, hf, hg⟩ := hleaf hyc hy
          subst hxc
          obtain ⟨c, hc, _⟩ := mkConvCtx_of hs ht (fun v => k4.convert_out trivial hg h1 h2 v)
          exact ⟨c, hc⟩
        · obtain ⟨f, g, hf, hg⟩ := hleaf hxc hx
          by_cases hyc : y = "carbon"
          · subst hyc
            obtain ⟨c, hc, _⟩ := mkConvCtx_of hs ht (fun v => k4.convert_back trivial hf h1 h2 v)
            exact ⟨c, hc⟩
          · obtain ⟨f', g', hf', hg'⟩ := hleaf hyc hy
            have hxy : x ≠ y := by rintro rfl; exact hd (h1.trans h2.symm)
            obtain ⟨c, hc, _⟩ := mkConvCtx_of hs ht
              (fun v => k4.convert_across trivial hf hg' hxy h1 h2 v)
            exact ⟨c, hc⟩
  · rw [hr.1 hk]
    constructor
    · rintro ⟨c, hc⟩; cases hc
    · rintro ⟨s, t, hs, ht, _⟩; exact absurd ⟨s, t, hs, ht⟩ hk

/-! ## A concrete case -/

/-- A failing request in a context, one in an unknown context and one with an unknown unit, then
methane without a context: still refused, although a context has just allowed it; and the contexts of
openscm are listed only afterwards. -/
example :
    let qs : List ConvReq := [⟨some "AR5GWP100", "tCH4", "CO2"⟩, ⟨some "AR9", "CH4", "CO2"⟩,
      ⟨some "AR5GWP100", "CH4", "nonsense unit"⟩]
    let own : List (String × List (Edge ℚ)) := [("spectroscopy", [])]
    (unitConverter gasRegistry ⟨none, "CH4", "C"⟩
      (afterReqs gasRegistry qs (importState own))).1 = .error .dimensionality ∧
    contextNames (importState own) = ["spectroscopy"] ∧
    contextNames (afterReqs gasRegistry qs (importState own))
      = ["spectroscopy", "CH4_conversions", "NOx_conversions", "SARGWP100", "AR4GWP100", "AR5GWP100"] ∧
    (unitConverter gasRegistry ⟨some "AR9", "CH4", "CO2"⟩
      (afterReqs gasRegistry qs (importState own))).1 = .error .keyError := by
  intro qs own
  have hreg : HasGases gasRegistry := fun a u h => h
  have hown : ∀ n ∈ scmContexts, n ∉ own.map Prod.fst := by decide
  have h1 : rootOf scmDefs 1000 "CH4" = some (1, ["methane"]) := rootOf_of_key (by decide +kernel)
  have h2 : rootOf scmDefs 1000 "CO2" = some (12 / 44, ["carbon"]) := rootOf_of_key (by decide +kernel)
  refine ⟨?_, rfl, ?_, ?_⟩
  · rw [C74_history hreg hown]
    exact (C74_no_context own "CH4" "C").1 _ C61_no_context.1
  · exact (C74_contexts hreg hown qs).1 ⟨⟨some "AR9", "CH4", "CO2"⟩, by simp [qs], by simp,
      _, _, gasRegistry_of (by norm_num) h1, gasRegistry_of (by norm_num) h2⟩
  · rw [C74_history hreg hown]
    exact ((C74_result hreg hown "CH4" "CO2" "AR9").2
      ⟨_, _, gasRegistry_of (by norm_num) h1, gasRegistry_of (by norm_num) h2⟩).1 (by decide)

end Openscm
