import Verif.ContextLemmas
import Verif.GasProps
import Mathlib.Data.List.Nodup

/-!
# C35, C61: conversions in contexts
-/

set_option linter.unusedSectionVars false

namespace Openscm

/-! ## Specification -/

/-- The registry contains the gases of the table; it may contain anything else. -/
def HasGases (reg : Registry ℚ) : Prop := ∀ a u, gasRegistry a = some u → reg a = some u

/-- Unit `a` stands for `m` times the gas unit `gas` in one of the forms: as such, as a mass, per
time, or as a mass per time. For example `tCH4` stands for 1000000 times `CH4` as a mass. -/
def InForm (reg : Registry ℚ) (φ : Form) (gas : String) (m : ℚ) (a : String) : Prop :=
  ∃ s u base, reg a = some s ∧ reg gas = some u ∧ u.dim = [(base, 1)] ∧ s.dim = φ.dim base ∧
    s.scale = m * u.scale

/-- In the context `v` in unit `a` is `f * v` in unit `b`. -/
def ConvertsBy (reg : Registry ℚ) (ctx : List (Edge ℚ)) (a b : String) (f : Fl ℚ) : Prop :=
  ∃ c, mkConvCtx reg ctx a b = .ok c ∧ ∀ v : ℚ, c.convertFrom v = f.map (v * ·)

/-! ## Contexts of metrics are stars -/

section
variable {K : Type} [Field K]

/-- What the table of a metric needs. -/
structure GoodTable (reg : Registry K) (es : List (String × Fl K)) (base : String → String)
    (co2 : UDef K) : Prop where
  co2_eq : reg "CO2" = some co2
  carbon_eq : ∃ c, reg "carbon" = some c ∧ c.scale = 1
  label_eq : ∀ e ∈ es, ∃ u, reg e.1 = some u ∧ u.dim = [(base e.1, 1)]
  base_eq : ∀ e ∈ es, ∃ u, reg (base e.1) = some u ∧ u.scale = 1
  base_ne : ∀ e ∈ es, base e.1 ≠ "carbon"
  nodup : (es.map (fun e => base e.1)).Nodup

/-- The factor towards CO2 of an entry, in root units. -/
def entryFactor (reg : Registry K) (co2 : UDef K) (e : String × Fl K) : Fl K :=
  match reg e.1 with
  | none => .nan
  | some u => e.2.map (fun v => v * co2.scale / u.scale)

def entryEdges (reg : Registry K) (co2 : UDef K) (base : String → String) (e : String × Fl K) :
    List (Edge K) :=
  [Form.bare, .massFlux, .mass, .flux].flatMap fun φ =>
    [⟨φ.dim (base e.1), φ.dim "carbon", entryFactor reg co2 e⟩,
      ⟨φ.dim "carbon", φ.dim (base e.1), (entryFactor reg co2 e).map (fun c => 1 / c)⟩]

theorem metricContext_eq {reg : Registry K} {es : List (String × Fl K)} {base : String → String}
    {co2 : UDef K} (h : GoodTable reg es base co2) :
    metricContext reg es = .ok (es.flatMap (entryEdges reg co2 base)) := by
  obtain ⟨c, hc, hc1⟩ := h.carbon_eq
  have h1 := h.label_eq
  have h2 := h.base_eq
  have h3 := h.co2_eq
  clear h
  induction es with
  | nil => rfl
  | cons e es ih =>
    obtain ⟨label, val⟩ := e
    obtain ⟨u, hu, hud⟩ := h1 (label, val) (by simp)
    obtain ⟨w, hw, hw1⟩ := h2 (label, val) (by simp)
    have hedge : metricEdges reg label val = .ok (entryEdges reg co2 base (label, val)) := by
      unfold metricEdges
      simp only [h3, hu, hc, hud, hw, hc1, hw1]
      unfold entryEdges entryFactor
      simp only [hu]
      have e1 : ∀ x : Fl K, x.map (fun c => (1 : K) / 1 * c) = x := by
        intro x; cases x <;> simp [Fl.map]
      have e2 : ∀ x : Fl K, x.map (fun c => (1 : K) / 1 / c) = x.map (fun c => 1 / c) := by
        intro x; cases x <;> simp [Fl.map]
      rw [e1, e2]
    rw [metricContext, hedge, ih (fun e he => h1 e (by simp [he])) (fun e he => h2 e (by simp [he]))]
    rfl

theorem mem_entryEdges {reg : Registry K} {co2 : UDef K} {base : String → String}
    {e : String × Fl K} {x : Edge K} : x ∈ entryEdges reg co2 base e ↔ ∃ φ : Form,
      x = ⟨φ.dim (base e.1), φ.dim "carbon", entryFactor reg co2 e⟩ ∨
      x = ⟨φ.dim "carbon", φ.dim (base e.1), (entryFactor reg co2 e).map (fun c => 1 / c)⟩ := by
  unfold entryEdges
  constructor
  · intro h
    obtain ⟨φ, _, h⟩ := List.mem_flatMap.1 h
    exact ⟨φ, by simpa using h⟩
  · rintro ⟨φ, h⟩
    exact List.mem_flatMap.2 ⟨φ, by cases φ <;> simp, by simpa using h⟩

theorem GoodTable.star {reg : Registry K} {es : List (String × Fl K)} {base : String → String}
    {co2 : UDef K} (h : GoodTable reg es base co2) :
    Star (es.flatMap (entryEdges reg co2 base)) "carbon" (fun _ => True)
      (fun b => (es.find? (fun e => base e.1 = b)).map
        (fun e => (entryFactor reg co2 e).map (fun c => 1 / c)))
      (fun b => (es.find? (fun e => base e.1 = b)).map (entryFactor reg co2)) := by
  have hnone : es.find? (fun e => base e.1 = "carbon") = none := by
    rw [List.find?_eq_none]
    intro e he
    simpa using h.base_ne e he
  have hfind : ∀ e ∈ es, es.find? (fun e' => base e'.1 = base e.1) = some e := by
    have hn := h.nodup
    clear h hnone
    induction es with
    | nil => intro e he; simp at he
    | cons x es ih =>
      intro e he
      rw [List.map_cons, List.nodup_cons] at hn
      rcases List.mem_cons.1 he with rfl | he
      · simp
      · have : base x.1 ≠ base e.1 := fun hh => hn.1 (hh ▸ List.mem_map_of_mem he)
        rw [List.find?_cons_of_neg (by simpa using this)]
        exact ih hn.2 e he
  constructor
  · simp only [hnone, Option.map_none]
  · simp only [hnone, Option.map_none]
  · intro x hx
    obtain ⟨e, he, hx⟩ := List.mem_flatMap.1 hx
    obtain ⟨φ, rfl | rfl⟩ := mem_entryEdges.1 hx
    · exact ⟨φ, base e.1, trivial, Or.inr ⟨rfl, rfl, by simp only [hfind e he, Option.map_some]⟩⟩
    · exact ⟨φ, base e.1, trivial, Or.inl ⟨rfl, rfl, by simp only [hfind e he, Option.map_some]⟩⟩
  · intro φ b f _ hb
    cases hq : es.find? (fun e => base e.1 = b) with
    | none => simp only [hq, Option.map_none] at hb; simp at hb
    | some e =>
      have he := List.mem_of_find?_eq_some hq
      have hbe : base e.1 = b := by simpa using List.find?_some hq
      subst hbe
      exact ⟨_, List.mem_flatMap.2 ⟨e, he, mem_entryEdges.2 ⟨φ, Or.inr rfl⟩⟩, rfl, rfl⟩
  · intro φ b f _ hb
    cases hq : es.find? (fun e => base e.1 = b) with
    | none => simp only [hq, Option.map_none] at hb; simp at hb
    | some e =>
      have he := List.mem_of_find?_eq_some hq
      have hbe : base e.1 = b := by simpa using List.find?_some hq
      subst hbe
      exact ⟨_, List.mem_flatMap.2 ⟨e, he, mem_entryEdges.2 ⟨φ, Or.inl rfl⟩⟩, rfl, rfl⟩

theorem GoodTable.find {reg : Registry K} {es : List (String × Fl K)} {base : String → String}
    {co2 : UDef K} (h : GoodTable reg es base co2) {e : String × Fl K} (he : e ∈ es) :
    es.find? (fun e' => base e'.1 = base e.1) = some e := by
  have hn := h.nodup
  clear h
  induction es with
  | nil => simp at he
  | cons x es ih =>
    rw [List.map_cons, List.nodup_cons] at hn
    rcases List.mem_cons.1 he with rfl | he
    · simp
    · have : base x.1 ≠ base e.1 := fun hh => hn.1 (hh ▸ List.mem_map_of_mem he)
      rw [List.find?_cons_of_neg (by simpa using this)]
      exact ih he hn.2

end

/-! ## The metrics of the library -/

/-- What is computed about the labels of the metric table. -/
def labelsOk : Bool :=
  metricTable.all (fun r => match rootOfN scmDefsN 1000 (nameKey r.1) with
    | some (f, [d]) => decide (f ≠ 0) && d != nameKey "carbon" &&
      rootOfN scmDefsN 1000 d == some (1, [d])
    | _ => false)

theorem labels_ok : labelsOk = true := by decide +kernel

theorem labels_nodup :
    (metricTable.map (fun r => (rootOfN scmDefsN 1000 (nameKey r.1)).map Prod.snd)).Nodup := by
  decide +kernel

theorem rootOf_of_key {a : String} {f : ℚ} {ds : List String}
    (h : rootOfN scmDefsN 1000 (nameKey a) = some (keyRoot (f, ds))) :
    rootOf scmDefs 1000 a = some (f, ds) := by
  rw [rootOfN_scm] at h
  cases hq : rootOf scmDefs 1000 a with
  | none => rw [hq] at h; simp at h
  | some q => rw [hq] at h; rw [keyRoot_inj.1 (Option.some.inj h)]

/-- The gas a label is reported in. -/
def labelBase (label : String) : String :=
  match rootOf scmDefs 1000 label with
  | some (_, d :: _) => d
  | _ => ""

theorem label_root {r : String × List (Option ℚ)} (hr : r ∈ metricTable) :
    ∃ f, f ≠ 0 ∧ rootOf scmDefs 1000 r.1 = some (f, [labelBase r.1]) ∧
      labelBase r.1 ≠ "carbon" ∧
      rootOf scmDefs 1000 (labelBase r.1) = some (1, [labelBase r.1]) := by
  have h := List.all_eq_true.1 labels_ok r hr
  rw [rootOfN_scm] at h
  cases hq : rootOf scmDefs 1000 r.1 with
  | none => rw [hq] at h; simp at h
  | some q =>
    obtain ⟨f, ds⟩ := q
    rw [hq] at h
    simp only [Option.map_some, keyRoot] at h
    match ds, h with
    | [], h => simp at h
    | [d], h =>
      simp only [List.map_cons, List.map_nil, Bool.and_eq_true, decide_eq_true_eq, bne_iff_ne, ne_eq,
        nameKey_inj, beq_iff_eq] at h
      have hb : labelBase r.1 = d := by unfold labelBase; rw [hq]
      rw [hb]
      exact ⟨f, h.1.1, rfl, h.1.2, rootOf_of_key (ds := [d]) h.2⟩
    | _ :: _ :: _, h => simp at h

theorem metricColumn_good {reg : Registry ℚ} (hreg : HasGases reg) (n : Nat) :
    ∃ co2, reg "CO2" = some co2 ∧ co2.dim = [("carbon", 1)] ∧
      GoodTable reg (metricColumn n) labelBase co2 := by
  have h1 : rootOf scmDefs 1000 "CO2" = some (12 / 44, ["carbon"]) := rootOf_of_key (by decide +kernel)
  have h2 : rootOf scmDefs 1000 "carbon" = some (1, ["carbon"]) := rootOf_of_key (by decide +kernel)
  have h1 := hreg _ _ (gasRegistry_of (by norm_num) h1)
  have h2 := hreg _ _ (gasRegistry_of (by norm_num) h2)
  refine ⟨_, h1, rfl, h1, ⟨_, h2, rfl⟩, ?_, ?_, ?_, ?_⟩
  · intro e he
    obtain ⟨r, hr, rfl⟩ := List.mem_map.1 he
    obtain ⟨f, hf, g1, g2, g3⟩ := label_root hr
    exact ⟨_, hreg _ _ (gasRegistry_of hf g1), rfl⟩
  · intro e he
    obtain ⟨r, hr, rfl⟩ := List.mem_map.1 he
    obtain ⟨f, hf, g1, g2, g3⟩ := label_root hr
    exact ⟨_, hreg _ _ (gasRegistry_of one_ne_zero g3), rfl⟩
  · intro e he
    obtain ⟨r, hr, rfl⟩ := List.mem_map.1 he
    obtain ⟨f, hf, g1, g2, g3⟩ := label_root hr
    exact g2
  · have hn := labels_nodup
    unfold metricColumn
    rw [List.map_map]
    refine List.Nodup.of_map (fun b => some [nameKey b]) ?_
    rw [List.map_map]
    convert hn using 1
    apply List.map_congr_left
    intro r hr
    obtain ⟨f, hf, g1, g2, g3⟩ := label_root hr
    simp only [Function.comp_apply]
    rw [rootOfN_scm, g1]
    simp [keyRoot]

/-- The value of a gas in a metric, as in the table; `nan` where the table has no value. -/
def ColumnValue (n : Nat) (gas : String) (g : Fl ℚ) : Prop := (gas, g) ∈ metricColumn n

theorem inForm_unique {reg : Registry ℚ} {φ : Form} {gas a : String} {m : ℚ} {u : UDef ℚ} {b : String}
    (h : InForm reg φ gas m a) (hu : reg gas = some u) (hd : u.dim = [(b, 1)]) :
    ∃ s, reg a = some s ∧ s.dim = φ.dim b ∧ s.scale = m * u.scale := by
  obtain ⟨s, u', b', h1, h2, h3, h4, h5⟩ := h
  rw [hu] at h2; cases h2
  rw [hd] at h3
  simp only [List.cons.injEq, Prod.mk.injEq, and_true] at h3
  rw [h3]
  exact ⟨s, h1, h4, h5⟩

theorem metric_setup {reg : Registry ℚ} (hreg : HasGases reg) (n : Nat) :
    ∃ ctx co2 out back, metricContext reg (metricColumn n) = .ok ctx ∧ reg "CO2" = some co2 ∧
      co2.dim = [("carbon", 1)] ∧ Star ctx "carbon" (fun _ => True) out back ∧
      (∀ gas g, ColumnValue n gas g → ∃ u b, reg gas = some u ∧ u.dim = [(b, 1)] ∧
        b = labelBase gas ∧ b ≠ "carbon" ∧
        back b = some (g.map (fun v => v * co2.scale / u.scale)) ∧
        out b = some (g.map (fun v => 1 / (v * co2.scale / u.scale)))) ∧
      ∀ b f, (out b = some f ∨ back b = some f) → ∃ gas g, ColumnValue n gas g ∧ b = labelBase gas := by
  obtain ⟨co2, h1, h2, h⟩ := metricColumn_good hreg n
  refine ⟨_, co2, _, _, metricContext_eq h, h1, h2, h.star, ?_, ?_⟩
  · intro gas g hg
    obtain ⟨u, hu, hd⟩ := h.label_eq _ hg
    refine ⟨u, _, hu, hd, rfl, h.base_ne _ hg, ?_, ?_⟩
    · simp only [h.find hg, Option.map_some, entryFactor, hu]
    · simp only [h.find hg, Option.map_some, entryFactor, hu]
      cases g <;> rfl
  · intro b f hb
    cases hq : (metricColumn n).find? (fun e => labelBase e.1 = b) with
    | none => simp only [hq, Option.map_none] at hb; simp at hb
    | some e =>
      have hbe : labelBase e.1 = b := by simpa using List.find?_some hq
      exact ⟨e.1, e.2, List.mem_of_find?_eq_some hq, hbe.symm⟩

/-! ## C35 -/

/-- **C35**: in the context of a metric with value `g` for a gas, one unit of the gas is `g` units of
CO2, in each of the four forms; for other units only the ratio of the amounts enters. -/
theorem to_co2_column {reg : Registry ℚ} (hreg : HasGases reg) {n : Nat} {gas : String} {g : Fl ℚ}
    (hg : ColumnValue n gas g) {φ : Form} {a b : String} {m m' : ℚ} (ha : InForm reg φ gas m a)
    (hb : InForm reg φ "CO2" m' b) :
    ∃ ctx, metricContext reg (metricColumn n) = .ok ctx ∧
      ConvertsBy reg ctx a b (g.map (fun g => g * m / m')) := by
  obtain ⟨ctx, co2, out, back, h1, h2, h3, h4, h5, _⟩ := metric_setup hreg n
  obtain ⟨u, base, hu, hd, _, _, hback, _⟩ := h5 gas g hg
  obtain ⟨s, hs, hsd, hss⟩ := inForm_unique ha hu hd
  obtain ⟨t, ht, htd, hts⟩ := inForm_unique hb h2 h3
  refine ⟨ctx, h1, ?_⟩
  have hu0 := u.scale_ne
  have hc0 := co2.scale_ne
  obtain ⟨c, hc, hv⟩ := mkConvCtx_of hs ht (fun v => h4.convert_back trivial hback hsd htd v)
  refine ⟨c, hc, fun v => ?_⟩
  rw [hv v, hss, hts]
  cases g with
  | nan => rfl
  | num g =>
    have hm' : m' ≠ 0 := by rintro rfl; exact t.scale_ne (by rw [hts, zero_mul])
    simp only [Fl.map_num]
    congr 1
    field_simp

/-- **C35**: the reverse conversion gives `1/g`. -/
theorem from_co2_column {reg : Registry ℚ} (hreg : HasGases reg) {n : Nat} {gas : String} {g : Fl ℚ}
    (hg : ColumnValue n gas g) {φ : Form} {a b : String} {m m' : ℚ} (ha : InForm reg φ "CO2" m a)
    (hb : InForm reg φ gas m' b) :
    ∃ ctx, metricContext reg (metricColumn n) = .ok ctx ∧
      ConvertsBy reg ctx a b (g.map (fun g => 1 / g * m / m')) := by
  obtain ⟨ctx, co2, out, back, h1, h2, h3, h4, h5, _⟩ := metric_setup hreg n
  obtain ⟨u, base, hu, hd, _, _, _, hout⟩ := h5 gas g hg
  obtain ⟨s, hs, hsd, hss⟩ := inForm_unique ha h2 h3
  obtain ⟨t, ht, htd, hts⟩ := inForm_unique hb hu hd
  refine ⟨ctx, h1, ?_⟩
  have hu0 := u.scale_ne
  have hc0 := co2.scale_ne
  obtain ⟨c, hc, hv⟩ := mkConvCtx_of hs ht (fun v => h4.convert_out trivial hout hsd htd v)
  refine ⟨c, hc, fun v => ?_⟩
  rw [hv v, hss, hts]
  cases g with
  | nan => rfl
  | num g =>
    have hm' : m' ≠ 0 := by rintro rfl; exact t.scale_ne (by rw [hts, zero_mul])
    simp only [Fl.map_num]
    congr 1
    by_cases hg0 : g = 0
    · subst hg0; simp
    · field_simp

/-- **C35**: converting one gas to another gives the ratio of their values. -/
theorem ratio_column {reg : Registry ℚ} (hreg : HasGases reg) {n : Nat} {x y : String} {gx gy : Fl ℚ}
    (hx : ColumnValue n x gx) (hy : ColumnValue n y gy) (hxy : x ≠ y) {φ : Form} {a b : String}
    {m m' : ℚ} (ha : InForm reg φ x m a) (hb : InForm reg φ y m' b) :
    ∃ ctx, metricContext reg (metricColumn n) = .ok ctx ∧
      ConvertsBy reg ctx a b (Fl.map₂ (fun gx gy => gx / gy * m / m') gx gy) := by
  obtain ⟨ctx, co2, out, back, h1, h2, h3, h4, h5, _⟩ := metric_setup hreg n
  obtain ⟨u, bx, hu, hd, hbx, _, hback, _⟩ := h5 x gx hx
  obtain ⟨w, by', hw, hdw, hby, _, _, hout⟩ := h5 y gy hy
  obtain ⟨s, hs, hsd, hss⟩ := inForm_unique ha hu hd
  obtain ⟨t, ht, htd, hts⟩ := inForm_unique hb hw hdw
  refine ⟨ctx, h1, ?_⟩
  have hne : bx ≠ by' := by
    obtain ⟨co2', _, _, hgt⟩ := metricColumn_good hreg n
    have f1 := hgt.find hx
    have f2 := hgt.find hy
    rintro rfl
    simp only at f1 f2
    rw [← hbx] at f1
    rw [← hby, f1] at f2
    exact hxy (Prod.mk.inj (Option.some.inj f2)).1
  have hu0 := u.scale_ne
  have hw0 := w.scale_ne
  have hc0 := co2.scale_ne
  obtain ⟨c, hc, hv⟩ := mkConvCtx_of hs ht
    (fun v => h4.convert_across trivial hback hout hne hsd htd v)
  refine ⟨c, hc, fun v => ?_⟩
  rw [hv v, hss, hts]
  cases gx with
  | nan => rfl
  | num gx =>
    cases gy with
    | nan => rfl
    | num gy =>
      have hm' : m' ≠ 0 := by rintro rfl; exact t.scale_ne (by rw [hts, zero_mul])
      simp only [Fl.map_num, Fl.map₂]
      congr 1
      by_cases hg0 : gy = 0
      · subst hg0; simp
      · field_simp

/-- **C35**: units of the same dimension convert in a context as they do without. -/
theorem C35_same_dimension {reg : Registry ℚ} {ctx : List (Edge ℚ)} {a b : String} {s t : UDef ℚ}
    (ha : reg a = some s) (hb : reg b = some t) (h : s.dim = t.dim) :
    ∃ c c', mkConvCtx reg ctx a b = .ok c ∧ mkConv reg a b = .ok c' ∧
      ∀ v, c.convertFrom v = .num (c'.convertFrom v) := by
  obtain ⟨c', hc'⟩ := (C34_exists_iff reg a b).2 ⟨s, t, ha, hb, h⟩
  refine ⟨_, c', by unfold mkConvCtx; rw [ha, hb]; simp only [ctxTo_same h]; rfl, hc', fun v => ?_⟩
  obtain ⟨s', t', hs', ht', _, _, _, k1, k2⟩ := mkConv_ok hc'
  rw [ha] at hs'; cases hs'
  rw [hb] at ht'; cases ht'
  have := t.scale_ne
  simp only [ConvFl.convertFrom, Fl.map₂, Fl.map_num, Conv.convertFrom, k1, k2, pintTo, UDef.toBase,
    UDef.ofBase]
  congr 1
  field_simp
  ring

/-- **C35**: there is no conversion between different forms, say from a mass to a flux, and none to
or from a gas that is neither CO2 nor in the table. -/
theorem refused_column {reg : Registry ℚ} (hreg : HasGases reg) {n : Nat} {a b : String} {s t : UDef ℚ}
    (ha : reg a = some s) (hb : reg b = some t) (hne : s.dim ≠ t.dim)
    (h : ¬ ∃ (φ : Form) (x y : String), s.dim = φ.dim x ∧ t.dim = φ.dim y ∧
      ∀ z ∈ [x, y], z = "carbon" ∨ ∃ gas g u, ColumnValue n gas g ∧ reg gas = some u ∧ u.dim = [(z, 1)]) :
    ∃ ctx, metricContext reg (metricColumn n) = .ok ctx ∧
      mkConvCtx reg ctx a b = .error .dimensionality := by
  obtain ⟨ctx, co2, out, back, h1, h2, h3, h4, h5, h6⟩ := metric_setup hreg n
  refine ⟨ctx, h1, ?_⟩
  have hpath : findPath (neighbours ctx) t.dim (2 * ctx.length + 2) s.dim [] = none := by
    cases hq : findPath (neighbours ctx) t.dim (2 * ctx.length + 2) s.dim [] with
    | none => rfl
    | some p =>
      exfalso
      rcases h4.path_sound hq with hst | ⟨φ, x, y, _, k1, k2, k3, k4⟩
      · exact hne hst
      · refine h ⟨φ, x, y, k1, k2, fun z hz => ?_⟩
        have hz' : z = "carbon" ∨ ∃ f, out z = some f ∨ back z = some f := by
          rcases List.mem_cons.1 hz with rfl | hz
          · exact k3.imp id (fun ⟨f, hf⟩ => ⟨f, Or.inr hf⟩)
          · rw [List.mem_singleton] at hz; subst hz
            exact k4.imp id (fun ⟨f, hf⟩ => ⟨f, Or.inl hf⟩)
        refine hz'.imp id ?_
        rintro ⟨f, hf⟩
        obtain ⟨gas, g, hg, rfl⟩ := h6 z f hf
        obtain ⟨u, b', hu, hd, hb', _⟩ := h5 gas g hg
        exact ⟨gas, g, u, hg, hu, hb' ▸ hd⟩
  unfold mkConvCtx
  rw [ha, hb]
  simp only [ctxTo, hpath]

/-- The value of a gas in a metric, as in the table; `nan` where the table has no value. -/
def MetricValue (metric gas : String) (g : Fl ℚ) : Prop :=
  ∃ n, metricNames[n]? = some metric ∧ (gas, g) ∈ metricColumn n

theorem contextOf_metric {reg : Registry ℚ} {metric : String} {n : Nat}
    (h : metricNames[n]? = some metric) :
    contextOf reg metric = metricContext reg (metricColumn n) := by
  have hn : n < 3 := (List.getElem?_eq_some_iff.1 h).1
  have : n = 0 ∨ n = 1 ∨ n = 2 := by omega
  rcases this with rfl | rfl | rfl
  all_goals
    simp only [metricNames, List.getElem?_cons_zero, List.getElem?_cons_succ, Option.some.injEq] at h
    subst h
    rfl

/-- **C35**: in the context of a metric with value `g` for a gas, one unit of the gas is `g` units of
CO2, in each of the four forms; for other units only the ratio of the amounts enters. -/
theorem C35_to_co2 {reg : Registry ℚ} (hreg : HasGases reg) {metric gas : String} {g : Fl ℚ}
    (hg : MetricValue metric gas g) {φ : Form} {a b : String} {m m' : ℚ} (ha : InForm reg φ gas m a)
    (hb : InForm reg φ "CO2" m' b) :
    ∃ ctx, contextOf reg metric = .ok ctx ∧ ConvertsBy reg ctx a b (g.map (fun g => g * m / m')) := by
  obtain ⟨n, hn, hg⟩ := hg
  rw [contextOf_metric hn]
  exact to_co2_column hreg hg ha hb

/-- **C35**: the reverse conversion gives `1/g`. -/
theorem C35_from_co2 {reg : Registry ℚ} (hreg : HasGases reg) {metric gas : String} {g : Fl ℚ}
    (hg : MetricValue metric gas g) {φ : Form} {a b : String} {m m' : ℚ} (ha : InForm reg φ "CO2" m a)
    (hb : InForm reg φ gas m' b) :
    ∃ ctx, contextOf reg metric = .ok ctx ∧
      ConvertsBy reg ctx a b (g.map (fun g => 1 / g * m / m')) := by
  obtain ⟨n, hn, hg⟩ := hg
  rw [contextOf_metric hn]
  exact from_co2_column hreg hg ha hb

/-- **C35**: converting one gas to another gives the ratio of their values. -/
theorem C35_ratio {reg : Registry ℚ} (hreg : HasGases reg) {metric x y : String} {gx gy : Fl ℚ}
    (hx : MetricValue metric x gx) (hy : MetricValue metric y gy) (hxy : x ≠ y) {φ : Form}
    {a b : String} {m m' : ℚ} (ha : InForm reg φ x m a) (hb : InForm reg φ y m' b) :
    ∃ ctx, contextOf reg metric = .ok ctx ∧
      ConvertsBy reg ctx a b (Fl.map₂ (fun gx gy => gx / gy * m / m') gx gy) := by
  obtain ⟨n, hn, hx⟩ := hx
  obtain ⟨k, hk, hy⟩ := hy
  have hkn : k = n := by
    have hnd : metricNames.Nodup := by decide +kernel
    obtain ⟨h1, h2⟩ := List.getElem?_eq_some_iff.1 hn
    obtain ⟨h3, h4⟩ := List.getElem?_eq_some_iff.1 hk
    exact (hnd.getElem_inj_iff).1 (h4.trans h2.symm)
  subst hkn
  rw [contextOf_metric hn]
  exact ratio_column hreg hx hy hxy ha hb

/-- **C35**: there is no conversion between different forms, say from a mass to a flux, and none to
or from a gas that is neither CO2 nor in the table. -/
theorem C35_refused {reg : Registry ℚ} (hreg : HasGases reg) {metric : String}
    (hm : metric ∈ metricNames) {a b : String} {s t : UDef ℚ}
    (ha : reg a = some s) (hb : reg b = some t) (hne : s.dim ≠ t.dim)
    (h : ¬ ∃ (φ : Form) (x y : String), s.dim = φ.dim x ∧ t.dim = φ.dim y ∧
      ∀ z ∈ [x, y], z = "carbon" ∨
        ∃ gas g u, MetricValue metric gas g ∧ reg gas = some u ∧ u.dim = [(z, 1)]) :
    ∃ ctx, contextOf reg metric = .ok ctx ∧ mkConvCtx reg ctx a b = .error .dimensionality := by
  obtain ⟨n, hn⟩ := List.getElem?_of_mem hm
  rw [contextOf_metric hn]
  refine refused_column hreg ha hb hne ?_
  rintro ⟨φ, x, y, h1, h2, h3⟩
  refine h ⟨φ, x, y, h1, h2, fun z hz => (h3 z hz).imp id ?_⟩
  rintro ⟨gas, g, u, h4, h5, h6⟩
  exact ⟨gas, g, u, ⟨n, hn, h4⟩, h5, h6⟩

/-- The metric values used are those of the table: three columns, 86 gases. The hypotheses of the
theorems are met by the gases themselves and their joint units. -/
theorem C35_example : MetricValue "AR5GWP100" "CH4" (.num 28) ∧ MetricValue "AR4GWP100" "N2O" (.num 298) ∧
    MetricValue "SARGWP100" "CFC13" .nan ∧ HasGases gasRegistry ∧ InForm gasRegistry .mass "CH4" 1000000 "tCH4" ∧
    InForm gasRegistry .mass "CO2" 1 "gCO2" ∧ InForm gasRegistry .bare "N2O" 1 "N2O" := by
  refine ⟨⟨2, rfl, by simp [metricColumn, metricTable]⟩, ⟨1, rfl, by simp [metricColumn, metricTable]⟩,
    ⟨0, rfl, by simp [metricColumn, metricTable]⟩, fun a u h => h, ?_, ?_, ?_⟩
  · have h1 : rootOf scmDefs 1000 "CH4" = some (1, ["methane"]) := rootOf_of_key (by decide +kernel)
    have h2 : rootOf scmDefs 1000 "tCH4" = some (1000000, ["mass", "methane"]) :=
      rootOf_of_key (by decide +kernel)
    exact ⟨_, _, "methane", gasRegistry_of (by norm_num) h2, gasRegistry_of (by norm_num) h1, rfl, rfl,
      by norm_num⟩
  · have h1 : rootOf scmDefs 1000 "CO2" = some (12 / 44, ["carbon"]) := rootOf_of_key (by decide +kernel)
    have h2 : rootOf scmDefs 1000 "gCO2" = some (12 / 44, ["mass", "carbon"]) :=
      rootOf_of_key (by decide +kernel)
    exact ⟨_, _, "carbon", gasRegistry_of (by norm_num) h2, gasRegistry_of (by norm_num) h1, rfl, rfl,
      by norm_num⟩
  · have h1 : rootOf scmDefs 1000 "N2O" = some (14 / 44, ["nitrogen"]) := rootOf_of_key (by decide +kernel)
    exact ⟨_, _, "nitrogen", gasRegistry_of (by norm_num) h1, gasRegistry_of (by norm_num) h1, rfl, rfl,
      by norm_num⟩

/-- A tonne of methane is 28 million grams of CO2 under AR5. -/
example : ∃ ctx, contextOf gasRegistry "AR5GWP100" = .ok ctx ∧
    ConvertsBy gasRegistry ctx "tCH4" "gCO2" (.num 28000000) := by
  obtain ⟨h1, _, _, h2, h3, h4, _⟩ := C35_example
  obtain ⟨ctx, h5, h6⟩ := C35_to_co2 h2 h1 h3 h4
  refine ⟨ctx, h5, ?_⟩
  simp only [Fl.map_num] at h6
  norm_num at h6
  exact h6

/-- A mass of methane is no bare amount of CO2. -/
example : ∃ ctx, contextOf gasRegistry "AR4GWP100" = .ok ctx ∧
    mkConvCtx gasRegistry ctx "tCH4" "CO2" = .error .dimensionality := by
  have h2 : rootOf scmDefs 1000 "tCH4" = some (1000000, ["mass", "methane"]) :=
    rootOf_of_key (by decide +kernel)
  have h3 : rootOf scmDefs 1000 "CO2" = some (12 / 44, ["carbon"]) := rootOf_of_key (by decide +kernel)
  refine C35_refused (fun a u h => h) (by decide +kernel) (gasRegistry_of (by norm_num) h2)
    (gasRegistry_of (by norm_num) h3) (by simp) ?_
  rintro ⟨φ, x, y, h1, h2, _⟩
  cases φ <;> simp [Form.dim] at h1 h2

/-! ## C61 -/

theorem ConvertsBy.num_eq {reg : Registry ℚ} {ctx : List (Edge ℚ)} {a b : String} {x y : ℚ}
    (h : ConvertsBy reg ctx a b (.num x)) (hxy : x = y) : ConvertsBy reg ctx a b (.num y) := hxy ▸ h

theorem pair_star {K : Type} [Field K] {centre leaf : String} (h : leaf ≠ centre) (f g : Fl K) :
    Star [⟨Form.bare.dim centre, Form.bare.dim leaf, f⟩, ⟨Form.bare.dim leaf, Form.bare.dim centre, g⟩]
      centre (fun φ => φ = .bare) (fun b => if b = leaf then some f else none)
      (fun b => if b = leaf then some g else none) := by
  constructor
  · simp [h.symm]
  · simp [h.symm]
  · intro e he
    simp only [List.mem_cons, List.not_mem_nil, or_false] at he
    rcases he with rfl | rfl
    · exact ⟨.bare, leaf, rfl, Or.inl ⟨rfl, rfl, by simp⟩⟩
    · exact ⟨.bare, leaf, rfl, Or.inr ⟨rfl, rfl, by simp⟩⟩
  · rintro φ b x rfl hb
    by_cases hbl : b = leaf
    · subst hbl; exact ⟨⟨Form.bare.dim centre, Form.bare.dim b, f⟩, by simp, rfl, rfl⟩
    · simp [hbl] at hb
  · rintro φ b x rfl hb
    by_cases hbl : b = leaf
    · subst hbl; exact ⟨⟨Form.bare.dim b, Form.bare.dim centre, g⟩, by simp, rfl, rfl⟩
    · simp [hbl] at hb

theorem pair_convert {reg : Registry ℚ} {centre leaf : String} (h : leaf ≠ centre) {f g : Fl ℚ}
    {a b : String} {s t : UDef ℚ} (ha : reg a = some s) (hb : reg b = some t) :
    let ctx : List (Edge ℚ) := [⟨Form.bare.dim centre, Form.bare.dim leaf, f⟩,
      ⟨Form.bare.dim leaf, Form.bare.dim centre, g⟩]
    (s.dim = [(centre, 1)] → t.dim = [(leaf, 1)] →
      ConvertsBy reg ctx a b (f.map (fun f => s.scale * f / t.scale))) ∧
    (s.dim = [(leaf, 1)] → t.dim = [(centre, 1)] →
      ConvertsBy reg ctx a b (g.map (fun g => s.scale * g / t.scale))) ∧
    (s.dim ≠ t.dim → ¬ (s.dim = [(centre, 1)] ∧ t.dim = [(leaf, 1)]) →
      ¬ (s.dim = [(leaf, 1)] ∧ t.dim = [(centre, 1)]) →
      mkConvCtx reg ctx a b = .error .dimensionality) := by
  intro ctx
  have hstar := pair_star h f g
  refine ⟨fun h1 h2 => ?_, fun h1 h2 => ?_, fun h1 h2 h3 => ?_⟩
  · exact mkConvCtx_of ha hb (fun v => hstar.convert_out (φ := .bare) (b := leaf) rfl (by simp) h1 h2 v)
  · exact mkConvCtx_of ha hb (fun v => hstar.convert_back (φ := .bare) (b := leaf) rfl (by simp) h1 h2 v)
  · have hpath : findPath (neighbours ctx) t.dim (2 * ctx.length + 2) s.dim [] = none := by
      cases hq : findPath (neighbours ctx) t.dim (2 * ctx.length + 2) s.dim [] with
      | none => rfl
      | some p =>
        exfalso
        rcases hstar.path_sound hq with hst | ⟨φ, x, y, rfl, k1, k2, k3, k4⟩
        · exact h1 hst
        · have hx : x = centre ∨ x = leaf := by
            refine k3.imp id ?_
            rintro ⟨f', hf'⟩
            by_contra hx; simp [hx] at hf'
          have hy : y = centre ∨ y = leaf := by
            refine k4.imp id ?_
            rintro ⟨f', hf'⟩
            by_contra hy; simp [hy] at hf'
          rcases hx with rfl | rfl <;> rcases hy with rfl | rfl
          · exact h1 (k1.trans k2.symm)
          · exact h2 ⟨k1, k2⟩
          · exact h3 ⟨k1, k2⟩
          · exact h1 (k1.trans k2.symm)
    unfold mkConvCtx
    rw [ha, hb]
    simp only [ctxTo, hpath]

/-- **C61**: the conversions of methane that its context allows, and back. -/
theorem C61_methane {reg : Registry ℚ} (hreg : HasGases reg) :
    contextOf reg "CH4_conversions" = .ok ch4Context ∧
    ConvertsBy reg ch4Context "CH4" "C" (.num (3 / 4)) ∧
    ConvertsBy reg ch4Context "CH4" "CO2" (.num (11 / 4)) ∧
    ConvertsBy reg ch4Context "C" "CH4" (.num (4 / 3)) ∧
    ConvertsBy reg ch4Context "CO2" "CH4" (.num (4 / 11)) := by
  have h1 : rootOf scmDefs 1000 "CH4" = some (1, ["methane"]) := rootOf_of_key (by decide +kernel)
  have h2 : rootOf scmDefs 1000 "C" = some (1, ["carbon"]) := rootOf_of_key (by decide +kernel)
  have h3 : rootOf scmDefs 1000 "CO2" = some (12 / 44, ["carbon"]) := rootOf_of_key (by decide +kernel)
  have h1 := hreg _ _ (gasRegistry_of (by norm_num) h1)
  have h2 := hreg _ _ (gasRegistry_of (by norm_num) h2)
  have h3 := hreg _ _ (gasRegistry_of (by norm_num) h3)
  have hne : "methane" ≠ "carbon" := by decide
  have a1 := (pair_convert (f := .num (16 / 12)) (g := .num (1 / (16 / 12))) hne h1 h2).2.1 rfl rfl
  have a2 := (pair_convert (f := .num (16 / 12)) (g := .num (1 / (16 / 12))) hne h1 h3).2.1 rfl rfl
  have a3 := (pair_convert (f := .num (16 / 12)) (g := .num (1 / (16 / 12))) hne h2 h1).1 rfl rfl
  have a4 := (pair_convert (f := .num (16 / 12)) (g := .num (1 / (16 / 12))) hne h3 h1).1 rfl rfl
  simp only [Fl.map_num] at a1 a2 a3 a4
  refine ⟨rfl, ?_, ?_, ?_, ?_⟩
  · exact a1.num_eq (by norm_num)
  · exact a2.num_eq (by norm_num)
  · exact a3.num_eq (by norm_num)
  · exact a4.num_eq (by norm_num)

/-- **C61**: the conversions of nitrogen oxides that their context allows, and back. -/
theorem C61_nox {reg : Registry ℚ} (hreg : HasGases reg) :
    contextOf reg "NOx_conversions" = .ok noxContext ∧
    ConvertsBy reg noxContext "NOx" "N" (.num (14 / 46)) ∧
    ConvertsBy reg noxContext "NOx" "N2O" (.num (44 / 46)) ∧
    ConvertsBy reg noxContext "N" "NOx" (.num (46 / 14)) ∧
    ConvertsBy reg noxContext "N2O" "NOx" (.num (46 / 44)) := by
  have h1 : rootOf scmDefs 1000 "NOx" = some (1, ["NOx"]) := rootOf_of_key (by decide +kernel)
  have h2 : rootOf scmDefs 1000 "N" = some (1, ["nitrogen"]) := rootOf_of_key (by decide +kernel)
  have h3 : rootOf scmDefs 1000 "N2O" = some (14 / 44, ["nitrogen"]) := rootOf_of_key (by decide +kernel)
  have h1 := hreg _ _ (gasRegistry_of (by norm_num) h1)
  have h2 := hreg _ _ (gasRegistry_of (by norm_num) h2)
  have h3 := hreg _ _ (gasRegistry_of (by norm_num) h3)
  have hne : "NOx" ≠ "nitrogen" := by decide
  have a1 := (pair_convert (f := .num ((14 + 2 * 16) / 14)) (g := .num (1 / ((14 + 2 * 16) / 14))) hne h1 h2).2.1 rfl rfl
  have a2 := (pair_convert (f := .num ((14 + 2 * 16) / 14)) (g := .num (1 / ((14 + 2 * 16) / 14))) hne h1 h3).2.1 rfl rfl
  have a3 := (pair_convert (f := .num ((14 + 2 * 16) / 14)) (g := .num (1 / ((14 + 2 * 16) / 14))) hne h2 h1).1 rfl rfl
  have a4 := (pair_convert (f := .num ((14 + 2 * 16) / 14)) (g := .num (1 / ((14 + 2 * 16) / 14))) hne h3 h1).1 rfl rfl
  simp only [Fl.map_num] at a1 a2 a3 a4
  refine ⟨rfl, ?_, ?_, ?_, ?_⟩
  · exact a1.num_eq (by norm_num)
  · exact a2.num_eq (by norm_num)
  · exact a3.num_eq (by norm_num)
  · exact a4.num_eq (by norm_num)

/-- **C61**: nothing else becomes convertible: units of different dimensions convert only if one is
the bare methane (or nitrogen oxide) and the other the bare carbon (or nitrogen). In particular
masses and fluxes of the gases stay refused. -/
theorem C61_nothing_else {reg : Registry ℚ} {a b : String} {s t : UDef ℚ} (ha : reg a = some s)
    (hb : reg b = some t) (hne : s.dim ≠ t.dim) :
    (¬ ({s.dim, t.dim} : Set Dim) = {[("carbon", 1)], [("methane", 1)]} →
      mkConvCtx reg ch4Context a b = .error .dimensionality) ∧
    (¬ ({s.dim, t.dim} : Set Dim) = {[("nitrogen", 1)], [("NOx", 1)]} →
      mkConvCtx reg noxContext a b = .error .dimensionality) := by
  constructor
  · intro h
    refine (pair_convert (centre := "carbon") (leaf := "methane") (by decide) ha hb).2.2 hne ?_ ?_
    · rintro ⟨h1, h2⟩; exact h (by rw [h1, h2])
    · rintro ⟨h1, h2⟩; exact h (by rw [h1, h2, Set.pair_comm])
  · intro h
    refine (pair_convert (centre := "nitrogen") (leaf := "NOx") (by decide) ha hb).2.2 hne ?_ ?_
    · rintro ⟨h1, h2⟩; exact h (by rw [h1, h2])
    · rintro ⟨h1, h2⟩; exact h (by rw [h1, h2, Set.pair_comm])

/-- **C61**: without a context these conversions are refused. -/
theorem C61_no_context : mkConv gasRegistry "CH4" "C" = .error .dimensionality ∧
    mkConv gasRegistry "NOx" "N" = .error .dimensionality := by
  have h1 : rootOf scmDefs 1000 "CH4" = some (1, ["methane"]) := rootOf_of_key (by decide +kernel)
  have h2 : rootOf scmDefs 1000 "C" = some (1, ["carbon"]) := rootOf_of_key (by decide +kernel)
  have h3 : rootOf scmDefs 1000 "NOx" = some (1, ["NOx"]) := rootOf_of_key (by decide +kernel)
  have h4 : rootOf scmDefs 1000 "N" = some (1, ["nitrogen"]) := rootOf_of_key (by decide +kernel)
  constructor
  · unfold mkConv
    rw [gasRegistry_of (by norm_num) h1, gasRegistry_of (by norm_num) h2]
    rfl
  · unfold mkConv
    rw [gasRegistry_of (by norm_num) h3, gasRegistry_of (by norm_num) h4]
    rfl

/-- A tonne of methane is not convertible to grams of carbon dioxide in the methane context. -/
example : mkConvCtx gasRegistry ch4Context "tCH4" "gCO2" = .error .dimensionality := by
  obtain ⟨_, _, _, _, ⟨s, u, b, h1, h2, h3, h4, h5⟩, ⟨t, u', b', k1, k2, k3, k4, k5⟩, _⟩ := C35_example
  have hm : rootOf scmDefs 1000 "CH4" = some (1, ["methane"]) := rootOf_of_key (by decide +kernel)
  have hc : rootOf scmDefs 1000 "CO2" = some (12 / 44, ["carbon"]) := rootOf_of_key (by decide +kernel)
  rw [gasRegistry_of (by norm_num) hm] at h2; cases h2
  rw [gasRegistry_of (by norm_num) hc] at k2; cases k2
  simp only [List.map_cons, List.map_nil, List.cons.injEq, Prod.mk.injEq, and_true] at h3 k3
  subst h3; subst k3
  refine (C61_nothing_else h1 k1 (by rw [h4, k4]; decide)).1 ?_
  rw [h4, k4]
  intro h
  have : ([("carbon", 1)] : Dim) ∈ ({Form.mass.dim "methane", Form.mass.dim "carbon"} : Set Dim) := by
    rw [h]; simp
  simp [Form.dim] at this

end Openscm
