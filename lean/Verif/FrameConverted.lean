import Verif.FramePart
import Verif.FrameCommute
import Verif.FrameLoad
import Verif.FrameJoin

/-!
# C110: converted frames in parameter sets

It makes no difference to the views of a parameter set whether the frame it was made of was converted to other units
before (`convert_unit`, `openscm/scmdataframe/base.py:1216-1273`, without context, then `to_parameterset`,
`openscm/scmdataframe/base.py:453-534`).  With a context that is not so: the frame is not taken any more, unless all of
its timeseries were converted.
-/

set_option linter.unusedSectionVars false

namespace Openscm

variable {K : Type} [Field K] [LinearOrder K] [IsStrictOrderedRing K]

/-! ## Facts -/

theorem pintTo_trans (a b c : UDef K) (x : K) : pintTo b c (pintTo a b x) = pintTo a c x := by
  simp only [pintTo, UDef.toBase, UDef.ofBase]
  have := b.scale_ne
  field_simp
  ring

theorem pintTo_self (a : UDef K) (x : K) : pintTo a a x = x := by
  simp only [pintTo, UDef.toBase, UDef.ofBase]
  have := a.scale_ne
  field_simp
  ring

/-- A conversion without context is the one of the units. -/
theorem unitConv_pint {reg : Registry K} {unit u : String} {f : Fl K → Fl K} (h : unitConv reg unit u = .ok f) :
    ∃ a b, reg u = some a ∧ reg unit = some b ∧ a.dim = b.dim ∧ ∀ x, f (.num x) = .num (pintTo a b x) := by
  unfold unitConv at h
  cases hc : mkConv reg u unit with
  | error e => rw [hc] at h; cases h
  | ok c =>
    rw [hc] at h
    obtain ⟨a, b, h1, h2, h3, -, -, h4, h5⟩ := mkConv_ok hc
    refine ⟨a, b, h1, h2, h3, fun x => ?_⟩
    rw [← Except.ok.inj h]
    simp only [Conv.convertFrom, h4, h5, pintTo, UDef.toBase, UDef.ofBase, Fl.num.injEq]
    have := b.scale_ne
    field_simp
    ring

theorem Axis.unique {times : List Int} {p : PType} {l m : List K} (h : Axis times p l) (h' : Axis times p m) : l = m := by
  cases h with
  | point => cases h'; rfl
  | average h => cases h' with | average h' => rw [h.unique h']

/-- What conversion does to one timeseries of which the unit is known. -/
theorem converted_series {reg : Registry K} {F G : DFrame K} (hF : F.Ok) (hr : ∀ c ∈ requiredCols, c ∈ F.cols)
    {o : FilterOpts K} {keep : Bool} {filters : List (String × PyArg K)} {unit : String} {F' : DFrame K}
    (hf : OtherColumns F.cols filters) (hnew : "unit_context" ∉ F.cols)
    (h : F.convertUnit (unitConv reg unit) o keep filters unit .none false = (.ok (some G), F')) {i : Nat} {u : String}
    {a : UDef K} {old : Nat × List (Fl K)} {xs : List K} (hd : F.data[i]? = some old) (hx : old.2 = xs.map .num)
    (hu : F.HasMeta i "unit" (.str u)) (ha : reg u = some a) :
    (∃ u' b, G.HasMeta i "unit" (.str u') ∧ reg u' = some b ∧ a.dim = b.dim ∧
      G.data[i]? = some (old.1, (xs.map (pintTo a b)).map .num)) ∧
    (∀ v, G.HasMeta i "unit_context" v → v = .none) ∧
    ∀ c v, c ≠ "unit" → c ≠ "unit_context" → (G.HasMeta i c v ↔ F.HasMeta i c v) := by
  obtain ⟨r, hm⟩ : ∃ r, F.meta[i]? = some r := ⟨_, List.getElem?_eq_getElem (HasMeta.lt hu)⟩
  obtain ⟨s1, s2, s3, s4, s5, s6, s7⟩ := withContext_spec hF hr
  rcases convert_at hF hr hf h hm hd with ⟨u0, f, p1, p2, p3, p4, p5, p6, p7, p8⟩ | ⟨-, q1, q2⟩
  · cases HasMeta.unique hF hu p3
    obtain ⟨a', b, k1, k2, k3, k4⟩ := unitConv_pint p4
    rw [ha] at k1; cases k1
    refine ⟨⟨unit, b, (p6 _).2 rfl, k2, k3, ?_⟩, fun v hv => (p7 v).1 hv, p8⟩
    rw [p5, hx]
    simp [k4]
  · refine ⟨⟨u, a, (q2 _ _).2 ((s5 _ _ _ (by decide)).2 hu), ha, rfl, ?_⟩, fun v hv => s7 i v hnew ((q2 _ _).1 hv),
      fun c v _ hc => (q2 c v).trans (s5 _ _ _ hc)⟩
    rw [q1]
    have : xs.map (pintTo a a) = xs := by
      conv_rhs => rw [← List.map_id xs]
      exact List.map_congr_left fun x _ => pintTo_self a x
    rw [this, ← hx]

theorem below_context {v : String} : ¬ NameBelow v "unit_context" := by
  rintro ⟨t, h⟩
  have h1 : '|' ∈ ("unit_context" : String).toList := by rw [h]; simp
  revert h1
  decide

/-- What becomes of a frame that was converted, and of views of it. -/
theorem converted_views {env : Env K} {F G : DFrame K} (hT : F.Tidy) (hr : ∀ c ∈ requiredCols, c ∈ F.cols)
    (hpar : ∀ c ∈ F.cols, c ∉ ofSeries → '(' ∉ c.toList) (hnew : "unit_context" ∉ F.cols)
    (hname : ∀ i v, F.HasMeta i "variable" (.str v) → v ≠ "unit_context" ∧ ¬ NameBelow "unit_context" v)
    (hcol : ∀ c ∈ F.cols, ¬ NameBelow "unit_context" c) {o : FilterOpts K} {keep : Bool}
    {filters : List (String × PyArg K)} {unit : String} {F' : DFrame K} (hf : OtherColumns F.cols filters)
    (hu : unit ≠ "") (hn : ∀ i, ¬ F.HasMeta i "unit" (.str "")) {s : St K (PyVal K)}
    (hto : toParameterset env F (St.init "World") = (.ok (), s))
    (h : F.convertUnit (unitConv env.units unit) o keep filters unit .none false = (.ok (some G), F')) :
    G.Tidy ∧ ∃ s', toParameterset env G (St.init "World") = (.ok (), s') ∧
      ∀ i v g u vals, F.IsRow i v g u vals → (∃ u' new, G.IsRow i v g u' new) ∧ ∀ w tps ty int ext out,
        Sees env s' v g w tps ty int ext out ↔ Sees env s v g w tps ty int ext out := by
  have hm := hr "model" (by decide)
  have hsc := hr "scenario" (by decide)
  have hl := (C106_iff hT hm hsc hpar).1 ⟨s, hto⟩
  obtain ⟨G1, e1, -, g1, g2, g3, g4⟩ := C53_converted hT.ok hr h
  simp only [Bool.false_eq_true, if_false, Option.some.injEq] at e1
  subst e1
  obtain ⟨s1, s2, s3, s4, s5, s6, s7⟩ := withContext_spec hT.ok hr
  have hlenF : F.data.length = F.meta.length := by simpa using congrArg List.length hT.ok.labels
  have hlenG : G.data.length = G.meta.length := by simpa using congrArg List.length g1.labels
  have hlen : G.data.length = F.data.length := by
    have := g4.length_eq
    rw [← s2, hT.ok.withContext.data_eq, g1.data_eq, List.length_map, List.length_map, this]
  have hcols : ∀ c, c ∈ G.cols ↔ c ∈ F.cols ∨ c = "unit_context" := fun c => by rw [g3]; exact s4 c
  -- one timeseries
  have each : ∀ i < F.data.length, ∃ (u : String) (a : UDef K) (u' : String) (b : UDef K) (d : Nat × List (Fl K)) (xs : List K),
      F.HasMeta i "unit" (.str u) ∧ env.units u = some a ∧ F.data[i]? = some d ∧ d.2 = xs.map .num ∧ G.HasMeta i "unit" (.str u') ∧ env.units u' = some b ∧ a.dim = b.dim ∧
      G.data[i]? = some (d.1, (xs.map (pintTo a b)).map .num) ∧ (∀ v, G.HasMeta i "unit_context" v → v = .none) ∧
      ∀ c v, c ≠ "unit" → c ≠ "unit_context" → (G.HasMeta i c v ↔ F.HasMeta i c v) := by
    intro i hi
    obtain ⟨v, g, u, a, -, -, n3, -, n5, -⟩ := hl.row i hi
    have hd := List.getElem?_eq_getElem hi
    obtain ⟨xs, hx⟩ := nums_of (hT.nums _ (List.getElem_mem hi))
    obtain ⟨⟨u', b, k1, k2, k3, k4⟩, k5, k6⟩ := converted_series hT.ok hr hf hnew h hd hx n3 n5
    exact ⟨u, a, u', b, _, xs, n3, n5, hd, hx, k1, k2, k3, k4, k5, k6⟩
  have same : ∀ i c v, c ≠ "unit" → c ≠ "unit_context" → (G.HasMeta i c v ↔ F.HasMeta i c v) := by
    intro i c v h1 h2
    by_cases hi : i < F.data.length
    · obtain ⟨_, _, _, _, _, _, -, -, -, -, -, -, -, -, -, k⟩ := each i hi
      exact k c v h1 h2
    · constructor
      · intro q; have := HasMeta.lt q; omega
      · intro q; have := HasMeta.lt q; omega
  have ctx : ∀ i v, G.HasMeta i "unit_context" v → v = .none := by
    intro i v q
    have := HasMeta.lt q
    obtain ⟨_, _, _, _, _, _, -, -, -, -, -, -, -, -, k, -⟩ := each i (by omega)
    exact k v q
  have hTG : G.Tidy := by
    refine ⟨g1, g2 ▸ hT.sorted, g2 ▸ hT.two, ?_, ?_⟩
    · intro d hd x hx
      obtain ⟨i, hi⟩ := List.mem_iff_getElem?.1 hd
      have := (List.getElem?_eq_some_iff.1 hi).1
      obtain ⟨_, _, _, _, _, _, -, -, -, -, -, -, -, k, -, -⟩ := each i (by omega)
      rw [hi] at k
      cases k
      obtain ⟨y, -, rfl⟩ := List.mem_map.1 hx
      simp
    · intro i j v g a1 a2 a3 a4
      exact hT.unique i j v g ((same _ _ _ (by decide) (by decide)).1 a1) ((same _ _ _ (by decide) (by decide)).1 a2)
        ((same _ _ _ (by decide) (by decide)).1 a3) ((same _ _ _ (by decide) (by decide)).1 a4)
  have nu : ∀ {c : String}, c ∉ ofSeries → c ≠ "unit" := by
    rintro c hc rfl
    exact hc (by decide)
  have hlG : Loadable env G := by
    refine ⟨?_, g2 ▸ hl.three, ?_, ?_, ?_, ?_, ?_, ?_⟩
    · intro h0
      rw [h0] at hlen
      exact hl.nonempty (List.length_eq_zero_iff.1 hlen.symm)
    · intro i hi
      rw [hlen] at hi
      obtain ⟨v, g, u, a, n1, n2, n3, n4, n5, n6⟩ := hl.row i hi
      obtain ⟨_, _, u', b, _, _, -, -, -, -, k1, k2, -, -, -, -⟩ := each i hi
      refine ⟨v, g, u', b, (same _ _ _ (by decide) (by decide)).2 n1, (same _ _ _ (by decide) (by decide)).2 n2, k1, n4, k2,
        fun hc => ?_⟩
      obtain ⟨t, p, t1, t2⟩ := n6 (((hcols _).1 hc).resolve_right (by decide))
      exact ⟨t, p, (same _ _ _ (by decide) (by decide)).2 t1, t2⟩
    · intro i j v w g a1 a2 a3 a4
      exact hl.parts i j v w g ((same _ _ _ (by decide) (by decide)).1 a1) ((same _ _ _ (by decide) (by decide)).1 a2)
        ((same _ _ _ (by decide) (by decide)).1 a3) ((same _ _ _ (by decide) (by decide)).1 a4)
    · intro i j c x y hc hx hy
      by_cases e : c = "unit_context"
      · subst e
        rw [ctx i x hx, ctx j y hy]
        exact .equal _
      · exact hl.shared i j c x y hc ((same _ _ _ (nu hc) e).1 hx) ((same _ _ _ (nu hc) e).1 hy)
    · intro i x hx
      exact hl.climate i x ((same _ _ _ (by decide) (by decide)).1 hx)
    · intro i v c x hv hg hc hx
      have hv' := (same _ _ _ (by decide) (by decide)).1 hv
      by_cases e : c = "unit_context"
      · subst e
        exact ⟨(hname i v hv').1, below_context, (hname i v hv').2⟩
      · exact hl.names i v c x hv' ((same _ _ _ (by decide) (by decide)).1 hg) hc ((same _ _ _ (nu hc) e).1 hx)
    · intro c hc c' hc' h1 h2
      rcases (hcols c').1 hc' with hc' | rfl
      · rcases (hcols c).1 hc with hc | rfl
        · exact hl.metas c hc c' hc' h1 h2
        · exact hcol c' hc'
      · exact below_context
  obtain ⟨s', hto'⟩ := C106_loads hTG ((hcols _).2 (.inl hm)) ((hcols _).2 (.inl hsc)) (by
    intro c hc h1
    rcases (hcols c).1 hc with hc | rfl
    · exact hpar c hc h1
    · decide) hlG
  refine ⟨hTG, s', hto', fun i v g u vals hrow => ?_⟩
  have hi : i < F.data.length := by
    have := HasMeta.lt hrow.1
    omega
  obtain ⟨u0, a, u', b, d, xs, k1, k2, k3, k4, k5, k6, k7, k8, -, -⟩ := each i hi
  cases HasMeta.unique hT.ok hrow.2.2.1 k1
  have hrowG : G.IsRow i v g u' ((xs.map (pintTo a b)).map .num) :=
    ⟨(same _ _ _ (by decide) (by decide)).2 hrow.1, (same _ _ _ (by decide) (by decide)).2 hrow.2.1, k5, _, k8, rfl⟩
  obtain ⟨kd, p, src, ys, m1, m2, m3, m4, m5⟩ := C97_loaded hT hto hrow
  obtain ⟨kd', p', src', ys', m1', m2', m3', m4', m5'⟩ := C97_loaded hTG hto' hrowG
  have hk := TypeIs.unique g1 m1' (type_kept hT.ok hr hf (unitConv_fine hu hn) h m1 hi)
  cases hk
  cases kindWord_unique m2 m2'
  rw [g2] at m3'
  cases m3.unique m3'
  have numinj : Function.Injective (Fl.num : K → Fl K) := fun _ _ h => Fl.num.inj h
  have hy' := List.map_injective_iff.2 numinj m4'
  obtain ⟨d', hd', hv'⟩ := hrow.2.2.2
  rw [k3] at hd'
  cases hd'
  have hy : xs = ys := List.map_injective_iff.2 numinj (by rw [← k4, hv', m4])
  subst hy
  subst hy'
  refine ⟨⟨_, _, hrowG⟩, fun w tps ty int ext out => ?_⟩
  rw [m5, m5']
  have hmap : ∀ c : UDef K, (xs.map (pintTo a b)).map (pintTo b c) = xs.map (pintTo a c) := by
    intro c
    rw [List.map_map]
    exact List.map_congr_left fun x _ => pintTo_trans a b c x
  constructor
  · rintro ⟨q1, q2, e, a', c, cv, q3, q4, q5, q6, q7, q8⟩
    rw [k6] at q4; cases q4
    rw [hmap] at q8
    exact ⟨q1, q2, e, a, c, cv, q3, k2, q5, k7.trans q6, q7, q8⟩
  · rintro ⟨q1, q2, e, a', c, cv, q3, q4, q5, q6, q7, q8⟩
    rw [k2] at q4; cases q4
    rw [← hmap] at q8
    exact ⟨q1, q2, e, b, c, cv, q3, k6, q5, k7.symm.trans q6, q7, q8⟩

/-! ## C110 -/

/-- C110: a frame that was converted to other units, without context, can be made into a parameter set like the frame
before, and views of all timeseries show the same. -/
theorem C110_views {env : Env K} {F G : DFrame K} (hT : F.Tidy) (hr : ∀ c ∈ requiredCols, c ∈ F.cols)
    (hpar : ∀ c ∈ F.cols, c ∉ ofSeries → '(' ∉ c.toList) (hnew : "unit_context" ∉ F.cols)
    (hname : ∀ i v, F.HasMeta i "variable" (.str v) → v ≠ "unit_context" ∧ ¬ NameBelow "unit_context" v)
    (hcol : ∀ c ∈ F.cols, ¬ NameBelow "unit_context" c) {o : FilterOpts K} {keep : Bool}
    {filters : List (String × PyArg K)} {unit : String} {F' : DFrame K} (hf : OtherColumns F.cols filters)
    (hu : unit ≠ "") (hn : ∀ i, ¬ F.HasMeta i "unit" (.str "")) {s : St K (PyVal K)}
    (hto : toParameterset env F (St.init "World") = (.ok (), s))
    (h : F.convertUnit (unitConv env.units unit) o keep filters unit .none false = (.ok (some G), F')) :
    ∃ s', toParameterset env G (St.init "World") = (.ok (), s') ∧
      ∀ i v g u vals, F.IsRow i v g u vals → ∀ w tps ty int ext out,
        Sees env s' v g w tps ty int ext out ↔ Sees env s v g w tps ty int ext out := by
  obtain ⟨-, s', h1, h2⟩ := converted_views hT hr hpar hnew hname hcol hf hu hn hto h
  exact ⟨s', h1, fun i v g u vals hrow => (h2 i v g u vals hrow).2⟩

/-- C110: and conversion without context makes no frames that can be made into a parameter set of frames that cannot. -/
theorem C110_before {env : Env K} {F G : DFrame K} (hT : F.Tidy) (hr : ∀ c ∈ requiredCols, c ∈ F.cols)
    (hpar : ∀ c ∈ F.cols, c ∉ ofSeries → '(' ∉ c.toList) {o : FilterOpts K} {keep : Bool}
    {filters : List (String × PyArg K)} {unit : String} {F' : DFrame K} (hf : OtherColumns F.cols filters)
    (hnew : "unit_context" ∉ F.cols) {t : St K (PyVal K)}
    (h : F.convertUnit (unitConv env.units unit) o keep filters unit .none false = (.ok (some G), F'))
    (hto : toParameterset env G (St.init "World") = (.ok (), t)) :
    ∃ s, toParameterset env F (St.init "World") = (.ok (), s) := by
  have hm := hr "model" (by decide)
  have hsc := hr "scenario" (by decide)
  obtain ⟨G1, e1, -, g1, g2, g3, g4⟩ := C53_converted hT.ok hr h
  simp only [Bool.false_eq_true, if_false, Option.some.injEq] at e1
  subst e1
  obtain ⟨s1, s2, s3, s4, s5, s6, s7⟩ := withContext_spec hT.ok hr
  have hlenF : F.data.length = F.meta.length := by simpa using congrArg List.length hT.ok.labels
  have hlenG : G.data.length = G.meta.length := by simpa using congrArg List.length g1.labels
  have hlen : G.data.length = F.data.length := by
    have := g4.length_eq
    rw [← s2, hT.ok.withContext.data_eq, g1.data_eq, List.length_map, List.length_map, this]
  have hcols : ∀ c, c ∈ G.cols ↔ c ∈ F.cols ∨ c = "unit_context" := fun c => by rw [g3]; exact s4 c
  have each : ∀ i < F.data.length, ∃ d e, F.data[i]? = some d ∧ G.data[i]? = some e ∧
      (∀ x ∈ e.2, x ≠ .nan) ∧
      (∀ u a, G.HasMeta i "unit" (.str u) → env.units u = some a →
        ∃ u' b, F.HasMeta i "unit" (.str u') ∧ env.units u' = some b) ∧
      ∀ c v, c ≠ "unit" → c ≠ "unit_context" → (G.HasMeta i c v ↔ F.HasMeta i c v) := by
    intro i hi
    have hd := List.getElem?_eq_getElem hi
    have hmi := List.getElem?_eq_getElem (hlenF ▸ hi)
    have hnum := hT.nums _ (List.getElem_mem hi)
    rcases convert_at hT.ok hr hf h hmi hd with ⟨u0, f, p1, p2, p3, p4, p5, p6, p7, p8⟩ | ⟨-, q1, q2⟩
    · obtain ⟨a, b, k1, k2, k3, k4⟩ := unitConv_pint p4
      refine ⟨_, _, hd, p5, ?_, fun _ _ _ _ => ⟨u0, a, p3, k1⟩, p8⟩
      intro x hx
      obtain ⟨y, hy, rfl⟩ := List.mem_map.1 hx
      cases y with
      | nan => exact absurd rfl (hnum _ hy)
      | num y => rw [k4]; simp
    · exact ⟨_, _, hd, q1, hnum, fun u a h1 h2 => ⟨u, a, (s5 _ _ _ (by decide)).1 ((q2 _ _).1 h1), h2⟩,
        fun c v _ hc => (q2 c v).trans (s5 _ _ _ hc)⟩
  have same : ∀ i c v, c ≠ "unit" → c ≠ "unit_context" → (G.HasMeta i c v ↔ F.HasMeta i c v) := by
    intro i c v h1 h2
    by_cases hi : i < F.data.length
    · obtain ⟨_, _, -, -, -, -, k⟩ := each i hi
      exact k c v h1 h2
    · constructor
      · intro q; have := HasMeta.lt q; omega
      · intro q; have := HasMeta.lt q; omega
  have hTG : G.Tidy := by
    refine ⟨g1, g2 ▸ hT.sorted, g2 ▸ hT.two, ?_, ?_⟩
    · intro d hd
      obtain ⟨i, hi⟩ := List.mem_iff_getElem?.1 hd
      have := (List.getElem?_eq_some_iff.1 hi).1
      obtain ⟨_, _, -, k1, k2, -, -⟩ := each i (by omega)
      rw [hi] at k1
      cases k1
      exact k2
    · intro i j v g a1 a2 a3 a4
      exact hT.unique i j v g ((same _ _ _ (by decide) (by decide)).1 a1) ((same _ _ _ (by decide) (by decide)).1 a2)
        ((same _ _ _ (by decide) (by decide)).1 a3) ((same _ _ _ (by decide) (by decide)).1 a4)
  have hl := (C106_iff hTG ((hcols _).2 (.inl hm)) ((hcols _).2 (.inl hsc)) (by
    intro c hc h1
    rcases (hcols c).1 hc with hc | rfl
    · exact hpar c hc h1
    · decide)).1 ⟨t, hto⟩
  have nu : ∀ {c : String}, c ∉ ofSeries → c ≠ "unit" := by
    rintro c hc rfl
    exact hc (by decide)
  have nx : ∀ {i : Nat} {c : String} {x : PyVal K}, F.HasMeta i c x → c ≠ "unit_context" := by
    rintro i c x hx rfl
    exact hnew ((metaAt_iff hT.ok).1 hx).2.1
  refine C106_loads hT hm hsc hpar ⟨?_, g2 ▸ hl.three, ?_, ?_, ?_, ?_, ?_, ?_⟩
  · intro h0
    rw [h0] at hlen
    exact hl.nonempty (List.length_eq_zero_iff.1 hlen)
  · intro i hi
    obtain ⟨v, g, u, a, n1, n2, n3, n4, n5, n6⟩ := hl.row i (by omega)
    obtain ⟨_, _, -, -, -, k, -⟩ := each i hi
    obtain ⟨u', b, k1, k2⟩ := k u a n3 n5
    refine ⟨v, g, u', b, (same _ _ _ (by decide) (by decide)).1 n1, (same _ _ _ (by decide) (by decide)).1 n2, k1, n4, k2,
      fun hc => ?_⟩
    obtain ⟨t, p, t1, t2⟩ := n6 ((hcols _).2 (.inl hc))
    exact ⟨t, p, (same _ _ _ (by decide) (by decide)).1 t1, t2⟩
  · intro i j v w g a1 a2 a3 a4
    exact hl.parts i j v w g ((same _ _ _ (by decide) (by decide)).2 a1) ((same _ _ _ (by decide) (by decide)).2 a2)
      ((same _ _ _ (by decide) (by decide)).2 a3) ((same _ _ _ (by decide) (by decide)).2 a4)
  · intro i j c x y hc hx hy
    exact hl.shared i j c x y hc ((same _ _ _ (nu hc) (nx hx)).2 hx) ((same _ _ _ (nu hc) (nx hx)).2 hy)
  · intro i x hx
    exact hl.climate i x ((same _ _ _ (by decide) (by decide)).2 hx)
  · intro i v c x hv hg hc hx
    exact hl.names i v c x ((same _ _ _ (by decide) (by decide)).2 hv) ((same _ _ _ (by decide) (by decide)).2 hg) hc
      ((same _ _ _ (nu hc) (nx hx)).2 hx)
  · intro c hc c' hc' h1 h2
    exact hl.metas c ((hcols c).2 (.inl hc)) c' ((hcols c').2 (.inl hc')) h1 h2

/-- C110: if only some timeseries are converted with a context, the frame cannot be made into a parameter set; the
parameter set stays as it is. -/
theorem C110_context {env : Env K} {conv : String → Except Err (Fl K → Fl K)} {F G : DFrame K} (hF : F.Ok)
    (hr : ∀ c ∈ requiredCols, c ∈ F.cols) (hnew : "unit_context" ∉ F.cols) {o : FilterOpts K} {keep : Bool}
    {filters : List (String × PyArg K)} {unit ctx : String} {F' : DFrame K} (hf : OtherColumns F.cols filters)
    (h : F.convertUnit conv o keep filters unit (.str ctx) false = (.ok (some G), F')) {i j : Nat} {u : String}
    {r q : Nat × List (PyVal K)} {d e : Nat × List (Fl K)} (hi : F.meta[i]? = some r) (hdi : F.data[i]? = some d)
    (hp : PicksRow o keep filters F.cols r.2) (hv : HasValue d.2) (hui : F.HasMeta i "unit" (.str u))
    (hj : F.meta[j]? = some q) (hdj : F.data[j]? = some e) (hq : ¬ PicksRow o keep filters F.cols q.2)
    (s : St K (PyVal K)) : toParameterset env G s = (.error .valueError, s) := by
  obtain ⟨G1, e1, -, g1, g2, g3, g4⟩ := C53_converted hF hr h
  simp only [Bool.false_eq_true, if_false, Option.some.injEq] at e1
  subst e1
  obtain ⟨s1, s2, s3, s4, s5, s6, s7⟩ := withContext_spec hF hr
  have a1 : G.HasMeta i "unit_context" (.str ctx) := by
    rcases convert_at hF hr hf h hi hdi with ⟨_, _, _, _, _, _, _, _, p7, _⟩ | ⟨p1 | p1, _⟩
    · exact (p7 _).2 rfl
    · exact absurd ⟨hp, hv⟩ p1
    · exact absurd hui (p1 u)
  have a2 : G.HasMeta j "unit_context" .none := by
    rcases convert_at hF hr hf h hj hdj with ⟨_, _, p1, _⟩ | ⟨_, p1, p2⟩
    · exact absurd p1 hq
    · have hlen : G.data.length = G.meta.length := by simpa using congrArg List.length g1.labels
      have : j < G.meta.length := hlen ▸ (List.getElem?_eq_some_iff.1 p1).1
      have hx : G.HasMeta j "unit_context" (G.metaAt j "unit_context") :=
        (metaAt_iff g1).2 ⟨this, by rw [g3]; exact (s4 _).2 (.inr rfl), rfl⟩
      rwa [s7 j _ hnew ((p2 _ _).1 hx)] at hx
  exact C78_refused g1 (by decide) a1 a2 (by
    intro hs
    cases hs with
    | missing h1 _ => rcases h1 with h1 | h1 <;> cases h1) s

/-! ## Examples -/

/-- Frames converted from the frame of C106. -/
def pairConverted (v w : String) (conv : String → Except Err (Fl ℚ → Fl ℚ)) (filters : List (String × PyArg ℚ)) (ctx : PyVal ℚ) :
    Except Err (Option (DFrame ℚ)) :=
  ((pairF v w "mK").convertUnit conv demoO true filters "K" ctx false).1

/-- Hypotheses of `C110_views` and `C110_before`: the second timeseries is converted from mK to K. -/
example : (pairF "a|x" "a|y" "mK").Tidy ∧ (∀ c ∈ requiredCols, c ∈ (pairF "a|x" "a|y" "mK").cols) ∧
    (∀ c ∈ (pairF "a|x" "a|y" "mK").cols, c ∉ ofSeries → '(' ∉ c.toList) ∧
    "unit_context" ∉ (pairF "a|x" "a|y" "mK").cols ∧
    OtherColumns (pairF "a|x" "a|y" "mK").cols [("variable", (.val (.str "a|y") : PyArg ℚ))] ∧
    (toParameterset demoEnv (pairF "a|x" "a|y" "mK") (St.init "World")).1 = .ok () ∧
    (pairConverted "a|x" "a|y" (unitConv demoReg "K") [("variable", .val (.str "a|y"))] .none).map
      (Option.map fun F => (F.data.map (·.2), (toParameterset demoEnv F (St.init "World")).1 == .ok ())) =
      .ok (some ([[.num 1, .num 2, .num 4], [.num (5 / 1000), .num (6 / 1000), .num (8 / 1000)]], true)) :=
  ⟨pairF_tidy _ (by decide), by decide +kernel, by decide +kernel, by decide +kernel, by unfold OtherColumns; decide +kernel,
    by decide +kernel, by decide +kernel⟩

/-- The names of variables do matter: the column that conversion adds may clash with one. -/
example : (toParameterset demoEnv (pairF "a|x" "unit_context" "mK") (St.init "World")).1 = .ok () ∧
    (pairConverted "a|x" "unit_context" (unitConv demoReg "K") [] .none).map
      (Option.map fun F => (toParameterset demoEnv F (St.init "World")).1) = .ok (some (.error .parameterType)) := by
  decide +kernel

/-- `C110_context`: one of two timeseries converted, with a context. -/
example : (pairConverted "a|x" "a|y" (unitConv demoReg "K") [("variable", .val (.str "a|y"))] (.str "c")).map
      (Option.map fun F => (toParameterset demoEnv F (St.init "World")).1) = .ok (some (.error .valueError)) ∧
    (pairConverted "a|x" "a|y" (unitConv demoReg "K") [] (.str "c")).map
      (Option.map fun F => (toParameterset demoEnv F (St.init "World")).1) = .ok (some (.ok ())) := by
  decide +kernel

end Openscm
