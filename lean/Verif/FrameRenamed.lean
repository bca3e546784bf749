import Verif.FrameAlone

/-!
# C112: renamed frames in parameter sets

Renaming metadata that all timeseries share (`rename`, `openscm/scmdataframe/base.py:823-869`) makes no difference to
whether a frame can be made into a parameter set (`to_parameterset`, `openscm/scmdataframe/base.py:453-534`), nor to what
views of its timeseries show.
-/

set_option linter.unusedSectionVars false

namespace Openscm

variable {K : Type} [Field K] [LinearOrder K] [IsStrictOrderedRing K]

/-! ## Facts -/

theorem Renamed.fwd {mapping : List (String × List (String × String))} {F G : DFrame K} (h : Renamed mapping F G) {i : Nat}
    {c : String} {v : PyVal K} (hv : F.HasMeta i c v) : ∃ v', G.HasMeta i c v' ∧ ValueRenamed mapping c v v' := by
  obtain ⟨k, row, hk, hrow, hx⟩ := hv
  obtain ⟨a1, a2⟩ := List.getElem?_eq_some_iff.1 hrow
  have hlt : i < G.meta.length := h.rows.length_eq ▸ a1
  have hr := h.rows.get a1 hlt
  simp only [List.get_eq_getElem, a2] at hr
  obtain ⟨b1, b2⟩ := List.getElem?_eq_some_iff.1 hx
  have hk' : k < (G.meta[i]).2.length := by rw [hr.2.1]; exact b1
  exact ⟨_, ⟨k, _, h.cols ▸ hk, List.getElem?_eq_getElem hlt, List.getElem?_eq_getElem hk'⟩,
    hr.2.2 k c v _ hk hx (List.getElem?_eq_getElem hk')⟩

theorem Renamed.bwd {mapping : List (String × List (String × String))} {F G : DFrame K} (h : Renamed mapping F G) {i : Nat}
    {c : String} {v' : PyVal K} (hv : G.HasMeta i c v') : ∃ v, F.HasMeta i c v ∧ ValueRenamed mapping c v v' := by
  obtain ⟨k, row, hk, hrow, hx⟩ := hv
  obtain ⟨a1, a2⟩ := List.getElem?_eq_some_iff.1 hrow
  have hlt : i < F.meta.length := h.rows.length_eq ▸ a1
  have hr := h.rows.get hlt a1
  simp only [List.get_eq_getElem, a2] at hr
  obtain ⟨b1, b2⟩ := List.getElem?_eq_some_iff.1 hx
  have hk' : k < (F.meta[i]).2.length := by rw [← hr.2.1]; exact b1
  exact ⟨_, ⟨k, _, h.cols ▸ hk, List.getElem?_eq_getElem hlt, List.getElem?_eq_getElem hk'⟩,
    hr.2.2 k c _ v' (h.cols ▸ hk) (List.getElem?_eq_getElem hk') hx⟩

theorem ValueRenamed.other {mapping : List (String × List (String × String))} {c : String} {v v' : PyVal K}
    (h : ValueRenamed mapping c v v') (hc : ∀ cm ∈ mapping, cm.1 ≠ c) : v' = v := by
  cases h with
  | mapped hm _ => exact absurd rfl (hc _ hm)
  | kept _ => rfl

theorem ValueRenamed.notStr {mapping : List (String × List (String × String))} {c : String} {v v' : PyVal K}
    (h : ValueRenamed mapping c v v') (hv : ∀ s, v ≠ .str s) : v' = v := by
  cases h with
  | mapped _ _ => exact absurd rfl (hv _)
  | kept _ => rfl

/-- Values that were the same stay the same. -/
theorem ValueRenamed.same {mapping : List (String × List (String × String))} (hd : DictKeys mapping) {c : String}
    {x y x' y' : PyVal K} (h : SameValue x y) (hx : ValueRenamed mapping c x x') (hy : ValueRenamed mapping c y y') :
    SameValue x' y' := by
  cases h with
  | missing h1 h2 =>
    rw [hx.notStr (by rcases h1 with rfl | rfl <;> simp), hy.notStr (by rcases h2 with rfl | rfl <;> simp)]
    exact .missing h1 h2
  | equal => rw [hx.unique hd hy]; exact .equal _
  | intFloat z =>
    rw [hx.notStr (by simp), hy.notStr (by simp)]
    exact .intFloat z
  | floatInt z =>
    rw [hx.notStr (by simp), hy.notStr (by simp)]
    exact .floatInt z

theorem Renamed.kept {mapping : List (String × List (String × String))} {F G : DFrame K} (h : Renamed mapping F G)
    {c : String} (hc : ∀ cm ∈ mapping, cm.1 ≠ c) (i : Nat) (v : PyVal K) : G.HasMeta i c v ↔ F.HasMeta i c v := by
  constructor
  · intro hv
    obtain ⟨w, h1, h2⟩ := h.bwd hv
    rwa [h2.other hc]
  · intro hv
    obtain ⟨w, h1, h2⟩ := h.fwd hv
    rwa [h2.other hc] at h1

theorem Renamed.ok {mapping : List (String × List (String × String))} {F G : DFrame K} (h : Renamed mapping F G)
    (hF : F.Ok) : G.Ok := by
  have hl : G.meta.map (·.1) = F.meta.map (·.1) := by
    have := h.rows
    clear h
    generalize F.meta = a at this ⊢
    generalize G.meta = b at this ⊢
    induction this with
    | nil => rfl
    | cons h1 _ ih => rw [List.map_cons, List.map_cons, ih, h1.1]
  refine ⟨?_, ?_, h.cols ▸ hF.cols_nodup, ?_, ?_⟩
  · rw [h.data, hl]; exact hF.labels
  · rw [h.data]; exact hF.nodup
  · rw [h.data, h.times]; exact hF.data_len
  · intro s hs
    obtain ⟨i, hi⟩ := List.mem_iff_getElem?.1 hs
    obtain ⟨a1, a2⟩ := List.getElem?_eq_some_iff.1 hi
    have hlt : i < F.meta.length := h.rows.length_eq ▸ a1
    have hr := h.rows.get hlt a1
    simp only [List.get_eq_getElem, a2] at hr
    rw [hr.2.1, h.cols]
    exact hF.meta_len _ (List.getElem_mem hlt)

/-! ## C112 -/

/-- C112: a frame of which metadata was renamed, other than of single timeseries and the name of the climate model, can
be made into a parameter set if the frame before can, and views show the same. -/
theorem C112_renamed {env : Env K} {mapping : List (String × List (String × String))} (hd : DictKeys mapping)
    {F G F' : DFrame K} (hT : F.Tidy) (hm : "model" ∈ F.cols) (hsc : "scenario" ∈ F.cols)
    (hpar : ∀ c ∈ F.cols, c ∉ ofSeries → '(' ∉ c.toList) (h : F.rename mapping false = (.ok (some G), F'))
    (hmap : ∀ cm ∈ mapping, cm.1 ∉ ofSeries ∧ cm.1 ≠ "climate_model") {s : St K (PyVal K)}
    (hto : toParameterset env F (St.init "World") = (.ok (), s)) :
    ∃ s', toParameterset env G (St.init "World") = (.ok (), s') ∧
      ∀ i v g, F.HasMeta i "variable" (.str v) → F.HasMeta i "region" (.str g) → ∀ w tps ty int ext out,
        Sees env s' v g w tps ty int ext out ↔ Sees env s v g w tps ty int ext out := by
  have hl := (C106_iff hT hm hsc hpar).1 ⟨s, hto⟩
  obtain ⟨G1, e1, hR, -, -⟩ := C51_renamed hd hT.ok h
  simp only [Bool.false_eq_true, if_false, Option.some.injEq] at e1
  obtain ⟨rfl, -⟩ := e1
  have hG := hR.ok hT.ok
  have ser : ∀ {c : String}, c ∈ ofSeries → ∀ i v, G.HasMeta i c v ↔ F.HasMeta i c v := fun hc i v =>
    hR.kept (fun cm hcm he => (hmap cm hcm).1 (he ▸ hc)) i v
  have cli : ∀ i v, G.HasMeta i "climate_model" v ↔ F.HasMeta i "climate_model" v := fun i v =>
    hR.kept (fun cm hcm => (hmap cm hcm).2) i v
  have hTG : G.Tidy := by
    refine ⟨hG, hR.times ▸ hT.sorted, hR.times ▸ hT.two, hR.data ▸ hT.nums, fun i j v g a1 a2 a3 a4 => ?_⟩
    exact hT.unique i j v g ((ser (by decide) _ _).1 a1) ((ser (by decide) _ _).1 a2) ((ser (by decide) _ _).1 a3)
      ((ser (by decide) _ _).1 a4)
  have hlG : Loadable env G := by
    refine ⟨hR.data ▸ hl.nonempty, hR.times ▸ hl.three, ?_, ?_, ?_, ?_, ?_, hR.cols ▸ hl.metas⟩
    · intro i hi
      rw [hR.data] at hi
      obtain ⟨v, g, u, a, n1, n2, n3, n4, n5, n6⟩ := hl.row i hi
      refine ⟨v, g, u, a, (ser (by decide) _ _).2 n1, (ser (by decide) _ _).2 n2, (ser (by decide) _ _).2 n3, n4, n5,
        fun hc => ?_⟩
      obtain ⟨t, p, t1, t2⟩ := n6 (hR.cols ▸ hc)
      exact ⟨t, p, (ser (by decide) _ _).2 t1, t2⟩
    · intro i j v w g a1 a2 a3 a4
      exact hl.parts i j v w g ((ser (by decide) _ _).1 a1) ((ser (by decide) _ _).1 a2) ((ser (by decide) _ _).1 a3)
        ((ser (by decide) _ _).1 a4)
    · intro i j c x y hc hx hy
      obtain ⟨x0, x1, x2⟩ := hR.bwd hx
      obtain ⟨y0, y1, y2⟩ := hR.bwd hy
      exact ValueRenamed.same hd (hl.shared i j c x0 y0 hc x1 y1) x2 y2
    · intro i x hx
      exact hl.climate i x ((cli _ _).1 hx)
    · intro i v c x hv hg hc hx
      obtain ⟨x0, x1, -⟩ := hR.bwd hx
      exact hl.names i v c x0 ((ser (by decide) _ _).1 hv) ((ser (by decide) _ _).1 hg) hc x1
  obtain ⟨s', hto'⟩ := C106_loads hTG (hR.cols ▸ hm) (hR.cols ▸ hsc) (hR.cols ▸ hpar) hlG
  refine ⟨s', hto', fun i v g hv hg w tps ty int ext out => ?_⟩
  obtain ⟨d, hdd⟩ := HasMeta.data hT.ok hv
  exact C111_alone hTG hT hR.times (by rw [hR.cols]) hto' hto
    ⟨⟨d, d, hR.data ▸ hdd, hdd, rfl⟩, fun c hc v => ser hc i v⟩ ((ser (by decide) _ _).2 hv) ((ser (by decide) _ _).2 hg)
    w tps ty int ext out

/-- C112: also if variables or regions are renamed, views by the new names show what views by the old names showed, as
long as both frames can be made into parameter sets. -/
theorem C112_names {env : Env K} {mapping : List (String × List (String × String))} (hd : DictKeys mapping)
    {F G F' : DFrame K} (hT : F.Tidy) (hTG : G.Tidy) (hp : "parameter_type" ∈ F.cols)
    (h : F.rename mapping false = (.ok (some G), F'))
    (hmap : ∀ cm ∈ mapping, cm.1 ≠ "unit" ∧ cm.1 ≠ "parameter_type") {s s' : St K (PyVal K)}
    (hto : toParameterset env F (St.init "World") = (.ok (), s))
    (hto' : toParameterset env G (St.init "World") = (.ok (), s')) {i : Nat} {v g v' g' : String}
    (hv : F.HasMeta i "variable" (.str v)) (hg : F.HasMeta i "region" (.str g)) (hv' : G.HasMeta i "variable" (.str v'))
    (hg' : G.HasMeta i "region" (.str g')) (w : String) (tps : List K) (ty : TyArg) (int : IntArg) (ext : ExtArg)
    (out : List (Fl K)) : Sees env s' v' g' w tps ty int ext out ↔ Sees env s v g w tps ty int ext out := by
  obtain ⟨G1, e1, hR, -, -⟩ := C51_renamed hd hT.ok h
  simp only [Bool.false_eq_true, if_false, Option.some.injEq] at e1
  obtain ⟨rfl, -⟩ := e1
  obtain ⟨d, hdd⟩ := HasMeta.data hT.ok hv
  obtain ⟨_, _, u, _, -, -, hu, -, -, htp⟩ := (C105_needs_partial hT hto).2.1 i (List.getElem?_eq_some_iff.1 hdd).1
  obtain ⟨t, _, t1, -⟩ := htp hp
  have hu' := (hR.kept (fun cm hcm => (hmap cm hcm).1) i _).2 hu
  have t1' := (hR.kept (fun cm hcm => (hmap cm hcm).2) i _).2 t1
  have rF : F.IsRow i v g u d.2 := ⟨hv, hg, hu, d, hdd, rfl⟩
  have rG : G.IsRow i v' g' u d.2 := ⟨hv', hg', hu', d, hR.data ▸ hdd, rfl⟩
  obtain ⟨k, p, src, xs, m1, m2, m3, m4, m5⟩ := C97_loaded hT hto rF
  obtain ⟨k', p', src', xs', n1, n2, n3, n4, n5⟩ := C97_loaded hTG hto' rG
  cases TypeIs.unique hT.ok m1 (.given t1 (by simp))
  cases TypeIs.unique hTG.ok n1 (.given t1' (by simp))
  cases kindWord_unique m2 n2
  rw [hR.times] at n3
  cases m3.unique n3
  have : xs = xs' := List.map_injective_iff.2 (fun _ _ h => Fl.num.inj h) (m4.symm.trans n4)
  subst this
  rw [m5, n5]

/-! ## Examples -/

/-- What is seen of the first timeseries of a renamed frame. -/
def renamedSeen (F : DFrame ℚ) (v : String) (mapping : List (String × List (String × String))) :
    Except Err (Option (Bool × Option (List (Fl ℚ)))) :=
  (F.rename mapping false).1.map (Option.map fun G => ((toParameterset demoEnv G (St.init "World")).1 == .ok (),
    seenOf G v "World" "mK" [0, 5, 40] .point .linear))

/-- Hypotheses of `C112_renamed`, and what is seen. -/
example : DictKeys [("model", [("m", "n"), ("n", "m")]), ("scenario", [("s", "t")])] ∧ (pairF "a|x" "a|y" "mK").Tidy ∧
    (∀ cm ∈ [("model", [("m", "n"), ("n", "m")]), ("scenario", [("s", "t")])], cm.1 ∉ ofSeries ∧ cm.1 ≠ "climate_model") ∧
    (∀ c ∈ (pairF "a|x" "a|y" "mK").cols, c ∉ ofSeries → '(' ∉ c.toList) ∧
    seenOf (pairF "a|x" "a|y" "mK") "a|x" "World" "mK" [0, 5, 40] .point .linear = some [.num 1000, .num 1500, .num 8000] ∧
    renamedSeen (pairF "a|x" "a|y" "mK") "a|x" [("model", [("m", "n"), ("n", "m")]), ("scenario", [("s", "t")])] =
      .ok (some (true, some [.num 1000, .num 1500, .num 8000])) :=
  ⟨by unfold DictKeys; decide +kernel, pairF_tidy _ (by decide), by decide +kernel, by decide +kernel, by decide +kernel,
    by decide +kernel⟩

/-- `C112_names`: a variable is renamed; it is seen by its new name. -/
example : (pairF "a|x" "a|y" "mK").rename [("variable", [("a|x", "b")])] false =
      (.ok (some (pairF "b" "a|y" "mK")), pairF "a|x" "a|y" "mK") ∧ (pairF "b" "a|y" "mK").Tidy ∧
    "parameter_type" ∈ (pairF "a|x" "a|y" "mK").cols ∧
    seenOf (pairF "b" "a|y" "mK") "b" "World" "mK" [0, 5, 40] .point .linear = some [.num 1000, .num 1500, .num 8000] ∧
    renamedSeen (pairF "a|x" "a|y" "mK") "a|x" [("variable", [("a|x", "b")])] = .ok (some (true, none)) :=
  ⟨by rfl, pairF_tidy _ (by decide), by decide +kernel, by decide +kernel, by decide +kernel⟩

/-- Why the climate model is left out: other names are refused.  And why units are: values are not converted. -/
example : (renamedSeen (rtF "World|x") "a|T" [("climate_model", [("unspecified", "MAGICC")])]).map (Option.map (·.1)) =
      .ok (some false) ∧
    renamedSeen (pairF "a|x" "a|y" "mK") "a|x" [("unit", [("K", "mK")])] =
      .ok (some (true, some [.num 1, .num (3 / 2), .num 8])) := by decide +kernel

end Openscm
