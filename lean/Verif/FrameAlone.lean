import Verif.FrameConverted

/-!
# C111: views of one timeseries do not depend on the others

What views of a timeseries show, once a frame was made into a parameter set (`to_parameterset`,
`openscm/scmdataframe/base.py:453-534`), depends on this timeseries alone: neither the other timeseries of the frame,
nor their order, nor its other metadata matter.
-/

set_option linter.unusedSectionVars false

namespace Openscm

variable {K : Type} [Field K] [LinearOrder K] [IsStrictOrderedRing K]

/-! ## Specification -/

/-- Timeseries `i` of `F` and timeseries `j` of `G` are of the same variable, region, unit and type, and have the same
values. -/
structure SameSeries (F : DFrame K) (i : Nat) (G : DFrame K) (j : Nat) : Prop where
  values : ∃ d e, F.data[i]? = some d ∧ G.data[j]? = some e ∧ d.2 = e.2
  info : ∀ c ∈ ofSeries, ∀ v, F.HasMeta i c v ↔ G.HasMeta j c v

/-! ## Facts -/

theorem SameSeries.type {F G : DFrame K} {i j : Nat} (hc : "parameter_type" ∈ F.cols ↔ "parameter_type" ∈ G.cols)
    (h : SameSeries F i G j) {reg : Registry K} {v : PyVal K} (ht : TypeIs reg true F i v) : TypeIs reg true G j v := by
  have hm : ("parameter_type" ∉ F.cols ∨ F.HasMeta i "parameter_type" .none) →
      ("parameter_type" ∉ G.cols ∨ G.HasMeta j "parameter_type" .none) := by
    rintro (h1 | h1)
    · exact .inl fun h2 => h1 (hc.2 h2)
    · exact .inr ((h.info _ (by decide) _).1 h1)
  cases ht with
  | given h1 h2 => exact .given ((h.info _ (by decide) _).1 h1) h2
  | guessed h1 h2 h3 h4 => exact .guessed h1 (hm h2) ((h.info _ (by decide) _).1 h3) ((h.info _ (by decide) _).1 h4)
  | guessedNoUnit h1 h2 h3 h4 =>
    exact .guessedNoUnit h1 (hm h2) ((h.info _ (by decide) _).1 h3) ((h.info _ (by decide) _).1 h4)
  | unknown h1 _ _ => cases h1

/-! ## C111 -/

/-- C111: views of the same timeseries show the same, whatever else there is in the frames. -/
theorem C111_alone {env : Env K} {F G : DFrame K} (hF : F.Tidy) (hG : G.Tidy) (ht : F.times = G.times)
    (hc : "parameter_type" ∈ F.cols ↔ "parameter_type" ∈ G.cols) {s t : St K (PyVal K)}
    (hs : toParameterset env F (St.init "World") = (.ok (), s))
    (ht' : toParameterset env G (St.init "World") = (.ok (), t)) {i j : Nat} (h : SameSeries F i G j) {v g : String}
    (hv : F.HasMeta i "variable" (.str v)) (hg : F.HasMeta i "region" (.str g)) (w : String) (tps : List K) (ty : TyArg)
    (int : IntArg) (ext : ExtArg) (out : List (Fl K)) :
    Sees env s v g w tps ty int ext out ↔ Sees env t v g w tps ty int ext out := by
  obtain ⟨d, e, hd, he, hde⟩ := h.values
  obtain ⟨u, hu⟩ : ∃ u, F.HasMeta i "unit" (.str u) := by
    obtain ⟨_, _, u, _, -, -, n3, -⟩ := (C105_needs_partial hF hs).2.1 i (List.getElem?_eq_some_iff.1 hd).1
    exact ⟨u, n3⟩
  have rF : F.IsRow i v g u d.2 := ⟨hv, hg, hu, d, hd, rfl⟩
  have rG : G.IsRow j v g u d.2 := ⟨(h.info _ (by decide) _).1 hv, (h.info _ (by decide) _).1 hg,
    (h.info _ (by decide) _).1 hu, e, he, hde.symm⟩
  obtain ⟨k, p, src, xs, m1, m2, m3, m4, m5⟩ := C97_loaded hF hs rF
  obtain ⟨k', p', src', xs', n1, n2, n3, n4, n5⟩ := C97_loaded hG ht' rG
  cases TypeIs.unique hG.ok (h.type hc m1) n1
  cases kindWord_unique m2 n2
  rw [← ht] at n3
  cases m3.unique n3
  have : xs = xs' := List.map_injective_iff.2 (fun _ _ h => Fl.num.inj h) (m4.symm.trans n4)
  subst this
  rw [m5, n5]

/-- C111: so the order of timeseries makes no difference to what views show. -/
theorem C111_order {env : Env K} {F G : DFrame K} (hF : F.Tidy) (hG : G.Tidy) (h : F.Reordered G)
    {s t : St K (PyVal K)} (hs : toParameterset env F (St.init "World") = (.ok (), s))
    (ht : toParameterset env G (St.init "World") = (.ok (), t)) {i : Nat} {v g : String}
    (hv : F.HasMeta i "variable" (.str v)) (hg : F.HasMeta i "region" (.str g)) (w : String) (tps : List K) (ty : TyArg)
    (int : IntArg) (ext : ExtArg) (out : List (Fl K)) :
    Sees env s v g w tps ty int ext out ↔ Sees env t v g w tps ty int ext out := by
  obtain ⟨d, hd⟩ := HasMeta.data hF.ok hv
  obtain ⟨j, e, he, hde, hj⟩ := h.there i d hd
  exact C111_alone hF hG h.times (h.cols _) hs ht ⟨⟨d, e, hd, he, hde.symm⟩, fun c _ v => hj c v⟩ hv hg w tps ty int ext out

/-- C111: and views of what was selected from a frame show what views of the whole frame show. -/
theorem C111_selected {env : Env K} {F F' : DFrame K} (hT : F.Tidy) (hm : "model" ∈ F.cols) (hsc : "scenario" ∈ F.cols)
    (hW : F.Written) (hn : F.NoneScalar) {s s' : St K (PyVal K)}
    (hto : toParameterset env F (St.init "World") = (.ok (), s)) {o : FilterOpts K} {keep : Bool}
    {filters : List (String × PyArg K)} (hf : AboutMeta F.cols filters) (h : F.filter o keep filters = .ok F')
    (hto' : toParameterset env F' (St.init "World") = (.ok (), s')) {i : Nat} {v g : String}
    (hv : F'.HasMeta i "variable" (.str v)) (hg : F'.HasMeta i "region" (.str g)) (w : String) (tps : List K) (ty : TyArg)
    (int : IntArg) (ext : ExtArg) (out : List (Fl K)) :
    Sees env s' v g w tps ty int ext out ↔ Sees env s v g w tps ty int ext out := by
  have hcomp : Complete F := fun d hd => nums_of (hT.nums d hd)
  have ht0 : F.times ≠ [] := by
    intro h0
    have := hT.two
    rw [h0] at this
    simp at this
  obtain ⟨h1, h2, h3, h4⟩ := select_rows hT.ok hcomp ht0 hf h
  obtain ⟨d, hd⟩ := HasMeta.data h1 hv
  have hne : F'.data ≠ [] := List.ne_nil_of_mem (List.mem_of_getElem? hd)
  have hT' := (C109_select hT hm hsc hW hn hto hf h hne).1
  obtain ⟨rd, r1, rfl⟩ := rows_of_data h1 hd
  obtain ⟨j, hj, hmj⟩ := select_within h2 (by
    intro rd hrd
    rw [h3] at hrd
    exact (List.mem_filter.1 hrd).1) r1
  exact C111_alone hT' hT (h4 (List.ne_nil_of_mem (List.mem_of_getElem? r1))) (by rw [h2]) hto' hto
    ⟨⟨_, _, hd, (rows_at.1 hj).2, rfl⟩, fun c _ v => hmj c v⟩ hv hg w tps ty int ext out

/-! ## Examples -/

/-- Hypotheses of `C111_alone`: frames that have only the first timeseries in common, and what is seen of it. -/
example : (pairF "a|x" "a|y" "mK").Tidy ∧ (pairF "a|x" "b" "K").Tidy ∧
    (toParameterset demoEnv (pairF "a|x" "a|y" "mK") (St.init "World")).1 = .ok () ∧
    (toParameterset demoEnv (pairF "a|x" "b" "K") (St.init "World")).1 = .ok () ∧
    SameSeries (pairF "a|x" "a|y" "mK") 0 (pairF "a|x" "b" "K") 0 ∧
    seenOf (pairF "a|x" "a|y" "mK") "a|x" "World" "mK" [0, 5, 40] .point .linear = some [.num 1000, .num 1500, .num 8000] ∧
    seenOf (pairF "a|x" "b" "K") "a|x" "World" "mK" [0, 5, 40] .point .linear = some [.num 1000, .num 1500, .num 8000] :=
  ⟨pairF_tidy _ (by decide), pairF_tidy _ (by decide), by decide +kernel, by decide +kernel,
    ⟨⟨_, _, rfl, rfl, rfl⟩, fun _ _ _ => Iff.rfl⟩, by decide +kernel, by decide +kernel⟩

/-- Hypotheses of `C111_order` and `C111_selected`: the frames of C108 and C109, and what is seen there. -/
example : (rtF "World|x").Tidy ∧ rtTurned.Tidy ∧ (rtF "World|x").Reordered rtTurned ∧ (rtF "World|x").NoneScalar ∧
    (toParameterset demoEnv (rtF "World|x") (St.init "World")).1 = .ok () ∧
    (toParameterset demoEnv rtTurned (St.init "World")).1 = .ok () ∧
    seenOf (rtF "World|x") "a|T" "World" "mK" [5, 12, 40] .point .linear = some [.num 1500, .num 2200, .num 5000] ∧
    seenOf rtTurned "a|T" "World" "mK" [5, 12, 40] .point .linear = some [.num 1500, .num 2200, .num 5000] ∧
    ((rtF "World|x").filter demoO true [("region", .val (.str "World"))]).map
      (fun F => seenOf F "a|T" "World" "mK" [5, 12, 40] .point .linear) = .ok (some [.num 1500, .num 2200, .num 5000]) :=
  ⟨rtF_plain.toTidy, rtTurned_tidy, rtTurned_reordered, rtF_noneScalar, by decide +kernel, by decide +kernel,
    by decide +kernel, by decide +kernel, by decide +kernel⟩

/-- A view of the timeseries in a type of its own shows nothing if the type is another one; the types do matter. -/
example : seenOf (pairF "a|x" "a|y" "mK") "a|x" "World" "mK" [0, 5, 40] .average .linear = none := by decide +kernel

end Openscm
