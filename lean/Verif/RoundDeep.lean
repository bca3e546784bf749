import Verif.RoundProps

/-!
# Frames to parameter sets and back, with regions at any depth

`convert_openscm_to_scmdataframe` (`openscm/scmdataframe/__init__.py:111-122`) looks at the root region and at the
regions directly below it. So C57 fails for deeper regions; here is exactly what returns.
-/

set_option linter.unusedSectionVars false

namespace Openscm

variable {K : Type} [Field K] [LinearOrder K] [IsStrictOrderedRing K]

/-- C57: of a frame that can be converted to a fresh parameter set, the conversion back returns, at the same times and
once each, exactly the timeseries of regions at most one level below `World`, with their values, variables, regions
and units. If there are none, it raises `ValueError`. -/
theorem C57_exact_partial {env : Env K} {F : DFrame K} (h : F.Tidy) {s : St K (PyVal K)}
    (hto : toParameterset env F (St.init "World") = (.ok (), s)) (model scenario climate : String) :
    ((∃ i v g u vals, F.IsRow i v g u vals ∧ (g.toList.filter (· = '|')).length ≤ 1) →
      ∃ F' s', convertToFrame env F.times model scenario climate s = (.ok F', s') ∧ F'.times = F.times ∧
        (∀ v g u vals, (∃ i, F'.IsRow i v g u vals) ↔
          (∃ i, F.IsRow i v g u vals) ∧ (g.toList.filter (· = '|')).length ≤ 1) ∧
        (∀ i < F'.data.length, ∃ v g u vals, F'.IsRow i v g u vals) ∧
        ∀ i j v g u u' vals vals', F'.IsRow i v g u vals → F'.IsRow j v g u' vals' → i = j) ∧
    ((∀ i v g u vals, F.IsRow i v g u vals → 2 ≤ (g.toList.filter (· = '|')).length) →
      (convertToFrame env F.times model scenario climate s).1 = .error .valueError) := by
  obtain ⟨S, c1, c2, c3, c4, c5⟩ := round_all h hto model scenario climate
  constructor
  · rintro ⟨i0, v0, g0, u0, vals0, hr0, hg0⟩
    obtain ⟨z0, hz0, _⟩ := c3 i0 v0 g0 u0 vals0 hr0 hg0
    obtain ⟨F', s', e1, e2, e3, e4, e5⟩ := c5 (List.ne_nil_of_mem hz0)
    have hrow : ∀ {i : Nat} {v g u : String} {vals : List (Fl K)}, F'.IsRow i v g u vals →
        ∃ z, S[i]? = some z ∧ joinName z.key.2 = v ∧ joinName z.key.1 = g ∧ z.unit = u ∧ z.xs.map .num = vals := by
      intro i v g u vals hi
      obtain ⟨_, _, _, d, hd, _⟩ := id hi
      have hl : i < S.length := by rw [← e4]; exact (List.getElem?_eq_some_iff.1 hd).1
      have hz := List.getElem?_eq_getElem hl
      obtain ⟨rfl, rfl, rfl, rfl⟩ := IsRow.unique e2 hi (e5 i _ hz).1
      exact ⟨_, hz, rfl, rfl, rfl, rfl⟩
    refine ⟨F', s', e1, e3, fun v g u vals => ⟨?_, ?_⟩, ?_, ?_⟩
    · rintro ⟨i, hi⟩
      obtain ⟨z, hz, rfl, rfl, rfl, rfl⟩ := hrow hi
      obtain ⟨j, _, _, hj, _, hs, _⟩ := c2 z (List.mem_of_getElem? hz)
      exact ⟨⟨j, hj⟩, hs⟩
    · rintro ⟨⟨i, hi⟩, hg⟩
      obtain ⟨z, hz, r, _, r2, rfl, rfl, _⟩ := c3 i v g u vals hi hg
      obtain ⟨j, hj⟩ := List.getElem?_of_mem hz
      have := (e5 j z hj).1
      rw [r2] at this
      simp only [C17_join_split] at this
      exact ⟨j, this⟩
    · intro i hi
      have hz := List.getElem?_eq_getElem (e4 ▸ hi : i < S.length)
      exact ⟨_, _, _, _, (e5 i _ hz).1⟩
    · intro i j v g u u' vals vals' hi hj
      obtain ⟨z, hz, rfl, rfl, _, _⟩ := hrow hi
      obtain ⟨z', hz', h1, h2, _, _⟩ := hrow hj
      obtain ⟨_, _, _, _, _, _, k1⟩ := c2 z (List.mem_of_getElem? hz)
      obtain ⟨_, _, _, _, _, _, k2⟩ := c2 z' (List.mem_of_getElem? hz')
      rw [h1, h2, k1] at k2
      have hli := (List.getElem?_eq_some_iff.1 hz).1
      refine (List.getElem?_inj (l := S.map (·.key)) (by rw [List.length_map]; exact hli) c1).1 ?_
      rw [List.getElem?_map, List.getElem?_map, hz, hz']
      simp [k2]
  · intro hdeep
    have hS : S = [] := by
      rw [List.eq_nil_iff_forall_not_mem]
      intro z hz
      obtain ⟨i, _, _, hr, _, hs, _⟩ := c2 z hz
      have h1 := hdeep i _ _ _ _ hr
      have h2 : ((joinName z.key.1).toList.filter (· = '|')).length ≤ 1 := hs
      omega
    obtain ⟨s', hs'⟩ := c4 hS
    rw [hs']

/-- C57: also with deep regions, the timeseries that return keep their types. -/
theorem C57_exact_type_partial {env : Env K} {F : DFrame K} (h : F.Tidy) {s s' : St K (PyVal K)} {F' : DFrame K}
    (hto : toParameterset env F (St.init "World") = (.ok (), s)) {model scenario climate : String}
    (hback : convertToFrame env F.times model scenario climate s = (.ok F', s')) {i j : Nat} {v g t : String}
    (ht : t = "average" ∨ t = "point") (hi : F.HasMeta i "parameter_type" (.str t))
    (hv : F.HasMeta i "variable" (.str v)) (hg : F.HasMeta i "region" (.str g))
    (hv' : F'.HasMeta j "variable" (.str v)) (hg' : F'.HasMeta j "region" (.str g)) :
    F'.HasMeta j "parameter_type" (.str t) := by
  obtain ⟨S, c1, c2, c3, c4, c5⟩ := round_all h hto model scenario climate
  have hne : S ≠ [] := by
    intro h0
    obtain ⟨s2, hs2⟩ := c4 h0
    rw [hback] at hs2
    simp at hs2
  obtain ⟨F2, s2, e1, h2, e3, h5, h6⟩ := c5 hne
  rw [hback] at e1
  simp only [Prod.mk.injEq, Except.ok.injEq] at e1
  obtain ⟨rfl, rfl⟩ := e1
  have hl : j < S.length := by
    rw [← h5]
    obtain ⟨_, r, _, hr, _⟩ := hv'
    have := congrArg List.length h2.labels
    rw [List.length_map, List.length_map] at this
    rw [this]
    exact (List.getElem?_eq_some_iff.1 hr).1
  have hz := List.getElem?_eq_getElem hl
  obtain ⟨⟨z1, z2, _⟩, z3⟩ := h6 j _ hz
  have e1 := HasMeta.unique h2 hv' z1
  have e2 := HasMeta.unique h2 hg' z2
  simp only [PyVal.str.injEq] at e1 e2
  obtain ⟨k, r, k1, ⟨k2, k3, _⟩, k4, _⟩ := c2 _ (List.mem_of_getElem? hz)
  rw [← e1] at k2 k4
  rw [← e2] at k3
  obtain rfl := h.unique i k _ _ hv hg k2 k3
  obtain ⟨r', r1, r2, r3⟩ := (hasMeta_iff h.ok).1 hi
  rw [k1] at r1; cases r1
  unfold seriesType at k4
  rw [if_pos r2, r3] at k4
  simp only at k4
  convert z3 using 2
  rcases ht with rfl | rfl
  · have : (TyArg.str "average").parse = .ok .average := by decide +kernel
    rw [this] at k4
    rw [← Except.ok.inj k4]; rfl
  · have : (TyArg.str "point").parse = .ok .point := by decide +kernel
    rw [this] at k4
    rw [← Except.ok.inj k4]; rfl

example : (rtF "World|x|y").Tidy ∧ (toParameterset demoEnv (rtF "World|x|y") (St.init "World")).1 = .ok () ∧
    (rtF "World|x|y").IsRow 0 "a|T" "World" "K" [.num 1, .num 2, .num 3, .num 4] :=
  ⟨rtF_tidy (by decide), by decide +kernel, ⟨3, _, rfl, rfl, rfl⟩, ⟨2, _, rfl, rfl, rfl⟩, ⟨4, _, rfl, rfl, rfl⟩,
    _, rfl, rfl⟩

end Openscm
