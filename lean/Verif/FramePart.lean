import Verif.FrameOrder
import Verif.FrameSelect

/-!
# C109: selections of frames in parameter sets

If a frame can be made into a parameter set, then so can everything that is selected from it by metadata, and what comes
back from there is the selection.
-/

set_option linter.unusedSectionVars false

namespace Openscm

variable {K : Type} [Field K] [LinearOrder K] [IsStrictOrderedRing K]

/-! ## Facts -/

theorem rows_at {F : DFrame K} {i : Nat} {rd : SRow K} :
    F.rows[i]? = some rd ↔ F.meta[i]? = some rd.1 ∧ F.data[i]? = some rd.2 := by
  unfold DFrame.rows
  obtain ⟨a, b⟩ := rd
  rw [List.getElem?_zip_eq_some]

/-- What is selected from a frame is in it. -/
theorem select_within {F F' : DFrame K} (hc : F'.cols = F.cols) (hsub : ∀ rd ∈ F'.rows, rd ∈ F.rows)
    {i : Nat} {rd : SRow K} (hi : F'.rows[i]? = some rd) :
    ∃ j, F.rows[j]? = some rd ∧ ∀ c v, F'.HasMeta i c v ↔ F.HasMeta j c v := by
  obtain ⟨j, hj⟩ := List.mem_iff_getElem?.1 (hsub rd (List.mem_of_getElem? hi))
  refine ⟨j, hj, fun c v => ?_⟩
  unfold DFrame.HasMeta
  rw [(rows_at.1 hi).1, (rows_at.1 hj).1, hc]

theorem rows_of_data {F : DFrame K} (hF : F.Ok) {i : Nat} {d : Nat × List (Fl K)} (hd : F.data[i]? = some d) :
    ∃ rd, F.rows[i]? = some rd ∧ rd.2 = d := by
  obtain ⟨r, hr, -⟩ := find_at hF hd
  exact ⟨(r, d), rows_at.2 ⟨hr, hd⟩, rfl⟩

theorem select_tidy {F F' : DFrame K} (hT : F.Tidy) (hF' : F'.Ok) (hc : F'.cols = F.cols) (ht : F'.times = F.times)
    (hsub : ∀ rd ∈ F'.rows, rd ∈ F.rows) : F'.Tidy where
  ok := hF'
  sorted := ht ▸ hT.sorted
  two := ht ▸ hT.two
  nums := by
    intro d hd
    obtain ⟨i, hi⟩ := List.mem_iff_getElem?.1 hd
    obtain ⟨rd, h1, rfl⟩ := rows_of_data hF' hi
    obtain ⟨j, hj, -⟩ := select_within hc hsub h1
    exact hT.nums rd.2 (List.mem_of_getElem? (rows_at.1 hj).2)
  unique := by
    intro i j v g h1 h2 h3 h4
    obtain ⟨d, hd⟩ := HasMeta.data hF' h1
    obtain ⟨e, he⟩ := HasMeta.data hF' h3
    obtain ⟨rd, r1, -⟩ := rows_of_data hF' hd
    obtain ⟨re, r2, -⟩ := rows_of_data hF' he
    obtain ⟨i', hi, mi⟩ := select_within hc hsub r1
    obtain ⟨j', hj, mj⟩ := select_within hc hsub r2
    have := hT.unique i' j' v g ((mi _ _).1 h1) ((mi _ _).1 h2) ((mj _ _).1 h3) ((mj _ _).1 h4)
    subst this
    rw [hi] at hj
    cases hj
    have hnd : F'.rows.Nodup := List.Nodup.of_map _ hF'.rows_ok.2.1
    obtain ⟨a1, a2⟩ := List.getElem?_eq_some_iff.1 r1
    obtain ⟨b1, b2⟩ := List.getElem?_eq_some_iff.1 r2
    exact (hnd.getElem_inj_iff).1 (a2.trans b2.symm)

/-! ## C109 -/

/-- C109: what is selected from a frame that can be made into a parameter set can be made into one, unless nothing is
left. -/
theorem C109_select {env : Env K} {F F' : DFrame K} (hT : F.Tidy) (hm : "model" ∈ F.cols) (hsc : "scenario" ∈ F.cols)
    (hW : F.Written) (hn : F.NoneScalar) {s : St K (PyVal K)} (hto : toParameterset env F (St.init "World") = (.ok (), s))
    {o : FilterOpts K} {keep : Bool} {filters : List (String × PyArg K)} (hf : AboutMeta F.cols filters)
    (h : F.filter o keep filters = .ok F') (hne : F'.data ≠ []) :
    F'.Tidy ∧ F'.Written ∧ LoadableAll env F' ∧ ∃ s', toParameterset env F' (St.init "World") = (.ok (), s') := by
  have hcomp : Complete F := fun d hd => nums_of (hT.nums d hd)
  have ht0 : F.times ≠ [] := by
    intro h0
    have := hT.two
    rw [h0] at this
    simp at this
  obtain ⟨h1, h2, h3, h4⟩ := select_rows hT.ok hcomp ht0 hf h
  have hsub : ∀ rd ∈ F'.rows, rd ∈ F.rows := by
    intro rd hrd
    rw [h3] at hrd
    exact (List.mem_filter.1 hrd).1
  have ht : F'.times = F.times := h4 (by
    intro h0
    rw [h1.data_eq, h0] at hne
    exact hne rfl)
  have hT' := select_tidy hT h1 h2 ht hsub
  have hcols : ∀ c, c ∈ F.cols ↔ c ∈ F'.cols := fun c => by rw [h2]
  have hb : F'.Within F := by
    intro i d hd
    obtain ⟨rd, r1, rfl⟩ := rows_of_data h1 hd
    obtain ⟨j, hj, hmj⟩ := select_within h2 hsub r1
    exact ⟨j, rd.2, (rows_at.1 hj).2, rfl, hmj⟩
  have hn' : F'.NoneScalar := by
    intro i n u hv
    obtain ⟨j, hj⟩ := hb.at h1 hv
    exact hn j n u ((hj _ _).1 hv)
  have hl := ((C107_iff hT hm hsc hW).1 ⟨s, hto⟩).part hT.ok h1 hn' ht.symm hcols hb hne
  have hW' := hW.cols hcols
  exact ⟨hT', hW', hl, C107_loads hT' ((hcols _).1 hm) ((hcols _).1 hsc) hW' hl⟩

/-- C109: and what comes back is the selection: the timeseries of the frame that are asked for. -/
theorem C109_back {env : Env K} {F F' : DFrame K} (hT : F.Plain) (hm : "model" ∈ F.cols) (hsc : "scenario" ∈ F.cols)
    (hW : F.Written) (hn : F.NoneScalar) {s : St K (PyVal K)} (hto : toParameterset env F (St.init "World") = (.ok (), s))
    {o : FilterOpts K} {keep : Bool} {filters : List (String × PyArg K)} (hf : AboutMeta F.cols filters)
    (h : F.filter o keep filters = .ok F') (hne : F'.data ≠ []) (model scenario climate : String) :
    ∃ t G t', toParameterset env F' (St.init "World") = (.ok (), t) ∧
      convertToFrame env F.times model scenario climate t = (.ok G, t') ∧ G.times = F.times ∧
      ∀ v g u vals, (∃ i, G.IsRow i v g u vals) ↔
        ∃ i r, F.IsRow i v g u vals ∧ F.meta[i]? = some r ∧ PicksRow o keep filters F.cols r.2 := by
  obtain ⟨hT', hW', hl, -⟩ := C109_select hT.toTidy hm hsc hW hn hto hf h hne
  have hcomp : Complete F := fun d hd => nums_of (hT.nums d hd)
  have ht0 : F.times ≠ [] := by
    intro h0
    have := hT.two
    rw [h0] at this
    simp at this
  obtain ⟨h1, h2, h3, h4⟩ := select_rows hT.ok hcomp ht0 hf h
  have hsub : ∀ rd ∈ F'.rows, rd ∈ F.rows := by
    intro rd hrd
    rw [h3] at hrd
    exact (List.mem_filter.1 hrd).1
  have ht : F'.times = F.times := h4 (by
    intro h0
    rw [h1.data_eq, h0] at hne
    exact hne rfl)
  have hP' : F'.Plain := ⟨hT', fun i g hg => by
    obtain ⟨d, hd⟩ := HasMeta.data h1 hg
    obtain ⟨rd, r1, -⟩ := rows_of_data h1 hd
    obtain ⟨j, -, hj⟩ := select_within h2 hsub r1
    exact hT.shallow j g ((hj _ _).1 hg)⟩
  obtain ⟨t, G, t', a1, a2, a3, a4, -⟩ := C107_round hP' (h2 ▸ hm) (h2 ▸ hsc) hW' hl model scenario climate
  rw [ht] at a2 a3
  refine ⟨t, G, t', a1, a2, a3, fun v g u vals => (a4 v g u vals).trans ?_⟩
  constructor
  · rintro ⟨i, m1, m2, m3, d, hd, rfl⟩
    obtain ⟨rd, r1, rfl⟩ := rows_of_data h1 hd
    obtain ⟨j, hj, hmj⟩ := select_within h2 hsub r1
    have hp := List.mem_of_getElem? r1
    rw [h3] at hp
    exact ⟨j, rd.1, ⟨(hmj _ _).1 m1, (hmj _ _).1 m2, (hmj _ _).1 m3, rd.2, (rows_at.1 hj).2, rfl⟩, (rows_at.1 hj).1,
      by simpa using (List.mem_filter.1 hp).2⟩
  · rintro ⟨j, r, ⟨m1, m2, m3, d, hd, rfl⟩, hr, hp⟩
    have hj : F.rows[j]? = some (r, d) := rows_at.2 ⟨hr, hd⟩
    have hin : (r, d) ∈ F'.rows := by
      rw [h3]
      exact List.mem_filter.2 ⟨List.mem_of_getElem? hj, by simpa using hp⟩
    obtain ⟨i, hi⟩ := List.mem_iff_getElem?.1 hin
    obtain ⟨k, hk, hmk⟩ := select_within h2 hsub hi
    have hkj : k = j := by
      have hnd : F.rows.Nodup := List.Nodup.of_map _ hT.ok.rows_ok.2.1
      obtain ⟨x1, x2⟩ := List.getElem?_eq_some_iff.1 hk
      obtain ⟨y1, y2⟩ := List.getElem?_eq_some_iff.1 hj
      exact (hnd.getElem_inj_iff).1 (x2.trans y2.symm)
    subst hkj
    exact ⟨i, (hmk _ _).2 m1, (hmk _ _).2 m2, (hmk _ _).2 m3, d, (rows_at.1 hi).2, rfl⟩

/-! ## Examples -/

/-- Hypotheses of `C109_select` and `C109_back`: one of two regions is selected. -/
example : ∃ F', (rtF "World|x").filter demoO true [("region", .val (.str "World"))] = .ok F' ∧
    F'.data.map (·.2) = [[.num 1, .num 2, .num 3, .num 4]] ∧
    AboutMeta (rtF "World|x").cols [("region", (.val (.str "World") : PyArg ℚ))] ∧
    (toParameterset demoEnv F' (St.init "World")).1 = .ok () :=
  ⟨_, rfl, by decide +kernel, by unfold AboutMeta; decide +kernel, by decide +kernel⟩

/-- If nothing is left, there is nothing to be made into a parameter set. -/
example : ((rtF "World|x").filter demoO true [("region", .val (.str "Mars"))]).map (fun F => (F.data.map (·.1),
    (toParameterset demoEnv F (St.init "World")).1 == .ok ())) = .ok ([], false) := by decide +kernel

end Openscm
