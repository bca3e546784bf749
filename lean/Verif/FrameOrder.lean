import Verif.FrameScalars

/-!
# C108: the order of timeseries and columns makes no difference to parameter sets

Whether a frame can be made into a parameter set depends on the timeseries and metadata that it has, not on their order,
although timeseries are added one by one and each may make others impossible. What comes back from the parameter sets is
the same as well.
-/

set_option linter.unusedSectionVars false

namespace Openscm

variable {K : Type} [Field K] [LinearOrder K] [IsStrictOrderedRing K]

/-! ## Specification -/

/-- Every timeseries of `F` is in `G`, with the same metadata and values. -/
def DFrame.Within (F G : DFrame K) : Prop :=
  ∀ i d, F.data[i]? = some d → ∃ j d', G.data[j]? = some d' ∧ d'.2 = d.2 ∧ ∀ c v, F.HasMeta i c v ↔ G.HasMeta j c v

/-- Two frames have the same times, columns and timeseries, in whatever order. -/
structure DFrame.Reordered (F G : DFrame K) : Prop where
  times : F.times = G.times
  cols : ∀ c, c ∈ F.cols ↔ c ∈ G.cols
  there : F.Within G
  back : G.Within F

theorem DFrame.Reordered.symm {F G : DFrame K} (h : F.Reordered G) : G.Reordered F :=
  ⟨h.times.symm, fun c => (h.cols c).symm, h.back, h.there⟩

/-- No scalar is `None` in a timeseries. -/
def DFrame.NoneScalar (F : DFrame K) : Prop := ∀ i n u, ¬ F.HasMeta i (n ++ " (" ++ u ++ ")") .none

/-! ## Facts -/

theorem HasMeta.data {F : DFrame K} (hF : F.Ok) {i : Nat} {c : String} {v : PyVal K} (h : F.HasMeta i c v) :
    ∃ d, F.data[i]? = some d := by
  have hlen : F.data.length = F.meta.length := by simpa using congrArg List.length hF.labels
  have := ((metaAt_iff hF).1 h).1
  exact ⟨_, List.getElem?_eq_getElem (by omega)⟩

theorem DFrame.Within.at {F G : DFrame K} (hF : F.Ok) (h : F.Within G) {i : Nat} {c : String} {v : PyVal K}
    (hv : F.HasMeta i c v) : ∃ j, ∀ c v, F.HasMeta i c v ↔ G.HasMeta j c v := by
  obtain ⟨d, hd⟩ := HasMeta.data hF hv
  obtain ⟨j, _, -, -, hj⟩ := h i d hd
  exact ⟨j, hj⟩

theorem DFrame.Within.row {F G : DFrame K} (h : F.Within G) {v g u : String} {vals : List (Fl K)}
    (hr : ∃ i, F.IsRow i v g u vals) : ∃ i, G.IsRow i v g u vals := by
  obtain ⟨i, h1, h2, h3, d, hd, rfl⟩ := hr
  obtain ⟨j, d', hd', he, hj⟩ := h i d hd
  exact ⟨j, (hj _ _).1 h1, (hj _ _).1 h2, (hj _ _).1 h3, d', hd', he⟩

theorem ScalarColumn.cols {F G : DFrame K} (h : ∀ c, c ∈ F.cols ↔ c ∈ G.cols) {n u : String} (hs : ScalarColumn F n u) :
    ScalarColumn G n u :=
  ⟨hs.name, hs.unit, hs.trimmed, fun c hc hl => hs.only c ((h c).2 hc) hl⟩

theorem DFrame.Written.cols {F G : DFrame K} (h : ∀ c, c ∈ F.cols ↔ c ∈ G.cols) (hW : F.Written) : G.Written := by
  intro c hc hcs
  rcases hW c ((h c).2 hc) hcs with hp | ⟨n, u, he, hs⟩
  · exact .inl hp
  · exact .inr ⟨n, u, he, hs.cols h⟩

/-- A part of the timeseries will do as well. -/
theorem LoadableAll.part {env : Env K} {F G : DFrame K} (hF : F.Ok) (hG : G.Ok) (hn : G.NoneScalar)
    (ht : F.times = G.times) (hcols : ∀ c, c ∈ F.cols ↔ c ∈ G.cols) (hb : G.Within F) (hne : G.data ≠ [])
    (hl : LoadableAll env F) : LoadableAll env G where
  nonempty := hne
  three := ht ▸ hl.three
  row := by
    intro i hi
    obtain ⟨j, d', hj, -, hm⟩ := hb i _ (List.getElem?_eq_getElem hi)
    obtain ⟨v, g, u, a, m1, m2, m3, m4, m5, m6⟩ := hl.row j (List.getElem?_eq_some_iff.1 hj).1
    refine ⟨v, g, u, a, (hm _ _).2 m1, (hm _ _).2 m2, (hm _ _).2 m3, m4, m5, fun hc => ?_⟩
    obtain ⟨t, p, q1, q2⟩ := m6 ((hcols _).2 hc)
    exact ⟨t, p, (hm _ _).2 q1, q2⟩
  parts := by
    intro i j v w g h1 h2 h3 h4
    obtain ⟨i', hi⟩ := hb.at hG h1
    obtain ⟨j', hj⟩ := hb.at hG h2
    exact hl.parts i' j' v w g ((hi _ _).1 h1) ((hj _ _).1 h2) ((hi _ _).1 h3) ((hj _ _).1 h4)
  shared := by
    intro i j c x y hc h1 h2
    obtain ⟨i', hi⟩ := hb.at hG h1
    obtain ⟨j', hj⟩ := hb.at hG h2
    exact hl.shared i' j' c x y hc ((hi _ _).1 h1) ((hj _ _).1 h2)
  climate := by
    intro i x h1
    obtain ⟨i', hi⟩ := hb.at hG h1
    exact hl.climate i' x ((hi _ _).1 h1)
  scalars := by
    intro n u v hs hv
    obtain ⟨i', hi⟩ := hb.at hG hv
    have hv' := (hi _ _).1 hv
    obtain ⟨i1, i2, -⟩ := (metaAt_iff hF).1 hv'
    have h0 : F.HasMeta 0 (n ++ " (" ++ u ++ ")") (F.metaAt 0 (n ++ " (" ++ u ++ ")")) :=
      (metaAt_iff hF).2 ⟨by omega, i2, rfl⟩
    obtain ⟨ha, x, hx⟩ := hl.scalars n u _ (hs.cols fun c => (hcols c).symm) h0
    refine ⟨ha, ?_⟩
    have hsame := hl.shared 0 i' _ _ _ (by rw [ofSeries_eq]; exact not_series_of_open (by simp)) h0 hv'
    generalize F.metaAt 0 (n ++ " (" ++ u ++ ")") = v0 at hx hsame
    cases hsame with
    | missing _ h2 =>
      rcases h2 with rfl | rfl
      · exact absurd hv (hn 0 n u)
      · exact ⟨_, .inr rfl⟩
    | equal => exact ⟨x, hx⟩
    | intFloat z => exact ⟨_, .inr rfl⟩
    | floatInt z => exact ⟨_, .inl ⟨z, rfl, rfl⟩⟩
  names := by
    intro i v c n h1 h2 hc hcs hcn
    obtain ⟨i', hi⟩ := hb.at hG h1
    exact hl.names i' v c n ((hi _ _).1 h1) ((hi _ _).1 h2) ((hcols c).2 hc) hcs hcn
  metas := by
    intro c hc c' hc' hcs hcs' n n' hn hn'
    exact hl.metas c ((hcols c).2 hc) c' ((hcols c').2 hc') hcs hcs' n n' hn hn'

theorem LoadableAll.reordered {env : Env K} {F G : DFrame K} (hF : F.Ok) (hG : G.Ok) (hn : G.NoneScalar)
    (h : F.Reordered G) (hl : LoadableAll env F) : LoadableAll env G := by
  refine hl.part hF hG hn h.times h.cols h.back fun he => ?_
  obtain ⟨d, hd⟩ := List.exists_mem_of_ne_nil _ hl.nonempty
  obtain ⟨i, hi⟩ := List.mem_iff_getElem?.1 hd
  obtain ⟨j, d', hj, -⟩ := h.there i d hi
  rw [he] at hj
  cases hj

/-! ## C108 -/

/-- C108: whether a frame can be made into a parameter set does not depend on the order of timeseries and columns. -/
theorem C108_order {env : Env K} {F G : DFrame K} (hF : F.Tidy) (hG : G.Tidy) (h : F.Reordered G)
    (hm : "model" ∈ F.cols) (hsc : "scenario" ∈ F.cols) (hW : F.Written) (hn : F.NoneScalar) :
    (∃ s, toParameterset env F (St.init "World") = (.ok (), s)) ↔
      ∃ s, toParameterset env G (St.init "World") = (.ok (), s) := by
  have hnG : G.NoneScalar := by
    intro i n u hv
    obtain ⟨j, hj⟩ := h.back.at hG.ok hv
    exact hn j n u ((hj _ _).1 hv)
  rw [C107_iff hF hm hsc hW, C107_iff hG ((h.cols _).1 hm) ((h.cols _).1 hsc) (hW.cols h.cols)]
  exact ⟨fun hl => hl.reordered hF.ok hG.ok hnG h, fun hl => hl.reordered hG.ok hF.ok hn h.symm⟩

/-- C108: what comes back does not depend on it either. -/
theorem C108_back {env : Env K} {F G : DFrame K} (hF : F.Plain) (hG : G.Tidy) (h : F.Reordered G)
    (hm : "model" ∈ F.cols) (hsc : "scenario" ∈ F.cols) (hW : F.Written) (hn : F.NoneScalar) {s : St K (PyVal K)}
    (hto : toParameterset env F (St.init "World") = (.ok (), s)) (model scenario climate : String) :
    ∃ s1 t t1 F' G', convertToFrame env F.times model scenario climate s = (.ok F', s1) ∧
      toParameterset env G (St.init "World") = (.ok (), t) ∧
      convertToFrame env G.times model scenario climate t = (.ok G', t1) ∧ F'.times = G'.times ∧
      ∀ v g u vals, (∃ i, F'.IsRow i v g u vals) ↔ ∃ i, G'.IsRow i v g u vals := by
  have hGp : G.Plain := ⟨hG, fun i g hg => by
    obtain ⟨j, hj⟩ := h.back.at hG.ok hg
    exact hF.shallow j g ((hj _ _).1 hg)⟩
  have hlF := (C107_iff hF.toTidy hm hsc hW).1 ⟨s, hto⟩
  have hmG := (h.cols _).1 hm
  have hscG := (h.cols _).1 hsc
  have hWG := hW.cols h.cols
  have hlG := (C107_iff (env := env) hG hmG hscG hWG).1 ((C108_order hF.toTidy hG h hm hsc hW hn).1 ⟨s, hto⟩)
  obtain ⟨s', F', s1, a1, a2, a3, a4, -⟩ := C107_round hF hm hsc hW hlF model scenario climate
  obtain ⟨t, G', t1, b1, b2, b3, b4, -⟩ := C107_round hGp hmG hscG hWG hlG model scenario climate
  rw [hto] at a1
  cases a1
  refine ⟨s1, t, t1, F', G', a2, b1, b2, by rw [a3, b3, h.times], fun v g u vals => ?_⟩
  rw [a4, b4]
  exact ⟨h.there.row, h.back.row⟩

/-! ## Examples -/

/-- A frame with its timeseries the other way round. -/
def DFrame.turned (F : DFrame ℚ) : DFrame ℚ := { F with data := F.data.reverse, «meta» := F.meta.reverse }

def rtTurned : DFrame ℚ := (rtF "World|x").turned

theorem rtTurned_meta {i j : Nat} (hij : i + j = 1) (c : String) (v : PyVal ℚ) :
    (rtF "World|x").HasMeta i c v ↔ rtTurned.HasMeta j c v := by
  have he : rtTurned.meta[j]? = (rtF "World|x").meta[i]? := by
    have : i = 0 ∧ j = 1 ∨ i = 1 ∧ j = 0 := by omega
    rcases this with ⟨rfl, rfl⟩ | ⟨rfl, rfl⟩ <;> rfl
  unfold DFrame.HasMeta
  rw [he]
  exact Iff.rfl

theorem rtTurned_reordered : (rtF "World|x").Reordered rtTurned where
  times := rfl
  cols _ := Iff.rfl
  there i d hd := by
    match i, hd with
    | 0, hd => exact ⟨1, d, hd, rfl, rtTurned_meta rfl⟩
    | 1, hd => exact ⟨0, d, hd, rfl, rtTurned_meta rfl⟩
    | i + 2, hd => simp [rtF] at hd
  back i d hd := by
    match i, hd with
    | 0, hd => exact ⟨1, d, hd, rfl, fun c v => (rtTurned_meta rfl c v).symm⟩
    | 1, hd => exact ⟨0, d, hd, rfl, fun c v => (rtTurned_meta rfl c v).symm⟩
    | i + 2, hd => simp [rtTurned, DFrame.turned, rtF] at hd

theorem rtTurned_ok : rtTurned.Ok :=
  ⟨by decide +kernel, by decide +kernel, by decide +kernel, by decide +kernel, by decide +kernel⟩

theorem rtTurned_tidy : rtTurned.Tidy where
  ok := rtTurned_ok
  sorted := rtF_plain.sorted
  two := rtF_plain.two
  nums d hd := rtF_plain.nums d (List.mem_reverse.1 hd)
  unique i j v g h1 h2 h3 h4 := by
    have hlt : ∀ {k : Nat} {c : String} {v : PyVal ℚ}, rtTurned.HasMeta k c v → k + (1 - k) = 1 ∧ k < 2 := by
      intro k c v hk
      have := ((metaAt_iff rtTurned_ok).1 hk).1
      have e : rtTurned.meta.length = 2 := rfl
      omega
    have b1 := hlt h1
    have b3 := hlt h3
    have := rtF_plain.unique (1 - i) (1 - j) v g ((rtTurned_meta (by omega) _ _).2 h1)
      ((rtTurned_meta (by omega) _ _).2 h2) ((rtTurned_meta (by omega) _ _).2 h3) ((rtTurned_meta (by omega) _ _).2 h4)
    omega

theorem rtF_noneScalar : (rtF "World|x").NoneScalar := by
  intro i n u hv
  obtain ⟨h1, h2, h3⟩ := (metaAt_iff rtF_plain.ok).1 hv
  have hc : ∀ c ∈ (rtF "World|x").cols, '(' ∈ c.toList → c = "S (K)" := by decide +kernel
  rw [hc _ h2 (by simp)] at h3
  have e : (rtF "World|x").meta.length = 2 := rfl
  match i, h1, h3 with
  | 0, _, h3 => exact absurd h3 (by decide +kernel)
  | 1, _, h3 => exact absurd h3 (by decide +kernel)
  | i + 2, h1, _ => omega

/-- Frames that meet the hypotheses of `C108_order` and `C108_back`. -/
example : (rtF "World|x").Plain ∧ rtTurned.Tidy ∧ (rtF "World|x").Reordered rtTurned ∧ "model" ∈ (rtF "World|x").cols ∧
    "scenario" ∈ (rtF "World|x").cols ∧ (rtF "World|x").Written ∧ (rtF "World|x").NoneScalar ∧
    (toParameterset demoEnv (rtF "World|x") (St.init "World")).1 = .ok () ∧ (rtF "World|x").data ≠ rtTurned.data :=
  ⟨rtF_plain, rtTurned_tidy, rtTurned_reordered, by decide +kernel, by decide +kernel, rtF_written _, rtF_noneScalar,
    by decide +kernel, by decide +kernel⟩

/-- A scalar that is NaN in one timeseries and `None` in another one. -/
def rtMixed : DFrame ℚ :=
  { rtF "World|x" with
    «meta» := (rtF "World|x").meta.map fun r => (r.1, r.2.set 5 (if r.1 = 0 then .flt .nan else .none)) }

/-- For it the order makes a difference, which is why `NoneScalar` is asked for. -/
theorem C108_none : (toParameterset demoEnv rtMixed (St.init "World")).1 = .ok () ∧
    (toParameterset demoEnv rtMixed.turned (St.init "World")).1 = .error .typeError := by
  decide +kernel

end Openscm
