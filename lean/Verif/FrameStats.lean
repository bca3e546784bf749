import Verif.FrameCommute
import Verif.FrameContext
import Verif.FrameDistinct
import Verif.FrameGroupProps

/-!
# C82: statistics and units

Whether the units of a frame are converted before or after statistics are taken over its timeseries does not matter, if
the column in which the context of the conversion is noted is left out of the groups.  Otherwise nothing is left.
-/

set_option linter.unusedSectionVars false

namespace Openscm

variable {K : Type} [Field K] [LinearOrder K] [IsStrictOrderedRing K]

/-! ## Statistics of converted numbers -/

theorem sum_affine (a b : K) (xs : List K) : (xs.map fun x => a + x * b).sum = a * (xs.length : K) + xs.sum * b := by
  induction xs with
  | nil => simp
  | cons x t ih =>
    simp only [List.map_cons, List.sum_cons, List.length_cons]
    rw [ih]
    push_cast
    ring

theorem affine_mono {a b : K} (hb : 0 < b) {ys : List K} (h : ys.Pairwise (· ≤ ·)) :
    (ys.map fun x => a + x * b).Pairwise (· ≤ ·) := by
  rw [List.pairwise_map]
  refine h.imp fun {x y} hxy => ?_
  have := mul_le_mul_of_nonneg_right hxy hb.le
  linarith

theorem IsQuantile.affine {q a b : K} (hb : 0 < b) {xs : List K} {x : K} (h : IsQuantile q xs x) :
    IsQuantile q (xs.map fun x => a + x * b) (a + x * b) := by
  obtain ⟨ys, hp, hs, hone, hne, hx⟩ := h
  refine ⟨ys.map fun x => a + x * b, hp.map _, affine_mono hb hs, ?_, by simpa using hne, ?_⟩
  · intro c hc
    rw [List.map_eq_singleton_iff] at hc
    obtain ⟨z, rfl, rfl⟩ := hc
    rw [hone z rfl]
  · intro i c d hc hd h1 h2
    rw [List.getElem?_map, Option.map_eq_some_iff] at hc hd
    obtain ⟨c, hc, rfl⟩ := hc
    obtain ⟨d, hd, rfl⟩ := hd
    rw [List.length_map] at h1 h2 ⊢
    rw [hx i c d hc hd h1 h2]
    ring

theorem IsMedian.affine {a b : K} (hb : 0 < b) {xs : List K} {x : K} (h : IsMedian xs x) :
    IsMedian (xs.map fun x => a + x * b) (a + x * b) := by
  obtain ⟨ys, hp, hs, c, d, hc, hd, rfl⟩ := h
  refine ⟨ys.map fun x => a + x * b, hp.map _, affine_mono hb hs, a + c * b, a + d * b, ?_, ?_, by ring⟩
  · rw [List.length_map, List.getElem?_map, hc]; rfl
  · rw [List.length_map, List.getElem?_map, hd]; rfl

/-! ## A frame and the frame in another unit -/

/-- `G` is `F` in the unit `w` (number `x` in `F` is `a + x * b` in `G`) with the context `ctx`. -/
structure InUnit (F G : DFrame K) (w : String) (ctx : PyVal K) (a b : K) : Prop where
  okF : F.Ok
  okG : G.Ok
  times : G.times = F.times
  length : G.data.length = F.data.length
  cols : ∀ c, c ∈ G.cols ↔ c ∈ F.cols ∨ c = "unit_context"
  one : ∃ u, ∀ i, i < F.data.length → F.metaAt i "unit" = .str u
  unit : ∀ i, i < F.data.length → G.metaAt i "unit" = .str w
  context : ∀ i, i < F.data.length → G.metaAt i "unit_context" = ctx
  others : ∀ i c, i < F.data.length → c ≠ "unit" → c ≠ "unit_context" → G.metaAt i c = F.metaAt i c
  cells : ∀ i k, G.cellAt i k = (F.cellAt i k).map fun x => a + x * b

theorem metaAt_hasMeta {F : DFrame K} {i : Nat} {c : String} (hF : F.Ok) (hc : c ∈ F.cols) (hi : i < F.meta.length) :
    F.HasMeta i c (F.metaAt i c) := by
  obtain ⟨v, j, r, h1, h2, h3⟩ := hasMeta_exists hF hc hi
  refine ⟨j, r, h1, h2, ?_⟩
  rw [metaAt_eq h2]
  unfold rowVal
  rw [idxOf_of_getElem? hF.cols_nodup h1, List.getD_eq_getElem?_getD, h3]
  rfl

variable [FloorSemiring K]

/-- The contexts do not split or drop groups. -/
def ContextHarmless (F : DFrame K) (drop : List String) (ctx : PyVal K) : Prop :=
  "unit_context" ∈ drop ∨ ("unit_context" ∉ F.cols ∧ ctx ≠ .none ∧ ctx ≠ .flt .nan)

section
variable {F G : DFrame K} {w : String} {ctx : PyVal K} {a b : K} {drop : List String}

theorem InUnit.complete (h : InUnit F G w ctx a b) (hd : ContextHarmless F drop ctx) {i : Nat} (hi : i < F.data.length)
    (hc : F.Complete drop i) : G.Complete drop i := by
  intro c hcm hcd
  by_cases h2 : c = "unit_context"
  · subst h2
    rw [h.context i hi]
    rcases hd with hd | hd
    · exact absurd hd hcd
    · exact hd.2
  · by_cases h1 : c = "unit"
    · subst h1
      rw [h.unit i hi]
      exact ⟨by simp, by simp⟩
    · rw [h.others i c hi h1 h2]
      exact hc c (((h.cols c).1 hcm).resolve_right h2) hcd

theorem InUnit.complete_back (h : InUnit F G w ctx a b) (hd : ContextHarmless F drop ctx) {i : Nat} (hi : i < F.data.length)
    (hc : G.Complete drop i) : F.Complete drop i := by
  intro c hcm hcd
  by_cases h2 : c = "unit_context"
  · subst h2
    rcases hd with hd | hd
    · exact absurd hd hcd
    · exact absurd hcm hd.1
  · by_cases h1 : c = "unit"
    · subst h1
      obtain ⟨u, hu⟩ := h.one
      rw [hu i hi]
      exact ⟨by simp, by simp⟩
    · rw [← h.others i c hi h1 h2]
      exact hc c ((h.cols c).2 (.inl hcm)) hcd

theorem InUnit.inGroup (h : InUnit F G w ctx a b) (hd : ContextHarmless F drop ctx) {i j : Nat} (hi : i < F.data.length)
    (hj : j < F.data.length) : G.InGroup drop (G.metaAt j) i ↔ F.InGroup drop (F.metaAt j) i := by
  constructor
  · intro hg c hcm hcd
    by_cases h2 : c = "unit_context"
    · subst h2
      rcases hd with hd | hd
      · exact absurd hd hcd
      · exact absurd hcm hd.1
    · by_cases h1 : c = "unit"
      · subst h1
        obtain ⟨u, hu⟩ := h.one
        rw [hu i hi, hu j hj]
        exact .equal _
      · rw [← h.others i c hi h1 h2, ← h.others j c hj h1 h2]
        exact hg c ((h.cols c).2 (.inl hcm)) hcd
  · intro hg c hcm hcd
    by_cases h2 : c = "unit_context"
    · subst h2
      rw [h.context i hi, h.context j hj]
      exact .equal _
    · by_cases h1 : c = "unit"
      · subst h1
        rw [h.unit i hi, h.unit j hj]
        exact .equal _
      · rw [h.others i c hi h1 h2, h.others j c hj h1 h2]
        exact hg c (((h.cols c).1 hcm).resolve_right h2) hcd

theorem InUnit.groupNums (h : InUnit F G w ctx a b) (hd : ContextHarmless F drop ctx) {j : Nat} (hj : j < F.data.length)
    (k : Nat) : G.groupNums drop (G.metaAt j) k = (F.groupNums drop (F.metaAt j) k).map fun x => a + x * b := by
  classical
  unfold DFrame.groupNums
  rw [h.length, List.map_filterMap]
  refine List.filterMap_congr fun i hi => ?_
  rw [List.mem_range] at hi
  by_cases hg : F.InGroup drop (F.metaAt j) i
  · rw [if_pos hg, if_pos ((h.inGroup hd hi hj).2 hg), h.cells]
  · rw [if_neg hg, if_neg fun hg' => hg ((h.inGroup hd hi hj).1 hg')]
    rfl

/-- Groups depend on the values only. -/
theorem groupNums_congr {F : DFrame K} {m m' : String → PyVal K} (h : ∀ c ∈ F.cols, c ∉ drop → SameValue (m c) (m' c))
    (k : Nat) : F.groupNums drop m k = F.groupNums drop m' k := by
  classical
  unfold DFrame.groupNums
  refine List.filterMap_congr fun i _ => ?_
  have : F.InGroup drop m i ↔ F.InGroup drop m' i := by
    refine forall_congr' fun c => forall_congr' fun hc => forall_congr' fun hcd => ?_
    exact ⟨fun hs => (h c hc hcd).symm.trans hs, fun hs => (h c hc hcd).trans hs⟩
  by_cases hg : F.InGroup drop m i
  · rw [if_pos hg, if_pos (this.1 hg)]
  · rw [if_neg hg, if_neg fun hg' => hg (this.2 hg')]

/-- Statistics determine each other. -/
theorem stat_affine {op : GroupOp K} {T T' : GroupTable K} (hok : F.Ok) (hok' : G.Ok) (hb : op = .mean ∨ 0 < b)
    (h : F.processOver drop op = .ok T) (h' : G.processOver drop op = .ok T') {row row' : List (PyVal K) × List (Fl K)}
    (hr : row ∈ T.rows) (hr' : row' ∈ T'.rows) {k : Nat}
    (hn : G.groupNums drop (T'.metaOf row') k = (F.groupNums drop (T.metaOf row) k).map fun x => a + x * b)
    {v v' : Fl K} (hv : row.2[k]? = some v) (hv' : row'.2[k]? = some v') : v' = v.map fun x => a + x * b := by
  have m := C62_missing hok h hr hv
  have m' := C62_missing hok' h' hr' hv'
  rw [hn, List.map_eq_nil_iff, ← m] at m'
  cases v with
  | nan => exact m'.2 rfl
  | num x =>
    cases v' with
    | nan => exact absurd (m'.1 rfl) (by simp)
    | num x' =>
      have hne : F.groupNums drop (T.metaOf row) k ≠ [] := fun e => by simpa using m.2 e
      show Fl.num x' = Fl.num (a + x * b)
      congr 1
      cases op with
      | mean =>
        have e := C62_mean hok h hr hv
        have e' := C62_mean hok' h' hr' hv'
        rw [hn, sum_affine, List.length_map, ← e] at e'
        have hl : ((F.groupNums drop (T.metaOf row) k).length : K) ≠ 0 := by
          rw [Nat.cast_ne_zero, Ne, List.length_eq_zero_iff]
          exact hne
        have : (x' - (a + x * b)) * ((F.groupNums drop (T.metaOf row) k).length : K) = 0 := by
          rw [sub_mul, e']; ring
        rcases mul_eq_zero.1 this with z | z
        · linarith
        · exact absurd z hl
      | median =>
        have hb : 0 < b := hb.resolve_left (by simp)
        have e := (C62_median hok h hr hv).affine (a := a) hb
        have e' := C62_median hok' h' hr' hv'
        rw [hn] at e'
        exact e'.unique e
      | quantile q =>
        have hb : 0 < b := hb.resolve_left (by simp)
        obtain ⟨q0, q1, e⟩ := C62_quantile hok h hr hv
        obtain ⟨-, -, e'⟩ := C62_quantile hok' h' hr' hv'
        rw [hn] at e'
        exact e'.unique q0 q1 (e.affine (a := a) hb)
      | other n =>
        obtain ⟨f, hf, _⟩ := row_values hok h hr
        cases hf

theorem metaOf_row {T : GroupTable K} {row : List (PyVal K) × List (Fl K)} {j : Nat}
    (hrow : row.1 = T.cols.map (F.metaAt j)) {c : String} (hc : c ∈ T.cols) : T.metaOf row c = F.metaAt j c := by
  unfold GroupTable.metaOf
  rw [hrow, rowVal_map hc]

/-- The rows of both tables say the same. -/
def SameRow (T T' : GroupTable K) (w : String) (a b : K) (row row' : List (PyVal K) × List (Fl K)) : Prop :=
  (∀ c ∈ T.cols, c ≠ "unit" → c ≠ "unit_context" → SameValue (T'.metaOf row' c) (T.metaOf row c)) ∧
  ("unit" ∈ T'.cols → T'.metaOf row' "unit" = .str w) ∧
  row'.2 = row.2.map (Fl.map fun x => a + x * b)

theorem InUnit.row (h : InUnit F G w ctx a b) (hd : ContextHarmless F drop ctx) {op : GroupOp K}
    (hb : op = .mean ∨ 0 < b) {T T' : GroupTable K} (h1 : F.processOver drop op = .ok T)
    (h2 : G.processOver drop op = .ok T') {row row' : List (PyVal K) × List (Fl K)} (hr : row ∈ T.rows)
    (hr' : row' ∈ T'.rows) {i j : Nat} (hi : i < F.data.length) (hj : j < F.data.length)
    (ei : row.1 = T.cols.map (F.metaAt i)) (ej : row'.1 = T'.cols.map (G.metaAt j))
    (hg : G.InGroup drop (G.metaAt j) i) : SameRow T T' w a b row row' := by
  have hT : ∀ c ∈ F.cols, c ∉ drop → T.metaOf row c = F.metaAt i c := fun c hc hcd =>
    metaOf_row ei ((C62_columns h1 c).2 ⟨hc, hcd⟩)
  have hT' : ∀ c ∈ G.cols, c ∉ drop → T'.metaOf row' c = G.metaAt j c := fun c hc hcd =>
    metaOf_row ej ((C62_columns h2 c).2 ⟨hc, hcd⟩)
  refine ⟨fun c hc c1 c2 => ?_, fun hc => ?_, ?_⟩
  · obtain ⟨hcF, hcd⟩ := (C62_columns h1 c).1 hc
    have hcG := (h.cols c).2 (.inl hcF)
    rw [hT c hcF hcd, hT' c hcG hcd, ← h.others i c hi c1 c2]
    exact hg c hcG hcd
  · obtain ⟨hcG, hcd⟩ := (C62_columns h2 _).1 hc
    rw [hT' _ hcG hcd, h.unit j hj]
  · have hl := C62_length h.okF h1 hr
    have hl' := C62_length h.okG h2 hr'
    rw [h.times, ← hl] at hl'
    refine List.ext_getElem? fun k => ?_
    by_cases hk : k < row.2.length
    · have hv := List.getElem?_eq_getElem hk
      have hv' := List.getElem?_eq_getElem (l := row'.2) (i := k) (by omega)
      rw [List.getElem?_map, hv, hv', Option.map_some]
      congr 1
      refine stat_affine h.okF h.okG hb h1 h2 hr hr' (k := k) ?_ hv hv'
      rw [groupNums_congr (F := F) (m' := F.metaAt i) (fun c hc hcd => by rw [hT c hc hcd]; exact .equal _),
        groupNums_congr (F := G) (m' := G.metaAt i)
          (fun c hc hcd => by rw [hT' c hc hcd]; exact hg c hc hcd)]
      exact h.groupNums hd hi k
    · rw [List.getElem?_eq_none (by omega), List.getElem?_eq_none (by rw [List.length_map]; omega)]

/-- Statistics of a frame in one unit, in another unit. -/
theorem InUnit.statistics (h : InUnit F G w ctx a b) (hd : ContextHarmless F drop ctx) {op : GroupOp K}
    (hb : op = .mean ∨ 0 < b) {T T' : GroupTable K} (h1 : F.processOver drop op = .ok T)
    (h2 : G.processOver drop op = .ok T') :
    (∀ row ∈ T.rows, ∃ row' ∈ T'.rows, SameRow T T' w a b row row') ∧
    (∀ row' ∈ T'.rows, ∃ row ∈ T.rows, SameRow T T' w a b row row') := by
  constructor
  · intro row hr
    obtain ⟨i, hi, hc, ei⟩ := C62_row h1 hr
    obtain ⟨row', hr', hin⟩ := C62_covered_partial h.okG h2 (i := i) (h.length.symm ▸ hi) (h.complete hd hi hc)
    obtain ⟨j, hj, _, ej⟩ := C62_row h2 hr'
    rw [h.length] at hj
    refine ⟨row', hr', h.row hd hb h1 h2 hr hr' hi hj ei ej fun c hcG hcd => ?_⟩
    have := hin c hcG hcd
    rwa [metaOf_row ej ((C62_columns h2 c).2 ⟨hcG, hcd⟩)] at this
  · intro row' hr'
    obtain ⟨j, hj, hc, ej⟩ := C62_row h2 hr'
    rw [h.length] at hj
    obtain ⟨row, hr, hin⟩ := C62_covered_partial h.okF h1 hj (h.complete_back hd hj hc)
    obtain ⟨i, hi, _, ei⟩ := C62_row h1 hr
    refine ⟨row, hr, h.row hd hb h1 h2 hr hr' hi hj ei ej ?_⟩
    have : F.InGroup drop (F.metaAt j) i := fun c hcF hcd => by
      have := hin c hcF hcd
      rw [metaOf_row ei ((C62_columns h1 c).2 ⟨hcF, hcd⟩)] at this
      exact this.symm
    exact (h.inGroup hd hi hj).2 this

end

/-! ## Conversion -/

theorem picksRow_nil {o : FilterOpts K} {cols : List String} {row : List (PyVal K)} : PicksRow o true [] cols row := by
  unfold PicksRow
  simp [Matches]

theorem metaAt_of_only {F : DFrame K} (hF : F.Ok) {i : Nat} {c : String} {w : PyVal K} (hc : c ∈ F.cols)
    (hi : i < F.meta.length) (h : ∀ v, F.HasMeta i c v → v = w) : F.metaAt i c = w :=
  h _ (metaAt_hasMeta hF hc hi)

theorem hasMeta_unique {F : DFrame K} (hF : F.Ok) {i : Nat} {c : String} {v : PyVal K} (h : F.HasMeta i c v) :
    F.metaAt i c = v := by
  obtain ⟨j, r, h1, h2, h3⟩ := h
  rw [metaAt_eq h2]
  unfold rowVal
  rw [idxOf_of_getElem? hF.cols_nodup h1, List.getD_eq_getElem?_getD, h3]
  rfl

theorem convert_inUnit {conv : String → Except Err (Fl K → Fl K)} {F G X : DFrame K} (hF : F.Ok)
    (hr : ∀ c ∈ requiredCols, c ∈ F.cols) {u w : String} (hone : ∀ i, i < F.data.length → F.HasMeta i "unit" (.str u))
    (hval : ∀ d ∈ F.data, HasValue d.2) {o : FilterOpts K} {ctx : PyVal K}
    (h : F.convertUnit conv o true [] w ctx false = (.ok (some G), X)) {f : Fl K → Fl K} {a b : K} (hc : conv u = .ok f)
    (hf : ∀ x, f x = x.map fun x => a + x * b) : InUnit F G w ctx a b := by
  obtain ⟨G1, e1, -, g1, g2, g3, g4⟩ := C53_converted hF hr h
  simp only [Bool.false_eq_true, if_false, Option.some.injEq] at e1
  subst e1
  obtain ⟨s1, s2, s3, s4, s5, s6, s7⟩ := withContext_spec hF hr
  have h0 := hF.withContext
  have hlen : G.data.length = F.data.length := by
    rw [g1.data_eq, List.length_map, ← g4.length_eq, ← s2, h0.data_eq, List.length_map]
  have hcols : ∀ c, c ∈ G.cols ↔ c ∈ F.cols ∨ c = "unit_context" := fun c => by rw [g3, s4]
  have huF : "unit" ∈ F.cols := hr _ (by decide)
  have key : ∀ i, i < F.data.length → ∃ old, F.data[i]? = some old ∧ G.data[i]? = some (old.1, old.2.map f) ∧
      (∀ v, G.HasMeta i "unit" v ↔ v = .str w) ∧ (∀ v, G.HasMeta i "unit_context" v ↔ v = ctx) ∧
      ∀ c v, c ≠ "unit" → c ≠ "unit_context" → (G.HasMeta i c v ↔ F.HasMeta i c v) := by
    intro i hi
    have hd := List.getElem?_eq_getElem hi
    have hm := List.getElem?_eq_getElem (l := F.meta) (i := i) (by rw [Ok.lengths hF]; exact hi)
    refine ⟨_, hd, ?_⟩
    rcases convert_at hF hr (by intro f hf; cases hf) h hm hd with ⟨u', f', _, _, q1, q2, q3⟩ | ⟨q1 | q1, _⟩
    · have : u' = u := by
        have e1 := hasMeta_unique hF q1
        rw [hasMeta_unique hF (hone i hi)] at e1
        exact (PyVal.str.inj e1).symm
      subst this
      rw [hc] at q2
      cases q2
      exact q3
    · exact absurd ⟨picksRow_nil, hval _ (List.getElem_mem hi)⟩ q1
    · exact absurd (hone i hi) (q1 u)
  have hmG : ∀ i, i < F.data.length → i < G.meta.length := fun i hi => by rw [Ok.lengths g1, hlen]; exact hi
  refine
    { okF := hF, okG := g1, times := g2, length := hlen, cols := hcols
      one := ⟨u, fun i hi => hasMeta_unique hF (hone i hi)⟩
      unit := fun i hi => ?_, context := fun i hi => ?_, others := fun i c hi c1 c2 => ?_, cells := fun i k => ?_ }
  · obtain ⟨_, _, _, k1, k2, k3⟩ := key i hi
    exact hasMeta_unique g1 ((k1 _).2 rfl)
  · obtain ⟨_, _, _, k1, k2, k3⟩ := key i hi
    exact hasMeta_unique g1 ((k2 _).2 rfl)
  · obtain ⟨_, _, _, k1, k2, k3⟩ := key i hi
    by_cases hcF : c ∈ F.cols
    · exact hasMeta_unique g1 ((k3 c _ c1 c2).2 (metaAt_hasMeta hF hcF (by rw [Ok.lengths hF]; exact hi)))
    · rw [metaAt_absent hF hcF, metaAt_absent g1 (by rw [hcols]; exact fun h => h.elim hcF c2)]
  · unfold DFrame.cellAt
    by_cases hi : i < F.data.length
    · obtain ⟨old, k0, k1, _⟩ := key i hi
      rw [k0, k1]
      simp only [Option.bind_some, List.getElem?_map]
      cases old.2[k]? with
      | none => rfl
      | some v =>
        simp only [Option.map_some, Option.bind_some, hf]
        cases v <;> rfl
    · rw [List.getElem?_eq_none (by omega), List.getElem?_eq_none (by omega)]
      rfl

theorem unitConv_affine {reg : Registry K} {u w : String} {c : Conv K} (hc : mkConv reg u w = .ok c) :
    ∃ f, unitConv reg w u = .ok f ∧ ∀ x, f x = x.map fun x => c.offset + x * c.scaling := by
  unfold unitConv
  rw [hc]
  refine ⟨_, rfl, fun x => ?_⟩
  cases x <;> rfl

/-- **C82**, as far as it holds: for a frame in one unit without empty timeseries, the statistics of the converted frame
are the converted statistics, if the column with the contexts is among those that are processed (`C82_lost` shows that
this is needed).  The scaling of converters between units is positive; for means it does not matter. -/
theorem C82_commute_partial {reg : Registry K} {F G X : DFrame K} (hF : F.Ok) (hr : ∀ c ∈ requiredCols, c ∈ F.cols)
    {u w : String} (hone : ∀ i, i < F.data.length → F.HasMeta i "unit" (.str u)) (hval : ∀ d ∈ F.data, HasValue d.2)
    {o : FilterOpts K} (h : F.convertUnit (unitConv reg w) o true [] w .none false = (.ok (some G), X)) {c : Conv K}
    (hc : mkConv reg u w = .ok c) {drop : List String} (hd : "unit_context" ∈ drop) {op : GroupOp K}
    (hb : op = .mean ∨ 0 < c.scaling) {T T' : GroupTable K} (h1 : F.processOver drop op = .ok T)
    (h2 : G.processOver drop op = .ok T') :
    (∀ row ∈ T.rows, ∃ row' ∈ T'.rows, SameRow T T' w c.offset c.scaling row row') ∧
    (∀ row' ∈ T'.rows, ∃ row ∈ T.rows, SameRow T T' w c.offset c.scaling row row') := by
  have hin : InUnit F G w .none c.offset c.scaling := by
    obtain ⟨f, hf1, hf2⟩ := unitConv_affine hc
    exact convert_inUnit hF hr hone hval h hf1 hf2
  exact hin.statistics (.inl hd) hb h1 h2

/-- **C82** fails otherwise: after converting without context, the column with the contexts is missing in every row, so
that there are no groups, whatever was converted. -/
theorem C82_lost {conv : String → Except Err (Fl K → Fl K)} {F G X : DFrame K} (hF : F.Ok)
    (hr : ∀ c ∈ requiredCols, c ∈ F.cols) (hu : "unit_context" ∉ F.cols) {o : FilterOpts K} {keep : Bool}
    {filters : List (String × PyArg K)} {w : String}
    (h : F.convertUnit conv o keep filters w .none false = (.ok (some G), X)) {drop : List String}
    (hd : "unit_context" ∉ drop) {op : GroupOp K} {T : GroupTable K} (h2 : G.processOver drop op = .ok T) : T.rows = [] := by
  obtain ⟨G1, e1, -, g1, g2, g3, g4⟩ := C53_converted hF hr h
  simp only [Bool.false_eq_true, if_false, Option.some.injEq] at e1
  subst e1
  obtain ⟨s1, s2, s3, s4, s5, s6, s7⟩ := withContext_spec hF hr
  have h0 := hF.withContext
  have hcm : "unit_context" ∈ G.cols := by rw [g3, s4]; exact .inr rfl
  rw [List.eq_nil_iff_forall_not_mem]
  intro row hrow
  obtain ⟨i, hi, hfull, -⟩ := C62_row h2 hrow
  refine (hfull _ hcm hd).1 ?_
  have hltG : i < G.rows.length := by rw [g1.data_eq, List.length_map] at hi; exact hi
  have hlt : i < F.withContext.rows.length := g4.length_eq ▸ hltG
  have hrel := g4.get hlt hltG
  simp only [List.get_eq_getElem] at hrel
  have ha : F.withContext.rows[i]? = some F.withContext.rows[i] := List.getElem?_eq_getElem hlt
  have hb : G.rows[i]? = some G.rows[i] := List.getElem?_eq_getElem hltG
  generalize F.withContext.rows[i] = a at ha hrel
  generalize G.rows[i] = b at hb hrel
  have hameta : F.withContext.meta[i]? = some a.1 := by rw [h0.meta_eq, List.getElem?_map, ha]; rfl
  have hbmeta : G.meta[i]? = some b.1 := by rw [g1.meta_eq, List.getElem?_map, hb]; rfl
  refine metaAt_of_only g1 hcm (List.getElem?_eq_some_iff.1 hbmeta).1 ?_
  rintro v ⟨j, r, z1, z2, z3⟩
  rw [hbmeta] at z2
  cases z2
  rw [g3] at z1
  cases hrel with
  | converted q1 q2 q3 q4 q5 q6 q7 q8 => exact q7 j v z1 z3
  | unselected q1 => exact s7 i v hu ⟨j, _, z1, hameta, z3⟩
  | noUnit q1 q2 q3 => exact s7 i v hu ⟨j, _, z1, hameta, z3⟩

theorem InUnit.distinct {F G : DFrame K} {w : String} {ctx : PyVal K} {a b : K} (h : InUnit F G w ctx a b)
    (hd : DistinctMeta F) (hu : "unit_context" ∉ F.cols) : DistinctMeta G := by
  rw [← apart_nil h.okG]
  rw [← apart_nil h.okF] at hd
  intro i j hij hj
  rw [Ok.lengths h.okG, h.length] at hj
  obtain ⟨c, -, hc⟩ := hd i j hij (by rw [Ok.lengths h.okF]; exact hj)
  have c1 : c ≠ "unit" := by
    rintro rfl
    obtain ⟨u, hu⟩ := h.one
    rw [hu i (by omega), hu j hj] at hc
    exact hc (.equal _)
  have c2 : c ≠ "unit_context" := by
    rintro rfl
    rw [metaAt_absent h.okF hu, metaAt_absent h.okF hu] at hc
    exact hc (.equal _)
  exact ⟨c, by simp, by rwa [h.others i c (by omega) c1 c2, h.others j c hj c1 c2]⟩

/-- **C82**: there are statistics of the converted frame if there are of the frame. -/
theorem C82_works {reg : Registry K} {F G X : DFrame K} (hF : F.Ok) (hr : ∀ c ∈ requiredCols, c ∈ F.cols)
    (hu : "unit_context" ∉ F.cols) {u w : String} (hone : ∀ i, i < F.data.length → F.HasMeta i "unit" (.str u))
    (hval : ∀ d ∈ F.data, HasValue d.2) {o : FilterOpts K}
    (h : F.convertUnit (unitConv reg w) o true [] w .none false = (.ok (some G), X)) {c : Conv K}
    (hc : mkConv reg u w = .ok c) {drop : List String} {op : GroupOp K}
    (h1 : ∃ T, F.processOver drop op = .ok T) : ∃ T', G.processOver drop op = .ok T' := by
  have hin : InUnit F G w .none c.offset c.scaling := by
    obtain ⟨f, hf1, hf2⟩ := unitConv_affine hc
    exact convert_inUnit hF hr hone hval h hf1 hf2
  rw [C62_works] at h1 ⊢
  obtain ⟨h1, ⟨x, hx, hxd⟩, h3⟩ := h1
  exact ⟨hin.distinct h1 hu, ⟨x, (hin.cols x).2 (.inl hx), hxd⟩, h3⟩

/-- **C82** with contexts: the values are those of `C82_commute_partial` with the factor of the metric, and as the name
of the context is in the column, nothing is lost if the frame had no such column. -/
theorem C82_metric {reg : Registry ℚ} (hreg : HasGases reg) {own : List (String × List (Edge ℚ))}
    (hown : ∀ n ∈ scmContexts, n ∉ own.map Prod.fst) (before : List ConvReq) {F G X : DFrame ℚ} (hF : F.Ok)
    (hr : ∀ c ∈ requiredCols, c ∈ F.cols) {metric x y : String} {p q : ℚ} (hx : Gwp metric x (.num p))
    (hy : Gwp metric y (.num q)) (hxy : x ≠ y) {φ : Form} {a b : String} {m m' : ℚ} (ha : InForm reg φ x m a)
    (hb : InForm reg φ y m' b) (hone : ∀ i, i < F.data.length → F.HasMeta i "unit" (.str a))
    (hval : ∀ d ∈ F.data, HasValue d.2) {o : FilterOpts ℚ}
    (h : (F.convertUnitIn reg o true [] b (some metric) false (afterReqs reg before (importState own))).1
      = (.ok (some G), X)) {drop : List String} (hd : "unit_context" ∈ drop ∨ "unit_context" ∉ F.cols) {op : GroupOp ℚ}
    (hs : op = .mean ∨ 0 < p / q * m / m') {T T' : GroupTable ℚ} (h1 : F.processOver drop op = .ok T)
    (h2 : G.processOver drop op = .ok T') :
    (∀ row ∈ T.rows, ∃ row' ∈ T'.rows, SameRow T T' b 0 (p / q * m / m') row row') ∧
    (∀ row' ∈ T'.rows, ∃ row ∈ T.rows, SameRow T T' b 0 (p / q * m / m') row row') := by
  rw [convertUnitIn_eq hreg hown before] at h
  obtain ⟨f, hf1, hf2⟩ := frameConv_metric hreg hown hx hy hxy ha hb
  have hin : InUnit F G b (contextVal (some metric)) 0 (p / q * m / m') := by
    refine convert_inUnit hF hr hone hval h hf1 fun v => ?_
    rw [hf2]
    cases v with
    | nan => rfl
    | num v => exact congrArg Fl.num (zero_add _).symm
  exact hin.statistics (hd.imp_right fun hd => ⟨hd, by simp [contextVal], by simp [contextVal]⟩) hs h1 h2

/-! ## Examples -/

/-- The frame `groupF` without the timeseries with missing metadata. -/
def statsF : DFrame ℚ :=
  { times := [0, 10]
    cols := ["model", "scenario", "region", "variable", "unit"]
    data := [(0, [.num 1, .num 2]), (1, [.num 5, .nan]), (2, [.num 6, .num 4]), (3, [.num 7, .num 8])]
    «meta» := [(0, [.str "m", .str "a", .str "World", .str "T", .str "K"]),
               (1, [.str "m", .str "b", .str "World", .str "T", .str "K"]),
               (2, [.str "m", .str "c", .str "World", .str "T", .str "K"]),
               (3, [.str "n", .str "a", .str "World", .str "T", .str "K"])] }

def statsG : DFrame ℚ := frameIn (statsF.convertUnit (unitConv tempReg "mK") demoO true [] "mK" .none false)

example : statsF.Ok ∧ (∀ c ∈ requiredCols, c ∈ statsF.cols) ∧
    (∀ i, i < statsF.data.length → statsF.HasMeta i "unit" (.str "K")) ∧ (∀ d ∈ statsF.data, HasValue d.2) ∧
    statsF.convertUnit (unitConv tempReg "mK") demoO true [] "mK" .none false = (.ok (some statsG), statsF) ∧
    statsF.processOver ["scenario", "unit_context"] .median =
      .ok ⟨["model", "region", "variable", "unit"], [([.str "m", .str "World", .str "T", .str "K"], [.num 5, .num 3]),
        ([.str "n", .str "World", .str "T", .str "K"], [.num 7, .num 8])]⟩ ∧
    statsG.processOver ["scenario", "unit_context"] .median =
      .ok ⟨["model", "region", "variable", "unit"],
        [([.str "m", .str "World", .str "T", .str "mK"], [.num 5000, .num 3000]),
        ([.str "n", .str "World", .str "T", .str "mK"], [.num 7000, .num 8000])]⟩ ∧
    statsG.processOver ["scenario"] .median = .ok ⟨["model", "region", "variable", "unit", "unit_context"], []⟩ := by
  refine ⟨⟨by decide +kernel, by decide +kernel, by decide +kernel, by decide +kernel, by decide +kernel⟩,
    by decide +kernel, ?_, ?_, by decide +kernel, by decide +kernel, by decide +kernel, by decide +kernel⟩
  · intro i hi
    have : ∀ i : Fin 4, ∃ r, statsF.meta[i.1]? = some r ∧ r.2[4]? = some (.str "K") := by
      intro i
      match i with
      | 0 => exact ⟨_, rfl, rfl⟩
      | 1 => exact ⟨_, rfl, rfl⟩
      | 2 => exact ⟨_, rfl, rfl⟩
      | 3 => exact ⟨_, rfl, rfl⟩
    obtain ⟨r, h1, h2⟩ := this ⟨i, hi⟩
    exact ⟨4, r, rfl, h1, h2⟩
  · intro d hd
    simp only [statsF, List.mem_cons, List.not_mem_nil, or_false] at hd
    rcases hd with rfl | rfl | rfl | rfl <;> exact ⟨_, List.mem_cons_self⟩

end Openscm
