import Verif.FrameAppend4
import Verif.FrameProps1

/-!
# Appending and filtering (C80), appending step by step (C81)
-/

set_option linter.unusedSectionVars false

namespace Openscm

variable {K : Type} [Field K] [DecidableEq K] [CharZero K]

/-! ## Specification -/

/-- The frame has the value `x` for the metadata `m` at time `t`. -/
def DFrame.Has (F : DFrame K) (m : String → PyVal K) (t : Int) (x : K) : Prop :=
  ∃ i < F.data.length, SameMeta m (F.metaAt i) ∧ F.valueAt i t = some x

/-! ## Values of frames and of cells -/

theorem mem_valuesFor {dfs : List (DFrame K)} {m : String → PyVal K} {t : Int} {x : K} :
    x ∈ valuesFor dfs m t ↔ ∃ F ∈ dfs, F.Has m t x := by
  classical
  unfold valuesFor DFrame.Has
  simp only [List.mem_flatMap, List.mem_filterMap, List.mem_range]
  constructor
  · rintro ⟨F, hF, i, hi, h⟩
    split at h
    · exact ⟨F, hF, i, hi, by assumption, h⟩
    · cases h
  · rintro ⟨F, hF, i, hi, h1, h2⟩
    exact ⟨F, hF, i, hi, by rw [if_pos h1]; exact h2⟩

theorem valuesFor_same {dfs : List (DFrame K)} {m m' : String → PyVal K} (h : SameMeta m m') (t : Int) :
    valuesFor dfs m t = valuesFor dfs m' t := by
  classical
  unfold valuesFor
  refine List.flatMap_congr fun F _ => List.filterMap_congr fun i _ => ?_
  by_cases hm : SameMeta m (F.metaAt i)
  · rw [if_pos hm, if_pos (h.symm.trans hm)]
  · rw [if_neg hm, if_neg fun h' => hm (h.trans h')]

theorem valuesFor_append (dfs dfs' : List (DFrame K)) (m : String → PyVal K) (t : Int) :
    valuesFor (dfs ++ dfs') m t = valuesFor dfs m t ++ valuesFor dfs' m t := by
  unfold valuesFor; rw [List.flatMap_append]

theorem valuesFor_cons (F : DFrame K) (dfs : List (DFrame K)) (m : String → PyVal K) (t : Int) :
    valuesFor (F :: dfs) m t = valuesFor [F] m t ++ valuesFor dfs m t := valuesFor_append [F] dfs m t

theorem average_ne {l : List K} {x : K} (h : average l = some x) : ∃ y, y ∈ l := by
  cases l with
  | nil => simp [average] at h
  | cons y l => exact ⟨y, by simp⟩

theorem append_has {dfs : List (DFrame K)} {msg : DupMsg} {R : DFrame K} (hF : ∀ F ∈ dfs, F.Ok)
    (hr : ∀ F ∈ dfs, ∀ c ∈ requiredCols, c ∈ F.cols) (hs : ∀ F ∈ dfs, NoSentinel F)
    (h : dfAppend dfs msg = .ok (.frame R)) {m : String → PyVal K} {t : Int} {x : K} :
    R.Has m t x ↔ average (valuesFor dfs m t) = some x := by
  obtain ⟨-, -, -, h4, -, -, h7⟩ := C52_average_partial hF hr hs h
  constructor
  · rintro ⟨j, hj, hm, hv⟩
    rw [valuesFor_same hm, ← h7 j hj t, hv]
  · intro ha
    obtain ⟨y, hy⟩ := average_ne ha
    obtain ⟨F, hFm, i, hi, hm, -⟩ := mem_valuesFor.1 hy
    obtain ⟨j, hj, hmj⟩ := h4 F hFm i hi
    have hmm : SameMeta m (R.metaAt j) := hm.trans hmj.symm
    exact ⟨j, hj, hmm, by rw [h7 j hj t, ← valuesFor_same hmm, ha]⟩

open Classical in
/-- The values of the cells for the metadata `m` at time `t`. -/
noncomputable def cellValues (cols : List String) (m : String → PyVal K) (t : Int) (cells : List (List (PyVal K) × Int × K)) : List K :=
  cells.filterMap fun c => if SameMeta m (rowVal cols c.1) ∧ c.2.1 = t then some c.2.2 else none

theorem cellValues_row {cols : List String} {m : String → PyVal K} {t : Int} {row : List (PyVal K)} (h : SameMeta m (rowVal cols row))
    {times : List Int} (hn : times.Nodup) {vals : List (Fl K)} (hl : vals.length = times.length) :
    cellValues cols m t (cellsOf times row vals) = (numOf (atTime times vals t)).toList := by
  unfold cellValues cellsOf
  induction times generalizing vals with
  | nil => cases vals <;> simp_all [atTime, numOf]
  | cons a times ih =>
    cases vals with
    | nil => simp at hl
    | cons v vals =>
      rw [List.nodup_cons] at hn
      have ih' := ih hn.2 (vals := vals) (by simpa using hl)
      simp only [List.zip_cons_cons, List.filterMap_cons]
      by_cases hat : a = t
      · subst hat
        have hnone : atTime times vals a = .nan := by
          unfold atTime
          rw [List.idxOf_eq_length hn.1, List.getD_eq_getElem?_getD, List.getElem?_eq_none (by simp at hl; omega)]
          rfl
        rw [hnone] at ih'
        have hhead : atTime (a :: times) (v :: vals) a = v := by simp [atTime]
        rw [hhead]
        cases v with
        | nan => simpa [numOf] using ih'
        | num x =>
          simp only [List.filterMap_cons, h, true_and, if_true]
          rw [ih']
          rfl
      · have hhead : atTime (a :: times) (v :: vals) t = atTime times vals t := by
          simp [atTime, List.idxOf_cons_ne _ hat]
        rw [hhead, ← ih']
        cases v with
        | nan => rfl
        | num x => simp [hat]

theorem cellValues_other {cols : List String} {m : String → PyVal K} {t : Int} {row : List (PyVal K)} (h : ¬ SameMeta m (rowVal cols row))
    (times : List Int) (vals : List (Fl K)) : cellValues cols m t (cellsOf times row vals) = [] := by
  unfold cellValues
  rw [List.filterMap_eq_nil_iff]
  rintro ⟨row', t', x⟩ hc
  obtain ⟨rfl, -⟩ := mem_cellsOf.1 hc
  rw [if_neg fun hh => h hh.1]

/-- The values of a frame, by its cells. -/
theorem valuesFor_cells {F : DFrame K} (hF : F.Ok) (hn : F.times.Nodup) (m : String → PyVal K) (t : Int) :
    valuesFor [F] m t = cellValues F.cols m t F.cells := by
  classical
  have hc : F.cells = F.rows.flatMap fun rd => cellsOf F.times rd.1.2 rd.2.2 := by
    conv_lhs => rw [hF.frameOf_eq]
    rw [cells_frameOf]
  have hrow : ∀ rd ∈ F.rows, cellValues F.cols m t (cellsOf F.times rd.1.2 rd.2.2) =
      (if SameMeta m (rowVal F.cols rd.1.2) then numOf (atTime F.times rd.2.2 t) else none).toList := by
    intro rd hrd
    by_cases h : SameMeta m (rowVal F.cols rd.1.2)
    · rw [if_pos h, cellValues_row h hn (hF.rows_ok.2.2.2.1 rd hrd)]
    · rw [if_neg h, cellValues_other h]
      rfl
  rw [hc]
  have e : cellValues F.cols m t (F.rows.flatMap fun rd => cellsOf F.times rd.1.2 rd.2.2) =
      F.rows.flatMap fun rd => cellValues F.cols m t (cellsOf F.times rd.1.2 rd.2.2) := by
    unfold cellValues
    rw [List.filterMap_flatMap]
  rw [e, List.flatMap_congr hrow, ← List.filterMap_eq_flatMap_toList, filterMap_range]
  have hl : F.rows.length = F.data.length := by
    rw [DFrame.rows]; simp [Ok.lengths hF]
  rw [hl]
  unfold valuesFor
  simp only [List.flatMap_cons, List.flatMap_nil, List.append_nil]
  refine List.filterMap_congr fun i hi => ?_
  rw [List.mem_range] at hi
  have him : i < F.meta.length := by rw [Ok.lengths hF]; exact hi
  have hz : F.rows[i]? = some (F.meta[i], F.data[i]) :=
    List.getElem?_zip_eq_some.2 ⟨List.getElem?_eq_getElem him, List.getElem?_eq_getElem hi⟩
  rw [hz, metaAt_eq (List.getElem?_eq_getElem him), valueAt_eq, List.getElem?_eq_getElem hi]
  rfl

theorem appendParts_nodup {joint : List String} {times : List Int} {dfs : List (DFrame K)}
    {l : List (List (PyVal K) × List (Fl K))} (h : appendParts joint times dfs = .ok l) : ∀ F ∈ dfs, F.times.Nodup := by
  induction dfs generalizing l with
  | nil => simp
  | cons F dfs ih =>
    simp only [appendParts] at h
    split at h
    · cases h
    · rename_i a ha
      split at h
      · cases h
      · rename_i b hb
        intro G hG
        rcases List.mem_cons.1 hG with rfl | hG
        · unfold appendPart at ha
          simp only at ha
          split at ha
          · cases ha
          · split at ha
            · assumption
            · cases ha
        · exact ih hb G hG

theorem dfAppend_nodup {dfs : List (DFrame K)} {msg : DupMsg} {a : Appended K} (h : dfAppend dfs msg = .ok a) :
    ∀ F ∈ dfs, F.times.Nodup := by
  unfold dfAppend at h
  split at h
  · cases h
  · simp only at h
    split at h
    · cases h
    · rename_i data hd
      exact appendParts_nodup hd

/-! ## Filters see only metadata and times -/

theorem valueFits_same {o : FilterOpts K} {level : Option (PyArg K)} {v v' w : PyVal K} (h : SameValue v v')
    (hv : v = .none → ∀ s, w ≠ .str s) (hv' : v' = .none → ∀ s, w ≠ .str s) (hf : ValueFits o level v w) :
    ValueFits o level v' w := by
  have number : ∀ {v v' : PyVal K}, (∀ s, v ≠ .str s) → v ≠ .flt .nan → (v.eq w = true → v'.eq w = true) → ValueFits o level v w →
      ValueFits o level v' w := by
    intro v v' h1 h2 h3 hf
    cases hf with
    | text h => rcases h with h | ⟨-, h, -⟩ <;> simp_all
    | value h4 h5 h6 => exact .value h4 h5 (h3 h6)
  cases h with
  | missing h1 h2 =>
    have hno : ∀ {u : PyVal K}, (u = .none ∨ u = .flt .nan) → (∀ s, w ≠ .str s) → ¬ ValueFits o level u w := by
      intro u hu hw hf
      cases hf with
      | text => exact hw _ rfl
      | value _ h5 h6 =>
        rcases hu with rfl | rfl
        · cases w <;> simp_all [PyVal.eq]
        · cases w <;> simp_all [PyVal.eq]
    rcases h1 with h1' | h1'
    · exact absurd hf (hno (.inl h1') (hv h1'))
    · rcases h2 with h2' | h2'
      · exact absurd hf (hno (.inr h1') (hv' h2'))
      · rwa [h2', ← h1']
  | equal => exact hf
  | intFloat z =>
    refine number (by simp) (by simp) (fun h3 => ?_) hf
    cases w with
    | int b => simpa [PyVal.eq] using h3
    | flt y => cases y with
      | nan => simp [PyVal.eq] at h3
      | num y => simpa [PyVal.eq] using h3
    | _ => simp [PyVal.eq] at h3
  | floatInt z =>
    refine number (by simp) (by simp) (fun h3 => ?_) hf
    cases w with
    | int b => simpa [PyVal.eq] using h3
    | flt y => cases y with
      | nan => simp [PyVal.eq] at h3
      | num y => simpa [PyVal.eq] using h3
    | _ => simp [PyVal.eq] at h3

theorem metaFits_rowVal {o : FilterOpts K} {level : Option (PyArg K)} {cols : List String} {row : List (PyVal K)} {c : String}
    {arg : PyArg K} (hn : cols.Nodup) (hl : row.length = cols.length) :
    MetaFits o level cols row c arg ↔ c ∈ cols ∧ ∃ w ∈ arg.values, ValueFits o level (rowVal cols row c) w := by
  unfold MetaFits
  constructor
  · rintro ⟨i, v, w, h1, h2, h3, h4⟩
    refine ⟨List.mem_of_getElem? h1, w, h3, ?_⟩
    have : cols.idxOf c = i := by
      obtain ⟨h5, rfl⟩ := List.getElem?_eq_some_iff.1 h1
      exact hn.idxOf_getElem i h5
    rw [rowVal, this, List.getD_eq_getElem?_getD, h2]
    exact h4
  · rintro ⟨hc, w, h3, h4⟩
    have hlt := List.idxOf_lt_length_of_mem hc
    refine ⟨cols.idxOf c, rowVal cols row c, w, ?_, ?_, h3, h4⟩
    · rw [List.getElem?_eq_getElem hlt, List.getElem_idxOf]
    · rw [rowVal, List.getD_eq_getElem?_getD, List.getElem?_eq_getElem (by omega)]
      rfl

theorem metaFits_same {o : FilterOpts K} {level : Option (PyArg K)} {cols cols' : List String} {row row' : List (PyVal K)}
    {c : String} {arg : PyArg K} (hn : cols.Nodup) (hl : row.length = cols.length) (hn' : cols'.Nodup)
    (hl' : row'.length = cols'.length) (hc : c ∈ cols → c ∈ cols')
    (hs : SameMeta (rowVal cols row) (rowVal cols' row')) (h0 : rowVal cols row c = .none → ∀ w ∈ arg.values, ∀ s, w ≠ .str s)
    (h0' : rowVal cols' row' c = .none → ∀ w ∈ arg.values, ∀ s, w ≠ .str s) (h : MetaFits o level cols row c arg) :
    MetaFits o level cols' row' c arg := by
  rw [metaFits_rowVal hn hl] at h
  rw [metaFits_rowVal hn' hl']
  obtain ⟨h1, w, h2, h3⟩ := h
  exact ⟨hc h1, w, h2, valueFits_same (hs c) (fun h => h0 h w h2) (fun h => h0' h w h2) h3⟩

/-- Filter `f` compares column `c` with `arg`. -/
def Compares (filters : List (String × PyArg K)) (cols : List String) (f : String × PyArg K) (c : String) (arg : PyArg K) : Prop :=
  (f.1 = "variable" ∧ c = "variable" ∧ arg = f.2) ∨ (f.1 ≠ "variable" ∧ f.1 ∈ cols ∧ c = f.1 ∧ arg = f.2) ∨
  (f.1 = "level" ∧ f.1 ∉ cols ∧ (¬ ∃ g ∈ filters, g.1 = "variable") ∧ c = "variable" ∧ arg = .val (.str "*"))

theorem matches_same {o : FilterOpts K} {filters : List (String × PyArg K)} {cols cols' : List String}
    {row row' : List (PyVal K)} {t : Int} (hn : cols.Nodup) (hl : row.length = cols.length) (hn' : cols'.Nodup)
    (hl' : row'.length = cols'.length) (hv : "variable" ∈ cols → "variable" ∈ cols')
    (hc : ∀ f ∈ filters, (f.1 ∈ cols ↔ f.1 ∈ cols'))
    (hs : SameMeta (rowVal cols row) (rowVal cols' row'))
    (h0 : ∀ f ∈ filters, ∀ c arg, Compares filters cols f c arg → rowVal cols row c = .none → ∀ w ∈ arg.values, ∀ s, w ≠ .str s)
    (h0' : ∀ f ∈ filters, ∀ c arg, Compares filters cols' f c arg → rowVal cols' row' c = .none →
      ∀ w ∈ arg.values, ∀ s, w ≠ .str s)
    (h : Matches o filters cols row t) : Matches o filters cols' row' t := by
  intro f hf
  have hw := h f hf
  unfold Wants at hw ⊢
  by_cases h1 : f.1 = "variable"
  · rw [if_pos h1] at hw ⊢
    exact metaFits_same hn hl hn' hl' hv hs (h0 f hf _ _ (.inl ⟨h1, rfl, rfl⟩)) (h0' f hf _ _ (.inl ⟨h1, rfl, rfl⟩)) hw
  · rw [if_neg h1] at hw ⊢
    by_cases h2 : f.1 ∈ cols
    · have h2' := (hc f hf).1 h2
      rw [if_pos h2] at hw
      rw [if_pos h2']
      exact metaFits_same hn hl hn' hl' (hc f hf).1 hs (h0 f hf _ _ (.inr (.inl ⟨h1, h2, rfl, rfl⟩)))
        (h0' f hf _ _ (.inr (.inl ⟨h1, h2', rfl, rfl⟩))) hw
    · have h2' : f.1 ∉ cols' := fun h => h2 ((hc f hf).2 h)
      rw [if_neg h2] at hw
      rw [if_neg h2']
      by_cases h3 : f.1 = "level"
      · rw [if_pos h3] at hw ⊢
        by_cases hg : ∃ g ∈ filters, g.1 = "variable"
        · exact .inl hg
        · exact hw.imp id (metaFits_same hn hl hn' hl' hv hs (h0 f hf _ _ (.inr (.inr ⟨h3, h2, hg, rfl, rfl⟩)))
            (h0' f hf _ _ (.inr (.inr ⟨h3, h2', hg, rfl, rfl⟩))))
      · rw [if_neg h3] at hw ⊢
        exact hw

theorem applyLoop_each {F : DFrame K} {o : FilterOpts K} {filters : List (String × PyArg K)} {l : List (String × PyArg K)}
    {ts me : List Bool} {r : List Bool × List Bool} (h : F.applyLoop o filters l ts me = .ok r) :
    ∀ f ∈ l, ∃ x, F.oneMask o filters f = .ok x := by
  induction l generalizing ts me with
  | nil => simp
  | cons g l ih =>
    rw [DFrame.applyLoop] at h
    intro f hf
    cases hg : F.oneMask o filters g with
    | error e => rw [hg] at h; cases h
    | ok x =>
      rcases List.mem_cons.1 hf with rfl | hf
      · exact ⟨x, hg⟩
      · rw [hg] at h
        rcases x with _ | m | m
        · exact ih h f hf
        · simp only at h
          split at h
          · cases h
          · exact ih h f hf
        · simp only at h
          split at h
          · cases h
          · exact ih h f hf

/-- Filters with text refuse `None`. -/
theorem filter_none {F G : DFrame K} (hF : F.Ok) {o : FilterOpts K} {keep : Bool} {filters : List (String × PyArg K)}
    (h : F.filter o keep filters = .ok G) {f : String × PyArg K} (hf : f ∈ filters) {c : String} {arg : PyArg K}
    (hc : Compares filters F.cols f c arg) {r : Nat × List (PyVal K)} (hr : r ∈ F.meta) (h0 : rowVal F.cols r.2 c = .none) :
    ∀ w ∈ arg.values, ∀ s, w ≠ .str s := by
  have happ : ∃ r, F.applyFilters o filters = .ok r := by
    unfold DFrame.filter at h
    cases hr : F.applyFilters o filters with
    | error e => rw [hr] at h; cases h
    | ok r => exact ⟨r, rfl⟩
  obtain ⟨_, happ⟩ := happ
  obtain ⟨x, hx⟩ := applyLoop_each happ f hf
  have hmask : ∃ level m, F.metaMask o level c arg = .ok m := by
    unfold DFrame.oneMask at hx
    rcases hc with ⟨h1, rfl, rfl⟩ | ⟨h1, h2, rfl, rfl⟩ | ⟨h1, h2, h3, rfl, rfl⟩
    · rw [if_pos h1] at hx
      obtain ⟨m, hm, -⟩ := except_map_ok hx
      exact ⟨_, m, hm⟩
    · rw [if_neg h1, if_pos h2] at hx
      obtain ⟨m, hm, -⟩ := except_map_ok hx
      exact ⟨_, m, hm⟩
    · rw [if_neg (by rw [h1]; decide), if_neg h2, if_neg (by rw [h1]; decide), if_neg (by rw [h1]; decide),
        if_neg (by rw [h1]; decide), if_neg (by rw [h1]; decide), if_neg (by rw [h1]; decide), if_pos h1,
        if_neg (by simpa using h3)] at hx
      obtain ⟨m, hm, -⟩ := except_map_ok hx
      exact ⟨_, m, hm⟩
  obtain ⟨level, m, hm⟩ := hmask
  unfold DFrame.metaMask DFrame.column at hm
  cases hi : F.cols.findIdx? (· = c) with
  | none => rw [hi] at hm; cases hm
  | some i =>
    rw [hi] at hm
    simp only at hm
    rw [patternMatch_iff] at hm
    obtain ⟨-, -, h3, -⟩ := hm
    have hidx : F.cols.idxOf c = i := by
      obtain ⟨h5, rfl⟩ := List.getElem?_eq_some_iff.1 (findIdx_col hi)
      exact hF.cols_nodup.idxOf_getElem i h5
    have := h3 (r.2.getD i .none) (List.mem_map.2 ⟨r, hr, rfl⟩)
    rw [rowVal, hidx] at h0
    rw [h0] at this
    intro w hw s hs
    have h4 := this.2 ⟨w, hw, by rw [hs]; rfl⟩
    cases hn : o.hasNan <;> simp_all [filterText, nanOk]

/-! ## What is in a frame that append returned -/

theorem append_cols {dfs : List (DFrame K)} {msg : DupMsg} {R : DFrame K} (hF : ∀ F ∈ dfs, F.Ok)
    (hr : ∀ F ∈ dfs, ∀ c ∈ requiredCols, c ∈ F.cols) (h : dfAppend dfs msg = .ok (.frame R)) (c : String) :
    c ∈ R.cols ↔ ∃ F ∈ dfs, c ∈ F.cols := by
  have hR := dfAppend_frame hF h
  have hcols : R.cols = sortedCols (jointCols dfs) := by rw [hR.form]; rfl
  have hreq : ∀ c ∈ requiredCols, c ∈ jointCols dfs := by
    intro c hc
    obtain ⟨F, hFm⟩ := List.exists_mem_of_ne_nil _ (dfAppend_ne h)
    exact mem_joint hFm (hr F hFm c hc)
  rw [hcols, sortedCols_mem hreq, jointCols, List.mem_dedup, List.mem_flatMap]

/-! ## C80 -/

/-- The values that a filter leaves. -/
theorem filtered_values {F G : DFrame K} {o : FilterOpts K} {keep : Bool} {filters : List (String × PyArg K)} (hF : F.Ok)
    (hn : F.times.Nodup) (hn' : G.times.Nodup) (h : F.filter o keep filters = .ok G) {m : String → PyVal K} {t : Int}
    {kept : Prop} [Decidable kept]
    (hk : ∀ c ∈ F.cells, SameMeta m (rowVal F.cols c.1) → c.2.1 = t → ((Matches o filters F.cols c.1 t ↔ keep = true) ↔ kept)) :
    valuesFor [G] m t = if kept then valuesFor [F] m t else [] := by
  classical
  obtain ⟨hG, hcols, hcells, -, -⟩ := C46_cells hF h
  rw [valuesFor_cells hG hn', valuesFor_cells hF hn, hcols, hcells]
  unfold cellValues
  rw [List.filterMap_filter]
  by_cases hkt : kept
  · rw [if_pos hkt]
    refine List.filterMap_congr fun c hc => ?_
    by_cases hm : SameMeta m (rowVal F.cols c.1) ∧ c.2.1 = t
    · have := (hk c hc hm.1 hm.2).2 hkt
      rw [if_pos (by rw [decide_eq_true_iff, hm.2]; exact this)]
    · rw [if_neg hm]
      split <;> rfl
  · rw [if_neg hkt, List.filterMap_eq_nil_iff]
    intro c hc
    by_cases hm : SameMeta m (rowVal F.cols c.1) ∧ c.2.1 = t
    · rw [if_neg]
      rw [decide_eq_true_iff, hm.2]
      exact fun hh => hkt ((hk c hc hm.1 hm.2).1 hh)
    · rw [if_neg hm]
      split <;> rfl

theorem filter_req {F G : DFrame K} {o : FilterOpts K} {keep : Bool} {filters : List (String × PyArg K)} (hF : F.Ok)
    (h : F.filter o keep filters = .ok G) (hs : NoSentinel F) : NoSentinel G := by
  obtain ⟨hG, hcols, hcells, -, hrows⟩ := C46_cells hF h
  intro i c
  unfold DFrame.metaAt
  split
  · rename_i r hr
    obtain ⟨t, x, hc⟩ := hrows r (List.mem_of_getElem? hr)
    rw [hcells] at hc
    obtain ⟨-, -, r', hr', e⟩ := cell_row hF (List.mem_of_mem_filter hc)
    obtain ⟨j, hj⟩ := List.getElem?_of_mem hr'
    have := hs j c
    rw [metaAt_eq hj, e] at this
    rwa [hcols]
  · intro h
    have := same_naFill.1 h
    simp at this

theorem pick_sublist {α : Type} (bs : List Bool) (l : List α) : (pick bs l).Sublist l := by
  induction l generalizing bs with
  | nil => cases bs <;> simp [pick]
  | cons a l ih =>
    cases bs with
    | nil => simp [pick]
    | cons b bs =>
      rw [pick]
      split
      · exact (ih bs).cons_cons a
      · exact (ih bs).cons a

theorem filter_nodup {F G : DFrame K} {o : FilterOpts K} {keep : Bool} {filters : List (String × PyArg K)} (hF : F.Ok)
    (h : F.filter o keep filters = .ok G) (hn : F.times.Nodup) : G.times.Nodup := by
  obtain ⟨P, -, hP⟩ := filter_restrict hF h
  have := hP F hF (Within.refl F) keep
  rw [h] at this
  rw [Except.ok.inj this]
  exact (pick_sublist _ _).nodup hn

/-- C80: filtering the appended frame gives the same values as appending the filtered frames. For frames that agree
about which filters are about metadata, and without metadata `-999`. -/
theorem C80_commute {dfs dfs' : List (DFrame K)} {msg msg' : DupMsg} {o : FilterOpts K} {keep : Bool}
    {filters : List (String × PyArg K)} {R R' S : DFrame K} (hF : ∀ F ∈ dfs, F.Ok)
    (hr : ∀ F ∈ dfs, ∀ c ∈ requiredCols, c ∈ F.cols) (hs : ∀ F ∈ dfs, NoSentinel F)
    (hc : ∀ f ∈ filters, ∀ F ∈ dfs, ∀ G ∈ dfs, f.1 ∈ F.cols → f.1 ∈ G.cols)
    (ha : dfAppend dfs msg = .ok (.frame R)) (hR' : R.filter o keep filters = .ok R')
    (hd : List.Forall₂ (fun F G => F.filter o keep filters = .ok G) dfs dfs')
    (hS : dfAppend dfs' msg' = .ok (.frame S)) (m : String → PyVal K) (t : Int) (x : K) : R'.Has m t x ↔ S.Has m t x := by
  classical
  obtain ⟨hROk, -, hinc, -, -, -, -⟩ := C52_average_partial hF hr hs ha
  have hn := dfAppend_nodup ha
  have hRn : R.times.Nodup := hinc.imp fun h => ne_of_lt h
  have hR'n := filter_nodup hROk hR' hRn
  have hmem : ∀ G ∈ dfs', ∃ F ∈ dfs, F.filter o keep filters = .ok G := by
    intro G hG
    obtain ⟨i, hi⟩ := List.getElem?_of_mem hG
    obtain ⟨hi', rfl⟩ := List.getElem?_eq_some_iff.1 hi
    have hl := hd.length_eq
    exact ⟨dfs[i], List.getElem_mem _, hd.get (by omega) hi'⟩
  have hF' : ∀ G ∈ dfs', G.Ok := by
    intro G hG
    obtain ⟨F, hFm, h⟩ := hmem G hG
    exact (C46_cells (hF F hFm) h).1
  have hr' : ∀ G ∈ dfs', ∀ c ∈ requiredCols, c ∈ G.cols := by
    intro G hG
    obtain ⟨F, hFm, h⟩ := hmem G hG
    rw [(C46_cells (hF F hFm) h).2.1]
    exact hr F hFm
  have hs' : ∀ G ∈ dfs', NoSentinel G := by
    intro G hG
    obtain ⟨F, hFm, h⟩ := hmem G hG
    exact filter_req (hF F hFm) h (hs F hFm)
  -- all frames, and the result, agree about what is kept
  have agree : ∀ {F G F' G' : DFrame K} {row row' : List (PyVal K)} {y y' : K}, F.Ok → G.Ok →
      F.filter o keep filters = .ok F' → G.filter o keep filters = .ok G' →
      (∀ f ∈ filters, (f.1 ∈ F.cols ↔ f.1 ∈ G.cols)) → ("variable" ∈ F.cols → "variable" ∈ G.cols) →
      (row, t, y) ∈ F.cells → (row', t, y') ∈ G.cells → SameMeta m (rowVal F.cols row) → SameMeta m (rowVal G.cols row') →
      Matches o filters F.cols row t → Matches o filters G.cols row' t := by
    intro F G F' G' row row' y y' hFk hGk hf hg hcc hv h1 h2 h3 h4
    obtain ⟨l1, -, r, hr, e⟩ := cell_row hFk h1
    obtain ⟨l2, -, r', hr', e'⟩ := cell_row hGk h2
    simp only at l1 l2 e e'
    subst e e'
    exact matches_same hFk.cols_nodup l1 hGk.cols_nodup l2 hv hcc (h3.symm.trans h4)
      (fun f hf' c arg hcm h0 => filter_none hFk hf hf' hcm hr h0) (fun f hf' c arg hcm h0 => filter_none hGk hg hf' hcm hr' h0)
  have hcR : ∀ F ∈ dfs, ∀ f ∈ filters, (f.1 ∈ R.cols ↔ f.1 ∈ F.cols) := by
    intro F hFm f hf
    rw [append_cols hF hr ha]
    exact ⟨fun ⟨G, hG, h⟩ => hc f hf G hG F hFm h, fun h => ⟨F, hFm, h⟩⟩
  have hvF : ∀ F ∈ dfs, "variable" ∈ F.cols := fun F hFm => hr F hFm _ (by decide)
  have hvR : "variable" ∈ R.cols := by
    obtain ⟨F, hFm⟩ := List.exists_mem_of_ne_nil _ (dfAppend_ne ha)
    exact (append_cols hF hr ha _).2 ⟨F, hFm, hvF F hFm⟩
  -- what is kept, by the cells of the result
  let kept : Prop := ∀ row y, (row, t, y) ∈ R.cells → SameMeta m (rowVal R.cols row) →
    (Matches o filters R.cols row t ↔ keep = true)
  have hkR : ∀ c ∈ R.cells, SameMeta m (rowVal R.cols c.1) → c.2.1 = t →
      ((Matches o filters R.cols c.1 t ↔ keep = true) ↔ kept) := by
    rintro ⟨row, t', y⟩ h1 h2 rfl
    constructor
    · intro h row' y' h1' h2'
      rw [← h]
      exact ⟨agree hROk hROk hR' hR' (fun _ _ => Iff.rfl) id h1' h1 h2' h2,
        agree hROk hROk hR' hR' (fun _ _ => Iff.rfl) id h1 h1' h2 h2'⟩
    · exact fun h => h row y h1 h2
  have hkF : ∀ {F G : DFrame K}, F ∈ dfs → F.filter o keep filters = .ok G → valuesFor [G] m t =
      if kept then valuesFor [F] m t else [] := by
    intro F G hFm hG
    have hFk := hF F hFm
    refine filtered_values hFk (hn F hFm) (filter_nodup hFk hG (hn F hFm)) hG ?_
    rintro ⟨row, t', y⟩ h1 h2 rfl
    -- the result has a cell for this one
    have : y ∈ valuesFor dfs m t' := by
      have hy : y ∈ valuesFor [F] m t' := by
        rw [valuesFor_cells hFk (hn F hFm)]
        exact List.mem_filterMap.2 ⟨_, h1, by rw [if_pos ⟨h2, rfl⟩]⟩
      obtain ⟨F0, hF0, hh⟩ := mem_valuesFor.1 hy
      rw [List.mem_singleton.1 hF0] at hh
      exact mem_valuesFor.2 ⟨F, hFm, hh⟩
    have hav : ∃ z, average (valuesFor dfs m t') = some z := by
      unfold average
      rw [if_neg (List.ne_nil_of_mem this)]
      exact ⟨_, rfl⟩
    obtain ⟨z, hz⟩ := hav
    have hz' : z ∈ valuesFor [R] m t' := mem_valuesFor.2 ⟨R, by simp, (append_has hF hr hs ha).2 hz⟩
    rw [valuesFor_cells hROk hRn] at hz'
    obtain ⟨⟨row', t'', z'⟩, hcell, hif⟩ := List.mem_filterMap.1 hz'
    split at hif
    · rename_i hsame
      obtain ⟨hsame, e⟩ := hsame
      simp only at e hsame
      subst e
      rw [← hkR _ hcell hsame rfl]
      have : Matches o filters F.cols row t'' ↔ Matches o filters R.cols row' t'' :=
        ⟨agree hFk hROk hG hR' (fun f hf => (hcR F hFm f hf).symm) (fun _ => hvR) h1 hcell h2 hsame,
          agree hROk hFk hR' hG (hcR F hFm) (fun _ => hvF F hFm) hcell h1 hsame h2⟩
      rw [this]
    · cases hif
  have hall : valuesFor dfs' m t = if kept then valuesFor dfs m t else [] := by
    have gen : ∀ {l l' : List (DFrame K)}, (∀ F ∈ l, F ∈ dfs) →
        List.Forall₂ (fun F G => F.filter o keep filters = .ok G) l l' →
        valuesFor l' m t = if kept then valuesFor l m t else [] := by
      intro l l' hl h
      induction h with
      | nil => split <;> rfl
      | @cons F G l l' h1 h2 ih =>
        rw [valuesFor_cons, valuesFor_cons F l, ih fun F h => hl F (by simp [h]), hkF (hl F (by simp)) h1]
        split <;> rfl
    exact gen (fun _ h => h) hd
  have e1 : R'.Has m t x ↔ x ∈ valuesFor [R'] m t := by
    rw [mem_valuesFor]; simp
  rw [e1, filtered_values hROk hRn hR'n hR' hkR, append_has hF' hr' hs' hS, hall]
  by_cases hk : kept
  · rw [if_pos hk, if_pos hk, ← append_has hF hr hs ha, mem_valuesFor]
    simp
  · rw [if_neg hk, if_neg hk]
    simp [average]

/-! ## C81 -/

theorem filterMap_single {α : Type} {l : List Nat} (hn : l.Nodup) {f : Nat → Option α} {j : Nat} (hj : j ∈ l)
    (h : ∀ i ∈ l, i ≠ j → f i = none) : l.filterMap f = (f j).toList := by
  induction l with
  | nil => simp at hj
  | cons a l ih =>
    rw [List.nodup_cons] at hn
    rw [List.filterMap_cons]
    by_cases ha : a = j
    · subst ha
      have : l.filterMap f = [] := by
        rw [List.filterMap_eq_nil_iff]
        intro i hi
        exact h i (by simp [hi]) (by rintro rfl; exact hn.1 hi)
      rw [this]
      cases f a <;> rfl
    · rw [h a (by simp) ha]
      exact ih hn.2 ((List.mem_cons.1 hj).resolve_left (Ne.symm ha)) fun i hi => h i (by simp [hi])

/-- For each metadata and time an appended frame has one value at most. -/
theorem append_values {dfs : List (DFrame K)} {msg : DupMsg} {R : DFrame K} (hF : ∀ F ∈ dfs, F.Ok)
    (hr : ∀ F ∈ dfs, ∀ c ∈ requiredCols, c ∈ F.cols) (hs : ∀ F ∈ dfs, NoSentinel F)
    (h : dfAppend dfs msg = .ok (.frame R)) (m : String → PyVal K) (t : Int) :
    valuesFor [R] m t = (average (valuesFor dfs m t)).toList := by
  classical
  obtain ⟨-, -, -, h4, h5, h6, h7⟩ := C52_average_partial hF hr hs h
  have e : valuesFor [R] m t = (List.range R.data.length).filterMap fun i => if SameMeta m (R.metaAt i) then R.valueAt i t else none := by
    unfold valuesFor; simp
  by_cases hj : ∃ j < R.data.length, SameMeta m (R.metaAt j)
  · obtain ⟨j, hj, hm⟩ := hj
    rw [e, filterMap_single List.nodup_range (List.mem_range.2 hj), if_pos hm, h7 j hj t, valuesFor_same hm]
    intro i hi hne
    rw [if_neg fun hm' => hne (h6 i (List.mem_range.1 hi) j hj (hm'.symm.trans hm))]
  · have e1 : valuesFor [R] m t = [] := by
      rw [e, List.filterMap_eq_nil_iff]
      intro i hi
      rw [if_neg fun hm => hj ⟨i, List.mem_range.1 hi, hm⟩]
    have e2 : valuesFor dfs m t = [] := by
      rw [List.eq_nil_iff_forall_not_mem]
      intro y hy
      obtain ⟨F, hFm, i, hi, hm, -⟩ := mem_valuesFor.1 hy
      obtain ⟨j, hjl, hmj⟩ := h4 F hFm i hi
      exact hj ⟨j, hjl, hm.trans hmj.symm⟩
    rw [e1, e2]
    rfl

/-- C81: appending some frames first and the others to the result gives the same values as appending all at once, for
all metadata and times for which the frames appended first have one value at most, or the others have none. -/
theorem C81_steps_partial {dfs₁ dfs₂ : List (DFrame K)} {msg₁ msg₂ msg : DupMsg} {R₁ R S : DFrame K}
    (hF : ∀ F ∈ dfs₁ ++ dfs₂, F.Ok) (hr : ∀ F ∈ dfs₁ ++ dfs₂, ∀ c ∈ requiredCols, c ∈ F.cols)
    (hs : ∀ F ∈ dfs₁ ++ dfs₂, NoSentinel F) (h₁ : dfAppend dfs₁ msg₁ = .ok (.frame R₁))
    (h₂ : dfAppend (R₁ :: dfs₂) msg₂ = .ok (.frame R)) (hS : dfAppend (dfs₁ ++ dfs₂) msg = .ok (.frame S))
    {m : String → PyVal K} {t : Int} (ho : (valuesFor dfs₁ m t).length ≤ 1 ∨ valuesFor dfs₂ m t = []) (x : K) :
    R.Has m t x ↔ S.Has m t x := by
  have hF₁ : ∀ F ∈ dfs₁, F.Ok := fun F h => hF F (by simp [h])
  have hr₁ : ∀ F ∈ dfs₁, ∀ c ∈ requiredCols, c ∈ F.cols := fun F h => hr F (by simp [h])
  have hs₁ : ∀ F ∈ dfs₁, NoSentinel F := fun F h => hs F (by simp [h])
  have hR₁ := C52_average_partial hF₁ hr₁ hs₁ h₁
  have hreq : ∀ c ∈ requiredCols, c ∈ R₁.cols := by
    intro c hc
    obtain ⟨F, hFm⟩ := List.exists_mem_of_ne_nil _ (dfAppend_ne h₁)
    exact (append_cols hF₁ hr₁ h₁ c).2 ⟨F, hFm, hr₁ F hFm c hc⟩
  have hno : NoSentinel R₁ := by
    intro i c h
    have := C52_no_sentinel hF₁ h₁ i c
    rcases same_naFill.1 h with h | h
    · exact this.1 h
    · exact this.2 h
  rw [append_has (dfs := R₁ :: dfs₂) ?_ ?_ ?_ h₂, append_has hF hr hs hS, valuesFor_cons, append_values hF₁ hr₁ hs₁ h₁,
    valuesFor_append]
  · have : average ((average (valuesFor dfs₁ m t)).toList ++ valuesFor dfs₂ m t) =
        average (valuesFor dfs₁ m t ++ valuesFor dfs₂ m t) := by
      have single : ∀ y : K, average [y] = some y := by intro y; simp [average]
      rcases ho with ho | ho
      · generalize valuesFor dfs₁ m t = l at ho
        match l, ho with
        | [], _ => rfl
        | [y], _ => rw [single]; rfl
      · rw [ho, List.append_nil, List.append_nil]
        cases h : average (valuesFor dfs₁ m t) with
        | none => rfl
        | some y => rw [Option.toList_some, single]
    rw [this]
  · intro F hFm
    rcases List.mem_cons.1 hFm with rfl | h
    · exact hR₁.1
    · exact hF F (by simp [h])
  · intro F hFm
    rcases List.mem_cons.1 hFm with rfl | h
    · exact hreq
    · exact hr F (by simp [h])
  · intro F hFm
    rcases List.mem_cons.1 hFm with rfl | h
    · exact hno
    · exact hs F (by simp [h])

/-! ## Examples and what fails -/

/-- The frame that an append gave. -/
def appendFrame (r : Except Err (Appended ℚ)) : DFrame ℚ :=
  match r with
  | .ok (.frame R) => R
  | _ => { times := [], cols := [], data := [], «meta» := [] }

def filterFrame (r : Except Err (DFrame ℚ)) : DFrame ℚ :=
  match r with
  | .ok R => R
  | _ => { times := [], cols := [], data := [], «meta» := [] }

def kelvinF : DFrame ℚ := oneF [0, 40000000] [.num 1, .num 2] "K" []
def wattF : DFrame ℚ := oneF [40000000, 80000000] [.num 4, .num 5] "W" []
def kelvinG : DFrame ℚ := oneF [40000000, 80000000] [.num 4, .num 7] "K" [("e", .str "x")]

def byUnit : List (String × PyArg ℚ) := [("unit", .val (.str "K")), ("year", .list [.int 1971, .int 1972])]

theorem appendFrame_ok {dfs : List (DFrame ℚ)} {msg : DupMsg} (h : (appendedOf (dfAppend dfs msg)).isSome = true) :
    dfAppend dfs msg = .ok (.frame (appendFrame (dfAppend dfs msg))) := by
  unfold appendedOf at h
  split at h
  · rename_i R hR
    rw [hR]; rfl
  · cases h

example : dfAppend [kelvinF, wattF, kelvinG] .warn = .ok (.frame (appendFrame (dfAppend [kelvinF, wattF, kelvinG] .warn))) ∧
    (appendFrame (dfAppend [kelvinF, wattF, kelvinG] .warn)).filter demoO true byUnit =
      .ok (filterFrame ((appendFrame (dfAppend [kelvinF, wattF, kelvinG] .warn)).filter demoO true byUnit)) ∧
    List.Forall₂ (fun F G => F.filter demoO true byUnit = .ok G) [kelvinF, wattF, kelvinG]
      ([kelvinF, wattF, kelvinG].map fun F => filterFrame (F.filter demoO true byUnit)) ∧
    (appendFrame (dfAppend ([kelvinF, wattF, kelvinG].map fun F => filterFrame (F.filter demoO true byUnit)) .off)).data.map (·.2) =
      [[.num 2, .nan], [.num 4, .num 7]] ∧
    (filterFrame ((appendFrame (dfAppend [kelvinF, wattF, kelvinG] .warn)).filter demoO true byUnit)).data.map (·.2) =
      [[.num 2, .nan], [.num 4, .num 7]] := by
  refine ⟨appendFrame_ok (by decide +kernel), by decide +kernel, ?_, by decide +kernel, by decide +kernel⟩
  refine .cons (by decide +kernel) (.cons (by decide +kernel) (.cons (by decide +kernel) .nil))

/-- C80 needs frames that agree about which filters are about metadata: with metadata called `year` in one of the
frames, filters by year mean this metadata for the appended frame, and the times for the other frame. -/
theorem C80_columns : ∃ F G : DFrame ℚ, ∃ R R' F' G' S, F.Ok ∧ G.Ok ∧ NoSentinel F ∧ NoSentinel G ∧
    dfAppend [F, G] .warn = .ok (.frame R) ∧ R.filter demoO true [("year", .val (.int 1970))] = .ok R' ∧
    F.filter demoO true [("year", .val (.int 1970))] = .ok F' ∧ G.filter demoO true [("year", .val (.int 1970))] = .ok G' ∧
    dfAppend [F', G'] .warn = .ok (.frame S) ∧ R'.data.length = 1 ∧ S.data.length = 2 := by
  refine ⟨oneF [0] [.num 1] "K" [("year", .int 1970)], oneF [0] [.num 3] "K" [], _,
    filterFrame ((appendFrame (dfAppend [oneF [0] [.num 1] "K" [("year", .int 1970)], oneF [0] [.num 3] "K" []] .warn)).filter
      demoO true [("year", .val (.int 1970))]),
    filterFrame ((oneF [0] [.num 1] "K" [("year", .int 1970)]).filter demoO true [("year", .val (.int 1970))]),
    filterFrame ((oneF [0] [.num 3] "K" []).filter demoO true [("year", .val (.int 1970))]), _,
    ⟨by decide, by decide, by decide +kernel, by decide, by decide +kernel⟩,
    ⟨by decide, by decide, by decide +kernel, by decide, by decide +kernel⟩, noSentinel_of (by decide +kernel),
    noSentinel_of (by decide +kernel), appendFrame_ok (by decide +kernel), by decide +kernel, by decide +kernel, by decide +kernel,
    appendFrame_ok (by decide +kernel), by decide +kernel, by decide +kernel⟩

/-- C81 fails where frames overlap: appending one frame after the other weighs the last one most. -/
theorem C81_weights : ∃ F G H : DFrame ℚ, ∃ R₁ R S, F.Ok ∧ G.Ok ∧ H.Ok ∧ NoSentinel F ∧ NoSentinel G ∧ NoSentinel H ∧
    dfAppend [F, G] .warn = .ok (.frame R₁) ∧ dfAppend [R₁, H] .warn = .ok (.frame R) ∧
    dfAppend [F, G, H] .warn = .ok (.frame S) ∧ R.valueAt 0 0 = some (3 / 2) ∧ S.valueAt 0 0 = some 1 := by
  refine ⟨oneF [0] [.num 0] "K" [], oneF [0] [.num 0] "K" [], oneF [0] [.num 3] "K" [], _, _, _,
    ⟨by decide, by decide, by decide +kernel, by decide, by decide +kernel⟩,
    ⟨by decide, by decide, by decide +kernel, by decide, by decide +kernel⟩,
    ⟨by decide, by decide, by decide +kernel, by decide, by decide +kernel⟩, noSentinel_of (by decide +kernel),
    noSentinel_of (by decide +kernel), noSentinel_of (by decide +kernel), appendFrame_ok (by decide +kernel),
    appendFrame_ok (by decide +kernel), appendFrame_ok (by decide +kernel), by decide +kernel, by decide +kernel⟩

/-- Frames for `C81_steps_partial`. -/
example : ∃ R₁ R S, dfAppend [kelvinF, wattF] .warn = .ok (.frame R₁) ∧ dfAppend [R₁, kelvinG] .ret = .ok (.frame R) ∧
    dfAppend [kelvinF, wattF, kelvinG] .other = .ok (.frame S) ∧ R.data.map (·.2) = S.data.map (·.2) :=
  ⟨_, _, _, appendFrame_ok (by decide +kernel), appendFrame_ok (by decide +kernel), appendFrame_ok (by decide +kernel),
    by decide +kernel⟩

end Openscm
