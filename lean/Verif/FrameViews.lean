import Verif.FrameTable2

/-!
# Frames as tables of chosen columns (model) and C89

`timeseries(meta=…)`, `values`, `head` and `tail`, `openscm/scmdataframe/base.py:543-583` and `785-821`.
-/

set_option linter.unusedSectionVars false

namespace Openscm

variable {K : Type} [Field K] [LinearOrder K] [IsStrictOrderedRing K]

/-- `timeseries(meta)`, `openscm/scmdataframe/base.py:543-574`: metadata and values, paired by position. A table without
columns has no index. -/
def DFrame.timeseriesOn (F : DFrame K) : Option (List String) → Except Err (List (List (PyVal K) × List (Fl K)))
  | none => F.timeseries
  | some cs =>
    if ¬ ∀ c ∈ cs, c ∈ F.cols then .error .keyError
    else if cs = [] then .error .valueError
    else if hasDuplicates (F.meta.map fun r => selectCols F.cols cs r.2) then .error .valueError
    else .ok ((F.meta.zip F.data).map fun rd => (selectCols F.cols cs rd.1.2, rd.2.2))

/-- `values`, `openscm/scmdataframe/base.py:576-583`. -/
def DFrame.valuesOf (F : DFrame K) : Except Err (List (List (Fl K))) := F.timeseries.map fun T => T.map (·.2)

/-- `head` of a table: `iloc[:n]`. -/
def headRows {α : Type} (rows : List α) (n : Int) : List α :=
  if 0 ≤ n then rows.take n.toNat else rows.take (rows.length - (-n).toNat)

/-- `tail` of a table: `iloc[-n:]`, or nothing for 0. -/
def tailRows {α : Type} (rows : List α) (n : Int) : List α :=
  if n = 0 then [] else if 0 < n then rows.drop (rows.length - n.toNat) else rows.drop (-n).toNat

/-- `head`, `openscm/scmdataframe/base.py:785-802`. -/
def DFrame.head (F : DFrame K) (n : Int := 5) : Except Err (List (List (PyVal K) × List (Fl K))) :=
  F.timeseries.map fun T => headRows T n

/-- `tail`, `openscm/scmdataframe/base.py:804-821`. -/
def DFrame.tail (F : DFrame K) (n : Int := 5) : Except Err (List (List (PyVal K) × List (Fl K))) :=
  F.timeseries.map fun T => tailRows T n

/-- The table that `timeseries(meta)` returns. -/
def DFrame.asTableOn (F : DFrame K) (cs : List String) : Except Err (Table K) :=
  match F.timeseriesOn (some cs) with
  | .error e => .error e
  | .ok ts => .ok { index := cs, cols := F.times.map timeToLabel
                    rows := ts.map fun rv => rv.1.map indexValue ++ rv.2.map PyVal.flt }

/-! ## C89: specification -/

/-- Two timeseries have the same metadata in all of these columns. -/
def DFrame.AgreeOn (F : DFrame K) (cs : List String) (i j : Nat) : Prop := ∀ c ∈ cs, SameValue (F.metaAt i c) (F.metaAt j c)

/-! ## Facts -/

/-- The frame with these columns only. -/
def DFrame.onCols (F : DFrame K) (cs : List String) : DFrame K :=
  { F with cols := cs, «meta» := F.meta.map fun r => (r.1, selectCols F.cols cs r.2) }

theorem selectCols_metaRow {F : DFrame K} (cs : List String) {i : Nat} {r : Nat × List (PyVal K)}
    (hr : F.meta[i]? = some r) : selectCols F.cols cs r.2 = cs.map (F.metaAt i) := by
  unfold selectCols
  refine List.map_congr_left fun c hc => ?_
  unfold DFrame.metaAt
  rw [hr]
  simp only [rowVal]

theorem onCols_timeseries {F : DFrame K} {cs : List String} (h : ∀ c ∈ cs, c ∈ F.cols) (h0 : cs ≠ []) :
    F.timeseriesOn (some cs) = (F.onCols cs).timeseries := by
  unfold DFrame.timeseriesOn DFrame.timeseries
  simp only
  rw [if_neg (not_not.2 h), if_neg h0]
  simp [DFrame.onCols, List.zip_map_left, List.map_map, Function.comp_def]

theorem onCols_ok {F : DFrame K} (hF : F.Ok) {cs : List String} (hn : cs.Nodup) : (F.onCols cs).Ok where
  labels := by simpa [DFrame.onCols, Function.comp_def] using hF.labels
  nodup := hF.nodup
  cols_nodup := hn
  data_len := hF.data_len
  meta_len := by
    intro r hr
    obtain ⟨s, -, rfl⟩ := List.mem_map.1 hr
    simp [selectCols, DFrame.onCols]

theorem forall₂_map_cols {cs : List String} {f g : String → PyVal K} :
    List.Forall₂ SameValue (cs.map f) (cs.map g) ↔ ∀ c ∈ cs, SameValue (f c) (g c) := by
  induction cs with
  | nil => simp
  | cons c cs ih => simp [ih]

theorem onCols_distinct {F : DFrame K} {cs : List String} :
    DistinctMeta (F.onCols cs) ↔ ∀ i j, i < j → j < F.meta.length → ¬ F.AgreeOn cs i j := by
  unfold DistinctMeta
  rw [List.pairwise_iff_getElem]
  simp only [DFrame.onCols, List.length_map, List.getElem_map]
  constructor
  · intro h i j hij hj ha
    refine h i j (by omega) hj hij ?_
    rw [selectCols_metaRow cs (List.getElem?_eq_getElem (by omega)), selectCols_metaRow cs (List.getElem?_eq_getElem hj), forall₂_map_cols]
    exact ha
  · intro h i j hi hj hij ha
    rw [selectCols_metaRow cs (List.getElem?_eq_getElem (by omega)), selectCols_metaRow cs (List.getElem?_eq_getElem hj), forall₂_map_cols] at ha
    exact h i j hij hj ha

theorem meta_data_length {F : DFrame K} (hF : F.Ok) : F.meta.length = F.data.length := by
  have := congrArg List.length hF.labels
  simpa using this.symm

theorem timeseries_iff {F : DFrame K} {T : List (List (PyVal K) × List (Fl K))} :
    F.timeseries = .ok T ↔ DistinctMeta F ∧ T = (F.meta.zip F.data).map fun rd => (rd.1.2, rd.2.2) := by
  unfold DFrame.timeseries
  rw [← hasDuplicates_iff]
  cases hasDuplicates (F.meta.map (·.2)) <;> simp [eq_comm]

theorem onCols_metaAt {F : DFrame K} {cs : List String} (i : Nat) {c : String} (hc : c ∈ cs) :
    (F.onCols cs).metaAt i c = F.metaAt i c := by
  unfold DFrame.metaAt DFrame.onCols
  simp only [List.getElem?_map]
  cases F.meta[i]? with
  | none => rfl
  | some r =>
    simp only [Option.map_some, rowVal, selectCols]
    rw [List.getD_eq_getElem?_getD, List.getElem?_map, getElem?_idxOf' hc]
    rfl

/-! ## C89 -/

/-- C89: which calls of `timeseries(meta)` give a table: at least one column is chosen, the columns exist, and no two
timeseries have the same metadata in all of them. -/
theorem C89_accepted {F : DFrame K} (hF : F.Ok) (cs : List String) :
    (∃ T, F.timeseriesOn (some cs) = .ok T) ↔
      cs ≠ [] ∧ (∀ c ∈ cs, c ∈ F.cols) ∧ ∀ i j, i < j → j < F.data.length → ¬ F.AgreeOn cs i j := by
  rw [← meta_data_length hF]
  by_cases h : ∀ c ∈ cs, c ∈ F.cols
  · by_cases h0 : cs = []
    · subst h0
      simp [DFrame.timeseriesOn]
    · rw [onCols_timeseries h h0, ← onCols_distinct]
      constructor
      · rintro ⟨T, hT⟩
        exact ⟨h0, h, (timeseries_iff.1 hT).1⟩
      · rintro ⟨-, -, hd⟩
        exact ⟨_, timeseries_iff.2 ⟨hd, rfl⟩⟩
  · simp [DFrame.timeseriesOn, h]

/-- C89: the other calls raise `KeyError` if a column does not exist, else `ValueError`. -/
theorem C89_errors (F : DFrame K) (cs : List String) (e : Err) (h : F.timeseriesOn (some cs) = .error e) :
    (e = .keyError ↔ ∃ c ∈ cs, c ∉ F.cols) ∧ (e = .valueError ↔ ∀ c ∈ cs, c ∈ F.cols) := by
  simp only [DFrame.timeseriesOn] at h
  split at h
  · rename_i hc
    cases h
    exact ⟨by simpa using hc, by simpa using hc⟩
  · rename_i hc
    have hc := not_not.1 hc
    have : e = .valueError := by
      split at h
      · exact (Except.error.inj h).symm
      · split at h
        · exact (Except.error.inj h).symm
        · cases h
    subst this
    exact ⟨⟨(fun h => nomatch h), fun ⟨c, h1, h2⟩ => absurd (hc c h1) h2⟩, ⟨fun _ => hc, fun _ => rfl⟩⟩

/-- C89: the table has a row for each timeseries, in order, with its values and its metadata in the chosen columns, in the
order in which they were chosen. -/
theorem C89_table {F : DFrame K} (hF : F.Ok) {cs : List String} {T : List (List (PyVal K) × List (Fl K))}
    (h : F.timeseriesOn (some cs) = .ok T) :
    T.length = F.data.length ∧ ∀ i row, T[i]? = some row → row.1 = cs.map (F.metaAt i) ∧ F.data[i]?.map (·.2) = some row.2 := by
  obtain ⟨h0, hc, hd⟩ := (C89_accepted hF cs).1 ⟨T, h⟩
  rw [onCols_timeseries hc h0] at h
  obtain ⟨-, rfl⟩ := timeseries_iff.1 h
  have hl := meta_data_length hF
  refine ⟨by simp [DFrame.onCols, hl], fun i row hrow => ?_⟩
  rw [List.getElem?_map] at hrow
  cases hz : ((F.onCols cs).meta.zip (F.onCols cs).data)[i]? with
  | none => rw [hz] at hrow; cases hrow
  | some rd =>
    rw [hz] at hrow
    cases hrow
    obtain ⟨h1, h2⟩ := List.getElem?_zip_eq_some.1 hz
    simp only [DFrame.onCols, List.getElem?_map] at h1 h2
    cases hm : F.meta[i]? with
    | none => rw [hm] at h1; cases h1
    | some r =>
      rw [hm] at h1
      simp only [Option.map_some, Option.some.injEq] at h1
      rw [h2]
      refine ⟨?_, rfl⟩
      rw [← selectCols_metaRow cs hm]
      exact (congrArg Prod.snd h1).symm

/-- C89: all columns of the frame are chosen if none are given. -/
theorem C89_default {F : DFrame K} (hF : F.Ok) (h0 : F.cols ≠ []) : F.timeseriesOn none = F.timeseriesOn (some F.cols) := by
  rw [onCols_timeseries (fun _ h => h) h0]
  have : F.onCols F.cols = F := by
    have hm : (F.meta.map fun r => (r.1, selectCols F.cols F.cols r.2)) = F.meta := by
      conv_rhs => rw [← List.map_id F.meta]
      refine List.map_congr_left fun r hr => ?_
      have : selectCols F.cols F.cols r.2 = r.2 := by
        apply List.ext_getElem
        · simp [selectCols, hF.meta_len r hr]
        · intro i h1 h2
          simp only [selectCols, List.getElem_map]
          rw [hF.cols_nodup.idxOf_getElem, List.getD_eq_getElem?_getD, List.getElem?_eq_getElem h2, Option.getD_some]
      rw [this]
      rfl
    unfold DFrame.onCols
    rw [hm]
  rw [this]
  rfl

/-- C89: further columns make no call fail that works without them. -/
theorem C89_more {F : DFrame K} (hF : F.Ok) {cs cs' : List String} (hsub : ∀ c ∈ cs, c ∈ cs') (hc : ∀ c ∈ cs', c ∈ F.cols)
    {T : List (List (PyVal K) × List (Fl K))} (h : F.timeseriesOn (some cs) = .ok T) :
    ∃ T', F.timeseriesOn (some cs') = .ok T' ∧ T'.map (·.2) = T.map (·.2) := by
  obtain ⟨h0, h1, h2⟩ := (C89_accepted hF cs).1 ⟨T, h⟩
  have h0' : cs' ≠ [] := by
    rintro rfl
    cases cs with
    | nil => exact h0 rfl
    | cons c l => exact absurd (hsub c (List.mem_cons_self ..)) (by simp)
  obtain ⟨T', hT'⟩ := (C89_accepted hF cs').2 ⟨h0', hc, fun i j hij hj ha => h2 i j hij hj fun c hc => ha c (hsub c hc)⟩
  refine ⟨T', hT', ?_⟩
  rw [onCols_timeseries h1 h0] at h
  rw [onCols_timeseries hc h0'] at hT'
  rw [(timeseries_iff.1 h).2, (timeseries_iff.1 hT').2]
  have key : ∀ cs : List String, (((F.onCols cs).meta.zip (F.onCols cs).data).map fun rd => (rd.1.2, rd.2.2)).map (·.2) = F.data.map (·.2) := by
    intro cs
    have hl : F.data.length ≤ (F.onCols cs).meta.length := by simp [DFrame.onCols, meta_data_length hF]
    rw [List.map_map]
    have := List.map_snd_zip hl
    conv_rhs => rw [← this]
    rw [List.map_map]
    rfl
  rw [key, key]

/-- C89: `values` are the values of all timeseries, in order, if no two have the same metadata. -/
theorem C89_values {F : DFrame K} (hF : F.Ok) :
    (DistinctMeta F → F.valuesOf = .ok (F.data.map (·.2))) ∧ (¬ DistinctMeta F → F.valuesOf = .error .valueError) := by
  constructor
  · intro hd
    unfold DFrame.valuesOf
    rw [timeseries_iff.2 ⟨hd, rfl⟩]
    simp only [Except.map, List.map_map]
    congr 1
    have hl : F.data.length ≤ F.meta.length := by rw [meta_data_length hF]
    have := List.map_snd_zip hl
    conv_rhs => rw [← this]
    rw [List.map_map]
    rfl
  · intro hd
    unfold DFrame.valuesOf DFrame.timeseries
    rw [← hasDuplicates_iff, Bool.not_eq_false] at hd
    rw [hd]
    rfl

/-- C89: `head(n)` is the beginning of the table with `n` rows, or all of them if there are fewer; for negative numbers it
lacks as many of the last rows. -/
theorem C89_head (F : DFrame K) {T : List (List (PyVal K) × List (Fl K))} (h : F.timeseriesOn none = .ok T) (n : Nat) :
    (∃ H, F.head n = .ok H ∧ H <+: T ∧ H.length = min n T.length) ∧
    (0 < n → ∃ H, F.head (-n) = .ok H ∧ H <+: T ∧ H.length = T.length - n) := by
  have h : F.timeseries = .ok T := h
  have e : ∀ m, F.head m = .ok (headRows T m) := fun m => by
    unfold DFrame.head
    rw [h]
    rfl
  constructor
  · refine ⟨_, e n, ?_⟩
    rw [headRows, if_pos (by omega)]
    exact ⟨List.take_prefix .., by rw [List.length_take, Int.toNat_natCast]⟩
  · intro hn
    refine ⟨_, e (-n), ?_⟩
    rw [headRows, if_neg (by omega)]
    exact ⟨List.take_prefix .., by rw [List.length_take]; omega⟩

/-- C89: `tail(n)` is the end of the table with `n` rows, or all of them if there are fewer; for negative numbers it lacks
as many of the first rows. -/
theorem C89_tail (F : DFrame K) {T : List (List (PyVal K) × List (Fl K))} (h : F.timeseriesOn none = .ok T) (n : Nat) :
    (∃ H, F.tail n = .ok H ∧ H <:+ T ∧ H.length = min n T.length) ∧
    (0 < n → ∃ H, F.tail (-n) = .ok H ∧ H <:+ T ∧ H.length = T.length - n) := by
  have h : F.timeseries = .ok T := h
  have e : ∀ m, F.tail m = .ok (tailRows T m) := fun m => by
    unfold DFrame.tail
    rw [h]
    rfl
  constructor
  · refine ⟨_, e n, ?_⟩
    unfold tailRows
    split
    · rename_i h0
      exact ⟨List.nil_suffix, by simp; omega⟩
    · rw [if_pos (by omega)]
      exact ⟨List.drop_suffix .., by rw [List.length_drop, Int.toNat_natCast]; omega⟩
  · intro hn
    refine ⟨_, e (-n), ?_⟩
    rw [tailRows, if_neg (by omega), if_neg (by omega)]
    exact ⟨List.drop_suffix .., by rw [List.length_drop]; omega⟩

/-- C89: `head` and `tail` of a number of rows together that of the table make up the table. -/
theorem C89_split (F : DFrame K) {T : List (List (PyVal K) × List (Fl K))} (h : F.timeseriesOn none = .ok T) {m n : Nat}
    (hmn : m + n = T.length) : ∃ H H', F.head m = .ok H ∧ F.tail n = .ok H' ∧ H ++ H' = T := by
  obtain ⟨H, h1, h2, h3⟩ := (C89_head F h m).1
  obtain ⟨H', h1', h2', h3'⟩ := (C89_tail F h n).1
  refine ⟨H, H', h1, h1', ?_⟩
  have e1 := List.prefix_iff_eq_take.1 h2
  have e2 := List.suffix_iff_eq_drop.1 h2'
  rw [e1, e2, show T.length - H'.length = H.length by omega, List.take_append_drop]

/-- C89: a frame can be read from a table of chosen columns, if the required ones are among them: it has the values and the
metadata in these columns, timeseries by timeseries, and the times in order. As for tables of all columns (C66), no column
may be called `value` or have a name that reads as a time, and the times are in the years 1 to 9999. -/
theorem C89_read (clock : Clock) (F : DFrame K) (hF : F.Ok) {cs : List String} (hcn : cs.Nodup) {T : Table K}
    (h : F.asTableOn cs = .ok T) (hr : ∀ c ∈ requiredCols, c ∈ cs) (hv : "value" ∉ cs)
    (hc : ∀ c ∈ cs, c ∉ requiredCols → clock.looks c = false) (hn : F.times.Nodup) (h0 : F.times ≠ [])
    (ht : ∀ t ∈ F.times, dateTime 1 1 1 ≤ t ∧ t < dateTime 10000 1 1) :
    ∃ R, fromTable clock T = .ok R ∧ R.Ok ∧ R.times.Pairwise (· < ·) ∧ R.times.Perm F.times ∧
      R.data.length = F.data.length ∧ ∀ i < F.data.length,
        (∀ c ∈ cs, SameValue (R.metaAt i c) (F.metaAt i c)) ∧ ∀ t, R.valueAt i t = F.valueAt i t := by
  unfold DFrame.asTableOn at h
  split at h
  · cases h
  rename_i ts hts
  obtain ⟨hne, hcols, -⟩ := (C89_accepted hF cs).1 ⟨ts, hts⟩
  rw [onCols_timeseries hcols hne] at hts
  have hd := (timeseries_iff.1 hts).1
  obtain ⟨T', R, hT', hR, h1, h2, h3, h4, h5⟩ := C66_round_trip_partial clock (F.onCols cs) (onCols_ok hF hcn) hd hr hv hc hn h0 ht
  have : T' = T := by
    unfold DFrame.asTable at hT'
    rw [hts] at hT'
    exact (Except.ok.inj hT').symm.trans (Except.ok.inj h)
  subst this
  refine ⟨R, hR, h1, h2, h3, h4, fun i hi => ?_⟩
  obtain ⟨h6, h7⟩ := h5 i hi
  exact ⟨fun c hc => onCols_metaAt (F := F) i hc ▸ h6 c, h7⟩

/-! ## Cases -/

/-- Two timeseries that differ in `scenario`; the metadata `run` are the same. -/
def viewF : DFrame ℚ :=
  { times := [dateTime 2010 1 1, dateTime 2020 1 1]
    cols := ["model", "scenario", "region", "variable", "unit", "run"]
    data := [(0, [.num 1, .num 2]), (1, [.num 3, .nan])]
    «meta» := [(0, [.str "m", .str "a", .str "World", .str "v", .str "K", .int 1]),
      (1, [.str "m", .str "b", .str "World", .str "v", .str "K", .int 1])] }

theorem viewF_ok : viewF.Ok := ⟨by decide, by decide, by decide, by simp [viewF], by simp [viewF]⟩

example : viewF.timeseriesOn (some ["run", "scenario"]) = .ok [([.int 1, .str "a"], [.num 1, .num 2]), ([.int 1, .str "b"], [.num 3, .nan])] ∧
    viewF.timeseriesOn (some ["run", "model"]) = .error .valueError ∧ viewF.timeseriesOn (some ["runs"]) = .error .keyError ∧
    viewF.timeseriesOn (some []) = .error .valueError ∧ viewF.valuesOf = .ok [[.num 1, .num 2], [.num 3, .nan]] ∧
    viewF.head 1 = .ok [([.str "m", .str "a", .str "World", .str "v", .str "K", .int 1], [.num 1, .num 2])] ∧
    viewF.tail (-1) = .ok [([.str "m", .str "b", .str "World", .str "v", .str "K", .int 1], [.num 3, .nan])] := by
  refine ⟨?_, ?_, ?_, ?_, ?_, ?_, ?_⟩ <;> rfl

/-- `C89_read` applies to it, without the column `run`. -/
example : ∃ T, viewF.asTableOn requiredCols = .ok T ∧ requiredCols.Nodup ∧ "value" ∉ requiredCols ∧ viewF.times.Nodup ∧
    (∀ t ∈ viewF.times, dateTime 1 1 1 ≤ t ∧ t < dateTime 10000 1 1) := by
  refine ⟨_, rfl, by decide, by decide, by decide +kernel, by decide +kernel⟩

end Openscm
