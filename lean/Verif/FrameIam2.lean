import Verif.FrameIam
import Verif.FrameDistinct

/-!
# C87: frames through pyam
-/

set_option linter.unusedSectionVars false

namespace Openscm

variable {K : Type} [Field K] [LinearOrder K] [IsStrictOrderedRing K]

/-! ## The table of a frame -/

def DFrame.iamKeyCols (F : DFrame K) : List String := requiredCols ++ F.cols.filter fun c => c ∉ requiredCols

def DFrame.flAt (F : DFrame K) (i : Nat) (t : Int) : Fl K := (F.data.getD i (0, [])).2.getD (F.times.idxOf t) .nan

def DFrame.iamKey (F : DFrame K) (i : Nat) : List (PyVal K) := F.iamKeyCols.map fun c => indexValue (F.metaAt i c)

def DFrame.wideRow (F : DFrame K) (i : Nat) : List (PyVal K) :=
  (F.meta.getD i (0, [])).2.map indexValue ++ (F.data.getD i (0, [])).2.map PyVal.flt

def DFrame.wideTable (F : DFrame K) : Table K :=
  { index := F.cols, cols := F.times.map Label.time, rows := (List.range F.data.length).map F.wideRow }

def DFrame.iamRows (F : DFrame K) : List (IamRow K) :=
  (List.range F.data.length).flatMap fun i => F.times.map fun t => (F.iamKey i, .time t, .flt (F.flAt i t))

/-- What is needed of a frame. -/
structure IamFrame (clock : Clock) (F : DFrame K) : Prop where
  ok : F.Ok
  distinct : DistinctMeta F
  req : ∀ c ∈ requiredCols, c ∈ F.cols
  names : ∀ c ∈ F.cols, lowerText c = c ∧ c ≠ "notes" ∧ c ≠ "value" ∧ c ≠ "year" ∧ c ≠ "time"
  looks : ∀ c ∈ F.cols, c ∉ requiredCols → clock.looks c = false
  times : F.times.Nodup
  range : ∀ t ∈ F.times, dateTime 1 1 1 ≤ t ∧ t < dateTime 10000 1 1

theorem Ok.meta_length {F : DFrame K} (hF : F.Ok) : F.meta.length = F.data.length := by
  have := congrArg List.length hF.labels
  simpa using this.symm

theorem IamFrame.asTable {clock : Clock} {F : DFrame K} (h : IamFrame clock F) : F.asTable = .ok F.wideTable := by
  have hml := Ok.meta_length h.ok
  have hlab : F.times.map timeToLabel = F.times.map Label.time := by
    refine List.map_congr_left fun t ht => ?_
    unfold timeToLabel
    rw [if_pos]
    unfold datetimeRange
    rw [yearToSeconds_date, yearToSeconds_date]
    simpa using h.range t ht
  have hts : F.timeseries = .ok ((F.meta.zip F.data).map fun rd => (rd.1.2, rd.2.2)) := by
    unfold DFrame.timeseries
    rw [if_neg]
    rw [Bool.not_eq_true]
    exact hasDuplicates_iff.2 h.distinct
  unfold DFrame.asTable DFrame.wideTable
  rw [hts, hlab]
  simp only [List.map_map]
  congr 2
  apply List.ext_getElem
  · simp [hml]
  · intro i h1 h2
    simp only [List.length_map, List.length_zip, List.length_range] at h1 h2
    simp only [List.getElem_map, List.getElem_zip, List.getElem_range, Function.comp, DFrame.wideRow]
    rw [List.getD_eq_getElem?_getD, List.getD_eq_getElem?_getD, List.getElem?_eq_getElem (by omega),
      List.getElem?_eq_getElem (by omega)]
    rfl

theorem meta_getD {F : DFrame K} (hF : F.Ok) {i : Nat} (hi : i < F.data.length) :
    (F.meta.getD i (0, [])).2.length = F.cols.length ∧ (F.data.getD i (0, [])).2.length = F.times.length ∧
    F.metaAt i = rowVal F.cols (F.meta.getD i (0, [])).2 := by
  have hml := Ok.meta_length hF
  rw [List.getD_eq_getElem?_getD, List.getD_eq_getElem?_getD, List.getElem?_eq_getElem (show i < F.meta.length by omega),
    List.getElem?_eq_getElem hi]
  exact ⟨hF.meta_len _ (List.getElem_mem _), hF.data_len _ (List.getElem_mem _),
    metaAt_eq (List.getElem?_eq_getElem (show i < F.meta.length by omega))⟩

theorem wideRow_length {F : DFrame K} (hF : F.Ok) {i : Nat} (hi : i < F.data.length) :
    (F.wideRow i).length = F.wideTable.index.length + F.wideTable.cols.length := by
  obtain ⟨h1, h2, -⟩ := meta_getD hF hi
  simp only [DFrame.wideRow, DFrame.wideTable, List.length_append, List.length_map, h1, h2]

theorem wide_has {F : DFrame K} (c : String) : F.wideTable.HasCol c ↔ c ∈ F.cols := by
  unfold Table.HasCol DFrame.wideTable
  simp [Function.comp_def, colName]

theorem wide_cell {F : DFrame K} (hF : F.Ok) {i : Nat} (hi : i < F.data.length) {c : String} (hc : c ∈ F.cols) :
    cellOf F.wideTable.labels (F.wideRow i) (.text c) = indexValue (F.metaAt i c) := by
  obtain ⟨h1, -, h3⟩ := meta_getD hF hi
  rw [cell_eq (wideRow_length hF hi), h3]
  have hlt := List.idxOf_lt_length_of_mem hc
  unfold Table.cell rowVal DFrame.wideTable DFrame.wideRow
  simp only [hc, if_true]
  generalize (F.meta.getD i (0, [])).2 = row at *
  rw [List.getD_eq_getElem?_getD, List.getElem?_append_left (by simpa [h1] using hlt), List.getElem?_map,
    List.getElem?_eq_getElem (by omega), List.getD_eq_getElem?_getD, List.getElem?_eq_getElem (by omega)]
  rfl

theorem idxOf_time (l : List Int) (t : Int) : (l.map Label.time).idxOf (.time t) = l.idxOf t := by
  induction l with
  | nil => rfl
  | cons a l ih => simp [List.idxOf_cons, ih, beq_eq_decide]

theorem wide_value {F : DFrame K} (hF : F.Ok) {i : Nat} (hi : i < F.data.length) {t : Int} (ht : t ∈ F.times) :
    cellOf F.wideTable.labels (F.wideRow i) (.time t) = .flt (F.flAt i t) := by
  obtain ⟨h1, h2, -⟩ := meta_getD hF hi
  have hlt := List.idxOf_lt_length_of_mem ht
  rw [at_eq (by intro s h; cases h)]
  unfold Table.at DFrame.wideTable DFrame.wideRow DFrame.flAt
  simp only
  generalize (F.meta.getD i (0, [])).2 = row at *
  generalize (F.data.getD i (0, [])).2 = vals at *
  rw [idxOf_time, List.getD_eq_getElem?_getD, List.getElem?_append_right (by simp [h1])]
  rw [List.length_map, h1, Nat.add_sub_cancel_left, List.getElem?_map, List.getElem?_eq_getElem (by omega),
    List.getD_eq_getElem?_getD, List.getElem?_eq_getElem (by omega)]
  rfl

theorem value_flAt {F : DFrame K} {i : Nat} (hi : i < F.data.length) (t : Int) (x : K) :
    F.valueAt i t = some x ↔ F.flAt i t = .num x := by
  unfold DFrame.valueAt DFrame.flAt
  rw [List.getD_eq_getElem?_getD (l := F.data), List.getElem?_eq_getElem hi]
  simp only [Option.getD_some]
  cases (F.data[i].2.getD (F.times.idxOf t) .nan) <;> simp

theorem wide_names (F : DFrame K) : F.wideTable.labels.filterMap textOf = F.cols := by
  unfold Table.labels DFrame.wideTable
  simp only [List.filterMap_append, List.filterMap_map]
  have h1 : F.cols.filterMap (textOf ∘ Label.text) = F.cols := by
    rw [show (textOf ∘ Label.text) = some from rfl, List.filterMap_some]
  have h2 : (F.times.filterMap ((textOf ∘ Label.lower) ∘ Label.time)) = [] := by
    rw [List.filterMap_eq_nil_iff]; intros; rfl
  rw [h1, h2, List.append_nil]

theorem wide_labels (F : DFrame K) : F.wideTable.labels = F.cols.map Label.text ++ F.times.map Label.time := by
  unfold Table.labels DFrame.wideTable
  simp only [List.map_map]
  rfl

theorem wide_ls (F : DFrame K) : (F.wideTable.labels.filter fun l => (textOf l).isNone) = F.times.map Label.time := by
  rw [wide_labels, List.filter_append]
  have h1 : (F.cols.map Label.text).filter (fun l => (textOf l).isNone) = [] := by
    rw [List.filter_eq_nil_iff]
    intro l hl
    obtain ⟨c, -, rfl⟩ := List.mem_map.1 hl
    simp [textOf]
  have h2 : (F.times.map Label.time).filter (fun l => (textOf l).isNone) = F.times.map Label.time := by
    rw [List.filter_eq_self]
    intro l hl
    obtain ⟨c, -, rfl⟩ := List.mem_map.1 hl
    rfl
  rw [h1, h2, List.nil_append]

theorem wideTimeCol_time {l : List Int} (h : l ≠ []) : wideTimeCol (l.map Label.time) = some "time" := by
  unfold wideTimeCol
  obtain ⟨a, q, rfl⟩ := List.exists_cons_of_ne_nil h
  rw [if_neg (by simp), if_neg (by simp [numLabel]), if_pos]
  simp [timeLabel]

theorem IamFrame.keyCols {clock : Clock} {F : DFrame K} (h : IamFrame clock F) (c : String) :
    c ∈ F.iamKeyCols ↔ c ∈ F.cols := by
  unfold DFrame.iamKeyCols
  rw [List.mem_append, List.mem_filter]
  constructor
  · rintro (hc | hc)
    · exact h.req c hc
    · exact hc.1
  · intro hc
    by_cases hr : c ∈ requiredCols
    · exact .inl hr
    · exact .inr ⟨hc, by simpa using hr⟩

theorem IamFrame.iamCols {clock : Clock} {F : DFrame K} (h : IamFrame clock F) : IamCols F.iamKeyCols "time" where
  lower c hc := (h.names c ((h.keyCols c).1 hc)).1
  nodup := by
    unfold DFrame.iamKeyCols
    rw [List.nodup_append]
    refine ⟨by decide, h.ok.cols_nodup.filter _, ?_⟩
    rintro a ha b hb rfl
    exact absurd ha (by simpa using (List.mem_filter.1 hb).2)
  plain c hc := by
    obtain ⟨-, -, a, b, d⟩ := h.names c ((h.keyCols c).1 hc)
    rintro (e | e | e)
    · exact a e
    · exact b e
    · exact d e
  tc := .inr rfl
  req c hc := (h.keyCols c).2 (h.req c hc)

theorem mapExcept_map {α β : Type} {f : α → Except Err β} {g : α → β} {l : List α} (h : ∀ a ∈ l, f a = .ok (g a)) :
    mapExcept f l = .ok (l.map g) := by
  rw [mapExcept_ok, List.forall₂_map_right_iff]
  exact List.forall₂_same.2 h

/-- The row that pyam has for a number. -/
def iamOut (e : IamRow K) : List (PyVal K) := e.1 ++ [e.2.1, .flt ((cellFloat e.2.2).getD .nan)]

theorem iamRows_mem {F : DFrame K} {e : IamRow K} (he : e ∈ F.iamRows) :
    ∃ i < F.data.length, ∃ t ∈ F.times, e = (F.iamKey i, .time t, .flt (F.flAt i t)) := by
  unfold DFrame.iamRows at he
  rw [List.mem_flatMap] at he
  obtain ⟨i, hi, he⟩ := he
  obtain ⟨t, ht, rfl⟩ := List.mem_map.1 he
  exact ⟨i, List.mem_range.1 hi, t, ht, rfl⟩

theorem IamFrame.sameKey {clock : Clock} {F : DFrame K} (h : IamFrame clock F) {i j : Nat} (hi : i < F.data.length)
    (hj : j < F.data.length) : sameRow (F.iamKey i) (F.iamKey j) = true ↔ i = j := by
  constructor
  · intro hs
    unfold DFrame.iamKey at hs
    rw [sameRow_map] at hs
    have hsame : SameMeta (F.metaAt i) (F.metaAt j) := by
      intro c
      by_cases hc : c ∈ F.cols
      · exact (sameValue_index _).symm.trans ((hs c ((h.keyCols c).2 hc)).trans (sameValue_index _))
      · obtain ⟨a1, -, a3⟩ := meta_getD h.ok hi
        obtain ⟨b1, -, b3⟩ := meta_getD h.ok hj
        rw [a3, b3, rowVal_absent a1 hc, rowVal_absent b1 hc]
        exact .equal _
    have hap := (apart_nil h.ok).2 h.distinct
    have hml := Ok.meta_length h.ok
    rcases Nat.lt_trichotomy i j with hij | hij | hij
    · obtain ⟨c, -, hc⟩ := hap i j hij (by omega)
      exact absurd (hsame c) hc
    · exact hij
    · obtain ⟨c, -, hc⟩ := hap j i hij (by omega)
      exact absurd (hsame c).symm hc
  · rintro rfl
    exact sameRow_refl _

/-- No two rows agree in metadata and time. -/
theorem IamFrame.noDup {clock : Clock} {F : DFrame K} (h : IamFrame clock F) :
    F.iamRows.Pairwise fun e e' => ¬ (sameRow e.1 e'.1 = true ∧ e.2.1 = e'.2.1) := by
  unfold DFrame.iamRows
  rw [List.pairwise_flatMap]
  refine ⟨fun i _ => ?_, ?_⟩
  · rw [List.pairwise_map]
    refine h.times.imp fun {a b} hab hs => hab ?_
    have := hs.2
    simpa using this
  · refine List.Pairwise.imp_of_mem ?_ List.nodup_range
    intro i j hi hj hij e he e' he' hs
    obtain ⟨t, -, rfl⟩ := List.mem_map.1 he
    obtain ⟨t', -, rfl⟩ := List.mem_map.1 he'
    exact hij ((h.sameKey (List.mem_range.1 hi) (List.mem_range.1 hj)).1 hs.1)

theorem IamFrame.toIam {clock : Clock} {F : DFrame K} (h : IamFrame clock F) (h0 : F.times ≠ []) :
    F.toIam clock = .ok (iamOf F.iamKeyCols "time" ((F.iamRows.filter iamComplete).map iamOut)) := by
  have hlabn : F.wideTable.labels.Nodup := by
    rw [wide_labels, List.nodup_append]
    refine ⟨h.ok.cols_nodup.map fun a b hh => by cases hh; rfl, h.times.map fun a b hh => by cases hh; rfl, ?_⟩
    rintro a ha b hb rfl
    obtain ⟨s, -, rfl⟩ := List.mem_map.1 ha
    obtain ⟨t, -, hh⟩ := List.mem_map.1 hb
    cases hh
  have hrows : (F.wideTable.rows.flatMap fun r => (F.times.map Label.time).map fun l =>
      (F.iamKeyCols.map fun c => cellOf F.wideTable.labels r (.text c), (labelCell l : PyVal K), cellOf F.wideTable.labels r l))
      = F.iamRows := by
    unfold DFrame.iamRows
    rw [show F.wideTable.rows = (List.range F.data.length).map F.wideRow from rfl, List.flatMap_map]
    refine List.flatMap_congr fun i hi => ?_
    rw [List.map_map]
    refine List.map_congr_left fun t ht => ?_
    have hi' := List.mem_range.1 hi
    show (_, PyVal.time t, _) = _
    simp only [wide_value h.ok hi' ht]
    congr 1
    unfold DFrame.iamKey
    exact List.map_congr_left fun c hc => wide_cell h.ok hi' ((h.keyCols c).1 hc)
  unfold DFrame.toIam
  rw [h.asTable]
  simp only
  unfold iamTable
  simp only [wide_names]
  rw [if_neg (by simpa using h.req), if_neg, if_neg, if_neg, wide_ls, wideTimeCol_time h0]
  · simp only
    rw [show requiredCols ++ F.cols.filter (fun c => c ∉ requiredCols) = F.iamKeyCols from rfl, hrows]
    unfold iamFinish
    rw [if_neg, if_neg, if_neg, mapExcept_map (g := iamOut)]
    · rfl
    · intro e he
      obtain ⟨i, hi, t, ht, rfl⟩ := iamRows_mem (List.mem_filter.1 he).1
      unfold iamRow iamTime iamOut
      simp
    · rintro ⟨-, hm⟩
      unfold iamMixed at hm
      rw [Bool.and_eq_true] at hm
      obtain ⟨e, he, ht⟩ := List.any_eq_true.1 hm.1
      obtain ⟨i, hi, t, -, rfl⟩ := iamRows_mem (List.mem_filter.1 he).1
      cases ht
    · rw [Bool.not_eq_true, iamDuplicates_iff]
      exact h.noDup.filter _
    · rw [Bool.not_eq_true, List.any_eq_false]
      intro e he
      obtain ⟨i, hi, t, ht, rfl⟩ := iamRows_mem he
      simp [cellFloat]
  · rw [Bool.not_eq_true, List.any_eq_false]
    intro c hc
    obtain ⟨-, -, a, b, d⟩ := h.names c hc
    simp only [decide_eq_true_eq]
    rintro ⟨hr, hl | hl | hl⟩
    · rw [h.looks c hc hr] at hl; cases hl
    · exact b hl
    · exact d hl
  · exact fun hc => (h.names _ hc).2.2.1 rfl
  · rw [not_or, not_not]
    exact ⟨hlabn, fun hc => (h.names _ hc).2.1 rfl⟩

theorem iamKey_full {clock : Clock} {F : DFrame K} (h : IamFrame clock F) {i : Nat} :
    ((F.iamKey i).all fun v => !v.isNull) = true ↔ F.Full i := by
  unfold DFrame.iamKey DFrame.Full
  rw [List.all_map, List.all_eq_true]
  have hiv : ∀ v : PyVal K, (indexValue v).isNull = v.isNull := by
    intro v
    unfold indexValue
    split
    · rename_i hv; rw [hv]; rfl
    · rfl
  constructor
  · intro hh c hc
    have := hh c ((h.keyCols c).2 hc)
    simp only [Function.comp, hiv, Bool.not_eq_true'] at this
    rw [← Bool.not_eq_true, isNull_iff, not_or] at this
    exact this
  · intro hh c hc
    have := hh c ((h.keyCols c).1 hc)
    simp only [Function.comp, hiv, Bool.not_eq_true']
    rw [← Bool.not_eq_true, isNull_iff, not_or]
    exact this

theorem IamFrame.keyMeta {clock : Clock} {F : DFrame K} (h : IamFrame clock F) {i : Nat} (hi : i < F.data.length) :
    SameMeta (rowVal F.iamKeyCols (F.iamKey i)) (F.metaAt i) := by
  intro c
  by_cases hc : c ∈ F.cols
  · unfold DFrame.iamKey
    rw [rowVal_map ((h.keyCols c).2 hc)]
    exact sameValue_index _
  · obtain ⟨a1, -, a3⟩ := meta_getD h.ok hi
    rw [rowVal_absent (by simp [DFrame.iamKey]) (fun hm => hc ((h.keyCols c).1 hm)), a3, rowVal_absent a1 hc]
    exact .equal _

/-- The complete rows are those of the numbers of timeseries with all metadata. -/
theorem IamFrame.entry {clock : Clock} {F : DFrame K} (h : IamFrame clock F) {r : List (PyVal K)} {m : String → PyVal K}
    {t : Int} {x : K} :
    (iamOf F.iamKeyCols "time" ((F.iamRows.filter iamComplete).map iamOut)).Entry r m t x ↔
      ∃ i < F.data.length, F.Full i ∧ SameMeta m (F.metaAt i) ∧ F.valueAt i t = some x ∧
        r = F.iamKey i ++ [.time t, .flt (.num x)] := by
  have hlen : ∀ i, (F.iamKey i).length = F.iamKeyCols.length := fun i => by simp [DFrame.iamKey]
  have hnull : ∀ i, F.Full i → ∀ a ∈ F.iamKey i, a.isNull = false := by
    intro i hf a ha
    have := List.all_eq_true.1 ((iamKey_full h).2 hf) a ha
    simpa using this
  constructor
  · intro he
    obtain ⟨e, hem, hr⟩ := List.mem_map.1 he.mem
    obtain ⟨he1, he2⟩ := List.mem_filter.1 hem
    obtain ⟨i, hi, t', ht', rfl⟩ := iamRows_mem he1
    unfold iamComplete at he2
    simp only [Bool.and_eq_true] at he2
    have hf := (iamKey_full h).1 he2.1.1
    subst hr
    have h2 := (h.iamCols.entry (hlen i) (hnull i hf) he.mem).1 he
    obtain ⟨k1, k2, k3⟩ := h2
    cases k2
    have hx : F.flAt i t = .num x := by
      have := cellFloat_num.2 k3
      simpa [cellFloat] using this
    refine ⟨i, hi, hf, fun c => (k1 c).trans (h.keyMeta hi c), (value_flAt hi t x).2 hx, ?_⟩
    simp [iamOut, cellFloat, hx]
  · rintro ⟨i, hi, hf, hm, hx, rfl⟩
    have ht : t ∈ F.times := by
      by_contra hn
      rw [valueAt_absent h.ok hn] at hx
      cases hx
    have hx' := (value_flAt hi t x).1 hx
    have hmem : F.iamKey i ++ [.time t, .flt (.num x)] ∈ (F.iamRows.filter iamComplete).map iamOut := by
      refine List.mem_map.2 ⟨(F.iamKey i, .time t, .flt (F.flAt i t)), List.mem_filter.2 ⟨?_, ?_⟩, ?_⟩
      · unfold DFrame.iamRows
        exact List.mem_flatMap.2 ⟨i, List.mem_range.2 hi, List.mem_map.2 ⟨t, ht, rfl⟩⟩
      · unfold iamComplete
        rw [(iamKey_full h).2 hf, hx']
        rfl
      · simp [iamOut, cellFloat, hx']
    exact (h.iamCols.entry (hlen i) (hnull i hf) hmem).2 ⟨fun c => (hm c).trans (h.keyMeta hi c).symm, .time t, .flt x⟩

open Classical in
theorem IamFrame.numbers {clock : Clock} {F : DFrame K} (h : IamFrame clock F) {m : String → PyVal K} {i : Nat}
    (hi : i < F.data.length) (hf : F.Full i) (hm : SameMeta m (F.metaAt i)) (t : Int) :
    average ((iamOf F.iamKeyCols "time" ((F.iamRows.filter iamComplete).map iamOut)).numbers m t) = F.valueAt i t := by
  set I := iamOf F.iamKeyCols "time" ((F.iamRows.filter iamComplete).map iamOut) with hI
  have hinj : ∀ j < F.data.length, SameMeta m (F.metaAt j) → j = i := by
    intro j hj hmj
    refine (h.sameKey hj hi).1 ?_
    unfold DFrame.iamKey
    rw [sameRow_map]
    intro c _
    exact (sameValue_index _).trans (((hmj c).symm.trans (hm c)).trans (sameValue_index _).symm)
  unfold Table.numbers
  cases hv : F.valueAt i t with
  | none =>
    have : (I.rows.filterMap fun r => if hh : ∃ x, I.Entry r m t x then some (Classical.choose hh) else none) = [] := by
      rw [List.filterMap_eq_nil_iff]
      intro r _
      rw [dif_neg]
      rintro ⟨x, hx⟩
      obtain ⟨j, hj, -, hmj, hvj, -⟩ := h.entry.1 hx
      rw [hinj j hj hmj, hv] at hvj
      cases hvj
    rw [this]
    rfl
  | some x =>
    have he : I.Entry (F.iamKey i ++ [.time t, .flt (.num x)]) m t x := h.entry.2 ⟨i, hi, hf, hm, hv, rfl⟩
    have hch : ∀ {r : List (PyVal K)} (hh : ∃ x, I.Entry r m t x), Classical.choose hh = x := by
      intro r hh
      obtain ⟨j, hj, -, hmj, hvj, -⟩ := h.entry.1 (Classical.choose_spec hh)
      rw [hinj j hj hmj, hv] at hvj
      exact (Option.some.inj hvj).symm
    rw [filterMap_one (a := F.iamKey i ++ [.time t, .flt (.num x)]) (b := x) he.mem (by rw [dif_pos ⟨x, he⟩, hch]), average_one]
    show ((F.iamRows.filter iamComplete).map iamOut).Pairwise _
    rw [List.pairwise_map]
    refine (h.noDup.filter _).imp_of_mem ?_
    intro a b ha hb hab hs
    apply hab
    obtain ⟨j, hj, tj, -, rfl⟩ := iamRows_mem (List.mem_filter.1 ha).1
    obtain ⟨k, hk, tk, -, rfl⟩ := iamRows_mem (List.mem_filter.1 hb).1
    have key : ∀ (l : Nat) (tl : Int), (if hh : ∃ x, I.Entry (iamOut (F.iamKey l, .time tl, .flt (F.flAt l tl))) m t x
        then some (Classical.choose hh) else none).isSome = true → l < F.data.length → F.iamKey l = F.iamKey i ∧ tl = t := by
      intro l tl hs hl
      by_cases hh : ∃ x, I.Entry (iamOut (F.iamKey l, .time tl, .flt (F.flAt l tl))) m t x
      · obtain ⟨y, hy⟩ := hh
        obtain ⟨j, hj, -, hmj, -, hee⟩ := h.entry.1 hy
        have hji := hinj j hj hmj
        subst hji
        unfold iamOut at hee
        have := List.append_inj hee (by simp [DFrame.iamKey])
        refine ⟨this.1, ?_⟩
        simpa using (List.cons.inj this.2).1
      · rw [dif_neg hh] at hs
        cases hs
    obtain ⟨e1, e2⟩ := key j tj hs.1 hj
    obtain ⟨e3, e4⟩ := key k tk hs.2 hk
    refine ⟨by simp only [e1, e3]; exact sameRow_refl _, by simp only [e2, e4]⟩

/-- **C87**: a frame given to pyam and read back has the timeseries that have all of their metadata and some number, each
with the same metadata and the same values, and the times at which one of these has a value. Proved for frames whose
metadata have names in lower case other than `notes`, `value`, `year` and `time` and other than names that read as a time,
and whose times lie in the years 1 to 9999; see `C87_case` and `C66_far`. -/
theorem C87_frame_partial {clock : Clock} {F : DFrame K} (h : IamFrame clock F)
    (hx : ∃ i < F.data.length, F.Full i ∧ ∃ t, F.valueAt i t ≠ none) :
    ∃ I R, F.toIam clock = .ok I ∧ fromTable clock I = .ok R ∧ R.Ok ∧ R.times.Pairwise (· < ·) ∧
      (∀ t, t ∈ R.times ↔ ∃ i < F.data.length, F.Full i ∧ F.valueAt i t ≠ none) ∧
      (∀ j < R.data.length, ∃ i < F.data.length, F.Full i ∧ SameMeta (R.metaAt j) (F.metaAt i) ∧
        ∀ t, R.valueAt j t = F.valueAt i t) ∧
      (∀ i < F.data.length, F.Full i → (∃ t, F.valueAt i t ≠ none) →
        ∃ j < R.data.length, SameMeta (R.metaAt j) (F.metaAt i)) ∧
      (∀ i < R.data.length, ∀ j < R.data.length, SameMeta (R.metaAt i) (R.metaAt j) → i = j) := by
  obtain ⟨i0, hi0, hf0, t0, hv0⟩ := hx
  obtain ⟨x0, hx0⟩ := Option.ne_none_iff_exists'.1 hv0
  have ht0 : F.times ≠ [] := by
    rintro he
    rw [valueAt_absent h.ok (by rw [he]; simp)] at hx0
    cases hx0
  set I := iamOf F.iamKeyCols "time" ((F.iamRows.filter iamComplete).map iamOut) with hI
  have hc := h.iamCols
  have hhas := hc.has (rows := (F.iamRows.filter iamComplete).map iamOut)
  rw [← hI] at hhas
  have hrowform : ∀ r ∈ I.rows, ∃ i t v, F.Full i ∧ i < F.data.length ∧ r = F.iamKey i ++ [.time t, .flt v] := by
    intro r hr
    obtain ⟨e, hem, rfl⟩ := List.mem_map.1 hr
    obtain ⟨he1, he2⟩ := List.mem_filter.1 hem
    obtain ⟨i, hi, t', ht', rfl⟩ := iamRows_mem he1
    unfold iamComplete at he2
    simp only [Bool.and_eq_true] at he2
    exact ⟨i, t', F.flAt i t', (iamKey_full h).1 he2.1.1, hi, by simp [iamOut, cellFloat]⟩
  have hlen : ∀ i, (F.iamKey i).length = F.iamKeyCols.length := fun i => by simp [DFrame.iamKey]
  have hrect : I.Rect := by
    intro r hr
    obtain ⟨i, t, v, -, -, rfl⟩ := hrowform r hr
    simp [hI, iamOf, hlen]
  have hcell : ∀ i t v, I.cell (F.iamKey i ++ [.time t, .flt v]) "time" = .time t ∧
      I.cell (F.iamKey i ++ [.time t, .flt v]) "value" = .flt v := fun i t v => (hc.cell (hlen i) _ _).2
  have hentry : ∀ {r m t x}, I.Entry r m t x ↔ _ := h.entry
  have hw : ∃ R, fromTable clock I = .ok R := by
    refine C65_works clock I hrect (fun c hcr => (hhas c).2 (.inl (hc.req c hcr))) ((hhas _).2 (.inr (.inr rfl))) ?_ ?_ ?_ ?_ ?_ ?_
    · rw [hhas, hhas]
      intro hiff
      have := hiff.2 (.inr (.inl rfl))
      rcases this with hm | hm | hm
      · exact hc.plain _ hm (.inr (.inl rfl))
      · revert hm; decide
      · revert hm; decide
    · intro l hl
      obtain ⟨s, -, rfl⟩ := List.mem_map.1 hl
      exact ⟨s, rfl⟩
    · show (([] : List String).map some ++ _).Nodup
      rw [List.map_nil, List.nil_append]
      show (((F.iamKeyCols ++ ["time", "value"]).map Label.text).map colName).Nodup
      rw [hc.all]
      refine List.Nodup.map (Option.some_injective _) ?_
      obtain ⟨-, n2, n3⟩ := hc.tc_ne
      rw [List.nodup_append]
      refine ⟨hc.nodup, by decide, ?_⟩
      rintro a ha b hb rfl
      simp only [List.mem_cons, List.not_mem_nil, or_false] at hb
      rcases hb with rfl | rfl
      · exact n2 ha
      · exact n3 ha
    · intro r hr
      obtain ⟨i, t, v, -, -, rfl⟩ := hrowform r hr
      rw [(hcell i t v).2]
      cases v with
      | nan => exact .inr (.inr rfl)
      | num x => exact .inl ⟨x, .flt x⟩
    · refine .inr fun r hr => ?_
      obtain ⟨i, t, v, -, -, rfl⟩ := hrowform r hr
      exact ⟨t, .inr (hcell i t v).1⟩
    · exact ⟨_, F.metaAt i0, t0, x0, hentry.2 ⟨i0, hi0, hf0, fun c => .equal _, hx0, rfl⟩⟩
  obtain ⟨R, hR⟩ := hw
  obtain ⟨a1, a2, a3, a4, a5, a6, a7⟩ := C65_values clock I hrect ((hhas _).2 (.inr (.inr rfl))) R hR
  refine ⟨I, R, h.toIam ht0, hR, a1, a2, fun t => ?_, fun j hj => ?_, fun i hi hf hv => ?_, a6⟩
  · rw [a3]
    constructor
    · rintro ⟨r, m, x, he⟩
      obtain ⟨i, hi, hf, -, hv, -⟩ := hentry.1 he
      exact ⟨i, hi, hf, by rw [hv]; simp⟩
    · rintro ⟨i, hi, hf, hv⟩
      obtain ⟨x, hx⟩ := Option.ne_none_iff_exists'.1 hv
      exact ⟨_, F.metaAt i, x, hentry.2 ⟨i, hi, hf, fun c => .equal _, hx, rfl⟩⟩
  · obtain ⟨r, t, x, he⟩ := a5 j hj
    obtain ⟨i, hi, hf, hm, -, -⟩ := hentry.1 he
    exact ⟨i, hi, hf, hm, fun t => by rw [a7 j hj t, hI, h.numbers hi hf hm t]⟩
  · obtain ⟨t, hv⟩ := hv
    obtain ⟨x, hx⟩ := Option.ne_none_iff_exists'.1 hv
    obtain ⟨j, hj, hs⟩ := a4 _ (F.metaAt i) t x (hentry.2 ⟨i, hi, hf, fun c => .equal _, hx, rfl⟩)
    exact ⟨j, hj, fun c => (hs c).symm⟩

end Openscm
