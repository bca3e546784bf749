import Verif.FrameTable
import Verif.FilterProps2

/-!
# Frames made from wide tables

What `ScmDataFrame(table)` returns for tables with a column for each time, `openscm/scmdataframe/base.py:180-213`, and what
becomes of `timeseries()` when it is read again.
-/

set_option linter.unusedSectionVars false

namespace Openscm

variable {K : Type} [Field K] [LinearOrder K] [IsStrictOrderedRing K]

/-! ## Specification -/

/-- The time that a column stands for, if its label is no text: years begin on 1 January. -/
def labelTime : Label → Option Int
  | .num y => some (dateTime y 1 1)
  | .time t => some t
  | .text _ => none

/-- What a row has in the column with a label. -/
def Table.at (T : Table K) (r : List (PyVal K)) (l : Label) : PyVal K := r.getD (T.index.length + T.cols.idxOf l) .none

/-! ## Facts -/

theorem yearToSeconds_lt {a b : Int} (h : a < b) : yearToSeconds a < yearToSeconds b := by
  simp only [yearToSeconds, daysBeforeYear]
  omega

theorem idxOf_label {l : Label} (hl : ∀ s, l ≠ .text s) (ls : List Label) : (ls.map Label.lower).idxOf l = ls.idxOf l := by
  induction ls with
  | nil => rfl
  | cons a ls ih =>
    have : (a.lower == l) = (a == l) := by
      cases a with
      | text s =>
        have h1 : (Label.text s).lower ≠ l := fun h => hl _ h.symm
        have h2 : Label.text s ≠ l := fun h => hl _ h.symm
        simp [h1, h2]
      | _ => rfl
    rw [List.map_cons, List.idxOf_cons, List.idxOf_cons, this, ih]

theorem at_eq {T : Table K} {r : List (PyVal K)} {l : Label} (hl : ∀ s, l ≠ .text s) : cellOf T.labels r l = T.at r l := by
  unfold cellOf Table.at Table.labels
  rw [List.idxOf_append_of_notMem, List.length_map, idxOf_label hl]
  intro h
  obtain ⟨s, -, h⟩ := List.mem_map.1 h
  exact hl s h.symm

theorem numLabels {ls : List Label} (h : (ls.filterMap numLabel).length = ls.length) : ls = (ls.filterMap numLabel).map .num := by
  induction ls with
  | nil => rfl
  | cons a ls ih =>
    cases a with
    | num z => simpa [numLabel] using ih (by simpa [numLabel] using h)
    | _ =>
      have := List.length_filterMap_le numLabel ls
      rw [List.filterMap_cons_none rfl, List.length_cons] at h
      omega

theorem timeLabels {ls : List Label} (h : (ls.filterMap timeLabel).length = ls.length) :
    ls = (ls.filterMap timeLabel).map .time := by
  induction ls with
  | nil => rfl
  | cons a ls ih =>
    cases a with
    | time z => simpa [timeLabel] using ih (by simpa [timeLabel] using h)
    | _ =>
      have := List.length_filterMap_le timeLabel ls
      rw [List.filterMap_cons_none rfl, List.length_cons] at h
      omega

theorem textLabels {ls : List Label} (h : (ls.filterMap textOf).length = ls.length) : ls = (ls.filterMap textOf).map .text := by
  induction ls with
  | nil => rfl
  | cons a ls ih =>
    cases a with
    | text z => simpa [textOf] using ih (by simpa [textOf] using h)
    | _ =>
      have := List.length_filterMap_le textOf ls
      rw [List.filterMap_cons_none rfl, List.length_cons] at h
      omega

/-- The order of the labels: a permutation, with the times in order if no label is text. -/
theorem order_facts {clock : Clock} {ls sorted : List Label} {times : List Int} (hn : ls.Nodup)
    (h : orderLabels clock ls = .ok (sorted, times)) :
    sorted.Perm ls ∧ times.length = sorted.length ∧
    ((∀ l ∈ ls, ∀ s, l ≠ .text s) → times.Pairwise (· < ·) ∧ sorted.map labelTime = times.map some) := by
  unfold orderLabels at h
  split at h
  · rename_i hl
    cases h
    have hp := List.perm_insertionSort (· ≤ ·) (ls.filterMap numLabel)
    have e := numLabels hl
    refine ⟨?_, by simp, fun _ => ⟨?_, ?_⟩⟩
    · have := hp.map Label.num
      rwa [← e] at this
    · have hnd : ((ls.filterMap numLabel).insertionSort (· ≤ ·)).Nodup := by
        rw [hp.nodup_iff]
        rw [e] at hn
        exact List.Nodup.of_map _ hn
      rw [List.pairwise_map]
      exact ((List.pairwise_insertionSort (· ≤ ·) _).and hnd).imp fun ⟨a, b⟩ => yearToSeconds_lt (lt_of_le_of_ne a b)
    · rw [List.map_map, List.map_map]
      exact List.map_congr_left fun z _ => congrArg some (yearToSeconds_date z).symm
  split at h
  · rename_i hl
    cases h
    have hp := List.perm_insertionSort (· ≤ ·) (ls.filterMap timeLabel)
    have e := timeLabels hl
    refine ⟨?_, by simp, fun _ => ⟨?_, ?_⟩⟩
    · have := hp.map Label.time
      rwa [← e] at this
    · have hnd : ((ls.filterMap timeLabel).insertionSort (· ≤ ·)).Nodup := by
        rw [hp.nodup_iff]
        rw [e] at hn
        exact List.Nodup.of_map _ hn
      exact ((List.pairwise_insertionSort (· ≤ ·) _).and hnd).imp fun ⟨a, b⟩ => lt_of_le_of_ne a b
    · rw [List.map_map]
      rfl
  split at h
  · rename_i h1 _ hl
    dsimp only at h
    split at h
    · cases h
    · rename_i ts _
      split at h
      · rename_i hts
        cases h
        have hp := List.perm_insertionSort (· ≤ ·) (ls.filterMap textOf)
        have e := textLabels hl
        refine ⟨?_, by simpa using hts, fun hno => ?_⟩
        · have := hp.map Label.text
          rwa [← e] at this
        · exfalso
          cases ls with
          | nil => exact h1 rfl
          | cons a ls =>
            cases a with
            | text s => exact hno _ (List.mem_cons_self ..) s rfl
            | _ =>
              have := List.length_filterMap_le textOf ls
              rw [List.filterMap_cons_none rfl, List.length_cons] at hl
              omega
      · cases h
  · cases h

/-- What a successful construction from a wide table has done. -/
structure WideFacts (clock : Clock) (T : Table K) (R : DFrame K) (sorted : List Label) (cols : List String) : Prop where
  req : ∀ c ∈ requiredCols, T.HasCol c
  some_time : T.labels.filter (isTimeLabel clock) ≠ []
  order : orderLabels clock (T.labels.filter (isTimeLabel clock)) = .ok (sorted, R.times)
  labels : T.labels.Nodup
  nodup : cols.Nodup
  mem : ∀ c, c ∈ cols ↔ T.HasCol c ∧ (c ∈ requiredCols ∨ clock.looks c = false)
  ok : R.Ok
  length : R.data.length = T.rows.length
  vals : ∀ (i : Nat) (r : List (PyVal K)), T.rows[i]? = some r → R.metaAt i = rowVal cols (cols.map fun c => cellOf T.labels r (.text c)) ∧
    ∃ vs, R.data[i]? = some (i, vs) ∧ List.Forall₂ (fun l v => cellFloat (cellOf T.labels r l) = some v) sorted vs

theorem wide_facts {clock : Clock} {T : Table K} (hv : ¬ T.HasCol "value") {R : DFrame K} (h : fromTable clock T = .ok R) :
    ∃ sorted cols, WideFacts clock T R sorted cols := by
  unfold fromTable at h
  split at h
  · cases h
  rename_i hreq
  have hreq : ∀ c ∈ requiredCols, T.HasCol c := fun c hc => mem_labels.1 (not_not.1 hreq c hc)
  rw [if_neg fun h => hv (mem_labels.1 h)] at h
  unfold fromWide at h
  split at h
  · cases h
  rename_i hsome
  split at h
  · cases h
  rename_i hnd
  rw [not_not] at hnd
  split at h
  · cases h
  rename_i sorted times hord
  split at h
  · cases h
  rename_i vals hvals
  rw [mapExcept_ok] at hvals
  have hlen := hvals.length_eq
  obtain ⟨hp, htl, -⟩ := order_facts (hnd.filter _) hord
  have hc1 : (requiredCols ++ extraCols clock T.labels).Nodup := by
    rw [List.nodup_append]
    refine ⟨by decide, ?_, ?_⟩
    · unfold extraCols
      refine List.Nodup.filter _ ?_
      refine List.Nodup.filterMap ?_ hnd
      intro a a' b hb hb'
      cases a <;> simp [textOf] at hb
      cases a' <;> simp [textOf] at hb'
      rw [hb, hb']
    · rintro a ha b hb rfl
      unfold extraCols at hb
      have := (List.mem_filter.1 hb).2
      simp only [decide_eq_true_eq] at this
      exact this.1 ha
  have hc2 : ∀ c, c ∈ requiredCols ++ extraCols clock T.labels ↔ T.HasCol c ∧ (c ∈ requiredCols ∨ clock.looks c = false) := by
    intro c
    unfold extraCols
    rw [List.mem_append, List.mem_filter, textNames_mem, mem_labels]
    simp only [decide_eq_true_eq]
    by_cases hc : c ∈ requiredCols
    · simp [hc, hreq c hc]
    · simp [hc]
  generalize hcols : requiredCols ++ extraCols clock T.labels = cols at *
  cases h
  refine ⟨sorted, cols, hreq, hsome, hord, hnd, hc1, hc2, ?_, ?_, ?_⟩
  · apply DFrame.Ok.sortMeta
    refine ⟨?_, ?_, hc1, ?_, ?_⟩
    · simp only [List.map_map, Function.comp_def]
      rw [show (fun x : List (Fl K) × Nat => x.2) = Prod.snd from rfl, List.zipIdx_map_snd,
        show (fun x : List (PyVal K) × Nat => x.2) = Prod.snd from rfl, List.zipIdx_map_snd, hlen]
    · simp only [List.map_map, Function.comp_def]
      rw [show (fun x : List (Fl K) × Nat => x.2) = Prod.snd from rfl, List.zipIdx_map_snd]
      exact List.nodup_range' ..
    · intro d hd
      obtain ⟨vi, hvi, rfl⟩ := List.mem_map.1 hd
      have hm : vi.1 ∈ vals := by
        have := List.mem_map_of_mem (f := Prod.fst) hvi
        rwa [List.zipIdx_map_fst] at this
      obtain ⟨i, hi, e⟩ := List.getElem_of_mem hm
      have hr := (List.forall₂_iff_get.1 hvals).2 i (by omega) hi
      simp only [List.get_eq_getElem, e] at hr
      unfold rowFloats at hr
      rw [mapExcept_ok] at hr
      show vi.1.length = times.length
      rw [← hr.length_eq, htl]
    · intro d hd
      obtain ⟨ri, -, rfl⟩ := List.mem_map.1 hd
      simp
  · simp [DFrame.sortMeta, hlen]
  · intro i r hr
    have hi : i < T.rows.length := (List.getElem?_eq_some_iff.1 hr).1
    have hmem : ∀ c, c ∈ sortedCols cols ↔ c ∈ cols := fun c =>
      sortedCols_mem fun c hc => (hc2 c).2 ⟨hreq c hc, .inl hc⟩
    constructor
    · rw [metaAt_eq (r := (i, selectCols cols (sortedCols cols) (cols.map fun c => cellOf T.labels r (.text c))))]
      · funext c
        exact rowVal_select (by simp) hmem c
      · simp [DFrame.sortMeta, List.getElem?_zipIdx, hr]
    · have hi' : i < vals.length := by omega
      refine ⟨vals[i], ?_, ?_⟩
      · simp [DFrame.sortMeta, hi']
      · have := (List.forall₂_iff_get.1 hvals).2 i hi hi'
        have e : T.rows[i] = r := (List.getElem?_eq_some_iff.1 hr).2
        simp only [List.get_eq_getElem, e] at this
        unfold rowFloats at this
        rw [mapExcept_ok] at this
        refine this.imp fun l v h => ?_
        split at h
        · rename_i x hx
          cases h
          exact hx
        · cases h

theorem WideFacts.value {clock : Clock} {T : Table K} {R : DFrame K} {sorted : List Label} {cols : List String}
    (hf : WideFacts clock T R sorted cols) {i : Nat} {r : List (PyVal K)} (hr : T.rows[i]? = some r) (hn : R.times.Nodup)
    {k : Nat} {l : Label} {t : Int} (hl : sorted[k]? = some l) (ht : R.times[k]? = some t) (x : K) :
    R.valueAt i t = some x ↔ IsNumber (cellOf T.labels r l) x := by
  obtain ⟨-, vs, hd, hall⟩ := hf.vals i r hr
  obtain ⟨hk, rfl⟩ := List.getElem?_eq_some_iff.1 ht
  obtain ⟨hk', rfl⟩ := List.getElem?_eq_some_iff.1 hl
  have hk2 : k < vs.length := by rw [← hall.length_eq]; exact hk'
  have hcell := (List.forall₂_iff_get.1 hall).2 k hk' hk2
  simp only [List.get_eq_getElem] at hcell
  rw [valueAt_eq, hd]
  simp only [Option.bind_some, atTime]
  rw [hn.idxOf_getElem k hk, List.getD_eq_getElem?_getD, List.getElem?_eq_getElem hk2, Option.getD_some, ← cellFloat_num, hcell]
  cases vs[k] <;> simp [numOf]

/-! ## Frames from wide tables -/

/-- A frame made from a table without a column `value`, none of whose text labels counts as a time, has one timeseries for
each row, with the metadata of the row, the times of the columns in order, and the numbers of the row. -/
theorem C66_values (clock : Clock) (T : Table K) (hT : T.Rect) (hv : ¬ T.HasCol "value")
    (hc : ∀ c, T.HasCol c → c ∉ requiredCols → clock.looks c = false) (R : DFrame K) (h : fromTable clock T = .ok R) :
    R.Ok ∧ R.data.length = T.rows.length ∧ R.times.Pairwise (· < ·) ∧ R.times ≠ [] ∧
    (∀ t, t ∈ R.times ↔ ∃ l ∈ T.cols, labelTime l = some t) ∧
    ∀ (i : Nat) (r : List (PyVal K)), T.rows[i]? = some r → R.metaAt i = T.cell r ∧
      ∀ l ∈ T.cols, ∀ t, labelTime l = some t → ∀ x, R.valueAt i t = some x ↔ IsNumber (T.at r l) x := by
  obtain ⟨sorted, cols, hf⟩ := wide_facts hv h
  have hno : ∀ l ∈ T.labels.filter (isTimeLabel clock), ∀ s, l ≠ .text s := by
    rintro l hl s rfl
    obtain ⟨h1, h2⟩ := List.mem_filter.1 hl
    simp only [isTimeLabel, Bool.and_eq_true, decide_eq_true_eq] at h2
    rw [hc s (mem_labels.1 h1) h2.1] at h2
    cases h2.2
  obtain ⟨hp, hlen, hs⟩ := order_facts (hf.labels.filter _) hf.order
  obtain ⟨hs1, hs2⟩ := hs hno
  have hmem : ∀ l, (∀ s, l ≠ .text s) → (l ∈ sorted ↔ l ∈ T.cols) := by
    intro l hl
    rw [hp.mem_iff, List.mem_filter]
    unfold Table.labels
    rw [List.mem_append, List.mem_map, List.mem_map]
    constructor
    · rintro ⟨⟨s, -, h⟩ | ⟨l', hl', h⟩, -⟩
      · exact absurd h.symm (hl s)
      · cases l' with
        | text s => exact absurd h.symm (hl _)
        | _ => exact h ▸ hl'
    · intro h
      refine ⟨.inr ⟨l, h, ?_⟩, ?_⟩
      · cases l with
        | text s => exact absurd rfl (hl s)
        | _ => rfl
      · cases l with
        | text s => exact absurd rfl (hl s)
        | _ => rfl
  have htext : ∀ l t, labelTime l = some t → ∀ s, l ≠ .text s := by
    rintro l t h s rfl
    cases h
  refine ⟨hf.ok, hf.length, hs1, ?_, ?_, ?_⟩
  · intro h0
    rw [h0] at hlen
    have : sorted = [] := List.eq_nil_of_length_eq_zero hlen.symm
    rw [this] at hp
    exact hf.some_time hp.nil_eq.symm
  · intro t
    have : t ∈ R.times ↔ some t ∈ sorted.map labelTime := by rw [hs2]; simp
    rw [this, List.mem_map]
    constructor
    · rintro ⟨l, hl, h⟩
      exact ⟨l, (hmem l (htext l t h)).1 hl, h⟩
    · rintro ⟨l, hl, h⟩
      exact ⟨l, (hmem l (htext l t h)).2 hl, h⟩
  · intro i r hr
    have hrl := hT r (List.mem_of_getElem? hr)
    constructor
    · rw [(hf.vals i r hr).1]
      funext c
      by_cases hcc : c ∈ cols
      · rw [rowVal_map hcc, cell_eq hrl]
      · rw [rowVal_absent (by simp) hcc, cell_absent]
        intro hh
        refine hcc ((hf.mem c).2 ⟨hh, ?_⟩)
        by_cases hq : c ∈ requiredCols
        · exact .inl hq
        · exact .inr (hc c hh hq)
    · intro l hl t ht x
      have hl' := (hmem l (htext l t ht)).2 hl
      obtain ⟨k, hk, rfl⟩ := List.getElem_of_mem hl'
      have h1 : R.times[k]? = some t := by
        have := congrArg (·[k]?) hs2
        simp only [List.getElem?_map, List.getElem?_eq_getElem hk, Option.map_some, ht] at this
        cases h2 : R.times[k]? with
        | none => rw [h2] at this; cases this
        | some t' => rw [h2] at this; cases this; rfl
      rw [hf.value hr (hs1.imp fun h => ne_of_lt h) (List.getElem?_eq_getElem hk) h1, at_eq (htext _ t ht)]

/-- If the labels of all columns with times are text, then the frame has the times read from these texts, taken in the
order of the texts, and the numbers of the rows. -/
theorem C66_text (clock : Clock) (T : Table K) (hT : T.Rect) (hv : ¬ T.HasCol "value") (hc : ∀ l ∈ T.cols, ∃ s, l = .text s)
    (R : DFrame K) (h : fromTable clock T = .ok R) :
    ∃ names : List String, names.Pairwise (· < ·) ∧ names ≠ [] ∧
      (∀ c, c ∈ names ↔ T.HasCol c ∧ c ∉ requiredCols ∧ clock.looks c = true) ∧ clock.read names = .ok R.times ∧
      R.times.length = names.length ∧ R.data.length = T.rows.length ∧
      ∀ (i : Nat) (r : List (PyVal K)), T.rows[i]? = some r → (∀ c, c ∉ names → R.metaAt i c = T.cell r c) ∧
        (R.times.Nodup → ∀ (k : Nat) (c : String) (t : Int), names[k]? = some c → R.times[k]? = some t →
          ∀ x, R.valueAt i t = some x ↔ IsNumber (T.cell r c) x) := by
  obtain ⟨sorted, cols, hf⟩ := wide_facts hv h
  have hall : ∀ l ∈ T.labels.filter (isTimeLabel clock), ∃ s, l = .text s := by
    intro l hl
    have := (List.mem_filter.1 hl).1
    unfold Table.labels at this
    rcases List.mem_append.1 this with h | h
    · obtain ⟨s, -, h⟩ := List.mem_map.1 h
      exact ⟨s, h.symm⟩
    · obtain ⟨l', h', h⟩ := List.mem_map.1 h
      obtain ⟨s, rfl⟩ := hc l' h'
      exact ⟨_, h.symm⟩
  have hmem : ∀ c, Label.text c ∈ T.labels.filter (isTimeLabel clock) ↔ T.HasCol c ∧ c ∉ requiredCols ∧ clock.looks c = true := by
    intro c
    rw [List.mem_filter, mem_labels]
    simp [isTimeLabel]
  have ho := hf.order
  have hnd := hf.labels.filter (isTimeLabel clock)
  have hsome := hf.some_time
  generalize T.labels.filter (isTimeLabel clock) = ls at *
  have hlen : ∀ f : Label → Option Int, (∀ s, f (.text s) = none) → (ls.filterMap f).length ≠ ls.length := by
    intro f hf h
    have : ls.filterMap f = [] := by
      rw [List.filterMap_eq_nil_iff]
      intro l hl
      obtain ⟨s, rfl⟩ := hall l hl
      exact hf s
    rw [this] at h
    exact hsome (List.eq_nil_of_length_eq_zero h.symm)
  unfold orderLabels at ho
  rw [if_neg (hlen _ fun _ => rfl), if_neg (hlen _ fun _ => rfl)] at ho
  split at ho
  · rename_i hl
    have e := textLabels hl
    dsimp only at ho
    split at ho
    · cases ho
    rename_i ts hread
    split at ho
    · rename_i hts
      cases ho
      have hp := List.perm_insertionSort (· ≤ ·) (ls.filterMap textOf)
      have hndn : (ls.filterMap textOf).Nodup := by
        rw [e] at hnd
        exact List.Nodup.of_map _ hnd
      have hnames : ∀ c, c ∈ (ls.filterMap textOf).insertionSort (· ≤ ·) ↔ T.HasCol c ∧ c ∉ requiredCols ∧ clock.looks c = true := by
        intro c
        rw [List.mem_insertionSort, textNames_mem, hmem]
      refine ⟨(ls.filterMap textOf).insertionSort (· ≤ ·), ?_, ?_, hnames, hread, hts, hf.length, ?_⟩
      · exact ((List.pairwise_insertionSort (· ≤ ·) _).and (hp.nodup_iff.2 hndn)).imp fun ⟨a, b⟩ => lt_of_le_of_ne a b
      · intro h0
        rw [h0] at hp
        rw [hp.nil_eq.symm] at e
        exact hsome e
      · intro i r hr
        have hrl := hT r (List.mem_of_getElem? hr)
        constructor
        · intro c hcn
          rw [(hf.vals i r hr).1]
          by_cases hcc : c ∈ cols
          · rw [rowVal_map hcc, cell_eq hrl]
          · rw [rowVal_absent (by simp) hcc, cell_absent]
            intro hh
            refine hcc ((hf.mem c).2 ⟨hh, ?_⟩)
            by_cases hq : c ∈ requiredCols
            · exact .inl hq
            · cases hlk : clock.looks c with
              | true => exact absurd ((hnames c).2 ⟨hh, hq, hlk⟩) hcn
              | false => exact .inr rfl
        · intro hn k c t hk ht x
          rw [hf.value hr hn (l := .text c) (by rw [List.getElem?_map, hk]; rfl) ht, cell_eq hrl]
    · cases ho
  · cases ho

/-- Tables without a column `value` raise `ValueError` if no column counts as a time: none with a number or a datetime as
label, and no text that reads as one. They raise `TypeError` if these labels are of different kinds. -/
theorem C66_refused (clock : Clock) (T : Table K) (hv : ¬ T.HasCol "value") :
    ((∀ c, T.HasCol c → c ∉ requiredCols → clock.looks c = false) → (∀ l ∈ T.cols, labelTime l = none) →
      fromTable clock T = .error .valueError) ∧
    ((∀ c ∈ requiredCols, T.HasCol c) → T.labels.Nodup → (∃ y, Label.num y ∈ T.cols) → (∃ t, Label.time t ∈ T.cols) →
      fromTable clock T = .error .typeError) ∧
    ((∀ c ∈ requiredCols, T.HasCol c) → T.labels.Nodup → (∃ l ∈ T.cols, labelTime l ≠ none) →
      (∃ c, T.HasCol c ∧ c ∉ requiredCols ∧ clock.looks c = true) → fromTable clock T = .error .typeError) := by
  have hin : ∀ l ∈ T.cols, labelTime l ≠ none → l ∈ T.labels.filter (isTimeLabel clock) := by
    intro l hl h
    rw [List.mem_filter]
    cases l with
    | text s => exact absurd rfl h
    | _ => exact ⟨List.mem_append_right _ (List.mem_map.2 ⟨_, hl, rfl⟩), rfl⟩
  have htext : ∀ c, T.HasCol c → c ∉ requiredCols → clock.looks c = true → Label.text c ∈ T.labels.filter (isTimeLabel clock) := by
    intro c h1 h2 h3
    rw [List.mem_filter, mem_labels]
    simp [isTimeLabel, h1, h2, h3]
  have hmiss : ∀ {f : Label → Option String} {ls : List Label} {l : Label}, l ∈ ls → f l = none →
      (ls.filterMap f).length ≠ ls.length := by
    intro f ls l hl h0 h
    rw [List.length_filterMap_eq_countP, List.countP_eq_length] at h
    have := h l hl
    rw [h0] at this
    cases this
  have hmiss' : ∀ {f : Label → Option Int} {ls : List Label} {l : Label}, l ∈ ls → f l = none →
      (ls.filterMap f).length ≠ ls.length := by
    intro f ls l hl h0 h
    rw [List.length_filterMap_eq_countP, List.countP_eq_length] at h
    have := h l hl
    rw [h0] at this
    cases this
  refine ⟨fun hc hl => ?_, fun hr hn => ?_, fun hr hn => ?_⟩
  · unfold fromTable
    split
    · rfl
    rw [if_neg fun h => hv (mem_labels.1 h), fromWide, if_pos]
    rw [List.filter_eq_nil_iff]
    intro l hl' hh
    cases l with
    | text s =>
      simp only [isTimeLabel, Bool.and_eq_true, decide_eq_true_eq] at hh
      rw [hc s (mem_labels.1 hl') hh.1] at hh
      cases hh.2
    | num y =>
      rcases List.mem_append.1 hl' with h | h
      · obtain ⟨s, -, h⟩ := List.mem_map.1 h
        cases h
      · obtain ⟨l', h', h⟩ := List.mem_map.1 h
        cases l' <;> cases h
        cases hl _ h'
    | time y =>
      rcases List.mem_append.1 hl' with h | h
      · obtain ⟨s, -, h⟩ := List.mem_map.1 h
        cases h
      · obtain ⟨l', h', h⟩ := List.mem_map.1 h
        cases l' <;> cases h
        cases hl _ h'
  · rintro ⟨y, hy⟩ ⟨t, ht⟩
    have h1 := hin _ hy (by simp [labelTime])
    have h2 := hin _ ht (by simp [labelTime])
    unfold fromTable
    rw [if_neg (not_not.2 fun c hc => mem_labels.2 (hr c hc)), if_neg fun h => hv (mem_labels.1 h), fromWide,
      if_neg (List.ne_nil_of_mem h1), if_neg (not_not.2 hn), orderLabels, if_neg (hmiss' h2 rfl), if_neg (hmiss' h1 rfl),
      if_neg (hmiss h1 rfl)]
  · rintro ⟨l, hl, h0⟩ ⟨c, hc1, hc2, hc3⟩
    have h1 := hin _ hl h0
    have h2 := htext c hc1 hc2 hc3
    unfold fromTable
    rw [if_neg (not_not.2 fun c hc => mem_labels.2 (hr c hc)), if_neg fun h => hv (mem_labels.1 h), fromWide,
      if_neg (List.ne_nil_of_mem h1), if_neg (not_not.2 hn), orderLabels, if_neg (hmiss' h2 rfl), if_neg (hmiss' h2 rfl),
      if_neg (hmiss h1 (by cases l <;> first | rfl | exact absurd rfl h0))]

theorem mapExcept_all {α β : Type} {f : α → Except Err β} {l : List α} (h : ∀ a ∈ l, ∃ b, f a = .ok b) : ∃ r, mapExcept f l = .ok r := by
  induction l with
  | nil => exact ⟨[], rfl⟩
  | cons a l ih =>
    obtain ⟨b, hb⟩ := h a (List.mem_cons_self ..)
    obtain ⟨r, hr⟩ := ih fun a ha => h a (List.mem_cons_of_mem _ ha)
    exact ⟨b :: r, by simp [mapExcept, hb, hr]⟩

/-- Tables with the required columns, without `value` and other text that reads as a time, and with columns for at least one
time, whose labels are all numbers or all datetimes, no two columns of the same name, and numbers or missing values in the
columns for the times, are accepted. -/
theorem C66_works (clock : Clock) (T : Table K) (hr : ∀ c ∈ requiredCols, T.HasCol c) (hv : ¬ T.HasCol "value")
    (hc : ∀ c, T.HasCol c → c ∉ requiredCols → clock.looks c = false)
    (hn : (T.index.map Label.text ++ T.cols.map Label.lower).Nodup)
    (hl : (∀ t, Label.time t ∉ T.cols) ∨ ∀ y, Label.num y ∉ T.cols) (hs : ∃ l ∈ T.cols, labelTime l ≠ none)
    (hx : ∀ r ∈ T.rows, ∀ l ∈ T.cols, labelTime l ≠ none →
      (∃ x, IsNumber (T.at r l) x) ∨ T.at r l = .none ∨ T.at r l = .flt .nan) :
    ∃ R, fromTable clock T = .ok R := by
  have hmem : ∀ l, l ∈ T.labels.filter (isTimeLabel clock) ↔ l ∈ T.cols ∧ labelTime l ≠ none := by
    intro l
    rw [List.mem_filter]
    constructor
    · rintro ⟨h1, h2⟩
      cases l with
      | text s =>
        simp only [isTimeLabel, Bool.and_eq_true, decide_eq_true_eq] at h2
        rw [hc s (mem_labels.1 h1) h2.1] at h2
        cases h2.2
      | num y =>
        rcases List.mem_append.1 h1 with h | h
        · obtain ⟨s, -, h⟩ := List.mem_map.1 h
          cases h
        · obtain ⟨l', h', h⟩ := List.mem_map.1 h
          cases l' <;> cases h
          exact ⟨h', by simp [labelTime]⟩
      | time y =>
        rcases List.mem_append.1 h1 with h | h
        · obtain ⟨s, -, h⟩ := List.mem_map.1 h
          cases h
        · obtain ⟨l', h', h⟩ := List.mem_map.1 h
          cases l' <;> cases h
          exact ⟨h', by simp [labelTime]⟩
    · rintro ⟨h1, h2⟩
      cases l with
      | text s => exact absurd rfl h2
      | _ => exact ⟨List.mem_append_right _ (List.mem_map.2 ⟨_, h1, rfl⟩), rfl⟩
  have hord : ∃ st, orderLabels clock (T.labels.filter (isTimeLabel clock)) = .ok st := by
    generalize T.labels.filter (isTimeLabel clock) = ls at *
    unfold orderLabels
    rcases hl with hl | hl
    · rw [if_pos]
      · exact ⟨_, rfl⟩
      · rw [List.length_filterMap_eq_countP, List.countP_eq_length]
        intro l h
        obtain ⟨h1, h2⟩ := (hmem l).1 h
        cases l with
        | num y => rfl
        | time t => exact absurd h1 (hl t)
        | text s => exact absurd rfl h2
    · split
      · exact ⟨_, rfl⟩
      rw [if_pos]
      · exact ⟨_, rfl⟩
      · rw [List.length_filterMap_eq_countP, List.countP_eq_length]
        intro l h
        obtain ⟨h1, h2⟩ := (hmem l).1 h
        cases l with
        | num y => exact absurd h1 (hl y)
        | time t => rfl
        | text s => exact absurd rfl h2
  obtain ⟨⟨sorted, times⟩, hord⟩ := hord
  have hn' : T.labels.Nodup := hn
  obtain ⟨hp, -, -⟩ := order_facts (hn'.filter _) hord
  obtain ⟨l, hl1, hl2⟩ := hs
  have hvals : ∃ vals, mapExcept (rowFloats T.labels sorted) T.rows = .ok vals := by
    refine mapExcept_all fun r hr => mapExcept_all fun l hl => ?_
    rw [hp.mem_iff, hmem] at hl
    have h := hx r hr l hl.1 hl.2
    rw [at_eq (by rintro s rfl; exact hl.2 rfl)]
    rcases h with ⟨x, h⟩ | h | h
    · rw [cellFloat_num.2 h]
      exact ⟨_, rfl⟩
    · rw [h]
      exact ⟨_, rfl⟩
    · rw [h]
      exact ⟨_, rfl⟩
  obtain ⟨vals, hvals⟩ := hvals
  unfold fromTable
  rw [if_neg (not_not.2 fun c hc => mem_labels.2 (hr c hc)), if_neg fun h => hv (mem_labels.1 h), fromWide,
    if_neg (List.ne_nil_of_mem ((hmem l).2 ⟨hl1, hl2⟩)), if_neg (not_not.2 hn'), hord]
  simp only [hvals]
  exact ⟨_, rfl⟩

/-! ## Round trip -/

theorem sameValue_index (v : PyVal K) : SameValue (indexValue v) v := by
  unfold indexValue
  split
  · rename_i h
    exact .missing (.inr rfl) (isNull_iff.1 h)
  · exact .equal v

/-- A frame written as a table by `timeseries()` and read again has the same values and the same metadata, timeseries by
timeseries, and its times in order. Proved for frames without metadata called `value` or by a name that reads as a time,
and with times in the years 1 to 9999. -/
theorem C66_round_trip_partial (clock : Clock) (F : DFrame K) (hF : F.Ok) (hd : DistinctMeta F)
    (hr : ∀ c ∈ requiredCols, c ∈ F.cols) (hv : "value" ∉ F.cols) (hc : ∀ c ∈ F.cols, c ∉ requiredCols → clock.looks c = false)
    (hn : F.times.Nodup) (h0 : F.times ≠ []) (ht : ∀ t ∈ F.times, dateTime 1 1 1 ≤ t ∧ t < dateTime 10000 1 1) :
    ∃ T R, F.asTable = .ok T ∧ fromTable clock T = .ok R ∧ R.Ok ∧ R.times.Pairwise (· < ·) ∧ R.times.Perm F.times ∧
      R.data.length = F.data.length ∧
      ∀ i < F.data.length, SameMeta (R.metaAt i) (F.metaAt i) ∧ ∀ t, R.valueAt i t = F.valueAt i t := by
  have hml : F.meta.length = F.data.length := by
    have := congrArg List.length hF.labels
    simpa using this.symm
  have hlab : F.times.map timeToLabel = F.times.map Label.time := by
    refine List.map_congr_left fun t h => ?_
    unfold timeToLabel
    rw [if_pos]
    unfold datetimeRange
    rw [yearToSeconds_date, yearToSeconds_date]
    simpa using ht t h
  have hts : F.timeseries = .ok ((F.meta.zip F.data).map fun rd => (rd.1.2, rd.2.2)) := by
    unfold DFrame.timeseries
    rw [if_neg]
    rw [Bool.not_eq_true]
    exact hasDuplicates_iff.2 hd
  have has : F.asTable = .ok { index := F.cols, cols := F.times.map Label.time, rows := (F.meta.zip F.data).map fun rd => rd.1.2.map indexValue ++ rd.2.2.map PyVal.flt } := by
    unfold DFrame.asTable
    rw [hts, hlab]
    simp [Function.comp_def]
  generalize hTd : ({ index := F.cols, cols := F.times.map Label.time, rows := (F.meta.zip F.data).map fun rd => rd.1.2.map indexValue ++ rd.2.2.map PyVal.flt } : Table K) = T at has
  have hTi : T.index = F.cols := by rw [← hTd]
  have hTc : T.cols = F.times.map Label.time := by rw [← hTd]
  have hTr : T.rows = (F.meta.zip F.data).map fun rd => rd.1.2.map indexValue ++ rd.2.2.map PyVal.flt := by rw [← hTd]
  have hhas : ∀ c, T.HasCol c ↔ c ∈ F.cols := by
    intro c
    unfold Table.HasCol
    rw [hTi, hTc]
    simp [Function.comp_def, colName]
  have hrow : ∀ i (hi : i < F.data.length), T.rows[i]? =
      some ((F.meta[i]'(by omega)).2.map indexValue ++ F.data[i].2.map PyVal.flt) := by
    intro i hi
    rw [hTr, List.getElem?_map, List.getElem?_eq_getElem (by simp; omega)]
    simp
  have hlen : T.rows.length = F.data.length := by
    rw [hTr]
    simp [hml]
  have hrows : ∀ r ∈ T.rows, ∃ i, ∃ hi : i < F.data.length, r = (F.meta[i]'(by omega)).2.map indexValue ++ F.data[i].2.map PyVal.flt := by
    intro r h
    obtain ⟨i, hi, e⟩ := List.getElem_of_mem h
    refine ⟨i, by omega, ?_⟩
    have := hrow i (by omega)
    rw [List.getElem?_eq_getElem hi, e] at this
    exact Option.some.inj this
  have hmlen : ∀ i (hi : i < F.data.length), (F.meta[i]'(by omega)).2.length = F.cols.length := fun i hi =>
    hF.meta_len _ (List.getElem_mem _)
  have hdlen : ∀ i (hi : i < F.data.length), F.data[i].2.length = F.times.length := fun i hi =>
    hF.data_len _ (List.getElem_mem _)
  have hrect : T.Rect := by
    intro r h
    obtain ⟨i, hi, rfl⟩ := hrows r h
    rw [hTi, hTc]
    simp [hmlen i hi, hdlen i hi]
  have hidx : ∀ t, (F.times.map Label.time).idxOf (.time t) = F.times.idxOf t := by
    intro t
    induction F.times with
    | nil => rfl
    | cons a l ih => simp [List.idxOf_cons, ih, beq_eq_decide]
  have hat : ∀ i (hi : i < F.data.length) t, t ∈ F.times →
      T.at ((F.meta[i]'(by omega)).2.map indexValue ++ F.data[i].2.map PyVal.flt) (.time t) =
        .flt (F.data[i].2.getD (F.times.idxOf t) .nan) := by
    intro i hi t ht
    have h1 := List.idxOf_lt_length_of_mem ht
    unfold Table.at
    rw [hTi, hTc, hidx, List.getD_eq_getElem?_getD, List.getElem?_append_right (by simp [hmlen i hi])]
    rw [List.length_map, hmlen i hi, Nat.add_sub_cancel_left, List.getElem?_map, List.getElem?_eq_getElem (by rw [hdlen i hi]; exact h1)]
    rw [List.getD_eq_getElem?_getD, List.getElem?_eq_getElem (by rw [hdlen i hi]; exact h1)]
    rfl
  have hv' : ¬ T.HasCol "value" := fun h => hv ((hhas _).1 h)
  have hc' : ∀ c, T.HasCol c → c ∉ requiredCols → clock.looks c = false := fun c h => hc c ((hhas c).1 h)
  have hw : ∃ R, fromTable clock T = .ok R := by
    refine C66_works clock T (fun c h => (hhas c).2 (hr c h)) hv' hc' ?_ (.inr ?_) ?_ ?_
    · rw [hTi, hTc, List.map_map]
      rw [List.nodup_append]
      refine ⟨hF.cols_nodup.map fun a b h => by cases h; rfl, hn.map fun a b h => by cases h; rfl, ?_⟩
      rintro a ha b hb rfl
      obtain ⟨s, -, rfl⟩ := List.mem_map.1 ha
      obtain ⟨t, -, h⟩ := List.mem_map.1 hb
      cases h
    · intro y h
      rw [hTc] at h
      obtain ⟨t, -, h⟩ := List.mem_map.1 h
      cases h
    · obtain ⟨t, h⟩ := List.exists_mem_of_ne_nil _ h0
      exact ⟨.time t, by rw [hTc]; exact List.mem_map_of_mem h, by simp [labelTime]⟩
    · intro r hr l hl _
      obtain ⟨i, hi, rfl⟩ := hrows r hr
      rw [hTc] at hl
      obtain ⟨t, ht, rfl⟩ := List.mem_map.1 hl
      rw [hat i hi t ht]
      cases F.data[i].2.getD (F.times.idxOf t) .nan with
      | nan => exact .inr (.inr rfl)
      | num x => exact .inl ⟨x, .flt x⟩
  obtain ⟨R, hR⟩ := hw
  obtain ⟨a1, a2, a3, -, a5, a6⟩ := C66_values clock T hrect hv' hc' R hR
  have hmemt : ∀ t, t ∈ R.times ↔ t ∈ F.times := by
    intro t
    rw [a5, hTc]
    constructor
    · rintro ⟨l, hl, h⟩
      obtain ⟨t', ht', rfl⟩ := List.mem_map.1 hl
      cases h
      exact ht'
    · exact fun h => ⟨.time t, List.mem_map_of_mem h, rfl⟩
  refine ⟨T, R, has, hR, a1, a3, ?_, by omega, fun i hi => ?_⟩
  · exact (List.perm_ext_iff_of_nodup (a3.imp fun h => ne_of_lt h) hn).2 hmemt
  · obtain ⟨b1, b2⟩ := a6 i _ (hrow i hi)
    constructor
    · rw [b1, metaAt_eq (List.getElem?_eq_getElem (by omega : i < F.meta.length))]
      intro c
      by_cases hcc : c ∈ F.cols
      · unfold Table.cell rowVal
        have h1 := List.idxOf_lt_length_of_mem hcc
        rw [hTi, if_pos hcc, List.getD_eq_getElem?_getD, List.getElem?_append_left (by simpa [hmlen i hi] using h1),
          List.getElem?_map, List.getD_eq_getElem?_getD, List.getElem?_eq_getElem (by rw [hmlen i hi]; exact h1)]
        exact sameValue_index _
      · rw [cell_absent fun h => hcc ((hhas c).1 h), rowVal_absent (hmlen i hi) hcc]
        exact .equal _
    · intro t
      by_cases htt : t ∈ F.times
      · have h2 := b2 (.time t) (by rw [hTc]; exact List.mem_map_of_mem htt) t rfl
        rw [hat i hi t htt] at h2
        have h3 : F.valueAt i t = numOf (F.data[i].2.getD (F.times.idxOf t) .nan) := by
          rw [valueAt_eq, List.getElem?_eq_getElem hi]
          rfl
        rw [h3]
        generalize F.data[i].2.getD (F.times.idxOf t) .nan = v at *
        apply Option.ext
        intro x
        rw [h2, ← cellFloat_num]
        cases v <;> simp [cellFloat, numOf]
      · rw [valueAt_absent a1 fun h => htt ((hmemt t).1 h), valueAt_absent hF htt]

/-! ## Cases and witnesses -/

/-- A wide table with two index levels, capital letters, and years that are not in order. -/
def wideT : Table ℚ :=
  { index := ["model", "Run"]
    cols := [.text "scenario", .text "Region", .text "variable", .num 2010, .text "unit", .num 2005]
    rows := [
      [.str "m", .int 1, .str "s", .str "World", .str "v", .flt (.num 2), .str "K", .int 3],
      [.str "m", .int 2, .str "s", .str "World", .str "v", .flt .nan, .str "K", .flt (.num 4)]] }

def wideR : DFrame ℚ :=
  { times := [dateTime 2005 1 1, dateTime 2010 1 1]
    cols := ["model", "scenario", "region", "variable", "unit", "Run"]
    data := [(0, [.num 3, .num 2]), (1, [.num 4, .nan])]
    «meta» := [(0, [.str "m", .str "s", .str "World", .str "v", .str "K", .int 1]),
      (1, [.str "m", .str "s", .str "World", .str "v", .str "K", .int 2])] }

/-- Reads nothing as a time. -/
def noClock : Clock := { looks := fun _ => false, read := fun _ => .error .valueError }

theorem wideT_result : fromTable noClock wideT = .ok wideR := by decide +kernel

/-- `C66_values` applies. -/
example : wideT.Rect ∧ ¬ wideT.HasCol "value" ∧ (∀ c, wideT.HasCol c → c ∉ requiredCols → noClock.looks c = false) ∧
    fromTable noClock wideT = .ok wideR := by
  refine ⟨by unfold Table.Rect; decide +kernel, by unfold Table.HasCol; decide +kernel, fun _ _ _ => rfl, wideT_result⟩

/-- The hypotheses of `C66_works` hold. -/
example : ∃ R, fromTable noClock wideT = .ok R := by
  refine C66_works noClock wideT (by unfold Table.HasCol; decide +kernel) (by unfold Table.HasCol; decide +kernel)
    (fun _ _ _ => rfl) (by decide +kernel) (.inl ?_) ⟨.num 2010, by decide +kernel⟩ ?_
  · intro t h
    simp [wideT] at h
  · have : ∀ r ∈ wideT.rows, ∀ l ∈ wideT.cols, labelTime l ≠ none → (cellFloat (wideT.at r l)).isSome := by decide +kernel
    intro r hr l hl h0
    have h := this r hr l hl h0
    cases hc : wideT.at r l with
    | int z => exact .inl ⟨_, .int z⟩
    | flt x =>
      cases x with
      | nan => exact .inr (.inr rfl)
      | num x => exact .inl ⟨_, .flt x⟩
    | none => exact .inr (.inl rfl)
    | _ => rw [hc] at h; cases h

/-- A clock that knows two dates with the month first. -/
def usClock : Clock :=
  { looks := fun s => s ∈ ["1/1/2010", "2/1/2005"]
    read := fun l => if l = ["1/1/2010", "2/1/2005"] then .ok [dateTime 2010 1 1, dateTime 2005 2 1] else .error .valueError }

def usT : Table ℚ :=
  { index := []
    cols := [.text "model", .text "scenario", .text "region", .text "variable", .text "unit", .text "2/1/2005", .text "1/1/2010"]
    rows := [[.str "m", .str "s", .str "World", .str "v", .str "K", .int 1, .int 2]] }

/-- Columns whose labels are text are put in the order of the text, which need not be that of the times: here the times of
the frame decrease. -/
theorem C66_unsorted : ∃ R, fromTable usClock usT = .ok R ∧ R.times = [dateTime 2010 1 1, dateTime 2005 2 1] ∧
    ¬ R.times.Pairwise (· ≤ ·) := by
  refine ⟨_, (by decide +kernel : fromTable usClock usT = .ok
    { times := [dateTime 2010 1 1, dateTime 2005 2 1], cols := ["model", "scenario", "region", "variable", "unit"]
      data := [(0, [.num 2, .num 1])], «meta» := [(0, [.str "m", .str "s", .str "World", .str "v", .str "K"])] }), rfl, ?_⟩
  decide +kernel

/-- `C66_text` applies. -/
example : usT.Rect ∧ ¬ usT.HasCol "value" ∧ (∀ l ∈ usT.cols, ∃ s, l = .text s) := by
  refine ⟨by unfold Table.Rect; decide +kernel, by unfold Table.HasCol; decide +kernel, by simp [usT]⟩

/-- The hypotheses of the round trip hold for `wideR`. -/
example : ∃ T R, wideR.asTable = .ok T ∧ fromTable noClock T = .ok R ∧ R.data.length = 2 := by
  obtain ⟨T, R, h1, h2, -, -, -, h3, -⟩ := C66_round_trip_partial noClock wideR
    ⟨by decide +kernel, by decide +kernel, by decide +kernel, by decide +kernel, by decide +kernel⟩
    (hasDuplicates_iff.1 (by decide +kernel)) (by decide +kernel) (by decide +kernel) (fun _ _ _ => rfl) (by decide +kernel)
    (by decide +kernel) (by decide +kernel)
  exact ⟨T, R, h1, h2, h3⟩

/-- A frame with metadata called `value` cannot be read from its table. -/
def valueF : DFrame ℚ :=
  { times := [dateTime 2005 1 1], cols := ["model", "scenario", "region", "variable", "unit", "value"]
    data := [(0, [.num 3])], «meta» := [(0, [.str "m", .str "s", .str "World", .str "v", .str "K", .int 1])] }

theorem C66_value (clock : Clock) : ∃ T, valueF.asTable = .ok T ∧ fromTable clock T = .error .valueError := by
  refine ⟨_, (by decide +kernel : valueF.asTable = .ok
    { index := ["model", "scenario", "region", "variable", "unit", "value"], cols := [.time (dateTime 2005 1 1)]
      rows := [[.str "m", .str "s", .str "World", .str "v", .str "K", .int 1, .flt (.num 3)]] }), ?_⟩
  exact (C65_refused clock _).2 (by unfold Table.HasCol; decide +kernel) (by unfold Table.HasCol; decide +kernel)

/-- Nor can one with metadata whose name reads as a time. -/
def mayF : DFrame ℚ :=
  { times := [dateTime 2005 1 1], cols := ["model", "scenario", "region", "variable", "unit", "may"]
    data := [(0, [.num 3])], «meta» := [(0, [.str "m", .str "s", .str "World", .str "v", .str "K", .int 1])] }

theorem C66_looks (clock : Clock) (h : clock.looks "may" = true) :
    ∃ T, mayF.asTable = .ok T ∧ fromTable clock T = .error .typeError := by
  refine ⟨_, (by decide +kernel : mayF.asTable = .ok
    { index := ["model", "scenario", "region", "variable", "unit", "may"], cols := [.time (dateTime 2005 1 1)]
      rows := [[.str "m", .str "s", .str "World", .str "v", .str "K", .int 1, .flt (.num 3)]] }), ?_⟩
  exact (C66_refused clock _ (by unfold Table.HasCol; decide +kernel)).2.2 (by unfold Table.HasCol; decide +kernel)
    (by decide +kernel) ⟨.time (dateTime 2005 1 1), by decide +kernel⟩ ⟨"may", by unfold Table.HasCol; decide +kernel, by decide, h⟩

/-- Times after the year 9999 are written as numbers of seconds, and these are read as years. -/
def farF : DFrame ℚ :=
  { times := [dateTime 10000 1 1], cols := ["model", "scenario", "region", "variable", "unit"]
    data := [(0, [.num 3])], «meta» := [(0, [.str "m", .str "s", .str "World", .str "v", .str "K"])] }

theorem C66_far : ∃ T R, farF.asTable = .ok T ∧ fromTable noClock T = .ok R ∧ R.times ≠ farF.times ∧
    R.times = [dateTime (dateTime 10000 1 1) 1 1] := by
  refine ⟨_, _, (by decide +kernel : farF.asTable = .ok
    { index := ["model", "scenario", "region", "variable", "unit"], cols := [.num (dateTime 10000 1 1)]
      rows := [[.str "m", .str "s", .str "World", .str "v", .str "K", .flt (.num 3)]] }),
    (by decide +kernel : _ = Except.ok
    { times := [dateTime (dateTime 10000 1 1) 1 1], cols := ["model", "scenario", "region", "variable", "unit"]
      data := [(0, [.num 3])], «meta» := [(0, [.str "m", .str "s", .str "World", .str "v", .str "K"])] }), ?_, rfl⟩
  decide +kernel

end Openscm
