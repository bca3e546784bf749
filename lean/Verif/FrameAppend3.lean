import Verif.FrameAppend2

/-!
# Overlapping inputs of an append

What `duplicate_msg` does, `openscm/scmdataframe/base.py:1508-1512`, `1544-1569`.
-/

set_option linter.unusedSectionVars false

namespace Openscm

variable {K : Type} [Field K] [DecidableEq K] [CharZero K]

/-- Specification: some metadata has two values at one time. -/
def Overlap (dfs : List (DFrame K)) : Prop :=
  ∃ F ∈ dfs, ∃ i < F.data.length, ∃ t, 1 < (valuesFor dfs (F.metaAt i) t).length

/-- The values of the entries with the key of a timeseries. -/
theorem entries_values {dfs : List (DFrame K)} (hF : ∀ F ∈ dfs, F.Ok) (hs : ∀ F ∈ dfs, NoSentinel F) {times : List Int}
    {F0 : DFrame K} (hF0 : F0 ∈ dfs) {i0 : Nat} {t : Int} (ht : t ∈ times) :
    ((dfs.flatMap (entriesOf (jointCols dfs) times)).filter fun e => sameRow (seriesKey (jointCols dfs) (F0.metaAt i0)) e.1).filterMap
      (fun e => numOf (e.2.getD (times.idxOf t) .nan)) = valuesFor dfs (F0.metaAt i0) t := by
  classical
  have hlt := List.idxOf_lt_length_of_mem ht
  rw [List.filter_flatMap, List.filterMap_flatMap, valuesFor]
  refine List.flatMap_congr fun F hFm => ?_
  rw [entriesOf, List.filter_map, List.filterMap_map, List.filterMap_filter, filterMap_range]
  have hl : (F.meta.zip F.data).length = F.data.length := by
    simp [Ok.lengths (hF F hFm)]
  rw [hl]
  refine List.filterMap_congr fun i hi => ?_
  rw [List.mem_range] at hi
  have him : i < F.meta.length := by rw [Ok.lengths (hF F hFm)]; exact hi
  have hz : (F.meta.zip F.data)[i]? = some (F.meta[i], F.data[i]) := by
    rw [List.getElem?_zip_eq_some]
    exact ⟨List.getElem?_eq_getElem him, List.getElem?_eq_getElem hi⟩
  rw [hz]
  simp only [Option.bind_some, Function.comp]
  have hm : rowVal F.cols F.meta[i].2 = F.metaAt i := by
    funext c; simp [DFrame.metaAt, List.getElem?_eq_getElem him]
  rw [hm]
  have hiff : sameRow (seriesKey (jointCols dfs) (F0.metaAt i0)) (seriesKey (jointCols dfs) (F.metaAt i)) = true ↔
      SameMeta (F0.metaAt i0) (F.metaAt i) :=
    seriesKey_same (fun c => hs F0 hF0 i0 c) (fun c => hs F hFm i c)
      (fun c hc => metaAt_absent (hF F0 hF0) fun h => hc (mem_joint hF0 h))
      (fun c hc => metaAt_absent (hF F hFm) fun h => hc (mem_joint hFm h))
  by_cases hh : SameMeta (F0.metaAt i0) (F.metaAt i)
  · rw [if_pos (hiff.2 hh), if_pos hh, valueAt_eq, List.getElem?_eq_getElem hi]
    simp only [Option.bind_some]
    rw [List.getD_eq_getElem?_getD, List.getElem?_map, List.getElem?_eq_getElem hlt, List.getElem_idxOf]
    rfl
  · rw [if_neg fun h => hh (hiff.1 h), if_neg hh]

theorem filter_isNum_length {α : Type} (f : α → Fl K) (l : List α) :
    (l.filter fun a => (f a).isNum).length = (l.filterMap fun a => numOf (f a)).length := by
  induction l with
  | nil => rfl
  | cons a l ih =>
    rw [List.filter_cons, List.filterMap_cons]
    cases f a with
    | nan => exact ih
    | num x => exact congrArg (· + 1) ih

theorem forall₂_flatMap {α β γ : Type} {P : β → γ → Prop} {f : α → List β} {g : α → List γ} {l : List α}
    (h : ∀ a ∈ l, List.Forall₂ P (f a) (g a)) : List.Forall₂ P (l.flatMap f) (l.flatMap g) := by
  induction l with
  | nil => exact .nil
  | cons a l ih =>
    rw [List.flatMap_cons, List.flatMap_cons]
    exact List.rel_append (h a (by simp)) (ih fun b hb => h b (by simp [hb]))

theorem overlaps_iff {dfs : List (DFrame K)} (hF : ∀ F ∈ dfs, F.Ok) (hs : ∀ F ∈ dfs, NoSentinel F) :
    overlaps ((dfs.flatMap (·.times)).dedup.insertionSort (· ≤ ·)).length
      (dfs.flatMap (entriesOf (jointCols dfs) ((dfs.flatMap (·.times)).dedup.insertionSort (· ≤ ·)))) = true ↔ Overlap dfs := by
  classical
  generalize htd : (dfs.flatMap (·.times)).dedup.insertionSort (· ≤ ·) = times
  have hnd : times.Nodup := by
    rw [← htd]
    exact (List.perm_insertionSort _ _).nodup_iff.2 (List.nodup_dedup _)
  have hmem : ∀ t, t ∈ times ↔ ∃ F ∈ dfs, t ∈ F.times := by
    intro t
    rw [← htd, List.mem_insertionSort, List.mem_dedup, List.mem_flatMap]
  unfold overlaps Overlap
  simp only [List.any_eq_true, decide_eq_true_eq, List.mem_range]
  constructor
  · rintro ⟨e, he, j, hj, h⟩
    obtain ⟨F, hFm, i, -, hi, hk⟩ := key_source (List.mem_map_of_mem (f := (·.1)) he)
    refine ⟨F, hFm, i, hi, times[j], ?_⟩
    rw [← entries_values hF hs hFm (List.getElem_mem hj), hnd.idxOf_getElem, ← hk, ← filter_isNum_length]
    exact h
  · rintro ⟨F, hFm, i, hi, t, h⟩
    have ht : t ∈ times := by
      rw [hmem]
      by_contra hn
      have : valuesFor dfs (F.metaAt i) t = [] := by
        unfold valuesFor
        rw [List.flatMap_eq_nil_iff]
        intro G hG
        rw [List.filterMap_eq_nil_iff]
        intro i _
        rw [valueAt_absent (hF G hG) fun h => hn ⟨G, hG, h⟩]
        split <;> rfl
      rw [this] at h
      cases h
    have him : i < F.meta.length := by rw [Ok.lengths (hF F hFm)]; exact hi
    obtain ⟨e, he, hk⟩ := List.mem_map.1 (key_target (times := times) hFm him hi)
    refine ⟨e, he, times.idxOf t, List.idxOf_lt_length_of_mem ht, ?_⟩
    rw [filter_isNum_length (f := fun f : List (PyVal K) × List (Fl K) => f.2.getD (times.idxOf t) .nan), hk,
      entries_values hF hs hFm ht]
    exact h

/-- C52: what `duplicate_msg` does. With `"warn"` and with a value that counts as false the result is the same. Without
overlap it is the same for all other values. With overlap, `"return"` returns all timeseries of the inputs one by one, at
all times, and unknown values raise `ValueError`. For metadata without the value `-999`. -/
theorem C52_messages_partial {dfs : List (DFrame K)} (hne : dfs ≠ [])
    (hF : ∀ F ∈ dfs, F.Ok) (hd : ∀ F ∈ dfs, DistinctMeta F) (ht : ∀ F ∈ dfs, F.times.Nodup) (hs : ∀ F ∈ dfs, NoSentinel F) :
    ∃ R, dfAppend dfs .off = .ok (.frame R) ∧ dfAppend dfs .warn = .ok (.frame R) ∧
      (¬ Overlap dfs → ∀ msg, dfAppend dfs msg = .ok (.frame R)) ∧
      (Overlap dfs → dfAppend dfs .other = .error .valueError ∧ ∃ data, dfAppend dfs .ret = .ok (.joint data) ∧
        List.Forall₂ (fun (Fi : DFrame K × Nat) (e : List (PyVal K) × List (Fl K)) =>
            List.Forall₂ (fun c v => if Fi.1.metaAt Fi.2 c = .none ∨ Fi.1.metaAt Fi.2 c = .flt .nan then v = .int (-999)
              else v = Fi.1.metaAt Fi.2 c) (jointCols dfs) e.1 ∧
            List.Forall₂ (fun t v => numOf v = Fi.1.valueAt Fi.2 t) R.times e.2)
          (dfs.flatMap fun F => (List.range F.data.length).map fun i => (F, i)) data) := by
  obtain ⟨R, hR⟩ := C52_works (msg := .off) (.inr rfl) hne hF hd ht
  have hfacts := dfAppend_frame hF hR
  have hov := overlaps_iff hF hs
  have hparts : appendParts (jointCols dfs) ((dfs.flatMap (·.times)).dedup.insertionSort (· ≤ ·)) dfs =
      .ok (dfs.flatMap (entriesOf (jointCols dfs) ((dfs.flatMap (·.times)).dedup.insertionSort (· ≤ ·)))) := by
    have h := hR
    unfold dfAppend at h
    rw [if_neg hne] at h
    dsimp only at h
    split at h
    · cases h
    · rename_i data hdata
      rw [hdata, appendParts_ok hF hdata]
  have hform : finishAppend (jointCols dfs) ((dfs.flatMap (·.times)).dedup.insertionSort (· ≤ ·))
      (dfs.flatMap (entriesOf (jointCols dfs) ((dfs.flatMap (·.times)).dedup.insertionSort (· ≤ ·)))) = R := by
    rw [← hfacts.times, ← hfacts.form]
  refine ⟨R, hR, ?_, fun hno msg => ?_, fun ho => ⟨?_, ?_⟩⟩
  · unfold dfAppend
    rw [if_neg hne]
    simp only [hparts, hform]
    split <;> rfl
  · unfold dfAppend
    rw [if_neg hne]
    simp only [hparts, hform]
    rw [if_neg fun h => hno (hov.1 h.2)]
  · unfold dfAppend
    rw [if_neg hne]
    simp only [hparts]
    rw [if_pos ⟨by decide, hov.2 ho⟩]
  · refine ⟨dfs.flatMap (entriesOf (jointCols dfs) ((dfs.flatMap (·.times)).dedup.insertionSort (· ≤ ·))), ?_, ?_⟩
    · unfold dfAppend
      rw [if_neg hne]
      simp only [hparts]
      rw [if_pos ⟨by decide, hov.2 ho⟩]
    · rw [← hfacts.times]
      refine forall₂_flatMap fun F hFm => ?_
      have hl : (F.meta.zip F.data).length = F.data.length := by simp [Ok.lengths (hF F hFm)]
      rw [List.forall₂_iff_get]
      refine ⟨by simp [entriesOf, Ok.lengths (hF F hFm)], fun i h1 h2 => ?_⟩
      have hi : i < F.data.length := by simpa using h1
      have him : i < F.meta.length := by rw [Ok.lengths (hF F hFm)]; exact hi
      simp only [List.get_eq_getElem, List.getElem_map, List.getElem_range, entriesOf, List.getElem_zip]
      constructor
      · rw [seriesKey, List.forall₂_map_right_iff, List.forall₂_same]
        intro c _
        rw [← metaAt_eq (List.getElem?_eq_getElem him)]
        unfold fillNull
        by_cases hnull : (F.metaAt i c).isNull = true
        · rw [if_pos hnull, if_pos (isNull_iff.1 hnull)]
          rfl
        · rw [if_neg hnull, if_neg fun h => hnull (isNull_iff.2 h)]
      · rw [List.forall₂_map_right_iff, List.forall₂_same]
        intro t _
        rw [valueAt_eq, List.getElem?_eq_getElem hi]
        rfl

/-- There is overlap, and there is none. -/
example : Overlap [oneF [0, 1] [.num 1, .num 2] "K" [], oneF [1, 3] [.num 4, .num 5] "K" []] ∧
    ¬ Overlap [oneF [0, 1] [.num 1, .num 2] "K" [], oneF [3] [.num 4] "K" []] := by
  have hF : ∀ l : List (DFrame ℚ), l = [oneF [0, 1] [.num 1, .num 2] "K" [], oneF [1, 3] [.num 4, .num 5] "K" []] ∨
      l = [oneF [0, 1] [.num 1, .num 2] "K" [], oneF [3] [.num 4] "K" []] → (∀ F ∈ l, F.Ok) ∧ ∀ F ∈ l, NoSentinel F := by
    have ok : ∀ ts vs, vs.length = ts.length → (oneF ts vs "K" []).Ok := fun ts vs h =>
      ⟨rfl, by simp [oneF], by simp [oneF]; decide, by simpa [oneF] using h, by simp [oneF]; rfl⟩
    have ns : ∀ ts vs, NoSentinel (oneF ts vs "K" []) := fun ts vs => noSentinel_of (by simp [oneF]; decide +kernel)
    rintro l (rfl | rfl) <;> simp [ok, ns]
  constructor
  · rw [← overlaps_iff (hF _ (.inl rfl)).1 (hF _ (.inl rfl)).2]
    decide +kernel
  · rw [← overlaps_iff (hF _ (.inr rfl)).1 (hF _ (.inr rfl)).2]
    decide +kernel

end Openscm
