import Verif.FrameAppend

/-!
# C52: appending frames (proofs)
-/

set_option linter.unusedSectionVars false

namespace Openscm

variable {K : Type} [Field K] [DecidableEq K] [CharZero K]

/-! ## Keys -/

theorem sameRow_refl (r : List (PyVal K)) : sameRow r r = true := by
  rw [sameRow_iff]
  induction r with
  | nil => exact .nil
  | cons a r ih => exact .cons (.equal a) ih

theorem sameRow_symm {r s : List (PyVal K)} (h : sameRow r s = true) : sameRow s r = true := by
  rw [sameRow_iff] at *
  induction h with
  | nil => exact .nil
  | cons h _ ih => exact .cons h.symm ih

theorem sameRow_trans {r s t : List (PyVal K)} (h : sameRow r s = true) (h' : sameRow s t = true) : sameRow r t = true := by
  rw [sameRow_iff] at *
  induction h generalizing t with
  | nil => exact h'
  | cons h _ ih =>
    cases h' with
    | cons h1 h2 => exact .cons (h.trans h1) (ih h2)

theorem distinctRows_sub {l : List (List (PyVal K))} {k : List (PyVal K)} (h : k ∈ distinctRows l) : k ∈ l := by
  induction l with
  | nil => cases h
  | cons r l ih =>
    rcases List.mem_cons.1 h with rfl | h
    · simp
    · exact List.mem_cons_of_mem _ (ih (List.mem_filter.1 h).1)

theorem distinctRows_cover {l : List (List (PyVal K))} {r : List (PyVal K)} (h : r ∈ l) :
    ∃ k ∈ distinctRows l, sameRow k r = true := by
  induction l with
  | nil => cases h
  | cons a l ih =>
    rcases List.mem_cons.1 h with rfl | h
    · exact ⟨r, by simp [distinctRows], sameRow_refl r⟩
    · obtain ⟨k, hk, hkr⟩ := ih h
      by_cases hak : sameRow a k = true
      · exact ⟨a, by simp [distinctRows], sameRow_trans hak hkr⟩
      · refine ⟨k, ?_, hkr⟩
        rw [distinctRows]
        refine List.mem_cons_of_mem _ (List.mem_filter.2 ⟨hk, ?_⟩)
        simpa using hak

theorem distinctRows_distinct (l : List (List (PyVal K))) :
    (distinctRows l).Pairwise fun a b => ¬ sameRow a b = true := by
  induction l with
  | nil => exact .nil
  | cons a l ih =>
    rw [distinctRows, List.pairwise_cons]
    refine ⟨fun b hb => ?_, ih.filter _⟩
    have := (List.mem_filter.1 hb).2
    simpa using this

theorem seriesKey_same {joint : List String} {m m' : String → PyVal K} (hm : ∀ c, ¬ SameValue (m c) naFill)
    (hm' : ∀ c, ¬ SameValue (m' c) naFill) (ha : ∀ c, c ∉ joint → m c = .none) (ha' : ∀ c, c ∉ joint → m' c = .none) :
    sameRow (seriesKey joint m) (seriesKey joint m') = true ↔ SameMeta m m' := by
  unfold seriesKey
  rw [sameRow_map]
  constructor
  · intro h c
    by_cases hc : c ∈ joint
    · exact (fill_same (hm c) (hm' c)).1 (h c hc)
    · rw [ha c hc, ha' c hc]; exact .equal _
  · intro h c _
    exact (fill_same (hm c) (hm' c)).2 (h c)

theorem rowVal_select {old new : List String} {row : List (PyVal K)} (hl : row.length = old.length)
    (hm : ∀ c, c ∈ new ↔ c ∈ old) (c : String) : rowVal new (selectCols old new row) c = rowVal old row c := by
  by_cases hc : c ∈ new
  · unfold rowVal selectCols
    rw [List.getD_eq_getElem?_getD, List.getElem?_map, getElem?_idxOf' hc]
    rfl
  · rw [rowVal_absent (by simp [selectCols]) hc, rowVal_absent hl fun h => hc ((hm c).2 h)]

theorem rowVal_map {joint : List String} {f : String → PyVal K} {c : String} (hc : c ∈ joint) :
    rowVal joint (joint.map f) c = f c := by
  unfold rowVal
  rw [List.getD_eq_getElem?_getD, List.getElem?_map, getElem?_idxOf' hc]
  rfl

/-! ## Values -/

def numOf : Fl K → Option K
  | .num x => some x
  | .nan => none

theorem numOf_meanOf (l : List (Fl K)) : numOf (meanOf l) = average (l.filterMap numOf) := by
  have e : meanOf l = if l.filterMap numOf = [] then .nan else .num ((l.filterMap numOf).sum / ((l.filterMap numOf).length : K)) := rfl
  rw [e, average]
  split <;> rfl

theorem filterMap_range {α β : Type} (l : List α) (g : α → Option β) :
    l.filterMap g = (List.range l.length).filterMap fun i => l[i]?.bind g := by
  induction l with
  | nil => rfl
  | cons a l ih =>
    rw [List.length_cons, List.range_succ_eq_map, List.filterMap_cons, List.filterMap_cons, List.filterMap_map]
    simp only [List.getElem?_cons_zero, Option.bind_some, Function.comp_def, List.getElem?_cons_succ]
    rw [ih]

theorem valueAt_eq (F : DFrame K) (i : Nat) (t : Int) :
    F.valueAt i t = F.data[i]?.bind fun s => numOf (atTime F.times s.2 t) := by
  unfold DFrame.valueAt atTime
  cases F.data[i]? with
  | none => rfl
  | some s =>
    simp only [Option.bind_some]
    cases s.2.getD (F.times.idxOf t) .nan <;> rfl

theorem valueAt_absent {F : DFrame K} (hF : F.Ok) {i : Nat} {t : Int} (ht : t ∉ F.times) : F.valueAt i t = none := by
  rw [valueAt_eq]
  cases h : F.data[i]? with
  | none => rfl
  | some s =>
    have := hF.data_len s (List.mem_of_getElem? h)
    simp only [Option.bind_some, atTime]
    rw [List.idxOf_eq_length ht, List.getD_eq_getElem?_getD, List.getElem?_eq_none (by omega)]
    rfl

theorem Ok.lengths {F : DFrame K} (hF : F.Ok) : F.meta.length = F.data.length := by
  have := congrArg List.length hF.labels
  simpa using this.symm

/-! ## The result -/

/-- What is known of an append that gave a frame. -/
structure AppendFacts (dfs : List (DFrame K)) (R : DFrame K) : Prop where
  times : R.times = (dfs.flatMap (·.times)).dedup.insertionSort (· ≤ ·)
  form : R = finishAppend (jointCols dfs) R.times (dfs.flatMap (entriesOf (jointCols dfs) R.times))

theorem dfAppend_frame {dfs : List (DFrame K)} {msg : DupMsg} {R : DFrame K} (hF : ∀ F ∈ dfs, F.Ok)
    (h : dfAppend dfs msg = .ok (.frame R)) : AppendFacts dfs R := by
  unfold dfAppend at h
  split at h
  · cases h
  · simp only at h
    split at h
    · cases h
    · rename_i data hd
      have e := appendParts_ok hF hd
      have key : Appended.frame (finishAppend (jointCols dfs) ((dfs.flatMap (·.times)).dedup.insertionSort (· ≤ ·)) data) =
          Appended.frame R → AppendFacts dfs R := by
        intro e'
        injection e' with e'
        have ht : R.times = (dfs.flatMap (·.times)).dedup.insertionSort (· ≤ ·) := by rw [← e']; rfl
        exact ⟨ht, by rw [ht, ← e, e']⟩
      split at h
      · split at h
        · cases h
        · exact key (Except.ok.inj h)
        · cases h
      · exact key (Except.ok.inj h)

theorem mem_joint {dfs : List (DFrame K)} {F : DFrame K} (hF : F ∈ dfs) {c : String} (hc : c ∈ F.cols) : c ∈ jointCols dfs := by
  rw [jointCols, List.mem_dedup, List.mem_flatMap]
  exact ⟨F, hF, hc⟩

theorem metaAt_absent {F : DFrame K} (hF : F.Ok) {i : Nat} {c : String} (hc : c ∉ F.cols) : F.metaAt i c = .none := by
  unfold DFrame.metaAt
  split
  · rename_i r hr
    exact rowVal_absent (hF.meta_len r (List.mem_of_getElem? hr)) hc
  · rfl

theorem metaAt_eq {F : DFrame K} {i : Nat} {r : Nat × List (PyVal K)} (h : F.meta[i]? = some r) :
    F.metaAt i = rowVal F.cols r.2 := by
  funext c
  simp only [DFrame.metaAt, h]

/-- The keys are those of timeseries of the inputs. -/
theorem key_source {dfs : List (DFrame K)} {times : List Int} {k : List (PyVal K)}
    (h : k ∈ (dfs.flatMap (entriesOf (jointCols dfs) times)).map (·.1)) :
    ∃ F ∈ dfs, ∃ i, i < F.meta.length ∧ i < F.data.length ∧ k = seriesKey (jointCols dfs) (F.metaAt i) := by
  obtain ⟨e, he, rfl⟩ := List.mem_map.1 h
  obtain ⟨F, hF, he⟩ := List.mem_flatMap.1 he
  obtain ⟨rd, hrd, rfl⟩ := List.mem_map.1 he
  obtain ⟨i, hi⟩ := List.getElem?_of_mem hrd
  rw [List.getElem?_zip_eq_some] at hi
  refine ⟨F, hF, i, (List.getElem?_eq_some_iff.1 hi.1).1, (List.getElem?_eq_some_iff.1 hi.2).1, ?_⟩
  rw [metaAt_eq hi.1]

theorem key_target {dfs : List (DFrame K)} {times : List Int} {F : DFrame K} (hF : F ∈ dfs) {i : Nat} (h1 : i < F.meta.length)
    (h2 : i < F.data.length) :
    seriesKey (jointCols dfs) (F.metaAt i) ∈ (dfs.flatMap (entriesOf (jointCols dfs) times)).map (·.1) := by
  refine List.mem_map.2 ⟨(_, times.map (atTime F.times F.data[i].2)), List.mem_flatMap.2 ⟨F, hF, ?_⟩, rfl⟩
  refine List.mem_map.2 ⟨(F.meta[i], F.data[i]), List.mem_of_getElem? (i := i) ?_, ?_⟩
  · rw [List.getElem?_zip_eq_some]
    exact ⟨List.getElem?_eq_getElem h1, List.getElem?_eq_getElem h2⟩
  · rw [metaAt_eq (List.getElem?_eq_getElem h1)]; rfl

section
variable {dfs : List (DFrame K)} {R : DFrame K} (hF : ∀ F ∈ dfs, F.Ok) (hs : ∀ F ∈ dfs, NoSentinel F)
  (hr : ∀ F ∈ dfs, ∀ c ∈ requiredCols, c ∈ F.cols) (hR : AppendFacts dfs R)

/-- The keys of the result. -/
def keysOf (dfs : List (DFrame K)) (times : List Int) : List (List (PyVal K)) :=
  distinctRows ((dfs.flatMap (entriesOf (jointCols dfs) times)).map (·.1))

include hF hR in
theorem result_lengths (hne : dfs ≠ []) (hr : ∀ F ∈ dfs, ∀ c ∈ requiredCols, c ∈ F.cols) :
    R.Ok ∧ R.data.length = (keysOf dfs R.times).length := by
  have hreq : ∀ c ∈ requiredCols, c ∈ jointCols dfs := by
    intro c hc
    obtain ⟨F, hFm⟩ := List.exists_mem_of_ne_nil _ hne
    exact mem_joint hFm (hr F hFm c hc)
  refine ⟨?_, ?_⟩
  · rw [hR.form]
    unfold finishAppend
    apply DFrame.Ok.sortMeta
    refine ⟨?_, ?_, List.nodup_dedup _, ?_, ?_⟩
    · simp [List.map_map, Function.comp_def]
    · simp only [List.map_map, Function.comp_def]
      rw [show (fun x : List (PyVal K) × Nat => x.2) = Prod.snd from rfl, List.zipIdx_map_snd]
      exact List.nodup_range' ..
    · intro d hd
      obtain ⟨k, -, rfl⟩ := List.mem_map.1 hd
      simp
    · intro d hd
      obtain ⟨k, hk, rfl⟩ := List.mem_map.1 hd
      have : k.1 ∈ keysOf dfs R.times := by
        have := List.mem_map_of_mem (f := Prod.fst) hk
        rw [List.zipIdx_map_fst] at this
        exact this
      obtain ⟨F, hFm, i, -, -, e⟩ := key_source (distinctRows_sub this)
      simp [e, seriesKey]
  · rw [hR.form]
    simp [finishAppend, DFrame.sortMeta, keysOf]

include hR in
theorem result_meta (hne : dfs ≠ []) (hr : ∀ F ∈ dfs, ∀ c ∈ requiredCols, c ∈ F.cols)
    {j : Nat} {m : String → PyVal K} (hj : (keysOf dfs R.times)[j]? = some (seriesKey (jointCols dfs) m))
    (hm : ∀ c, c ∉ jointCols dfs → m c = .none) (hn : ∀ c, ¬ SameValue (m c) naFill) : SameMeta (R.metaAt j) m := by
  have hreq : ∀ c ∈ requiredCols, c ∈ jointCols dfs := by
    intro c hc
    obtain ⟨F, hFm⟩ := List.exists_mem_of_ne_nil _ hne
    exact mem_joint hFm (hr F hFm c hc)
  have hmeta : R.meta[j]? = some (j, selectCols (jointCols dfs) (sortedCols (jointCols dfs))
      ((seriesKey (jointCols dfs) m).map unfill)) := by
    rw [hR.form]
    unfold finishAppend DFrame.sortMeta
    simp only [List.getElem?_map, List.getElem?_zipIdx]
    have : (distinctRows ((dfs.flatMap (entriesOf (jointCols dfs) R.times)).map (·.1)))[j]? =
        some (seriesKey (jointCols dfs) m) := hj
    rw [this]
    simp
  have hcols : R.cols = sortedCols (jointCols dfs) := by rw [hR.form]; rfl
  intro c
  simp only [DFrame.metaAt, hmeta, hcols]
  rw [rowVal_select (by simp [seriesKey]) (fun c => sortedCols_mem hreq)]
  by_cases hc : c ∈ jointCols dfs
  · rw [seriesKey, List.map_map, rowVal_map hc]
    exact unfill_fill (hn c)
  · rw [rowVal_absent (by simp [seriesKey]) hc, hm c hc]
    exact .equal _

include hF hs hr hR in
/-- Each timeseries of the result stands for timeseries of the inputs. -/
theorem result_source (hne : dfs ≠ []) {j : Nat} (hj : j < R.data.length) :
    ∃ F ∈ dfs, ∃ i, i < F.data.length ∧ (keysOf dfs R.times)[j]? = some (seriesKey (jointCols dfs) (F.metaAt i)) ∧
      SameMeta (R.metaAt j) (F.metaAt i) := by
  have hlen := (result_lengths hF hR hne hr).2
  have hj' : j < (keysOf dfs R.times).length := by omega
  obtain ⟨F, hFm, i, h1, h2, e⟩ := key_source (distinctRows_sub (List.getElem_mem hj'))
  have hk : (keysOf dfs R.times)[j]? = some (seriesKey (jointCols dfs) (F.metaAt i)) := by
    rw [List.getElem?_eq_getElem hj']; exact congrArg some e
  exact ⟨F, hFm, i, h2, hk, result_meta hR hne hr hk
    (fun c hc => metaAt_absent (hF F hFm) fun h => hc (mem_joint hFm h)) (fun c => hs F hFm i c)⟩

include hF hs hr hR in
theorem result_value (hne : dfs ≠ []) {j : Nat} (hj : j < R.data.length) (t : Int) :
    R.valueAt j t = average (valuesFor dfs (R.metaAt j) t) := by
  classical
  obtain ⟨F0, hF0, i0, h0, hk, hsame⟩ := result_source hF hs hr hR hne hj
  have hOk := (result_lengths hF hR hne hr).1
  by_cases ht : t ∈ R.times
  · have hlt := List.idxOf_lt_length_of_mem ht
    have hdata : R.data[j]? = some (j, (List.range R.times.length).map fun q =>
        meanOf (((dfs.flatMap (entriesOf (jointCols dfs) R.times)).filter fun e =>
          sameRow (seriesKey (jointCols dfs) (F0.metaAt i0)) e.1).map fun e => e.2.getD q .nan)) := by
      conv_lhs => rw [hR.form]
      unfold finishAppend DFrame.sortMeta
      simp only [List.getElem?_map, List.getElem?_zipIdx]
      have : (distinctRows ((dfs.flatMap (entriesOf (jointCols dfs) R.times)).map (·.1)))[j]? =
          some (seriesKey (jointCols dfs) (F0.metaAt i0)) := hk
      rw [this]
      simp
    rw [valueAt_eq, hdata]
    simp only [Option.bind_some, atTime]
    rw [List.getD_eq_getElem?_getD, List.getElem?_map, List.getElem?_range hlt]
    simp only [Option.map_some, Option.getD_some]
    rw [numOf_meanOf]
    congr 1
    rw [List.filterMap_map, List.filter_flatMap, List.filterMap_flatMap, valuesFor]
    refine List.flatMap_congr fun F hFm => ?_
    rw [entriesOf, List.filter_map, List.filterMap_map, List.filterMap_filter, filterMap_range]
    have hl : (F.meta.zip F.data).length = F.data.length := by
      simp [Ok.lengths (hF F hFm)]
    rw [hl]
    refine List.filterMap_congr fun i hi => ?_
    rw [List.mem_range] at hi
    have him : i < F.meta.length := by rw [Ok.lengths (hF F hFm)]; exact hi
    have hz : (F.meta.zip F.data)[i]? = some (F.meta[i], F.data[i]) := by
      rw [List.getElem?_zip_eq_some]
      exact ⟨List.getElem?_eq_getElem him, List.getElem?_eq_getElem hi⟩
    rw [hz]
    simp only [Option.bind_some, Function.comp]
    have hm : rowVal F.cols F.meta[i].2 = F.metaAt i := by
      funext c; simp [DFrame.metaAt, List.getElem?_eq_getElem him]
    rw [hm]
    have hiff : sameRow (seriesKey (jointCols dfs) (F0.metaAt i0)) (seriesKey (jointCols dfs) (F.metaAt i)) = true ↔
        SameMeta (R.metaAt j) (F.metaAt i) := by
      rw [seriesKey_same (fun c => hs F0 hF0 i0 c) (fun c => hs F hFm i c)
        (fun c hc => metaAt_absent (hF F0 hF0) fun h => hc (mem_joint hF0 h))
        (fun c hc => metaAt_absent (hF F hFm) fun h => hc (mem_joint hFm h))]
      exact ⟨fun h => hsame.trans h, fun h => hsame.symm.trans h⟩
    by_cases hh : SameMeta (R.metaAt j) (F.metaAt i)
    · rw [if_pos (hiff.2 hh), if_pos hh, valueAt_eq, List.getElem?_eq_getElem hi]
      simp only [Option.bind_some]
      rw [List.getD_eq_getElem?_getD, List.getElem?_map, List.getElem?_eq_getElem hlt, List.getElem_idxOf]
      rfl
    · rw [if_neg fun h => hh (hiff.1 h), if_neg hh]
  · rw [valueAt_absent hOk ht]
    have : valuesFor dfs (R.metaAt j) t = [] := by
      unfold valuesFor
      rw [List.flatMap_eq_nil_iff]
      intro F hFm
      rw [List.filterMap_eq_nil_iff]
      intro i _
      have : t ∉ F.times := fun h => ht (by
        rw [hR.times, List.mem_insertionSort, List.mem_dedup, List.mem_flatMap]
        exact ⟨F, hFm, h⟩)
      rw [valueAt_absent (hF F hFm) this]
      split <;> rfl
    rw [this]
    rfl

end

theorem dfAppend_ne {dfs : List (DFrame K)} {msg : DupMsg} {a : Appended K} (h : dfAppend dfs msg = .ok a) : dfs ≠ [] := by
  intro e
  subst e
  cases h

/-! ## C52 -/

/-- C52: for every metadata combination of the inputs and every time the result has the average of the values that the
inputs have there, it has no other metadata combination and none twice, and its times are those of the inputs, in
order. For metadata without the value `-999`; otherwise see `C52_sentinel`. -/
theorem C52_average_partial {dfs : List (DFrame K)} {msg : DupMsg} {R : DFrame K} (hF : ∀ F ∈ dfs, F.Ok)
    (hr : ∀ F ∈ dfs, ∀ c ∈ requiredCols, c ∈ F.cols) (hs : ∀ F ∈ dfs, NoSentinel F)
    (h : dfAppend dfs msg = .ok (.frame R)) :
    R.Ok ∧
    (∀ t, t ∈ R.times ↔ ∃ F ∈ dfs, t ∈ F.times) ∧ R.times.Pairwise (· < ·) ∧
    (∀ F ∈ dfs, ∀ i < F.data.length, ∃ j < R.data.length, SameMeta (R.metaAt j) (F.metaAt i)) ∧
    (∀ j < R.data.length, ∃ F ∈ dfs, ∃ i < F.data.length, SameMeta (R.metaAt j) (F.metaAt i)) ∧
    (∀ j < R.data.length, ∀ j' < R.data.length, SameMeta (R.metaAt j) (R.metaAt j') → j = j') ∧
    ∀ j < R.data.length, ∀ t, R.valueAt j t = average (valuesFor dfs (R.metaAt j) t) := by
  have hne := dfAppend_ne h
  have hR := dfAppend_frame hF h
  have hlen := result_lengths hF hR hne hr
  refine ⟨hlen.1, ?_, ?_, ?_, ?_, ?_, fun j hj t => result_value hF hs hr hR hne hj t⟩
  · intro t
    rw [hR.times, List.mem_insertionSort, List.mem_dedup, List.mem_flatMap]
  · rw [hR.times]
    have h1 := List.pairwise_insertionSort (· ≤ ·) (dfs.flatMap (·.times)).dedup
    have h2 : ((dfs.flatMap (·.times)).dedup.insertionSort (· ≤ ·)).Nodup :=
      (List.perm_insertionSort _ _).nodup_iff.2 (List.nodup_dedup _)
    exact (h1.and h2).imp fun ⟨a, b⟩ => lt_of_le_of_ne a b
  · intro F hFm i hi
    have him : i < F.meta.length := by rw [Ok.lengths (hF F hFm)]; exact hi
    obtain ⟨k, hk, hsame⟩ := distinctRows_cover (key_target (times := R.times) hFm him hi)
    obtain ⟨j, hj⟩ := List.getElem?_of_mem hk
    have hjl : j < R.data.length := by rw [hlen.2]; exact (List.getElem?_eq_some_iff.1 hj).1
    obtain ⟨F0, hF0, i0, -, hk0, hs0⟩ := result_source hF hs hr hR hne hjl
    refine ⟨j, hjl, hs0.trans ?_⟩
    have : k = seriesKey (jointCols dfs) (F0.metaAt i0) := by
      have hj' : (keysOf dfs R.times)[j]? = some k := hj
      rw [hk0] at hj'
      exact (Option.some.inj hj').symm
    rw [this] at hsame
    exact (seriesKey_same (fun c => hs F0 hF0 i0 c) (fun c => hs F hFm i c)
        (fun c hc => metaAt_absent (hF F0 hF0) fun h => hc (mem_joint hF0 h))
        (fun c hc => metaAt_absent (hF F hFm) fun h => hc (mem_joint hFm h))).1 hsame
  · intro j hj
    obtain ⟨F, hFm, i, hi, -, hsm⟩ := result_source hF hs hr hR hne hj
    exact ⟨F, hFm, i, hi, hsm⟩
  · intro j hj j' hj' hsm
    obtain ⟨F, hFm, i, hi, hk, h1⟩ := result_source hF hs hr hR hne hj
    obtain ⟨F', hFm', i', hi', hk', h1'⟩ := result_source hF hs hr hR hne hj'
    have hd := distinctRows_distinct ((dfs.flatMap (entriesOf (jointCols dfs) R.times)).map (·.1))
    have same : ∀ {F F' : DFrame K} {i i' : Nat}, F ∈ dfs → F' ∈ dfs → SameMeta (F.metaAt i) (F'.metaAt i') →
        sameRow (seriesKey (jointCols dfs) (F.metaAt i)) (seriesKey (jointCols dfs) (F'.metaAt i')) = true := by
      intro F F' i i' hFm hFm' hh
      exact (seriesKey_same (fun c => hs F hFm i c) (fun c => hs F' hFm' i' c)
        (fun c hc => metaAt_absent (hF F hFm) fun h => hc (mem_joint hFm h))
        (fun c hc => metaAt_absent (hF F' hFm') fun h => hc (mem_joint hFm' h))).2 hh
    obtain ⟨a1, a2⟩ := List.getElem?_eq_some_iff.1 hk
    obtain ⟨b1, b2⟩ := List.getElem?_eq_some_iff.1 hk'
    have hd' := List.pairwise_iff_getElem.1 hd
    rcases Nat.lt_trichotomy j j' with hlt | e | hlt
    · refine absurd ?_ (hd' j j' a1 b1 hlt)
      have := same hFm hFm' ((h1.symm.trans hsm).trans h1')
      rw [← a2, ← b2] at this
      exact this
    · exact e
    · refine absurd ?_ (hd' j' j b1 a1 hlt)
      have := same hFm' hFm ((h1'.symm.trans hsm.symm).trans h1)
      rw [← a2, ← b2] at this
      exact this

/-- C52: without overlap no value is altered, and none is invented. -/
theorem C52_no_overlap_partial {dfs : List (DFrame K)} {msg : DupMsg} {R : DFrame K} (hF : ∀ F ∈ dfs, F.Ok)
    (hr : ∀ F ∈ dfs, ∀ c ∈ requiredCols, c ∈ F.cols) (hs : ∀ F ∈ dfs, NoSentinel F)
    (h : dfAppend dfs msg = .ok (.frame R)) {j : Nat} (hj : j < R.data.length) {t : Int}
    (ho : (valuesFor dfs (R.metaAt j) t).length ≤ 1) (x : K) :
    R.valueAt j t = some x ↔ ∃ F ∈ dfs, ∃ i < F.data.length, SameMeta (R.metaAt j) (F.metaAt i) ∧ F.valueAt i t = some x := by
  classical
  have hmem : x ∈ valuesFor dfs (R.metaAt j) t ↔
      ∃ F ∈ dfs, ∃ i < F.data.length, SameMeta (R.metaAt j) (F.metaAt i) ∧ F.valueAt i t = some x := by
    simp only [valuesFor, List.mem_flatMap, List.mem_filterMap, List.mem_range]
    refine exists_congr fun F => and_congr_right fun _ => exists_congr fun i => and_congr_right fun _ => ?_
    split
    · rename_i h; simp [h]
    · rename_i h; simp [h]
  rw [← hmem, (C52_average_partial hF hr hs h).2.2.2.2.2.2 j hj t]
  generalize valuesFor dfs (R.metaAt j) t = l at ho
  match l, ho with
  | [], _ => simp [average]
  | [y], _ => simp [average, eq_comm]

/-- C52: the order of the inputs makes no difference to the values. -/
theorem C52_order_partial {dfs dfs' : List (DFrame K)} {msg msg' : DupMsg} {R R' : DFrame K} (hp : dfs.Perm dfs')
    (hF : ∀ F ∈ dfs, F.Ok) (hr : ∀ F ∈ dfs, ∀ c ∈ requiredCols, c ∈ F.cols) (hs : ∀ F ∈ dfs, NoSentinel F)
    (h : dfAppend dfs msg = .ok (.frame R)) (h' : dfAppend dfs' msg' = .ok (.frame R')) :
    R.times = R'.times ∧
    ∀ j < R.data.length, ∃ j' < R'.data.length, SameMeta (R.metaAt j) (R'.metaAt j') ∧ ∀ t, R.valueAt j t = R'.valueAt j' t := by
  classical
  have hF' : ∀ F ∈ dfs', F.Ok := fun F h => hF F (hp.mem_iff.2 h)
  have hr' : ∀ F ∈ dfs', ∀ c ∈ requiredCols, c ∈ F.cols := fun F h => hr F (hp.mem_iff.2 h)
  have hs' : ∀ F ∈ dfs', NoSentinel F := fun F h => hs F (hp.mem_iff.2 h)
  obtain ⟨a1, a2, a3, a4, a5, a6, a7⟩ := C52_average_partial hF hr hs h
  obtain ⟨b1, b2, b3, b4, b5, b6, b7⟩ := C52_average_partial hF' hr' hs' h'
  refine ⟨?_, fun j hj => ?_⟩
  · refine List.Perm.eq_of_pairwise (le := (· < ·)) (fun a b _ _ h1 h2 => absurd h1 (not_lt_of_gt h2)) a3 b3 ?_
    refine (List.perm_ext_iff_of_nodup (a3.imp fun h => ne_of_lt h) (b3.imp fun h => ne_of_lt h)).2 fun t => ?_
    rw [a2, b2]
    exact exists_congr fun F => and_congr_left fun _ => hp.mem_iff
  · obtain ⟨F, hFm, i, hi, e1⟩ := a5 j hj
    obtain ⟨j', hj', e2⟩ := b4 F (hp.mem_iff.1 hFm) i hi
    have hsm : SameMeta (R.metaAt j) (R'.metaAt j') := e1.trans e2.symm
    refine ⟨j', hj', hsm, fun t => ?_⟩
    rw [a7 j hj t, b7 j' hj' t]
    have e : valuesFor dfs (R.metaAt j) t = valuesFor dfs (R'.metaAt j') t := by
      unfold valuesFor
      refine List.flatMap_congr fun F _ => List.filterMap_congr fun i _ => ?_
      have : SameMeta (R.metaAt j) (F.metaAt i) ↔ SameMeta (R'.metaAt j') (F.metaAt i) :=
        ⟨fun h => hsm.symm.trans h, fun h => hsm.trans h⟩
      simp only [this]
    have hperm : (valuesFor dfs (R'.metaAt j') t).Perm (valuesFor dfs' (R'.metaAt j') t) := hp.flatMap_right _
    rw [e]
    unfold average
    rw [hperm.sum_eq, hperm.length_eq]
    have : valuesFor dfs (R'.metaAt j') t = [] ↔ valuesFor dfs' (R'.metaAt j') t = [] := by
      constructor
      · intro h; rw [h] at hperm; exact hperm.nil_eq.symm
      · intro h; rw [h] at hperm; exact hperm.eq_nil
    simp only [this]

theorem sameRow_append {r s c : List (PyVal K)} (h : sameRow (r ++ c) (s ++ c) = true) (hl : r.length = s.length) :
    sameRow r s = true := by
  induction r generalizing s with
  | nil =>
    cases s with
    | nil => rfl
    | cons a s => cases hl
  | cons a r ih =>
    cases s with
    | nil => cases hl
    | cons b s =>
      simp only [List.cons_append, sameRow, Bool.and_eq_true] at h ⊢
      exact ⟨h.1, ih h.2 (by simpa using hl)⟩

/-- C52: frames in which no timeseries is there twice can be appended. -/
theorem C52_works {dfs : List (DFrame K)} {msg : DupMsg} (hm : msg = .warn ∨ msg = .off) (hne : dfs ≠ [])
    (hF : ∀ F ∈ dfs, F.Ok) (hd : ∀ F ∈ dfs, DistinctMeta F) (ht : ∀ F ∈ dfs, F.times.Nodup) :
    ∃ R, dfAppend dfs msg = .ok (.frame R) := by
  have part : ∀ joint times, ∀ F ∈ dfs, ∃ l, appendPart joint times F = .ok l := by
    intro joint times F hFm
    have hdup : hasDuplicates ((F.addMissing joint).meta.map (·.2)) = false := by
      rw [hasDuplicates_iff]
      have h1 := hd F hFm
      unfold DistinctMeta at h1 ⊢
      simp only [DFrame.addMissing, List.pairwise_map]
      refine (List.Pairwise.and_mem.1 h1).imp ?_
      rintro r s ⟨hr, hs, hn⟩ hh
      rw [← sameRow_iff] at hh hn
      exact hn (sameRow_append hh (by rw [(hF F hFm).meta_len r hr, (hF F hFm).meta_len s hs]))
    have hn : (F.addMissing joint).times.Nodup := ht F hFm
    unfold appendPart DFrame.timeseries
    simp only [hdup, Bool.false_eq_true, if_false, hn, if_true]
    exact ⟨_, rfl⟩
  have parts : ∀ joint times, ∀ l : List (DFrame K), (∀ F ∈ l, F ∈ dfs) → ∃ d, appendParts joint times l = .ok d := by
    intro joint times l
    induction l with
    | nil => exact fun _ => ⟨_, rfl⟩
    | cons F l ih =>
      intro hl
      obtain ⟨a, ha⟩ := part joint times F (hl F (by simp))
      obtain ⟨b, hb⟩ := ih fun F h => hl F (by simp [h])
      exact ⟨_, by simp only [appendParts, ha, hb]; rfl⟩
  obtain ⟨d, hd⟩ := parts (jointCols dfs) ((dfs.flatMap (·.times)).dedup.insertionSort (· ≤ ·)) dfs fun _ h => h
  unfold dfAppend
  rw [if_neg hne]
  simp only [hd]
  rcases hm with rfl | rfl
  · split
    · exact ⟨_, rfl⟩
    · exact ⟨_, rfl⟩
  · rw [if_neg (by simp)]
    exact ⟨_, rfl⟩

/-! ## Examples and what fails -/

/-- A frame with one timeseries. -/
def oneF (times : List Int) (values : List (Fl ℚ)) (unit : String) (extra : List (String × PyVal ℚ)) : DFrame ℚ :=
  { times := times, cols := requiredCols ++ extra.map (·.1), data := [(0, values)]
    «meta» := [(0, [.str "m", .str "s", .str "World", .str "v", .str unit] ++ extra.map (·.2))] }

/-- Metadata and values of the frame that an append gave. -/
def appendedOf (r : Except Err (Appended ℚ)) : Option (List Int × List (List (PyVal ℚ)) × List (List (Fl ℚ))) :=
  match r with
  | .ok (.frame R) => some (R.times, R.meta.map (·.2), R.data.map (·.2))
  | _ => none

example : appendedOf (dfAppend [oneF [0, 1] [.num 1, .num 2] "K" [], oneF [1, 3] [.num 4, .num 5] "K" [],
      oneF [0] [.num 7] "W" [("e", .str "x")]] .warn) =
    some ([0, 1, 3],
      [[.str "m", .str "s", .str "World", .str "v", .str "K", .flt .nan],
       [.str "m", .str "s", .str "World", .str "v", .str "W", .str "x"]],
      [[.num 1, .num 3, .num 5], [.num 7, .nan, .nan]]) := by decide +kernel

/-- C52 fails for metadata with the value `-999`: it is lost, and two timeseries that differ become one. -/
theorem C52_sentinel : ∃ F G : DFrame ℚ, ∃ R, F.Ok ∧ G.Ok ∧ dfAppend [F, G] .off = .ok (.frame R) ∧
    ¬ SameMeta (F.metaAt 0) (G.metaAt 0) ∧ F.valueAt 0 0 = some 1 ∧ G.valueAt 0 0 = some 3 ∧
    R.data.length = 1 ∧ R.valueAt 0 0 = some 2 ∧ ¬ SameMeta (R.metaAt 0) (F.metaAt 0) := by
  refine ⟨oneF [0] [.num 1] "K" [("e", .int (-999))], oneF [0] [.num 3] "K" [], _,
    ⟨by decide, by decide, by decide +kernel, by decide, by decide +kernel⟩,
    ⟨by decide, by decide, by decide +kernel, by decide, by decide +kernel⟩, rfl, ?_, by decide +kernel, by decide +kernel,
    by decide +kernel, by decide +kernel, ?_⟩
  · intro h
    have := (h "e").isNull
    revert this
    decide +kernel
  · intro h
    have := (h "e").isNull
    revert this
    decide +kernel

theorem noSentinel_of {F : DFrame K} (h : ∀ r ∈ F.meta, ∀ v ∈ r.2, v.same (.int (-999)) = false) : NoSentinel F := by
  intro i c hs
  rw [← same_iff] at hs
  unfold DFrame.metaAt at hs
  split at hs
  · rename_i r hr
    have hr := List.mem_of_getElem? hr
    rw [rowVal, List.getD_eq_getElem?_getD] at hs
    cases hg : r.2[F.cols.idxOf c]? with
    | none => rw [hg] at hs; cases hs
    | some v =>
      rw [hg, Option.getD_some, h r hr v (List.mem_of_getElem? hg)] at hs
      cases hs
  · cases hs

example : ∃ R, dfAppend [oneF [0, 1] [.num 1, .num 2] "K" [], oneF [1, 3] [.num 4, .num 5] "K" [("e", .none)]] .warn =
    .ok (.frame R) ∧ ∀ j < R.data.length, ∀ t, R.valueAt j t = average (valuesFor
      [oneF [0, 1] [.num 1, .num 2] "K" [], oneF [1, 3] [.num 4, .num 5] "K" [("e", .none)]] (R.metaAt j) t) := by
  refine ⟨_, rfl, (C52_average_partial (msg := .warn) ?_ ?_ ?_ rfl).2.2.2.2.2.2⟩
  · intro F hF
    simp only [List.mem_cons, List.not_mem_nil, or_false] at hF
    rcases hF with rfl | rfl
    · exact ⟨by decide, by decide, by decide +kernel, by decide, by decide +kernel⟩
    · exact ⟨by decide, by decide, by decide +kernel, by decide, by decide +kernel⟩
  · decide +kernel
  · intro F hF
    apply noSentinel_of
    revert F
    decide +kernel

end Openscm
