import Verif.FrameAppend3

/-!
# Appending frames, with any metadata

`df_append` writes `-999` for missing metadata and later reads `-999` as missing
(`openscm/scmdataframe/base.py:1491`, `1531`). So metadata with the value `-999` is not kept apart from missing
metadata. Here is exactly what holds for all metadata.
-/

set_option linter.unusedSectionVars false

namespace Openscm

variable {K : Type} [Field K] [DecidableEq K] [CharZero K]

/-! ## Specification -/

/-- Missing, or the number `-999`. -/
def Blank (v : PyVal K) : Prop := v = .none ∨ v = .flt .nan ∨ v = .int (-999) ∨ v = .flt (.num (-999))

/-- The same metadata, where `-999` counts as missing. -/
def AlikeMeta (m m' : String → PyVal K) : Prop := ∀ c, SameValue (m c) (m' c) ∨ Blank (m c) ∧ Blank (m' c)

open Classical in
/-- The values that the frames have for the metadata `m` at time `t`. -/
noncomputable def valuesAlike (dfs : List (DFrame K)) (m : String → PyVal K) (t : Int) : List K :=
  dfs.flatMap fun F => (List.range F.data.length).filterMap fun i =>
    if AlikeMeta m (F.metaAt i) then F.valueAt i t else none

/-- Some metadata has two values at one time. -/
def OverlapAlike (dfs : List (DFrame K)) : Prop :=
  ∃ F ∈ dfs, ∃ i < F.data.length, ∃ t, 1 < (valuesAlike dfs (F.metaAt i) t).length

/-! ## Facts -/

theorem same_naFill {v : PyVal K} : SameValue v naFill ↔ v = .int (-999) ∨ v = .flt (.num (-999)) := by
  constructor
  · intro h
    generalize hb : (naFill : PyVal K) = b at h
    cases h with
    | missing _ h2 => subst hb; simp [naFill] at h2
    | equal => exact .inl hb.symm
    | intFloat z => cases hb
    | floatInt z => cases hb; right; simp
  · rintro (rfl | rfl)
    · exact .equal _
    · have := SameValue.floatInt (K := K) (-999)
      simpa [naFill] using this

theorem blank_iff {v : PyVal K} : Blank v ↔ SameValue (fillNull v) naFill := by
  unfold fillNull Blank
  split
  · rename_i h
    have := isNull_iff.1 h
    exact ⟨fun _ => .equal _, fun _ => by tauto⟩
  · rename_i h
    have := mt isNull_iff.2 h
    rw [same_naFill]
    tauto

theorem alike_iff {a b : PyVal K} : SameValue (fillNull a) (fillNull b) ↔ SameValue a b ∨ Blank a ∧ Blank b := by
  constructor
  · intro h
    by_cases ha : Blank a
    · exact .inr ⟨ha, blank_iff.2 (h.symm.trans (blank_iff.1 ha))⟩
    · have hb : ¬ Blank b := fun hb => ha (blank_iff.2 (h.trans (blank_iff.1 hb)))
      unfold Blank at ha hb
      have h1 : ¬ a.isNull = true := fun h => ha (by have := isNull_iff.1 h; tauto)
      have h2 : ¬ b.isNull = true := fun h => hb (by have := isNull_iff.1 h; tauto)
      unfold fillNull at h
      rw [if_neg h1, if_neg h2] at h
      exact .inl h
  · rintro (h | ⟨h1, h2⟩)
    · unfold fillNull
      rw [h.isNull]
      split
      · exact .equal _
      · exact h
    · exact (blank_iff.1 h1).trans (blank_iff.1 h2).symm

theorem alike_refl (v : PyVal K) : SameValue v v ∨ Blank v ∧ Blank v := .inl (.equal _)

theorem AlikeMeta.symm {m m' : String → PyVal K} (h : AlikeMeta m m') : AlikeMeta m' m :=
  fun c => alike_iff.1 (alike_iff.2 (h c)).symm

theorem AlikeMeta.trans {m m' m'' : String → PyVal K} (h : AlikeMeta m m') (h' : AlikeMeta m' m'') : AlikeMeta m m'' :=
  fun c => alike_iff.1 ((alike_iff.2 (h c)).trans (alike_iff.2 (h' c)))

theorem alike_unfill (v : PyVal K) : SameValue (unfill (fillNull v)) v ∨ Blank (unfill (fillNull v)) ∧ Blank v := by
  by_cases h : SameValue (fillNull v) naFill
  · right
    refine ⟨?_, blank_iff.2 h⟩
    unfold unfill
    rw [if_pos (eq_naFill.2 h)]
    exact .inr (.inl rfl)
  · left
    refine unfill_fill fun h' => h (blank_iff.1 ?_)
    have := same_naFill.1 h'
    unfold Blank
    tauto

theorem seriesKey_alike {joint : List String} {m m' : String → PyVal K} (ha : ∀ c, c ∉ joint → m c = .none)
    (ha' : ∀ c, c ∉ joint → m' c = .none) :
    sameRow (seriesKey joint m) (seriesKey joint m') = true ↔ AlikeMeta m m' := by
  unfold seriesKey
  rw [sameRow_map]
  constructor
  · intro h c
    by_cases hc : c ∈ joint
    · exact alike_iff.1 (h c hc)
    · rw [ha c hc, ha' c hc]; exact alike_refl _
  · intro h c _
    exact alike_iff.2 (h c)

section
variable {dfs : List (DFrame K)} {R : DFrame K} (hF : ∀ F ∈ dfs, F.Ok)
  (hr : ∀ F ∈ dfs, ∀ c ∈ requiredCols, c ∈ F.cols) (hR : AppendFacts dfs R)

include hR in
theorem alike_meta (hne : dfs ≠ []) (hr : ∀ F ∈ dfs, ∀ c ∈ requiredCols, c ∈ F.cols)
    {j : Nat} {m : String → PyVal K} (hj : (keysOf dfs R.times)[j]? = some (seriesKey (jointCols dfs) m))
    (hm : ∀ c, c ∉ jointCols dfs → m c = .none) : AlikeMeta (R.metaAt j) m := by
  have hreq : ∀ c ∈ requiredCols, c ∈ jointCols dfs := by
    intro c hc
    obtain ⟨F, hFm⟩ := List.exists_mem_of_ne_nil _ hne
    exact mem_joint hFm (hr F hFm c hc)
  have hmeta : R.meta[j]? = some (j, selectCols (jointCols dfs) (sortedCols (jointCols dfs))
      ((seriesKey (jointCols dfs) m).map unfill)) := by
    rw [hR.form]
    unfold finishAppend DFrame.sortMeta
    simp only [List.getElem?_map, List.getElem?_zipIdx]
    have : (distinctRows ((dfs.flatMap (entriesOf (jointCols dfs) R.times)).map (·.1)))[j]? =
        some (seriesKey (jointCols dfs) m) := hj
    rw [this]
    simp
  have hcols : R.cols = sortedCols (jointCols dfs) := by rw [hR.form]; rfl
  intro c
  simp only [DFrame.metaAt, hmeta, hcols]
  rw [rowVal_select (by simp [seriesKey]) (fun c => sortedCols_mem hreq)]
  by_cases hc : c ∈ jointCols dfs
  · rw [seriesKey, List.map_map, rowVal_map hc]
    exact alike_unfill _
  · rw [rowVal_absent (by simp [seriesKey]) hc, hm c hc]
    exact alike_refl _

include hF hr hR in
/-- Each timeseries of the result stands for timeseries of the inputs. -/
theorem alike_source (hne : dfs ≠ []) {j : Nat} (hj : j < R.data.length) :
    ∃ F ∈ dfs, ∃ i, i < F.data.length ∧ (keysOf dfs R.times)[j]? = some (seriesKey (jointCols dfs) (F.metaAt i)) ∧
      AlikeMeta (R.metaAt j) (F.metaAt i) := by
  have hlen := (result_lengths hF hR hne hr).2
  have hj' : j < (keysOf dfs R.times).length := by omega
  obtain ⟨F, hFm, i, h1, h2, e⟩ := key_source (distinctRows_sub (List.getElem_mem hj'))
  have hk : (keysOf dfs R.times)[j]? = some (seriesKey (jointCols dfs) (F.metaAt i)) := by
    rw [List.getElem?_eq_getElem hj']; exact congrArg some e
  exact ⟨F, hFm, i, h2, hk, alike_meta hR hne hr hk
    (fun c hc => metaAt_absent (hF F hFm) fun h => hc (mem_joint hFm h))⟩

include hF hr hR in
theorem alike_value (hne : dfs ≠ []) {j : Nat} (hj : j < R.data.length) (t : Int) :
    R.valueAt j t = average (valuesAlike dfs (R.metaAt j) t) := by
  classical
  obtain ⟨F0, hF0, i0, h0, hk, hsame⟩ := alike_source hF hr hR hne hj
  have hOk := (result_lengths hF hR hne hr).1
  by_cases ht : t ∈ R.times
  · have hlt := List.idxOf_lt_length_of_mem ht
    have hdata : R.data[j]? = some (j, (List.range R.times.length).map fun q =>
        meanOf (((dfs.flatMap (entriesOf (jointCols dfs) R.times)).filter fun e =>
          sameRow (seriesKey (jointCols dfs) (F0.metaAt i0)) e.1).map fun e => e.2.getD q .nan)) := by
      conv_lhs => rw [hR.form]
      unfold finishAppend DFrame.sortMeta
      simp only [List.getElem?_map, List.getElem?_zipIdx]
      have : (distinctRows ((dfs.flatMap (entriesOf (jointCols dfs) R.times)).map (·.1)))[j]? =
          some (seriesKey (jointCols dfs) (F0.metaAt i0)) := hk
      rw [this]
      simp
    rw [valueAt_eq, hdata]
    simp only [Option.bind_some, atTime]
    rw [List.getD_eq_getElem?_getD, List.getElem?_map, List.getElem?_range hlt]
    simp only [Option.map_some, Option.getD_some]
    rw [numOf_meanOf]
    congr 1
    rw [List.filterMap_map, List.filter_flatMap, List.filterMap_flatMap, valuesAlike]
    refine List.flatMap_congr fun F hFm => ?_
    rw [entriesOf, List.filter_map, List.filterMap_map, List.filterMap_filter, filterMap_range]
    have hl : (F.meta.zip F.data).length = F.data.length := by
      simp [Ok.lengths (hF F hFm)]
    rw [hl]
    refine List.filterMap_congr fun i hi => ?_
    rw [List.mem_range] at hi
    have him : i < F.meta.length := by rw [Ok.lengths (hF F hFm)]; exact hi
    have hz : (F.meta.zip F.data)[i]? = some (F.meta[i], F.data[i]) := by
      rw [List.getElem?_zip_eq_some]
      exact ⟨List.getElem?_eq_getElem him, List.getElem?_eq_getElem hi⟩
    rw [hz]
    simp only [Option.bind_some, Function.comp]
    have hm : rowVal F.cols F.meta[i].2 = F.metaAt i := by
      funext c; simp [DFrame.metaAt, List.getElem?_eq_getElem him]
    rw [hm]
    have hiff : sameRow (seriesKey (jointCols dfs) (F0.metaAt i0)) (seriesKey (jointCols dfs) (F.metaAt i)) = true ↔
        AlikeMeta (R.metaAt j) (F.metaAt i) := by
      rw [seriesKey_alike
        (fun c hc => metaAt_absent (hF F0 hF0) fun h => hc (mem_joint hF0 h))
        (fun c hc => metaAt_absent (hF F hFm) fun h => hc (mem_joint hFm h))]
      exact ⟨fun h => hsame.trans h, fun h => hsame.symm.trans h⟩
    by_cases hh : AlikeMeta (R.metaAt j) (F.metaAt i)
    · rw [if_pos (hiff.2 hh), if_pos hh, valueAt_eq, List.getElem?_eq_getElem hi]
      simp only [Option.bind_some]
      rw [List.getD_eq_getElem?_getD, List.getElem?_map, List.getElem?_eq_getElem hlt, List.getElem_idxOf]
      rfl
    · rw [if_neg fun h => hh (hiff.1 h), if_neg hh]
  · rw [valueAt_absent hOk ht]
    have : valuesAlike dfs (R.metaAt j) t = [] := by
      unfold valuesAlike
      rw [List.flatMap_eq_nil_iff]
      intro F hFm
      rw [List.filterMap_eq_nil_iff]
      intro i _
      have : t ∉ F.times := fun h => ht (by
        rw [hR.times, List.mem_insertionSort, List.mem_dedup, List.mem_flatMap]
        exact ⟨F, hFm, h⟩)
      rw [valueAt_absent (hF F hFm) this]
      split <;> rfl
    rw [this]
    rfl

end

/-! ## C52 -/

/-- C52, for all metadata: for every metadata combination of the inputs and every time the result has the average of the
values that the inputs have there, it has no other metadata combination and none twice, and its times are those of the
inputs, in order; where `-999` counts as missing. -/
theorem C52_exact_partial {dfs : List (DFrame K)} {msg : DupMsg} {R : DFrame K} (hF : ∀ F ∈ dfs, F.Ok)
    (hr : ∀ F ∈ dfs, ∀ c ∈ requiredCols, c ∈ F.cols)
    (h : dfAppend dfs msg = .ok (.frame R)) :
    R.Ok ∧
    (∀ t, t ∈ R.times ↔ ∃ F ∈ dfs, t ∈ F.times) ∧ R.times.Pairwise (· < ·) ∧
    (∀ F ∈ dfs, ∀ i < F.data.length, ∃ j < R.data.length, AlikeMeta (R.metaAt j) (F.metaAt i)) ∧
    (∀ j < R.data.length, ∃ F ∈ dfs, ∃ i < F.data.length, AlikeMeta (R.metaAt j) (F.metaAt i)) ∧
    (∀ j < R.data.length, ∀ j' < R.data.length, AlikeMeta (R.metaAt j) (R.metaAt j') → j = j') ∧
    ∀ j < R.data.length, ∀ t, R.valueAt j t = average (valuesAlike dfs (R.metaAt j) t) := by
  have hne := dfAppend_ne h
  have hR := dfAppend_frame hF h
  have hlen := result_lengths hF hR hne hr
  refine ⟨hlen.1, ?_, ?_, ?_, ?_, ?_, fun j hj t => alike_value hF hr hR hne hj t⟩
  · intro t
    rw [hR.times, List.mem_insertionSort, List.mem_dedup, List.mem_flatMap]
  · rw [hR.times]
    have h1 := List.pairwise_insertionSort (· ≤ ·) (dfs.flatMap (·.times)).dedup
    have h2 : ((dfs.flatMap (·.times)).dedup.insertionSort (· ≤ ·)).Nodup :=
      (List.perm_insertionSort _ _).nodup_iff.2 (List.nodup_dedup _)
    exact (h1.and h2).imp fun ⟨a, b⟩ => lt_of_le_of_ne a b
  · intro F hFm i hi
    have him : i < F.meta.length := by rw [Ok.lengths (hF F hFm)]; exact hi
    obtain ⟨k, hk, hsame⟩ := distinctRows_cover (key_target (times := R.times) hFm him hi)
    obtain ⟨j, hj⟩ := List.getElem?_of_mem hk
    have hjl : j < R.data.length := by rw [hlen.2]; exact (List.getElem?_eq_some_iff.1 hj).1
    obtain ⟨F0, hF0, i0, -, hk0, hs0⟩ := alike_source hF hr hR hne hjl
    refine ⟨j, hjl, hs0.trans ?_⟩
    have : k = seriesKey (jointCols dfs) (F0.metaAt i0) := by
      have hj' : (keysOf dfs R.times)[j]? = some k := hj
      rw [hk0] at hj'
      exact (Option.some.inj hj').symm
    rw [this] at hsame
    exact (seriesKey_alike
        (fun c hc => metaAt_absent (hF F0 hF0) fun h => hc (mem_joint hF0 h))
        (fun c hc => metaAt_absent (hF F hFm) fun h => hc (mem_joint hFm h))).1 hsame
  · intro j hj
    obtain ⟨F, hFm, i, hi, -, hsm⟩ := alike_source hF hr hR hne hj
    exact ⟨F, hFm, i, hi, hsm⟩
  · intro j hj j' hj' hsm
    obtain ⟨F, hFm, i, hi, hk, h1⟩ := alike_source hF hr hR hne hj
    obtain ⟨F', hFm', i', hi', hk', h1'⟩ := alike_source hF hr hR hne hj'
    have hd := distinctRows_distinct ((dfs.flatMap (entriesOf (jointCols dfs) R.times)).map (·.1))
    have same : ∀ {F F' : DFrame K} {i i' : Nat}, F ∈ dfs → F' ∈ dfs → AlikeMeta (F.metaAt i) (F'.metaAt i') →
        sameRow (seriesKey (jointCols dfs) (F.metaAt i)) (seriesKey (jointCols dfs) (F'.metaAt i')) = true := by
      intro F F' i i' hFm hFm' hh
      exact (seriesKey_alike
        (fun c hc => metaAt_absent (hF F hFm) fun h => hc (mem_joint hFm h))
        (fun c hc => metaAt_absent (hF F' hFm') fun h => hc (mem_joint hFm' h))).2 hh
    obtain ⟨a1, a2⟩ := List.getElem?_eq_some_iff.1 hk
    obtain ⟨b1, b2⟩ := List.getElem?_eq_some_iff.1 hk'
    have hd' := List.pairwise_iff_getElem.1 hd
    rcases Nat.lt_trichotomy j j' with hlt | e | hlt
    · refine absurd ?_ (hd' j j' a1 b1 hlt)
      have := same hFm hFm' ((h1.symm.trans hsm).trans h1')
      rw [← a2, ← b2] at this
      exact this
    · exact e
    · refine absurd ?_ (hd' j' j b1 a1 hlt)
      have := same hFm' hFm ((h1'.symm.trans hsm.symm).trans h1)
      rw [← a2, ← b2] at this
      exact this

/-- C52, for all metadata: the order of the inputs makes no difference to the values. -/
theorem C52_exact_order_partial {dfs dfs' : List (DFrame K)} {msg msg' : DupMsg} {R R' : DFrame K} (hp : dfs.Perm dfs')
    (hF : ∀ F ∈ dfs, F.Ok) (hr : ∀ F ∈ dfs, ∀ c ∈ requiredCols, c ∈ F.cols)
    (h : dfAppend dfs msg = .ok (.frame R)) (h' : dfAppend dfs' msg' = .ok (.frame R')) :
    R.times = R'.times ∧
    ∀ j < R.data.length, ∃ j' < R'.data.length, AlikeMeta (R.metaAt j) (R'.metaAt j') ∧ ∀ t, R.valueAt j t = R'.valueAt j' t := by
  classical
  have hF' : ∀ F ∈ dfs', F.Ok := fun F h => hF F (hp.mem_iff.2 h)
  have hr' : ∀ F ∈ dfs', ∀ c ∈ requiredCols, c ∈ F.cols := fun F h => hr F (hp.mem_iff.2 h)
  obtain ⟨a1, a2, a3, a4, a5, a6, a7⟩ := C52_exact_partial hF hr h
  obtain ⟨b1, b2, b3, b4, b5, b6, b7⟩ := C52_exact_partial hF' hr' h'
  refine ⟨?_, fun j hj => ?_⟩
  · refine List.Perm.eq_of_pairwise (le := (· < ·)) (fun a b _ _ h1 h2 => absurd h1 (not_lt_of_gt h2)) a3 b3 ?_
    refine (List.perm_ext_iff_of_nodup (a3.imp fun h => ne_of_lt h) (b3.imp fun h => ne_of_lt h)).2 fun t => ?_
    rw [a2, b2]
    exact exists_congr fun F => and_congr_left fun _ => hp.mem_iff
  · obtain ⟨F, hFm, i, hi, e1⟩ := a5 j hj
    obtain ⟨j', hj', e2⟩ := b4 F (hp.mem_iff.1 hFm) i hi
    have hsm : AlikeMeta (R.metaAt j) (R'.metaAt j') := e1.trans e2.symm
    refine ⟨j', hj', hsm, fun t => ?_⟩
    rw [a7 j hj t, b7 j' hj' t]
    have e : valuesAlike dfs (R.metaAt j) t = valuesAlike dfs (R'.metaAt j') t := by
      unfold valuesAlike
      refine List.flatMap_congr fun F _ => List.filterMap_congr fun i _ => ?_
      have : AlikeMeta (R.metaAt j) (F.metaAt i) ↔ AlikeMeta (R'.metaAt j') (F.metaAt i) :=
        ⟨fun h => hsm.symm.trans h, fun h => hsm.trans h⟩
      simp only [this]
    have hperm : (valuesAlike dfs (R'.metaAt j') t).Perm (valuesAlike dfs' (R'.metaAt j') t) := hp.flatMap_right _
    rw [e]
    unfold average
    rw [hperm.sum_eq, hperm.length_eq]
    have : valuesAlike dfs (R'.metaAt j') t = [] ↔ valuesAlike dfs' (R'.metaAt j') t = [] := by
      constructor
      · intro h; rw [h] at hperm; exact hperm.nil_eq.symm
      · intro h; rw [h] at hperm; exact hperm.eq_nil
    simp only [this]

/-- The values of the entries with the key of a timeseries. -/
theorem entries_alike {dfs : List (DFrame K)} (hF : ∀ F ∈ dfs, F.Ok) {times : List Int}
    {F0 : DFrame K} (hF0 : F0 ∈ dfs) {i0 : Nat} {t : Int} (ht : t ∈ times) :
    ((dfs.flatMap (entriesOf (jointCols dfs) times)).filter fun e => sameRow (seriesKey (jointCols dfs) (F0.metaAt i0)) e.1).filterMap
      (fun e => numOf (e.2.getD (times.idxOf t) .nan)) = valuesAlike dfs (F0.metaAt i0) t := by
  classical
  have hlt := List.idxOf_lt_length_of_mem ht
  rw [List.filter_flatMap, List.filterMap_flatMap, valuesAlike]
  refine List.flatMap_congr fun F hFm => ?_
  rw [entriesOf, List.filter_map, List.filterMap_map, List.filterMap_filter, filterMap_range]
  have hl : (F.meta.zip F.data).length = F.data.length := by
    simp [Ok.lengths (hF F hFm)]
  rw [hl]
  refine List.filterMap_congr fun i hi => ?_
  rw [List.mem_range] at hi
  have him : i < F.meta.length := by rw [Ok.lengths (hF F hFm)]; exact hi
  have hz : (F.meta.zip F.data)[i]? = some (F.meta[i], F.data[i]) := by
    rw [List.getElem?_zip_eq_some]
    exact ⟨List.getElem?_eq_getElem him, List.getElem?_eq_getElem hi⟩
  rw [hz]
  simp only [Option.bind_some, Function.comp]
  have hm : rowVal F.cols F.meta[i].2 = F.metaAt i := by
    funext c; simp [DFrame.metaAt, List.getElem?_eq_getElem him]
  rw [hm]
  have hiff : sameRow (seriesKey (jointCols dfs) (F0.metaAt i0)) (seriesKey (jointCols dfs) (F.metaAt i)) = true ↔
      AlikeMeta (F0.metaAt i0) (F.metaAt i) :=
    seriesKey_alike
      (fun c hc => metaAt_absent (hF F0 hF0) fun h => hc (mem_joint hF0 h))
      (fun c hc => metaAt_absent (hF F hFm) fun h => hc (mem_joint hFm h))
  by_cases hh : AlikeMeta (F0.metaAt i0) (F.metaAt i)
  · rw [if_pos (hiff.2 hh), if_pos hh, valueAt_eq, List.getElem?_eq_getElem hi]
    simp only [Option.bind_some]
    rw [List.getD_eq_getElem?_getD, List.getElem?_map, List.getElem?_eq_getElem hlt, List.getElem_idxOf]
    rfl
  · rw [if_neg fun h => hh (hiff.1 h), if_neg hh]

theorem overlaps_alike {dfs : List (DFrame K)} (hF : ∀ F ∈ dfs, F.Ok) :
    overlaps ((dfs.flatMap (·.times)).dedup.insertionSort (· ≤ ·)).length
      (dfs.flatMap (entriesOf (jointCols dfs) ((dfs.flatMap (·.times)).dedup.insertionSort (· ≤ ·)))) = true ↔ OverlapAlike dfs := by
  classical
  generalize htd : (dfs.flatMap (·.times)).dedup.insertionSort (· ≤ ·) = times
  have hnd : times.Nodup := by
    rw [← htd]
    exact (List.perm_insertionSort _ _).nodup_iff.2 (List.nodup_dedup _)
  have hmem : ∀ t, t ∈ times ↔ ∃ F ∈ dfs, t ∈ F.times := by
    intro t
    rw [← htd, List.mem_insertionSort, List.mem_dedup, List.mem_flatMap]
  unfold overlaps OverlapAlike
  simp only [List.any_eq_true, decide_eq_true_eq, List.mem_range]
  constructor
  · rintro ⟨e, he, j, hj, h⟩
    obtain ⟨F, hFm, i, -, hi, hk⟩ := key_source (List.mem_map_of_mem (f := (·.1)) he)
    refine ⟨F, hFm, i, hi, times[j], ?_⟩
    rw [← entries_alike hF hFm (List.getElem_mem hj), hnd.idxOf_getElem, ← hk, ← filter_isNum_length]
    exact h
  · rintro ⟨F, hFm, i, hi, t, h⟩
    have ht : t ∈ times := by
      rw [hmem]
      by_contra hn
      have : valuesAlike dfs (F.metaAt i) t = [] := by
        unfold valuesAlike
        rw [List.flatMap_eq_nil_iff]
        intro G hG
        rw [List.filterMap_eq_nil_iff]
        intro i _
        rw [valueAt_absent (hF G hG) fun h => hn ⟨G, hG, h⟩]
        split <;> rfl
      rw [this] at h
      cases h
    have him : i < F.meta.length := by rw [Ok.lengths (hF F hFm)]; exact hi
    obtain ⟨e, he, hk⟩ := List.mem_map.1 (key_target (times := times) hFm him hi)
    refine ⟨e, he, times.idxOf t, List.idxOf_lt_length_of_mem ht, ?_⟩
    rw [filter_isNum_length (f := fun f : List (PyVal K) × List (Fl K) => f.2.getD (times.idxOf t) .nan), hk,
      entries_alike hF hFm ht]
    exact h

/-- C52, for all metadata: what `duplicate_msg` does. -/
theorem C52_exact_messages_partial {dfs : List (DFrame K)} (hne : dfs ≠ [])
    (hF : ∀ F ∈ dfs, F.Ok) (hd : ∀ F ∈ dfs, DistinctMeta F) (ht : ∀ F ∈ dfs, F.times.Nodup) :
    ∃ R, dfAppend dfs .off = .ok (.frame R) ∧ dfAppend dfs .warn = .ok (.frame R) ∧
      (¬ OverlapAlike dfs → ∀ msg, dfAppend dfs msg = .ok (.frame R)) ∧
      (OverlapAlike dfs → dfAppend dfs .other = .error .valueError ∧ ∃ data, dfAppend dfs .ret = .ok (.joint data) ∧
        List.Forall₂ (fun (Fi : DFrame K × Nat) (e : List (PyVal K) × List (Fl K)) =>
            List.Forall₂ (fun c v => if Fi.1.metaAt Fi.2 c = .none ∨ Fi.1.metaAt Fi.2 c = .flt .nan then v = .int (-999)
              else v = Fi.1.metaAt Fi.2 c) (jointCols dfs) e.1 ∧
            List.Forall₂ (fun t v => numOf v = Fi.1.valueAt Fi.2 t) R.times e.2)
          (dfs.flatMap fun F => (List.range F.data.length).map fun i => (F, i)) data) := by
  obtain ⟨R, hR⟩ := C52_works (msg := .off) (.inr rfl) hne hF hd ht
  have hfacts := dfAppend_frame hF hR
  have hov := overlaps_alike hF
  have hparts : appendParts (jointCols dfs) ((dfs.flatMap (·.times)).dedup.insertionSort (· ≤ ·)) dfs =
      .ok (dfs.flatMap (entriesOf (jointCols dfs) ((dfs.flatMap (·.times)).dedup.insertionSort (· ≤ ·)))) := by
    have h := hR
    unfold dfAppend at h
    rw [if_neg hne] at h
    dsimp only at h
    split at h
    · cases h
    · rename_i data hdata
      rw [hdata, appendParts_ok hF hdata]
  have hform : finishAppend (jointCols dfs) ((dfs.flatMap (·.times)).dedup.insertionSort (· ≤ ·))
      (dfs.flatMap (entriesOf (jointCols dfs) ((dfs.flatMap (·.times)).dedup.insertionSort (· ≤ ·)))) = R := by
    rw [← hfacts.times, ← hfacts.form]
  refine ⟨R, hR, ?_, fun hno msg => ?_, fun ho => ⟨?_, ?_⟩⟩
  · unfold dfAppend
    rw [if_neg hne]
    simp only [hparts, hform]
    split <;> rfl
  · unfold dfAppend
    rw [if_neg hne]
    simp only [hparts, hform]
    rw [if_neg fun h => hno (hov.1 h.2)]
  · unfold dfAppend
    rw [if_neg hne]
    simp only [hparts]
    rw [if_pos ⟨by decide, hov.2 ho⟩]
  · refine ⟨dfs.flatMap (entriesOf (jointCols dfs) ((dfs.flatMap (·.times)).dedup.insertionSort (· ≤ ·))), ?_, ?_⟩
    · unfold dfAppend
      rw [if_neg hne]
      simp only [hparts]
      rw [if_pos ⟨by decide, hov.2 ho⟩]
    · rw [← hfacts.times]
      refine forall₂_flatMap fun F hFm => ?_
      have hl : (F.meta.zip F.data).length = F.data.length := by simp [Ok.lengths (hF F hFm)]
      rw [List.forall₂_iff_get]
      refine ⟨by simp [entriesOf, Ok.lengths (hF F hFm)], fun i h1 h2 => ?_⟩
      have hi : i < F.data.length := by simpa using h1
      have him : i < F.meta.length := by rw [Ok.lengths (hF F hFm)]; exact hi
      simp only [List.get_eq_getElem, List.getElem_map, List.getElem_range, entriesOf, List.getElem_zip]
      constructor
      · rw [seriesKey, List.forall₂_map_right_iff, List.forall₂_same]
        intro c _
        rw [← metaAt_eq (List.getElem?_eq_getElem him)]
        unfold fillNull
        by_cases hnull : (F.metaAt i c).isNull = true
        · rw [if_pos hnull, if_pos (isNull_iff.1 hnull)]
          rfl
        · rw [if_neg hnull, if_neg fun h => hnull (isNull_iff.2 h)]
      · rw [List.forall₂_map_right_iff, List.forall₂_same]
        intro t _
        rw [valueAt_eq, List.getElem?_eq_getElem hi]
        rfl

/-- C52: in the result no metadata is `-999`. -/
theorem C52_no_sentinel {dfs : List (DFrame K)} {msg : DupMsg} {R : DFrame K} (hF : ∀ F ∈ dfs, F.Ok)
    (h : dfAppend dfs msg = .ok (.frame R)) (j : Nat) (c : String) :
    R.metaAt j c ≠ .int (-999) ∧ R.metaAt j c ≠ .flt (.num (-999)) := by
  have hun : ∀ v : PyVal K, ¬ SameValue (unfill v) naFill := by
    intro v
    unfold unfill
    split
    · intro h
      simp [same_naFill] at h
    · rename_i h
      exact fun h' => h (eq_naFill.2 h')
  have hget : ∀ (l : List (PyVal K)) (i : Nat), (∀ v ∈ l, ¬ SameValue v naFill) → ¬ SameValue (l.getD i .none) naFill := by
    intro l i hl
    rw [List.getD_eq_getElem?_getD]
    cases hi : l[i]? with
    | none => intro h; simp [same_naFill] at h
    | some v => exact hl v (List.mem_of_getElem? hi)
  have hno : ¬ SameValue (R.metaAt j c) naFill := by
    have hR := dfAppend_frame hF h
    unfold DFrame.metaAt
    split
    · rename_i r hr
      refine hget _ _ fun v hv => ?_
      have hrm := List.mem_of_getElem? hr
      rw [hR.form] at hrm
      simp only [finishAppend, DFrame.sortMeta, List.map_map, List.mem_map, Function.comp] at hrm
      obtain ⟨k, _, rfl⟩ := hrm
      simp only [selectCols, List.mem_map] at hv
      obtain ⟨c', _, rfl⟩ := hv
      refine hget _ _ fun v hv => ?_
      obtain ⟨w, _, rfl⟩ := List.mem_map.1 hv
      exact hun w
    · intro h; simp [same_naFill] at h
  rw [same_naFill] at hno
  tauto

/-- Metadata `-999` and missing metadata. -/
example : ∃ R, dfAppend [oneF [0] [.num 1] "K" [("e", .int (-999))], oneF [0] [.num 3] "K" []] .off = .ok (.frame R) ∧
    (∀ F ∈ [oneF [0] [.num 1] "K" [("e", .int (-999))], oneF [0] [.num 3] "K" []], F.Ok) ∧
    (∀ F ∈ [oneF [0] [.num 1] "K" [("e", .int (-999))], oneF [0] [.num 3] "K" []], ∀ c ∈ requiredCols, c ∈ F.cols) ∧
    AlikeMeta ((oneF [0] [.num 1] "K" [("e", .int (-999))]).metaAt 0) ((oneF [0] [.num 3] "K" []).metaAt 0) ∧
    R.valueAt 0 0 = some 2 := by
  refine ⟨_, rfl, ?_, ?_, ?_, by decide +kernel⟩
  · intro F hF
    simp only [List.mem_cons, List.not_mem_nil, or_false] at hF
    rcases hF with rfl | rfl
    · exact ⟨by decide, by decide, by decide +kernel, by decide, by decide +kernel⟩
    · exact ⟨by decide, by decide, by decide +kernel, by decide, by decide +kernel⟩
  · decide +kernel
  · rw [← seriesKey_alike (joint := ["model", "scenario", "region", "variable", "unit", "e"])]
    · decide +kernel
    · intro c hc
      refine metaAt_absent ⟨by decide, by decide, by decide +kernel, by decide, by decide +kernel⟩ fun h => hc ?_
      revert h
      generalize hl : (oneF [0] [.num (1 : ℚ)] "K" [("e", .int (-999))]).cols = l
      have hsub : ∀ c ∈ (oneF [0] [.num (1 : ℚ)] "K" [("e", .int (-999))]).cols,
        c ∈ ["model", "scenario", "region", "variable", "unit", "e"] := by decide +kernel
      rw [hl] at hsub
      exact hsub c
    · intro c hc
      refine metaAt_absent ⟨by decide, by decide, by decide +kernel, by decide, by decide +kernel⟩ fun h => hc ?_
      have hsub : ∀ c ∈ (oneF [0] [.num (3 : ℚ)] "K" []).cols,
        c ∈ ["model", "scenario", "region", "variable", "unit", "e"] := by decide +kernel
      exact hsub c h

end Openscm
