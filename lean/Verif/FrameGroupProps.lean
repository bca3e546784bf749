import Verif.FrameGroup

/-!
# C62: statistics over groups of timeseries
-/

set_option linter.unusedSectionVars false

namespace Openscm

variable {K : Type} [Field K] [LinearOrder K] [IsStrictOrderedRing K] [FloorSemiring K]

/-! ## What quantiles and medians are -/

theorem sorted_getElem {ys : List K} (h : ys.Pairwise (· ≤ ·)) {i j : Nat} {a b : K} (hij : i ≤ j) (ha : ys[i]? = some a)
    (hb : ys[j]? = some b) : a ≤ b := by
  rcases hij.lt_or_eq with hij | rfl
  · obtain ⟨h1, rfl⟩ := List.getElem?_eq_some_iff.1 ha
    obtain ⟨h2, rfl⟩ := List.getElem?_eq_some_iff.1 hb
    exact List.pairwise_iff_getElem.1 h _ _ h1 h2 hij
  · rw [ha] at hb; exact (Option.some.inj hb).le

/-- The step on which a position lies. -/
theorem step_of {n : Nat} (hn : 2 ≤ n) {pos : K} (h0 : 0 ≤ pos) (h1 : pos ≤ ((n - 1 : Nat) : K)) :
    ∃ i, i + 1 < n ∧ (i : K) ≤ pos ∧ pos ≤ (i : K) + 1 := by
  rcases h1.lt_or_eq with h1 | rfl
  · refine ⟨⌊pos⌋₊, ?_, Nat.floor_le h0, (Nat.lt_floor_add_one pos).le⟩
    have := (Nat.floor_lt h0).2 h1
    omega
  · refine ⟨n - 2, by omega, by exact_mod_cast (by omega : n - 2 ≤ n - 1), ?_⟩
    exact_mod_cast (by omega : n - 1 ≤ n - 2 + 1)

theorem IsQuantile.at {q : K} (h0 : 0 ≤ q) (h1 : q ≤ 1) {xs : List K} {x : K} (h : IsQuantile q xs x) :
    ∃ ys : List K, ys.Perm xs ∧ ys.Pairwise (· ≤ ·) ∧ ((∃ a, ys = [a] ∧ x = a) ∨
      2 ≤ ys.length ∧ ∃ (i : Nat) (a b : K), ys[i]? = some a ∧ ys[i + 1]? = some b ∧
        (i : K) ≤ q * ((ys.length - 1 : Nat) : K) ∧ q * ((ys.length - 1 : Nat) : K) ≤ (i : K) + 1 ∧
        x = a + (b - a) * (q * ((ys.length - 1 : Nat) : K) - (i : K))) := by
  obtain ⟨ys, hp, hs, hone, hne, hx⟩ := h
  refine ⟨ys, hp, hs, ?_⟩
  by_cases hl : 2 ≤ ys.length
  · refine .inr ⟨hl, ?_⟩
    have hc : (0 : K) ≤ ((ys.length - 1 : Nat) : K) := Nat.cast_nonneg _
    obtain ⟨i, hi, h2, h3⟩ := step_of hl (mul_nonneg h0 hc) (mul_le_of_le_one_left hc h1)
    have ea := List.getElem?_eq_getElem (l := ys) (i := i) (by omega)
    have eb := List.getElem?_eq_getElem (l := ys) (i := i + 1) hi
    exact ⟨i, _, _, ea, eb, h2, h3, hx i _ _ ea eb h2 h3⟩
  · left
    have : ys.length = 1 := by
      have := List.length_pos_iff.2 hne
      omega
    obtain ⟨a, rfl⟩ := List.length_eq_one_iff.1 this
    exact ⟨a, rfl, hone a rfl⟩

theorem perm_sorted_eq {xs ys zs : List K} (h1 : ys.Perm xs) (h2 : zs.Perm xs) (s1 : ys.Pairwise (· ≤ ·))
    (s2 : zs.Pairwise (· ≤ ·)) : ys = zs :=
  List.Perm.eq_of_pairwise (le := (· ≤ ·)) (fun _ _ _ _ => le_antisymm) s1 s2 (h1.trans h2.symm)

/-- The numbers determine the quantile. -/
theorem IsQuantile.unique {q : K} (h0 : 0 ≤ q) (h1 : q ≤ 1) {xs : List K} {x y : K} (h : IsQuantile q xs x)
    (h' : IsQuantile q xs y) : x = y := by
  obtain ⟨ys, hp, hs, hy⟩ := h.at h0 h1
  obtain ⟨zs, hp', hs', hone, _, hx⟩ := h'
  obtain rfl := perm_sorted_eq hp hp' hs hs'
  rcases hy with ⟨a, e, rfl⟩ | ⟨_, i, a, b, ha, hb, h2, h3, rfl⟩
  · exact (hone _ e).symm
  · exact (hx i a b ha hb h2 h3).symm

theorem IsMedian.unique {xs : List K} {x y : K} (h : IsMedian xs x) (h' : IsMedian xs y) : x = y := by
  obtain ⟨ys, hp, hs, a, b, ha, hb, rfl⟩ := h
  obtain ⟨zs, hp', hs', a', b', ha', hb', rfl⟩ := h'
  obtain rfl := perm_sorted_eq hp hp' hs hs'
  rw [ha] at ha'; rw [hb] at hb'
  rw [Option.some.inj ha', Option.some.inj hb']

theorem IsQuantile.mono {q r : K} (h0 : 0 ≤ q) (hqr : q ≤ r) (h1 : r ≤ 1) {xs : List K} {x y : K}
    (h : IsQuantile q xs x) (h' : IsQuantile r xs y) : x ≤ y := by
  obtain ⟨ys, hp, hs, hy⟩ := h.at h0 (hqr.trans h1)
  obtain ⟨zs, hp', hs', hz⟩ := h'.at (h0.trans hqr) h1
  obtain rfl := perm_sorted_eq hp hp' hs hs'
  rcases hy with ⟨a, e, rfl⟩ | ⟨hl, i, a, b, ha, hb, h2, h3, rfl⟩
  · rcases hz with ⟨a', e', rfl⟩ | ⟨hl, _⟩
    · rw [e] at e'; simp at e'; exact e'.le
    · rw [e] at hl; simp at hl
  · rcases hz with ⟨a', e', _⟩ | ⟨_, j, a', b', ha', hb', h2', h3', rfl⟩
    · rw [e'] at hl; simp at hl
    · have hpq : q * ((ys.length - 1 : Nat) : K) ≤ r * ((ys.length - 1 : Nat) : K) :=
        mul_le_mul_of_nonneg_right hqr (Nat.cast_nonneg _)
      generalize q * ((ys.length - 1 : Nat) : K) = p at *
      generalize r * ((ys.length - 1 : Nat) : K) = p' at *
      have hab := sorted_getElem hs (Nat.le_succ i) ha hb
      have hab' := sorted_getElem hs (Nat.le_succ j) ha' hb'
      rcases Nat.lt_trichotomy i j with hij | rfl | hij
      · have hba := sorted_getElem hs hij hb ha'
        have e1 : (b - a) * (p - i) ≤ (b - a) * 1 := mul_le_mul_of_nonneg_left (by linarith) (by linarith)
        have e2 : 0 ≤ (b' - a') * (p' - j) := mul_nonneg (by linarith) (by linarith)
        linarith
      · rw [ha] at ha'; rw [hb] at hb'
        obtain rfl := Option.some.inj ha'
        obtain rfl := Option.some.inj hb'
        have := mul_le_mul_of_nonneg_left (by linarith : p - i ≤ p' - i) (by linarith : 0 ≤ b - a)
        linarith
      · have hij' : (j : K) + 1 ≤ i := by exact_mod_cast hij
        have e1 : p = i := le_antisymm (by linarith) h2
        have e2 : p' = j + 1 := le_antisymm h3' (by linarith)
        have e3 : (i : K) = j + 1 := le_antisymm (by linarith) hij'
        have e4 : i = j + 1 := by exact_mod_cast e3
        subst e4
        rw [hb'] at ha
        obtain rfl := Option.some.inj ha
        rw [e1, e2]
        push_cast
        linarith

theorem IsQuantile.bounds {q : K} (h0 : 0 ≤ q) (h1 : q ≤ 1) {xs : List K} {x : K} (h : IsQuantile q xs x) :
    (∃ y ∈ xs, y ≤ x) ∧ ∃ y ∈ xs, x ≤ y := by
  obtain ⟨ys, hp, hs, hy⟩ := h.at h0 h1
  rcases hy with ⟨a, rfl, rfl⟩ | ⟨hl, i, a, b, ha, hb, h2, h3, rfl⟩
  · have : x ∈ xs := hp.subset (by simp)
    exact ⟨⟨_, this, le_refl _⟩, ⟨_, this, le_refl _⟩⟩
  · have hab := sorted_getElem hs (Nat.le_succ i) ha hb
    refine ⟨⟨a, hp.subset (List.mem_of_getElem? ha), ?_⟩, ⟨b, hp.subset (List.mem_of_getElem? hb), ?_⟩⟩
    · have := mul_nonneg (by linarith : 0 ≤ b - a) (by linarith : 0 ≤ q * ((ys.length - 1 : Nat) : K) - i)
      linarith
    · have := mul_le_mul_of_nonneg_left (by linarith : q * ((ys.length - 1 : Nat) : K) - i ≤ 1) (by linarith : 0 ≤ b - a)
      linarith

/-- The quantile at 0 is the smallest number. -/
theorem IsQuantile.zero {xs : List K} {x : K} (h : IsQuantile 0 xs x) : x ∈ xs ∧ ∀ y ∈ xs, x ≤ y := by
  obtain ⟨ys, hp, hs, hone, hne, hx⟩ := h
  have key : ys[0]? = some x := by
    cases ys with
    | nil => exact absurd rfl hne
    | cons a t =>
      cases t with
      | nil => rw [hone a rfl]; rfl
      | cons b t =>
        have := hx 0 a b rfl rfl (by simp) (by simp)
        simp at this
        rw [this]; rfl
  refine ⟨hp.subset (List.mem_of_getElem? key), fun y hy => ?_⟩
  obtain ⟨j, hj⟩ := List.getElem?_of_mem (hp.symm.subset hy)
  exact sorted_getElem hs (Nat.zero_le j) key hj

/-- The quantile at 1 is the largest number. -/
theorem IsQuantile.one {xs : List K} {x : K} (h : IsQuantile 1 xs x) : x ∈ xs ∧ ∀ y ∈ xs, y ≤ x := by
  obtain ⟨ys, hp, hs, hone, hne, hx⟩ := h
  have hpos := List.length_pos_iff.2 hne
  have key : ys[ys.length - 1]? = some x := by
    by_cases hl : 2 ≤ ys.length
    · have ea := List.getElem?_eq_getElem (l := ys) (i := ys.length - 2) (by omega)
      have eb := List.getElem?_eq_getElem (l := ys) (i := ys.length - 2 + 1) (by omega)
      have en : ((ys.length - 1 : Nat) : K) = ((ys.length - 2 : Nat) : K) + 1 := by
        exact_mod_cast (by omega : ys.length - 1 = ys.length - 2 + 1)
      have := hx _ _ _ ea eb (by rw [one_mul, en]; linarith) (by rw [one_mul, en])
      have e : ys.length - 1 = ys.length - 2 + 1 := by omega
      rw [e, eb, this, one_mul, en]
      congr 1
      ring
    · obtain ⟨a, rfl⟩ := List.length_eq_one_iff.1 (by omega : ys.length = 1)
      rw [hone a rfl]; rfl
  refine ⟨hp.subset (List.mem_of_getElem? key), fun y hy => ?_⟩
  obtain ⟨j, hj⟩ := List.getElem?_of_mem (hp.symm.subset hy)
  have := (List.getElem?_eq_some_iff.1 hj).1
  exact sorted_getElem hs (by omega) hj key

theorem IsMedian.quantile {xs : List K} {x : K} (h : IsMedian xs x) : IsQuantile (1 / 2) xs x := by
  obtain ⟨ys, hp, hs, a, b, ha, hb, rfl⟩ := h
  have hl := (List.getElem?_eq_some_iff.1 hb).1
  refine ⟨ys, hp, hs, ?_, List.length_pos_iff.1 (by omega), ?_⟩
  · rintro c rfl
    simp at ha hb
    rw [← ha, ← hb]
    ring
  · intro i c d hc hd h1 h2
    have hi := (List.getElem?_eq_some_iff.1 hd).1
    have h1' : (2 * i : Nat) ≤ ys.length - 1 := by
      have : (2 * i : K) ≤ ((ys.length - 1 : Nat) : K) := by linarith
      exact_mod_cast this
    have h2' : ys.length - 1 ≤ 2 * i + 2 := by
      have : ((ys.length - 1 : Nat) : K) ≤ 2 * i + 2 := by linarith
      exact_mod_cast this
    have hcase : ys.length = 2 * i + 1 ∨ ys.length = 2 * i + 2 ∨ ys.length = 2 * i + 3 := by omega
    rcases hcase with e | e | e
    · have e1 : (ys.length - 1) / 2 = i := by omega
      have e2 : ys.length / 2 = i := by omega
      rw [e1] at ha; rw [e2] at hb
      rw [hc] at ha hb
      rw [← Option.some.inj ha, ← Option.some.inj hb]
      have : ((ys.length - 1 : Nat) : K) = 2 * i := by exact_mod_cast (by omega : ys.length - 1 = 2 * i)
      rw [this]
      ring
    · have e1 : (ys.length - 1) / 2 = i := by omega
      have e2 : ys.length / 2 = i + 1 := by omega
      rw [e1, hc] at ha; rw [e2, hd] at hb
      rw [← Option.some.inj ha, ← Option.some.inj hb]
      have : ((ys.length - 1 : Nat) : K) = 2 * i + 1 := by exact_mod_cast (by omega : ys.length - 1 = 2 * i + 1)
      rw [this]
      ring
    · have e1 : (ys.length - 1) / 2 = i + 1 := by omega
      have e2 : ys.length / 2 = i + 1 := by omega
      rw [e1, hd] at ha; rw [e2, hd] at hb
      rw [← Option.some.inj ha, ← Option.some.inj hb]
      have : ((ys.length - 1 : Nat) : K) = 2 * i + 2 := by exact_mod_cast (by omega : ys.length - 1 = 2 * i + 2)
      rw [this]
      ring

/-! ## Groups -/

theorem stat_quantile (q : K) : (GroupOp.quantile q).stat =
    if 0 ≤ q ∧ q ≤ 1 then .ok (quantileOf q) else .error .valueError := rfl

theorem processOver_ok {F : DFrame K} {drop : List String} {op : GroupOp K} {T : GroupTable K}
    (h : F.processOver drop op = .ok T) :
    ∃ f, op.stat = .ok f ∧ T.cols = F.cols.filter (fun c => c ∉ drop) ∧ T.cols ≠ [] ∧
      T = groupTable F.times.length T.cols
        (groupedRows F.cols T.cols ((F.meta.zip F.data).map fun rd => (rd.1.2, rd.2.2))) f := by
  unfold DFrame.processOver DFrame.timeseries at h
  split at h
  · cases h
  · rename_i ts hts
    split at hts
    · cases hts
    · obtain rfl := (Except.ok.inj hts).symm
      simp only at h
      split at h
      · cases h
      · rename_i hne
        cases hf : op.stat with
        | error e => rw [hf] at h; cases h
        | ok f =>
          rw [hf] at h
          obtain rfl := (Except.ok.inj h).symm
          exact ⟨f, rfl, rfl, hne, rfl⟩

theorem mem_gc {F : DFrame K} {drop : List String} {c : String} :
    c ∈ F.cols.filter (fun c => c ∉ drop) ↔ c ∈ F.cols ∧ c ∉ drop := by simp

theorem selectCols_metaAt {F : DFrame K} {gc : List String} {i : Nat} {r : Nat × List (PyVal K)} (h : F.meta[i]? = some r) :
    selectCols F.cols gc r.2 = gc.map (F.metaAt i) := by
  rw [metaAt_eq h]
  rfl

theorem present_iff {v : PyVal K} : v.isNull = false ↔ v ≠ .none ∧ v ≠ .flt .nan := by
  cases v with
  | flt x => cases x <;> simp [PyVal.isNull]
  | _ => simp [PyVal.isNull]

/-- The timeseries that are in a group. -/
theorem mem_groupedRows {F : DFrame K} {gc : List String} {e : List (PyVal K) × List (Fl K)} :
    e ∈ groupedRows F.cols gc ((F.meta.zip F.data).map fun rd => (rd.1.2, rd.2.2)) ↔
      ∃ i r d, F.meta[i]? = some r ∧ F.data[i]? = some d ∧ e = (gc.map (F.metaAt i), d.2) ∧
        ∀ c ∈ gc, F.metaAt i c ≠ .none ∧ F.metaAt i c ≠ .flt .nan := by
  unfold groupedRows
  simp only [List.map_map, List.mem_filter, List.mem_map, Function.comp]
  constructor
  · rintro ⟨⟨⟨r, d⟩, hm, rfl⟩, hn⟩
    obtain ⟨i, hi⟩ := List.getElem?_of_mem hm
    rw [List.getElem?_zip_eq_some] at hi
    refine ⟨i, r, d, hi.1, hi.2, by rw [selectCols_metaAt hi.1], fun c hc => ?_⟩
    rw [selectCols_metaAt hi.1, List.all_map, List.all_eq_true] at hn
    have := hn c hc
    simp only [Function.comp, Bool.not_eq_true'] at this
    exact present_iff.1 this
  · rintro ⟨i, r, d, h1, h2, rfl, h3⟩
    refine ⟨⟨(r, d), List.mem_of_getElem? (i := i) (by rw [List.getElem?_zip_eq_some]; exact ⟨h1, h2⟩),
      by rw [selectCols_metaAt h1]⟩, ?_⟩
    rw [List.all_map, List.all_eq_true]
    intro c hc
    simp only [Function.comp, Bool.not_eq_true']
    exact present_iff.2 (h3 c hc)

/-- C62: the index of the result has all columns but those that are processed. -/
theorem C62_columns {F : DFrame K} {drop : List String} {op : GroupOp K} {T : GroupTable K}
    (h : F.processOver drop op = .ok T) (c : String) : c ∈ T.cols ↔ c ∈ F.cols ∧ c ∉ drop := by
  obtain ⟨f, _, hc, _⟩ := processOver_ok h
  rw [hc, mem_gc]

/-- C62: each row is for the metadata of a timeseries in which nothing is missing. -/
theorem C62_row {F : DFrame K} {drop : List String} {op : GroupOp K} {T : GroupTable K}
    (h : F.processOver drop op = .ok T) {row : List (PyVal K) × List (Fl K)} (hr : row ∈ T.rows) :
    ∃ i, i < F.data.length ∧ F.Complete drop i ∧ row.1 = T.cols.map (F.metaAt i) := by
  obtain ⟨f, _, hc, _, hT⟩ := processOver_ok h
  rw [hT] at hr
  simp only [groupTable, List.mem_map] at hr
  obtain ⟨k, hk, rfl⟩ := hr
  have := distinctRows_sub hk
  rw [List.mem_map] at this
  obtain ⟨e, he, rfl⟩ := this
  obtain ⟨i, r, d, h1, h2, rfl, h3⟩ := mem_groupedRows.1 he
  refine ⟨i, (List.getElem?_eq_some_iff.1 h2).1, fun c hcc hd => h3 c ?_, rfl⟩
  rw [hc, mem_gc]
  exact ⟨hcc, hd⟩

/-- C62: no two rows have the same metadata. -/
theorem C62_distinct {F : DFrame K} {drop : List String} {op : GroupOp K} {T : GroupTable K}
    (h : F.processOver drop op = .ok T) : T.rows.Pairwise fun a b => ¬ List.Forall₂ SameValue a.1 b.1 := by
  obtain ⟨f, _, hc, _, hT⟩ := processOver_ok h
  rw [hT]
  simp only [groupTable, List.pairwise_map]
  refine (distinctRows_distinct _).imp ?_
  intro a b hab hh
  exact hab (sameRow_iff.2 hh)

/-- C62, with complete metadata: each timeseries has a row with its metadata. -/
theorem C62_covered_partial {F : DFrame K} (hF : F.Ok) {drop : List String} {op : GroupOp K} {T : GroupTable K}
    (h : F.processOver drop op = .ok T) {i : Nat} (hi : i < F.data.length) (hfull : F.Complete drop i) :
    ∃ row ∈ T.rows, F.InGroup drop (T.metaOf row) i := by
  obtain ⟨f, _, hc, _, hT⟩ := processOver_ok h
  have h2 := List.getElem?_eq_getElem hi
  have h1 := List.getElem?_eq_getElem (l := F.meta) (i := i) (by rw [Ok.lengths hF]; exact hi)
  have he := mem_groupedRows (F := F) (gc := T.cols).2 ⟨i, _, _, h1, h2, rfl, fun c hcc => by
    rw [hc, mem_gc] at hcc
    exact hfull c hcc.1 hcc.2⟩
  obtain ⟨k, hk, hs⟩ := distinctRows_cover (List.mem_map_of_mem (f := (·.1)) he)
  have hrow : (k, (List.range F.times.length).map fun j => f (((groupedRows F.cols T.cols ((F.meta.zip F.data).map
      fun rd => (rd.1.2, rd.2.2))).filter fun e => sameRow k e.1).map fun e => e.2.getD j .nan)) ∈ T.rows := by
    rw [hT]
    simp only [groupTable, List.mem_map]
    exact ⟨k, hk, rfl⟩
  refine ⟨_, hrow, ?_⟩
  · have := distinctRows_sub hk
    rw [List.mem_map] at this
    obtain ⟨e, he', rfl⟩ := this
    obtain ⟨j, r, d, _, _, rfl, _⟩ := mem_groupedRows.1 he'
    intro c hcc hd
    have hcg : c ∈ T.cols := by rw [hc, mem_gc]; exact ⟨hcc, hd⟩
    simp only at hs
    rw [sameRow_map] at hs
    unfold GroupTable.metaOf
    simp only
    rw [rowVal_map hcg]
    exact hs c hcg

/-- The values to which the statistic is applied. -/
theorem groupNums_eq {F : DFrame K} (hF : F.Ok) {drop : List String} {gc : List String}
    (hgc : gc = F.cols.filter fun c => c ∉ drop) {j k : Nat} (hj : F.Complete drop j) :
    (((groupedRows F.cols gc ((F.meta.zip F.data).map fun rd => (rd.1.2, rd.2.2))).filter fun e =>
      sameRow (gc.map (F.metaAt j)) e.1).map fun e => e.2.getD k .nan).filterMap numOf =
      F.groupNums drop (rowVal gc (gc.map (F.metaAt j))) k := by
  classical
  unfold groupedRows DFrame.groupNums
  rw [List.map_map, List.filter_filter, List.filter_map, List.map_map, List.filterMap_map, List.filterMap_filter,
    filterMap_range]
  have hl : (F.meta.zip F.data).length = F.data.length := by simp [Ok.lengths hF]
  rw [hl]
  refine List.filterMap_congr fun i hi => ?_
  rw [List.mem_range] at hi
  have h2 := List.getElem?_eq_getElem hi
  have h1 := List.getElem?_eq_getElem (l := F.meta) (i := i) (by rw [Ok.lengths hF]; exact hi)
  have hz : (F.meta.zip F.data)[i]? = some (F.meta[i]'(by rw [Ok.lengths hF]; exact hi), F.data[i]) := by
    rw [List.getElem?_zip_eq_some]; exact ⟨h1, h2⟩
  rw [hz]
  simp only [Option.bind_some, Function.comp]
  rw [selectCols_metaAt h1]
  have hcell : F.cellAt i k = numOf (F.data[i].2.getD k .nan) := by
    unfold DFrame.cellAt
    rw [h2]
    simp only [Option.bind_some]
    rw [List.getD_eq_getElem?_getD]
    cases F.data[i].2[k]? <;> rfl
  rw [hcell]
  have hiff : (sameRow (gc.map (F.metaAt j)) (gc.map (F.metaAt i)) = true) ↔
      F.InGroup drop (rowVal gc (gc.map (F.metaAt j))) i := by
    rw [sameRow_map]
    constructor
    · intro h c hc hd
      have hcg : c ∈ gc := by rw [hgc, mem_gc]; exact ⟨hc, hd⟩
      rw [rowVal_map hcg]
      exact h c hcg
    · intro h c hcg
      have hcg' := hcg
      rw [hgc, mem_gc] at hcg'
      have := h c hcg'.1 hcg'.2
      rwa [rowVal_map hcg] at this
  by_cases hg : sameRow (gc.map (F.metaAt j)) (gc.map (F.metaAt i)) = true
  · rw [if_pos (hiff.1 hg), hg]
    have : ((gc.map (F.metaAt i)).all fun v => !v.isNull) = true := by
      rw [List.all_map, List.all_eq_true]
      intro c hc
      simp only [Function.comp, Bool.not_eq_true']
      rw [sameRow_map] at hg
      rw [← (hg c hc).isNull]
      rw [hgc, mem_gc] at hc
      exact present_iff.2 (hj c hc.1 hc.2)
    rw [this]
    rfl
  · rw [if_neg fun h => hg (hiff.2 h)]
    rw [Bool.not_eq_true] at hg
    rw [hg]
    simp

/-- The values of a row. -/
theorem row_values {F : DFrame K} (hF : F.Ok) {drop : List String} {op : GroupOp K} {T : GroupTable K}
    (h : F.processOver drop op = .ok T) {row : List (PyVal K) × List (Fl K)} (hr : row ∈ T.rows) :
    ∃ f, op.stat = .ok f ∧ row.2.length = F.times.length ∧ ∀ k v, row.2[k]? = some v →
      ∃ l : List (Fl K), l.filterMap numOf = F.groupNums drop (T.metaOf row) k ∧ v = f l := by
  obtain ⟨j, _, hfull, hrow⟩ := C62_row h hr
  obtain ⟨f, hf, hc, _, hT⟩ := processOver_ok h
  refine ⟨f, hf, ?_⟩
  rw [hT] at hr
  simp only [groupTable, List.mem_map] at hr
  obtain ⟨k0, hk0, rfl⟩ := hr
  simp only at hrow
  subst hrow
  refine ⟨by simp, fun k v hv => ?_⟩
  rw [List.getElem?_map, Option.map_eq_some_iff] at hv
  obtain ⟨k', hk', rfl⟩ := hv
  obtain ⟨hlt, rfl⟩ := List.getElem?_eq_some_iff.1 hk'
  rw [List.getElem_range]
  exact ⟨_, groupNums_eq hF hc hfull, rfl⟩

/-- C62: a row has as many values as there are times. -/
theorem C62_length {F : DFrame K} (hF : F.Ok) {drop : List String} {op : GroupOp K} {T : GroupTable K}
    (h : F.processOver drop op = .ok T) {row : List (PyVal K) × List (Fl K)} (hr : row ∈ T.rows) :
    row.2.length = F.times.length := by
  obtain ⟨f, _, hl, _⟩ := row_values hF h hr
  exact hl

/-- C62: there is no value where no timeseries of the group has one, and only there. -/
theorem C62_missing {F : DFrame K} (hF : F.Ok) {drop : List String} {op : GroupOp K} {T : GroupTable K}
    (h : F.processOver drop op = .ok T) {row : List (PyVal K) × List (Fl K)} (hr : row ∈ T.rows) {k : Nat} {v : Fl K}
    (hv : row.2[k]? = some v) : v = .nan ↔ F.groupNums drop (T.metaOf row) k = [] := by
  obtain ⟨f, hf, _, hx⟩ := row_values hF h hr
  obtain ⟨l, hl, rfl⟩ := hx k v hv
  rw [← hl]
  cases op with
  | median => cases hf; exact median_nan
  | mean => cases hf; exact mean_nan
  | quantile q =>
    rw [stat_quantile] at hf
    split at hf
    · cases hf; exact quantile_nan
    · cases hf
  | other n => cases hf

/-- C62: means. -/
theorem C62_mean {F : DFrame K} (hF : F.Ok) {drop : List String} {T : GroupTable K}
    (h : F.processOver drop .mean = .ok T) {row : List (PyVal K) × List (Fl K)} (hr : row ∈ T.rows) {k : Nat} {x : K}
    (hv : row.2[k]? = some (.num x)) : x * ((F.groupNums drop (T.metaOf row) k).length : K) =
      (F.groupNums drop (T.metaOf row) k).sum := by
  obtain ⟨f, hf, _, hx⟩ := row_values hF h hr
  obtain ⟨l, hl, hv'⟩ := hx k _ hv
  cases hf
  rw [← hl]
  have e : meanOf l = if l.filterMap numOf = [] then .nan else
    .num ((l.filterMap numOf).sum / ((l.filterMap numOf).length : K)) := rfl
  rw [e] at hv'
  split at hv'
  · cases hv'
  · rename_i hne
    rw [Fl.num.inj hv']
    have : ((l.filterMap numOf).length : K) ≠ 0 := by
      rw [Nat.cast_ne_zero, Ne, List.length_eq_zero_iff]
      exact hne
    field_simp

/-- C62: medians. -/
theorem C62_median {F : DFrame K} (hF : F.Ok) {drop : List String} {T : GroupTable K}
    (h : F.processOver drop .median = .ok T) {row : List (PyVal K) × List (Fl K)} (hr : row ∈ T.rows) {k : Nat} {x : K}
    (hv : row.2[k]? = some (.num x)) : IsMedian (F.groupNums drop (T.metaOf row) k) x := by
  obtain ⟨f, hf, _, hx⟩ := row_values hF h hr
  obtain ⟨l, hl, hv'⟩ := hx k _ hv
  cases hf
  rw [← hl]
  exact median_is hv'.symm

/-- C62: quantiles, for positions from 0 to 1 only. -/
theorem C62_quantile {F : DFrame K} (hF : F.Ok) {drop : List String} {q : K} {T : GroupTable K}
    (h : F.processOver drop (.quantile q) = .ok T) {row : List (PyVal K) × List (Fl K)} (hr : row ∈ T.rows) {k : Nat}
    {x : K} (hv : row.2[k]? = some (.num x)) :
    0 ≤ q ∧ q ≤ 1 ∧ IsQuantile q (F.groupNums drop (T.metaOf row) k) x := by
  obtain ⟨f, hf, _, hx⟩ := row_values hF h hr
  obtain ⟨l, hl, hv'⟩ := hx k _ hv
  rw [stat_quantile] at hf
  split at hf
  · rename_i hq
    cases hf
    rw [← hl]
    exact ⟨hq.1, hq.2, quantile_is hv'.symm⟩
  · cases hf

theorem sum_bounds {xs : List K} (hne : xs ≠ []) {x : K} (h : x * (xs.length : K) = xs.sum) :
    (∃ y ∈ xs, y ≤ x) ∧ ∃ y ∈ xs, x ≤ y := by
  constructor
  · by_contra hn
    push Not at hn
    have : (xs.map fun _ => x).sum < (xs.map id).sum := by
      refine List.sum_lt_sum_of_ne_nil hne _ _ fun y hy => ?_
      exact hn y hy
    simp only [List.map_const', List.sum_replicate, List.map_id, nsmul_eq_mul] at this
    linarith
  · by_contra hn
    push Not at hn
    have : (xs.map id).sum < (xs.map fun _ => x).sum := by
      refine List.sum_lt_sum_of_ne_nil hne _ _ fun y hy => ?_
      exact hn y hy
    simp only [List.map_const', List.sum_replicate, List.map_id, nsmul_eq_mul] at this
    linarith

/-- C62: every value lies between two values of its group at that time. -/
theorem C62_between {F : DFrame K} (hF : F.Ok) {drop : List String} {op : GroupOp K} {T : GroupTable K}
    (h : F.processOver drop op = .ok T) {row : List (PyVal K) × List (Fl K)} (hr : row ∈ T.rows) {k : Nat} {x : K}
    (hv : row.2[k]? = some (.num x)) : (∃ y ∈ F.groupNums drop (T.metaOf row) k, y ≤ x) ∧
      ∃ y ∈ F.groupNums drop (T.metaOf row) k, x ≤ y := by
  cases op with
  | median =>
    exact (C62_median hF h hr hv).quantile.bounds (by norm_num) (by norm_num)
  | mean =>
    refine sum_bounds (fun hn => ?_) (C62_mean hF h hr hv)
    have := (C62_missing hF h hr hv).2 hn
    cases this
  | quantile q =>
    obtain ⟨h0, h1, hq⟩ := C62_quantile hF h hr hv
    exact hq.bounds h0 h1
  | other n =>
    obtain ⟨f, hf, _⟩ := processOver_ok h
    cases hf

/-- C62: the median is the quantile at one half. -/
theorem C62_half {F : DFrame K} {drop : List String} {T T' : GroupTable K}
    (h : F.processOver drop .median = .ok T) (h' : F.processOver drop (.quantile (1 / 2)) = .ok T') : T = T' := by
  obtain ⟨f, hf, hc, hne, hT⟩ := processOver_ok h
  obtain ⟨f', hf', hc', _, hT'⟩ := processOver_ok h'
  have e : T.cols = T'.cols := hc.trans hc'.symm
  rw [← e] at hT'
  have hff : f = f' := by
    cases hf
    rw [stat_quantile] at hf'
    rw [if_pos ⟨by norm_num, by norm_num⟩] at hf'
    cases hf'
    funext l
    cases hm : medianOf l with
    | nan => rw [median_nan] at hm; rw [quantile_nan.2 hm]
    | num x =>
      cases hq : quantileOf (1 / 2) l with
      | nan => rw [quantile_nan] at hq; rw [median_nan.2 hq] at hm; cases hm
      | num y =>
        rw [(median_is hm).quantile.unique (by norm_num) (by norm_num) (quantile_is hq)]
  rw [hT, hT', hff]

/-- C62: which calls give a result. -/
theorem C62_works {F : DFrame K} {drop : List String} {op : GroupOp K} :
    (∃ T, F.processOver drop op = .ok T) ↔ DistinctMeta F ∧ (∃ c ∈ F.cols, c ∉ drop) ∧
      (op = .median ∨ op = .mean ∨ ∃ q, 0 ≤ q ∧ q ≤ 1 ∧ op = .quantile q) := by
  constructor
  · rintro ⟨T, h⟩
    refine ⟨?_, ?_, ?_⟩
    · rw [← hasDuplicates_iff]
      by_contra hd
      rw [Bool.not_eq_false] at hd
      unfold DFrame.processOver DFrame.timeseries at h
      rw [if_pos hd] at h
      cases h
    · obtain ⟨f, _, hc, hne, _⟩ := processOver_ok h
      obtain ⟨c, hcc⟩ := List.exists_mem_of_ne_nil _ hne
      rw [hc, mem_gc] at hcc
      exact ⟨c, hcc⟩
    · obtain ⟨f, hf, _⟩ := processOver_ok h
      cases op with
      | median => exact .inl rfl
      | mean => exact .inr (.inl rfl)
      | quantile q =>
        rw [stat_quantile] at hf
        split at hf
        · rename_i hq
          exact .inr (.inr ⟨q, hq.1, hq.2, rfl⟩)
        · cases hf
      | other n => cases hf
  · rintro ⟨hd, ⟨c, hc, hcd⟩, hop⟩
    have hne : (F.cols.filter fun c => c ∉ drop) ≠ [] := by
      intro hn
      have : c ∈ F.cols.filter fun c => c ∉ drop := mem_gc.2 ⟨hc, hcd⟩
      rw [hn] at this
      cases this
    have hf : ∃ f, op.stat = .ok f := by
      rcases hop with rfl | rfl | ⟨q, h0, h1, rfl⟩
      · exact ⟨_, rfl⟩
      · exact ⟨_, rfl⟩
      · exact ⟨_, if_pos ⟨h0, h1⟩⟩
    obtain ⟨f, hf⟩ := hf
    unfold DFrame.processOver DFrame.timeseries
    rw [if_neg (by rw [hasDuplicates_iff.2 hd]; simp)]
    simp only
    rw [if_neg hne, hf]
    exact ⟨_, rfl⟩

/-- C62: calls that give no result raise `ValueError`. -/
theorem C62_refused {F : DFrame K} {drop : List String} {op : GroupOp K} {e : Err}
    (h : F.processOver drop op = .error e) : e = .valueError := by
  unfold DFrame.processOver DFrame.timeseries at h
  split at h
  · rename_i e' he
    split at he
    · cases h; cases he; rfl
    · cases he
  · simp only at h
    split at h
    · cases h; rfl
    · cases hf : op.stat with
      | ok f => rw [hf] at h; cases h
      | error e' =>
        rw [hf] at h
        cases h
        cases op with
        | median => cases hf
        | mean => cases hf
        | quantile q =>
          rw [stat_quantile] at hf
          split at hf
          · cases hf
          · cases hf; rfl
        | other n => cases hf; rfl

/-! ## A frame -/

/-- Four timeseries of two models; the note of one is missing. -/
def groupF : DFrame ℚ :=
  { times := [0, 10]
    cols := ["model", "scenario", "region", "variable", "unit", "note"]
    data := [(0, [.num 1, .num 2]), (1, [.num 5, .nan]), (2, [.num 6, .num 4]), (3, [.num 7, .num 8])]
    «meta» := [(0, [.str "m", .str "a", .str "World", .str "T", .str "K", .str "x"]),
               (1, [.str "m", .str "b", .str "World", .str "T", .str "K", .str "x"]),
               (2, [.str "m", .str "c", .str "World", .str "T", .str "K", .str "x"]),
               (3, [.str "n", .str "a", .str "World", .str "T", .str "K", .flt .nan])] }

example : groupF.Ok ∧ groupF.Complete ["scenario"] 1 ∧
    groupF.processOver ["scenario"] .median =
      .ok ⟨["model", "region", "variable", "unit", "note"],
        [([.str "m", .str "World", .str "T", .str "K", .str "x"], [.num 5, .num 3])]⟩ ∧
    groupF.processOver ["scenario"] .mean =
      .ok ⟨["model", "region", "variable", "unit", "note"],
        [([.str "m", .str "World", .str "T", .str "K", .str "x"], [.num 4, .num 3])]⟩ ∧
    groupF.processOver ["scenario", "note"] (.quantile (1 / 4)) =
      .ok ⟨["model", "region", "variable", "unit"],
        [([.str "m", .str "World", .str "T", .str "K"], [.num 3, .num (5 / 2)]),
         ([.str "n", .str "World", .str "T", .str "K"], [.num 7, .num 8])]⟩ :=
  ⟨⟨by decide +kernel, by decide +kernel, by decide +kernel, by decide +kernel, by decide +kernel⟩,
    by unfold DFrame.Complete; decide +kernel, by decide +kernel, by decide +kernel, by decide +kernel⟩

/-- C62 fails for timeseries with missing metadata: they are in no group, so that values are lost without notice. -/
theorem C62_dropped : groupF.data.length = 4 ∧ groupF.cellAt 3 0 = some 7 ∧ ∃ T, groupF.processOver ["scenario"] .mean = .ok T ∧
    T.rows.length = 1 ∧ ∀ row ∈ T.rows, ¬ groupF.InGroup ["scenario"] (T.metaOf row) 3 := by
  refine ⟨rfl, rfl, _, rfl, by decide +kernel, ?_⟩
  intro row hrow hin
  have h1 := hin "model" (by decide) (by decide)
  have h2 : row.1 = [.str "m", .str "World", .str "T", .str "K", .str "x"] := by
    have : ∀ row ∈ (groupTable 2 ["model", "region", "variable", "unit", "note"]
      (groupedRows groupF.cols ["model", "region", "variable", "unit", "note"]
        ((groupF.meta.zip groupF.data).map fun rd => (rd.1.2, rd.2.2))) meanOf).rows,
        row.1 = [.str "m", .str "World", .str "T", .str "K", .str "x"] := by decide +kernel
    exact this row hrow
  have h3 : groupF.metaAt 3 "model" = .str "n" := by decide +kernel
  unfold GroupTable.metaOf at h1
  rw [h2, h3] at h1
  have h4 : rowVal (groupTable 2 ["model", "region", "variable", "unit", "note"]
      (groupedRows groupF.cols ["model", "region", "variable", "unit", "note"]
        ((groupF.meta.zip groupF.data).map fun rd => (rd.1.2, rd.2.2))) meanOf).cols
      [.str "m", .str "World", .str "T", .str "K", .str "x"] "model" = PyVal.str (K := ℚ) "m" := by decide +kernel
  have h5 : SameValue (PyVal.str (K := ℚ) "m") (.str "n") := by
    rw [← h4]; exact h1
  rw [← same_iff] at h5
  revert h5
  decide +kernel

end Openscm
