import Verif.FrameSpec

/-!
# Filtering is restricting to the matching cells
-/

set_option linter.unusedSectionVars false

namespace Openscm

variable {K : Type} [Field K] [DecidableEq K]

/-- `G` has only metadata rows and times of `F`, and some if `F` has some. -/
structure Within (G F : DFrame K) : Prop where
  cols : G.cols = F.cols
  rows : ∀ r ∈ G.meta, ∃ s ∈ F.meta, r.2 = s.2
  times : ∀ t ∈ G.times, t ∈ F.times
  some_rows : G.meta = [] → F.meta = []
  some_times : G.times = [] → F.times = []

theorem Within.refl (F : DFrame K) : Within F F :=
  ⟨rfl, fun r h => ⟨r, h, rfl⟩, fun _ h => h, id, id⟩

/-- A test of rows or times, or none. -/
abbrev MaskTest (K : Type) := Option ((List (PyVal K) → Bool) ⊕ (Int → Bool))

def MaskTest.holds (s : MaskTest K) (row : List (PyVal K)) (t : Int) : Bool :=
  match s with
  | none => true
  | some (.inl p) => p row
  | some (.inr q) => q t

def MaskTest.mask (s : MaskTest K) (F : DFrame K) : Option (List Bool ⊕ List Bool) :=
  match s with
  | none => none
  | some (.inl p) => some (.inl (F.meta.map fun r => p r.2))
  | some (.inr q) => some (.inr (F.times.map q))

theorem except_map_ok {α β : Type} {f : α → β} {x : Except Err α} {b : β} (h : x.map f = .ok b) :
    ∃ a, x = .ok a ∧ f a = b := by
  cases x with
  | error e => simp [Except.map] at h
  | ok a => exact ⟨a, rfl, by simpa [Except.map] using h⟩

theorem findIdx_col {cols : List String} {c : String} {i : Nat} (h : cols.findIdx? (· = c) = some i) :
    cols[i]? = some c := by
  rw [List.findIdx?_eq_some_iff_getElem] at h
  obtain ⟨h1, h2, -⟩ := h
  rw [List.getElem?_eq_getElem h1]
  simpa using h2

/-- Metadata filters test each row by itself. -/
theorem metaMask_test {F : DFrame K} {o : FilterOpts K} {level : Option (PyArg K)} {c : String} {arg : PyArg K}
    (hc : F.cols.Nodup) {m : List Bool} (h : F.metaMask o level c arg = .ok m) :
    ∃ p : List (PyVal K) → Bool, (∀ row, row.length = F.cols.length → (p row = true ↔ MetaFits o level F.cols row c arg)) ∧
      ∀ G, Within G F → G.metaMask o level c arg = .ok (G.meta.map fun r => p r.2) := by
  unfold DFrame.metaMask DFrame.column at h
  cases hi : F.cols.findIdx? (· = c) with
  | none => rw [hi] at h; simp at h
  | some i =>
    rw [hi] at h
    simp only at h
    rw [patternMatch_iff] at h
    obtain ⟨h1, h2, h3, -⟩ := h
    have hci := findIdx_col hi
    refine ⟨fun row => arg.values.any fun v => hit o.sep (givenLevel level) o.regexp o.hasNan v (row.getD i .none), ?_, ?_⟩
    · intro row hrow
      have hlt : i < row.length := by rw [hrow]; exact (List.getElem?_eq_some_iff.1 hci).1
      have hget : row.getD i .none = row[i] := by simp [hlt]
      simp only [List.any_eq_true, hget]
      constructor
      · rintro ⟨w, hw, hh⟩
        exact ⟨i, row[i], w, hci, by simp [hlt], hw, (hit_iff (h2 w hw)).1 hh⟩
      · rintro ⟨j, v, w, hj, hv, hw, hf⟩
        have hij : i = j := by
          have := (List.Nodup.getElem_inj_iff hc (hi := (List.getElem?_eq_some_iff.1 hci).1)
            (hj := (List.getElem?_eq_some_iff.1 hj).1)).1
          exact this (by rw [(List.getElem?_eq_some_iff.1 hci).2, (List.getElem?_eq_some_iff.1 hj).2])
        subst hij
        have : v = row[i] := by
          rw [List.getElem?_eq_getElem hlt] at hv
          exact (Option.some.inj hv).symm
        subst this
        exact ⟨w, hw, (hit_iff (h2 w hw)).2 hf⟩
    · intro G hG
      unfold DFrame.metaMask DFrame.column
      rw [hG.cols, hi]
      simp only
      refine patternMatch_iff.2 ⟨h1, h2, ?_, ?_⟩
      · intro x hx
        obtain ⟨r, hr, rfl⟩ := List.mem_map.1 hx
        obtain ⟨s, hs, e⟩ := hG.rows r hr
        exact h3 _ (List.mem_map.2 ⟨s, hs, by rw [e]⟩)
      · rw [List.map_map]; rfl

/-- Time filters by a part of the time test each time by itself. -/
theorem partMask_test {F : DFrame K} {e : Err} {part : Int → Int} {test : List Int → Except Err (List Bool)}
    (hpt : ∀ d m, test d = .ok m → ∃ q : Int → Bool, ∀ d', test d' = .ok (d'.map q)) {m : List Bool}
    (h : partMask (timeParts e part F.times) test = .ok m) :
    ∃ q : Int → Bool, (∀ d', test d' = .ok (d'.map q)) ∧
      ∀ G, Within G F → partMask (timeParts e part G.times) test = .ok (G.times.map fun t => q (part t)) := by
  unfold partMask timeParts at h
  split at h
  · cases h
  · rename_i data hd
    split at hd
    · cases hd
    · rename_i hne
      split at hd
      · rename_i hall
        cases hd
        obtain ⟨q, hq⟩ := hpt _ _ h
        refine ⟨q, hq, fun G hG => ?_⟩
        unfold partMask timeParts
        rw [if_neg fun he => hne (hG.some_times he), if_pos]
        · simp only [hq, List.map_map]; rfl
        · rw [List.all_eq_true] at hall ⊢
          exact fun t ht => hall t (hG.times t ht)
      · cases hd

theorem isIn_map {data : List Int} {l : List (PyVal K)} {f : Int → PyVal K} :
    isIn (data.map f) l = data.map fun x => l.any fun i => (f x).eq i := by
  unfold isIn; rw [List.map_map]; rfl

theorem timeMatchList_test {tbl : NameTable} {l : List (PyVal K)} {d : List Int} {m : List Bool}
    (h : (timeMatchList tbl d l).1 = .ok m) :
    ∃ q : Int → Bool, ∀ d', (timeMatchList tbl d' l).1 = .ok (d'.map q) := by
  unfold timeMatchList at h ⊢
  split at h
  · cases h
  · rename_i s r
    cases h1 : timeRanges tbl 0 (.str s :: r) with
    | error e => rw [h1] at h; cases h
    | ok da =>
      obtain ⟨del, app⟩ := da
      rw [h1] at h
      simp only at h ⊢
      cases h2 : deleteAll del (.str s :: r) with
      | mk l' b =>
        rw [h2] at h
        cases b with
        | false => cases h
        | true =>
          simp only at h ⊢
          cases h3 : convStrs tbl l' with
          | error e => rw [h3] at h; cases h
          | ok ints => exact ⟨_, fun d' => rfl⟩
  · exact ⟨_, fun d' => by simp only [isIn_map]; rfl⟩

theorem timeMatch_test {tbl : NameTable} {arg : PyArg K} {d : List Int} {m : List Bool}
    (h : (timeMatch tbl d arg).1 = .ok m) :
    ∃ q : Int → Bool, ∀ d', (timeMatch tbl d' arg).1 = .ok (d'.map q) := by
  unfold timeMatch at h ⊢
  split at h
  · exact timeMatchList_test h
  · exact timeMatchList_test h
  · cases h
  · exact timeMatchList_test h

theorem yearsMatch_test {arg : PyArg K} {d : List Int} {m : List Bool} (h : yearsMatch d arg = .ok m) :
    ∃ q : Int → Bool, (∀ d', yearsMatch d' arg = .ok (d'.map q)) ∧ ∀ y, q y = true ↔ PyVal.int y ∈ arg.values := by
  unfold yearsMatch at h ⊢
  split at h
  · rename_i z
    refine ⟨fun x => [PyVal.int z].any fun i => (PyVal.int (K := K) x).eq i, fun d' => by simp only [isIn_map], ?_⟩
    intro y
    simp [PyVal.eq, PyArg.values]
  · cases h
  · rename_i l
    split at h
    · rename_i hall
      refine ⟨fun x => l.any fun i => (PyVal.int x).eq i, fun d' => by rw [if_pos hall, isIn_map], ?_⟩
      intro y
      simp only [List.any_eq_true, PyArg.values]
      constructor
      · rintro ⟨v, hv, he⟩
        rw [List.all_eq_true] at hall
        have := hall v hv
        cases v with
        | int z =>
          have : y = z := by simpa [PyVal.eq] using he
          subst this; exact hv
        | _ => simp at this
      · intro hy; exact ⟨_, hy, by simp [PyVal.eq]⟩
    · cases h

theorem hourMatch_test {arg : PyArg K} {d : List Int} {m : List Bool} (h : hourMatch d arg = .ok m) :
    ∃ q : Int → Bool, (∀ d', hourMatch d' arg = .ok (d'.map q)) ∧
      ∀ y, q y = true ↔ ∃ v ∈ arg.values, (PyVal.int y).eq v = true := by
  unfold hourMatch at h ⊢
  split at h
  · rename_i z
    refine ⟨fun x => [PyVal.int z].any fun i => (PyVal.int (K := K) x).eq i, fun d' => by simp only [isIn_map], ?_⟩
    intro y
    simp [PyArg.values]
  · cases h
  · rename_i l
    refine ⟨fun x => l.any fun i => (PyVal.int x).eq i, fun d' => by rw [isIn_map], ?_⟩
    intro y
    simp only [List.any_eq_true, PyArg.values]

theorem datetimeMatch_test {arg : PyArg K} {d : List Int} {m : List Bool} (h : datetimeMatch d arg = .ok m) :
    ∃ q : Int → Bool, (∀ d', datetimeMatch d' arg = .ok (d'.map q)) ∧ ∀ t, q t = true ↔ PyVal.time t ∈ arg.values := by
  unfold datetimeMatch at h ⊢
  split at h
  · rename_i z
    refine ⟨fun x => [PyVal.time z].any fun i => (PyVal.time (K := K) x).eq i, fun d' => by simp only [isIn_map], ?_⟩
    intro y
    simp [PyVal.eq, PyArg.values]
  · cases h
  · rename_i l
    split at h
    · cases h
    · rename_i hn
      split at h
      · rename_i hall
        refine ⟨fun x => l.any fun i => (PyVal.time x).eq i, fun d' => by
          rw [if_neg hn, if_pos hall, isIn_map], ?_⟩
        intro y
        simp only [List.any_eq_true, PyArg.values]
        constructor
        · rintro ⟨v, hv, he⟩
          rw [List.all_eq_true] at hall
          have := hall v hv
          cases v with
          | time z =>
            have : y = z := by simpa [PyVal.eq] using he
            subst this; exact hv
          | _ => simp at this
        · intro hy; exact ⟨_, hy, by simp [PyVal.eq]⟩
      · cases h

/-- The verdict on one number. -/
theorem test_single {test : List Int → Except Err (List Bool)} {q : Int → Bool} (h : ∀ d', test d' = .ok (d'.map q))
    (k : Int) : q k = true ↔ test [k] = .ok [true] := by
  rw [h]
  simp

/-- Weekday or day of the month. -/
theorem frameDayMatch_eq (times : List Int) (arg : PyArg K) :
    (arg = .list [] ∧ (frameDayMatch times arg).1 = .error .indexError) ∨
    (isText arg ∧ (frameDayMatch times arg).1 = partMask (tpWeekdays times) fun d => (dayMatch d arg).1) ∨
    (¬ isText arg ∧ (frameDayMatch times arg).1 = partMask (tpDays times) fun d => (dayMatch d arg).1) := by
  have hw : ∀ arg : PyArg K, (match tpWeekdays times with
      | .error e => ((.error e : Except Err (List Bool)), arg)
      | .ok data => dayMatch data arg).1 = partMask (tpWeekdays times) fun d => (dayMatch d arg).1 := by
    intro arg; unfold partMask; cases tpWeekdays times <;> rfl
  have hd : ∀ arg : PyArg K, (match tpDays times with
      | .error e => ((.error e : Except Err (List Bool)), arg)
      | .ok data => dayMatch data arg).1 = partMask (tpDays times) fun d => (dayMatch d arg).1 := by
    intro arg; unfold partMask; cases tpDays times <;> rfl
  cases arg with
  | val v =>
    cases v with
    | str s => exact .inr (.inl ⟨trivial, hw _⟩)
    | _ => exact .inr (.inr ⟨fun h => h, hd _⟩)
  | list l =>
    cases l with
    | nil => exact .inl ⟨rfl, rfl⟩
    | cons a r =>
      cases a with
      | str s => exact .inr (.inl ⟨trivial, hw _⟩)
      | _ => exact .inr (.inr ⟨fun h => h, hd _⟩)

/-- One filter: its mask is made by a test of each row or time, which says what the specification says and
works for all frames within this one. -/
theorem oneMask_test {F : DFrame K} {o : FilterOpts K} {filters : List (String × PyArg K)} {f : String × PyArg K}
    (hc : F.cols.Nodup) {r : Option (List Bool ⊕ List Bool)} (h : F.oneMask o filters f = .ok r) :
    ∃ s : MaskTest K, (∀ row t, row.length = F.cols.length → (s.holds row t = true ↔ Wants o filters F.cols row t f)) ∧
      ∀ G, Within G F → G.oneMask o filters f = .ok (s.mask G) := by
  obtain ⟨c, arg⟩ := f
  unfold DFrame.oneMask at h
  simp only at h
  have hmeta : ∀ (level : Option (PyArg K)) (c' : String) (arg' : PyArg K) (m : List Bool),
      F.metaMask o level c' arg' = .ok m → (∀ row t, Wants o filters F.cols row t (c, arg) ↔ MetaFits o level F.cols row c' arg') →
      (∀ G, Within G F → G.oneMask o filters (c, arg) = (G.metaMask o level c' arg').map fun m => some (.inl m)) →
      ∃ s : MaskTest K, (∀ row t, row.length = F.cols.length → (s.holds row t = true ↔ Wants o filters F.cols row t (c, arg))) ∧
        ∀ G, Within G F → G.oneMask o filters (c, arg) = .ok (s.mask G) := by
    intro level c' arg' m hm hw hG
    obtain ⟨p, hp, hp2⟩ := metaMask_test hc hm
    refine ⟨some (.inl p), fun row t hl => (hp row hl).trans (hw row t).symm, fun G hGF => ?_⟩
    rw [hG G hGF, hp2 G hGF]
    rfl
  by_cases h1 : c = "variable"
  · rw [if_pos h1] at h
    obtain ⟨m, hm, -⟩ := except_map_ok h
    refine hmeta _ _ _ m hm (fun row t => by simp [Wants, h1]) (fun G _ => by simp [DFrame.oneMask, h1])
  rw [if_neg h1] at h
  by_cases h2 : c ∈ F.cols
  · rw [if_pos h2] at h
    obtain ⟨m, hm, -⟩ := except_map_ok h
    refine hmeta _ _ _ m hm (fun row t => by simp [Wants, h1, h2]) (fun G hG => by simp [DFrame.oneMask, h1, hG.cols, h2])
  rw [if_neg h2] at h
  have htime : ∀ (q : Int → Bool) (m : List Bool → Prop),
      (∀ row t, Wants o filters F.cols row t (c, arg) ↔ q t = true) →
      (∀ G, Within G F → G.oneMask o filters (c, arg) = .ok (some (.inr (G.times.map q)))) →
      ∃ s : MaskTest K, (∀ row t, row.length = F.cols.length → (s.holds row t = true ↔ Wants o filters F.cols row t (c, arg))) ∧
        ∀ G, Within G F → G.oneMask o filters (c, arg) = .ok (s.mask G) := by
    intro q _ hw hG
    exact ⟨some (.inr q), fun row t _ => (hw row t).symm, hG⟩
  by_cases h3 : c = "year"
  · subst h3
    simp only [if_true] at h
    obtain ⟨m, hm, -⟩ := except_map_ok h
    obtain ⟨q, hq, hq2⟩ := partMask_test (fun d m hh => (yearsMatch_test hh).imp fun _ h => h.1) hm
    have hy : ∃ m', yearsMatch [] arg = .ok m' := ⟨_, hq []⟩
    obtain ⟨m', hm'⟩ := hy
    obtain ⟨q', hq', hv⟩ := yearsMatch_test hm'
    have hqq : ∀ y, q y = q' y := by
      intro y
      have := (hq [y]).symm.trans (hq' [y])
      simpa using this
    refine htime (fun t => q (timeYear t)) (fun _ => True) (fun row t => ?_) (fun G hG => ?_)
    · simp only [Wants, h1, if_false, h2, show ("year" : String) ≠ "level" by decide, hqq, hv]
      constructor
      · intro hf
        generalize hy : "year" = s at hf
        cases hf with
        | year a b => rw [yearIs_iff] at a; rwa [a]
        | _ => exact absurd hy (by decide)
      · intro hv; exact .year (yearIs_iff.2 rfl) hv
    · have := hq2 G hG
      simp only [DFrame.oneMask, h1, if_false, hG.cols, h2, if_true, tpYears] at this ⊢
      rw [this]; rfl
  rw [if_neg h3] at h
  by_cases h4 : c = "month"
  · subst h4
    simp only [if_true] at h
    obtain ⟨m, hm, -⟩ := except_map_ok h
    obtain ⟨q, hq, hq2⟩ := partMask_test (fun d m hh => timeMatch_test hh) hm
    refine htime (fun t => q (timeMonth t)) (fun _ => True) (fun row t => ?_) (fun G hG => ?_)
    · simp only [Wants, h1, if_false, h2, show ("month" : String) ≠ "level" by decide, test_single hq]
      constructor
      · intro hf
        generalize hy : "month" = s at hf
        cases hf with
        | month a b => rw [monthIs_iff] at a; rwa [a]
        | _ => exact absurd hy (by decide)
      · intro hv; exact .month (monthIs_iff.2 rfl) hv
    · have := hq2 G hG
      simp only [DFrame.oneMask, h1, if_false, hG.cols, h2, h3, if_true, tpMonths, monthMatch] at this ⊢
      rw [this]; rfl
  rw [if_neg h4] at h
  by_cases h5 : c = "day"
  · subst h5
    simp only [if_true] at h
    obtain ⟨m, hm, -⟩ := except_map_ok h
    rcases frameDayMatch_eq F.times arg with ⟨-, he⟩ | ⟨ht, he⟩ | ⟨ht, he⟩
    · rw [he] at hm; cases hm
    · rw [he] at hm
      obtain ⟨q, hq, hq2⟩ := partMask_test (fun d m hh => timeMatch_test hh) hm
      refine htime (fun t => q (timeWeekday t)) (fun _ => True) (fun row t => ?_) (fun G hG => ?_)
      · simp only [Wants, h1, if_false, h2, show ("day" : String) ≠ "level" by decide, test_single hq]
        constructor
        · intro hf
          generalize hy : "day" = s at hf
          cases hf with
          | weekday _ a b => rw [weekdayIs_iff] at a; rwa [a]
          | day hn _ _ => exact absurd ht hn
          | _ => exact absurd hy (by decide)
        · intro hv; exact .weekday ht (weekdayIs_iff.2 rfl) hv
      · have := hq2 G hG
        simp only [DFrame.oneMask, h1, if_false, hG.cols, h2, h3, h4, if_true]
        rcases frameDayMatch_eq G.times arg with ⟨he', -⟩ | ⟨_, he'⟩ | ⟨hn, _⟩
        · subst he'; exact absurd ht (fun h => h)
        · rw [he']
          simp only [tpWeekdays, dayMatch] at this ⊢
          rw [this]; rfl
        · exact absurd ht hn
    · rw [he] at hm
      obtain ⟨q, hq, hq2⟩ := partMask_test (fun d m hh => timeMatch_test hh) hm
      refine htime (fun t => q (timeDayOfMonth t)) (fun _ => True) (fun row t => ?_) (fun G hG => ?_)
      · simp only [Wants, h1, if_false, h2, show ("day" : String) ≠ "level" by decide, test_single hq]
        constructor
        · intro hf
          generalize hy : "day" = s at hf
          cases hf with
          | day _ a b => rw [dayIs_iff] at a; rwa [a]
          | weekday hn _ _ => exact absurd hn ht
          | _ => exact absurd hy (by decide)
        · intro hv; exact .day ht (dayIs_iff.2 rfl) hv
      · have := hq2 G hG
        simp only [DFrame.oneMask, h1, if_false, hG.cols, h2, h3, h4, if_true]
        rcases frameDayMatch_eq G.times arg with ⟨he', -⟩ | ⟨hn, _⟩ | ⟨_, he'⟩
        · subst he'
          exact absurd (hq []) (by simp [timeMatch, timeMatchList])
        · exact absurd hn ht
        · rw [he']
          simp only [tpDays, dayMatch] at this ⊢
          rw [this]; rfl
  rw [if_neg h5] at h
  by_cases h6 : c = "hour"
  · subst h6
    simp only [if_true] at h
    obtain ⟨m, hm, -⟩ := except_map_ok h
    obtain ⟨q, hq, hq2⟩ := partMask_test (fun d m hh => (hourMatch_test hh).imp fun _ h => h.1) hm
    obtain ⟨q', hq', hv⟩ := hourMatch_test (hq [])
    have hqq : ∀ y, q y = q' y := by
      intro y
      have := (hq [y]).symm.trans (hq' [y])
      simpa using this
    refine htime (fun t => q (timeHour t)) (fun _ => True) (fun row t => ?_) (fun G hG => ?_)
    · simp only [Wants, h1, if_false, h2, show ("hour" : String) ≠ "level" by decide, hqq, hv]
      constructor
      · intro hf
        generalize hy : "hour" = s at hf
        cases hf with
        | hour a b c => rw [hourIs_iff] at a; rw [a]; exact ⟨_, b, c⟩
        | _ => exact absurd hy (by decide)
      · rintro ⟨v, hv1, hv2⟩; exact .hour (hourIs_iff.2 rfl) hv1 hv2
    · have := hq2 G hG
      simp only [DFrame.oneMask, h1, if_false, hG.cols, h2, h3, h4, h5, if_true, tpHours] at this ⊢
      rw [this]; rfl
  rw [if_neg h6] at h
  by_cases h7 : c = "time"
  · subst h7
    simp only [if_true] at h
    obtain ⟨m, hm, -⟩ := except_map_ok h
    obtain ⟨q, hq, hv⟩ := datetimeMatch_test hm
    refine htime q (fun _ => True) (fun row t => ?_) (fun G hG => ?_)
    · simp only [Wants, h1, if_false, h2, show ("time" : String) ≠ "level" by decide, hv]
      constructor
      · intro hf
        generalize hy : "time" = s at hf
        cases hf with
        | time a => exact a
        | _ => exact absurd hy (by decide)
      · intro hv; exact .time hv
    · simp only [DFrame.oneMask, h1, if_false, hG.cols, h2, h3, h4, h5, h6, if_true, hq]
      rfl
  rw [if_neg h7] at h
  by_cases h8 : c = "level"
  · subst h8
    simp only [if_true] at h
    split at h
    · rename_i hv
      refine ⟨none, fun row t _ => ?_, fun G hG => ?_⟩
      · simp only [MaskTest.holds, Wants, h1, if_false, h2, if_true, true_iff]
        left
        simpa using hv
      · simp only [DFrame.oneMask, h1, if_false, hG.cols, h2, h3, h4, h5, h6, h7, if_true, hv]
        rfl
    · rename_i hv
      obtain ⟨m, hm, -⟩ := except_map_ok h
      refine hmeta _ _ _ m hm (fun row t => ?_) (fun G hG => ?_)
      · simp only [Wants, h1, if_false, h2, if_true]
        refine or_iff_right ?_
        simpa using hv
      · simp only [DFrame.oneMask, h1, if_false, hG.cols, h2, h3, h4, h5, h6, h7, if_true, hv]
        rfl
  · rw [if_neg h8] at h
    cases h

theorem zipWith_map_and {α : Type} (l : List α) (f g : α → Bool) :
    List.zipWith (· && ·) (l.map f) (l.map g) = l.map fun x => f x && g x := by
  induction l with
  | nil => rfl
  | cons a l ih => simp [ih]

/-- The loop over the filters: the masks are those of two tests, which together say that all filters match. -/
theorem applyLoop_test {F : DFrame K} {o : FilterOpts K} {filters : List (String × PyArg K)} (hc : F.cols.Nodup)
    (fs : List (String × PyArg K)) {ts me : List Bool} {r : List Bool × List Bool}
    (ht : ts.length = F.times.length) (hm : me.length = F.meta.length)
    (h : F.applyLoop o filters fs ts me = .ok r) :
    ∃ (p : List (PyVal K) → Bool) (q : Int → Bool),
      (∀ row t, row.length = F.cols.length → ((p row && q t) = true ↔ ∀ f ∈ fs, Wants o filters F.cols row t f)) ∧
      ∀ G, Within G F → ∀ (p0 : List (PyVal K) → Bool) (q0 : Int → Bool),
        G.applyLoop o filters fs (G.times.map q0) (G.meta.map fun r => p0 r.2) =
          .ok (G.times.map (fun t => q0 t && q t), G.meta.map fun r => p0 r.2 && p r.2) := by
  induction fs generalizing ts me with
  | nil => exact ⟨fun _ => true, fun _ => true, by simp, fun G _ p0 q0 => by simp [DFrame.applyLoop]⟩
  | cons f fs ih =>
    unfold DFrame.applyLoop at h
    cases hone : F.oneMask o filters f with
    | error e => rw [hone] at h; cases h
    | ok x =>
      obtain ⟨s, hs1, hs2⟩ := oneMask_test hc hone
      have hx : x = s.mask F := by
        have := hs2 F (Within.refl F)
        rw [hone] at this
        exact Except.ok.inj this
      rw [hone, hx] at h
      cases s with
      | none =>
        obtain ⟨p, q, h1, h2⟩ := ih ht hm h
        refine ⟨p, q, fun row t hl => ?_, fun G hG p0 q0 => ?_⟩
        · rw [h1 row t hl, List.forall_mem_cons]
          exact ⟨fun h => ⟨(hs1 row t hl).1 rfl, h⟩, fun h => h.2⟩
        · rw [DFrame.applyLoop, hs2 G hG]
          exact h2 G hG p0 q0
      | some s =>
        cases s with
        | inl p1 =>
          simp only [MaskTest.mask, andMask] at h
          by_cases hme : me = []
          · simp [hme] at h
          · rw [if_neg hme] at h
            obtain ⟨p, q, h1, h2⟩ := ih ht (by simp [hm]) h
            refine ⟨fun row => p1 row && p row, q, fun row t hl => ?_, fun G hG p0 q0 => ?_⟩
            · rw [List.forall_mem_cons, ← h1 row t hl, ← hs1 row t hl]
              simp [MaskTest.holds, and_assoc]
            · rw [DFrame.applyLoop, hs2 G hG]
              have hne : (G.meta.map fun r => p0 r.2) ≠ [] := by
                intro he
                refine hme (List.eq_nil_of_length_eq_zero ?_)
                rw [hm, hG.some_rows (List.map_eq_nil_iff.1 he)]; rfl
              simp only [MaskTest.mask, andMask, if_neg hne, zipWith_map_and]
              rw [h2 G hG (fun r => p0 r && p1 r) q0]
              simp only [Bool.and_assoc]
        | inr q1 =>
          simp only [MaskTest.mask, andMask] at h
          by_cases hts : ts = []
          · simp [hts] at h
          · rw [if_neg hts] at h
            obtain ⟨p, q, h1, h2⟩ := ih (by simp [ht]) hm h
            refine ⟨p, fun t => q1 t && q t, fun row t hl => ?_, fun G hG p0 q0 => ?_⟩
            · rw [List.forall_mem_cons, ← h1 row t hl, ← hs1 row t hl]
              simp only [MaskTest.holds, Bool.and_eq_true]
              tauto
            · rw [DFrame.applyLoop, hs2 G hG]
              have hne : G.times.map q0 ≠ [] := by
                intro he
                refine hts (List.eq_nil_of_length_eq_zero ?_)
                rw [ht, hG.some_times (List.map_eq_nil_iff.1 he)]; rfl
              simp only [MaskTest.mask, andMask, if_neg hne, zipWith_map_and]
              rw [h2 G hG p0 (fun t => q0 t && q1 t)]
              simp only [Bool.and_assoc]

theorem whereMask_eq (times : List Int) (q : Int → Bool) (b keep : Bool) (vals : List (Fl K)) :
    whereMask (times.map q) b keep vals = maskVals (fun t => (b && q t) == keep) times vals := by
  unfold whereMask maskVals
  rw [List.zipWith_map_left]
  refine congrArg (fun f => List.zipWith f times vals) ?_
  funext t v
  simp only [Bool.and_comm (q t) b, beq_iff_eq]

theorem filter_labels {R : List (SRow K)} (h1 : ∀ rd ∈ R, rd.1.1 = rd.2.1) (h2 : (R.map fun rd => rd.2.1).Nodup)
    (g : SRow K → Bool) :
    (R.map (·.1)).filter (fun r => ((R.filter g).map (·.2)).any fun s => s.1 = r.1) = (R.filter g).map (·.1) := by
  rw [List.filter_map]
  congr 1
  refine List.filter_congr fun rd hrd => ?_
  simp only [Function.comp, List.any_map]
  rw [Bool.eq_iff_iff, List.any_eq_true]
  constructor
  · rintro ⟨x, hx, hxe⟩
    obtain ⟨hx1, hx2⟩ := List.mem_filter.1 hx
    have e : x.2.1 = rd.2.1 := by
      rw [← h1 rd hrd]; simpa using hxe
    have : x = rd := List.inj_on_of_nodup_map h2 hx1 hrd e
    rwa [← this]
  · intro hg
    exact ⟨rd, List.mem_filter.2 ⟨hrd, hg⟩, by simp [h1 rd hrd]⟩

/-- From masks to the filtered frame. -/
theorem filter_of_masks {H : DFrame K} (hH : H.Ok) {o : FilterOpts K} {filters : List (String × PyArg K)} (keep : Bool)
    {p : List (PyVal K) → Bool} {q : Int → Bool}
    (h : H.applyFilters o filters = .ok (H.times.map q, H.meta.map fun r => p r.2)) :
    H.filter o keep filters = .ok (H.restrict fun r t => (p r && q t) == keep) := by
  obtain ⟨h1, h2, h3, h4, h5⟩ := hH.rows_ok
  have hme := hH.meta_eq
  have hda := hH.data_eq
  unfold DFrame.filter
  rw [h]
  have hlen : ¬ (H.meta.map fun r => p r.2).length ≠ H.data.length := by
    simp [hH.length_eq]
  simp only [if_neg hlen]
  have hd : List.zipWith (fun m (s : Nat × List (Fl K)) => (s.1, whereMask (H.times.map q) m keep s.2))
      (H.meta.map fun r => p r.2) H.data =
      (maskRows (fun r t => (p r && q t) == keep) H.times H.rows).map (·.2) := by
    conv_lhs => rw [hme, hda]
    unfold maskRows
    rw [List.map_map, List.zipWith_map_left, List.zipWith_map_right, List.zipWith_self,
      List.map_map]
    refine List.map_congr_left fun rd _ => ?_
    simp [whereMask_eq]
  rw [hd]
  generalize hM : maskRows (fun r t => (p r && q t) == keep) H.times H.rows = M
  have hM1 : M.map (·.1) = H.meta := by
    rw [← hM, maskRows, List.map_map]; exact hme.symm
  have hMl : ∀ rd ∈ M, rd.1.1 = rd.2.1 := by
    intro rd hrd
    rw [← hM] at hrd
    obtain ⟨x, hx, rfl⟩ := List.mem_map.1 hrd
    exact h1 x hx
  have hMn : (M.map fun rd => rd.2.1).Nodup := by
    have : (M.map fun rd => rd.2.1) = H.rows.map fun rd => rd.2.1 := by
      rw [← hM, maskRows, List.map_map]; rfl
    rw [this]; exact h2
  have hk : (M.map (·.2)).filter (fun s => s.2.any Fl.isNum) = (M.filter fun rd => rd.2.2.any Fl.isNum).map (·.2) := by
    rw [List.filter_map]; rfl
  rw [hk, ← hM1, filter_labels hMl hMn]
  rw [if_neg (by simp)]
  unfold DFrame.restrict dropRows frameOf
  rw [hM]
  simp [List.map_map, Function.comp]

/-- A filter that works restricts the frame to the cells that match (or not), and does so for every frame
within this one. -/
theorem filter_restrict {F : DFrame K} (hF : F.Ok) {o : FilterOpts K} {keep : Bool} {filters : List (String × PyArg K)}
    {G : DFrame K} (h : F.filter o keep filters = .ok G) :
    ∃ P : List (PyVal K) → Int → Bool,
      (∀ row t, row.length = F.cols.length → (P row t = true ↔ Matches o filters F.cols row t)) ∧
      ∀ H : DFrame K, H.Ok → Within H F → ∀ keep', H.filter o keep' filters = .ok (H.restrict fun r t => P r t == keep') := by
  have : ∃ r, F.applyFilters o filters = .ok r := by
    unfold DFrame.filter at h
    cases hr : F.applyFilters o filters with
    | error e => rw [hr] at h; cases h
    | ok r => exact ⟨r, rfl⟩
  obtain ⟨r, hr⟩ := this
  obtain ⟨p, q, h1, h2⟩ := applyLoop_test hF.cols_nodup filters (by simp) (by simp) hr
  refine ⟨fun row t => p row && q t, h1, fun H hH hHF keep' => ?_⟩
  refine filter_of_masks hH keep' ?_
  unfold DFrame.applyFilters
  rw [h2 H hHF (fun _ => true) (fun _ => true)]
  simp

end Openscm
