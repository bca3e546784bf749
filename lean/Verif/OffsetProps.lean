import Verif.Offsets

/-!
# C55: ranges of times
-/

namespace Openscm

/-! ## Facts -/

theorem atDay_parts {d s : Int} (h : 0 ≤ s ∧ s < 86400) : timeDay (atDay d s) = d ∧ atDay d s % 86400 = s := by
  unfold atDay timeDay
  constructor <;> omega

theorem atDay_self (t : Int) : atDay (timeDay t) (t % 86400) = t := by
  unfold atDay timeDay; omega

theorem atDay_le {d e s : Int} : atDay d s ≤ atDay e s ↔ d ≤ e := by unfold atDay; omega
theorem atDay_lt {d e s : Int} : atDay d s < atDay e s ↔ d < e := by unfold atDay; omega

theorem sameClock_iff {t u : Int} : SameClock t u ↔ t % 86400 = u % 86400 := by
  unfold SameClock; omega

theorem GridOf.lt {r : Rule} {g : Int → Int} (h : GridOf r g) {i j : Int} (hij : i < j) : g i < g j := by
  have h0 : i + 1 ≤ j := hij
  induction j, h0 using Int.leInduction with
  | base => exact h.mono i
  | succ n hn ih => exact (ih (by omega)).trans (h.mono n)

theorem GridOf.le {r : Rule} {g : Int → Int} (h : GridOf r g) {i j : Int} (hij : i ≤ j) : g i ≤ g j := by
  rcases eq_or_lt_of_le hij with rfl | hij
  · exact le_refl _
  · exact (h.lt hij).le

theorem GridOf.lt_iff {r : Rule} {g : Int → Int} (h : GridOf r g) {i j : Int} : g i < g j ↔ i < j :=
  ⟨fun hh => by
    by_contra hc
    have := h.le (show j ≤ i by omega)
    omega, h.lt⟩

theorem GridOf.le_iff {r : Rule} {g : Int → Int} (h : GridOf r g) {i j : Int} : g i ≤ g j ↔ i ≤ j :=
  ⟨fun hh => by
    by_contra hc
    have := h.lt (show j < i by omega)
    omega, h.le⟩

theorem exists_grid {r : Rule} (hv : r.Valid) (ht : ∀ s, r ≠ .tick s) : ∃ g, GridOf r g := by
  cases r with
  | months kind a e => exact ⟨_, months_grid kind hv e⟩
  | week w => exact ⟨_, week_grid hv⟩
  | tick s => exact absurd rfl (ht s)

theorem checkTime_ok {t u : Int} (h : checkTime t = .ok u) : u = t := by
  unfold checkTime at h
  split at h
  · exact (Except.ok.inj h).symm
  · cases h

theorem clock_range (t : Int) : 0 ≤ t % 86400 ∧ t % 86400 < 86400 := by omega

theorem GridOf.at_eq {r : Rule} {g : Int → Int} (h : GridOf r g) {k n s : Int} (hn : n ≠ 0) (hs : 0 ≤ s ∧ s < 86400) :
    r.apply n (atDay (g k) s) = checkTime (atDay (g (k + n)) s) := by
  obtain ⟨j, h1, h2, h3⟩ := h.move (atDay (g k) s)
  obtain ⟨e1, e2⟩ := atDay_parts (d := g k) hs
  rw [e1] at h1 h2
  have hj : j = k := by
    have := h.le_iff.1 h1
    have := h.lt_iff.1 h2
    omega
  rw [h3 n hn, e1, e2, hj]
  simp

theorem GridOf.rollback_eq {r : Rule} {g : Int → Int} (h : GridOf r g) (t : Int) :
    ∃ k, g k ≤ timeDay t ∧ timeDay t < g (k + 1) ∧
      (r.rollback t = checkTime (atDay (g k) (t % 86400)) ∨ r.rollback t = .ok (atDay (g k) (t % 86400))) := by
  obtain ⟨k, h1, h2, h3⟩ := h.move t
  refine ⟨k, h1, h2, ?_⟩
  unfold Rule.rollback
  split
  · rename_i hon
    obtain ⟨j, hj⟩ := (h.on t).1 hon
    have : j = k := by
      rw [hj] at h1 h2
      have := h.le_iff.1 h1
      have := h.lt_iff.1 h2
      omega
    right
    rw [← this, ← hj, atDay_self]
  · rename_i hoff
    left
    rw [h3 (-1) (by omega), if_pos]
    · congr 3; omega
    · refine ⟨fun he => hoff ((h.on t).2 ⟨k, he⟩), by omega⟩

theorem GridOf.rollforward_eq {r : Rule} {g : Int → Int} (h : GridOf r g) (t : Int) :
    ∃ k, g (k - 1) < timeDay t ∧ timeDay t ≤ g k ∧
      (r.rollforward t = checkTime (atDay (g k) (t % 86400)) ∨ r.rollforward t = .ok (atDay (g k) (t % 86400))) := by
  obtain ⟨k, h1, h2, h3⟩ := h.move t
  unfold Rule.rollforward
  split
  · rename_i hon
    obtain ⟨j, hj⟩ := (h.on t).1 hon
    refine ⟨j, by rw [hj]; exact h.lt (by omega), by omega, ?_⟩
    right
    rw [← hj, atDay_self]
  · rename_i hoff
    refine ⟨k + 1, ?_, h2.le, .inl ?_⟩
    · rw [add_sub_cancel_right]
      exact lt_of_le_of_ne h1 fun he => hoff ((h.on t).2 ⟨k, he.symm⟩)
    · rw [h3 1 (by omega), if_neg (by omega)]
      simp

theorem GridOf.loop {r : Rule} {g : Int → Int} (h : GridOf r g) {n s stop : Int} (hn : 1 ≤ n)
    (hs : 0 ≤ s ∧ s < 86400) (f : Nat) {k : Int} {l : List Int}
    (hl : genLoop r n stop f (atDay (g k) s) = (l, none)) :
    ∃ len : Nat, l = (List.range len).map (fun i : Nat => atDay (g (k + n * (i : Int))) s) ∧
      (∀ i : Nat, i < len → atDay (g (k + n * (i : Int))) s ≤ stop) ∧ stop < atDay (g (k + n * (len : Int))) s := by
  induction f generalizing k l with
  | zero => simp [genLoop] at hl
  | succ f ih =>
    unfold genLoop at hl
    split at hl
    · rename_i hle
      rw [h.at_eq (by omega) hs] at hl
      cases hc : checkTime (atDay (g (k + n)) s) with
      | error e => rw [hc] at hl; simp at hl
      | ok u =>
        rw [hc] at hl
        have hu := checkTime_ok hc
        subst hu
        simp only at hl
        split at hl
        · simp at hl
        · simp only [Prod.mk.injEq] at hl
          obtain ⟨h1, h2⟩ := hl
          obtain ⟨len, e1, e2, e3⟩ := ih (k := k + n) (Prod.ext rfl h2)
          refine ⟨len + 1, ?_, ?_, ?_⟩
          · rw [← h1]
            refine (congrArg (atDay (g k) s :: ·) e1).trans ?_
            rw [List.range_succ_eq_map, List.map_cons, List.map_map]
            congr 1
            · simp
            · refine List.map_congr_left fun i _ => ?_
              simp only [Function.comp]
              congr 2
              push_cast
              ring
          · intro i hi
            cases i with
            | zero => simpa using hle
            | succ i =>
              have := e2 i (by omega)
              rw [show k + n * ((i + 1 : Nat) : Int) = k + n + n * (i : Int) by push_cast; ring]
              exact this
          · rw [show k + n * ((len + 1 : Nat) : Int) = k + n + n * (len : Int) by push_cast; ring]
            exact e3
    · rename_i hle
      simp only [Prod.mk.injEq, and_true] at hl
      exact ⟨0, by simp [← hl], by simp, by simpa using hle⟩

/-- The loop ends before its bound. -/
theorem genLoop_enough (r : Rule) (n stop : Int) (f : Nat) (cur : Int) (hf : stop - cur + 1 < (f : Int)) (h0 : 0 < f) :
    (genLoop r n stop f cur).2 ≠ some .unmodelled ∨ ∃ t, r.apply n t = .error .unmodelled := by
  induction f generalizing cur with
  | zero => omega
  | succ f ih =>
    unfold genLoop
    split
    · rename_i hle
      cases hc : r.apply n cur with
      | error e =>
        by_cases he : e = .unmodelled
        · subst he; exact .inr ⟨cur, hc⟩
        · left; simpa using he
      | ok u =>
        simp only
        split
        · left; simp
        · simp only
          exact ih u (by omega) (by omega)
    · left; simp

/-! ## C55 -/

/-- What `generate_range` yields, in terms of the days of the rule. -/
theorem range_grid {r : Rule} {g : Int → Int} (h : GridOf r g) {n start stop : Int} (hn : 1 ≤ n) (hse : start ≤ stop)
    {l : List Int} (hl : generateRange r n start stop = (l, none)) :
    ∃ (k j : Int) (len : Nat), g k ≤ timeDay start ∧ timeDay start < g (k + 1) ∧ g (j - 1) < timeDay stop ∧
      timeDay stop ≤ g j ∧ 0 < len ∧
      l = (List.range len).map (fun i : Nat => atDay (g (k + n * (i : Int))) (start % 86400)) ∧
      (∀ i : Nat, i < len → atDay (g (k + n * (i : Int))) (start % 86400) ≤ atDay (g j) (stop % 86400)) ∧
      atDay (g j) (stop % 86400) < atDay (g (k + n * (len : Int))) (start % 86400) := by
  obtain ⟨k, hk1, hk2, hk3⟩ := h.rollback_eq start
  obtain ⟨j, hj1, hj2, hj3⟩ := h.rollforward_eq stop
  unfold generateRange at hl
  cases hb : r.rollback start with
  | error e => rw [hb] at hl; simp at hl
  | ok s =>
    have hs : s = atDay (g k) (start % 86400) := by
      rcases hk3 with h3 | h3
      · rw [hb] at h3; exact checkTime_ok h3.symm
      · rw [hb] at h3; exact Except.ok.inj h3
    cases hf : r.rollforward stop with
    | error e => rw [hb, hf] at hl; simp at hl
    | ok e =>
      have he : e = atDay (g j) (stop % 86400) := by
        rcases hj3 with h3 | h3
        · rw [hf] at h3; exact checkTime_ok h3.symm
        · rw [hf] at h3; exact Except.ok.inj h3
      rw [hb, hf] at hl
      simp only at hl
      subst hs he
      obtain ⟨len, e1, e2, e3⟩ := h.loop hn (clock_range start) _ hl
      refine ⟨k, j, len, hk1, hk2, hj1, hj2, ?_, e1, e2, e3⟩
      by_contra h0
      have : len = 0 := by omega
      subst this
      simp only [Nat.cast_zero, mul_zero, add_zero] at e3
      have : atDay (g k) (start % 86400) ≤ start := by
        conv_rhs => rw [← atDay_self start]
        exact atDay_le.2 hk1
      have : stop ≤ atDay (g j) (stop % 86400) := by
        conv_lhs => rw [← atDay_self stop]
        exact atDay_le.2 hj2
      omega

/-- C55, for any multiple: the times increase strictly, lie on days of the rule at the time of day of the start,
and begin with the last such time that is not after the start. -/
theorem C55_times {r : Rule} (hv : r.Valid) (ht : ∀ s, r ≠ .tick s) {n start stop : Int} (hn : 1 ≤ n)
    (hse : start ≤ stop) {l : List Int} (hl : generateRange r n start stop = (l, none)) :
    l.Pairwise (· < ·) ∧ (∀ t ∈ l, OnDay r t ∧ SameClock t start) ∧
    ∃ a, l.head? = some a ∧ a ≤ start ∧ ∀ t, OnDay r t → SameClock t start → t ≤ start → t ≤ a := by
  obtain ⟨g, hg⟩ := exists_grid hv ht
  obtain ⟨k, j, len, hk1, hk2, -, -, h0, rfl, -, -⟩ := range_grid hg hn hse hl
  have hs := clock_range start
  refine ⟨?_, ?_, ?_⟩
  · rw [List.pairwise_map]
    refine List.pairwise_lt_range.imp fun {a b} hab => ?_
    rw [atDay_lt, hg.lt_iff]
    have : n * (a : Int) < n * (b : Int) := by
      apply Int.mul_lt_mul_of_pos_left <;> omega
    omega
  · intro t htm
    obtain ⟨i, -, rfl⟩ := List.mem_map.1 htm
    obtain ⟨e1, e2⟩ := atDay_parts (d := g (k + n * (i : Int))) hs
    exact ⟨(hg.day _).2 ⟨_, e1⟩, sameClock_iff.2 (by rw [e2])⟩
  · refine ⟨atDay (g k) (start % 86400), ?_, ?_, ?_⟩
    · obtain ⟨m, rfl⟩ : ∃ m, len = m + 1 := ⟨len - 1, by omega⟩
      simp [List.range_succ_eq_map]
    · conv_rhs => rw [← atDay_self start]
      exact atDay_le.2 hk1
    · intro t h1 h2 h3
      obtain ⟨i, hi⟩ := (hg.day t).1 h1
      rw [← atDay_self t, sameClock_iff.1 h2, atDay_le, hi]
      rw [hg.le_iff]
      by_contra hc
      have := hg.le (show k + 1 ≤ i by omega)
      have hts : timeDay t ≤ timeDay start := by unfold timeDay; omega
      omega

/-- C55, no time is skipped: with the multiple 1, every time on a day of the rule, at the time of day of the
start, that is between two yielded times is yielded. -/
theorem C55_no_gap {r : Rule} (hv : r.Valid) (ht : ∀ s, r ≠ .tick s) {start stop : Int}
    (hse : start ≤ stop) {l : List Int} (hl : generateRange r 1 start stop = (l, none))
    {a b t : Int} (ha : a ∈ l) (hb : b ∈ l) (hat : a ≤ t) (htb : t ≤ b) (h1 : OnDay r t) (h2 : SameClock t start) :
    t ∈ l := by
  obtain ⟨g, hg⟩ := exists_grid hv ht
  obtain ⟨k, j, len, -, -, -, -, -, rfl, -, -⟩ := range_grid hg (le_refl 1) hse hl
  obtain ⟨i, hi⟩ := (hg.day t).1 h1
  have e : t = atDay (g i) (start % 86400) := by
    rw [← hi, ← sameClock_iff.1 h2, atDay_self]
  obtain ⟨ia, hia, rfl⟩ := List.mem_map.1 ha
  obtain ⟨ib, hib, rfl⟩ := List.mem_map.1 hb
  rw [e, atDay_le, hg.le_iff] at hat htb
  rw [List.mem_range] at hib
  refine List.mem_map.2 ⟨(i - k).toNat, ?_, ?_⟩
  · rw [List.mem_range]; omega
  · rw [e]
    congr 2
    omega

/-- C55, the end: with the multiple 1 and the same time of day at both ends, the last time is the first one on a
day of the rule that is not before the end. -/
theorem C55_covers_partial {r : Rule} (hv : r.Valid) (ht : ∀ s, r ≠ .tick s) {start stop : Int}
    (hse : start ≤ stop) (hc : SameClock start stop) {l : List Int}
    (hl : generateRange r 1 start stop = (l, none)) :
    ∃ b, l.getLast? = some b ∧ stop ≤ b ∧ ∀ t, OnDay r t → SameClock t start → stop ≤ t → b ≤ t := by
  obtain ⟨g, hg⟩ := exists_grid hv ht
  obtain ⟨k, j, len, hk1, hk2, hj1, hj2, h0, rfl, e2, e3⟩ := range_grid hg (le_refl 1) hse hl
  rw [← sameClock_iff.1 hc] at e2 e3
  rw [atDay_lt, hg.lt_iff] at e3
  have e4 := e2 (len - 1) (by omega)
  rw [atDay_le, hg.le_iff] at e4
  have hj : j = k + ((len - 1 : Nat) : Int) := by omega
  refine ⟨atDay (g j) (start % 86400), ?_, ?_, ?_⟩
  · obtain ⟨m, rfl⟩ : ∃ m, len = m + 1 := ⟨len - 1, by omega⟩
    rw [List.range_succ, List.map_append, List.map_singleton, List.getLast?_concat, hj]
    simp
  · conv_lhs => rw [← atDay_self stop]
    rw [← sameClock_iff.1 hc]
    exact atDay_le.2 hj2
  · intro t h1 h2 h3
    obtain ⟨i, hi⟩ := (hg.day t).1 h1
    rw [← atDay_self t, sameClock_iff.1 h2, atDay_le, hi, hg.le_iff]
    by_contra hcc
    have := hg.le (show i ≤ j - 1 by omega)
    have : timeDay stop ≤ timeDay t := by unfold timeDay; omega
    omega

/-- C55 for fixed periods: if a whole number of steps leads from the start to the end, the range has exactly the
times of these steps. -/
theorem C55_tick_partial {s n start : Int} {m : Nat} (hs : 0 < s) (hn : 1 ≤ n) {l : List Int}
    (hl : generateRange (.tick s) n start (start + n * s * (m : Int)) = (l, none)) :
    l = (List.range (m + 1)).map (fun i : Nat => start + n * s * (i : Int)) := by
  have hpos : 0 < n * s := Int.mul_pos (by omega) hs
  have key : ∀ (f : Nat) (i : Nat) (l : List Int), i ≤ m + 1 →
      genLoop (.tick s) n (start + n * s * (m : Int)) f (start + n * s * (i : Int)) = (l, none) →
      l = (List.range' i (m + 1 - i)).map (fun i : Nat => start + n * s * (i : Int)) := by
    intro f
    induction f with
    | zero => intro i l _ h; simp [genLoop] at h
    | succ f ih =>
      intro i l hi h
      unfold genLoop at h
      split at h
      · rename_i hle
        have him : i ≤ m := by
          have : n * s * (i : Int) ≤ n * s * (m : Int) := by omega
          have := le_of_mul_le_mul_left this hpos
          omega
        cases hc : (Rule.tick s).apply n (start + n * s * (i : Int)) with
        | error e => rw [hc] at h; simp at h
        | ok u =>
          rw [hc] at h
          have hu : u = start + n * s * ((i + 1 : Nat) : Int) := by
            rw [checkTime_ok hc]; push_cast; ring
          subst hu
          simp only at h
          split at h
          · simp at h
          · simp only [Prod.mk.injEq] at h
            have := ih (i + 1) _ (by omega) (Prod.ext rfl h.2)
            rw [← h.1]
            refine (congrArg ((start + n * s * (i : Int)) :: ·) this).trans ?_
            have e : m + 1 - i = (m + 1 - (i + 1)) + 1 := by omega
            rw [e, List.range'_succ, List.map_cons]
      · rename_i hle
        simp only [Prod.mk.injEq, and_true] at h
        have : ¬ i ≤ m := by
          intro him
          have : n * s * (i : Int) ≤ n * s * (m : Int) := Int.mul_le_mul_of_nonneg_left (by omega) hpos.le
          omega
        have e : m + 1 - i = 0 := by omega
        rw [e, ← h]
        rfl
  unfold generateRange at hl
  simp only [Rule.rollback, Rule.rollforward, Rule.on, if_true] at hl
  have := key _ 0 l (by omega) (by simpa using hl)
  rw [this, List.range_eq_range']
  rfl

/-- Steps between days of a rule. -/
theorem grid_gap {r : Rule} (hv : r.Valid) (ht : ∀ s, r ≠ .tick s) : ∃ g, GridOf r g ∧ ∀ k, g (k + 1) ≤ g k + 500 := by
  cases r with
  | months kind a e =>
    refine ⟨_, months_grid kind hv e, fun k => ?_⟩
    have hstep : ∀ i, firstDay (i + 1) ≤ firstDay i + 31 := by
      intro i
      have := firstDay_step i
      have := lenOf_pos i
      omega
    have h13 : ∀ i, firstDay (i + 13) ≤ firstDay i + 403 := by
      intro i
      have a1 := hstep i
      have a2 := hstep (i + 1)
      have a3 := hstep (i + 2)
      have a4 := hstep (i + 3)
      have a5 := hstep (i + 4)
      have a6 := hstep (i + 5)
      have a7 := hstep (i + 6)
      have a8 := hstep (i + 7)
      have a9 := hstep (i + 8)
      have a10 := hstep (i + 9)
      have a11 := hstep (i + 10)
      have a12 := hstep (i + 11)
      have a13 := hstep (i + 12)
      ring_nf at a1 a2 a3 a4 a5 a6 a7 a8 a9 a10 a11 a12 a13 ⊢
      omega
    generalize hi : kind.period * k + (a - 1) % kind.period = i
    have hi' : kind.period * (k + 1) + (a - 1) % kind.period ≤ i + 12 := by
      rw [← hi, mul_add]
      cases kind <;> simp only [MonthKind.period] <;> omega
    have h1 := (gridDay_bounds e (kind.period * (k + 1) + (a - 1) % kind.period)).2
    have h2 := firstDay_mono (show kind.period * (k + 1) + (a - 1) % kind.period + 1 ≤ i + 13 by omega)
    have h3 := (gridDay_bounds e i).1
    have h4 := h13 i
    omega
  | week w => exact ⟨_, week_grid hv, fun k => by omega⟩
  | tick s => exact absurd rfl (ht s)

/-- C55: nothing is raised if the ends keep some distance (500 days per step) from the years 1 and 9999. -/
theorem C55_works {r : Rule} (hv : r.Valid) (ht : ∀ s, r ≠ .tick s) {n start stop : Int} (hn : 1 ≤ n)
    (hse : start ≤ stop) (h1 : yearToSeconds 1 + 500 * 86400 ≤ start)
    (h2 : stop + (n + 2) * (500 * 86400) ≤ yearToSeconds 10000) :
    ∃ l, generateRange r n start stop = (l, none) := by
  obtain ⟨g, hg, hgap⟩ := grid_gap hv ht
  have hgapn : ∀ (m : Nat) (k : Int), g (k + (m : Int)) ≤ g k + 500 * (m : Int) := by
    intro m
    induction m with
    | zero => intro k; simp
    | succ m ih =>
      intro k
      have := ih k
      have := hgap (k + (m : Int))
      rw [show k + ((m + 1 : Nat) : Int) = k + (m : Int) + 1 by push_cast; ring]
      push_cast
      omega
  obtain ⟨k, hk1, hk2, hk3⟩ := hg.rollback_eq start
  obtain ⟨j, hj1, hj2, hj3⟩ := hg.rollforward_eq stop
  have hcs := clock_range start
  have hce := clock_range stop
  have hds : start = (timeDay start - epochDay) * 86400 + start % 86400 := (atDay_self start).symm
  have hde : stop = (timeDay stop - epochDay) * 86400 + stop % 86400 := (atDay_self stop).symm
  have hn2 : (n + 2) * (500 * 86400) = n * 43200000 + 86400000 := by ring
  rw [hn2] at h2
  have hin : ∀ d s, 0 ≤ s ∧ s < 86400 → g k ≤ d → d ≤ g j + 500 * n → checkTime (atDay d s) = .ok (atDay d s) := by
    intro d s hs hd1 hd2
    have hg1 := hgap k
    have hg2 := hgap (j - 1)
    rw [sub_add_cancel] at hg2
    unfold checkTime datetimeRange
    rw [if_pos]
    rw [Bool.and_eq_true, decide_eq_true_iff, decide_eq_true_iff]
    unfold atDay
    generalize timeDay start = ds at *
    generalize timeDay stop = de at *
    generalize yearToSeconds 1 = y1 at *
    generalize yearToSeconds 10000 = y2 at *
    have e1 : 500 * n = n * 500 := by ring
    rw [e1] at hd2
    constructor <;> omega
  have hjk : k ≤ j := by
    by_contra hc
    have := hg.le (show j + 1 ≤ k by omega)
    have := hg.mono j
    have : timeDay start ≤ timeDay stop := by unfold timeDay; omega
    omega
  have hs : r.rollback start = .ok (atDay (g k) (start % 86400)) := by
    rcases hk3 with h | h
    · rw [h]
      refine hin _ _ hcs (le_refl _) ?_
      have := hg.le hjk
      omega
    · exact h
  have he : r.rollforward stop = .ok (atDay (g j) (stop % 86400)) := by
    rcases hj3 with h | h
    · rw [h]
      exact hin _ _ hce (hg.le hjk) (by omega)
    · exact h
  have key : ∀ (f : Nat) (i : Int), k ≤ i →
      atDay (g j) (stop % 86400) - atDay (g i) (start % 86400) + 1 < (f : Int) → 0 < f →
      ∃ l, genLoop r n (atDay (g j) (stop % 86400)) f (atDay (g i) (start % 86400)) = (l, none) := by
    intro f
    induction f with
    | zero => intro i _ _ h; omega
    | succ f ih =>
      intro i hi hf _
      unfold genLoop
      split
      · rename_i hle
        have hij : i ≤ j := by
          by_contra hc
          have := hg.lt (show j < i by omega)
          unfold atDay at hle
          omega
        have hup : g (i + n) ≤ g j + 500 * n := by
          have := hgapn n.toNat i
          rw [Int.toNat_of_nonneg (by omega)] at this
          have := hg.le hij
          omega
        rw [hg.at_eq (by omega) hcs, hin _ _ hcs (hg.le (show k ≤ i + n by omega)) hup]
        have hlt : atDay (g i) (start % 86400) < atDay (g (i + n)) (start % 86400) :=
          atDay_lt.2 (hg.lt (by omega))
        simp only [if_neg (not_le.2 hlt)]
        obtain ⟨l, hl⟩ := ih (i + n) (by omega) (by omega) (by omega)
        exact ⟨_, by rw [hl]⟩
      · exact ⟨[], rfl⟩
  unfold generateRange
  rw [hs, he]
  simp only
  exact key _ k (le_refl _) (by omega) (by omega)

/-! ### Cases -/

/-- The examples of the documentation: years from 2001-04-01 to 2005-06-03, at their begin and end, and quarters. -/
example : generateRange (.months .year 1 false) 1 (dateTime 2001 4 1) (dateTime 2005 6 3) =
    ([dateTime 2001 1 1, dateTime 2002 1 1, dateTime 2003 1 1, dateTime 2004 1 1, dateTime 2005 1 1, dateTime 2006 1 1], none) := by
  decide +kernel

example : generateRange (.months .year 12 true) 1 (dateTime 2001 4 1) (dateTime 2005 6 3) =
    ([dateTime 2000 12 31, dateTime 2001 12 31, dateTime 2002 12 31, dateTime 2003 12 31, dateTime 2004 12 31,
      dateTime 2005 12 31], none) := by
  decide +kernel

example : generateRange (.months .quarter 1 false) 1 (dateTime 2004 4 1) (dateTime 2005 6 3) =
    ([dateTime 2004 4 1, dateTime 2004 7 1, dateTime 2004 10 1, dateTime 2005 1 1, dateTime 2005 4 1, dateTime 2005 7 1], none) := by
  decide +kernel

/-- Months to their end across a leap day, and weeks to Sunday. -/
example : generateRange (.months .month 1 true) 1 (dateTime 2020 2 5) (dateTime 2020 3 1) =
    ([dateTime 2020 1 31, dateTime 2020 2 29, dateTime 2020 3 31], none) ∧
    generateRange (.week 6) 1 (dateTime 2020 2 24) (dateTime 2020 3 1) = ([dateTime 2020 2 23, dateTime 2020 3 1], none) := by
  decide +kernel

/-- C55 does not hold for multiples: every second year from 2001 to 2004 ends in 2003. -/
theorem C55_multiple : generateRange (.months .year 1 false) 2 (dateTime 2001 1 1) (dateTime 2004 1 1) =
    ([dateTime 2001 1 1, dateTime 2003 1 1], none) := by decide +kernel

/-- C55 does not hold if the times of day differ: years from 2001-04-01 13:00 to 2005-06-03 00:00 end in 2005. -/
theorem C55_clock : generateRange (.months .year 1 false) 1 (dateTime 2001 4 1 + 13 * 3600) (dateTime 2005 6 3) =
    ([dateTime 2001 1 1 + 13 * 3600, dateTime 2002 1 1 + 13 * 3600, dateTime 2003 1 1 + 13 * 3600,
      dateTime 2004 1 1 + 13 * 3600, dateTime 2005 1 1 + 13 * 3600], none) := by decide +kernel

/-- C55 does not hold for fixed periods that do not fit: days from 2001-01-01 to 2001-01-02 12:00 end before. -/
theorem C55_tick : generateRange (.tick 86400) 1 (dateTime 2001 1 1) (dateTime 2001 1 2 + 12 * 3600) =
    ([dateTime 2001 1 1, dateTime 2001 1 2], none) := by decide +kernel

end Openscm
