import Verif.OffsetProps

/-!
# C55 without restrictions

Exactly which times `generate_range` yields, for every multiple, for all times of day and for fixed periods.
-/

namespace Openscm

/-- The times on days of the rule with the time of day of `start` that are not before `a` and before `t`, in order. -/
def StepsBetween (r : Rule) (start a t : Int) (m : List Int) : Prop :=
  m.Pairwise (· < ·) ∧ ∀ x, x ∈ m ↔ OnDay r x ∧ SameClock x start ∧ a ≤ x ∧ x < t

/-- C55, for every multiple and all times of day. Let `a` be the last time on a day of the rule, at the time of day of
the start, that is not after the start; let `e` be the first time on a day of the rule, at the time of day of the end,
that is not before the end. Then the range has exactly the times that are a multiple of `n` steps after `a` and not
after `e`. -/
theorem C55_exact_partial {r : Rule} (hv : r.Valid) (ht : ∀ s, r ≠ .tick s) {n start stop : Int} (hn : 1 ≤ n)
    (hse : start ≤ stop) {l : List Int} (hl : generateRange r n start stop = (l, none)) :
    l.Pairwise (· < ·) ∧
    ∃ a e, (OnDay r a ∧ SameClock a start ∧ a ≤ start ∧ ∀ t, OnDay r t → SameClock t start → t ≤ start → t ≤ a) ∧
      (OnDay r e ∧ SameClock e stop ∧ stop ≤ e ∧ ∀ t, OnDay r t → SameClock t stop → stop ≤ t → e ≤ t) ∧
      ∀ t, t ∈ l ↔ (OnDay r t ∧ SameClock t start ∧ a ≤ t ∧ t ≤ e ∧
        ∃ m, StepsBetween r start a t m ∧ n ∣ (m.length : Int)) := by
  obtain ⟨g, hg⟩ := exists_grid hv ht
  obtain ⟨k, j, len, hk1, hk2, hj1, hj2, h0, hlist, e2, e3⟩ := range_grid hg hn hse hl
  refine ⟨(C55_times hv ht hn hse hl).1, atDay (g k) (start % 86400), atDay (g j) (stop % 86400), ?_, ?_, ?_⟩
  · refine ⟨(hg.day _).2 ⟨k, ?_⟩, sameClock_iff.2 ?_, ?_, ?_⟩
    · exact (atDay_parts (clock_range start)).1
    · exact (atDay_parts (clock_range start)).2
    · conv_rhs => rw [← atDay_self start]
      exact atDay_le.2 hk1
    · intro t h1 h2 h3
      obtain ⟨i, hi⟩ := (hg.day t).1 h1
      rw [← atDay_self t, sameClock_iff.1 h2, atDay_le, hi, hg.le_iff]
      by_contra hcc
      have := hg.le (show k + 1 ≤ i by omega)
      have : timeDay t ≤ timeDay start := by unfold timeDay; omega
      omega
  · refine ⟨(hg.day _).2 ⟨j, ?_⟩, sameClock_iff.2 ?_, ?_, ?_⟩
    · exact (atDay_parts (clock_range stop)).1
    · exact (atDay_parts (clock_range stop)).2
    · conv_lhs => rw [← atDay_self stop]
      exact atDay_le.2 hj2
    · intro t h1 h2 h3
      obtain ⟨i, hi⟩ := (hg.day t).1 h1
      rw [← atDay_self t, sameClock_iff.1 h2, atDay_le, hi, hg.le_iff]
      by_contra hcc
      have := hg.le (show i ≤ j - 1 by omega)
      have : timeDay stop ≤ timeDay t := by unfold timeDay; omega
      omega
  · -- the steps between two times
    have hsteps : ∀ d : Nat, StepsBetween r start (atDay (g k) (start % 86400)) (atDay (g (k + (d : Int))) (start % 86400))
        ((List.range d).map fun i : Nat => atDay (g (k + (i : Int))) (start % 86400)) := by
      intro d
      refine ⟨?_, fun x => ?_⟩
      · rw [List.pairwise_map]
        refine List.pairwise_lt_range.imp fun {a b} hab => ?_
        rw [atDay_lt, hg.lt_iff]
        omega
      · rw [List.mem_map]
        constructor
        · rintro ⟨i, hi, rfl⟩
          rw [List.mem_range] at hi
          refine ⟨(hg.day _).2 ⟨_, (atDay_parts (clock_range start)).1⟩, sameClock_iff.2 ((atDay_parts (clock_range start)).2), ?_, ?_⟩
          · rw [atDay_le, hg.le_iff]; omega
          · rw [atDay_lt, hg.lt_iff]; omega
        · rintro ⟨h1, h2, h3, h4⟩
          obtain ⟨i, hi⟩ := (hg.day x).1 h1
          have e : x = atDay (g i) (start % 86400) := by rw [← hi, ← sameClock_iff.1 h2, atDay_self]
          rw [e, atDay_le, hg.le_iff] at h3
          rw [e, atDay_lt, hg.lt_iff] at h4
          refine ⟨(i - k).toNat, List.mem_range.2 (by omega), ?_⟩
          rw [e]
          congr 2
          omega
    intro t
    rw [hlist, List.mem_map]
    constructor
    · rintro ⟨i, hi, rfl⟩
      rw [List.mem_range] at hi
      have hni : (0 : Int) ≤ n * (i : Int) := mul_nonneg (by omega) (by omega)
      refine ⟨(hg.day _).2 ⟨_, (atDay_parts (clock_range start)).1⟩, sameClock_iff.2 ((atDay_parts (clock_range start)).2), ?_, e2 i hi,
        (List.range (n * (i : Int)).toNat).map (fun i : Nat => atDay (g (k + (i : Int))) (start % 86400)), ?_, ?_⟩
      · rw [atDay_le, hg.le_iff]; omega
      · have := hsteps (n * (i : Int)).toNat
        rwa [Int.toNat_of_nonneg hni] at this
      · rw [List.length_map, List.length_range, Int.toNat_of_nonneg hni]
        exact Dvd.intro _ rfl
    · rintro ⟨h1, h2, h3, h4, m, hm, hdvd⟩
      obtain ⟨i, hi⟩ := (hg.day t).1 h1
      have e : t = atDay (g i) (start % 86400) := by rw [← hi, ← sameClock_iff.1 h2, atDay_self]
      rw [e, atDay_le, hg.le_iff] at h3
      obtain ⟨d, rfl⟩ : ∃ d : Nat, i = k + (d : Int) := ⟨(i - k).toNat, by omega⟩
      rw [e] at hm
      have hmd : m.length = d := by
        have hs := hsteps d
        have hp : m.Perm ((List.range d).map fun i : Nat => atDay (g (k + (i : Int))) (start % 86400)) :=
          (List.perm_ext_iff_of_nodup (hm.1.imp fun h => ne_of_lt h) (hs.1.imp fun h => ne_of_lt h)).2 fun x => by
            rw [hm.2, hs.2]
        rw [hp.length_eq, List.length_map, List.length_range]
      rw [hmd] at hdvd
      obtain ⟨c, hc⟩ := hdvd
      have hc0 : 0 ≤ c := by
        by_contra hneg
        have : n * c < 0 := Int.mul_neg_of_pos_of_neg (by omega) (by omega)
        omega
      refine ⟨c.toNat, List.mem_range.2 ?_, ?_⟩
      · by_contra hge
        rw [e] at h4
        have h5 := lt_of_le_of_lt h4 e3
        rw [atDay_lt, hg.lt_iff] at h5
        have : n * (len : Int) ≤ n * c := Int.mul_le_mul_of_nonneg_left (by omega) (by omega)
        omega
      · rw [Int.toNat_of_nonneg hc0, ← hc, e]

/-- C55 for fixed periods: the range has exactly the times of whole numbers of steps after the start that are not after
the end. -/
theorem C55_exact_tick_partial {s n start stop : Int} (hs : 0 < s) (hn : 1 ≤ n) {l : List Int}
    (hl : generateRange (.tick s) n start stop = (l, none)) :
    l.Pairwise (· < ·) ∧ ∀ t, t ∈ l ↔ ∃ i : Nat, t = start + n * s * (i : Int) ∧ t ≤ stop := by
  have hpos : 0 < n * s := Int.mul_pos (by omega) hs
  have key : ∀ (f : Nat) (cur : Int) (l : List Int), genLoop (.tick s) n stop f cur = (l, none) →
      l.Pairwise (· < ·) ∧ ∀ t, t ∈ l ↔ ∃ i : Nat, t = cur + n * s * (i : Int) ∧ t ≤ stop := by
    intro f
    induction f with
    | zero => intro cur l h; simp [genLoop] at h
    | succ f ih =>
      intro cur l h
      unfold genLoop at h
      split at h
      · rename_i hle
        cases hc : (Rule.tick s).apply n cur with
        | error e => rw [hc] at h; simp at h
        | ok u =>
          rw [hc] at h
          have hu : u = cur + n * s := by rw [checkTime_ok hc]
          subst hu
          simp only at h
          split at h
          · simp at h
          · simp only [Prod.mk.injEq] at h
            obtain ⟨ih1, ih2⟩ := ih (cur + n * s) _ (Prod.ext rfl h.2)
            rw [← h.1]
            refine ⟨List.pairwise_cons.2 ⟨fun t htm => ?_, ih1⟩, fun t => ?_⟩
            · obtain ⟨i, hi, _⟩ := (ih2 t).1 htm
              have : 0 ≤ n * s * (i : Int) := mul_nonneg hpos.le (by omega)
              omega
            · rw [List.mem_cons, ih2]
              constructor
              · rintro (rfl | ⟨i, hi, h'⟩)
                · exact ⟨0, by simp, hle⟩
                · exact ⟨i + 1, by rw [hi]; push_cast; ring, h'⟩
              · rintro ⟨i, hi, h'⟩
                cases i with
                | zero => left; simpa using hi
                | succ i => right; exact ⟨i, by rw [hi]; push_cast; ring, h'⟩
      · rename_i hle
        simp only [Prod.mk.injEq, and_true] at h
        subst h
        refine ⟨.nil, fun t => ⟨fun h => by simp at h, ?_⟩⟩
        rintro ⟨i, hi, h'⟩
        have : 0 ≤ n * s * (i : Int) := mul_nonneg hpos.le (by omega)
        omega
  unfold generateRange at hl
  simp only [Rule.rollback, Rule.rollforward, Rule.on, if_true] at hl
  exact key _ _ l hl

/-- Two years at a time, from 2001-04-01 13:00 to 2004-06-03 00:00. -/
example : (Rule.months .year 1 false).Valid ∧ generateRange (.months .year 1 false) 2 (dateTime 2001 4 1 + 13 * 3600)
    (dateTime 2004 6 3) = ([dateTime 2001 1 1 + 13 * 3600, dateTime 2003 1 1 + 13 * 3600], none) := by
  constructor
  · exact ⟨by decide, by decide⟩
  · decide +kernel

/-- Days that do not fit. -/
example : generateRange (.tick 86400) 1 (dateTime 2001 1 1) (dateTime 2001 1 2 + 12 * 3600) =
    ([dateTime 2001 1 1, dateTime 2001 1 2], none) := by decide +kernel

end Openscm
