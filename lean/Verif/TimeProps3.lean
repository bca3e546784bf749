import Verif.TimePoints
import Verif.CoreSteps
import Mathlib.Tactic.Linarith
import Mathlib.Tactic.FieldSimp
import Mathlib.Tactic.Positivity
import Mathlib.Tactic.NormNum
import Mathlib.Tactic.Ring

/-!
# C29, C30, C31: equidistant time points, decimal years, names of timeseries types
-/

namespace Openscm

/-! ## Specification -/

/-- Gregorian leap years. -/
def leapYear (y : ℤ) : Prop := 4 ∣ y ∧ (¬ 100 ∣ y ∨ 400 ∣ y)

instance (y : ℤ) : Decidable (leapYear y) := inferInstanceAs (Decidable (_ ∧ _))

/-- A calendar: the beginning of every year, each 365 or 366 days after the one before, and 1970
the origin. -/
structure Calendar (jan1 : ℤ → ℤ) : Prop where
  origin : jan1 1970 = 0
  next : ∀ y, jan1 (y + 1) = jan1 y + 86400 * (if leapYear y then 366 else 365)

/-- `s` is `w` (in lower case) in some letter case. -/
def AnyCase (s w : String) : Prop :=
  List.Forall₂ (fun c d : Char => c = d ∨ c = d.toUpper) s.toList w.toList

/-! ## Lemmas -/

theorem truncQ_int (n : ℤ) : truncQ n = n := by
  unfold truncQ; split <;> simp

theorem truncQ_bounds (q : ℚ) : q - 1 < truncQ q ∧ (truncQ q : ℚ) < q + 1 := by
  unfold truncQ
  split
  · exact ⟨Int.sub_one_lt_floor q, lt_of_le_of_lt (Int.floor_le q) (by linarith)⟩
  · exact ⟨lt_of_lt_of_le (by linarith) (Int.le_ceil q), Int.ceil_lt_add_one q⟩

theorem truncQ_mono {p q : ℚ} (h : p ≤ q) : truncQ p ≤ truncQ q := by
  unfold truncQ
  split <;> split
  · exact Int.floor_mono h
  · rename_i h1 h2; exact absurd (h1.trans h) h2
  · rename_i h1 h2
    exact (Int.ceil_le.2 (by push_cast; linarith)).trans (Int.floor_nonneg.2 h2)
  · exact Int.ceil_mono h

theorem yearLength (y : ℤ) :
    daysBeforeYear (y + 1) - daysBeforeYear y = if leapYear y then 366 else 365 := by
  unfold daysBeforeYear
  by_cases h : leapYear y
  · rw [if_pos h]; unfold leapYear at h; omega
  · rw [if_neg h]; unfold leapYear at h; omega

theorem yearToSeconds_calendar : Calendar yearToSeconds := by
  refine ⟨by unfold yearToSeconds; simp, fun y => ?_⟩
  rw [← yearLength y]; unfold yearToSeconds; ring

theorem Calendar.unique {f g : ℤ → ℤ} (hf : Calendar f) (hg : Calendar g) (y : ℤ) : f y = g y := by
  have up : ∀ n : Nat, f (1970 + n) = g (1970 + n) := by
    intro n
    induction n with
    | zero => simpa using hf.origin.trans hg.origin.symm
    | succ n ih =>
      have := hf.next (1970 + n); have := hg.next (1970 + n)
      push_cast; rw [← add_assoc]; omega
  have down : ∀ n : Nat, f (1970 - n) = g (1970 - n) := by
    intro n
    induction n with
    | zero => simpa using hf.origin.trans hg.origin.symm
    | succ n ih =>
      have h1 := hf.next (1970 - (n + 1)); have h2 := hg.next (1970 - (n + 1))
      have e : (1970 : ℤ) - (n + 1) + 1 = 1970 - n := by ring
      rw [e] at h1 h2
      push_cast; omega
  rcases le_total 1970 y with h | h
  · have := up (y - 1970).toNat
    rwa [show (1970 : ℤ) + ((y - 1970).toNat : ℤ) = y by omega] at this
  · have := down (1970 - y).toNat
    rwa [show (1970 : ℤ) - ((1970 - y).toNat : ℤ) = y by omega] at this

/-! ## C30 -/

theorem yearSeconds_eq {y n : ℤ} (h : yearSeconds y = .ok n) :
    n = yearToSeconds (y + 1) - yearToSeconds y ∧ 0 < n ∧ 1 ≤ y ∧ y + 1 ≤ 9999 := by
  unfold yearSeconds at h
  split at h
  · rename_i hy
    injection h with h
    have := yearLength y
    refine ⟨by unfold yearToSeconds; omega, ?_, hy.1, hy.2⟩
    split at this <;> omega
  · simp at h

/-- The exact value a decimal year is cut down from. -/
theorem floatYear_ok {q : ℚ} {t : ℤ} (h : floatYear (.num q) = .ok t) :
    ∃ y : ℤ, ∃ n : ℤ, 1 ≤ y ∧ y + 1 ≤ 9999 ∧ (y : ℚ) ≤ q ∧ q < y + 1 ∧ y = ⌊q⌋ ∧
      n = yearToSeconds (y + 1) - yearToSeconds y ∧ 0 < n ∧
      t = yearToSeconds y + ⌊(n : ℚ) * (q - y)⌋ := by
  unfold floatYear at h
  simp only at h
  split at h
  · simp at h
  · rename_i n hn
    injection h with h
    obtain ⟨h1, h2, h3, h4⟩ := yearSeconds_eq hn
    have hq : 0 ≤ q := by
      by_contra hq
      have : truncQ q ≤ 0 := by
        unfold truncQ; rw [if_neg hq]
        exact Int.ceil_le.2 (by push_cast; linarith)
      omega
    have ht : truncQ q = ⌊q⌋ := by unfold truncQ; rw [if_pos hq]
    have hl := Int.floor_le q
    have hu := Int.lt_floor_add_one q
    refine ⟨truncQ q, n, h3, h4, by rw [ht]; exact hl, by rw [ht]; exact hu, ht, h1, h2, ?_⟩
    rw [← h]
    congr 1
    have : 0 ≤ (n : ℚ) * (q - (truncQ q : ℚ)) := by
      apply mul_nonneg
      · exact_mod_cast h2.le
      · rw [ht]; linarith
    unfold truncQ at this ⊢
    rw [if_pos this]

/-- **C30**: a decimal year gives a time within that year, for the calendar. -/
theorem C30_inside {jan1 : ℤ → ℤ} (hc : Calendar jan1) {q : ℚ} {t : ℤ}
    (h : floatYear (.num q) = .ok t) : jan1 ⌊q⌋ ≤ t ∧ t < jan1 (⌊q⌋ + 1) := by
  obtain ⟨y, n, _, _, h1, h2, rfl, h3, h4, rfl⟩ := floatYear_ok h
  rw [hc.unique yearToSeconds_calendar, hc.unique yearToSeconds_calendar]
  have hn : (0 : ℚ) < n := by exact_mod_cast h4
  have hlo : 0 ≤ ⌊(n : ℚ) * (q - ⌊q⌋)⌋ := Int.floor_nonneg.2 (mul_nonneg hn.le (by linarith))
  have hhi : ⌊(n : ℚ) * (q - ⌊q⌋)⌋ < n := by
    rw [Int.floor_lt]
    calc (n : ℚ) * (q - ⌊q⌋) < n * 1 := by apply mul_lt_mul_of_pos_left _ hn; linarith
      _ = n := mul_one _
  omega

/-- **C30**: the position within the year is the fractional part, to the second. -/
theorem C30_position {jan1 : ℤ → ℤ} (hc : Calendar jan1) {q : ℚ} {t : ℤ}
    (h : floatYear (.num q) = .ok t) :
    t = ⌊(jan1 ⌊q⌋ : ℚ) + ((jan1 (⌊q⌋ + 1) : ℚ) - jan1 ⌊q⌋) * Int.fract q⌋ := by
  obtain ⟨y, n, _, _, h1, h2, rfl, h3, h4, rfl⟩ := floatYear_ok h
  rw [hc.unique yearToSeconds_calendar, hc.unique yearToSeconds_calendar, Int.floor_intCast_add, h3]
  push_cast
  rfl

/-- **C30**: every decimal year from 1 up to the end of 9998 is accepted, everything else refused. -/
theorem C30_accepted (q : ℚ) : (∃ t, floatYear (.num q) = .ok t) ↔ 1 ≤ q ∧ q < 9999 := by
  constructor
  · rintro ⟨t, h⟩
    obtain ⟨y, n, a, b, h1, h2, _⟩ := floatYear_ok h
    have : (1 : ℚ) ≤ y := by exact_mod_cast a
    have : (y : ℚ) + 1 ≤ 9999 := by exact_mod_cast b
    constructor <;> linarith
  · rintro ⟨h1, h2⟩
    have ht : truncQ q = ⌊q⌋ := by unfold truncQ; rw [if_pos (by linarith)]
    have a : 1 ≤ ⌊q⌋ := Int.le_floor.2 (by simpa using h1)
    have b : ⌊q⌋ < 9999 := Int.floor_lt.2 (by simpa using h2)
    refine ⟨yearToSeconds (truncQ q) + truncQ ((((daysBeforeYear (truncQ q + 1) - daysBeforeYear (truncQ q)) * 86400 : ℤ) : ℚ) * (q - (truncQ q : ℚ))), ?_⟩
    have : yearSeconds (truncQ q) = .ok ((daysBeforeYear (truncQ q + 1) - daysBeforeYear (truncQ q)) * 86400) := by
      unfold yearSeconds; rw [if_pos ⟨by omega, by omega⟩]
    unfold floatYear
    simp only [this]

/-- **C30**: refused years raise `ValueError`, and so does NaN. -/
theorem C30_refused {x : Fl ℚ} {e : Err} (h : floatYear x = .error e) : e = .valueError := by
  cases x with
  | nan => simp [floatYear] at h; exact h.symm
  | num q =>
    unfold floatYear yearSeconds at h
    simp only at h
    split at h
    · rename_i h'
      split at h'
      · simp at h'
      · simp_all
    · simp at h

/-- **C30**: whole years give 1 January 00:00, whether written as float or as integer. -/
theorem C30_whole {jan1 : ℤ → ℤ} (hc : Calendar jan1) {y : ℤ} (h1 : 1 ≤ y) (h2 : y < 9999) :
    formatDatetime (.floatYears [.num (y : ℚ)]) = .ok [jan1 y] ∧
    formatDatetime (.intYears [y]) = .ok [jan1 y] := by
  have hy : floatYear (.num (y : ℚ)) = .ok (yearToSeconds y) := by
    obtain ⟨t, ht⟩ := (C30_accepted (y : ℚ)).2 ⟨by exact_mod_cast h1, by exact_mod_cast h2⟩
    obtain ⟨y', n, _, _, _, _, rfl, _, _, rfl⟩ := floatYear_ok ht
    simpa using ht
  rw [hc.unique yearToSeconds_calendar]
  constructor
  · simp [formatDatetime, mapLeaves, hy]
  · simp [formatDatetime]

/-- **C30**: later decimal years never give earlier times. -/
theorem C30_monotone {p q : ℚ} {t u : ℤ} (hp : floatYear (.num p) = .ok t)
    (hq : floatYear (.num q) = .ok u) (h : p ≤ q) : t ≤ u := by
  have a := C30_inside yearToSeconds_calendar hp
  have b := C30_inside yearToSeconds_calendar hq
  rcases (Int.floor_mono h).eq_or_lt with heq | hlt
  · obtain ⟨y, n, _, _, _, _, rfl, h3, h4, rfl⟩ := floatYear_ok hp
    obtain ⟨y', n', _, _, _, _, rfl, h3', _, rfl⟩ := floatYear_ok hq
    rw [← heq] at h3' ⊢
    have hn : n' = n := by omega
    subst hn
    have : (0 : ℚ) ≤ n' := by exact_mod_cast h4.le
    have := Int.floor_mono (mul_le_mul_of_nonneg_left (sub_le_sub_right h (⌊p⌋ : ℚ)) this)
    omega
  · -- the year of `p` ends before the one of `q` begins
    have mono : ∀ n : Nat, ∀ y, yearToSeconds y ≤ yearToSeconds (y + n) := by
      intro n
      induction n with
      | zero => simp
      | succ n ih =>
        intro y
        have := yearToSeconds_calendar.next (y + n)
        have := ih y
        push_cast; rw [← add_assoc]
        split at * <;> omega
    have := mono (⌊q⌋ - (⌊p⌋ + 1)).toNat (⌊p⌋ + 1)
    rw [show ⌊p⌋ + 1 + ((⌊q⌋ - (⌊p⌋ + 1)).toNat : ℤ) = ⌊q⌋ by omega] at this
    omega

/-- The middle of a leap year and of another year, and the year 2000 in both spellings. -/
example : (floatYear (.num (4001/2)) = .ok (946684800 + 183 * 86400)) ∧
    (floatYear (.num (4003/2)) = .ok (978307200 + 365 * 43200)) ∧
    (floatYear (.num 2000) = .ok 946684800) ∧ (yearToSeconds 2000 = 946684800) := by
  decide +kernel

/-! ## C29 -/

theorem linspace_length (a b : ℚ) (n : Nat) : (linspace a b n).length = n := by
  simp [linspace]

/-- In exact arithmetic the special cases of `linspace` are the general one. -/
theorem linspace_get {a b : ℚ} {n i : Nat} (h : i < n) :
    (linspace a b n)[i]? = some (a + i * ((b - a) / (n - 1 : Nat))) := by
  unfold linspace
  rw [List.getElem?_map, List.getElem?_range h]
  simp only [Option.map_some, Option.some.injEq]
  split
  · have : i = 0 := by omega
    subst this; simp
  · rename_i hn
    have hne : ((n - 1 : Nat) : ℚ) ≠ 0 := by exact_mod_cast (by omega : n - 1 ≠ 0)
    split
    · rename_i hi
      subst hi; field_simp; ring
    · ring

/-- **C29**: the number of points. -/
theorem C29_length {res start period : ℤ} {n : Nat} {ty : TyArg} {l : List ℤ}
    (h : createTimePoints res start period n ty = .ok l) :
    l.length = if ty.parse = .ok .average then n + 1 else n := by
  unfold createTimePoints at h
  cases ht : ty.parse with
  | error e => rw [ht] at h; simp at h
  | ok t =>
    rw [ht] at h
    injection h with h
    rw [← h, List.length_map, linspace_length]
    simp

/-- **C29**: for times in whole seconds the points are exactly `start + i * period`. -/
theorem C29_points {start period : ℤ} {n : Nat} {ty : TyArg} {l : List ℤ}
    (h : createTimePoints 1 start period n ty = .ok l) :
    l = (List.range (if ty.parse = .ok .average then n + 1 else n)).map
      fun i : Nat => start + i * period := by
  have hlen := C29_length h
  unfold createTimePoints at h
  cases ht : ty.parse with
  | error e => rw [ht] at h; simp at h
  | ok t =>
    rw [ht] at h hlen
    injection h with h
    simp only [Except.ok.injEq] at hlen ⊢
    apply List.ext_getElem?
    intro i
    generalize (if t = .average then n + 1 else n) = m at *
    by_cases hi : i < m
    · rw [← h, List.getElem?_map, linspace_get hi, List.getElem?_map, List.getElem?_range hi]
      simp only [Option.map_some, Option.some.injEq, Int.ediv_one]
      have : ((start : ℚ) + i * ((((start + ((m : ℤ) - 1) * period : ℤ) : ℚ) - start) / (m - 1 : Nat)))
          = ((start + i * period : ℤ) : ℚ) := by
        rcases Nat.eq_zero_or_pos (m - 1) with h0 | h0
        · have : i = 0 := by omega
          subst this; simp
        · have hne : ((m - 1 : Nat) : ℚ) ≠ 0 := by exact_mod_cast h0.ne'
          have hm : ((m - 1 : Nat) : ℚ) = (m : ℚ) - 1 := by
            rw [Nat.cast_sub (by omega)]; simp
          rw [hm] at hne ⊢
          push_cast; field_simp; ring
      rw [this, truncQ_int]
    · rw [List.getElem?_eq_none (by rw [hlen]; omega), List.getElem?_eq_none (by simp; omega)]

/-- **C29**: the call succeeds exactly if the type is valid. -/
theorem C29_succeeds (res start period : ℤ) (n : Nat) (ty : TyArg) :
    (∃ l, createTimePoints res start period n ty = .ok l) ↔ ∃ t, ty.parse = .ok t := by
  unfold createTimePoints
  cases ty.parse <;> simp

/-- Points and averages in whole seconds. -/
example : createTimePoints 1 10 5 3 (.str "Average") = .ok [10, 15, 20, 25]
    ∧ createTimePoints 1 10 5 3 (.str "point") = .ok [10, 15, 20]
    ∧ ¬ ∃ l, createTimePoints 1 10 5 3 (.str "mean") = .ok l := by
  refine ⟨by decide +kernel, by decide +kernel, ?_⟩
  rintro ⟨l, h⟩
  exact absurd h (by
    have : createTimePoints 1 10 5 3 (.str "mean") = .error .valueError := by decide +kernel
    rw [this]; simp)

/-- **C29** for finer resolutions: every point is within two seconds of `start + i * period`. -/
theorem C29_close {res start period : ℤ} (hr : 0 < res) {n : Nat} {ty : TyArg} {l : List ℤ}
    (h : createTimePoints res start period n ty = .ok l) {i : Nat} {x : ℤ} (hx : l[i]? = some x) :
    ((start + i * period : ℤ) : ℚ) / res - 2 < x ∧ (x : ℚ) < ((start + i * period : ℤ) : ℚ) / res + 1 := by
  have hlen := C29_length h
  unfold createTimePoints at h
  cases ht : ty.parse with
  | error e => rw [ht] at h; simp at h
  | ok t =>
    rw [ht] at h hlen
    injection h with h
    simp only [Except.ok.injEq] at hlen
    generalize (if t = .average then n + 1 else n) = m at *
    have hi : i < m := by
      rw [← hlen]; exact (List.getElem?_eq_some_iff.1 hx).1
    rw [← h, List.getElem?_map, linspace_get hi] at hx
    simp only [Option.map_some, Option.some.injEq] at hx
    have hrq : (0 : ℚ) < res := by exact_mod_cast hr
    have fl : ∀ z : ℤ, (z : ℚ) / res - 1 < ((z / res : ℤ) : ℚ) ∧ ((z / res : ℤ) : ℚ) ≤ (z : ℚ) / res := by
      intro z
      have h1 : z / res * res ≤ z := Int.ediv_mul_le z hr.ne'
      have h2 : z < (z / res + 1) * res := Int.lt_ediv_add_one_mul_self z hr
      have h1' : ((z / res : ℤ) : ℚ) * res ≤ z := by exact_mod_cast h1
      have h2' : (z : ℚ) < (((z / res : ℤ) : ℚ) + 1) * res := by exact_mod_cast h2
      rw [le_div_iff₀ hrq, sub_lt_iff_lt_add, div_lt_iff₀ hrq]
      exact ⟨h2', h1'⟩
    obtain ⟨a1, a2⟩ := fl start
    obtain ⟨b1, b2⟩ := fl (start + ((m : ℤ) - 1) * period)
    have tb := truncQ_bounds (((start / res : ℤ) : ℚ) +
      i * ((((start + ((m : ℤ) - 1) * period) / res : ℤ) : ℚ) - ((start / res : ℤ) : ℚ)) / (m - 1 : Nat))
    rw [mul_div_assoc, hx] at tb
    rcases Nat.eq_zero_or_pos (m - 1) with h0 | h0
    · have : i = 0 := by omega
      subst this
      simp only [Nat.cast_zero, zero_mul, add_zero] at tb ⊢
      constructor <;> linarith [tb.1, tb.2]
    · have hpos : (0 : ℚ) < ((m - 1 : Nat) : ℚ) := by exact_mod_cast h0
      have hm : ((m - 1 : Nat) : ℚ) = (m : ℚ) - 1 := by
        rw [Nat.cast_sub (by omega)]; simp
      set lam : ℚ := (i : ℚ) / (m - 1 : Nat) with hlam
      have l0 : 0 ≤ lam := by positivity
      have l1 : lam ≤ 1 := by
        rw [hlam, div_le_one hpos]; exact_mod_cast (by omega : i ≤ m - 1)
      have hexact : ((start + i * period : ℤ) : ℚ) / res
          = (1 - lam) * ((start : ℚ) / res) + lam * (((start + ((m : ℤ) - 1) * period : ℤ) : ℚ) / res) := by
        have hne := hpos.ne'
        rw [hm] at hne
        rw [hlam, hm]; push_cast; field_simp; ring
      have hline : ((start / res : ℤ) : ℚ) +
          i * (((((start + ((m : ℤ) - 1) * period) / res : ℤ) : ℚ) - ((start / res : ℤ) : ℚ)) / (m - 1 : Nat))
          = (1 - lam) * ((start / res : ℤ) : ℚ)
            + lam * (((start + ((m : ℤ) - 1) * period) / res : ℤ) : ℚ) := by
        rw [hlam]; ring
      rw [hline] at tb
      rw [hexact]
      have c1 : (1 - lam) * ((start : ℚ) / res - 1) ≤ (1 - lam) * ((start / res : ℤ) : ℚ) :=
        mul_le_mul_of_nonneg_left a1.le (by linarith)
      have c2 := mul_le_mul_of_nonneg_left a2 (by linarith : 0 ≤ 1 - lam)
      have d1 := mul_le_mul_of_nonneg_left b1.le l0
      have d2 := mul_le_mul_of_nonneg_left b2 l0
      constructor <;> nlinarith [tb.1, tb.2]

/-- Averages over three periods, in seconds and in milliseconds. -/
example : (createTimePoints 1 (-10) 7 3 (.str "Average") = .ok [-10, -3, 4, 11]) ∧
    (createTimePoints 1 (-10) 7 3 (.enum .point) = .ok [-10, -3, 4]) ∧
    (createTimePoints 1000 900 500 3 (.str "POINT") = .ok [0, 0, 1]) := by decide +kernel

/-! ## C31 -/

theorem toUpper_toNat {d : Char} (hd : 97 ≤ d.toNat ∧ d.toNat ≤ 122) :
    d.toUpper.toNat = d.toNat - 32 := by
  unfold Char.toUpper
  have h : 'a'.val ≤ d.val ∧ d.val ≤ 'z'.val := by
    simp only [UInt32.le_iff_toNat_le]; exact hd
  rw [dif_pos h]
  show (d.val + ('A'.val - 'a'.val)).toNat = d.toNat - 32
  rw [UInt32.toNat_add]
  have : ('A'.val - 'a'.val).toNat = 4294967264 := by decide
  rw [this]
  have : d.val.toNat = d.toNat := rfl
  omega

theorem toLower_toNat (c : Char) : c.toLower.toNat
    = if 65 ≤ c.toNat ∧ c.toNat ≤ 90 then c.toNat + 32 else c.toNat := by
  unfold Char.toLower
  by_cases h : 65 ≤ c.toNat ∧ c.toNat ≤ 90
  · have h' : c.val ≥ 'A'.val ∧ c.val ≤ 'Z'.val := by
      simp only [ge_iff_le, UInt32.le_iff_toNat_le]; exact h
    rw [dif_pos h', if_pos h]
    show (c.val + ('a'.val - 'A'.val)).toNat = c.toNat + 32
    rw [UInt32.toNat_add]
    have : ('a'.val - 'A'.val).toNat = 32 := by decide
    rw [this]
    have : c.val.toNat = c.toNat := rfl
    omega
  · have h' : ¬ (c.val ≥ 'A'.val ∧ c.val ≤ 'Z'.val) := by
      simp only [ge_iff_le, UInt32.le_iff_toNat_le]; exact h
    rw [dif_neg h', if_neg h]

theorem char_eq_iff {c d : Char} : c = d ↔ c.toNat = d.toNat :=
  ⟨fun h => by rw [h], fun h => Char.toNat_inj.1 h⟩

theorem toLower_iff {c d : Char} (hd : 97 ≤ d.toNat ∧ d.toNat ≤ 122) :
    c.toLower = d ↔ c = d ∨ c = d.toUpper := by
  rw [char_eq_iff, char_eq_iff, char_eq_iff, toLower_toNat, toUpper_toNat hd]
  split <;> omega

theorem toLower_anyCase {s w : String} (hw : ∀ d ∈ w.toList, 97 ≤ d.toNat ∧ d.toNat ≤ 122) :
    s.toLower = w ↔ AnyCase s w := by
  rw [← String.toList_inj]
  unfold String.toLower AnyCase
  rw [String.toList_map]
  generalize w.toList = b at *
  generalize s.toList = a
  induction a generalizing b with
  | nil => cases b <;> simp
  | cons c a ih =>
    cases b with
    | nil => simp
    | cons d b =>
      simp only [List.map_cons, List.cons.injEq, List.forall₂_cons]
      rw [ih b (fun d hd => hw d (by simp [hd])), toLower_iff (hw d (by simp))]

/-- **C31**: exactly the two names, in any letter case, and the two enum values are accepted. -/
theorem C31_accepted (a : TyArg) (t : PType) : a.parse = .ok t ↔
    (t = .average ∧ (a = .enum .average ∨ ∃ s, a = .str s ∧ AnyCase s "average")) ∨
    (t = .point ∧ (a = .enum .point ∨ ∃ s, a = .str s ∧ AnyCase s "point")) := by
  have h1 : ∀ s : String, AnyCase s "average" ↔ s.toLower = "average" :=
    fun s => (toLower_anyCase (by decide)).symm
  have h2 : ∀ s : String, AnyCase s "point" ↔ s.toLower = "point" :=
    fun s => (toLower_anyCase (by decide)).symm
  cases a with
  | enum u => cases u <;> cases t <;> simp [TyArg.parse]
  | str s =>
    simp only [TyArg.parse, h1, h2, TyArg.str.injEq, exists_eq_left', reduceCtorEq, false_or]
    by_cases e1 : s.toLower = "average"
    · have : ¬ s.toLower = "point" := by rw [e1]; decide
      simp [e1, eq_comm]
    · by_cases e2 : s.toLower = "point"
      · simp [e2, eq_comm]
      · simp [e1, e2]

/-- **C31**: everything else raises `ValueError`. -/
theorem C31_refused {a : TyArg} {e : Err} (h : a.parse = .error e) : e = .valueError := by
  cases a with
  | enum u => cases u <;> simp [TyArg.parse] at h <;> exact h.symm
  | str s =>
    simp only [TyArg.parse] at h
    split at h
    · simp at h
    · split at h
      · simp at h
      · injection h with h; exact h.symm

/-- **C31**: the two directions are inverse to each other. -/
theorem C31_inverse (t : PType) (w : String) :
    tsTypeToString t = .ok w ↔ (TyArg.str w).parse = .ok t ∧ w.toLower = w := by
  constructor
  · cases t <;> simp only [tsTypeToString, Except.ok.injEq, reduceCtorEq, false_implies] <;>
      rintro rfl <;> decide +kernel
  · rintro ⟨h, hw⟩
    simp only [TyArg.parse, hw] at h
    split at h
    · rename_i e; injection h with h; subst h; subst e; rfl
    · split at h
      · rename_i e; injection h with h; subst h; subst e; rfl
      · simp at h

/-- **C31**: the other types have no name. -/
theorem C31_no_name {t : PType} : tsTypeToString t = .error .valueError ↔ t = .scalar ∨ t = .generic := by
  cases t <;> simp [tsTypeToString]

/-- Letter cases that are accepted, and near misses that are not. -/
example : AnyCase "AvErAgE" "average" ∧ ¬ AnyCase "averages" "average" ∧ ¬ AnyCase " point" "point" := by
  refine ⟨?_, ?_, ?_⟩
  · exact (toLower_anyCase (by decide)).1 (by decide +kernel)
  · exact fun h => absurd ((toLower_anyCase (by decide)).2 h) (by decide +kernel)
  · exact fun h => absurd ((toLower_anyCase (by decide)).2 h) (by decide +kernel)

end Openscm
