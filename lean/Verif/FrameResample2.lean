import Verif.FrameResample
import Verif.OffsetExact

/-!
# C63: exactly which times resampled frames have
-/

set_option linter.unusedSectionVars false

namespace Openscm

variable {K : Type} [Field K] [LinearOrder K] [IsStrictOrderedRing K]

/-- C63, for every multiple and all times of day: the times of the result are exactly those that are a multiple of `n`
steps after the last step `c` not after the first time, at its time of day, and not after the first step `e` that is
not before the last time, at the time of day of that. -/
theorem C63_exact_partial {reg : Registry K} {views : Bool} {F G : DFrame K} {r : Rule} {n : Int} {ext : Extrap}
    (hF : F.Ok) (hr : ∀ c ∈ requiredCols, c ∈ F.cols) (hv : r.Valid) (ht : ∀ s, r ≠ .tick s) (hn : 1 ≤ n) {a b : Int}
    (ha : F.times.head? = some a) (hb : F.times.getLast? = some b) (hab : a ≤ b)
    (h : F.resample reg views r n ext = .ok G) :
    G.times.Pairwise (· < ·) ∧
    ∃ c e, (OnDay r c ∧ SameClock c a ∧ c ≤ a ∧ ∀ t, OnDay r t → SameClock t a → t ≤ a → t ≤ c) ∧
      (OnDay r e ∧ SameClock e b ∧ b ≤ e ∧ ∀ t, OnDay r t → SameClock t b → b ≤ t → e ≤ t) ∧
      ∀ t, t ∈ G.times ↔ (OnDay r t ∧ SameClock t a ∧ c ≤ t ∧ t ≤ e ∧
        ∃ m, StepsBetween r a c t m ∧ n ∣ (m.length : Int)) := by
  obtain ⟨a', b', l, ha', hb', hg, hi⟩ := resample_parts h
  rw [ha] at ha'
  rw [hb] at hb'
  cases ha'
  cases hb'
  obtain ⟨-, g2, -, -, -⟩ := C56_placed_partial hF hr hi
  rw [g2]
  exact C55_exact_partial hv ht hn hab hg

/-- C63 for fixed periods: the times are those of whole numbers of steps after the first time that are not after the
last one. -/
theorem C63_exact_tick_partial {reg : Registry K} {views : Bool} {F G : DFrame K} {s n : Int} {ext : Extrap}
    (hF : F.Ok) (hr : ∀ c ∈ requiredCols, c ∈ F.cols) (hs : 0 < s) (hn : 1 ≤ n) {a b : Int}
    (ha : F.times.head? = some a) (hb : F.times.getLast? = some b)
    (h : F.resample reg views (.tick s) n ext = .ok G) :
    G.times.Pairwise (· < ·) ∧ ∀ t, t ∈ G.times ↔ ∃ i : Nat, t = a + n * s * (i : Int) ∧ t ≤ b := by
  obtain ⟨a', b', l, ha', hb', hg, hi⟩ := resample_parts h
  rw [ha] at ha'
  rw [hb] at hb'
  cases ha'
  cases hb'
  obtain ⟨-, g2, -, -, -⟩ := C56_placed_partial hF hr hi
  rw [g2]
  exact C55_exact_tick_partial hs hn hg

/-- Two years at a time, and 200 days at a time. -/
example : (match yearsF.resample (fun _ => none) true (.months .year 1 false) 2 .constant with
    | .ok G => G.times
    | .error _ => []) = [dateTime 2000 1 1, dateTime 2002 1 1] ∧
    (match yearsF.resample (fun _ => none) true (.tick 86400) 200 .constant with
    | .ok G => G.times.length
    | .error _ => 0) = 3 ∧ yearsF.Ok ∧ ∀ c ∈ requiredCols, c ∈ yearsF.cols :=
  ⟨by decide +kernel, by decide +kernel, yearsF_ok, by decide⟩

end Openscm
