import Verif.FrameAppend2
import Mathlib.Algebra.Order.Floor.Semiring
import Mathlib.Data.Rat.Floor

/-!
# Statistics over groups of timeseries (model)

`ScmDataFrameBase.process_over`, `openscm/scmdataframe/base.py:1169-1214`, with the groups and statistics of pandas 0.25:
missing values are left out, and timeseries with a missing value in a column by which they are grouped are in no group.
The rows of the result come in the order in which the groups first appear, not sorted.
-/

set_option linter.unusedSectionVars false

namespace Openscm

variable {K : Type} [Field K] [LinearOrder K] [IsStrictOrderedRing K] [FloorSemiring K]

/-- `operation` with its keyword arguments. -/
inductive GroupOp (K : Type)
  | median
  | mean
  | quantile (q : K)
  | other (name : String)

/-- The numbers of a group at one time, from small to large. -/
def orderedNums (vals : List (Fl K)) : List K := (vals.filterMap numOf).insertionSort (· ≤ ·)

/-- `median` of pandas: the middle value or, of an even number of values, the average of the middle two. -/
def medianOf (vals : List (Fl K)) : Fl K :=
  let s := orderedNums vals
  if s.length = 0 then .nan
  else if s.length % 2 = 1 then .num (s.getD (s.length / 2) 0)
  else .num ((s.getD (s.length / 2 - 1) 0 + s.getD (s.length / 2) 0) / 2)

/-- `quantile` of pandas (`group_quantile`) with linear interpolation. -/
def quantileOf (q : K) (vals : List (Fl K)) : Fl K :=
  let s := orderedNums vals
  if s.length = 0 then .nan
  else
    let pos := q * ((s.length - 1 : Nat) : K)
    let i := ⌊pos⌋₊
    let frac := pos - (i : K)
    if frac = 0 then .num (s.getD i 0)
    else .num (s.getD i 0 + (s.getD (i + 1) 0 - s.getD i 0) * frac)

/-- What is done with the values of a group at one time. -/
def GroupOp.stat : GroupOp K → Except Err (List (Fl K) → Fl K)
  | .median => .ok medianOf
  | .mean => .ok meanOf
  | .quantile q => if 0 ≤ q ∧ q ≤ 1 then .ok (quantileOf q) else .error .valueError
  | .other _ => .error .valueError

/-- The result of `process_over`: the names of the index levels, and index and values of each row. -/
structure GroupTable (K : Type) where
  cols : List String
  rows : List (List (PyVal K) × List (Fl K))
  deriving DecidableEq

/-- The timeseries that are in a group, with the values by which they are grouped. -/
def groupedRows (cols gc : List String) (ts : List (List (PyVal K) × List (Fl K))) : List (List (PyVal K) × List (Fl K)) :=
  (ts.map fun rv => (selectCols cols gc rv.1, rv.2)).filter fun rv => rv.1.all fun v => !v.isNull

/-- `groupby(...)` and the statistic at each of `n` times. -/
def groupTable (n : Nat) (gc : List String) (rows : List (List (PyVal K) × List (Fl K))) (f : List (Fl K) → Fl K) :
    GroupTable K :=
  { cols := gc
    rows := (distinctRows (rows.map (·.1))).map fun k => (k, (List.range n).map fun j =>
      f ((rows.filter fun e => sameRow k e.1).map fun e => e.2.getD j .nan)) }

/-- `process_over`, `openscm/scmdataframe/base.py:1169-1214`; pandas raises `ValueError` if no column is left. -/
def DFrame.processOver (F : DFrame K) (drop : List String) (op : GroupOp K) : Except Err (GroupTable K) :=
  match F.timeseries with
  | .error e => .error e
  | .ok ts =>
    let gc := F.cols.filter fun c => c ∉ drop
    if gc = [] then .error .valueError
    else
      match op.stat with
      | .error e => .error e
      | .ok f => .ok (groupTable F.times.length gc (groupedRows F.cols gc ts) f)

/-! ## Specification -/

/-- The number that timeseries `i` has at the `k`-th time, if it has one. -/
def DFrame.cellAt (F : DFrame K) (i k : Nat) : Option K := (F.data[i]?.bind fun d => d.2[k]?).bind numOf

/-- Timeseries `i` has the metadata `m` in all columns but those in `drop`. -/
def DFrame.InGroup (F : DFrame K) (drop : List String) (m : String → PyVal K) (i : Nat) : Prop :=
  ∀ c ∈ F.cols, c ∉ drop → SameValue (m c) (F.metaAt i c)

/-- Nothing is missing in the columns by which timeseries are grouped. -/
def DFrame.Complete (F : DFrame K) (drop : List String) (i : Nat) : Prop :=
  ∀ c ∈ F.cols, c ∉ drop → F.metaAt i c ≠ .none ∧ F.metaAt i c ≠ .flt .nan

open Classical in
/-- The numbers that the timeseries with metadata `m` have at the `k`-th time. -/
noncomputable def DFrame.groupNums (F : DFrame K) (drop : List String) (m : String → PyVal K) (k : Nat) : List K :=
  (List.range F.data.length).filterMap fun i => if F.InGroup drop m i then F.cellAt i k else none

/-- The metadata of a row of the result. -/
def GroupTable.metaOf (T : GroupTable K) (row : List (PyVal K) × List (Fl K)) : String → PyVal K := rowVal T.cols row.1

/-- `x` is the median of `xs`. -/
def IsMedian (xs : List K) (x : K) : Prop :=
  ∃ ys : List K, ys.Perm xs ∧ ys.Pairwise (· ≤ ·) ∧
    ∃ a b : K, ys[(ys.length - 1) / 2]? = some a ∧ ys[ys.length / 2]? = some b ∧ x = (a + b) / 2

/-- `x` is the quantile of `xs` at `q`: the numbers from small to large are put at equal distances from 0 to 1 and
joined by lines. -/
def IsQuantile (q : K) (xs : List K) (x : K) : Prop :=
  ∃ ys : List K, ys.Perm xs ∧ ys.Pairwise (· ≤ ·) ∧
    (∀ a, ys = [a] → x = a) ∧ ys ≠ [] ∧
    ∀ (i : Nat) (a b : K), ys[i]? = some a → ys[i + 1]? = some b →
      (i : K) ≤ q * ((ys.length - 1 : Nat) : K) → q * ((ys.length - 1 : Nat) : K) ≤ (i : K) + 1 →
      x = a + (b - a) * (q * ((ys.length - 1 : Nat) : K) - (i : K))

/-! ## Statistics -/

theorem orderedNums_perm (vals : List (Fl K)) : (orderedNums vals).Perm (vals.filterMap numOf) :=
  List.perm_insertionSort _ _

theorem orderedNums_sorted (vals : List (Fl K)) : (orderedNums vals).Pairwise (· ≤ ·) :=
  List.pairwise_insertionSort _ _

theorem orderedNums_nil {vals : List (Fl K)} : (orderedNums vals).length = 0 ↔ vals.filterMap numOf = [] := by
  rw [(orderedNums_perm vals).length_eq, List.length_eq_zero_iff]

theorem getElem?_getD_of_lt {α : Type} {l : List α} {i : Nat} {d : α} (h : i < l.length) : l[i]? = some (l.getD i d) := by
  rw [List.getD_eq_getElem?_getD, List.getElem?_eq_getElem h, Option.getD_some]

theorem median_is {vals : List (Fl K)} {x : K} (h : medianOf vals = .num x) : IsMedian (vals.filterMap numOf) x := by
  refine ⟨orderedNums vals, orderedNums_perm _, orderedNums_sorted _, ?_⟩
  unfold medianOf at h
  simp only at h
  split at h
  · cases h
  · rename_i h0
    split at h
    · rename_i h1
      refine ⟨x, x, ?_, ?_, by ring⟩
      · have : ((orderedNums vals).length - 1) / 2 = (orderedNums vals).length / 2 := by omega
        rw [this, getElem?_getD_of_lt (by omega) (d := 0)]
        rw [Fl.num.inj h]
      · rw [getElem?_getD_of_lt (by omega) (d := 0)]
        rw [Fl.num.inj h]
    · rename_i h1
      refine ⟨_, _, getElem?_getD_of_lt (by omega) (d := 0), getElem?_getD_of_lt (by omega) (d := 0), ?_⟩
      have : ((orderedNums vals).length - 1) / 2 = (orderedNums vals).length / 2 - 1 := by omega
      rw [this]
      exact (Fl.num.inj h).symm

theorem median_nan {vals : List (Fl K)} : medianOf vals = .nan ↔ vals.filterMap numOf = [] := by
  rw [← orderedNums_nil]
  unfold medianOf
  simp only
  split
  · simp_all
  · rename_i h
    split <;> simp [h]

theorem mean_nan {vals : List (Fl K)} : meanOf vals = .nan ↔ vals.filterMap numOf = [] := by
  have e : meanOf vals = if vals.filterMap numOf = [] then .nan else
    .num ((vals.filterMap numOf).sum / ((vals.filterMap numOf).length : K)) := rfl
  rw [e]
  split <;> simp_all

theorem quantile_nan {q : K} {vals : List (Fl K)} : quantileOf q vals = .nan ↔ vals.filterMap numOf = [] := by
  rw [← orderedNums_nil]
  unfold quantileOf
  simp only
  split
  · simp_all
  · rename_i h
    split <;> simp [h]

theorem quantile_is {q : K} {vals : List (Fl K)} {x : K} (h : quantileOf q vals = .num x) :
    IsQuantile q (vals.filterMap numOf) x := by
  refine ⟨orderedNums vals, orderedNums_perm _, orderedNums_sorted _, ?_, ?_, ?_⟩
  · intro a ha
    unfold quantileOf at h
    rw [ha] at h
    simpa using h.symm
  · intro he
    unfold quantileOf at h
    rw [he] at h
    simp at h
  · intro i a b ha hb hi hj
    unfold quantileOf at h
    generalize orderedNums vals = s at *
    have hlen : i + 1 < s.length := (List.getElem?_eq_some_iff.1 hb).1
    have ea : s.getD i 0 = a := by rw [List.getD_eq_getElem?_getD, ha]; rfl
    have eb : s.getD (i + 1) 0 = b := by rw [List.getD_eq_getElem?_getD, hb]; rfl
    simp only at h
    rw [if_neg (by omega)] at h
    generalize q * ((s.length - 1 : Nat) : K) = pos at *
    rcases hj.lt_or_eq with hj | hj
    · have hf : ⌊pos⌋₊ = i := by
        rw [Nat.floor_eq_iff (le_trans (Nat.cast_nonneg i) hi)]
        exact ⟨hi, by exact_mod_cast hj⟩
      rw [hf, ea, eb] at h
      split at h
      · rename_i hz
        rw [hz, mul_zero, add_zero]
        exact (Fl.num.inj h).symm
      · exact (Fl.num.inj h).symm
    · have hf : ⌊pos⌋₊ = i + 1 := by
        rw [hj]
        exact_mod_cast Nat.floor_natCast (R := K) (i + 1)
      rw [hf, if_pos (by rw [hj]; push_cast; ring), eb] at h
      rw [hj, ← Fl.num.inj h]
      ring

end Openscm
