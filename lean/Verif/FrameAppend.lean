import Verif.FrameInterp
import Verif.FrameRef
import Mathlib.Data.List.Dedup
import Mathlib.Data.List.Sort
import Mathlib.Algebra.CharZero.Defs
import Mathlib.Algebra.BigOperators.Group.List.Basic

/-!
# Appending frames (model) and C52

`df_append`, `openscm/scmdataframe/base.py:1437-1541`, for frames without repeated times. The rows of the result come
in the order in which their metadata first appears, not sorted: sorting mixed types is left out. Metadata that pandas
takes for equal (`1` and `1.0`) is the same metadata, of which the result has the form met first.
-/

set_option linter.unusedSectionVars false

namespace Openscm

variable {K : Type} [Field K] [DecidableEq K]

/-- `na_fill_value`, `openscm/scmdataframe/base.py:1491`. -/
def naFill : PyVal K := .int (-999)

/-- `joint_meta_set`, `openscm/scmdataframe/base.py:1484-1488`. -/
def jointCols (dfs : List (DFrame K)) : List String := (dfs.flatMap (·.cols)).dedup

/-- `openscm/scmdataframe/base.py:1492-1495`. -/
def DFrame.addMissing (joint : List String) (F : DFrame K) : DFrame K :=
  let miss := joint.filter fun c => c ∉ F.cols
  { F with cols := F.cols ++ miss, «meta» := F.meta.map fun r => (r.1, r.2 ++ miss.map fun _ => naFill) }

/-- `replace(to_replace=np.nan, value=na_fill_value)`. -/
def fillNull (v : PyVal K) : PyVal K := if v.isNull then naFill else v

/-- `replace(to_replace=na_fill_value, value=np.nan)`. -/
def unfill (v : PyVal K) : PyVal K := if v.eq naFill then .flt .nan else v

/-- A value of a timeseries at a time, `NaN` where it has none. -/
def atTime (times : List Int) (vals : List (Fl K)) (t : Int) : Fl K := vals.getD (times.idxOf t) .nan

/-- One of the frames given to `pd.concat`, `openscm/scmdataframe/base.py:1499-1501`, with its values at all times. -/
def appendPart (joint : List String) (times : List Int) (F : DFrame K) : Except Err (List (List (PyVal K) × List (Fl K))) :=
  let D := F.addMissing joint
  match D.timeseries with
  | .error e => .error e
  | .ok ts =>
    if D.times.Nodup then
      .ok (ts.map fun rv => ((selectCols D.cols joint rv.1).map fillNull, times.map (atTime D.times rv.2)))
    else .error .unmodelled

def appendParts (joint : List String) (times : List Int) :
    List (DFrame K) → Except Err (List (List (PyVal K) × List (Fl K)))
  | [] => .ok []
  | F :: r =>
    match appendPart joint times F with
    | .error e => .error e
    | .ok a =>
      match appendParts joint times r with
      | .error e => .error e
      | .ok b => .ok (a ++ b)

/-- The distinct keys, each in the form met first. -/
def distinctRows : List (List (PyVal K)) → List (List (PyVal K))
  | [] => []
  | r :: l => r :: (distinctRows l).filter fun s => ¬ sameRow r s

/-- `contributing_values > 1` somewhere, `openscm/scmdataframe/base.py:1547-1548`. -/
def overlaps (n : Nat) (data : List (List (PyVal K) × List (Fl K))) : Bool :=
  data.any fun e => (List.range n).any fun j =>
    decide (1 < ((data.filter fun f => sameRow e.1 f.1).filter fun f => (f.2.getD j .nan).isNum).length)

/-- `duplicate_msg`: `"warn"`, `"return"`, a value that counts as false, or anything else. -/
inductive DupMsg
  | warn | ret | off | other
  deriving DecidableEq

/-- The result: a frame or, for `"return"`, the joint data. -/
inductive Appended (K : Type)
  | frame (F : DFrame K)
  | joint (data : List (List (PyVal K) × List (Fl K)))

/-- `openscm/scmdataframe/base.py:1512-1535`. -/
def finishAppend (joint : List String) (times : List Int) (data : List (List (PyVal K) × List (Fl K))) : DFrame K :=
  let keys := distinctRows (data.map (·.1))
  DFrame.sortMeta
    { times := times, cols := joint
      data := keys.zipIdx.map fun ki => (ki.2, (List.range times.length).map fun j =>
        meanOf ((data.filter fun e => sameRow ki.1 e.1).map fun e => e.2.getD j .nan))
      «meta» := keys.zipIdx.map fun ki => (ki.2, ki.1.map unfill) }

/-- `df_append`, `openscm/scmdataframe/base.py:1437-1541`. -/
def dfAppend (dfs : List (DFrame K)) (msg : DupMsg) : Except Err (Appended K) :=
  if dfs = [] then .error .valueError
  else
    let joint := jointCols dfs
    let times := (dfs.flatMap (·.times)).dedup.insertionSort (· ≤ ·)
    match appendParts joint times dfs with
    | .error e => .error e
    | .ok data =>
      if msg ≠ .off ∧ overlaps times.length data then
        match msg with
        | .ret => .ok (.joint data)
        | .warn => .ok (.frame (finishAppend joint times data))
        | _ => .error .valueError
      else .ok (.frame (finishAppend joint times data))

/-! ## C52: specification -/

/-- Column `c` of the metadata of timeseries `i`; missing if there is no such column. -/
def DFrame.metaAt (F : DFrame K) (i : Nat) (c : String) : PyVal K :=
  match F.meta[i]? with
  | some r => rowVal F.cols r.2 c
  | none => .none

/-- The value of timeseries `i` at time `t`, if it has one. -/
def DFrame.valueAt (F : DFrame K) (i : Nat) (t : Int) : Option K :=
  match F.data[i]? with
  | some s =>
    match s.2.getD (F.times.idxOf t) .nan with
    | .num x => some x
    | .nan => none
  | none => none

/-- The same metadata. -/
def SameMeta (m m' : String → PyVal K) : Prop := ∀ c, SameValue (m c) (m' c)

open Classical in
/-- The values that the frames have for the metadata `m` at time `t`. -/
noncomputable def valuesFor (dfs : List (DFrame K)) (m : String → PyVal K) (t : Int) : List K :=
  dfs.flatMap fun F => (List.range F.data.length).filterMap fun i =>
    if SameMeta m (F.metaAt i) then F.valueAt i t else none

/-- No metadata value is `-999`. -/
def NoSentinel (F : DFrame K) : Prop := ∀ i c, ¬ SameValue (F.metaAt i c) (.int (-999))

/-- The average of all, if there are any. -/
def average (xs : List K) : Option K := if xs = [] then none else some (xs.sum / (xs.length : K))

/-! ## Facts -/

theorem SameValue.symm {a b : PyVal K} (h : SameValue a b) : SameValue b a := by
  cases h with
  | missing h1 h2 => exact .missing h2 h1
  | equal => exact .equal _
  | intFloat z => exact .floatInt z
  | floatInt z => exact .intFloat z

theorem isNull_iff {a : PyVal K} : a.isNull = true ↔ a = .none ∨ a = .flt .nan := by
  cases a with
  | flt x => cases x <;> simp [PyVal.isNull]
  | _ => simp [PyVal.isNull]

theorem SameValue.isNull {a b : PyVal K} (h : SameValue a b) : a.isNull = b.isNull := by
  cases h with
  | missing h1 h2 => rw [isNull_iff.2 h1, isNull_iff.2 h2]
  | equal => rfl
  | intFloat z => rfl
  | floatInt z => rfl

theorem SameValue.trans [CharZero K] {a b c : PyVal K} (h : SameValue a b) (h' : SameValue b c) : SameValue a c := by
  cases h with
  | missing h1 h2 =>
    have := h'.isNull
    rw [isNull_iff.2 h2] at this
    exact .missing h1 (isNull_iff.1 this.symm)
  | equal => exact h'
  | intFloat z =>
    generalize hb : PyVal.flt (Fl.num (z : K)) = b at h'
    cases h' with
    | missing h1 h2 => subst hb; simp at h1
    | equal => subst hb; exact .intFloat z
    | intFloat z' => cases hb
    | floatInt z' =>
      injection hb with hb; injection hb with hb
      have := Int.cast_injective hb
      subst this
      exact .equal _
  | floatInt z =>
    generalize hb : (PyVal.int z : PyVal K) = b at h'
    cases h' with
    | missing h1 h2 => subst hb; simp at h1
    | equal => subst hb; exact .floatInt z
    | intFloat z' => cases hb; exact .equal _
    | floatInt z' => cases hb

theorem SameMeta.refl (m : String → PyVal K) : SameMeta m m := fun _ => .equal _
theorem SameMeta.symm {m m' : String → PyVal K} (h : SameMeta m m') : SameMeta m' m := fun c => (h c).symm
theorem SameMeta.trans [CharZero K] {m m' m'' : String → PyVal K} (h : SameMeta m m') (h' : SameMeta m' m'') :
    SameMeta m m'' := fun c => (h c).trans (h' c)

theorem eq_naFill {v : PyVal K} : v.eq naFill = true ↔ SameValue v naFill := by
  rw [← same_iff]
  cases v with
  | flt x => cases x <;> simp [PyVal.same, PyVal.isNull, naFill]
  | _ => simp [PyVal.same, PyVal.isNull, naFill]

/-- Filling and unfilling changes no value that is not `-999`. -/
theorem unfill_fill {v : PyVal K} (h : ¬ SameValue v naFill) : SameValue (unfill (fillNull v)) v := by
  unfold fillNull
  split
  · rename_i hn
    have : unfill (naFill : PyVal K) = .flt .nan := by
      unfold unfill
      rw [if_pos (eq_naFill.2 (.equal _))]
    rw [this]
    exact .missing (.inr rfl) (isNull_iff.1 hn)
  · unfold unfill
    rw [if_neg fun e => h (eq_naFill.1 e)]
    exact .equal _

theorem fill_same {a b : PyVal K} (ha : ¬ SameValue a naFill) (hb : ¬ SameValue b naFill) :
    SameValue (fillNull a) (fillNull b) ↔ SameValue a b := by
  unfold fillNull
  split
  · rename_i h1
    split
    · rename_i h2
      exact ⟨fun _ => .missing (isNull_iff.1 h1) (isNull_iff.1 h2), fun _ => .equal _⟩
    · rename_i h2
      constructor
      · intro h; exact absurd h.symm hb
      · intro h; exact absurd (h.isNull ▸ h1) h2
  · rename_i h1
    split
    · rename_i h2
      constructor
      · intro h; exact absurd h ha
      · intro h; exact absurd (h.isNull ▸ h2) h1
    · rfl

theorem sameRow_map {cols : List String} {f g : String → PyVal K} :
    sameRow (cols.map f) (cols.map g) = true ↔ ∀ c ∈ cols, SameValue (f c) (g c) := by
  rw [sameRow_iff]
  induction cols with
  | nil => simp
  | cons c cols ih => simp [ih]

theorem rowVal_absent {cols : List String} {row : List (PyVal K)} (hl : row.length = cols.length) {c : String}
    (hc : c ∉ cols) : rowVal cols row c = .none := by
  unfold rowVal
  rw [List.idxOf_eq_length hc, List.getD_eq_getElem?_getD, List.getElem?_eq_none (by omega)]
  rfl

/-- The key of a timeseries. -/
def seriesKey (joint : List String) (m : String → PyVal K) : List (PyVal K) := joint.map fun c => fillNull (m c)

theorem addMissing_row {joint : List String} {F : DFrame K} {r : List (PyVal K)} (hl : r.length = F.cols.length) :
    (selectCols (F.addMissing joint).cols joint (r ++ (joint.filter fun c => c ∉ F.cols).map fun _ => naFill)).map fillNull =
      seriesKey joint (rowVal F.cols r) := by
  unfold selectCols seriesKey
  rw [List.map_map]
  refine List.map_congr_left fun c hc => ?_
  simp only [Function.comp, DFrame.addMissing]
  by_cases h : c ∈ F.cols
  · have hlt := List.idxOf_lt_length_of_mem h
    rw [List.idxOf_append_of_mem h]
    simp only [rowVal, List.getD_eq_getElem?_getD]
    rw [List.getElem?_append_left (by omega)]
  · rw [List.idxOf_append_of_notMem h, rowVal_absent hl h]
    have hm : c ∈ joint.filter fun c => c ∉ F.cols := by simp [hc, h]
    have hlt := List.idxOf_lt_length_of_mem hm
    rw [List.getD_eq_getElem?_getD, List.getElem?_append_right (by omega), hl, Nat.add_sub_cancel_left,
      List.getElem?_eq_getElem (by rw [List.length_map]; exact hlt), List.getElem_map]
    rfl

/-- What a frame contributes. -/
def entriesOf (joint : List String) (times : List Int) (F : DFrame K) : List (List (PyVal K) × List (Fl K)) :=
  (F.meta.zip F.data).map fun rd => (seriesKey joint (rowVal F.cols rd.1.2), times.map (atTime F.times rd.2.2))

theorem appendPart_ok {joint : List String} {times : List Int} {F : DFrame K} (hF : F.Ok)
    {l : List (List (PyVal K) × List (Fl K))} (h : appendPart joint times F = .ok l) : l = entriesOf joint times F := by
  unfold appendPart DFrame.timeseries at h
  simp only at h
  split at h
  · cases h
  · rename_i ts hts
    split at hts
    · cases hts
    · split at h
      · rename_i hn
        have := (Except.ok.inj hts).symm
        subst this
        rw [← Except.ok.inj h, entriesOf, List.map_map]
        simp only [DFrame.addMissing, List.zip_map_left, List.map_map]
        refine List.map_congr_left fun rd hrd => ?_
        have := hF.meta_len rd.1 (List.of_mem_zip hrd).1
        simp only [Function.comp, Prod.map_fst, Prod.map_snd, id_eq, Prod.mk.injEq, and_true]
        exact addMissing_row this
      · cases h

theorem appendParts_ok {joint : List String} {times : List Int} {dfs : List (DFrame K)} (hF : ∀ F ∈ dfs, F.Ok)
    {l : List (List (PyVal K) × List (Fl K))} (h : appendParts joint times dfs = .ok l) :
    l = dfs.flatMap (entriesOf joint times) := by
  induction dfs generalizing l with
  | nil => rw [← Except.ok.inj h]; rfl
  | cons F dfs ih =>
    simp only [appendParts] at h
    split at h
    · cases h
    · rename_i a ha
      split at h
      · cases h
      · rename_i b hb
        rw [← Except.ok.inj h, List.flatMap_cons, ih (fun F hF' => hF F (by simp [hF'])) hb,
          appendPart_ok (hF F (by simp)) ha]

end Openscm
