import Verif.FrameItems
import Verif.FrameAppend2
import Verif.FrameRef
import Mathlib.Data.List.Lex

/-!
# Metadata set by an index (model) and C69

`set_meta` with an index, `openscm/scmdataframe/base.py:871-938`: the values have keys, which are values of some metadata
columns or, for an index without names, positions. The metadata is merged with them by `pd.merge(…, how="outer")`, which
sorts by key, keeps keys of either side, and makes a row for each pair of a timeseries and a value with the same key.
Rows that belong to no timeseries have no label.

Keys are strings. Columns of whole numbers with missing values become columns of floats in pandas; here they keep the
whole numbers, which are equal. Not modelled: indexes of which only some levels have names, columns that are called
`index`, and names with which a column would occur twice.
-/

set_option linter.unusedSectionVars false

namespace Openscm

variable {K : Type} [Field K] [DecidableEq K]

/-- `_meta` after a merge: labels, which rows of no timeseries do not have, and values. -/
structure MetaTable (K : Type) where
  cols : List String
  rows : List (Option Nat × List (PyVal K))
  deriving DecidableEq, Repr

/-- The rows of an outer join for one key: what the left side has, what the right side has. -/
def joinKey {κ α : Type} [DecidableEq κ] (left : List (κ × α)) (right : List (κ × PyVal K)) (k : κ) :
    List (κ × Option α × PyVal K) :=
  let ls := (left.filter fun x => x.1 = k).map (·.2)
  let rs := (right.filter fun x => x.1 = k).map (·.2)
  if ls = [] then rs.map fun v => (k, none, v)
  else if rs = [] then ls.map fun r => (k, some r, .flt .nan)
  else ls.flatMap fun r => rs.map fun v => (k, some r, v)

/-- `pd.merge(left, right, left_index=True, right_index=True, how="outer")`: sorted by key, unless one side is empty or
both have the same keys, each once, in the same order. -/
def mergeOuter {κ α : Type} [LinearOrder κ] [DecidableEq α] (left : List (κ × α)) (right : List (κ × PyVal K)) :
    List (κ × Option α × PyVal K) :=
  if right = [] then left.map fun x => (x.1, some x.2, .flt .nan)
  else if left = [] then right.map fun x => (x.1, none, x.2)
  else if left.map (·.1) = right.map (·.1) ∧ (left.map (·.1)).Nodup then
    List.zipWith (fun x y => (x.1, some x.2, y.2)) left right
  else (left.map (·.1) ++ right.map (·.1)).dedup.insertionSort (· ≤ ·) |>.flatMap (joinKey left right)

/-- The columns after the merge; pandas renames columns that both sides have. -/
def mergedCols (cols : List String) (name : String) : List String :=
  if name ∈ cols then (cols.map fun c => if c = name then name ++ "_x" else c) ++ [name ++ "_y"] else cols ++ [name]

/-- The end of `set_meta`, `openscm/scmdataframe/base.py:929-938`: `empty` is the row of a key that no timeseries has. -/
def mergedTable {κ : Type} (F : DFrame K) (name : String) (rows : List (κ × Option (Nat × List (PyVal K)) × PyVal K))
    (empty : κ → List (PyVal K)) : Except Err (MetaTable K) :=
  if ¬ ∀ c ∈ requiredCols, c ∈ mergedCols F.cols name then .error .keyError
  else if ¬ (mergedCols F.cols name).Nodup then .error .unmodelled
  else
    let cols := mergedCols F.cols name
    .ok { cols := sortedCols cols
          rows := rows.map fun x => match x.2.1 with
            | some r => (some r.1, selectCols cols (sortedCols cols) (r.2 ++ [x.2.2]))
            | none => (none, selectCols cols (sortedCols cols) (empty x.1 ++ [x.2.2])) }

/-- All values, if none is missing. -/
def allSome {α : Type} : List (Option α) → Option (List α)
  | [] => some []
  | none :: _ => none
  | some a :: l => (allSome l).map (a :: ·)

def textValue : PyVal K → Option String
  | .str s => some s
  | _ => none

/-- The key of a row, if it consists of strings. -/
def rowKey (cols names : List String) (row : List (PyVal K)) : Option (List String) :=
  allSome (names.map fun c => textValue (rowVal cols row c))

/-- `set_meta(meta, name, index)`, `openscm/scmdataframe/base.py:871-938`, for an index with the level names `names`:
the metadata afterwards. `entries` are the keys and values of `pd.Series(meta, index=index)`. -/
def DFrame.setMetaBy (F : DFrame K) (names : List String) (name : String) (entries : List (List String × PyVal K)) :
    Except Err (MetaTable K) :=
  if name = "" then .error .valueError
  else if ¬ ∀ c ∈ names, c ∈ F.cols then .error .keyError
  else if name ∈ names then .error .valueError
  else if names = [] ∨ ¬ names.Nodup ∨ name = "index" ∨ "index" ∈ F.cols then .error .unmodelled
  else
    match allSome (F.meta.map fun r => (rowKey F.cols names r.2).map fun k => (k, r)) with
    | none => .error .unmodelled
    | some left => mergedTable F name (mergeOuter left entries) fun k =>
        F.cols.map fun c => if c ∈ names then (k[names.idxOf c]?).elim .none .str else .flt .nan

/-- `set_meta(meta, name, index)` for an index of numbers without a name: the keys are positions. -/
def DFrame.setMetaAt (F : DFrame K) (name : String) (entries : List (Int × PyVal K)) : Except Err (MetaTable K) :=
  if name = "" then .error .valueError
  else if name = "index" ∨ "index" ∈ F.cols then .error .unmodelled
  else mergedTable F name (mergeOuter (F.meta.zipIdx.map fun x => ((x.2 : Int), x.1)) entries) fun _ => F.cols.map fun _ => .flt .nan

/-- The frame with its new metadata, if every row has a label; metadata and data are paired by position,
`openscm/scmdataframe/base.py:564-572`. -/
def DFrame.withTable (F : DFrame K) (T : MetaTable K) : Option (DFrame K) :=
  (allSome (T.rows.map fun r => r.1.map fun l => (l, r.2))).map fun rows => { F with cols := T.cols, «meta» := rows }

/-! ## C69: specification -/

/-- Timeseries `i` has the key `k`: its metadata in the columns `names`. -/
def DFrame.HasKey (F : DFrame K) (names : List String) (i : Nat) (k : List String) : Prop :=
  names.map (F.metaAt i) = k.map .str

/-- Row `j` of the table is that of timeseries `i` with `v` in the new column. -/
structure MetaTable.RowOf (T : MetaTable K) (F : DFrame K) (name : String) (j i : Nat) (v : PyVal K) : Prop where
  lt : i < F.meta.length
  row : ∃ r row, F.meta[i]? = some r ∧ T.rows[j]? = some (some r.1, row) ∧ row.length = T.cols.length ∧
    (∀ c, c ≠ name → rowVal T.cols row c = F.metaAt i c) ∧ rowVal T.cols row name = v

/-- What a timeseries with the key `k` gets: a value with this key, or NaN if there is none. -/
def ListedValue {κ : Type} (entries : List (κ × PyVal K)) (k : κ) (v : PyVal K) : Prop :=
  (k, v) ∈ entries ∨ (∀ w, (k, w) ∉ entries) ∧ v = .flt .nan

/-- The frame `G` is `F` with the column `name` as `P` says for each timeseries, and is otherwise the same. -/
structure DFrame.Assigned (F : DFrame K) (name : String) (P : Nat → PyVal K → Prop) (G : DFrame K) : Prop where
  ok : G.Ok
  data : G.data = F.data
  times : G.times = F.times
  others : ∀ i c, c ≠ name → G.metaAt i c = F.metaAt i c
  given : ∀ i < F.meta.length, P i (G.metaAt i name)

/-! ## Facts -/

theorem mem_joinKey {κ α : Type} [DecidableEq κ] {left : List (κ × α)} {right : List (κ × PyVal K)} {k : κ}
    {x : κ × Option α × PyVal K} : x ∈ joinKey left right k ↔ x.1 = k ∧
      ((∃ r, (k, r) ∈ left ∧ x.2.1 = some r ∧ ListedValue right k x.2.2) ∨
       ((∀ r, (k, r) ∉ left) ∧ x.2.1 = none ∧ (k, x.2.2) ∈ right)) := by
  have hl : ∀ r, r ∈ (left.filter fun x => x.1 = k).map (·.2) ↔ (k, r) ∈ left := by
    intro r
    simp only [List.mem_map, List.mem_filter, decide_eq_true_eq, Prod.exists]
    constructor
    · rintro ⟨a, b, ⟨h, rfl⟩, rfl⟩
      exact h
    · exact fun h => ⟨k, r, ⟨h, rfl⟩, rfl⟩
  have hr : ∀ v, v ∈ (right.filter fun x => x.1 = k).map (·.2) ↔ (k, v) ∈ right := by
    intro r
    simp only [List.mem_map, List.mem_filter, decide_eq_true_eq, Prod.exists]
    constructor
    · rintro ⟨a, b, ⟨h, rfl⟩, rfl⟩
      exact h
    · exact fun h => ⟨k, r, ⟨h, rfl⟩, rfl⟩
  obtain ⟨xk, xr, xv⟩ := x
  unfold joinKey
  simp only
  generalize (left.filter fun x => x.1 = k).map (·.2) = ls at hl
  generalize (right.filter fun x => x.1 = k).map (·.2) = rs at hr
  split
  · rename_i h
    subst h
    have hn : ∀ r, (k, r) ∉ left := fun r h => by simpa using (hl r).2 h
    simp only [List.mem_map, hr, Prod.mk.injEq]
    constructor
    · rintro ⟨v, h, rfl, rfl, rfl⟩
      exact ⟨rfl, .inr ⟨hn, rfl, h⟩⟩
    · rintro ⟨rfl, ⟨r, h, -⟩ | ⟨-, rfl, h⟩⟩
      · exact absurd h (hn r)
      · exact ⟨xv, h, rfl, rfl, rfl⟩
  · rename_i hne
    have hex : ∃ r, (k, r) ∈ left := by
      obtain ⟨r, hr⟩ := List.exists_mem_of_ne_nil _ hne
      exact ⟨r, (hl r).1 hr⟩
    split
    · rename_i h
      subst h
      have hn : ∀ r, (k, r) ∉ right := fun r h => by simpa using (hr r).2 h
      simp only [List.mem_map, hl, Prod.mk.injEq]
      constructor
      · rintro ⟨r, h, rfl, rfl, rfl⟩
        exact ⟨rfl, .inl ⟨r, h, rfl, .inr ⟨hn, rfl⟩⟩⟩
      · rintro ⟨rfl, ⟨r, h, rfl, h' | ⟨-, rfl⟩⟩ | ⟨h, -⟩⟩
        · exact absurd h' (hn _)
        · exact ⟨r, h, rfl, rfl, rfl⟩
        · obtain ⟨r, hr⟩ := hex
          exact absurd hr (h r)
    · rename_i hne'
      have hex' : ∃ r, (k, r) ∈ right := by
        obtain ⟨r, h⟩ := List.exists_mem_of_ne_nil _ hne'
        exact ⟨r, (hr r).1 h⟩
      simp only [List.mem_flatMap, List.mem_map, hl, hr, Prod.mk.injEq]
      constructor
      · rintro ⟨r, h, v, h', rfl, rfl, rfl⟩
        exact ⟨rfl, .inl ⟨r, h, rfl, .inl h'⟩⟩
      · rintro ⟨rfl, ⟨r, h, rfl, h' | ⟨h', -⟩⟩ | ⟨h, -⟩⟩
        · exact ⟨r, h, xv, h', rfl, rfl, rfl⟩
        · obtain ⟨v, hv⟩ := hex'
          exact absurd hv (h' v)
        · obtain ⟨r, hr⟩ := hex
          exact absurd hr (h r)

/-- What is in an outer join. -/
theorem mem_mergeOuter {κ α : Type} [LinearOrder κ] [DecidableEq α] {left : List (κ × α)} {right : List (κ × PyVal K)}
    {x : κ × Option α × PyVal K} : x ∈ mergeOuter left right ↔
      ((∃ r, (x.1, r) ∈ left ∧ x.2.1 = some r ∧ ListedValue right x.1 x.2.2) ∨
       ((∀ r, (x.1, r) ∉ left) ∧ x.2.1 = none ∧ (x.1, x.2.2) ∈ right)) := by
  obtain ⟨xk, xr, xv⟩ := x
  unfold mergeOuter
  split
  · rename_i h
    subst h
    simp only [List.mem_map, Prod.mk.injEq, Prod.exists, ListedValue, List.not_mem_nil, not_false_eq_true, implies_true, true_and,
      false_or, and_false, or_false]
    constructor
    · rintro ⟨k, r, h, rfl, rfl, rfl⟩
      exact ⟨r, h, rfl, rfl⟩
    · rintro ⟨r, h, rfl, rfl⟩
      exact ⟨xk, r, h, rfl, rfl, rfl⟩
  · split
    · rename_i h
      subst h
      simp only [List.mem_map, Prod.mk.injEq, Prod.exists, List.not_mem_nil, false_and, exists_false, not_false_eq_true,
        implies_true, true_and, false_or]
      constructor
      · rintro ⟨k, r, h, rfl, rfl, rfl⟩
        exact ⟨rfl, h⟩
      · rintro ⟨rfl, h⟩
        exact ⟨xk, xv, h, rfl, rfl, rfl⟩
    · split
      · rename_i h
        obtain ⟨hk, hn⟩ := h
        have hl : left.length = right.length := by simpa using congrArg List.length hk
        have hkey : ∀ (i : Nat) (h1 : i < left.length) (h2 : i < right.length), left[i].1 = right[i].1 := by
          intro i h1 h2
          have := congrArg (·[i]?) hk
          simpa [List.getElem?_eq_getElem h1, List.getElem?_eq_getElem h2] using this
        have huniq : ∀ (i j : Nat) (h1 : i < left.length) (h2 : j < left.length), left[i].1 = left[j].1 → i = j := by
          intro i j h1 h2 he
          have := (List.Nodup.getElem_inj_iff hn (i := i) (j := j) (hi := by simpa) (hj := by simpa)).1 (by simpa using he)
          exact this
        constructor
        · intro h
          obtain ⟨i, hi, he⟩ := List.getElem_of_mem h
          simp only [List.length_zipWith] at hi
          simp only [List.getElem_zipWith, Prod.mk.injEq] at he
          obtain ⟨rfl, rfl, rfl⟩ := he
          refine .inl ⟨left[i].2, List.getElem_mem (by omega), rfl, .inl ?_⟩
          simp only
          rw [hkey i (by omega) (by omega)]
          exact List.getElem_mem _
        · rintro (⟨r, h, h2, h3⟩ | ⟨h, -, h2⟩)
          · simp only at h h2 h3
            subst h2
            obtain ⟨i, hi, he⟩ := List.getElem_of_mem h
            have hv : right[i]'(by omega) = (xk, xv) := by
              rcases h3 with h3 | ⟨h3, -⟩
              · obtain ⟨j, hj, hej⟩ := List.getElem_of_mem h3
                have : i = j := huniq i j hi (by omega) (by rw [hkey j (by omega) hj, he, hej])
                subst this
                exact hej
              · refine absurd ?_ (h3 (right[i]'(by omega)).2)
                have h4 := hkey i hi (by omega)
                rw [he] at h4
                simp only at h4
                rw [h4]
                exact List.getElem_mem _
            refine List.mem_iff_getElem.2 ⟨i, by simp; omega, ?_⟩
            rw [List.getElem_zipWith, he, hv]
          · simp only at h h2
            obtain ⟨j, hj, hej⟩ := List.getElem_of_mem h2
            refine absurd ?_ (h (left[j]'(by omega)).2)
            have h4 := hkey j (by omega) hj
            rw [hej] at h4
            simp only at h4
            rw [← h4]
            exact List.getElem_mem _
      · simp only [List.mem_flatMap, List.mem_insertionSort, List.mem_dedup, mem_joinKey, List.mem_append]
        constructor
        · rintro ⟨k, -, rfl, h⟩
          exact h
        · intro h
          refine ⟨xk, ?_, rfl, h⟩
          rcases h with ⟨r, h, -⟩ | ⟨-, -, h⟩
          · exact .inl (List.mem_map.2 ⟨_, h, rfl⟩)
          · exact .inr (List.mem_map.2 ⟨_, h, rfl⟩)

theorem filter_min {κ α : Type} [LinearOrder κ] {k : κ} {l : List (κ × α)} (hs : (l.map (·.1)).Pairwise (· ≤ ·))
    (hk : ∀ x ∈ l, k ≤ x.1) : (l.filter fun x => x.1 = k) ++ (l.filter fun x => ¬ x.1 = k) = l := by
  induction l with
  | nil => rfl
  | cons x l ih =>
    simp only [List.map_cons, List.pairwise_cons] at hs
    have ih' := ih hs.2 fun y hy => hk y (List.mem_cons_of_mem _ hy)
    by_cases hx : x.1 = k
    · simp only [List.filter_cons, hx, decide_true, if_true, not_true, decide_false, List.cons_append]
      simpa using ih'
    · have hlt : k < x.1 := lt_of_le_of_ne (hk x (by simp)) (Ne.symm hx)
      have hnone : ∀ y ∈ l, ¬ y.1 = k := fun y hy he => by
        have := hs.1 y.1 (List.mem_map.2 ⟨y, hy, rfl⟩)
        rw [he] at this
        exact absurd hlt (not_lt.2 this)
      have e1 : (l.filter fun x => x.1 = k) = [] := List.filter_eq_nil_iff.2 fun y hy => by simpa using hnone y hy
      have e2 : (l.filter fun x => ¬ x.1 = k) = l := List.filter_eq_self.2 fun y hy => by simpa using hnone y hy
      rw [List.filter_cons, if_neg (by simpa using hx), List.filter_cons, if_pos (by simpa using hx), e1, e2]
      rfl

/-- Collecting a sorted list key by key gives the list. -/
theorem flatMap_keys {κ α : Type} [LinearOrder κ] {ks : List κ} {l : List (κ × α)} (hks : ks.Pairwise (· < ·))
    (hs : (l.map (·.1)).Pairwise (· ≤ ·)) (hm : ∀ x ∈ l, x.1 ∈ ks) : (ks.flatMap fun k => l.filter fun x => x.1 = k) = l := by
  induction ks generalizing l with
  | nil =>
    cases l with
    | nil => rfl
    | cons x l => exact absurd (hm x (by simp)) (by simp)
  | cons k ks ih =>
    rw [List.pairwise_cons] at hks
    have hk : ∀ x ∈ l, k ≤ x.1 := fun x hx => by
      rcases List.mem_cons.1 (hm x hx) with h | h
      · exact h.ge
      · exact (hks.1 _ h).le
    have h2 := ih (l := l.filter fun x => ¬ x.1 = k) hks.2 (hs.sublist ((List.filter_sublist).map _)) fun x hx => by
      rw [List.mem_filter] at hx
      rcases List.mem_cons.1 (hm x hx.1) with h | h
      · exact absurd h (by simpa using hx.2)
      · exact h
    rw [List.flatMap_cons]
    refine Eq.trans ?_ (filter_min hs hk)
    congr 1
    refine Eq.trans ?_ h2
    refine List.flatMap_congr fun k' hk' => ?_
    rw [List.filter_filter]
    refine List.filter_congr fun x hx => ?_
    have := hks.1 k' hk'
    by_cases he : x.1 = k'
    · simp [he, this.ne']
    · simp [he]

theorem keys_sorted {κ : Type} [LinearOrder κ] (l : List κ) : (l.dedup.insertionSort (· ≤ ·)).Pairwise (· < ·) := by
  have h1 := List.pairwise_insertionSort (· ≤ ·) l.dedup
  have h2 : (l.dedup.insertionSort (· ≤ ·)).Nodup := (List.perm_insertionSort _ _).nodup_iff.2 (List.nodup_dedup _)
  exact (h1.and h2).imp fun ⟨a, b⟩ => lt_of_le_of_ne a b

theorem joinKey_labels {κ α : Type} [DecidableEq κ] {left : List (κ × α)} {right : List (κ × PyVal K)} {k : κ}
    (hr : (right.map (·.1)).Nodup) (hk : k ∈ left.map (·.1)) :
    (joinKey left right k).map (fun x => (x.1, x.2.1)) = (left.filter fun x => x.1 = k).map fun x => (x.1, some x.2) := by
  have e : ((left.filter fun x => x.1 = k).map fun x => (x.1, some x.2)) = ((left.filter fun x => x.1 = k).map (·.2)).map fun r => (k, some r) := by
    rw [List.map_map]
    refine List.map_congr_left fun x hx => ?_
    rw [List.mem_filter, decide_eq_true_eq] at hx
    simp [hx.2]
  have hne : (left.filter fun x => x.1 = k).map (·.2) ≠ [] := by
    obtain ⟨x, hx, rfl⟩ := List.mem_map.1 hk
    intro h0
    rw [List.map_eq_nil_iff, List.filter_eq_nil_iff] at h0
    exact h0 x hx (by simp)
  have hone : ((right.filter fun x => x.1 = k).map (·.2)).length ≤ 1 := by
    rw [List.length_map]
    have hs : ((right.filter fun x => x.1 = k).map (·.1)).Nodup := hr.sublist (List.filter_sublist.map _)
    have hc : ∀ x ∈ right.filter (fun x => x.1 = k), x.1 = k := fun x hx => by simpa using (List.mem_filter.1 hx).2
    generalize right.filter (fun x => x.1 = k) = l at hs hc
    match l, hs, hc with
    | [], _, _ => simp
    | [_], _, _ => simp
    | a :: b :: l, hs, hc =>
      rw [List.map_cons, List.nodup_cons] at hs
      exact absurd (by rw [hc a (by simp), ← hc b (by simp)]; simp) hs.1
  rw [e]
  unfold joinKey
  simp only
  generalize (left.filter fun x => x.1 = k).map (·.2) = ls at hne
  generalize (right.filter fun x => x.1 = k).map (·.2) = rs at hone
  rw [if_neg hne]
  match rs, hone with
  | [], _ => simp [Function.comp_def]
  | [v], _ =>
    rw [if_neg (by simp), List.map_flatMap]
    simp only [List.map_cons, List.map_nil]
    induction ls with
    | nil => rfl
    | cons a t ih =>
      by_cases ht : t = []
      · subst ht
        simp
      · simp [List.flatMap_cons, ih ht]
  | a :: b :: l, h => simp at h

/-- Of distinct keys that timeseries have, and sorted timeseries, the merge keeps the order. -/
theorem merge_order {κ α : Type} [LinearOrder κ] [DecidableEq α] {left : List (κ × α)} {right : List (κ × PyVal K)}
    (hr : (right.map (·.1)).Nodup) (hk : ∀ x ∈ right, x.1 ∈ left.map (·.1))
    (hs : right = [] ∨ left.map (·.1) = right.map (·.1) ∨ (left.map (·.1)).Pairwise (· ≤ ·)) :
    (mergeOuter left right).map (fun x => (x.1, x.2.1)) = left.map fun x => (x.1, some x.2) := by
  unfold mergeOuter
  split
  · simp [Function.comp_def]
  · rename_i hne
    split
    · rename_i h
      subst h
      obtain ⟨x, hx⟩ := List.exists_mem_of_ne_nil _ hne
      exact absurd (hk x hx) (by simp)
    · split
      · rename_i h
        have hl : left.length = right.length := by simpa using congrArg List.length h.1
        refine List.ext_getElem (by simp [hl]) fun i h1 h2 => ?_
        simp
      · rename_i h
        have hs' : (left.map (·.1)).Pairwise (· ≤ ·) := by
          rcases hs with h' | h' | h'
          · exact absurd h' hne
          · exact absurd ⟨h', h' ▸ hr⟩ h
          · exact h'
        rw [List.map_flatMap]
        have hmem : ∀ k ∈ (left.map (·.1) ++ right.map (·.1)).dedup.insertionSort (· ≤ ·), k ∈ left.map (·.1) := by
          intro k hk'
          rw [List.mem_insertionSort, List.mem_dedup, List.mem_append] at hk'
          rcases hk' with h1 | h1
          · exact h1
          · obtain ⟨x, hx, rfl⟩ := List.mem_map.1 h1
            exact hk x hx
        rw [List.flatMap_congr fun k hk' => joinKey_labels hr (hmem k hk'), ← List.map_flatMap,
          flatMap_keys (keys_sorted _) hs' fun x hx => by
            rw [List.mem_insertionSort, List.mem_dedup, List.mem_append]
            exact .inl (List.mem_map.2 ⟨x, hx, rfl⟩)]

/-- If the merge keeps the order of distinct timeseries, there was nothing to sort. -/
theorem merge_sorted {κ α : Type} [LinearOrder κ] [DecidableEq α] {left : List (κ × α)} {right : List (κ × PyVal K)}
    (hl : (left.map (·.2)).Nodup) (h : (mergeOuter left right).map (·.2.1) = left.map fun x => some x.2) :
    right = [] ∨ (left.map (·.1) = right.map (·.1) ∧ (left.map (·.1)).Nodup) ∨ (left.map (·.1)).Pairwise (· ≤ ·) := by
  have hkeys : (mergeOuter left right).map (·.1) = left.map (·.1) := by
    have hlen : (mergeOuter left right).length = left.length := by simpa using congrArg List.length h
    refine List.ext_getElem (by simpa using hlen) fun i h1 h2 => ?_
    simp only [List.length_map] at h1 h2
    have hi := congrArg (·[i]?) h
    simp only [List.getElem?_map, List.getElem?_eq_getElem h1, List.getElem?_eq_getElem h2, Option.map_some, Option.some.injEq] at hi
    rcases mem_mergeOuter.1 (List.getElem_mem h1) with ⟨r, hr, he, -⟩ | ⟨-, he, -⟩
    · rw [hi, Option.some.injEq] at he
      obtain ⟨j, hj, hej⟩ := List.getElem_of_mem hr
      have : i = j := by
        have := (List.Nodup.getElem_inj_iff hl (i := i) (j := j) (hi := by simpa) (hj := by simpa)).1 (by simp [hej, he])
        exact this
      subst this
      simp [hej]
    · rw [hi] at he
      cases he
  unfold mergeOuter at hkeys
  split at hkeys
  · rename_i h0
    exact .inl h0
  · split at hkeys
    · rename_i h0
      subst h0
      exact .inr (.inr (by simp))
    · split at hkeys
      · rename_i h0
        exact .inr (.inl h0)
      · refine .inr (.inr ?_)
        rw [← hkeys, List.pairwise_map, List.pairwise_flatMap]
        refine ⟨fun k _ => List.pairwise_of_forall_mem_list fun a ha b hb => ?_, ?_⟩
        · rw [(mem_joinKey.1 ha).1, (mem_joinKey.1 hb).1]
        · exact (keys_sorted _).imp fun {k k'} hlt a ha b hb => by
            rw [(mem_joinKey.1 ha).1, (mem_joinKey.1 hb).1]
            exact hlt.le

theorem allSome_iff {α : Type} {l : List (Option α)} {r : List α} : allSome l = some r ↔ l = r.map some := by
  induction l generalizing r with
  | nil => cases r <;> simp [allSome]
  | cons a l ih =>
    cases a with
    | none => cases r <;> simp [allSome]
    | some a =>
      cases r with
      | nil => simp [allSome]
      | cons b r => simp [allSome, ih, and_comm]

theorem textValue_iff {v : PyVal K} {s : String} : textValue v = some s ↔ v = .str s := by
  cases v <;> simp [textValue]

theorem rowKey_iff {cols names : List String} {row : List (PyVal K)} {k : List String} :
    rowKey cols names row = some k ↔ names.map (rowVal cols row) = k.map .str := by
  unfold rowKey
  rw [allSome_iff]
  induction names generalizing k with
  | nil => cases k <;> simp
  | cons a l ih => cases k <;> simp [textValue_iff, ih]

/-- The keys of the timeseries, as the merge sees them. -/
theorem left_iff {F : DFrame K} {names : List String} {left : List (List String × Nat × List (PyVal K))}
    (h : allSome (F.meta.map fun r => (rowKey F.cols names r.2).map fun k => (k, r)) = some left) :
    left.map (·.2) = F.meta ∧ ∀ (i : Nat) (hi : i < left.length), F.HasKey names i left[i].1 := by
  rw [allSome_iff] at h
  have hlen : F.meta.length = left.length := by simpa using congrArg List.length h
  have hi : ∀ (i : Nat) (h1 : i < F.meta.length) (h2 : i < left.length), rowKey F.cols names F.meta[i].2 = some left[i].1 ∧ left[i].2 = F.meta[i] := by
    intro i h1 h2
    have := congrArg (·[i]?) h
    simp only [List.getElem?_map, List.getElem?_eq_getElem h1, List.getElem?_eq_getElem h2, Option.map_some, Option.some.injEq] at this
    cases hk : rowKey F.cols names F.meta[i].2 with
    | none => rw [hk] at this; simp at this
    | some k =>
      rw [hk] at this
      simp only [Option.map_some, Option.some.injEq] at this
      rw [← this]
      exact ⟨rfl, rfl⟩
  constructor
  · refine List.ext_getElem (by simpa using hlen.symm) fun i h1 h2 => ?_
    rw [List.getElem_map]
    exact (hi i h2 (by simpa using h1)).2
  · intro i h2
    have := rowKey_iff.1 (hi i (by omega) h2).1
    unfold DFrame.HasKey DFrame.metaAt
    rw [List.getElem?_eq_getElem (show i < F.meta.length by omega)]
    exact this

theorem HasKey.unique {F : DFrame K} {names : List String} {i : Nat} {k k' : List String} (h : F.HasKey names i k)
    (h' : F.HasKey names i k') : k = k' := by
  have := h.symm.trans h'
  have hinj : Function.Injective (PyVal.str : String → PyVal K) := fun a b hab => by cases hab; rfl
  exact List.map_injective_iff.2 hinj this

variable [CharZero K]

/-- What a row of the merged table has. -/
theorem merged_row {cols : List String} {name : String} (hn : name ∉ cols) (hr : ∀ c ∈ requiredCols, c ∈ cols)
    {row : List (PyVal K)} (hl : row.length = cols.length) (v : PyVal K) (c : String) :
    rowVal (sortedCols (cols ++ [name])) (selectCols (cols ++ [name]) (sortedCols (cols ++ [name])) (row ++ [v])) c =
      if c = name then v else rowVal cols row c := by
  rw [rowVal_select (by simp [hl]) fun c => sortedCols_mem fun d hd => List.mem_append_left _ (hr d hd)]
  split
  · rename_i h
    subst h
    unfold rowVal
    rw [List.idxOf_append_of_notMem hn]
    simp [← hl]
  · rename_i h
    by_cases hm : c ∈ cols
    · unfold rowVal
      rw [List.idxOf_append_of_mem hm, List.getD_eq_getElem?_getD, List.getD_eq_getElem?_getD,
        List.getElem?_append_left (by rw [hl]; exact List.idxOf_lt_length_of_mem hm)]
    · rw [rowVal_absent hl hm, rowVal_absent (by simp [hl]) (by simp [hm, h])]

theorem mergedTable_ok {κ : Type} {F : DFrame K} {name : String} (hn : name ∉ F.cols)
    {rows : List (κ × Option (Nat × List (PyVal K)) × PyVal K)} {empty : κ → List (PyVal K)} {T : MetaTable K}
    (h : mergedTable F name rows empty = .ok T) :
    T = { cols := sortedCols (F.cols ++ [name])
          rows := rows.map fun x => match x.2.1 with
            | some r => (some r.1, selectCols (F.cols ++ [name]) (sortedCols (F.cols ++ [name])) (r.2 ++ [x.2.2]))
            | none => (none, selectCols (F.cols ++ [name]) (sortedCols (F.cols ++ [name])) (empty x.1 ++ [x.2.2])) } := by
  unfold mergedTable mergedCols at h
  simp only [if_neg hn] at h
  split at h
  · cases h
  · split at h
    · cases h
    · exact (Except.ok.inj h).symm

/-- Rows of the merge that come from timeseries. -/
theorem rowOf_of {κ : Type} {F : DFrame K} (hF : F.Ok) (hr : ∀ c ∈ requiredCols, c ∈ F.cols) {name : String} (hn : name ∉ F.cols)
    {rows : List (κ × Option (Nat × List (PyVal K)) × PyVal K)} {empty : κ → List (PyVal K)} {T : MetaTable K}
    (h : mergedTable F name rows empty = .ok T) {j i : Nat} {k : κ} {r : Nat × List (PyVal K)} {v : PyVal K}
    (hj : rows[j]? = some (k, some r, v)) (hi : F.meta[i]? = some r) : T.RowOf F name j i v := by
  rw [mergedTable_ok hn h]
  have hl := hF.meta_len r (List.mem_of_getElem? hi)
  refine ⟨(List.getElem?_eq_some_iff.1 hi).1, r, selectCols (F.cols ++ [name]) (sortedCols (F.cols ++ [name])) (r.2 ++ [v]), hi, ?_, ?_, ?_, ?_⟩
  · simp only [List.getElem?_map, hj, Option.map_some]
  · simp [selectCols]
  · intro c hc
    simp only
    rw [merged_row hn hr hl, if_neg hc]
    unfold DFrame.metaAt
    rw [hi]
  · simp only
    rw [merged_row hn hr hl, if_pos rfl]

/-- Which keys the merge knows. -/
theorem mem_left {F : DFrame K} {names : List String} {left : List (List String × Nat × List (PyVal K))}
    (h : allSome (F.meta.map fun r => (rowKey F.cols names r.2).map fun k => (k, r)) = some left) {k : List String}
    {r : Nat × List (PyVal K)} : (k, r) ∈ left ↔ ∃ i : Nat, F.meta[i]? = some r ∧ F.HasKey names i k := by
  obtain ⟨h1, h2⟩ := left_iff h
  constructor
  · intro hm
    obtain ⟨i, hi, he⟩ := List.getElem_of_mem hm
    refine ⟨i, ?_, ?_⟩
    · rw [← h1, List.getElem?_map, List.getElem?_eq_getElem hi, he]
      rfl
    · have := h2 i hi
      rw [he] at this
      exact this
  · rintro ⟨i, hi, hk⟩
    rw [← h1, List.getElem?_map] at hi
    cases hl : left[i]? with
    | none => rw [hl] at hi; cases hi
    | some x =>
      rw [hl] at hi
      obtain ⟨hlt, he⟩ := List.getElem?_eq_some_iff.1 hl
      have hk' := h2 i hlt
      rw [he] at hk'
      have e1 := HasKey.unique hk hk'
      have e2 : x.2 = r := Option.some.inj hi
      rw [e1, ← e2]
      exact List.mem_of_getElem? hl

/-! ## C69 -/

theorem setMetaBy_parts {F : DFrame K} {names : List String} {name : String} {entries : List (List String × PyVal K)}
    {T : MetaTable K} (h : F.setMetaBy names name entries = .ok T) :
    ∃ left empty, (∀ k, (empty k).length = F.cols.length) ∧
      allSome (F.meta.map fun r => (rowKey F.cols names r.2).map fun k => (k, r)) = some left ∧
      mergedTable F name (mergeOuter left entries) empty = .ok T := by
  unfold DFrame.setMetaBy at h
  split at h
  · cases h
  split at h
  · cases h
  split at h
  · cases h
  split at h
  · cases h
  split at h
  · cases h
  · rename_i left hleft
    exact ⟨left, _, fun k => by simp, hleft, h⟩

/-- C69: the metadata afterwards has a row for each timeseries and each value with its key (NaN if there is none) that
is the metadata of the timeseries with the value, rows for the keys that no timeseries has, and no others. -/
theorem C69_rows {F : DFrame K} (hF : F.Ok) (hr : ∀ c ∈ requiredCols, c ∈ F.cols) {names : List String} {name : String}
    {entries : List (List String × PyVal K)} {T : MetaTable K} (hn : name ∉ F.cols) (h : F.setMetaBy names name entries = .ok T) :
    (∀ i < F.meta.length, ∃ k, F.HasKey names i k) ∧
    (∀ (i : Nat) k v, i < F.meta.length → F.HasKey names i k → ListedValue entries k v → ∃ j, T.RowOf F name j i v) ∧
    (∀ j < T.rows.length, (∃ i k v, T.RowOf F name j i v ∧ F.HasKey names i k ∧ ListedValue entries k v) ∨
      ∃ row k v, T.rows[j]? = some (none, row) ∧ (k, v) ∈ entries ∧ (∀ i < F.meta.length, ¬ F.HasKey names i k) ∧
        rowVal T.cols row name = v) ∧
    ∀ k v, (k, v) ∈ entries → (∀ i < F.meta.length, ¬ F.HasKey names i k) →
      ∃ (j : Nat) (row : List (PyVal K)), T.rows[j]? = some (none, row) ∧ rowVal T.cols row name = v := by
  obtain ⟨left, empty, hempty, hleft, hT⟩ := setMetaBy_parts h
  obtain ⟨hl1, hl2⟩ := left_iff hleft
  have hlen : left.length = F.meta.length := by simpa using congrArg List.length hl1
  have hT' := mergedTable_ok hn hT
  have hnone : ∀ (j : Nat) k v, (mergeOuter left entries)[j]? = some (k, none, v) →
      ∃ row, T.rows[j]? = some (none, row) ∧ rowVal T.cols row name = v := by
    intro j k v hj
    have hm := List.mem_of_getElem? hj
    refine ⟨selectCols (F.cols ++ [name]) (sortedCols (F.cols ++ [name])) (empty k ++ [v]), ?_, ?_⟩
    · rw [hT']
      simp only [List.getElem?_map, hj, Option.map_some]
    · rw [hT']
      simp only
      rw [merged_row hn hr (hempty k), if_pos rfl]
  refine ⟨fun i hi => ⟨_, hl2 i (by omega)⟩, ?_, ?_, ?_⟩
  · intro i k v hi hk hg
    have hm : (k, F.meta[i]) ∈ left := (mem_left hleft).2 ⟨i, List.getElem?_eq_getElem hi, hk⟩
    have : (k, some F.meta[i], v) ∈ mergeOuter left entries := mem_mergeOuter.2 (.inl ⟨_, hm, rfl, hg⟩)
    obtain ⟨j, hj⟩ := List.mem_iff_getElem?.1 this
    exact ⟨j, rowOf_of hF hr hn hT hj (List.getElem?_eq_getElem hi)⟩
  · intro j hj
    have hj' : j < (mergeOuter left entries).length := by rw [hT'] at hj; simpa using hj
    have hx := List.getElem?_eq_getElem hj'
    generalize (mergeOuter left entries)[j] = x at hx
    obtain ⟨k, r, v⟩ := x
    rcases mem_mergeOuter.1 (List.mem_of_getElem? hx) with ⟨r', h1, h2, h3⟩ | ⟨h1, h2, h3⟩
    · simp only at h1 h2 h3
      subst h2
      obtain ⟨i, hi, hk⟩ := (mem_left hleft).1 h1
      exact .inl ⟨i, k, v, rowOf_of hF hr hn hT hx hi, hk, h3⟩
    · simp only at h1 h2 h3
      subst h2
      obtain ⟨row, hrow, hv⟩ := hnone j k v hx
      refine .inr ⟨row, k, v, hrow, h3, fun i hi hk => ?_, hv⟩
      exact h1 _ ((mem_left hleft).2 ⟨i, List.getElem?_eq_getElem hi, hk⟩)
  · intro k v hm hno
    have : (k, none, v) ∈ mergeOuter left entries := mem_mergeOuter.2 (.inr ⟨fun r hr => by
      obtain ⟨i, hi, hk⟩ := (mem_left hleft).1 hr
      exact hno i (List.getElem?_eq_some_iff.1 hi).1 hk, rfl, hm⟩)
    obtain ⟨j, hj⟩ := List.mem_iff_getElem?.1 this
    exact ⟨j, hnone j k v hj⟩

/-- A table with the row of each timeseries at its position is that of a frame. -/
theorem assigned_of {F : DFrame K} (hF : F.Ok) {name : String} {P : Nat → PyVal K → Prop} {T : MetaTable K} (hc : T.cols.Nodup)
    (hl : T.rows.length = F.meta.length) (h : ∀ i < F.meta.length, ∃ v, T.RowOf F name i i v ∧ P i v) :
    ∃ G, F.withTable T = some G ∧ F.Assigned name P G := by
  have hrow : ∀ (i : Nat) (hi : i < T.rows.length), ∃ r row v, F.meta[i]? = some r ∧ T.rows[i] = (some r.1, row) ∧ row.length = T.cols.length ∧
      (∀ c, c ≠ name → rowVal T.cols row c = F.metaAt i c) ∧ rowVal T.cols row name = v ∧ P i v := by
    intro i hi
    obtain ⟨v, ⟨-, r, row, h1, h2, h3, h4, h5⟩, hp⟩ := h i (by omega)
    exact ⟨r, row, v, h1, Option.some.inj ((List.getElem?_eq_getElem hi).symm.trans h2), h3, h4, h5, hp⟩
  have hsome : allSome (T.rows.map fun r => r.1.map fun l => (l, r.2)) = some (T.rows.map fun r => (r.1.getD 0, r.2)) := by
    rw [allSome_iff, List.map_map]
    refine List.map_congr_left fun x hx => ?_
    obtain ⟨i, hi, rfl⟩ := List.getElem_of_mem hx
    obtain ⟨r, row, v, -, he, -⟩ := hrow i hi
    rw [he]
    rfl
  refine ⟨{ F with cols := T.cols, «meta» := T.rows.map fun r => (r.1.getD 0, r.2) }, by unfold DFrame.withTable; rw [hsome]; rfl, ?_⟩
  have hmeta : ∀ (i : Nat), i < F.meta.length → ∃ r row v, F.meta[i]? = some r ∧
      (T.rows.map fun r => (r.1.getD 0, r.2))[i]? = some (r.1, row) ∧ row.length = T.cols.length ∧
      (∀ c, c ≠ name → rowVal T.cols row c = F.metaAt i c) ∧ rowVal T.cols row name = v ∧ P i v := by
    intro i hi
    obtain ⟨r, row, v, h1, h2, h3⟩ := hrow i (by omega)
    refine ⟨r, row, v, h1, ?_, h3⟩
    rw [List.getElem?_map, List.getElem?_eq_getElem (show i < T.rows.length by omega), h2]
    rfl
  constructor
  · constructor
    · simp only
      rw [hF.labels, List.map_map]
      refine List.ext_getElem (by simp [hl]) fun i h1 h2 => ?_
      simp only [List.length_map] at h1 h2
      obtain ⟨r, row, v, e1, e2, -⟩ := hrow i h2
      rw [List.getElem_map, List.getElem_map, Function.comp_apply, e2, (List.getElem?_eq_some_iff.1 e1).2]
      rfl
    · exact hF.nodup
    · exact hc
    · exact hF.data_len
    · intro r hr
      obtain ⟨i, hi, rfl⟩ := List.getElem_of_mem hr
      simp only [List.length_map] at hi
      obtain ⟨r, row, v, -, e2, e3, -⟩ := hrow i hi
      simp only [List.getElem_map, e2]
      exact e3
  · rfl
  · rfl
  · intro i c hcn
    by_cases hi : i < F.meta.length
    · obtain ⟨r, row, v, e1, e2, e3, e4, e5⟩ := hmeta i hi
      rw [metaAt_eq e2]
      exact e4 c hcn
    · unfold DFrame.metaAt
      simp only
      rw [List.getElem?_eq_none (by simpa [hl] using hi), List.getElem?_eq_none (by simpa using hi)]
  · intro i hi
    obtain ⟨r, row, v, e1, e2, e3, e4, e5, e6⟩ := hmeta i hi
    rw [metaAt_eq e2, e5]
    exact e6

theorem rows_of_labels {κ : Type} {F : DFrame K} (hF : F.Ok) (hr : ∀ c ∈ requiredCols, c ∈ F.cols) {name : String} (hn : name ∉ F.cols)
    {rows : List (κ × Option (Nat × List (PyVal K)) × PyVal K)} {empty : κ → List (PyVal K)} {T : MetaTable K}
    (h : mergedTable F name rows empty = .ok T) (hrows : rows.map (·.2.1) = F.meta.map some) {P : Nat → PyVal K → Prop}
    (hP : ∀ (i : Nat) k r v, rows[i]? = some (k, some r, v) → F.meta[i]? = some r → P i v) :
    ∃ G, F.withTable T = some G ∧ F.Assigned name P G := by
  have hlen : rows.length = F.meta.length := by simpa using congrArg List.length hrows
  have hT := mergedTable_ok hn h
  refine assigned_of hF ?_ ?_ fun i hi => ?_
  · rw [hT]
    refine sortedCols_nodup ?_
    rw [List.nodup_append]
    refine ⟨hF.cols_nodup, by simp, fun a ha b hb he => ?_⟩
    rw [List.mem_singleton] at hb
    exact hn (hb ▸ he ▸ ha)
  · rw [hT]
    simpa using hlen
  · have hi' : i < rows.length := by omega
    have he := congrArg (·[i]?) hrows
    simp only [List.getElem?_map, List.getElem?_eq_getElem hi, List.getElem?_eq_getElem hi', Option.map_some, Option.some.injEq] at he
    have hx : rows[i]? = some (rows[i].1, some F.meta[i], rows[i].2.2) := by
      rw [List.getElem?_eq_getElem hi', ← he]
    exact ⟨rows[i].2.2, rowOf_of hF hr hn h hx (List.getElem?_eq_getElem hi), hP i _ _ _ hx (List.getElem?_eq_getElem hi)⟩

/-- The keys of the timeseries in their order. -/
def DFrame.KeysAre (F : DFrame K) (names : List String) (keys : List (List String)) : Prop :=
  keys.length = F.meta.length ∧ ∀ (i : Nat) (k : List String), keys[i]? = some k → F.HasKey names i k

theorem keys_left {F : DFrame K} {names : List String} {keys : List (List String)} (h : F.KeysAre names keys) :
    allSome (F.meta.map fun r => (rowKey F.cols names r.2).map fun k => (k, r)) = some (keys.zip F.meta) := by
  rw [allSome_iff]
  refine List.ext_getElem (by simp [h.1]) fun i h1 h2 => ?_
  simp only [List.length_map] at h1 h2
  have hk : i < keys.length := by rw [h.1]; exact h1
  have hkey := h.2 i _ (List.getElem?_eq_getElem hk)
  unfold DFrame.HasKey at hkey
  rw [metaAt_eq (List.getElem?_eq_getElem h1), ← rowKey_iff] at hkey
  simp [hkey]

theorem zip_keys {F : DFrame K} {names : List String} {keys : List (List String)} (h : F.KeysAre names keys) :
    (keys.zip F.meta).map (·.1) = keys ∧ (keys.zip F.meta).map (·.2) = F.meta :=
  ⟨List.map_fst_zip h.1.le, List.map_snd_zip h.1.ge⟩

/-- What `set_meta` is asked to do with an index: a new column, an index of columns the frame has, and keys that are strings. -/
structure DFrame.Asked (F : DFrame K) (names : List String) (name : String) (keys : List (List String)) : Prop where
  ok : F.Ok
  required : ∀ c ∈ requiredCols, c ∈ F.cols
  name_ne : name ≠ ""
  name_new : name ∉ F.cols
  name_index : name ≠ "index"
  index_free : "index" ∉ F.cols
  names_ne : names ≠ []
  names_nodup : names.Nodup
  names_cols : ∀ c ∈ names, c ∈ F.cols
  keys : F.KeysAre names keys

theorem asked_ok {F : DFrame K} {names : List String} {name : String} {keys : List (List String)} (h : F.Asked names name keys)
    (entries : List (List String × PyVal K)) : ∃ T empty, F.setMetaBy names name entries = .ok T ∧
      mergedTable F name (mergeOuter (keys.zip F.meta) entries) empty = .ok T := by
  unfold DFrame.setMetaBy
  rw [if_neg h.name_ne, if_neg (by simpa using h.names_cols), if_neg fun hm => h.name_new (h.names_cols _ hm),
    if_neg (by simp only [h.names_ne, h.names_nodup, h.name_index, h.index_free, not_true_eq_false, or_self, not_false_eq_true]),
    keys_left h.keys]
  simp only
  have : ∀ empty, ∃ T, mergedTable F name (mergeOuter (keys.zip F.meta) entries) empty = .ok T := by
    intro empty
    unfold mergedTable mergedCols
    rw [if_neg h.name_new, if_neg (not_not.2 fun c hc => List.mem_append_left _ (h.required c hc)), if_neg (not_not.2 ?_)]
    · exact ⟨_, rfl⟩
    · rw [List.nodup_append]
      refine ⟨h.ok.cols_nodup, by simp, fun a ha b hb he => ?_⟩
      rw [List.mem_singleton] at hb
      exact h.name_new (hb ▸ he ▸ ha)
  obtain ⟨T, hT⟩ := this _
  exact ⟨T, _, hT, hT⟩

/-- C69, what is missing: if the keys of the index are distinct keys of timeseries and the timeseries are sorted by key
(or the index is empty or is that of the timeseries in the same order), then every timeseries keeps its values and its
metadata, and the new column has the value with its key, or NaN if there is none. Otherwise see `C69_swapped`, `C69_more`. -/
theorem C69_set_partial {F : DFrame K} {names : List String} {name : String} {keys : List (List String)}
    (h : F.Asked names name keys) {entries : List (List String × PyVal K)} (hd : (entries.map (·.1)).Nodup)
    (ho : ∀ e ∈ entries, e.1 ∈ keys) (hs : entries = [] ∨ keys = entries.map (·.1) ∨ keys.Pairwise (· ≤ ·)) :
    ∃ T G, F.setMetaBy names name entries = .ok T ∧ F.withTable T = some G ∧
      F.Assigned name (fun i v => ∃ k, keys[i]? = some k ∧ ListedValue entries k v) G := by
  obtain ⟨T, empty, hT, hm⟩ := asked_ok h entries
  obtain ⟨hk, hr⟩ := zip_keys h.keys
  have horder := merge_order (left := keys.zip F.meta) (right := entries) hd (by rw [hk]; exact ho) (by rw [hk]; exact hs)
  have h2 : (mergeOuter (keys.zip F.meta) entries).map (·.2.1) = F.meta.map some := by
    have := congrArg (List.map Prod.snd) horder
    rw [List.map_map, List.map_map] at this
    rw [show (mergeOuter (keys.zip F.meta) entries).map (·.2.1) = _ from this]
    conv_rhs => rw [← hr, List.map_map]
    rfl
  obtain ⟨G, hG, ha⟩ := rows_of_labels (P := fun i v => ∃ k, keys[i]? = some k ∧ ListedValue entries k v) h.ok h.required h.name_new hm h2
    fun i k r v hx _ => by
      have hik := congrArg (·[i]?) horder
      simp only [List.getElem?_map, hx, Option.map_some] at hik
      cases hz : (keys.zip F.meta)[i]? with
      | none => rw [hz] at hik; cases hik
      | some z =>
        rw [hz] at hik
        have e1 : k = z.1 := congrArg Prod.fst (Option.some.inj hik)
        refine ⟨k, ?_, ?_⟩
        · have := congrArg (·[i]?) hk
          simp only [List.getElem?_map, hz, Option.map_some] at this
          rw [← this, e1]
        · rcases mem_mergeOuter.1 (List.mem_of_getElem? hx) with ⟨-, -, -, hg⟩ | ⟨-, h0, -⟩
          · exact hg
          · cases h0
  exact ⟨T, G, hT, hG, ha⟩

/-- C69, exactly: with distinct keys of timeseries, the timeseries keep their metadata if and only if there is nothing to sort. -/
theorem C69_exact {F : DFrame K} {names : List String} {name : String} {keys : List (List String)}
    (h : F.Asked names name keys) {entries : List (List String × PyVal K)} (hd : (entries.map (·.1)).Nodup)
    (ho : ∀ e ∈ entries, e.1 ∈ keys) :
    (∃ T G, F.setMetaBy names name entries = .ok T ∧ F.withTable T = some G ∧
      F.Assigned name (fun i v => ∃ k, keys[i]? = some k ∧ ListedValue entries k v) G) ↔
    entries = [] ∨ keys = entries.map (·.1) ∨ keys.Pairwise (· ≤ ·) := by
  refine ⟨?_, C69_set_partial h hd ho⟩
  rintro ⟨T, G, hT, hG, ha⟩
  obtain ⟨T', empty, hT', hm⟩ := asked_ok h entries
  cases hT.symm.trans hT'
  obtain ⟨hk, hr⟩ := zip_keys h.keys
  have hlabels : G.meta.map (·.1) = F.meta.map (·.1) := by
    rw [← ha.ok.labels, ha.data, h.ok.labels]
  have hTrows : T.rows.map (·.1) = F.meta.map fun r => some r.1 := by
    unfold DFrame.withTable at hG
    cases hrows : allSome (T.rows.map fun r => r.1.map fun l => (l, r.2)) with
    | none => rw [hrows] at hG; cases hG
    | some rows =>
      rw [hrows] at hG
      cases hG
      rw [allSome_iff] at hrows
      have := congrArg (List.map (Option.map Prod.fst)) hrows
      rw [List.map_map, List.map_map] at this
      have e : F.meta.map (fun r => some r.1) = (F.meta.map (·.1)).map some := by rw [List.map_map]; rfl
      rw [e, ← hlabels, List.map_map]
      rw [show rows.map (some ∘ Prod.fst) = rows.map (Option.map Prod.fst ∘ some) from rfl, ← this]
      refine List.map_congr_left fun ⟨l, row⟩ _ => ?_
      cases l <;> rfl
  have hmerge : (mergeOuter (keys.zip F.meta) entries).map (fun x => x.2.1.map (·.1)) = F.meta.map fun r => some r.1 := by
    rw [← hTrows, mergedTable_ok h.name_new hm]
    simp only
    rw [List.map_map]
    refine List.map_congr_left fun x _ => ?_
    simp only [Function.comp_apply]
    cases x.2.1 <;> rfl
  have hnd : (F.meta.map (·.1)).Nodup := h.ok.labels ▸ h.ok.nodup
  have h2 : (mergeOuter (keys.zip F.meta) entries).map (·.2.1) = (keys.zip F.meta).map fun x => some x.2 := by
    rw [show (keys.zip F.meta).map (fun x => some x.2) = F.meta.map some by
      conv_rhs => rw [← hr, List.map_map]
      rfl]
    have hlen : (mergeOuter (keys.zip F.meta) entries).length = F.meta.length := by simpa using congrArg List.length hmerge
    refine List.ext_getElem (by simpa using hlen) fun i h1 h2 => ?_
    simp only [List.length_map] at h1 h2
    have hi := congrArg (·[i]?) hmerge
    simp only [List.getElem?_map, List.getElem?_eq_getElem h1, List.getElem?_eq_getElem h2, Option.map_some, Option.some.injEq] at hi
    simp only [List.getElem_map]
    rcases mem_mergeOuter.1 (List.getElem_mem h1) with ⟨r, hrm, he, -⟩ | ⟨-, he, -⟩
    · rw [he] at hi ⊢
      have hrF : r ∈ F.meta := by rw [← hr]; exact List.mem_map.2 ⟨_, hrm, rfl⟩
      obtain ⟨j, hj, hej⟩ := List.getElem_of_mem hrF
      have : j = i := (List.Nodup.getElem_inj_iff hnd (i := j) (j := i) (hi := by simpa) (hj := by simpa)).1 (by
        simp only [List.getElem_map, hej]
        exact Option.some.inj hi)
      subst this
      rw [hej]
    · rw [he] at hi
      cases hi
  rcases merge_sorted (by rw [hr]; exact List.Nodup.of_map _ hnd) h2 with h' | h' | h'
  · exact .inl h'
  · exact .inr (.inl (hk ▸ h'.1))
  · exact .inr (.inr (hk ▸ h'))

/-- C69: with an index of distinct positions, every timeseries keeps its values and its metadata, and the new column has
the value with its position, or NaN if there is none. -/
theorem C69_positions {F : DFrame K} (hF : F.Ok) (hr : ∀ c ∈ requiredCols, c ∈ F.cols) {name : String} (h0 : name ≠ "")
    (hn : name ∉ F.cols) (hi : name ≠ "index") (hni : "index" ∉ F.cols) {entries : List (Int × PyVal K)}
    (hd : (entries.map (·.1)).Nodup) (ho : ∀ e ∈ entries, 0 ≤ e.1 ∧ e.1 < F.meta.length) :
    ∃ T G, F.setMetaAt name entries = .ok T ∧ F.withTable T = some G ∧ F.Assigned name (fun i v => ListedValue entries (i : Int) v) G := by
  have hleft : (F.meta.zipIdx.map fun x => ((x.2 : Int), x.1)).map (·.1) = (List.range F.meta.length).map fun n : Nat => (n : Int) := by
    rw [List.map_map]
    refine List.ext_getElem (by simp) fun i h1 h2 => by simp
  have hright : (F.meta.zipIdx.map fun x => ((x.2 : Int), x.1)).map (·.2) = F.meta := by
    rw [List.map_map]
    refine List.ext_getElem (by simp) fun i h1 h2 => by simp
  have hT : ∃ T, F.setMetaAt name entries = .ok T ∧ mergedTable F name (mergeOuter (F.meta.zipIdx.map fun x => ((x.2 : Int), x.1)) entries)
      (fun _ => F.cols.map fun _ => .flt .nan) = .ok T := by
    unfold DFrame.setMetaAt
    rw [if_neg h0, if_neg (by simp only [hi, hni, or_self, not_false_eq_true])]
    have : ∃ T, mergedTable F name (mergeOuter (F.meta.zipIdx.map fun x => ((x.2 : Int), x.1)) entries)
        (fun _ => F.cols.map fun _ => .flt .nan) = .ok T := by
      unfold mergedTable mergedCols
      rw [if_neg hn, if_neg (not_not.2 fun c hc => List.mem_append_left _ (hr c hc)), if_neg (not_not.2 ?_)]
      · exact ⟨_, rfl⟩
      · rw [List.nodup_append]
        refine ⟨hF.cols_nodup, by simp, fun a ha b hb he => ?_⟩
        rw [List.mem_singleton] at hb
        exact hn (hb ▸ he ▸ ha)
    obtain ⟨T, hT⟩ := this
    exact ⟨T, hT, hT⟩
  obtain ⟨T, hT, hm⟩ := hT
  have horder := merge_order (left := F.meta.zipIdx.map fun x => ((x.2 : Int), x.1)) (right := entries) hd
    (by
      rw [hleft]
      intro x hx
      obtain ⟨h1, h2⟩ := ho x hx
      exact List.mem_map.2 ⟨x.1.toNat, List.mem_range.2 (by omega), by omega⟩)
    (by
      rw [hleft]
      refine .inr (.inr ?_)
      rw [List.pairwise_map]
      exact List.pairwise_lt_range.imp fun h => by omega)
  have h2 : (mergeOuter (F.meta.zipIdx.map fun x => ((x.2 : Int), x.1)) entries).map (·.2.1) = F.meta.map some := by
    have := congrArg (List.map Prod.snd) horder
    rw [List.map_map, List.map_map] at this
    rw [show (mergeOuter (F.meta.zipIdx.map fun x => ((x.2 : Int), x.1)) entries).map (·.2.1) = _ from this]
    conv_rhs => rw [← hright, List.map_map]
    rfl
  obtain ⟨G, hG, ha⟩ := rows_of_labels (P := fun i v => ListedValue entries (i : Int) v) hF hr hn hm h2
    fun i k r v hx _ => by
      have hik := congrArg (·[i]?) horder
      simp only [List.getElem?_map, hx, Option.map_some] at hik
      cases hz : F.meta.zipIdx[i]? with
      | none => rw [hz] at hik; cases hik
      | some z =>
        rw [hz] at hik
        have e1 : k = (z.2 : Int) := congrArg Prod.fst (Option.some.inj hik)
        have e2 : z.2 = i := by
          rw [List.getElem?_zipIdx] at hz
          cases hmi : F.meta[i]? with
          | none => rw [hmi] at hz; cases hz
          | some y =>
            rw [hmi] at hz
            have := Option.some.inj hz
            rw [← this]
            simp
        rcases mem_mergeOuter.1 (List.mem_of_getElem? hx) with ⟨-, -, -, hg⟩ | ⟨-, h0, -⟩
        · rw [e1, e2] at hg
          exact hg
        · cases h0
  exact ⟨T, G, hT, hG, ha⟩

/-- C69: no name is a `ValueError`, an index over a column that the frame does not have a `KeyError`, and a column that
is in the index a `ValueError`. -/
theorem C69_refused {F : DFrame K} {names : List String} {name : String} {entries : List (List String × PyVal K)} :
    (name = "" → F.setMetaBy names name entries = .error .valueError) ∧
    (name ≠ "" → (∃ c ∈ names, c ∉ F.cols) → F.setMetaBy names name entries = .error .keyError) ∧
    (name ≠ "" → (∀ c ∈ names, c ∈ F.cols) → name ∈ names → F.setMetaBy names name entries = .error .valueError) := by
  refine ⟨fun h => ?_, fun h0 ⟨c, hc, hn⟩ => ?_, fun h0 hc hn => ?_⟩
  · unfold DFrame.setMetaBy
    rw [if_pos h]
  · unfold DFrame.setMetaBy
    rw [if_neg h0, if_pos fun hall => hn (hall c hc)]
  · unfold DFrame.setMetaBy
    rw [if_neg h0, if_neg (not_not.2 hc), if_pos hn]

/-! ## Concrete frames -/

/-- Timeseries of two scenarios. -/
def scenariosF (s t : String) : DFrame ℚ :=
  { times := [0], cols := requiredCols, data := [(0, [.num 1]), (1, [.num 2])]
    «meta» := [(0, [.str "m", .str s, .str "World", .str "v", .str "K"]), (1, [.str "m", .str t, .str "World", .str "v", .str "K"])] }

theorem scenariosF_ok (s t : String) : (scenariosF s t).Ok where
  labels := rfl
  nodup := by change [0, 1].Nodup; decide +kernel
  cols_nodup := by change requiredCols.Nodup; decide +kernel
  data_len := by
    intro d hd
    rcases List.mem_cons.1 hd with rfl | hd
    · rfl
    · rw [List.mem_singleton.1 hd]
      rfl
  meta_len := by
    intro d hd
    rcases List.mem_cons.1 hd with rfl | hd
    · rfl
    · rw [List.mem_singleton.1 hd]
      rfl

theorem scenariosF_asked (s t : String) : (scenariosF s t).Asked ["scenario"] "e" [[s], [t]] where
  ok := scenariosF_ok s t
  required := fun _ h => h
  name_ne := by decide +kernel
  name_new := by change "e" ∉ requiredCols; decide +kernel
  name_index := by decide +kernel
  index_free := by change "index" ∉ requiredCols; decide +kernel
  names_ne := by decide +kernel
  names_nodup := by decide +kernel
  names_cols := by change ∀ c ∈ ["scenario"], c ∈ requiredCols; decide +kernel
  keys := by
    refine ⟨rfl, fun i k h => ?_⟩
    match i, h with
    | 0, h => cases h; rfl
    | 1, h => cases h; rfl

example : ∃ T G, (scenariosF "a" "b").setMetaBy ["scenario"] "e" [(["b"], .int 7)] = .ok T ∧ (scenariosF "a" "b").withTable T = some G ∧
    (scenariosF "a" "b").Assigned "e" (fun i v => ∃ k, [["a"], ["b"]][i]? = some k ∧ ListedValue [(["b"], .int 7)] k v) G :=
  C69_set_partial (scenariosF_asked "a" "b") (by decide +kernel) (by decide +kernel) (.inr (.inr (by decide +kernel)))

example : ¬ ∃ T G, (scenariosF "b" "a").setMetaBy ["scenario"] "e" [(["b"], .int 7)] = .ok T ∧ (scenariosF "b" "a").withTable T = some G ∧
    (scenariosF "b" "a").Assigned "e" (fun i v => ∃ k, [["b"], ["a"]][i]? = some k ∧ ListedValue [(["b"], .int 7)] k v) G := by
  rw [C69_exact (scenariosF_asked "b" "a") (by decide +kernel) (by decide +kernel)]
  decide +kernel

example : ∃ T G, (scenariosF "b" "a").setMetaAt "e" [(1, .int 7)] = .ok T ∧ (scenariosF "b" "a").withTable T = some G ∧
    (scenariosF "b" "a").Assigned "e" (fun i v => ListedValue [(1, .int 7)] (i : Int) v) G :=
  C69_positions (scenariosF_ok "b" "a") (fun _ h => h) (by decide +kernel) (by decide +kernel) (by decide +kernel) (by decide +kernel)
    (by decide +kernel) (by decide +kernel)

example := C69_rows (scenariosF_ok "b" "a") (fun _ h => h) (names := ["scenario"]) (name := "e")
  (entries := [(["b"], .int 7), (["z"], .int 8)]) (by decide +kernel) (T := { cols := requiredCols ++ ["e"], rows :=
    [(some 1, [.str "m", .str "a", .str "World", .str "v", .str "K", .flt .nan]),
     (some 0, [.str "m", .str "b", .str "World", .str "v", .str "K", .int 7]),
     (none, [.flt .nan, .str "z", .flt .nan, .flt .nan, .flt .nan, .int 8])] }) (by decide +kernel)

/-- Afterwards, `timeseries()` shows the values of scenario `b` as those of `a`, and those of `a` as those of `b`. -/
theorem C69_swapped : ∃ T G, (scenariosF "b" "a").setMetaBy ["scenario"] "e" [(["a"], .int 7), (["b"], .int 8)] = .ok T ∧
    (scenariosF "b" "a").withTable T = some G ∧
    (scenariosF "b" "a").timeseries = .ok [([.str "m", .str "b", .str "World", .str "v", .str "K"], [.num 1]),
      ([.str "m", .str "a", .str "World", .str "v", .str "K"], [.num 2])] ∧
    G.timeseries = .ok [([.str "m", .str "a", .str "World", .str "v", .str "K", .int 7], [.num 1]),
      ([.str "m", .str "b", .str "World", .str "v", .str "K", .int 8], [.num 2])] := by
  refine ⟨{ cols := requiredCols ++ ["e"], rows :=
    [(some 1, [.str "m", .str "a", .str "World", .str "v", .str "K", .int 7]),
     (some 0, [.str "m", .str "b", .str "World", .str "v", .str "K", .int 8])] },
    { (scenariosF "b" "a") with
      cols := requiredCols ++ ["e"]
      «meta» := [(1, [.str "m", .str "a", .str "World", .str "v", .str "K", .int 7]),
        (0, [.str "m", .str "b", .str "World", .str "v", .str "K", .int 8])] }, ?_, ?_, ?_, ?_⟩ <;> decide +kernel

/-- A key that no timeseries has makes metadata of no timeseries, and one that is listed twice makes two rows. -/
theorem C69_more : (∃ T, (scenariosF "a" "b").setMetaBy ["scenario"] "e" [(["z"], .int 7)] = .ok T ∧ T.rows.length = 3 ∧
      (scenariosF "a" "b").withTable T = none) ∧
    ∃ T, (scenariosF "a" "b").setMetaBy ["scenario"] "e" [(["a"], .int 7), (["a"], .int 8)] = .ok T ∧ T.rows.map (·.1) = [some 0, some 0, some 1] := by
  refine ⟨⟨{ cols := requiredCols ++ ["e"], rows :=
    [(some 0, [.str "m", .str "a", .str "World", .str "v", .str "K", .flt .nan]),
     (some 1, [.str "m", .str "b", .str "World", .str "v", .str "K", .flt .nan]),
     (none, [.flt .nan, .str "z", .flt .nan, .flt .nan, .flt .nan, .int 7])] }, ?_, ?_, ?_⟩,
    { cols := requiredCols ++ ["e"], rows :=
    [(some 0, [.str "m", .str "a", .str "World", .str "v", .str "K", .int 7]),
     (some 0, [.str "m", .str "a", .str "World", .str "v", .str "K", .int 8]),
     (some 1, [.str "m", .str "b", .str "World", .str "v", .str "K", .flt .nan])] }, ?_, ?_⟩ <;> decide +kernel

/-- A column that exists is not assigned to: a required one is a `KeyError`, any other becomes two columns. -/
theorem C69_existing : (scenariosF "a" "b").setMetaBy ["scenario"] "unit" [(["a"], .str "W")] = .error .keyError ∧
    ∃ T, (oneF [0] [.num 1] "K" [("e", .int 1)]).setMetaBy ["scenario"] "e" [(["s"], .int 2)] = .ok T ∧
      T.cols = requiredCols ++ ["e_x", "e_y"] := by
  refine ⟨by decide +kernel, { cols := requiredCols ++ ["e_x", "e_y"], rows :=
    [(some 0, [.str "m", .str "s", .str "World", .str "v", .str "K", .int 1, .int 2])] }, ?_, ?_⟩ <;> decide +kernel

end Openscm
