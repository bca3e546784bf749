import Verif.Frame
import Verif.FrameLemmas
import Mathlib.Data.List.Sort
import Mathlib.Data.String.Basic
import Mathlib.Algebra.Field.Rat

/-!
# Making frames from arrays (model) and C59

`_from_ts`, `openscm/scmdataframe/base.py:216-267`, and `ScmDataFrameBase.__init__` with `columns`,
`openscm/scmdataframe/base.py:297-395`.

Times are whole seconds since 1970; the array has one row for each time. Columns that are pandas series, which
pandas would align by label, are not modelled.
-/

set_option linter.unusedSectionVars false

namespace Openscm

variable {K : Type} [Field K] [DecidableEq K]

/-- `REQUIRED_COLS`, `openscm/scmdataframe/base.py:42`. -/
def requiredCols : List String := ["model", "scenario", "region", "variable", "unit"]

/-- A value of the dictionary `columns`: a value that is not iterable (or a string), a list or a numpy array. -/
inductive ColArg (K : Type)
  | scalar (v : PyVal K)
  | list (l : List (PyVal K))
  | array (l : List (PyVal K))

def PyVal.isNumber : PyVal K → Bool
  | .int _ => true
  | .flt _ => true
  | _ => false

/-- One round of the loop of `_from_ts`, `openscm/scmdataframe/base.py:250-263`, and what `pd.DataFrame(columns, …)`
makes of the result. An array of length 1 is multiplied, not repeated: arrays of numbers keep the wrong length,
which pandas refuses, and arrays of strings cannot be multiplied. -/
def broadcast (n : Nat) : ColArg K → Except Err (List (PyVal K))
  | .scalar v => .ok (List.replicate n v)
  | .list l => if l.length = n then .ok l else if l.length ≠ 1 then .error .valueError else .ok (List.replicate n l).flatten
  | .array l => if l.length = n then .ok l else if l.length ≠ 1 then .error .valueError
      else if l.all PyVal.isNumber then .error .valueError else .error .typeError

def broadcastAll (n : Nat) : List (String × ColArg K) → Except Err (List (String × List (PyVal K)))
  | [] => .ok []
  | (c, a) :: r =>
    match broadcast n a with
    | .error e => .error e
    | .ok l =>
      match broadcastAll n r with
      | .error e => .error e
      | .ok ls => .ok ((c, l) :: ls)

/-- The column order of `_sort_meta_cols`, `openscm/scmdataframe/base.py:409-413`. -/
def sortedCols (cols : List String) : List String :=
  requiredCols ++ ((cols.filter fun c => c ∉ requiredCols).insertionSort (· ≤ ·))

/-- `meta[new]` for one row. -/
def selectCols (old new : List String) (row : List (PyVal K)) : List (PyVal K) :=
  new.map fun c => row.getD (old.idxOf c) .none

/-- `_sort_meta_cols`, `openscm/scmdataframe/base.py:409-413`, for frames with the required columns. -/
def DFrame.sortMeta (F : DFrame K) : DFrame K :=
  { F with cols := sortedCols F.cols, «meta» := F.meta.map fun r => (r.1, selectCols F.cols (sortedCols F.cols) r.2) }

/-- The constructor with `columns`: `_from_ts` and `openscm/scmdataframe/base.py:388-395`. `n` is the number of
columns of the array. -/
def fromTs (n : Nat) (array : List (List (Fl K))) (times : List Int) (columns : List (String × ColArg K)) :
    Except Err (DFrame K) :=
  if array.length ≠ times.length then .error .valueError
  else if ¬ ∀ c ∈ requiredCols, c ∈ columns.map (·.1) then .error .valueError
  else
    match broadcastAll n columns with
    | .error e => .error e
    | .ok cs =>
      .ok (DFrame.sortMeta
        { times := times, cols := cs.map (·.1)
          data := (List.range n).map fun i => (i, array.map fun row => row.getD i .nan)
          «meta» := (List.range n).map fun i => (i, cs.map fun c => c.2.getD i .none) })

/-! ## C59: specification -/

/-- The value that an entry of the dictionary lists for timeseries `i` of `n`. -/
inductive Lists (n : Nat) (i : Nat) : ColArg K → PyVal K → Prop
  | scalar (v : PyVal K) : Lists n i (.scalar v) v
  | one (v : PyVal K) : Lists n i (.list [v]) v
  | each {l : List (PyVal K)} {v : PyVal K} : l.length = n → l[i]? = some v → Lists n i (.list l) v
  | eachArray {l : List (PyVal K)} {v : PyVal K} : l.length = n → l[i]? = some v → Lists n i (.array l) v

/-- Column `c` of the metadata of the timeseries at position `i` is `v`. -/
def DFrame.HasMeta (F : DFrame K) (i : Nat) (c : String) (v : PyVal K) : Prop :=
  ∃ (j : Nat) (r : Nat × List (PyVal K)), F.cols[j]? = some c ∧ F.meta[i]? = some r ∧ r.2[j]? = some v

/-! ## Facts -/

theorem broadcast_ok {n : Nat} {a : ColArg K} {l : List (PyVal K)} (h : broadcast n a = .ok l) :
    l.length = n ∧ ∀ (i : Nat) (v : PyVal K), l[i]? = some v → Lists n i a v := by
  cases a with
  | scalar w =>
    have := (Except.ok.inj h).symm
    subst this
    refine ⟨by simp, fun i v hv => ?_⟩
    have := List.mem_of_getElem? hv
    rw [List.eq_of_mem_replicate this]
    exact .scalar w
  | list l' =>
    simp only [broadcast] at h
    split at h
    · rename_i hl
      have := (Except.ok.inj h).symm
      subst this
      exact ⟨hl, fun i v hv => .each hl hv⟩
    · split at h
      · cases h
      · rename_i h1 h2
        obtain ⟨w, rfl⟩ := List.length_eq_one_iff.1 (not_not.1 h2)
        have := (Except.ok.inj h).symm
        subst this
        refine ⟨by simp, fun i v hv => ?_⟩
        have := List.mem_of_getElem? hv
        obtain ⟨m, hm, hv⟩ := List.mem_flatten.1 this
        rw [List.eq_of_mem_replicate hm, List.mem_singleton] at hv
        subst hv
        exact .one v
  | array l' =>
    simp only [broadcast] at h
    split at h
    · rename_i hl
      have := (Except.ok.inj h).symm
      subst this
      exact ⟨hl, fun i v hv => .eachArray hl hv⟩
    · split at h
      · cases h
      · split at h <;> cases h

theorem broadcastAll_ok {n : Nat} {columns : List (String × ColArg K)} {cs : List (String × List (PyVal K))}
    (h : broadcastAll n columns = .ok cs) :
    List.Forall₂ (fun ca cl : _ => ca.1 = cl.1 ∧ broadcast n ca.2 = .ok cl.2) columns cs := by
  induction columns generalizing cs with
  | nil => cases h; exact .nil
  | cons x r ih =>
    obtain ⟨c, a⟩ := x
    unfold broadcastAll at h
    cases hb : broadcast n a with
    | error e => rw [hb] at h; cases h
    | ok l =>
      rw [hb] at h
      cases hr : broadcastAll n r with
      | error e => rw [hr] at h; cases h
      | ok ls =>
        rw [hr] at h
        have := (Except.ok.inj h).symm
        subst this
        exact .cons ⟨rfl, hb⟩ (ih hr)

theorem forall₂_keys {α β : Type} {R : α → β → Prop} {l : List (String × α)} {m : List (String × β)}
    (h : List.Forall₂ (fun a b => a.1 = b.1 ∧ R a.2 b.2) l m) : l.map (·.1) = m.map (·.1) := by
  induction h with
  | nil => rfl
  | cons h1 _ ih => simp [h1.1, ih]

theorem sortedCols_mem {cols : List String} (h : ∀ c ∈ requiredCols, c ∈ cols) {c : String} : c ∈ sortedCols cols ↔ c ∈ cols := by
  unfold sortedCols
  rw [List.mem_append, List.mem_insertionSort, List.mem_filter]
  by_cases hc : c ∈ requiredCols
  · simp [hc, h c hc]
  · simp [hc]

theorem sortedCols_nodup {cols : List String} (h : cols.Nodup) : (sortedCols cols).Nodup := by
  unfold sortedCols
  rw [List.nodup_append]
  refine ⟨by decide, ?_, ?_⟩
  · exact (List.perm_insertionSort _ _).nodup_iff.2 (h.filter _)
  · intro a ha b hb hab
    subst hab
    rw [List.mem_insertionSort, List.mem_filter] at hb
    simp [ha] at hb

theorem getElem?_idxOf' {l : List String} {c : String} (h : c ∈ l) : l[l.idxOf c]? = some c := by
  rw [List.getElem?_eq_getElem (List.idxOf_lt_length_of_mem h), List.getElem_idxOf]

theorem idxOf_of_getElem? {l : List String} (hn : l.Nodup) {c : String} {j : Nat} (h : l[j]? = some c) : l.idxOf c = j := by
  obtain ⟨hj, hc⟩ := List.getElem?_eq_some_iff.1 h
  rw [← hc, hn.idxOf_getElem]

/-- Sorting the columns changes no value. -/
theorem DFrame.sortMeta_hasMeta {F : DFrame K} (hF : ∀ r ∈ F.meta, r.2.length = F.cols.length) (hn : F.cols.Nodup)
    (hr : ∀ c ∈ requiredCols, c ∈ F.cols) {i : Nat} {c : String} {v : PyVal K} :
    F.sortMeta.HasMeta i c v ↔ F.HasMeta i c v := by
  unfold DFrame.HasMeta DFrame.sortMeta
  constructor
  · rintro ⟨j, r, h1, h2, h3⟩
    simp only at h1 h2
    rw [List.getElem?_map] at h2
    cases hm : F.meta[i]? with
    | none => rw [hm] at h2; simp at h2
    | some s =>
      rw [hm] at h2
      have := (Option.some.inj h2).symm
      subst this
      have hc := (sortedCols_mem hr).1 (List.mem_of_getElem? h1)
      simp only [selectCols, List.getElem?_map, h1, Option.map_some, Option.some.injEq] at h3
      refine ⟨F.cols.idxOf c, s, getElem?_idxOf' hc, rfl, ?_⟩
      have hl := hF s (List.mem_of_getElem? hm)
      have := List.idxOf_lt_length_of_mem hc
      rw [← h3, List.getD_eq_getElem?_getD, List.getElem?_eq_getElem (by omega), Option.getD_some]
  · rintro ⟨j, r, h1, h2, h3⟩
    have hc := (sortedCols_mem hr).2 (List.mem_of_getElem? h1)
    refine ⟨(sortedCols F.cols).idxOf c, (r.1, selectCols F.cols (sortedCols F.cols) r.2), getElem?_idxOf' hc, ?_, ?_⟩
    · simp [h2]
    · simp only [selectCols, List.getElem?_map, getElem?_idxOf' hc, Option.map_some, Option.some.injEq]
      rw [idxOf_of_getElem? hn h1, List.getD_eq_getElem?_getD, h3]
      rfl

theorem DFrame.Ok.sortMeta {F : DFrame K} (hF : F.Ok) : F.sortMeta.Ok where
  labels := by rw [DFrame.sortMeta, List.map_map]; exact hF.labels
  nodup := hF.nodup
  cols_nodup := sortedCols_nodup hF.cols_nodup
  data_len := hF.data_len
  meta_len := by
    intro r hr
    obtain ⟨s, -, rfl⟩ := List.mem_map.1 hr
    simp [selectCols, DFrame.sortMeta]

theorem fromTs_ok {n : Nat} {array : List (List (Fl K))} {times : List Int} {columns : List (String × ColArg K)} {F : DFrame K}
    (h : fromTs n array times columns = .ok F) :
    array.length = times.length ∧ (∀ c ∈ requiredCols, c ∈ columns.map (·.1)) ∧
    ∃ cs, broadcastAll n columns = .ok cs ∧ F = DFrame.sortMeta
        { times := times, cols := cs.map (·.1)
          data := (List.range n).map fun i => (i, array.map fun row => row.getD i .nan)
          «meta» := (List.range n).map fun i => (i, cs.map fun c => c.2.getD i .none) } := by
  unfold fromTs at h
  split at h
  · cases h
  · rename_i h1
    split at h
    · cases h
    · rename_i h2
      cases hb : broadcastAll n columns with
      | error e => rw [hb] at h; cases h
      | ok cs =>
        rw [hb] at h
        exact ⟨not_not.1 h1, not_not.1 h2, cs, rfl, (Except.ok.inj h).symm⟩

/-! ## C59 -/

/-- C59: each timeseries has the values of the array, at the given times, and the metadata listed for it. -/
theorem C59_frame {n : Nat} {array : List (List (Fl K))} {times : List Int} {columns : List (String × ColArg K)}
    (hk : (columns.map (·.1)).Nodup) {F : DFrame K} (h : fromTs n array times columns = .ok F) :
    F.Ok ∧ F.times = times ∧ F.meta.length = n ∧ F.data.length = n ∧
    (∀ (i k : Nat) (row : List (Fl K)) (x : Fl K), i < n → array[k]? = some row → row[i]? = some x →
      ∃ d, F.data[i]? = some d ∧ d.2[k]? = some x) ∧
    (∀ (i : Nat) (c : String), i < n → (∃ a, (c, a) ∈ columns) → ∃ v, F.HasMeta i c v) ∧
    ∀ (i : Nat) (c : String) (a : ColArg K) (v : PyVal K), (c, a) ∈ columns → F.HasMeta i c v → Lists n i a v := by
  obtain ⟨hlen, hreq, cs, hb, rfl⟩ := fromTs_ok h
  have h2 := broadcastAll_ok hb
  have hkeys : columns.map (·.1) = cs.map (·.1) := forall₂_keys (R := fun a l => broadcast n a = .ok l) h2
  rw [hkeys] at hk hreq
  have hml : ∀ r ∈ (List.range n).map (fun i => (i, cs.map fun c => c.2.getD i (.none : PyVal K))),
      r.2.length = (cs.map (·.1)).length := by
    intro r hr
    obtain ⟨i, -, rfl⟩ := List.mem_map.1 hr
    simp
  refine ⟨DFrame.Ok.sortMeta ⟨?_, ?_, hk, ?_, hml⟩, rfl, ?_, ?_, ?_, ?_, ?_⟩
  · simp [Function.comp_def]
  · simpa [Function.comp_def] using List.nodup_range
  · intro d hd
    obtain ⟨i, -, rfl⟩ := List.mem_map.1 hd
    simpa using hlen
  · simp [DFrame.sortMeta]
  · simp [DFrame.sortMeta]
  · intro i k row x hi hr hx
    refine ⟨(i, array.map fun row => row.getD i .nan), ?_, ?_⟩
    · simp [DFrame.sortMeta, hi]
    · simp [hr, hx]
  · rintro i c hi ⟨a, ha⟩
    have hc : c ∈ cs.map (·.1) := hkeys ▸ List.mem_map_of_mem ha
    obtain ⟨j, hj⟩ := List.getElem?_of_mem hc
    obtain ⟨v, hv⟩ : ∃ v, (cs.map fun c => c.2.getD i (.none : PyVal K))[j]? = some v := by
      have : j < cs.length := by simpa using (List.getElem?_eq_some_iff.1 hj).1
      exact ⟨_, List.getElem?_eq_getElem (by simpa using this)⟩
    refine ⟨v, (DFrame.sortMeta_hasMeta hml hk hreq).2 ⟨j, (i, _), hj, ?_, hv⟩⟩
    simp [hi]
  · intro i c a v ha hv
    obtain ⟨j, r, e1, e2, e3⟩ := (DFrame.sortMeta_hasMeta hml hk hreq).1 hv
    simp only at e1 e2
    have hi : i < n := by
      have := (List.getElem?_eq_some_iff.1 e2).1
      simpa using this
    rw [List.getElem?_map, List.getElem?_range hi] at e2
    have := (Option.some.inj e2).symm
    subst this
    simp only at e3
    rw [List.getElem?_map] at e1 e3
    cases hcj : cs[j]? with
    | none => rw [hcj] at e1; simp at e1
    | some cl =>
      rw [hcj] at e1 e3
      simp only [Option.map_some, Option.some.injEq] at e1 e3
      have hj : j < columns.length := by rw [h2.length_eq]; exact (List.getElem?_eq_some_iff.1 hcj).1
      have hrel := h2.get hj (h2.length_eq ▸ hj)
      have hcl : cs.get ⟨j, h2.length_eq ▸ hj⟩ = cl := by
        have := (List.getElem?_eq_some_iff.1 hcj).2
        simpa using this
      rw [hcl] at hrel
      have hca : columns.get ⟨j, hj⟩ = (c, a) := by
        obtain ⟨m, hm, hma⟩ := List.getElem_of_mem ha
        have hm' : (columns.map (·.1))[m]? = some c := by
          rw [List.getElem?_map, List.getElem?_eq_getElem hm, hma]; rfl
        have hj' : (columns.map (·.1))[j]? = some c := by
          rw [List.getElem?_map, List.getElem?_eq_getElem hj, Option.map_some]
          have := hrel.1
          simp only [List.get_eq_getElem] at this
          rw [this, e1]
        rw [← hkeys] at hk
        have e := idxOf_of_getElem? hk hm'
        rw [idxOf_of_getElem? hk hj'] at e
        subst e
        simpa using hma
      rw [hca] at hrel
      obtain ⟨hl, hl2⟩ := broadcast_ok hrel.2
      refine hl2 i v ?_
      rw [← e3, List.getD_eq_getElem?_getD, List.getElem?_eq_getElem (by omega), Option.getD_some]

/-- C59: the required columns come first, then the others in increasing order. -/
theorem C59_columns {n : Nat} {array : List (List (Fl K))} {times : List Int} {columns : List (String × ColArg K)}
    (hk : (columns.map (·.1)).Nodup) {F : DFrame K} (h : fromTs n array times columns = .ok F) :
    F.cols.take 5 = ["model", "scenario", "region", "variable", "unit"] ∧ (F.cols.drop 5).Pairwise (· < ·) ∧
    ∀ c, c ∈ F.cols ↔ ∃ a, (c, a) ∈ columns := by
  obtain ⟨hlen, hreq, cs, hb, rfl⟩ := fromTs_ok h
  have hkeys : columns.map (·.1) = cs.map (·.1) := forall₂_keys (R := fun a l => broadcast n a = .ok l) (broadcastAll_ok hb)
  rw [hkeys] at hk hreq
  refine ⟨rfl, ?_, fun c => ?_⟩
  · have e : (sortedCols (cs.map (·.1))).drop 5 =
        ((cs.map (·.1)).filter fun c => c ∉ requiredCols).insertionSort (· ≤ ·) := rfl
    show ((sortedCols (cs.map (·.1))).drop 5).Pairwise (· < ·)
    rw [e]
    have hs := List.pairwise_insertionSort (α := String) (· ≤ ·) ((cs.map (·.1)).filter fun c => c ∉ requiredCols)
    have hn : (((cs.map (·.1)).filter fun c => c ∉ requiredCols).insertionSort (· ≤ ·)).Nodup :=
      (List.perm_insertionSort _ _).nodup_iff.2 (hk.filter _)
    exact (hs.and hn).imp fun h => lt_of_le_of_ne h.1 h.2
  · show c ∈ sortedCols (cs.map (·.1)) ↔ _
    rw [sortedCols_mem hreq, ← hkeys]
    simp

theorem broadcastAll_works {n : Nat} {columns : List (String × ColArg K)}
    (h : ∀ ca ∈ columns, ∃ l, broadcast n ca.2 = .ok l) : ∃ cs, broadcastAll n columns = .ok cs := by
  induction columns with
  | nil => exact ⟨[], rfl⟩
  | cons x r ih =>
    obtain ⟨c, a⟩ := x
    obtain ⟨l, hl⟩ := h (c, a) (by simp)
    obtain ⟨cs, hcs⟩ := ih fun ca hca => h ca (by simp [hca])
    exact ⟨(c, l) :: cs, by simp only [broadcastAll] at *; simp only [hl, hcs]⟩

theorem broadcastAll_error {n : Nat} {columns : List (String × ColArg K)} {e : Err} (h : broadcastAll n columns = .error e) :
    ∃ ca ∈ columns, broadcast n ca.2 = .error e := by
  induction columns with
  | nil => cases h
  | cons x r ih =>
    obtain ⟨c, a⟩ := x
    unfold broadcastAll at h
    cases hb : broadcast n a with
    | error e' =>
      rw [hb] at h
      cases h
      exact ⟨(c, a), by simp, hb⟩
    | ok l =>
      rw [hb] at h
      cases hr : broadcastAll n r with
      | error e' =>
        rw [hr] at h
        cases h
        obtain ⟨ca, h1, h2⟩ := ih hr
        exact ⟨ca, by simp [h1], h2⟩
      | ok ls => rw [hr] at h; cases h

/-- C59: what works. Columns given as values always do, lists if they have one entry or one for each timeseries;
everything else raises `ValueError`. -/
theorem C59_works {n : Nat} {array : List (List (Fl K))} {times : List Int} {columns : List (String × ColArg K)}
    (hlen : array.length = times.length) (ha : ∀ c l, (c, ColArg.array l) ∉ columns) :
    ((∃ F, fromTs n array times columns = .ok F) ↔
      (∀ c ∈ ["model", "scenario", "region", "variable", "unit"], ∃ a, (c, a) ∈ columns) ∧
      ∀ c l, (c, ColArg.list l) ∈ columns → l.length = 1 ∨ l.length = n) ∧
    ∀ e, fromTs n array times columns = .error e → e = .valueError := by
  have hone : ∀ ca ∈ columns, (∃ l, broadcast n ca.2 = .ok l) ↔ ∀ l, ca.2 = .list l → l.length = 1 ∨ l.length = n := by
    rintro ⟨c, a⟩ hca
    cases a with
    | scalar v => simp [broadcast]
    | list l =>
      simp only [broadcast]
      by_cases h1 : l.length = n
      · simp [h1]
      · by_cases h2 : l.length = 1
        · rw [if_neg h1, if_neg (by simp [h2])]
          simp [h2]
        · simp [h1, h2]
    | array l => exact absurd hca (ha c l)
  constructor
  · constructor
    · rintro ⟨F, h⟩
      obtain ⟨-, hreq, cs, hb, -⟩ := fromTs_ok h
      refine ⟨fun c hc => by simpa using hreq c hc, fun c l hl => ?_⟩
      refine (hone _ hl).1 ?_ l rfl
      have h2 := broadcastAll_ok hb
      obtain ⟨j, hj, hjl⟩ := List.getElem_of_mem hl
      have := h2.get hj (h2.length_eq ▸ hj)
      simp only [List.get_eq_getElem, hjl] at this
      exact ⟨_, this.2⟩
    · rintro ⟨h1, h2⟩
      obtain ⟨cs, hcs⟩ := broadcastAll_works (n := n) fun ca hca => (hone ca hca).2 fun l hl => h2 ca.1 l (by rw [← hl]; exact hca)
      unfold fromTs
      rw [if_neg (by simp [hlen]), if_neg, hcs]
      · exact ⟨_, rfl⟩
      · rw [not_not]
        intro c hc
        simpa using h1 c hc
  · intro e h
    unfold fromTs at h
    rw [if_neg (by simp [hlen])] at h
    split at h
    · cases h; rfl
    · cases hb : broadcastAll n columns with
      | ok cs => rw [hb] at h; cases h
      | error e' =>
        rw [hb] at h
        cases h
        obtain ⟨⟨c, a⟩, hca, hb2⟩ := broadcastAll_error hb
        cases a with
        | scalar v => simp [broadcast] at hb2
        | list l =>
          simp only [broadcast] at hb2
          split at hb2
          · cases hb2
          · split at hb2
            · cases hb2; rfl
            · cases hb2
        | array l => exact absurd hca (ha c l)

/-- Two timeseries at three times, with a further column. -/
def madeF : Except Err (DFrame ℚ) :=
  fromTs 2 [[.num 1, .num 10], [.num 2, .nan], [.num 3, .num 30]] [0, 100, 200]
    [("zeta", .list [.str "z"]), ("unit", .scalar (.str "K")), ("scenario", .list [.str "a", .str "b"]),
     ("region", .list [.str "World"]), ("variable", .scalar (.str "T")), ("model", .list [.str "m"]), ("alpha", .array [.int 1, .int 2])]

example : madeF = .ok
    { times := [0, 100, 200], cols := ["model", "scenario", "region", "variable", "unit", "alpha", "zeta"]
      data := [(0, [.num 1, .num 2, .num 3]), (1, [.num 10, .nan, .num 30])]
      «meta» := [(0, [.str "m", .str "a", .str "World", .str "T", .str "K", .int 1, .str "z"]),
        (1, [.str "m", .str "b", .str "World", .str "T", .str "K", .int 2, .str "z"])] } := by
  decide +kernel

/-- Wrong lengths and missing columns. -/
example : (fromTs 3 [] [] [("unit", .scalar (.str "K")), ("scenario", .list [.str "a", .str "b"]),
     ("region", .list [.str "World"]), ("variable", .scalar (.str "T")), ("model", .list [.str "m"])] : Except Err (DFrame ℚ)) =
      .error .valueError ∧
    (fromTs 1 [] [] [("unit", .scalar (.str "K"))] : Except Err (DFrame ℚ)) = .error .valueError := by
  decide +kernel

/-- An array of length 1 is not repeated. -/
theorem C59_array : (fromTs 2 [] [] [("unit", .array [.str "K"]), ("scenario", .list [.str "a", .str "b"]),
     ("region", .list [.str "World"]), ("variable", .scalar (.str "T")), ("model", .list [.str "m"])] : Except Err (DFrame ℚ)) =
      .error .typeError := by
  decide +kernel

end Openscm
