import Verif.FrameInterp

/-!
# Reading and assigning items of frames (model) and C64

`ScmDataFrameBase.__getitem__`, `__setitem__`, `openscm/scmdataframe/base.py:421-452`, and `set_meta` without an index,
`openscm/scmdataframe/base.py:871-915`.

A frame keeps its times twice: as `_time_points` and as the index of `_data`. Here they are apart. Times are given as
whole seconds; keys are strings or lists of strings; pandas series as values are not modelled. Nor are lists assigned to
frames without timeseries, to which pandas would add rows.
-/

set_option linter.unusedSectionVars false

namespace Openscm

variable {K : Type} [Field K] [LinearOrder K] [IsStrictOrderedRing K]

/-- A frame as an object: `_time_points`, and the rest with the index of `_data`. -/
structure FObj (K : Type) where
  points : List Int
  F : DFrame K
  deriving DecidableEq

/-- What reading an item returns. -/
inductive ItemRes (K : Type)
  | times (l : List Int)
  | years (l : List Int)
  | column (l : List (PyVal K))
  | columns (l : List (List (PyVal K)))
  deriving DecidableEq

/-- `__getitem__` with a string, `openscm/scmdataframe/base.py:421-438`. -/
def FObj.getItem (x : FObj K) (key : String) : Except Err (ItemRes K) :=
  if key = "time" then .ok (.times x.points)
  else if key = "year" then (tpYears x.points).map .years
  else if key ∈ x.F.cols then (x.F.column key).map .column
  else .error .keyError

/-- The columns in the order of the keys. -/
def DFrame.columnsOf (F : DFrame K) : List String → Except Err (List (List (PyVal K)))
  | [] => .ok []
  | c :: cs =>
    match F.column c with
    | .error e => .error e
    | .ok l =>
      match F.columnsOf cs with
      | .error e => .error e
      | .ok ls => .ok (l :: ls)

/-- `__getitem__` with a list of strings, `openscm/scmdataframe/base.py:421-438`. -/
def FObj.getItems (x : FObj K) (keys : List String) : Except Err (ItemRes K) :=
  if ∀ c ∈ keys, c ∈ x.F.cols then (x.F.columnsOf keys).map .columns else .error .keyError

/-- What pandas makes of a value assigned to a column of a table with `n` rows. -/
def columnValues (n : Nat) : ColArg K → Except Err (List (PyVal K))
  | .scalar v => .ok (List.replicate n v)
  | .list l => if n = 0 ∧ l ≠ [] then .error .unmodelled else if l.length = n then .ok l else .error .valueError
  | .array l => if n = 0 ∧ l ≠ [] then .error .unmodelled else if l.length = n then .ok l else .error .valueError

/-- `self._meta[name] = values`: new columns come last. -/
def DFrame.setColumn (F : DFrame K) (c : String) (vals : List (PyVal K)) : DFrame K :=
  if c ∈ F.cols then
    { F with «meta» := F.meta.zipIdx.map fun ri => (ri.1.1, ri.1.2.set (F.cols.idxOf c) (vals.getD ri.2 .none)) }
  else
    { F with cols := F.cols ++ [c], «meta» := F.meta.zipIdx.map fun ri => (ri.1.1, ri.1.2 ++ [vals.getD ri.2 .none]) }

/-- Assignments. -/
inductive ItemOp (K : Type)
  /-- `df["time"] = times` -/
  | time (ts : List Int)
  /-- `df[key] = value` for other keys -/
  | col (key : String) (value : ColArg K)

/-- `__setitem__`, `openscm/scmdataframe/base.py:440-452`, with `set_meta`, `openscm/scmdataframe/base.py:871-915`: the
error, if any, and the frame as it is left. The time points are set before pandas compares lengths. -/
def FObj.setItem (x : FObj K) : ItemOp K → Option Err × FObj K
  | .time ts =>
    if ts.length = x.F.times.length then (none, { points := ts, F := { x.F with times := ts } })
    else (some .valueError, { x with points := ts })
  | .col key value =>
    if key = "" then (some .valueError, x)
    else if key = "time" then (some .unmodelled, x)
    else
      match columnValues x.F.meta.length value with
      | .error e => (some e, x)
      | .ok vals => (none, { x with F := x.F.setColumn key vals })

/-- A sequence of assignments, each of which may be refused. -/
def FObj.assign (x : FObj K) : List (ItemOp K) → FObj K
  | [] => x
  | op :: ops => (x.setItem op).2.assign ops

/-! ## Specification -/

/-- A value for a column of `n` timeseries stands for `l`: the same for all, or one each. -/
inductive Fits (n : Nat) : ColArg K → List (PyVal K) → Prop
  | all (v : PyVal K) : Fits n (.scalar v) (List.replicate n v)
  | list {l : List (PyVal K)} : l.length = n → Fits n (.list l) l
  | array {l : List (PyVal K)} : l.length = n → Fits n (.array l) l

/-- `l` is what the assignments to `key` leave there: that of the last one that fits. -/
def LastFit (n : Nat) (key : String) (ops : List (ItemOp K)) (l : List (PyVal K)) : Prop :=
  ∃ pre value post, ops = pre ++ .col key value :: post ∧ Fits n value l ∧
    ∀ v l', ItemOp.col key v ∈ post → ¬ Fits n v l'

/-- No assignment to `key` fits. -/
def NoFit (n : Nat) (key : String) (ops : List (ItemOp K)) : Prop := ∀ v l, ItemOp.col key v ∈ ops → ¬ Fits n v l

/-! ## Facts -/

theorem columnValues_ok {n : Nat} (hn : n ≠ 0) {a : ColArg K} {l : List (PyVal K)} :
    columnValues n a = .ok l ↔ Fits n a l := by
  have h0 : ∀ l' : List (PyVal K), ¬ (n = 0 ∧ l' ≠ []) := fun _ h => hn h.1
  cases a with
  | scalar v =>
    constructor
    · intro h
      cases h
      exact .all v
    · rintro ⟨⟩
      rfl
  | list l' =>
    simp only [columnValues, if_neg (h0 l')]
    constructor
    · intro h
      split at h
      · cases h
        exact .list (by assumption)
      · cases h
    · rintro (_ | h)
      rw [if_pos h]
  | array l' =>
    simp only [columnValues, if_neg (h0 l')]
    constructor
    · intro h
      split at h
      · cases h
        exact .array (by assumption)
      · cases h
    · rintro (_ | _ | h)
      rw [if_pos h]

theorem Fits.length {n : Nat} {a : ColArg K} {l : List (PyVal K)} (h : Fits n a l) : l.length = n := by
  cases h with
  | all => simp
  | list h => exact h
  | array h => exact h

theorem Fits.unique {n : Nat} {a : ColArg K} {l l' : List (PyVal K)} (h : Fits n a l) (h' : Fits n a l') : l = l' := by
  cases h <;> cases h' <;> rfl

theorem setColumn_parts (F : DFrame K) (c : String) (vals : List (PyVal K)) :
    (F.setColumn c vals).times = F.times ∧ (F.setColumn c vals).data = F.data ∧
    (F.setColumn c vals).meta.map (·.1) = F.meta.map (·.1) ∧
    ∀ d, d ∈ (F.setColumn c vals).cols ↔ d ∈ F.cols ∨ d = c := by
  unfold DFrame.setColumn
  split
  · rename_i h
    refine ⟨rfl, rfl, ?_, fun d => ⟨.inl, ?_⟩⟩
    · apply List.ext_getElem?
      intro i
      simp [List.getElem?_zipIdx, Function.comp_def]
    · rintro (h' | rfl) <;> assumption
  · refine ⟨rfl, rfl, ?_, fun d => by simp⟩
    apply List.ext_getElem?
    intro i
    simp [List.getElem?_zipIdx, Function.comp_def]

theorem setColumn_ok {F : DFrame K} (hF : F.Ok) (c : String) (vals : List (PyVal K)) : (F.setColumn c vals).Ok := by
  obtain ⟨h1, h2, h3, -⟩ := setColumn_parts F c vals
  refine ⟨by rw [h2, h3]; exact hF.labels, by rw [h2]; exact hF.nodup, ?_, by rw [h1, h2]; exact hF.data_len, ?_⟩
  · unfold DFrame.setColumn
    split
    · exact hF.cols_nodup
    · rename_i h
      exact List.nodup_append.2 ⟨hF.cols_nodup, by simp, by
        intro a ha b hb
        rw [List.mem_singleton] at hb
        subst hb
        exact fun e => h (e ▸ ha)⟩
  · unfold DFrame.setColumn
    split
    all_goals
      intro r hr
      simp only [List.mem_map] at hr
      obtain ⟨ri, hri, rfl⟩ := hr
      obtain ⟨i, hi⟩ := List.getElem?_of_mem hri
      rw [List.getElem?_zipIdx, Option.map_eq_some_iff] at hi
      obtain ⟨s, hs, rfl⟩ := hi
      simp [hF.meta_len s (List.mem_of_getElem? hs)]

theorem column_eq {F : DFrame K} {c : String} (hc : c ∈ F.cols) : F.column c = .ok (F.meta.map fun r => rowVal F.cols r.2 c) := by
  unfold DFrame.column
  have : F.cols.findIdx? (· = c) = some (F.cols.idxOf c) := by
    rw [List.findIdx?_eq_some_iff_getElem]
    have hlt := List.idxOf_lt_length_of_mem hc
    refine ⟨hlt, ?_, ?_⟩
    · simp
    · intro j hj
      simp only [Bool.not_eq_true, decide_eq_false_iff_not]
      intro e
      have := List.not_of_lt_findIdx (p := (· == c)) (xs := F.cols) hj
      simp [e] at this
  rw [this]
  rfl

theorem column_set {F : DFrame K} (hF : F.Ok) {c : String} {vals : List (PyVal K)} (hl : vals.length = F.meta.length) (d : String)
    (hd : d ∈ (F.setColumn c vals).cols) :
    (F.setColumn c vals).column d = if d = c then .ok vals else F.column d := by
  rw [column_eq hd]
  have hmem := ((setColumn_parts F c vals).2.2.2 d).1 hd
  by_cases hc : c ∈ F.cols
  · have hdc : d ∈ F.cols := by
      rcases hmem with h | rfl
      · exact h
      · exact hc
    rw [column_eq hdc]
    unfold DFrame.setColumn
    simp only [if_pos hc, List.map_map]
    split
    · rename_i h
      subst h
      rw [Except.ok.injEq]
      apply List.ext_getElem?
      intro i
      simp only [List.getElem?_map, List.getElem?_zipIdx, Nat.zero_add]
      cases hi : F.meta[i]? with
      | none =>
        rw [List.getElem?_eq_none_iff] at hi
        symm
        simp only [Option.map_none]
        rw [List.getElem?_eq_none_iff]
        omega
      | some r =>
        have hlt := (List.getElem?_eq_some_iff.1 hi).1
        simp only [Option.map_some, Function.comp]
        rw [rowVal_set (hF.meta_len r (List.mem_of_getElem? hi)) hc, if_pos rfl, List.getD_eq_getElem?_getD,
          List.getElem?_eq_getElem (by omega)]
        rfl
    · rename_i h
      rw [Except.ok.injEq]
      apply List.ext_getElem?
      intro i
      simp only [List.getElem?_map, List.getElem?_zipIdx, Nat.zero_add]
      cases hi : F.meta[i]? with
      | none => rfl
      | some r =>
        simp only [Option.map_some, Function.comp]
        rw [rowVal_set (hF.meta_len r (List.mem_of_getElem? hi)) hc, if_neg h]
  · unfold DFrame.setColumn
    simp only [if_neg hc, List.map_map]
    split
    · rename_i h
      subst h
      rw [Except.ok.injEq]
      apply List.ext_getElem?
      intro i
      simp only [List.getElem?_map, List.getElem?_zipIdx, Nat.zero_add]
      cases hi : F.meta[i]? with
      | none =>
        rw [List.getElem?_eq_none_iff] at hi
        symm
        simp only [Option.map_none]
        rw [List.getElem?_eq_none_iff]
        omega
      | some r =>
        have hlt := (List.getElem?_eq_some_iff.1 hi).1
        have hm := hF.meta_len r (List.mem_of_getElem? hi)
        have : (F.cols ++ [d]).idxOf d = F.cols.length := by
          rw [List.idxOf_append_of_notMem hc]
          simp
        simp only [Option.map_some, Function.comp, rowVal, this, List.getD_eq_getElem?_getD]
        rw [← hm, List.getElem?_append_right (le_refl _)]
        simp [List.getElem?_eq_getElem (show i < vals.length by omega)]
    · rename_i h
      have hdc : d ∈ F.cols := by
        rcases hmem with h' | h'
        · exact h'
        · exact absurd h' h
      rw [column_eq hdc, Except.ok.injEq]
      apply List.ext_getElem?
      intro i
      simp only [List.getElem?_map, List.getElem?_zipIdx, Nat.zero_add]
      cases hi : F.meta[i]? with
      | none => rfl
      | some r =>
        have hm := hF.meta_len r (List.mem_of_getElem? hi)
        have hlt := List.idxOf_lt_length_of_mem hdc
        have : (F.cols ++ [c]).idxOf d = F.cols.idxOf d := List.idxOf_append_of_mem hdc
        simp only [Option.map_some, Function.comp, rowVal, this, List.getD_eq_getElem?_getD]
        rw [List.getElem?_append_left (by omega)]

/-- Nothing but the points, the times and the metadata changes. -/
theorem setItem_parts (x : FObj K) (op : ItemOp K) :
    (x.setItem op).2.F.data = x.F.data ∧ (x.setItem op).2.F.meta.map (·.1) = x.F.meta.map (·.1) ∧
    (x.setItem op).2.F.times.length = x.F.times.length ∧ ∀ c ∈ x.F.cols, c ∈ (x.setItem op).2.F.cols := by
  cases op with
  | time ts =>
    unfold FObj.setItem
    simp only
    split
    · rename_i h
      exact ⟨rfl, rfl, h, fun _ hc => hc⟩
    · exact ⟨rfl, rfl, rfl, fun _ hc => hc⟩
  | col key value =>
    unfold FObj.setItem
    simp only
    split
    · exact ⟨rfl, rfl, rfl, fun _ hc => hc⟩
    · split
      · exact ⟨rfl, rfl, rfl, fun _ hc => hc⟩
      · split
        · exact ⟨rfl, rfl, rfl, fun _ hc => hc⟩
        · rename_i vals _
          obtain ⟨h1, h2, h3, h4⟩ := setColumn_parts x.F key vals
          exact ⟨h2, h3, by simp only; rw [h1], fun c hc => (h4 c).2 (.inl hc)⟩

theorem setItem_ok {x : FObj K} (hF : x.F.Ok) (op : ItemOp K) : (x.setItem op).2.F.Ok := by
  cases op with
  | time ts =>
    unfold FObj.setItem
    simp only
    split
    · rename_i h
      exact ⟨hF.labels, hF.nodup, hF.cols_nodup, fun d hd => by rw [hF.data_len d hd]; exact h.symm, hF.meta_len⟩
    · exact hF
  | col key value =>
    unfold FObj.setItem
    simp only
    split
    · exact hF
    · split
      · exact hF
      · split
        · exact hF
        · exact setColumn_ok hF _ _

theorem setItem_meta_len (x : FObj K) (op : ItemOp K) : (x.setItem op).2.F.meta.length = x.F.meta.length := by
  have := congrArg List.length (setItem_parts x op).2.1
  simpa using this

/-- A readable column after one assignment. -/
theorem getItem_set {x : FObj K} (hF : x.F.Ok) (hn : x.F.meta ≠ []) (op : ItemOp K) {c : String} (h1 : c ≠ "") (h2 : c ≠ "time")
    (h3 : c ≠ "year") (r : Except Err (ItemRes K)) :
    (x.setItem op).2.getItem c = r ↔
      (∃ v l, op = .col c v ∧ Fits x.F.meta.length v l ∧ r = .ok (.column l)) ∨
      ((∀ v l, op = .col c v → ¬ Fits x.F.meta.length v l) ∧ x.getItem c = r) := by
  have hn' : x.F.meta.length ≠ 0 := fun h => hn (List.length_eq_zero_iff.1 h)
  cases op with
  | time ts =>
    have e : (x.setItem (.time ts)).2.getItem c = x.getItem c := by
      unfold FObj.setItem FObj.getItem
      simp only [if_neg h2, if_neg h3]
      split <;> rfl
    rw [e]
    constructor
    · exact fun h => .inr ⟨fun _ _ h => (by cases h), h⟩
    · rintro (⟨_, _, h, -⟩ | ⟨-, h⟩)
      · cases h
      · exact h
  | col key value =>
    by_cases hk0 : key = "" ∨ key = "time"
    · have e : (x.setItem (.col key value)).2 = x := by
        unfold FObj.setItem
        simp only
        rcases hk0 with h | h
        · rw [if_pos h]
        · split
          · rfl
          · rfl
      rw [e]
      have hkc : key ≠ c := by
        rintro rfl
        rcases hk0 with h | h
        · exact h1 h
        · exact h2 h
      constructor
      · exact fun h => .inr ⟨fun _ _ h => by cases h; exact absurd rfl hkc, h⟩
      · rintro (⟨_, _, h, -⟩ | ⟨-, h⟩)
        · cases h; exact absurd rfl hkc
        · exact h
    · rw [not_or] at hk0
      cases hv : columnValues x.F.meta.length value with
      | error e =>
        have hx : (x.setItem (.col key value)).2 = x := by
          unfold FObj.setItem
          simp only [if_neg hk0.1, if_neg hk0.2, hv]
        have hnf : ∀ l, ¬ Fits x.F.meta.length value l := by
          intro l hl
          rw [(columnValues_ok hn').2 hl] at hv
          cases hv
        rw [hx]
        constructor
        · exact fun h => .inr ⟨fun _ l h => by cases h; exact hnf l, h⟩
        · rintro (⟨_, l, h, hf, -⟩ | ⟨-, h⟩)
          · cases h; exact absurd hf (hnf l)
          · exact h
      | ok vals =>
        have hfit := (columnValues_ok hn').1 hv
        have hx : (x.setItem (.col key value)).2 = { x with F := x.F.setColumn key vals } := by
          unfold FObj.setItem
          simp only [if_neg hk0.1, if_neg hk0.2, hv]
        rw [hx]
        have hmem := fun d => (setColumn_parts x.F key vals).2.2.2 d
        unfold FObj.getItem
        simp only [if_neg h2, if_neg h3]
        by_cases hkc : c = key
        · subst hkc
          have hin : c ∈ (x.F.setColumn c vals).cols := (hmem c).2 (.inr rfl)
          rw [if_pos hin, column_set hF hfit.length c hin, if_pos rfl]
          constructor
          · intro h
            exact .inl ⟨value, vals, rfl, hfit, h.symm⟩
          · rintro (⟨v, l, h, hf, rfl⟩ | ⟨h, -⟩)
            · cases h
              rw [hf.unique hfit]
              rfl
            · exact absurd hfit (h _ _ rfl)
        · have e : (if c ∈ (x.F.setColumn key vals).cols then Except.map ItemRes.column ((x.F.setColumn key vals).column c)
              else Except.error Err.keyError) =
              (if c ∈ x.F.cols then Except.map ItemRes.column (x.F.column c) else Except.error Err.keyError) := by
            by_cases hin : c ∈ x.F.cols
            · have hin' := (hmem c).2 (.inl hin)
              rw [if_pos hin', if_pos hin, column_set hF hfit.length c hin', if_neg hkc]
            · have hin' : c ∉ (x.F.setColumn key vals).cols := by
                rw [hmem c, not_or]
                exact ⟨hin, hkc⟩
              rw [if_neg hin', if_neg hin]
          rw [e]
          constructor
          · exact fun h => .inr ⟨fun _ _ h => by cases h; exact absurd rfl hkc, h⟩
          · rintro (⟨_, _, h, -⟩ | ⟨-, h⟩)
            · cases h; exact absurd rfl hkc
            · exact h

/-! ## C64 -/

/-- C64: after any assignments, refused ones included, a column reads as the last value that fitted or, if there was
none, as before. -/
theorem C64_column {x : FObj K} (hF : x.F.Ok) (hn : x.F.meta ≠ []) (ops : List (ItemOp K)) {c : String} (h1 : c ≠ "")
    (h2 : c ≠ "time") (h3 : c ≠ "year") (r : Except Err (ItemRes K)) :
    (x.assign ops).getItem c = r ↔
      (∃ l, LastFit x.F.meta.length c ops l ∧ r = .ok (.column l)) ∨ (NoFit x.F.meta.length c ops ∧ x.getItem c = r) := by
  induction ops generalizing x with
  | nil =>
    constructor
    · exact fun h => .inr ⟨fun _ _ h => by simp at h, h⟩
    · rintro (⟨l, ⟨pre, v, post, h, -⟩, -⟩ | ⟨-, h⟩)
      · simp at h
      · exact h
  | cons op ops ih =>
    have hlen := setItem_meta_len x op
    have hn' : (x.setItem op).2.F.meta ≠ [] := by
      intro h
      rw [h] at hlen
      exact hn (List.length_eq_zero_iff.1 hlen.symm)
    have key := ih (setItem_ok hF op) hn'
    rw [hlen] at key
    simp only [FObj.assign]
    rw [key]
    constructor
    · rintro (⟨l, ⟨pre, v, post, rfl, hf, hp⟩, rfl⟩ | ⟨hno, h⟩)
      · exact .inl ⟨l, ⟨op :: pre, v, post, rfl, hf, hp⟩, rfl⟩
      · rcases (getItem_set hF hn op h1 h2 h3 r).1 h with ⟨v, l, rfl, hf, rfl⟩ | ⟨hf, h⟩
        · exact .inl ⟨l, ⟨[], v, ops, rfl, hf, fun v l' hv => hno v l' hv⟩, rfl⟩
        · refine .inr ⟨fun v l hv => ?_, h⟩
          rcases List.mem_cons.1 hv with rfl | hv
          · exact hf v l rfl
          · exact hno v l hv
    · rintro (⟨l, ⟨pre, v, post, he, hf, hp⟩, rfl⟩ | ⟨hno, h⟩)
      · cases pre with
        | nil =>
          simp only [List.nil_append, List.cons.injEq] at he
          obtain ⟨rfl, rfl⟩ := he
          exact .inr ⟨fun v l' hv => hp v l' hv, (getItem_set hF hn _ h1 h2 h3 _).2 (.inl ⟨v, l, rfl, hf, rfl⟩)⟩
        | cons a pre =>
          simp only [List.cons_append, List.cons.injEq] at he
          obtain ⟨rfl, rfl⟩ := he
          exact .inl ⟨l, ⟨pre, v, post, rfl, hf, hp⟩, rfl⟩
      · exact .inr ⟨fun v l hv => hno v l (List.mem_cons_of_mem _ hv),
          (getItem_set hF hn op h1 h2 h3 r).2 (.inr ⟨fun v l he => hno v l (by rw [he]; exact List.mem_cons_self ..), h⟩)⟩

/-- C64: assignments change no values and drop no timeseries and no columns. -/
theorem C64_values (x : FObj K) (ops : List (ItemOp K)) :
    (x.assign ops).F.data = x.F.data ∧ (x.assign ops).F.meta.map (·.1) = x.F.meta.map (·.1) ∧
    ∀ c ∈ x.F.cols, c ∈ (x.assign ops).F.cols := by
  induction ops generalizing x with
  | nil => exact ⟨rfl, rfl, fun _ h => h⟩
  | cons op ops ih =>
    obtain ⟨h1, h2, -, h4⟩ := setItem_parts x op
    obtain ⟨i1, i2, i3⟩ := ih (x.setItem op).2
    exact ⟨i1.trans h1, i2.trans h2, fun c hc => i3 c (h4 c hc)⟩

/-- C64: which assignments are accepted. -/
theorem C64_accepted (x : FObj K) (hn : x.F.meta ≠ []) :
    (∀ ts, (x.setItem (.time ts)).1 = none ↔ ts.length = x.F.times.length) ∧
    ∀ key value, key ≠ "time" →
      ((x.setItem (.col key value)).1 = none ↔ key ≠ "" ∧ ∃ l, Fits x.F.meta.length value l) := by
  have hn' : x.F.meta.length ≠ 0 := fun h => hn (List.length_eq_zero_iff.1 h)
  constructor
  · intro ts
    unfold FObj.setItem
    simp only
    split <;> simp_all
  · intro key value hk
    unfold FObj.setItem
    simp only [if_neg hk]
    by_cases h0 : key = ""
    · simp [h0]
    · rw [if_neg h0]
      cases hv : columnValues x.F.meta.length value with
      | error e =>
        simp only [reduceCtorEq, ne_eq, false_iff, not_and, not_exists]
        intro _ l hl
        rw [(columnValues_ok hn').2 hl] at hv
        cases hv
      | ok vals =>
        simp only [ne_eq, true_iff]
        exact ⟨h0, vals, (columnValues_ok hn').1 hv⟩

/-- C64, if no assignment of times has the wrong length: the times read back are the last ones assigned, and they are
those of the values. -/
theorem C64_time_partial {x : FObj K} (hx : x.points = x.F.times) (ops : List (ItemOp K))
    (hl : ∀ ts, ItemOp.time ts ∈ ops → ts.length = x.F.times.length) :
    (x.assign ops).points = (x.assign ops).F.times ∧
    (∀ l, (x.assign ops).getItem "time" = .ok (.times l) ↔
      (∃ pre post, ops = pre ++ .time l :: post ∧ ∀ ts, ItemOp.time ts ∉ post) ∨
      ((∀ ts, ItemOp.time ts ∉ ops) ∧ x.points = l)) := by
  induction ops generalizing x with
  | nil =>
    refine ⟨hx, fun l => ?_⟩
    simp [FObj.assign, FObj.getItem]
  | cons op ops ih =>
    obtain ⟨-, -, hlen, -⟩ := setItem_parts x op
    have step : (x.setItem op).2.points = (x.setItem op).2.F.times ∧
        ∀ l, (x.setItem op).2.points = l ↔ op = .time l ∨ ((∀ ts, op ≠ .time ts) ∧ x.points = l) := by
      cases op with
      | time ts =>
        unfold FObj.setItem
        simp only
        rw [if_pos (hl ts (List.mem_cons_self ..))]
        refine ⟨rfl, fun l => ?_⟩
        simp
      | col key value =>
        have e : (x.setItem (.col key value)).2.points = x.points ∧
            (x.setItem (.col key value)).2.F.times = x.F.times := by
          unfold FObj.setItem
          simp only
          split
          · exact ⟨rfl, rfl⟩
          · split
            · exact ⟨rfl, rfl⟩
            · split
              · exact ⟨rfl, rfl⟩
              · exact ⟨rfl, (setColumn_parts _ _ _).1⟩
        refine ⟨by rw [e.1, e.2]; exact hx, fun l => ?_⟩
        rw [e.1]
        simp
    obtain ⟨i1, i2⟩ := ih step.1 fun ts hts => by
      rw [hlen]
      exact hl ts (List.mem_cons_of_mem _ hts)
    refine ⟨i1, fun l => ?_⟩
    simp only [FObj.assign]
    rw [i2, step.2]
    constructor
    · rintro (⟨pre, post, rfl, hp⟩ | ⟨hno, rfl | ⟨hop, h⟩⟩)
      · exact .inl ⟨op :: pre, post, rfl, hp⟩
      · exact .inl ⟨[], ops, rfl, hno⟩
      · refine .inr ⟨fun ts hts => ?_, h⟩
        rcases List.mem_cons.1 hts with h' | h'
        · exact hop ts h'.symm
        · exact hno ts h'
    · rintro (⟨pre, post, he, hp⟩ | ⟨hno, h⟩)
      · cases pre with
        | nil =>
          simp only [List.nil_append, List.cons.injEq] at he
          obtain ⟨rfl, rfl⟩ := he
          exact .inr ⟨hp, .inl rfl⟩
        | cons a pre =>
          simp only [List.cons_append, List.cons.injEq] at he
          obtain ⟨rfl, rfl⟩ := he
          exact .inl ⟨pre, post, rfl, hp⟩
      · exact .inr ⟨fun ts h' => hno ts (List.mem_cons_of_mem _ h'),
          .inr ⟨fun ts h' => hno ts (by rw [h']; exact List.mem_cons_self ..), h⟩⟩

/-- C64: the years are those of the times, whatever is assigned to `"year"`. -/
theorem C64_year (x : FObj K) (value : ColArg K) :
    (x.setItem (.col "year" value)).2.getItem "year" = x.getItem "year" := by
  have : (x.setItem (.col "year" value)).2.points = x.points := by
    unfold FObj.setItem
    simp only
    split
    · rfl
    · split
      · rfl
      · split <;> rfl
  unfold FObj.getItem
  simp [this]

/-- C64: several columns at once are these columns; here `"year"` is the column that was assigned. -/
theorem C64_several (x : FObj K) (keys : List String) (ls : List (List (PyVal K))) :
    x.getItems keys = .ok (.columns ls) ↔
      (∀ c ∈ keys, c ∈ x.F.cols) ∧ ls = keys.map fun c => x.F.meta.map fun r => rowVal x.F.cols r.2 c := by
  have key : (∀ c ∈ keys, c ∈ x.F.cols) →
      x.F.columnsOf keys = .ok (keys.map fun c => x.F.meta.map fun r => rowVal x.F.cols r.2 c) := by
    induction keys with
    | nil => exact fun _ => rfl
    | cons c keys ih =>
      intro h
      unfold DFrame.columnsOf
      rw [column_eq (h c (List.mem_cons_self ..)), ih fun d hd => h d (List.mem_cons_of_mem _ hd)]
      rfl
  unfold FObj.getItems
  by_cases h : ∀ c ∈ keys, c ∈ x.F.cols
  · rw [if_pos h, key h]
    simp only [Except.map, Except.ok.injEq, ItemRes.columns.injEq]
    exact ⟨fun e => ⟨h, e.symm⟩, fun e => e.2.symm⟩
  · rw [if_neg h]
    simp [h]

/-! ## Examples and counterexamples -/

/-- A frame with two timeseries and three times. -/
def itemX : FObj ℚ :=
  { points := [0, 10, 20]
    F := { times := [0, 10, 20], cols := ["model", "scenario", "region", "variable", "unit"]
           data := [(0, [.num 1, .num 2, .num 3]), (1, [.num 4, .num 5, .num 6])]
           «meta» := [(0, [.str "m", .str "s", .str "World", .str "a", .str "K"]),
             (1, [.str "m", .str "s", .str "World", .str "b", .str "K"])] } }

theorem itemX_ok : itemX.F.Ok :=
  ⟨by decide +kernel, by decide +kernel, by decide +kernel, by decide +kernel, by decide +kernel⟩

/-- A column assigned twice, the second time in vain. -/
example : (itemX.assign [.col "run" (.list [.int 1, .int 2]), .time [5, 6, 7], .col "run" (.list [.int 9])]).getItem "run" =
    .ok (.column [.int 1, .int 2]) := by
  refine (C64_column itemX_ok (by decide +kernel) _ (by decide) (by decide) (by decide) _).2 (.inl ⟨_, ⟨[], _, _, rfl, .list rfl, ?_⟩, rfl⟩)
  intro v l' hv hf
  simp only [List.mem_cons, List.not_mem_nil, or_false, reduceCtorEq, false_or, ItemOp.col.injEq, true_and] at hv
  subst hv
  cases hf with
  | list h => exact absurd h (by decide +kernel)

/-- Times assigned twice. -/
example : (itemX.assign [.time [5, 6, 7], .col "run" (.scalar (.int 1)), .time [8, 9, 10]]).getItem "time" =
    .ok (.times [8, 9, 10]) := by
  refine ((C64_time_partial rfl _ ?_).2 _).2 (.inl ⟨[_, _], [], rfl, by simp⟩)
  intro ts h
  simp at h
  rcases h with rfl | rfl <;> rfl

/-- A list of the wrong length is refused, one value for all is accepted. -/
example : (itemX.setItem (.col "run" (.list [.int 1]))).1 = some .valueError ∧
    (itemX.setItem (.col "run" (.scalar (.int 1)))).1 = none ∧ (itemX.setItem (.col "" (.scalar (.int 1)))).1 = some .valueError ∧
    (itemX.assign [.col "run" (.scalar (.int 1))]).getItem "run" = .ok (.column [.int 1, .int 1]) ∧
    itemX.getItem "run" = .error .keyError ∧ itemX.getItems ["run", "unit"] = .error .keyError ∧
    itemX.getItems ["unit", "variable"] = .ok (.columns [[.str "K", .str "K"], [.str "a", .str "b"]]) := by decide +kernel

/-- C64 does not hold for times of the wrong length: they are refused, but then they are what is read, while the values
still belong to the old ones. -/
theorem C64_refused_time : (itemX.setItem (.time [5, 6])).1 = some .valueError ∧
    (itemX.setItem (.time [5, 6])).2.getItem "time" = .ok (.times [5, 6]) ∧
    (itemX.setItem (.time [5, 6])).2.F.times = [0, 10, 20] := by decide +kernel

/-- C64 does not hold for `"year"`: the assignment is accepted and the years of the times are read. -/
theorem C64_year_ignored : (itemX.setItem (.col "year" (.scalar (.int 2000)))).1 = none ∧
    (itemX.setItem (.col "year" (.scalar (.int 2000)))).2.getItem "year" = .ok (.years [1970, 1970, 1970]) ∧
    (itemX.setItem (.col "year" (.scalar (.int 2000)))).2.getItems ["year"] = .ok (.columns [[.int 2000, .int 2000]]) := by
  decide +kernel

end Openscm
