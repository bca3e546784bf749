import Verif.FrameSession

/-!
# What frames are made from (model) and C88

The constructor of frames, `openscm/scmdataframe/base.py:297-395`, takes arrays with columns, frames, tables of pandas
and pyam, and names of files. `append` and `df_append` take all of these too, and make frames of them first.

Simplifications: files are what pandas reads from them; of the arguments for pandas only `sheet_name` is modelled, with a
string. A series is a table with one column.
-/

set_option linter.unusedSectionVars false

namespace Openscm

variable {K : Type} [Field K] [LinearOrder K] [IsStrictOrderedRing K]

/-- A file: what `pd.read_csv` reads from it, and the sheets that `pd.ExcelFile` finds in it, if it can be read so. -/
structure DataFile (K : Type) where
  csv : Option (Table K)
  sheets : Option (List (String × Table K))

/-- Errors: `OSError` for files that do not exist, what pandas raises if it cannot read a file or find a sheet, and all
others. -/
inductive LoadErr
  | noFile
  | reader
  | frame (e : Err)
  deriving DecidableEq

/-- `pd.read_excel(fname, sheet_name=sheet)`; by default the first sheet. -/
def readExcel (sheets : List (String × Table K)) : Option String → Except LoadErr (Table K)
  | none =>
    match sheets with
    | [] => .error .reader
    | s :: _ => .ok s.2
  | some n =>
    match sheets.find? fun s => s.1 = n with
    | none => .error .reader
    | some s => .ok s.2

/-- `_read_pandas`, `openscm/scmdataframe/base.py:70-105`. `read_csv` has no argument `sheet_name`. -/
def readPandas (files : String → Option (DataFile K)) (fname : String) (sheet : Option String) : Except LoadErr (Table K) :=
  match files fname with
  | none => .error .noFile
  | some f =>
    if "csv".toList.isSuffixOf fname.toList then
      if sheet ≠ none then .error (.frame .typeError)
      else
        match f.csv with
        | none => .error .reader
        | some T => .ok T
    else
      match f.sheets with
      | none => .error .reader
      | some sheets => readExcel sheets (if 1 < sheets.length ∧ sheet = none then some "data" else sheet)

/-- What a frame can be made from. -/
inductive Source (K : Type)
  /-- with `index` and `columns` -/
  | array (n : Nat) (array : List (List (Fl K))) (times : List Int) (columns : List (String × ColArg K))
      (hk : (columns.map (·.1)).Nodup)
  | frame (x : FObj K)
  /-- a table or a series of pandas -/
  | table (T : Table K)
  /-- an `IamDataFrame` with this `data` -/
  | iam (T : Table K)
  | file (fname : String)
  /-- a list; its items are strings or not -/
  | list (items : List Bool)
  /-- anything else -/
  | other

/-- Errors of functions that know no files. -/
def liftErr {α : Type} : Except Err α → Except LoadErr α
  | .error e => .error (.frame e)
  | .ok a => .ok a

/-- The constructor, `openscm/scmdataframe/base.py:365-395`, and `_read_file`, `openscm/scmdataframe/base.py:47-67`. -/
def makeFrame (files : String → Option (DataFile K)) (clock : Clock) (sheet : Option String) : Source K → Except LoadErr (FObj K)
  | .array n array times columns _ => liftErr ((fromTs n array times columns).map DFrame.fresh)
  | .frame x => .ok x.F.sortMeta.fresh
  | .table T => liftErr ((fromTable clock T).map DFrame.fresh)
  | .iam T => liftErr ((fromTable clock T).map DFrame.fresh)
  | .file fname =>
    match readPandas files fname sheet with
    | .error e => .error e
    | .ok T => liftErr ((fromTable clock T).map DFrame.fresh)
  | .list [] => .error (.frame .indexError)
  | .list (true :: _) => .error (.frame .valueError)
  | .list (false :: _) => .error (.frame .typeError)
  | .other => .error (.frame .typeError)

/-- `df if isinstance(df, ScmDataFrameBase) else ScmDataFrameBase(df)`, `openscm/scmdataframe/base.py:1484-1486`. -/
def castFrame (files : String → Option (DataFile K)) (clock : Clock) (sheet : Option String) : Source K → Except LoadErr (FObj K)
  | .frame x => .ok x
  | s => makeFrame files clock sheet s

def castFrames (files : String → Option (DataFile K)) (clock : Clock) : List (Source K) → Except LoadErr (List (FObj K))
  | [] => .ok []
  | s :: ss =>
    match castFrame files clock none s with
    | .error e => .error e
    | .ok x =>
      match castFrames files clock ss with
      | .error e => .error e
      | .ok xs => .ok (x :: xs)

/-- `df_append`, `openscm/scmdataframe/base.py:1437-1541`: what it returns, and what becomes of the list it is given. -/
def appendSources (files : String → Option (DataFile K)) (clock : Clock) (ss : List (Source K)) (msg : DupMsg) (inplace : Bool) :
    Except LoadErr (Option (Appended K)) × List (Source K) :=
  match castFrames files clock ss with
  | .error e => (.error e, ss)
  | .ok xs =>
    match dfAppend (xs.map (·.F)) msg with
    | .error e => (.error (.frame e), ss)
    | .ok (.joint data) => (.ok (some (.joint data)), ss)
    | .ok (.frame R) =>
      if inplace then
        match ss with
        | .frame _ :: rest => (.ok none, .frame R.fresh :: rest)
        | _ => (.error (.frame .typeError), ss)
      else (.ok (some (.frame R)), ss)

/-- `append`, `openscm/scmdataframe/base.py:1318-1359`: what it returns, and what becomes of the frame. -/
def FObj.appendSource (files : String → Option (DataFile K)) (clock : Clock) (x : FObj K) (s : Source K) (sheet : Option String)
    (msg : DupMsg) (inplace : Bool) : Except LoadErr (Option (Appended K)) × FObj K :=
  match castFrame files clock sheet s with
  | .error e => (.error e, x)
  | .ok y =>
    match appendSources files clock [.frame x, .frame y] msg inplace with
    | (r, .frame x' :: _) => (r, x')
    | (r, _) => (r, x)

/-! ## C88: specification -/

/-- `T` is the sheet called `n`: the first one, if there are several. -/
def IsSheet (sheets : List (String × Table K)) (n : String) (T : Table K) : Prop :=
  ∃ pre post, sheets = pre ++ (n, T) :: post ∧ ∀ s ∈ pre, s.1 ≠ n

/-- The table that is read from a file with a name. -/
inductive ReadsFile (files : String → Option (DataFile K)) (fname : String) : Option String → Table K → Prop
  | csv {f : DataFile K} {T : Table K} (stem : String) : files fname = some f → fname = stem ++ "csv" → f.csv = some T →
      ReadsFile files fname none T
  | single {f : DataFile K} {n : String} {T : Table K} : files fname = some f → (∀ stem : String, fname ≠ stem ++ "csv") →
      f.sheets = some [(n, T)] → ReadsFile files fname none T
  | several {f : DataFile K} {sheets : List (String × Table K)} {T : Table K} : files fname = some f →
      (∀ stem : String, fname ≠ stem ++ "csv") → f.sheets = some sheets → 2 ≤ sheets.length → IsSheet sheets "data" T →
      ReadsFile files fname none T
  | named {f : DataFile K} {sheets : List (String × Table K)} {n : String} {T : Table K} : files fname = some f →
      (∀ stem : String, fname ≠ stem ++ "csv") → f.sheets = some sheets → IsSheet sheets n T → ReadsFile files fname (some n) T

/-! ## Facts -/

theorem suffix_csv (fname : String) : "csv".toList.isSuffixOf fname.toList = true ↔ ∃ stem : String, fname = stem ++ "csv" := by
  rw [List.isSuffixOf_iff_suffix]
  constructor
  · rintro ⟨t, ht⟩
    refine ⟨String.ofList t, ?_⟩
    apply String.toList_inj.1
    rw [String.toList_append, String.toList_ofList, ht]
  · rintro ⟨stem, rfl⟩
    exact ⟨stem.toList, (String.toList_append ..).symm⟩

theorem find_sheet {sheets : List (String × Table K)} {n : String} {T : Table K} :
    (∃ s, sheets.find? (fun s => s.1 = n) = some s ∧ s.2 = T) ↔ IsSheet sheets n T := by
  constructor
  · rintro ⟨s, hs, rfl⟩
    obtain ⟨h1, pre, post, rfl, h2⟩ := List.find?_eq_some_iff_append.1 hs
    have h1 : s.1 = n := by simpa using h1
    exact ⟨pre, post, by rw [← h1], fun a ha => by simpa using h2 a ha⟩
  · rintro ⟨pre, post, rfl, h⟩
    exact ⟨(n, T), List.find?_eq_some_iff_append.2 ⟨by simp, pre, post, rfl, fun a ha => by simpa using h a ha⟩, rfl⟩

theorem readExcel_named {sheets : List (String × Table K)} {n : String} {T : Table K} :
    readExcel sheets (some n) = .ok T ↔ IsSheet sheets n T := by
  rw [← find_sheet]
  simp only [readExcel]
  cases h : sheets.find? (fun s => s.1 = n) with
  | none => simp
  | some s => simp

theorem readPandas_iff {files : String → Option (DataFile K)} {fname : String} {sheet : Option String} {T : Table K} :
    readPandas files fname sheet = .ok T ↔ ReadsFile files fname sheet T := by
  unfold readPandas
  constructor
  · intro h
    split at h
    · cases h
    rename_i f hf
    split at h
    · rename_i hs
      obtain ⟨stem, hs⟩ := (suffix_csv fname).1 hs
      split at h
      · cases h
      rename_i hn
      rw [not_not] at hn
      subst hn
      split at h
      · cases h
      rename_i T' hT
      cases h
      exact .csv stem hf hs hT
    · rename_i hs
      have hs : ∀ stem : String, fname ≠ stem ++ "csv" := fun stem e => hs ((suffix_csv fname).2 ⟨stem, e⟩)
      split at h
      · cases h
      rename_i sheets hsh
      split at h
      · rename_i hc
        obtain ⟨h2, rfl⟩ := hc
        exact .several hf hs hsh h2 (readExcel_named.1 h)
      · rename_i hc
        cases sheet with
        | some n => exact .named hf hs hsh (readExcel_named.1 h)
        | none =>
          cases sheets with
          | nil => cases h
          | cons s l =>
            cases l with
            | nil =>
              simp only [readExcel, Except.ok.injEq] at h
              subst h
              exact .single (n := s.1) hf hs hsh
            | cons s' l => exact absurd ⟨by simp, rfl⟩ hc
  · intro h
    have hno : (∀ stem : String, fname ≠ stem ++ "csv") → ¬ "csv".toList.isSuffixOf fname.toList = true := fun h e =>
      let ⟨stem, e⟩ := (suffix_csv fname).1 e
      h stem e
    cases h with
    | csv stem hf hs hT => rw [hf]; simp only; rw [if_pos ((suffix_csv fname).2 ⟨stem, hs⟩), if_neg (by simp), hT]
    | single hf hs hsh => rw [hf]; simp only; rw [if_neg (hno hs), hsh]; simp [readExcel]
    | several hf hs hsh h2 hT =>
      rw [hf]; simp only; rw [if_neg (hno hs), hsh]; simp only
      rw [if_pos ⟨h2, trivial⟩]
      exact readExcel_named.2 hT
    | named hf hs hsh hT =>
      rw [hf]; simp only; rw [if_neg (hno hs), hsh]; simp only
      rw [if_neg (by simp)]
      exact readExcel_named.2 hT

theorem sortedCols_idem (cols : List String) : sortedCols (sortedCols cols) = sortedCols cols := by
  unfold sortedCols
  congr 1
  have : (requiredCols ++ (cols.filter fun c => c ∉ requiredCols).insertionSort (· ≤ ·)).filter (fun c => decide (c ∉ requiredCols)) =
      (cols.filter fun c => c ∉ requiredCols).insertionSort (· ≤ ·) := by
    rw [List.filter_append]
    rw [List.filter_eq_nil_iff.2 (by intro a ha; simpa using ha), List.nil_append, List.filter_eq_self]
    intro a ha
    rw [List.mem_insertionSort, List.mem_filter] at ha
    exact ha.2
  rw [this]
  exact (List.pairwise_insertionSort _ _).insertionSort_eq

theorem selectCols_self {cols : List String} (hn : cols.Nodup) {row : List (PyVal K)} (hl : row.length = cols.length) :
    selectCols cols cols row = row := by
  unfold selectCols
  apply List.ext_getElem
  · simp [hl]
  · intro i h1 h2
    rw [List.getElem_map, hn.idxOf_getElem, List.getD_eq_getElem?_getD, List.getElem?_eq_getElem h2, Option.getD_some]

theorem sortMeta_sorted {F G : DFrame K} (hF : F.Ok) (h : F = G.sortMeta) : F.sortMeta = F := by
  have hc : sortedCols F.cols = F.cols := by
    rw [h]
    exact sortedCols_idem G.cols
  have hm : (F.meta.map fun r => (r.1, selectCols F.cols F.cols r.2)) = F.meta := by
    conv_rhs => rw [← List.map_id F.meta]
    refine List.map_congr_left fun r hr => ?_
    rw [selectCols_self hF.cols_nodup (hF.meta_len r hr)]
    rfl
  unfold DFrame.sortMeta
  rw [hc, hm]

theorem liftErr_ok {α : Type} {r : Except Err α} {a : α} : liftErr r = .ok a ↔ r = .ok a := by
  cases r <;> simp [liftErr]

theorem fromTable_sorted {clock : Clock} {T : Table K} {F : DFrame K} (h : fromTable clock T = .ok F) : ∃ G, F = DFrame.sortMeta G := by
  by_cases hv : T.HasCol "value"
  · obtain ⟨tc, cols, hf⟩ := long_facts hv h
    exact ⟨_, hf.res⟩
  · unfold fromTable at h
    split at h
    · cases h
    rw [if_neg fun h => hv (mem_labels.1 h)] at h
    unfold fromWide at h
    repeat' split at h
    all_goals cases h
    exact ⟨_, rfl⟩

theorem fresh_made {F : DFrame K} {y : FObj K} (h : F.fresh.Sound) (hG : ∃ G, F = DFrame.sortMeta G) (hy : y = F.fresh) :
    y.Sound ∧ y.points = y.F.times ∧ y.F.sortMeta = y.F := by
  subst hy
  obtain ⟨G, hG⟩ := hG
  exact ⟨h, rfl, sortMeta_sorted h.ok hG⟩

theorem table_made {clock : Clock} {T : Table K} {y : FObj K} (h : liftErr ((fromTable clock T).map DFrame.fresh) = .ok y) :
    y.Sound ∧ y.points = y.F.times ∧ y.F.sortMeta = y.F := by
  rw [liftErr_ok] at h
  cases hT : fromTable clock T with
  | error e => rw [hT] at h; cases h
  | ok F =>
    rw [hT] at h
    exact fresh_made (fromTable_sound hT) (fromTable_sorted hT) (Except.ok.inj h).symm

theorem made_sorted {files : String → Option (DataFile K)} {clock : Clock} {sheet : Option String} {s : Source K} {y : FObj K}
    (hs : ∀ x, s = .frame x → x.Sound) (h : makeFrame files clock sheet s = .ok y) :
    y.Sound ∧ y.points = y.F.times ∧ y.F.sortMeta = y.F := by
  cases s with
  | array n array times columns hk =>
    simp only [makeFrame, liftErr_ok] at h
    cases hT : fromTs n array times columns with
    | error e => rw [hT] at h; cases h
    | ok F =>
      rw [hT] at h
      obtain ⟨-, -, cs, -, hG⟩ := fromTs_ok hT
      exact fresh_made (fromTs_sound hk hT) ⟨_, hG⟩ (Except.ok.inj h).symm
  | frame x =>
    exact fresh_made (DFrame.fresh_sound (hs x rfl).ok.sortMeta (sortMeta_req _)) ⟨_, rfl⟩ (Except.ok.inj h).symm
  | table T => exact table_made h
  | iam T => exact table_made h
  | file fname =>
    simp only [makeFrame] at h
    split at h
    · cases h
    · exact table_made h
  | list items =>
    cases items with
    | nil => cases h
    | cons b l => cases b <;> cases h
  | other => cases h

/-! ## C88 -/

/-- C88: a frame is made from the table that is read from the file; a name that ends in `csv` means a csv file, any other
a workbook, of which the only sheet is read, or the sheet `data` if there are several, or the one that was asked for. -/
theorem C88_file (files : String → Option (DataFile K)) (clock : Clock) (fname : String) (sheet : Option String) (y : FObj K) :
    makeFrame files clock sheet (.file fname) = .ok y ↔
      ∃ T, ReadsFile files fname sheet T ∧ makeFrame files clock none (.table T) = .ok y := by
  simp only [makeFrame]
  constructor
  · intro h
    split at h
    · cases h
    · rename_i T hT
      exact ⟨T, readPandas_iff.1 hT, h⟩
  · rintro ⟨T, hT, h⟩
    rw [readPandas_iff.2 hT]
    exact h

/-- C88: what is no source is refused, and with which errors: files that do not exist, lists and all else. -/
theorem C88_refused (files : String → Option (DataFile K)) (clock : Clock) (sheet : Option String) :
    (∀ fname, files fname = none → makeFrame files clock sheet (.file fname) = .error .noFile) ∧
    (∀ l, makeFrame files clock sheet (.list (true :: l)) = .error (.frame .valueError)) ∧
    (∀ l, makeFrame files clock sheet (.list (false :: l)) = .error (.frame .typeError)) ∧
    makeFrame files clock sheet (.list []) = .error (.frame .indexError) ∧
    makeFrame files clock sheet (Source.other (K := K)) = .error (.frame .typeError) :=
  ⟨fun fname h => by simp [makeFrame, readPandas, h], fun _ => rfl, fun _ => rfl, rfl, rfl⟩

/-- C88: a frame made from a frame has the values, times and metadata of the data of that frame, with the columns in order:
the required ones, then the others sorted. Also its time points are those of the data, whatever those of the other frame
are. -/
theorem C88_frame (files : String → Option (DataFile K)) (clock : Clock) (sheet : Option String) {x : FObj K} (hx : x.Sound) :
    ∃ y, makeFrame files clock sheet (.frame x) = .ok y ∧ y.Sound ∧ y.points = x.F.times ∧ y.F.times = x.F.times ∧
      y.F.data = x.F.data ∧ y.F.meta.map (·.1) = x.F.meta.map (·.1) ∧ y.F.cols.take 5 = ["model", "scenario", "region", "variable", "unit"] ∧
      (y.F.cols.drop 5).Pairwise (· < ·) ∧ (∀ c, c ∈ y.F.cols ↔ c ∈ x.F.cols) ∧
      ∀ i c v, y.F.HasMeta i c v ↔ x.F.HasMeta i c v := by
  have hs := made_sorted (files := files) (clock := clock) (sheet := sheet) (s := .frame x) (fun _ h => Source.frame.inj h ▸ hx) rfl
  refine ⟨_, rfl, hs.1, rfl, rfl, rfl, by simp [DFrame.fresh, DFrame.sortMeta, Function.comp_def], rfl, ?_, fun c => sortedCols_mem hx.req, fun i c v =>
    DFrame.sortMeta_hasMeta hx.ok.meta_len hx.ok.cols_nodup hx.req⟩
  have hn : ((x.F.cols.filter fun c => c ∉ requiredCols).insertionSort (· ≤ ·)).Nodup :=
    (List.perm_insertionSort _ _).nodup_iff.2 (hx.ok.cols_nodup.filter _)
  have hp := List.pairwise_insertionSort (· ≤ ·) (x.F.cols.filter fun c => c ∉ requiredCols)
  exact (hp.and hn).imp fun h => lt_of_le_of_ne h.1 h.2

/-- C88: making a frame from one that was just made, from whatever, changes nothing. -/
theorem C88_again (files : String → Option (DataFile K)) (clock : Clock) (sheet sheet' : Option String) {s : Source K}
    (hs : ∀ x, s = .frame x → x.Sound) {y : FObj K} (h : makeFrame files clock sheet s = .ok y) :
    y.Sound ∧ makeFrame files clock sheet' (.frame y) = .ok y := by
  obtain ⟨h1, h2, h3⟩ := made_sorted hs h
  refine ⟨h1, ?_⟩
  simp only [makeFrame, h3, DFrame.fresh, ← h2]

end Openscm
