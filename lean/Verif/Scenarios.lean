import Verif.FrameSource2
import Verif.FrameIam2
import Verif.FrameTable2
import Verif.GasProps

/-!
# The scenarios that come with openscm (model) and C104

`openscm/scenarios/__init__.py` appends four files with emissions. The files have the same columns, years, variables and
units; they differ in model, scenario and values. The values are arguments here.

Simplifications: files are what pandas reads from them; which texts are dates, and which dates, is a parameter.
-/

set_option linter.unusedSectionVars false

namespace Openscm

variable {K : Type} [Field K] [LinearOrder K] [IsStrictOrderedRing K]

/-! ## Model -/

/-- The files in `openscm/scenarios`, and the models and scenarios in them (columns 1 and 2 of
`openscm/scenarios/rcp26_emissions.csv:2` and so on). -/
def rcpFiles : List (String × String × String) :=
  [("rcp26", "IMAGE", "RCP26"), ("rcp45", "MiniCAM", "RCP45"), ("rcp60", "AIM", "RCP60"), ("rcp85", "MESSAGE", "RCP85")]

/-- Variables and units, `openscm/scenarios/rcp26_emissions.csv:2-40` (columns 4 and 5), the same in all files. -/
def rcpSeries : List (String × String) :=
  [("Emissions|BC", "Mt BC / yr"), ("Emissions|C2F6", "kt C2F6 / yr"), ("Emissions|C6F14", "kt C6F14 / yr"),
    ("Emissions|CCl4", "kt CCl4 / yr"), ("Emissions|CF4", "kt CF4 / yr"), ("Emissions|CFC11", "kt CFC11 / yr"),
    ("Emissions|CFC113", "kt CFC113 / yr"), ("Emissions|CFC114", "kt CFC114 / yr"),
    ("Emissions|CFC115", "kt CFC115 / yr"), ("Emissions|CFC12", "kt CFC12 / yr"), ("Emissions|CH3Br", "kt CH3Br / yr"),
    ("Emissions|CH3CCl3", "kt CH3CCl3 / yr"), ("Emissions|CH3Cl", "kt CH3Cl / yr"), ("Emissions|CH4", "Mt CH4 / yr"),
    ("Emissions|CO", "Mt CO / yr"), ("Emissions|CO2|MAGICC AFOLU", "Gt C / yr"),
    ("Emissions|CO2|MAGICC Fossil and Industrial", "Gt C / yr"), ("Emissions|HCFC141b", "kt HCFC141b / yr"),
    ("Emissions|HCFC142b", "kt HCFC142b / yr"), ("Emissions|HCFC22", "kt HCFC22 / yr"),
    ("Emissions|HFC125", "kt HFC125 / yr"), ("Emissions|HFC134a", "kt HFC134a / yr"),
    ("Emissions|HFC143a", "kt HFC143a / yr"), ("Emissions|HFC227ea", "kt HFC227ea / yr"),
    ("Emissions|HFC23", "kt HFC23 / yr"), ("Emissions|HFC245fa", "kt HFC245fa / yr"),
    ("Emissions|HFC32", "kt HFC32 / yr"), ("Emissions|HFC4310", "kt HFC4310 / yr"),
    ("Emissions|Halon1202", "kt Halon1202 / yr"), ("Emissions|Halon1211", "kt Halon1211 / yr"),
    ("Emissions|Halon1301", "kt Halon1301 / yr"), ("Emissions|Halon2402", "kt Halon2402 / yr"),
    ("Emissions|N2O", "Mt N2ON / yr"), ("Emissions|NH3", "Mt N / yr"), ("Emissions|NMVOC", "Mt NMVOC / yr"),
    ("Emissions|NOx", "Mt N / yr"), ("Emissions|OC", "Mt OC / yr"), ("Emissions|SF6", "kt SF6 / yr"),
    ("Emissions|SOx", "Mt S / yr")]

/-- The years, `openscm/scenarios/rcp26_emissions.csv:1`. -/
def rcpYears : List Nat := List.range' 1765 736

/-- The label of the column for a year. -/
def yearText (y : Nat) : String := toString y ++ "-01-01 00:00:00"

/-- The header, `openscm/scenarios/rcp26_emissions.csv:1`. -/
def rcpHeader : List String :=
  ["model", "scenario", "region", "variable", "unit", "parameter_type"] ++ rcpYears.map yearText

/-- A row of a file. -/
def rcpRow (m s : String) (vals : Nat → Nat → K) (vu : (String × String) × Nat) : List (PyVal K) :=
  [.str m, .str s, .str "World", .str vu.1.1, .str vu.1.2, .str "average"] ++ rcpYears.map fun y => .flt (.num (vals vu.2 y))

/-- What `pd.read_csv` reads from a file; `vals k y` is the number in row `k` for year `y`. -/
def rcpTable (m s : String) (vals : Nat → Nat → K) : Table K :=
  { index := [], cols := rcpHeader.map .text, rows := rcpSeries.zipIdx.map (rcpRow m s vals) }

/-- The arguments of `df_append`, `openscm/scenarios/__init__.py:26-31`; `here` is the directory. -/
def rcpSources (here : String) : List (Source K) :=
  ["rcp26", "rcp45", "rcp60", "rcp85"].map fun rcp => .file (here ++ "/" ++ rcp ++ "_emissions.csv")

/-- `rcps`, `openscm/scenarios/__init__.py:26-31`. -/
def rcps (files : String → Option (DataFile K)) (clock : Clock) (here : String) : Except LoadErr (Option (Appended K)) :=
  (appendSources files clock (rcpSources here) .warn false).1

/-! ## C104: specification -/

/-- The files are there, with any values. -/
def Shipped (files : String → Option (DataFile K)) (here : String) (vals : Nat → Nat → Nat → K) : Prop :=
  ∀ i f, rcpFiles[i]? = some f → ∃ d, files (here ++ "/" ++ f.1 ++ "_emissions.csv") = some d ∧
    d.csv = some (rcpTable f.2.1 f.2.2 (vals i))

/-- Dates are read as what they say, and `parameter_type` is no date. -/
structure ReadsYears (clock : Clock) : Prop where
  date : ∀ y ∈ rcpYears, clock.looks (yearText y) = true
  other : clock.looks "parameter_type" = false
  read : ∀ ys : List Nat, (∀ y ∈ ys, y ∈ rcpYears) → clock.read (ys.map yearText) = .ok (ys.map fun y : Nat => dateTime y 1 1)

/-- Timeseries `j` has this metadata and no other. -/
structure EmissionsOf (R : DFrame K) (j : Nat) (model scenario var unit : String) : Prop where
  model : R.metaAt j "model" = .str model
  scenario : R.metaAt j "scenario" = .str scenario
  region : R.metaAt j "region" = .str "World"
  var : R.metaAt j "variable" = .str var
  unit : R.metaAt j "unit" = .str unit
  type : R.metaAt j "parameter_type" = .str "average"
  none : ∀ c, c ∉ ["model", "scenario", "region", "variable", "unit", "parameter_type"] →
    R.metaAt j c = .none ∨ R.metaAt j c = .flt .nan

/-! ## The years -/

theorem rcpYears_length : rcpYears.length = 736 := by rw [rcpYears, List.length_range']

/-- Which of two words comes first, for the kernel. -/
def wordBefore : List Char → List Char → Bool
  | _, [] => false
  | [], _ :: _ => true
  | a :: l, b :: m => a.toNat.blt b.toNat || (a.toNat == b.toNat && wordBefore l m)

theorem lt_of_wordBefore {l m : List Char} (h : wordBefore l m = true) : l < m := by
  induction l generalizing m with
  | nil =>
    cases m with
    | nil => cases h
    | cons b m => exact List.nil_lt_cons b m
  | cons a l ih =>
    cases m with
    | nil => cases h
    | cons b m =>
      simp only [wordBefore, Bool.or_eq_true, Bool.and_eq_true, beq_iff_eq, Nat.blt_eq] at h
      rcases h with h | ⟨h, h'⟩
      · exact List.cons_lt_cons_iff.2 (.inl h)
      · exact List.cons_lt_cons_iff.2 (.inr ⟨Char.toNat_inj.1 h, ih h'⟩)

theorem yearText_chars (y : Nat) : (yearText y).toList = Nat.toDigits 10 y ++ "-01-01 00:00:00".toList := by
  rw [yearText, String.toList_append]
  congr 1
  exact Nat.toList_repr

/-- Facts about the digits of the years. -/
theorem digits_ok : (rcpYears.map fun y => Nat.toDigits 10 y).IsChain (fun a b => wordBefore a b = true ∧ a.length = b.length) ∧
    ∀ y ∈ rcpYears, (Nat.toDigits 10 y).map Char.toLower = Nat.toDigits 10 y ∧ (Nat.toDigits 10 y).length = 4 := by
  decide +kernel

attribute [local irreducible] rcpYears rcpSeries

theorem rcpYears_ne : rcpYears ≠ [] := fun h => by
  have := rcpYears_length
  rw [h] at this
  cases this

theorem wordBefore_append {l m : List Char} (x : List Char) (hl : l.length = m.length) (h : wordBefore l m = true) :
    wordBefore (l ++ x) (m ++ x) = true := by
  induction l generalizing m with
  | nil =>
    cases m with
    | nil => cases h
    | cons b m => cases hl
  | cons a l ih =>
    cases m with
    | nil => cases h
    | cons b m =>
      simp only [List.cons_append, wordBefore, Bool.or_eq_true, Bool.and_eq_true] at h ⊢
      exact h.imp id fun h => ⟨h.1, ih (by simpa using hl) h.2⟩

theorem yearText_sorted : (rcpYears.map yearText).Pairwise (· < ·) := by
  rw [← List.isChain_iff_pairwise, List.isChain_map]
  refine ((List.isChain_map _).1 digits_ok.1).imp fun y z h => ?_
  rw [String.lt_iff, yearText_chars, yearText_chars]
  exact lt_of_wordBefore (wordBefore_append _ h.2 h.1)

theorem yearText_lower {y : Nat} (hy : y ∈ rcpYears) : lowerText (yearText y) = yearText y := by
  have h : "-01-01 00:00:00".toList.map Char.toLower = "-01-01 00:00:00".toList := by decide +kernel
  apply String.toList_inj.1
  rw [lowerText, String.toList_ofList, yearText_chars, List.map_append, (digits_ok.2 y hy).1, h]

theorem header_lower : rcpHeader.map lowerText = rcpHeader := by
  have h : ∀ s ∈ ["model", "scenario", "region", "variable", "unit", "parameter_type"], s.toList.map Char.toLower = s.toList := by
    decide +kernel
  conv_rhs => rw [← List.map_id rcpHeader]
  refine List.map_congr_left fun s hs => ?_
  unfold rcpHeader at hs
  rcases List.mem_append.1 hs with hs | hs
  · apply String.toList_inj.1
    rw [lowerText, String.toList_ofList, h s hs]
    rfl
  · obtain ⟨y, hy, rfl⟩ := List.mem_map.1 hs
    exact yearText_lower hy

theorem yearText_other {y : Nat} (hy : y ∈ rcpYears) :
    yearText y ∉ ["model", "scenario", "region", "variable", "unit", "parameter_type"] := by
  have hl : (yearText y).toList.length = 19 := by
    rw [yearText_chars, List.length_append, (digits_ok.2 y hy).2]
    decide +kernel
  intro h
  have : ∀ s ∈ ["model", "scenario", "region", "variable", "unit", "parameter_type"], s.toList.length ≠ 19 := by decide +kernel
  exact this _ h hl

theorem header_nodup : rcpHeader.Nodup := by
  unfold rcpHeader
  rw [List.nodup_append]
  refine ⟨by decide, yearText_sorted.imp fun h => ne_of_lt h, ?_⟩
  intro a ha b hb h
  obtain ⟨y, hy, rfl⟩ := List.mem_map.1 hb
  exact yearText_other hy (h ▸ ha)

/-! ## The frames of the files -/

def rcpFrame (m s : String) (vals : Nat → Nat → K) : DFrame K :=
  { times := rcpYears.map fun y : Nat => dateTime y 1 1
    cols := ["model", "scenario", "region", "variable", "unit", "parameter_type"]
    data := rcpSeries.zipIdx.map fun vu => (vu.2, rcpYears.map fun y => .num (vals vu.2 y))
    «meta» := rcpSeries.zipIdx.map fun vu =>
      (vu.2, [.str m, .str s, .str "World", .str vu.1.1, .str vu.1.2, .str "average"]) }

theorem getD_idxOf {α β γ : Type} [DecidableEq γ] {l : List α} {f : α → β} {g : α → γ} (hn : (l.map g).Nodup) {a : α}
    (ha : a ∈ l) (d : β) : (l.map f).getD ((l.map g).idxOf (g a)) d = f a := by
  obtain ⟨i, hi, rfl⟩ := List.getElem_of_mem ha
  have : (l.map g).idxOf (g l[i]) = i := by
    have := hn.idxOf_getElem i (by simpa using hi)
    rwa [List.getElem_map] at this
  rw [this]
  simp [hi]

theorem rcp_labels (m s : String) (vals : Nat → Nat → K) : (rcpTable m s vals).labels = rcpHeader.map Label.text := by
  conv_rhs => rw [← header_lower]
  simp [Table.labels, rcpTable, Label.lower]

theorem rcp_cell (m s : String) (vals : Nat → Nat → K) (vu : (String × String) × Nat) {y : Nat} (hy : y ∈ rcpYears) :
    cellOf (rcpHeader.map Label.text) (rcpRow m s vals vu) (.text (yearText y)) = .flt (.num (vals vu.2 y)) := by
  have h1 : rcpHeader.idxOf (yearText y) = (rcpYears.map yearText).idxOf (yearText y) + 6 := by
    unfold rcpHeader
    rw [List.idxOf_append_of_notMem (yearText_other hy), Nat.add_comm]
    rfl
  rw [cellOf, idxOf_text, h1, rcpRow]
  simp only [List.cons_append, List.nil_append, List.getD_cons_succ]
  exact getD_idxOf (f := fun y => PyVal.flt (Fl.num (vals vu.2 y))) (yearText_sorted.imp fun h => ne_of_lt h) hy _

theorem rcp_times {clock : Clock} (hc : ReadsYears clock) :
    (rcpHeader.map Label.text).filter (isTimeLabel clock) = (rcpYears.map yearText).map Label.text := by
  unfold rcpHeader
  rw [List.map_append, List.filter_append]
  have h1 : (["model", "scenario", "region", "variable", "unit", "parameter_type"].map Label.text).filter (isTimeLabel clock) = [] := by
    simp [isTimeLabel, requiredCols, hc.other]
  rw [h1, List.nil_append, List.filter_eq_self]
  intro l hl
  simp only [List.mem_map, exists_exists_and_eq_and] at hl
  obtain ⟨y, hy, rfl⟩ := hl
  simp only [isTimeLabel, hc.date y hy, Bool.and_true, decide_eq_true_eq]
  exact fun h => yearText_other hy (by revert h; simp only [requiredCols, List.mem_cons]; tauto)

theorem rcp_extra {clock : Clock} (hc : ReadsYears clock) : extraCols clock (rcpHeader.map Label.text) = ["parameter_type"] := by
  have h0 : (rcpHeader.map Label.text).filterMap textOf = rcpHeader := by
    rw [List.filterMap_map]
    exact List.filterMap_some
  unfold extraCols
  rw [h0]
  unfold rcpHeader
  rw [List.filter_append]
  have h1 : (rcpYears.map yearText).filter (fun s => decide (s ∉ requiredCols ∧ clock.looks s = false)) = [] := by
    rw [List.filter_eq_nil_iff]
    intro l hl
    obtain ⟨y, hy, rfl⟩ := List.mem_map.1 hl
    simp [hc.date y hy]
  rw [h1]
  simp [requiredCols, hc.other]

theorem rcp_order {clock : Clock} (hc : ReadsYears clock) : orderLabels clock ((rcpYears.map yearText).map Label.text) =
    .ok ((rcpYears.map yearText).map Label.text, rcpYears.map fun y : Nat => dateTime y 1 1) := by
  have hl := rcpYears_length
  have h0 : ∀ f : Label → Option Int, (∀ s, f (.text s) = none) →
      (((rcpYears.map yearText).map Label.text).filterMap f).length ≠ ((rcpYears.map yearText).map Label.text).length := by
    intro f hf
    rw [List.filterMap_eq_nil_iff.2]
    · simp [hl]
    · intro a ha
      obtain ⟨s, -, rfl⟩ := List.mem_map.1 ha
      exact hf s
  have h1 : ((rcpYears.map yearText).map Label.text).filterMap textOf = rcpYears.map yearText := by
    rw [List.filterMap_map]
    exact List.filterMap_some
  have h2 : (rcpYears.map yearText).insertionSort (· ≤ ·) = rcpYears.map yearText :=
    (yearText_sorted.imp fun h => le_of_lt h).insertionSort_eq
  unfold orderLabels
  rw [if_neg (h0 _ fun _ => rfl), if_neg (h0 _ fun _ => rfl), h1, if_pos (by simp)]
  simp only [h2, hc.read rcpYears fun y h => h]
  rw [if_pos (by simp)]

theorem mapExcept_of_map {α β γ : Type} {f : β → Except Err γ} {h : α → β} {g : α → γ} {l : List α}
    (hf : ∀ a ∈ l, f (h a) = .ok (g a)) : mapExcept f (l.map h) = .ok (l.map g) := by
  rw [mapExcept_ok, List.forall₂_map_left_iff, List.forall₂_map_right_iff]
  exact List.forall₂_same.2 hf

theorem zipIdx_twice {α β γ : Type} (l : List α) (g : α × Nat → β) (F : Nat → β → γ) :
    (l.zipIdx.map g).zipIdx.map (fun p => F p.2 p.1) = l.zipIdx.map fun q => F q.2 (g q) := by
  apply List.ext_getElem?
  intro i
  simp only [List.getElem?_map, List.getElem?_zipIdx]
  cases l[i]? <;> simp

theorem fromWide_eq {clock : Clock} {labels S S' : List Label} {rows : List (List (PyVal K))} {times : List Int}
    {vals : List (List (Fl K))} (h1 : labels.filter (isTimeLabel clock) = S) (h2 : S ≠ []) (h3 : labels.Nodup)
    (h4 : orderLabels clock S = .ok (S', times)) (h5 : mapExcept (rowFloats labels S') rows = .ok vals) {cols : List String}
    (h6 : requiredCols ++ extraCols clock labels = cols) :
    fromWide clock labels rows = .ok (DFrame.sortMeta
      { times := times, cols := cols
        data := vals.zipIdx.map fun vi => (vi.2, vi.1)
        «meta» := rows.zipIdx.map fun ri => (ri.2, cols.map fun c => cellOf labels ri.1 (.text c)) }) := by
  subst h1 h6
  unfold fromWide
  rw [if_neg h2, if_neg (not_not.2 h3), h4]
  simp only [h5]

theorem rcp_metaCells (m s : String) (vals : Nat → Nat → K) (vu : (String × String) × Nat) :
    (requiredCols ++ ["parameter_type"]).map (fun c => cellOf (rcpHeader.map Label.text) (rcpRow m s vals vu) (.text c)) =
      [.str m, .str s, .str "World", .str vu.1.1, .str vu.1.2, .str "average"] := by
  have h : ∀ c ∈ ["model", "scenario", "region", "variable", "unit", "parameter_type"],
      rcpHeader.idxOf c = ["model", "scenario", "region", "variable", "unit", "parameter_type"].idxOf c := fun c hc => by
    unfold rcpHeader
    rw [List.idxOf_append_of_mem hc]
  have h6 : ["model", "scenario", "region", "variable", "unit", "parameter_type"].map
      (fun c => ["model", "scenario", "region", "variable", "unit", "parameter_type"].idxOf c) = [0, 1, 2, 3, 4, 5] := by
    decide +kernel
  simp only [List.map_cons, List.map_nil, List.cons.injEq, and_true] at h6
  obtain ⟨h0, h1, h2, h3, h4, h5⟩ := h6
  simp only [requiredCols, List.cons_append, List.nil_append, List.map_cons, List.map_nil, cellOf, idxOf_text]
  rw [h _ (by decide), h _ (by decide), h _ (by decide), h _ (by decide), h _ (by decide), h _ (by decide), h0, h1, h2, h3, h4, h5]
  simp only [rcpRow, List.cons_append, List.nil_append, List.getD_cons_zero, List.getD_cons_succ]

theorem rcp_made {clock : Clock} (hc : ReadsYears clock) (m s : String) (vals : Nat → Nat → K) :
    fromTable clock (rcpTable m s vals) = .ok (rcpFrame m s vals) := by
  have hmem : ∀ c, Label.text c ∈ rcpHeader.map Label.text ↔ c ∈ rcpHeader := by simp
  have hv : "value" ∉ rcpHeader := by
    unfold rcpHeader
    rw [List.mem_append, not_or]
    refine ⟨by decide, fun h => ?_⟩
    obtain ⟨y, hy, h⟩ := List.mem_map.1 h
    have hl : (yearText y).toList.length = 19 := by
      rw [yearText_chars, List.length_append, (digits_ok.2 y hy).2]
      decide +kernel
    rw [h] at hl
    revert hl
    decide +kernel
  have hr : ∀ c ∈ requiredCols, c ∈ rcpHeader := by
    intro c hc
    unfold rcpHeader
    refine List.mem_append_left _ ?_
    revert hc
    simp only [requiredCols, List.mem_cons]
    tauto
  unfold fromTable
  rw [rcp_labels, if_neg (by simpa only [not_not, hmem] using hr), if_neg (by rwa [hmem])]
  have hne : (rcpYears.map yearText).map Label.text ≠ [] := by simpa using rcpYears_ne
  have hnd : (rcpHeader.map Label.text).Nodup := header_nodup.map fun a b h => Label.text.inj h
  have hrow : mapExcept (rowFloats (rcpHeader.map Label.text) ((rcpYears.map yearText).map Label.text)) (rcpTable m s vals).rows =
      .ok (rcpSeries.zipIdx.map fun vu => rcpYears.map fun y => Fl.num (vals vu.2 y)) := by
    refine mapExcept_of_map fun vu _ => ?_
    rw [rowFloats, List.map_map]
    refine mapExcept_of_map fun y hy => ?_
    simp only [Function.comp_apply, rcp_cell m s vals vu hy, cellFloat]
  rw [fromWide_eq (rcp_times hc) hne hnd (rcp_order hc) hrow (congrArg (requiredCols ++ ·) (rcp_extra hc))]
  have hcell := rcp_metaCells m s vals
  have hcols : sortedCols (requiredCols ++ ["parameter_type"]) =
      ["model", "scenario", "region", "variable", "unit", "parameter_type"] := by decide +kernel
  have hsel : ∀ vu : (String × String) × Nat, selectCols (requiredCols ++ ["parameter_type"])
      ["model", "scenario", "region", "variable", "unit", "parameter_type"]
      ([.str m, .str s, .str "World", .str vu.1.1, .str vu.1.2, .str "average"] : List (PyVal K)) =
      [.str m, .str s, .str "World", .str vu.1.1, .str vu.1.2, .str "average"] := fun vu =>
    selectCols_self (by decide) rfl
  have hm : ((rcpTable m s vals).rows.zipIdx.map fun ri => (ri.2, (requiredCols ++ ["parameter_type"]).map fun c =>
      cellOf (rcpHeader.map Label.text) ri.1 (.text c))) = (rcpFrame m s vals).meta := by
    refine (zipIdx_twice rcpSeries (rcpRow m s vals) fun i r => (i, (requiredCols ++ ["parameter_type"]).map fun c =>
      cellOf (rcpHeader.map Label.text) r (.text c))).trans (List.map_congr_left fun vu _ => ?_)
    simp only [hcell]
  have hd : ((rcpSeries.zipIdx.map fun vu => rcpYears.map fun y => Fl.num (vals vu.2 y)).zipIdx.map fun vi => (vi.2, vi.1)) =
      (rcpFrame m s vals).data := zipIdx_twice rcpSeries _ fun i r => (i, r)
  rw [hm, hd]
  unfold DFrame.sortMeta
  simp only [hcols]
  have hm2 : ((rcpFrame m s vals).meta.map fun r => (r.1, selectCols (requiredCols ++ ["parameter_type"])
      ["model", "scenario", "region", "variable", "unit", "parameter_type"] r.2)) = (rcpFrame m s vals).meta := by
    unfold rcpFrame
    rw [List.map_map]
    refine List.map_congr_left fun vu _ => ?_
    simp only [Function.comp_apply, hsel]
  rw [hm2]
  rfl

/-! ## Facts about these frames -/

theorem rcpYears_sorted : rcpYears.Pairwise (· < ·) := by
  unfold rcpYears
  exact List.pairwise_lt_range'

theorem rcpTimes_sorted : (rcpYears.map fun y : Nat => dateTime y 1 1).Pairwise (· < ·) := by
  rw [List.pairwise_map]
  refine rcpYears_sorted.imp fun {a b} h => ?_
  rw [← yearToSeconds_date, ← yearToSeconds_date]
  exact yearToSeconds_lt (by exact_mod_cast h)

unseal rcpSeries in
theorem rcpSeries_nodup : (rcpSeries.map (·.1)).Nodup := by decide +kernel

unseal rcpSeries in
theorem rcpSeries_length : rcpSeries.length = 39 := rfl

theorem rcpFrame_ok (m s : String) (vals : Nat → Nat → K) : (rcpFrame m s vals).Ok where
  labels := by simp [rcpFrame, Function.comp_def]
  nodup := by
    simp only [rcpFrame, List.map_map, Function.comp_def, List.zipIdx_map_snd]
    exact List.nodup_range'
  cols_nodup := by
    simp only [rcpFrame]
    decide
  data_len := by
    intro d hd
    simp only [rcpFrame, List.mem_map] at hd
    obtain ⟨vu, _, rfl⟩ := hd
    simp [rcpFrame]
  meta_len := by
    intro d hd
    simp only [rcpFrame, List.mem_map] at hd
    obtain ⟨vu, _, rfl⟩ := hd
    rfl

theorem rcpFrame_req (m s : String) (vals : Nat → Nat → K) : ∀ c ∈ requiredCols, c ∈ (rcpFrame m s vals).cols := by
  simp [rcpFrame, requiredCols]

theorem rcpFrame_metaAt (m s : String) (vals : Nat → Nat → K) {k : Nat} {e : String × String} (h : rcpSeries[k]? = some e) :
    EmissionsOf (rcpFrame m s vals) k m s e.1 e.2 := by
  have hr : (rcpFrame m s vals).meta[k]? = some (k, [.str m, .str s, .str "World", .str e.1, .str e.2, .str "average"]) := by
    simp [rcpFrame, h]
  refine ⟨?_, ?_, ?_, ?_, ?_, ?_, fun c hc => .inl ?_⟩
  all_goals unfold DFrame.metaAt; rw [hr]
  · rfl
  · rfl
  · rfl
  · rfl
  · rfl
  · rfl
  · exact rowVal_absent (by simp [rcpFrame]) hc

theorem rcpFrame_times (m s : String) (vals : Nat → Nat → K) :
    (rcpFrame m s vals).times = rcpYears.map fun y : Nat => dateTime y 1 1 := by
  unfold rcpFrame
  rfl

theorem rcpFrame_valueAt (m s : String) (vals : Nat → Nat → K) {k : Nat} {e : String × String} (h : rcpSeries[k]? = some e)
    {y : Nat} (hy : y ∈ rcpYears) : (rcpFrame m s vals).valueAt k (dateTime y 1 1) = some (vals k y) := by
  have hr : (rcpFrame m s vals).data[k]? = some (k, rcpYears.map fun y => .num (vals k y)) := by
    simp [rcpFrame, h]
  unfold DFrame.valueAt
  rw [hr]
  simp only
  have : (rcpYears.map fun y => Fl.num (vals k y)).getD ((rcpFrame m s vals).times.idxOf (dateTime y 1 1)) .nan = .num (vals k y) := by
    rw [rcpFrame_times]
    exact getD_idxOf (f := fun y => Fl.num (vals k y)) (g := fun y : Nat => dateTime y 1 1) (rcpTimes_sorted.imp fun h => ne_of_lt h) hy _
  rw [this]

theorem rcpFrame_text (m s : String) (vals : Nat → Nat → K) (i : Nat) (c : String) :
    (rcpFrame m s vals).metaAt i c = .none ∨ ∃ t, (rcpFrame m s vals).metaAt i c = .str t := by
  cases h : rcpSeries[i]? with
  | none =>
    left
    have hr : (rcpFrame m s vals).meta[i]? = none := by simp [rcpFrame, h]
    unfold DFrame.metaAt
    rw [hr]
  | some e =>
    have he := rcpFrame_metaAt m s vals h
    by_cases hc : c ∈ ["model", "scenario", "region", "variable", "unit", "parameter_type"]
    · right
      simp only [List.mem_cons, List.not_mem_nil, or_false] at hc
      rcases hc with rfl | rfl | rfl | rfl | rfl | rfl
      · exact ⟨_, he.model⟩
      · exact ⟨_, he.scenario⟩
      · exact ⟨_, he.region⟩
      · exact ⟨_, he.var⟩
      · exact ⟨_, he.unit⟩
      · exact ⟨_, he.type⟩
    · left
      have hr : (rcpFrame m s vals).meta[i]? = some (i, [.str m, .str s, .str "World", .str e.1, .str e.2, .str "average"]) := by
        simp [rcpFrame, h]
      unfold DFrame.metaAt
      rw [hr]
      exact rowVal_absent (by simp [rcpFrame]) hc

theorem SameValue.of_str {v : PyVal K} {t : String} (h : SameValue v (.str t)) : v = .str t := by
  cases h with
  | missing _ h2 => simp at h2
  | equal => rfl

theorem SameValue.of_none {v : PyVal K} (h : SameValue v .none) : v = .none ∨ v = .flt .nan := by
  cases h with
  | missing h1 _ => exact h1
  | equal => exact .inl rfl

theorem SameValue.of_nan {v : PyVal K} (h : SameValue v (.flt .nan)) : v = .none ∨ v = .flt .nan := by
  cases h with
  | missing h1 _ => exact h1
  | equal => exact .inr rfl

theorem EmissionsOf.congr {R F : DFrame K} {i j : Nat} {m s v u : String} (h : SameMeta (R.metaAt j) (F.metaAt i))
    (hF : EmissionsOf F i m s v u) : EmissionsOf R j m s v u where
  model := SameValue.of_str (hF.model ▸ h "model")
  scenario := SameValue.of_str (hF.scenario ▸ h "scenario")
  region := SameValue.of_str (hF.region ▸ h "region")
  var := SameValue.of_str (hF.var ▸ h "variable")
  unit := SameValue.of_str (hF.unit ▸ h "unit")
  type := SameValue.of_str (hF.type ▸ h "parameter_type")
  none c hc := by
    have h := h c
    rcases hF.none c hc with e | e
    · rw [e] at h
      exact h.of_none
    · rw [e] at h
      exact h.of_nan

theorem EmissionsOf.same {R F : DFrame K} {i j : Nat} {m s v u : String} (h : EmissionsOf R j m s v u)
    (hF : EmissionsOf F i m s v u) : SameMeta (R.metaAt j) (F.metaAt i) := by
  intro c
  by_cases hc : c ∈ ["model", "scenario", "region", "variable", "unit", "parameter_type"]
  · simp only [List.mem_cons, List.not_mem_nil, or_false] at hc
    rcases hc with rfl | rfl | rfl | rfl | rfl | rfl
    · rw [h.model, hF.model]; exact .equal _
    · rw [h.scenario, hF.scenario]; exact .equal _
    · rw [h.region, hF.region]; exact .equal _
    · rw [h.var, hF.var]; exact .equal _
    · rw [h.unit, hF.unit]; exact .equal _
    · rw [h.type, hF.type]; exact .equal _
  · exact .missing (h.none c hc) (hF.none c hc)

theorem filterMap_le_one {α β : Type} {P : α → Prop} [DecidablePred P] {f : α → Option β} {l : List α}
    (h : l.Pairwise fun a b => ¬ (P a ∧ P b)) : (l.filterMap fun a => if P a then f a else none).length ≤ 1 := by
  induction l with
  | nil => simp
  | cons a l ih =>
    rw [List.pairwise_cons] at h
    by_cases hP : P a
    · have h0 : (l.filterMap fun a => if P a then f a else none) = [] := by
        rw [List.filterMap_eq_nil_iff]
        intro b hb
        rw [if_neg fun hb' => h.1 b hb ⟨hP, hb'⟩]
      rw [List.filterMap_cons, if_pos hP, h0]
      cases f a <;> simp
    · rw [List.filterMap_cons_none (by rw [if_neg hP])]
      exact ih h.2

/-- The frames of the four files. -/
def rcpFrames (vals : Nat → Nat → Nat → K) : List (DFrame K) :=
  rcpFiles.zipIdx.map fun fi => rcpFrame fi.1.2.1 fi.1.2.2 (vals fi.2)

theorem rcpFrames_mem {vals : Nat → Nat → Nat → K} {F : DFrame K} :
    F ∈ rcpFrames vals ↔ ∃ i f, rcpFiles[i]? = some f ∧ F = rcpFrame f.2.1 f.2.2 (vals i) := by
  unfold rcpFrames
  rw [List.mem_map]
  constructor
  · rintro ⟨⟨f, i⟩, h, rfl⟩
    exact ⟨i, f, by simpa using List.mem_zipIdx' h |>.2 ▸ List.getElem?_eq_getElem (List.mem_zipIdx' h).1, rfl⟩
  · rintro ⟨i, f, h, rfl⟩
    exact ⟨(f, i), List.mk_mem_zipIdx_iff_getElem?.2 h, rfl⟩

theorem rcpFrame_length (m s : String) (vals : Nat → Nat → K) : (rcpFrame m s vals).data.length = rcpSeries.length := by
  simp [rcpFrame]

theorem rcpSeries_inj {i j : Nat} {a b : String × String} (hi : rcpSeries[i]? = some a) (hj : rcpSeries[j]? = some b)
    (h : a.1 = b.1) : i = j := by
  have h1 : (rcpSeries.map (·.1))[i]? = some a.1 := by simp [hi]
  have h2 : (rcpSeries.map (·.1))[j]? = some a.1 := by simp [hj, h]
  have hl : i < (rcpSeries.map (·.1)).length := (List.getElem?_eq_some_iff.1 h1).1
  exact (List.getElem?_inj hl rcpSeries_nodup).1 (h1.trans h2.symm)

theorem rcp_one (vals : Nat → Nat → Nat → K) (m : String → PyVal K) (t : Int) : (valuesFor (rcpFrames vals) m t).length ≤ 1 := by
  classical
  have hval : valuesFor (rcpFrames vals) m t =
      ((rcpFrames vals).flatMap fun F => (List.range F.data.length).map fun i => (F, i)).filterMap
        fun Fi : DFrame K × Nat => if SameMeta m (Fi.1.metaAt Fi.2) then Fi.1.valueAt Fi.2 t else none := by
    unfold valuesFor
    rw [List.filterMap_flatMap]
    refine List.flatMap_congr fun F _ => ?_
    rw [List.filterMap_map]
    rfl
  have key : ∀ {F G : DFrame K} {i j : Nat} {a b c d e f g h : String}, EmissionsOf F i a b c d → EmissionsOf G j e f g h →
      SameMeta m (F.metaAt i) → SameMeta m (G.metaAt j) → b = f ∧ c = g := by
    intro F G i j a b c d e f g h h1 h2 s1 s2
    have a1 := SameValue.of_str (h1.scenario ▸ s1 "scenario")
    have a2 := SameValue.of_str (h2.scenario ▸ s2 "scenario")
    have b1 := SameValue.of_str (h1.var ▸ s1 "variable")
    have b2 := SameValue.of_str (h2.var ▸ s2 "variable")
    exact ⟨PyVal.str.inj (a1.symm.trans a2), PyVal.str.inj (b1.symm.trans b2)⟩
  rw [hval]
  refine filterMap_le_one ?_
  rw [List.pairwise_flatMap]
  constructor
  · intro F hF
    obtain ⟨q, f, hq, rfl⟩ := rcpFrames_mem.1 hF
    rw [List.pairwise_map]
    refine (List.Pairwise.and_mem.1 List.pairwise_lt_range).imp ?_
    rintro i j ⟨hi, hj, hlt⟩ ⟨s1, s2⟩
    rw [List.mem_range, rcpFrame_length] at hi hj
    have e1 := List.getElem?_eq_getElem hi
    have e2 := List.getElem?_eq_getElem hj
    exact absurd (rcpSeries_inj e1 e2 (key (rcpFrame_metaAt _ _ _ e1) (rcpFrame_metaAt _ _ _ e2) s1 s2).2) (Nat.ne_of_lt hlt)
  · unfold rcpFrames
    rw [List.pairwise_map]
    have hd : rcpFiles.zipIdx.Pairwise fun a b => a.1.2.2 ≠ b.1.2.2 := by decide +kernel
    refine hd.imp ?_
    rintro a b hab ⟨F, i⟩ hFi ⟨G, j⟩ hGj ⟨s1, s2⟩
    simp only [List.mem_map, List.mem_range, Prod.mk.injEq] at hFi hGj
    obtain ⟨_, hi, rfl, rfl⟩ := hFi
    obtain ⟨_, hj, rfl, rfl⟩ := hGj
    rw [rcpFrame_length] at hi hj
    exact hab (key (rcpFrame_metaAt _ _ _ (List.getElem?_eq_getElem hi)) (rcpFrame_metaAt _ _ _ (List.getElem?_eq_getElem hj)) s1 s2).1

theorem rcpFrame_distinct (m s : String) (vals : Nat → Nat → K) : DistinctMeta (rcpFrame m s vals) := by
  unfold DistinctMeta rcpFrame
  rw [List.pairwise_map]
  have h : rcpSeries.zipIdx.Pairwise fun a b => a.1.1 ≠ b.1.1 := by
    have := rcpSeries_nodup
    rw [← List.zipIdx_map_fst (l := rcpSeries) 0, List.map_map] at this
    exact List.pairwise_map.1 this
  refine h.imp ?_
  intro a b hab hf
  simp only [List.forall₂_cons] at hf
  exact hab (PyVal.str.inj (SameValue.of_str hf.2.2.2.1))

theorem emissions_csv : "_emissions.csv" = "_emissions." ++ "csv" := by decide +kernel

theorem rcp_cast {files : String → Option (DataFile K)} {clock : Clock} {here : String} {vals : Nat → Nat → Nat → K}
    (h : Shipped files here vals) (hc : ReadsYears clock) :
    castFrames files clock (rcpSources here) = .ok ((rcpFrames vals).map DFrame.fresh) := by
  rw [castFrames_ok]
  unfold rcpSources rcpFrames
  rw [show ["rcp26", "rcp45", "rcp60", "rcp85"] = rcpFiles.zipIdx.map fun fi => fi.1.1 from rfl, List.map_map, List.map_map, List.forall₂_map_left_iff, List.forall₂_map_right_iff]
  refine List.forall₂_same.2 fun fi hfi => ?_
  obtain ⟨d, hd, hcsv⟩ := h fi.2 fi.1 (List.mk_mem_zipIdx_iff_getElem?.1 hfi)
  have hread : ReadsFile files (here ++ "/" ++ fi.1.1 ++ "_emissions.csv") none (rcpTable fi.1.2.1 fi.1.2.2 (vals fi.2)) := by
    refine .csv (here ++ "/" ++ fi.1.1 ++ "_emissions.") hd ?_ hcsv
    rw [emissions_csv, ← String.append_assoc]
  have hmade := rcp_made hc fi.1.2.1 fi.1.2.2 (vals fi.2)
  generalize rcpTable fi.1.2.1 fi.1.2.2 (vals fi.2) = T at hread hmade
  simp only [Function.comp_apply]
  generalize rcpFrame fi.1.2.1 fi.1.2.2 (vals fi.2) = F at hmade
  simp only [castFrame]
  rw [C88_file]
  refine ⟨T, hread, ?_⟩
  simp only [makeFrame, hmade]
  rfl

theorem rcp_all {vals : Nat → Nat → Nat → K} : ∀ F ∈ rcpFrames vals,
    F.Ok ∧ (∀ c ∈ requiredCols, c ∈ F.cols) ∧ NoSentinel F ∧ DistinctMeta F ∧ F.times.Nodup := by
  intro F hF
  obtain ⟨i, f, -, rfl⟩ := rcpFrames_mem.1 hF
  refine ⟨rcpFrame_ok _ _ _, rcpFrame_req _ _ _, ?_, rcpFrame_distinct _ _ _, ?_⟩
  · intro k c hs
    rcases rcpFrame_text f.2.1 f.2.2 (vals i) k c with e | ⟨t, e⟩
    · rw [e] at hs
      cases hs with
      | missing _ h2 => simp at h2
    · rw [e] at hs
      cases hs with
      | missing _ h2 => simp at h2
  · rw [rcpFrame_times]
    exact rcpTimes_sorted.imp fun h => ne_of_lt h

theorem rcps_of {files : String → Option (DataFile K)} {clock : Clock} {here : String} {Fs : List (DFrame K)} {R : DFrame K}
    (hcast : castFrames files clock (rcpSources here) = .ok (Fs.map DFrame.fresh)) (hR : dfAppend Fs .warn = .ok (.frame R)) :
    rcps files clock here = .ok (some (.frame R)) := by
  unfold rcps appendSources
  rw [hcast]
  simp only [List.map_map]
  have : Fs.map ((fun x : FObj K => x.F) ∘ DFrame.fresh) = Fs := by
    conv_rhs => rw [← List.map_id Fs]
    rfl
  rw [this, hR]
  rfl

/-! ## C104 -/

/-- C104: importing the scenarios succeeds, whatever the values in the files. The frame has the beginnings of the years
1765 to 2500 as its times. For each scenario and each of the 39 variables it has exactly one timeseries, with the values
of the file, as average emissions of the world; and it has no others. -/
theorem C104_loaded {files : String → Option (DataFile K)} {clock : Clock} {here : String} {vals : Nat → Nat → Nat → K}
    (h : Shipped files here vals) (hc : ReadsYears clock) :
    ∃ R : DFrame K, rcps files clock here = .ok (some (.frame R)) ∧ R.Ok ∧ R.times = rcpYears.map (fun y : Nat => dateTime y 1 1) ∧
    (∀ i f k e, rcpFiles[i]? = some f → rcpSeries[k]? = some e →
      ∃! j, j < R.data.length ∧ EmissionsOf R j f.2.1 f.2.2 e.1 e.2 ∧
        ∀ y ∈ rcpYears, R.valueAt j (dateTime y 1 1) = some (vals i k y)) ∧
    ∀ j < R.data.length, ∃ f ∈ rcpFiles, ∃ e ∈ rcpSeries, EmissionsOf R j f.2.1 f.2.2 e.1 e.2 := by
  have hcast := rcp_cast h hc
  have hall := rcp_all (vals := vals)
  have hne : rcpFrames vals ≠ [] := by simp [rcpFrames, rcpFiles]
  obtain ⟨R, hR⟩ := C52_works (msg := .warn) (.inl rfl) hne (fun F h => (hall F h).1) (fun F h => (hall F h).2.2.2.1)
    (fun F h => (hall F h).2.2.2.2)
  obtain ⟨r1, r2, r3, r4, r5, r6, -⟩ := C52_average_partial (fun F h => (hall F h).1) (fun F h => (hall F h).2.1)
    (fun F h => (hall F h).2.2.1) hR
  have hval := fun {j : Nat} (hj : j < R.data.length) {t : Int} => C52_no_overlap_partial (fun F h => (hall F h).1)
    (fun F h => (hall F h).2.1) (fun F h => (hall F h).2.2.1) hR hj (t := t) (rcp_one vals (R.metaAt j) t)
  refine ⟨R, ?_, r1, ?_, ?_, ?_⟩
  · exact rcps_of hcast hR
  · refine List.Perm.eq_of_pairwise (le := (· < ·)) (fun a b _ _ h1 h2 => absurd h1 (not_lt_of_gt h2)) r3 rcpTimes_sorted ?_
    refine (List.perm_ext_iff_of_nodup (r3.imp fun h => ne_of_lt h) (rcpTimes_sorted.imp fun h => ne_of_lt h)).2 fun t => ?_
    rw [r2]
    constructor
    · rintro ⟨F, hF, ht⟩
      obtain ⟨i, f, -, rfl⟩ := rcpFrames_mem.1 hF
      rwa [rcpFrame_times] at ht
    · intro ht
      obtain ⟨F, hF⟩ := List.exists_mem_of_ne_nil _ hne
      refine ⟨F, hF, ?_⟩
      obtain ⟨i, f, -, rfl⟩ := rcpFrames_mem.1 hF
      rwa [rcpFrame_times]
  · intro i f k e hi hk
    have hF : rcpFrame f.2.1 f.2.2 (vals i) ∈ rcpFrames vals := rcpFrames_mem.2 ⟨i, f, hi, rfl⟩
    have he := rcpFrame_metaAt f.2.1 f.2.2 (vals i) hk
    have hkl : k < (rcpFrame f.2.1 f.2.2 (vals i)).data.length := by
      rw [rcpFrame_length]
      exact (List.getElem?_eq_some_iff.1 hk).1
    obtain ⟨j, hj, hs⟩ := r4 _ hF k hkl
    refine ⟨j, ⟨hj, he.congr hs, fun y hy => ?_⟩, ?_⟩
    · exact (hval hj _).2 ⟨_, hF, k, hkl, hs, rcpFrame_valueAt _ _ _ hk hy⟩
    · rintro j' ⟨hj', he', -⟩
      exact r6 j' hj' j hj (he'.same (he.congr hs))
  · intro j hj
    obtain ⟨F, hF, k, hk, hs⟩ := r5 j hj
    obtain ⟨i, f, hi, rfl⟩ := rcpFrames_mem.1 hF
    rw [rcpFrame_length] at hk
    exact ⟨f, List.mem_of_getElem? hi, rcpSeries[k], List.getElem_mem hk,
      (rcpFrame_metaAt _ _ _ (List.getElem?_eq_getElem hk)).congr hs⟩

/-- The mass, the gas and its place in the table of gases for each unit, for the kernel. -/
def rcpGases : List (String × String × Nat) :=
  [("Mt", "BC", 12), ("kt", "C2F6", 57), ("kt", "C6F14", 63), ("kt", "CCl4", 95), ("kt", "CF4", 56),
    ("kt", "CFC11", 17), ("kt", "CFC113", 20), ("kt", "CFC114", 21), ("kt", "CFC115", 22), ("kt", "CFC12", 18),
    ("kt", "CH3Br", 100), ("kt", "CH3CCl3", 98), ("kt", "CH3Cl", 99), ("Mt", "CH4", 2), ("Mt", "CO", 14),
    ("Gt", "C", 0), ("Gt", "C", 0), ("kt", "HCFC141b", 27), ("kt", "HCFC142b", 28), ("kt", "HCFC22", 24),
    ("kt", "HFC125", 34), ("kt", "HFC134a", 36), ("kt", "HFC143a", 38), ("kt", "HFC227ea", 42), ("kt", "HFC23", 31),
    ("kt", "HFC245fa", 47), ("kt", "HFC32", 32), ("kt", "HFC4310", 50), ("kt", "Halon1202", 52),
    ("kt", "Halon1211", 53), ("kt", "Halon1301", 54), ("kt", "Halon2402", 55), ("Mt", "N2ON", 5), ("Mt", "N", 3),
    ("Mt", "NMVOC", 16), ("Mt", "N", 3), ("Mt", "OC", 13), ("kt", "SF6", 102), ("Mt", "S", 9)]

unseal rcpSeries in
theorem rcpGases_ok : (rcpSeries.map (·.1.toList)).length = rcpGases.length ∧
    (∀ p ∈ rcpSeries.zip rcpGases, p.1.2.toList = p.2.1.toList ++ (" ".toList ++ (p.2.2.1.toList ++ " / yr".toList)) ∧
      p.2.1 ∈ ["kt", "Mt", "Gt"] ∧ (standardGases[p.2.2.2]?.map (·.1)) = some p.2.2.1 ∧
      (p.1.1 = "Emissions|SOx" ∨ p.2.2.1 ∉ sulfurEntries)) := by
  decide +kernel

/-- C104: all units but that of the oxides of sulfur are masses of gases per year, and these gases are units. -/
theorem C104_units_partial : ∀ e ∈ rcpSeries, e.1 ≠ "Emissions|SOx" → ∃ mass ∈ ["kt", "Mt", "Gt"], ∃ g ∈ standardGases,
    e.2 = mass ++ " " ++ g.1 ++ " / yr" ∧ ∃ u, gasRegistry g.1 = some u := by
  intro e he hs
  obtain ⟨k, hk, rfl⟩ := List.getElem_of_mem he
  have hl := rcpGases_ok.1
  rw [List.length_map] at hl
  have hp : (rcpSeries[k], rcpGases[k]'(hl ▸ hk)) ∈ rcpSeries.zip rcpGases := by
    rw [List.mem_iff_getElem]
    exact ⟨k, by simp [← hl, hk], by simp⟩
  obtain ⟨h1, h2, h3, h4⟩ := rcpGases_ok.2 _ hp
  generalize rcpGases[k]'(hl ▸ hk) = q at *
  rw [Option.map_eq_some_iff] at h3
  obtain ⟨g, hg, hgq⟩ := h3
  have hg := List.mem_of_getElem? hg
  have hns : g.1 ∉ sulfurEntries := by
    rw [hgq]
    exact h4.resolve_left hs
  obtain ⟨f, ds, hf, hsp, -⟩ := entry_root hg hns
  refine ⟨q.1, h2, g, hg, ?_, _, gasRegistry_of hf (hsp g.1 (by simp [spellings]))⟩
  apply String.toList_inj.1
  rw [hgq]
  simp only [String.toList_append, List.append_assoc]
  exact h1

unseal rcpSeries in
/-- C104 is violated: the emissions of oxides of sulfur are in a unit that refers to one that nothing defines, so they
cannot be converted to any other unit. -/
theorem C104_sulfur : ("Emissions|SOx", "Mt S / yr") ∈ rcpSeries ∧ gasRegistry "S" = none ∧
    mkConv gasRegistry "S" "SO2" = .error .undefinedUnit := by
  have h : gasRegistry "S" = none := by
    unfold gasRegistry
    rw [C36_sulfur_undefined 1000 "S" (by decide)]
  exact ⟨by decide +kernel, h, by unfold mkConv; rw [h]⟩

/-! ## Example -/

/-- A clock that reads the first four characters as a year. -/
def yearClock : Clock :=
  { looks := fun s => decide (s ≠ "parameter_type")
    read := fun l => .ok (l.map fun s => dateTime (Nat.ofDigitChars 10 (s.toList.take 4) 0) 1 1) }

theorem yearClock_reads : ReadsYears yearClock where
  date y hy := by
    have := yearText_other hy
    simp only [List.mem_cons, not_or] at this
    simp [yearClock, this]
  other := by simp [yearClock]
  read ys h := by
    simp only [yearClock, List.map_map]
    congr 1
    refine List.map_congr_left fun y hy => ?_
    have h4 := (digits_ok.2 y (h y hy)).2
    simp only [Function.comp_apply, yearText_chars]
    rw [← h4, List.take_left, Nat.ofDigitChars_toDigits (by omega) (by omega)]

/-- The four files, all zero. -/
def zeroFiles : String → Option (DataFile ℚ) := fun name =>
  (rcpFiles.find? fun f => "here" ++ "/" ++ f.1 ++ "_emissions.csv" = name).map fun f =>
    { csv := some (rcpTable f.2.1 f.2.2 fun _ _ => 0), sheets := none }

/-- The hypotheses of `C104_loaded` can be met. -/
example : ∃ R : DFrame ℚ, rcps zeroFiles yearClock "here" = .ok (some (.frame R)) := by
  have h : Shipped zeroFiles "here" fun _ _ _ => 0 := by
    intro i f hi
    have hm := List.mem_of_getElem? hi
    refine ⟨{ csv := some (rcpTable f.2.1 f.2.2 fun _ _ => 0), sheets := none }, ?_, rfl⟩
    have : ∀ f ∈ rcpFiles, (rcpFiles.find? fun g => "here" ++ "/" ++ g.1 ++ "_emissions.csv" = "here" ++ "/" ++ f.1 ++ "_emissions.csv")
        = some f := by decide +kernel
    unfold zeroFiles
    rw [this f hm]
    rfl
  obtain ⟨R, hR, -⟩ := C104_loaded h yearClock_reads
  exact ⟨R, hR⟩

end Openscm
