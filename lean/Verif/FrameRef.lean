import Verif.FrameRename
import Verif.FrameUnits
import Mathlib.Algebra.BigOperators.Group.List.Basic
import Mathlib.Algebra.Field.Rat

/-!
# Values relative to a reference period (model) and C54

`relative_to_ref_period_mean`, `openscm/scmdataframe/base.py:1274-1316`.

The result is a list of metadata and values, in the order of the frame (pandas sorts the rows if some timeseries
have no value in the reference period; the order is not modelled). Where pandas has to align metadata with missing
entries, and for variables that are not strings, the model gives up (`unmodelled`). How `format` writes values is a
parameter.
-/

set_option linter.unusedSectionVars false

namespace Openscm

variable {K : Type} [Field K] [DecidableEq K]

/-- `timeseries()`, `openscm/scmdataframe/base.py:543-574`: metadata and values, paired by position. -/
def DFrame.timeseries (F : DFrame K) : Except Err (List (List (PyVal K) × List (Fl K))) :=
  if hasDuplicates (F.meta.map (·.2)) then .error .valueError
  else .ok ((F.meta.zip F.data).map fun rd => (rd.1.2, rd.2.2))

/-- `mean` of one row, without the missing values. -/
def meanOf (vals : List (Fl K)) : Fl K :=
  let xs := vals.filterMap fun v => match v with | .num x => some x | .nan => none
  if xs = [] then .nan else .num (xs.sum / (xs.length : K))

def Fl.minus : Fl K → Fl K → Fl K
  | .num a, .num b => .num (a - b)
  | _, _ => .nan

/-- `v[0]` and `v[-1]`. -/
def endsOf : PyArg K → Except Err (PyVal K × PyVal K)
  | .list l =>
    match l.head?, l.getLast? with
    | some a, some b => .ok (a, b)
    | _, _ => .error .indexError
  | .val (.str s) =>
    match s.toList.head?, s.toList.getLast? with
    | some a, some b => .ok (.str (String.ofList [a]), .str (String.ofList [b]))
    | _, _ => .error .indexError
  | .val _ => .error .typeError

/-- The default of `append_str`, `openscm/scmdataframe/base.py:1305-1309`. -/
def refParts (fmt : PyVal K → String) : List (String × PyArg K) → Except Err (List String)
  | [] => .ok []
  | (k, v) :: r =>
    match endsOf v with
    | .error e => .error e
    | .ok (a, b) => (refParts fmt r).map fun l => (k ++ ": " ++ fmt a ++ " - " ++ fmt b) :: l

def refName (fmt : PyVal K → String) (append : Option String) (filters : List (String × PyArg K)) : Except Err String :=
  match append with
  | some s => .ok s
  | none => (refParts fmt filters).map fun l => "(ref. period " ++ ";".intercalate l ++ ")"

/-- The new metadata: the variable with the name of the period. -/
def nameVariable (cols : List String) (name : String) (row : List (PyVal K)) : List (PyVal K) :=
  row.modify (cols.idxOf "variable") fun v =>
    match v with
    | .str s => .str (s ++ " " ++ name)
    | v => v

/-- `relative_to_ref_period_mean`, `openscm/scmdataframe/base.py:1274-1316`. -/
def DFrame.relativeToRef (F : DFrame K) (fmt : PyVal K → String) (o : FilterOpts K) (append : Option String)
    (filters : List (String × PyArg K)) : Except Err (List (List (PyVal K) × List (Fl K))) :=
  match F.timeseries with
  | .error e => .error e
  | .ok ts =>
    match F.filter o true filters with
    | .error e => .error e
    | .ok T =>
      match T.timeseries with
      | .error e => .error e
      | .ok ref =>
        if ref.length ≠ ts.length ∧ F.meta.any (fun r => r.2.any PyVal.isNull) then .error .unmodelled
        else if F.meta.any fun r => match r.2.getD (F.cols.idxOf "variable") .none with | .str _ => false | _ => true then .error .unmodelled
        else
          match refName fmt append filters with
          | .error e => .error e
          | .ok name =>
            .ok (ts.map fun rv =>
              let m := match ref.find? fun sv => sameRow rv.1 sv.1 with
                | some sv => meanOf sv.2
                | none => .nan
              (nameVariable F.cols name rv.1, rv.2.map fun x => x.minus m))

/-! ## C54: specification -/

open Classical in
/-- The values (not missing) of a timeseries at the times that satisfy a condition. -/
noncomputable def valuesAt (P : Int → Prop) (times : List Int) (vals : List (Fl K)) : List K :=
  (times.zip vals).filterMap fun tv => match tv.2 with | .num x => if P tv.1 then some x else none | .nan => none

/-- The metadata of the result: as before, but the name of the period follows that of the variable. -/
def Named (cols : List String) (name : String) (row row' : List (PyVal K)) : Prop :=
  row'.length = row.length ∧
  (∀ (i : Nat) (s : String), cols[i]? = some "variable" → row[i]? = some (.str s) → row'[i]? = some (.str (s ++ " " ++ name))) ∧
  ∀ (i : Nat) (c : String), cols[i]? = some c → c ≠ "variable" → row'[i]? = row[i]?

/-- The values of the result: with values in the period, all values differ from those before by the same amount
and those in the period have mean zero; without, all are missing. -/
def RelativeTo (P : Int → Prop) (times : List Int) (vals vals' : List (Fl K)) : Prop :=
  (valuesAt P times vals ≠ [] → (∃ m : K, vals' = vals.map fun x => match x with | .num v => .num (v - m) | .nan => .nan) ∧
    (valuesAt P times vals').sum / ((valuesAt P times vals').length : K) = 0 ∧
    (valuesAt P times vals').length = (valuesAt P times vals).length) ∧
  (valuesAt P times vals = [] → vals' = vals.map fun _ => .nan)

/-! ## Facts -/

theorem cellsOf_values (times : List Int) (row : List (PyVal K)) (vals : List (Fl K)) (hl : vals.length = times.length) :
    (cellsOf times row vals).map (·.2.2) = vals.filterMap fun v => match v with | .num x => some x | .nan => none := by
  unfold cellsOf
  induction vals generalizing times with
  | nil => simp
  | cons v r ih =>
    cases times with
    | nil => simp at hl
    | cons t l =>
      have := ih l (by simpa using hl)
      rw [List.zip_cons_cons, List.filterMap_cons, List.filterMap_cons]
      cases v with
      | nan => simpa using this
      | num x => simp only [List.map_cons, this]

theorem valuesAt_eq {P : Int → Prop} {p : Int → Bool} (h : ∀ t, p t = true ↔ P t) (times : List Int) (row : List (PyVal K)) (vals : List (Fl K)) :
    valuesAt P times vals = ((cellsOf times row vals).filter fun c => p c.2.1).map (·.2.2) := by
  unfold valuesAt cellsOf
  induction times generalizing vals with
  | nil => rfl
  | cons t l ih =>
    cases vals with
    | nil => rfl
    | cons v r =>
      rw [List.zip_cons_cons, List.filterMap_cons, List.filterMap_cons]
      cases v with
      | nan => simpa using ih r
      | num x =>
        simp only [List.filter_cons]
        by_cases hp : P t
        · rw [if_pos hp, if_pos ((h t).2 hp)]
          simp [ih r]
        · rw [if_neg hp, if_neg (fun hh => hp ((h t).1 hh))]
          simp [ih r]

theorem valuesAt_shift (P : Int → Prop) (times : List Int) (vals : List (Fl K)) (m : K) :
    valuesAt P times (vals.map fun x => match x with | .num v => .num (v - m) | .nan => .nan) = (valuesAt P times vals).map (· - m) := by
  unfold valuesAt
  induction times generalizing vals with
  | nil => rfl
  | cons t l ih =>
    cases vals with
    | nil => rfl
    | cons v r =>
      rw [List.map_cons, List.zip_cons_cons, List.zip_cons_cons, List.filterMap_cons, List.filterMap_cons, ih r]
      cases v with
      | nan => rfl
      | num x =>
        by_cases hp : P t
        · simp [hp]
        · simp [hp]

theorem sum_map_sub (l : List K) (m : K) : (l.map (· - m)).sum = l.sum - (l.length : K) * m := by
  induction l with
  | nil => simp
  | cons a l ih =>
    rw [List.map_cons, List.sum_cons, List.sum_cons, ih, List.length_cons]
    push_cast
    ring

theorem nameVariable_named {cols : List String} (hn : cols.Nodup) (hv : "variable" ∈ cols) (name : String) (row : List (PyVal K)) :
    Named cols name row (nameVariable cols name row) := by
  refine ⟨by simp [nameVariable], fun i s h1 h2 => ?_, fun i c h1 h2 => ?_⟩
  · have := idxOf_of_getElem? hn h1
    subst this
    rw [nameVariable, List.getElem?_modify_eq, h2]
    rfl
  · rw [nameVariable, List.getElem?_modify_ne]
    intro h
    rw [← h, getElem?_idxOf' hv] at h1
    exact h2 (Option.some.inj h1).symm

theorem hasDuplicates_sublist {l m : List (List (PyVal K))} (h : l.Sublist m) (hm : hasDuplicates m = false) : hasDuplicates l = false := by
  induction h with
  | slnil => rfl
  | cons a _ ih =>
    simp only [hasDuplicates, Bool.or_eq_false_iff] at hm
    exact ih hm.2
  | @cons_cons l m a hs ih =>
    simp only [hasDuplicates, Bool.or_eq_false_iff] at hm ⊢
    refine ⟨?_, ih hm.2⟩
    rw [List.any_eq_false] at hm ⊢
    exact fun x hx => hm.1 x (hs.subset hx)

/-- The rows of a restricted frame. -/
theorem restrict_rows {F : DFrame K} (Q : List (PyVal K) → Int → Bool) :
    (F.restrict Q).rows = ((F.rows.filter fun rd => (maskVals (Q rd.1.2) F.times rd.2.2).any Fl.isNum).map fun rd =>
      (rd.1, (rd.2.1, pick (presentTimes F.times ((maskRows Q F.times F.rows).map (·.2))) (maskVals (Q rd.1.2) F.times rd.2.2)))) := by
  unfold DFrame.restrict dropRows
  rw [frameOf_rows]
  conv_lhs => rw [maskRows]
  rw [List.filter_map, List.map_map]
  rfl

theorem restrict_sublist {F : DFrame K} (hF : F.Ok) (Q : List (PyVal K) → Int → Bool) :
    ((F.restrict Q).meta.map (·.2)).Sublist (F.meta.map (·.2)) := by
  rw [(hF.restrict Q).meta_eq, restrict_rows, hF.meta_eq, List.map_map, List.map_map, List.map_map]
  exact List.filter_sublist.map _

theorem meanOf_eq (vals : List (Fl K)) :
    meanOf vals = if (vals.filterMap fun v => match v with | .num x => some x | .nan => none) = [] then Fl.nan
      else .num ((vals.filterMap fun v => match v with | .num x => some x | .nan => none).sum /
        ((vals.filterMap fun v => match v with | .num x => some x | .nan => none).length : K)) := rfl

theorem relativeToRef_ok {F : DFrame K} {fmt : PyVal K → String} {o : FilterOpts K} {append : Option String}
    {filters : List (String × PyArg K)} {res : List (List (PyVal K) × List (Fl K))}
    (h : F.relativeToRef fmt o append filters = .ok res) :
    ∃ T name, hasDuplicates (F.meta.map (·.2)) = false ∧ F.filter o true filters = .ok T ∧ refName fmt append filters = .ok name ∧
      res = F.rows.map fun rd => (nameVariable F.cols name rd.1.2, rd.2.2.map fun x => x.minus
        (match (T.rows.map fun sd => (sd.1.2, sd.2.2)).find? fun sv => sameRow rd.1.2 sv.1 with
          | some sv => meanOf sv.2
          | none => .nan)) := by
  unfold DFrame.relativeToRef DFrame.timeseries at h
  cases hd : hasDuplicates (F.meta.map (·.2)) with
  | true => rw [hd] at h; simp at h
  | false =>
    rw [hd] at h
    simp only [Bool.false_eq_true, if_false] at h
    cases hT : F.filter o true filters with
    | error e => rw [hT] at h; simp at h
    | ok T =>
      rw [hT] at h
      simp only at h
      cases hd2 : hasDuplicates (T.meta.map (·.2)) with
      | true => rw [hd2] at h; simp at h
      | false =>
        rw [hd2] at h
        simp only [Bool.false_eq_true, if_false] at h
        split at h
        · cases h
        · split at h
          · cases h
          · cases hn : refName fmt append filters with
            | error e => rw [hn] at h; simp at h
            | ok name =>
              rw [hn] at h
              simp only [Except.ok.injEq] at h
              refine ⟨T, name, rfl, rfl, rfl, ?_⟩
              rw [← h, List.map_map]
              rfl

/-! ## C54 -/

/-- C54: the timeseries of the result are those of the frame, with the name of the period, relative to their mean
in the period. -/
theorem C54_relative [CharZero K] {F : DFrame K} (hF : F.Ok) (hv : "variable" ∈ F.cols) {fmt : PyVal K → String} {o : FilterOpts K}
    {append : Option String} {filters : List (String × PyArg K)} {res : List (List (PyVal K) × List (Fl K))}
    (h : F.relativeToRef fmt o append filters = .ok res) :
    ∃ name, (∀ s, append = some s → name = s) ∧
      List.Forall₂ (fun (rd : SRow K) rv => Named F.cols name rd.1.2 rv.1 ∧
        RelativeTo (fun t => Matches o filters F.cols rd.1.2 t) F.times rd.2.2 rv.2) F.rows res := by
  obtain ⟨T, name, hd, hT, hn, rfl⟩ := relativeToRef_ok h
  refine ⟨name, ?_, ?_⟩
  · rintro s rfl
    exact (Except.ok.inj hn).symm
  obtain ⟨P, hP, hres⟩ := filter_restrict hF hT
  have hTe : T = F.restrict fun r t => P r t == true := by
    have := hres F hF (Within.refl F) true
    rw [hT] at this
    exact Except.ok.inj this
  simp only [beq_true] at hTe
  obtain ⟨r1, r2, r3, r4, r5⟩ := hF.rows_ok
  rw [List.forall₂_map_right_iff, List.forall₂_same]
  intro rd hrd
  refine ⟨nameVariable_named r3 hv name _, ?_⟩
  -- the row of the reference frame
  have huniq : ∀ rd' ∈ F.rows, sameRow rd.1.2 rd'.1.2 = true → rd' = rd := by
    intro rd' hrd' hsr
    have hdist := hasDuplicates_iff.1 hd
    by_contra hne
    have hpw : F.rows.Pairwise fun a b : SRow K => ¬ List.Forall₂ SameValue a.1.2 b.1.2 := by
      have := hdist
      unfold DistinctMeta at this
      rw [hF.meta_eq, List.pairwise_map] at this
      exact this
    have hsym : ∀ {a b : List (PyVal K)}, List.Forall₂ SameValue a b → List.Forall₂ SameValue b a := by
      intro a b hab
      have := hab.flip
      refine this.imp fun x y hxy => ?_
      cases hxy with
      | missing h1 h2 => exact .missing h2 h1
      | equal => exact .equal _
      | intFloat => exact .floatInt _
      | floatInt => exact .intFloat _
    have hs := sameRow_iff.1 hsr
    rcases List.pairwise_iff_getElem.1 hpw with hpg
    obtain ⟨i, hi, ei⟩ := List.getElem_of_mem hrd
    obtain ⟨j, hj, ej⟩ := List.getElem_of_mem hrd'
    rcases lt_trichotomy i j with hij | hij | hij
    · exact hpg i j hi hj hij (by rw [ei, ej]; exact hs)
    · subst hij
      exact hne (by rw [← ej, ← ei])
    · exact hpg j i hj hi hij (by rw [ei, ej]; exact hsym hs)
  have hself : sameRow rd.1.2 rd.1.2 = true := sameRow_iff.2 (List.forall₂_same.2 fun x _ => .equal x)
  have hval := valuesAt_eq (P := fun t => Matches o filters F.cols rd.1.2 t) (p := P rd.1.2)
    (fun t => hP rd.1.2 t (r5 rd hrd)) F.times rd.1.2 rd.2.2
  -- values of the reference row
  have hnums : ∀ bs, List.Forall₂ (fun c b => c = true → b = true) ((maskVals (P rd.1.2) F.times rd.2.2).map Fl.isNum) bs →
      bs.length = F.times.length →
      ((pick bs (maskVals (P rd.1.2) F.times rd.2.2)).filterMap fun v => match v with | .num x => some x | .nan => none) =
        valuesAt (fun t => Matches o filters F.cols rd.1.2 t) F.times rd.2.2 := by
    intro bs hbs hlen
    have hml := maskVals_length (P := P rd.1.2) (r4 rd hrd)
    rw [← cellsOf_values (pick bs F.times) rd.1.2 _ (pick_length_eq bs hml), cellsOf_pick _ _ hbs, cellsOf_mask, hval]
  have hcov : List.Forall₂ (fun c b => c = true → b = true) ((maskVals (P rd.1.2) F.times rd.2.2).map Fl.isNum)
      (presentTimes F.times ((maskRows P F.times F.rows).map (·.2))) := by
    refine presentTimes_covers (d := (rd.2.1, maskVals (P rd.1.2) F.times rd.2.2)) ?_ ?_
    · intro d hd'
      obtain ⟨x, hx, rfl⟩ := List.mem_map.1 hd'
      obtain ⟨y, hy, rfl⟩ := List.mem_map.1 hx
      exact maskVals_length (r4 y hy)
    · exact List.mem_map.2 ⟨_, List.mem_map.2 ⟨rd, hrd, rfl⟩, rfl⟩
  have hplen : (presentTimes F.times ((maskRows P F.times F.rows).map (·.2))).length = F.times.length := by
    rw [← hcov.length_eq, List.length_map, maskVals_length (r4 rd hrd)]
  have hnum := hnums _ hcov hplen
  have hrows := restrict_rows (F := F) P
  rw [hTe, hrows]
  have hany : (maskVals (P rd.1.2) F.times rd.2.2).any Fl.isNum = true ↔
      valuesAt (fun t => Matches o filters F.cols rd.1.2 t) F.times rd.2.2 ≠ [] := by
    rw [hval, maskVals_any]
    constructor
    · rintro ⟨k, t, x, h1, h2, h3⟩ he
      rw [List.map_eq_nil_iff, List.filter_eq_nil_iff] at he
      refine he (rd.1.2, t, x) ?_ h3
      exact mem_cellsOf.2 ⟨rfl, k, h1, h2⟩
    · intro hne
      obtain ⟨y, hy⟩ := List.exists_mem_of_ne_nil _ hne
      obtain ⟨c, hc, rfl⟩ := List.mem_map.1 hy
      rw [List.mem_filter] at hc
      obtain ⟨row, t, x⟩ := c
      obtain ⟨-, k, h1, h2⟩ := mem_cellsOf.1 hc.1
      exact ⟨k, t, x, h1, h2, hc.2⟩
  constructor
  · intro hne
    have hfind : (((F.rows.filter fun rd => (maskVals (P rd.1.2) F.times rd.2.2).any Fl.isNum).map fun rd =>
      (rd.1, (rd.2.1, pick (presentTimes F.times ((maskRows P F.times F.rows).map (·.2))) (maskVals (P rd.1.2) F.times rd.2.2)))).map
        fun sd => (sd.1.2, sd.2.2)).find? (fun sv => sameRow rd.1.2 sv.1) =
        some (rd.1.2, pick (presentTimes F.times ((maskRows P F.times F.rows).map (·.2))) (maskVals (P rd.1.2) F.times rd.2.2)) := by
      rw [List.map_map]
      cases hf : ((F.rows.filter fun rd => (maskVals (P rd.1.2) F.times rd.2.2).any Fl.isNum).map
          ((fun sd : SRow K => (sd.1.2, sd.2.2)) ∘ fun rd => (rd.1, (rd.2.1, pick (presentTimes F.times ((maskRows P F.times F.rows).map (·.2))) (maskVals (P rd.1.2) F.times rd.2.2))))).find?
          (fun sv => sameRow rd.1.2 sv.1) with
      | none =>
        rw [List.find?_eq_none] at hf
        exact absurd hself (hf _ (List.mem_map.2 ⟨rd, List.mem_filter.2 ⟨hrd, hany.2 hne⟩, rfl⟩))
      | some sv =>
        have h1 := List.mem_of_find?_eq_some hf
        have h2 := List.find?_some hf
        obtain ⟨rd', hrd', rfl⟩ := List.mem_map.1 h1
        have := huniq rd' (List.mem_filter.1 hrd').1 h2
        subst this
        rfl
    rw [hfind]
    simp only
    rw [meanOf_eq, hnum, if_neg hne]
    generalize hxs : valuesAt (fun t => Matches o filters F.cols rd.1.2 t) F.times rd.2.2 = xs at *
    have hshift : (rd.2.2.map fun x => x.minus (.num (xs.sum / (xs.length : K)))) =
        rd.2.2.map fun x => match x with | .num v => .num (v - xs.sum / (xs.length : K)) | .nan => .nan := by
      refine List.map_congr_left fun x _ => ?_
      cases x <;> rfl
    rw [hshift]
    refine ⟨⟨_, rfl⟩, ?_, ?_⟩
    · rw [valuesAt_shift, hxs, sum_map_sub]
      have : (xs.length : K) ≠ 0 := by
        rw [Nat.cast_ne_zero]
        exact fun hh => hne (List.length_eq_zero_iff.1 hh)
      rw [mul_div_cancel₀ _ this]
      simp
    · rw [valuesAt_shift, hxs, List.length_map]
  · intro he
    have hfind : (((F.rows.filter fun rd => (maskVals (P rd.1.2) F.times rd.2.2).any Fl.isNum).map fun rd =>
      (rd.1, (rd.2.1, pick (presentTimes F.times ((maskRows P F.times F.rows).map (·.2))) (maskVals (P rd.1.2) F.times rd.2.2)))).map
        fun sd => (sd.1.2, sd.2.2)).find? (fun sv => sameRow rd.1.2 sv.1) = none := by
      rw [List.map_map, List.find?_eq_none]
      intro sv hsv hsr
      obtain ⟨rd', hrd', rfl⟩ := List.mem_map.1 hsv
      rw [List.mem_filter] at hrd'
      have := huniq rd' hrd'.1 hsr
      subst this
      exact hany.1 hrd'.2 he
    rw [hfind]
    refine List.map_congr_left fun x _ => ?_
    cases x <;> rfl

/-- C54: it works, with a given name, if the filter works, no two timeseries have the same metadata, and variables
are strings and no metadata are missing. -/
theorem C54_works {F : DFrame K} (hF : F.Ok) {fmt : PyVal K → String} {o : FilterOpts K} {name : String}
    {filters : List (String × PyArg K)} {T : DFrame K} (hd : DistinctMeta F) (hT : F.filter o true filters = .ok T)
    (hm : ∀ r ∈ F.meta, ∀ v ∈ r.2, v ≠ .none ∧ v ≠ .flt .nan)
    (hs : ∀ r ∈ F.meta, ∃ s, r.2.getD (F.cols.idxOf "variable") .none = .str s) :
    ∃ res, F.relativeToRef fmt o (some name) filters = .ok res := by
  obtain ⟨P, -, hres⟩ := filter_restrict hF hT
  have hTe : T = F.restrict fun r t => P r t == true := by
    have := hres F hF (Within.refl F) true
    rw [hT] at this
    exact Except.ok.inj this
  have hd1 := hasDuplicates_iff.2 hd
  have hd2 : hasDuplicates (T.meta.map (·.2)) = false := by
    rw [hTe]
    exact hasDuplicates_sublist (restrict_sublist hF _) hd1
  unfold DFrame.relativeToRef DFrame.timeseries
  rw [hd1]
  simp only [Bool.false_eq_true, if_false, hT, hd2]
  rw [if_neg, if_neg]
  · exact ⟨_, rfl⟩
  · rw [Bool.not_eq_true, List.any_eq_false]
    intro r hr
    obtain ⟨s, hs⟩ := hs r hr
    rw [hs]
    simp
  · rintro ⟨-, h⟩
    obtain ⟨r, hr, h⟩ := List.any_eq_true.1 h
    obtain ⟨v, hv, h⟩ := List.any_eq_true.1 h
    obtain ⟨h1, h2⟩ := hm r hr v hv
    cases v with
    | none => exact h1 rfl
    | flt x => cases x <;> simp [PyVal.isNull] at h h2
    | _ => simp [PyVal.isNull] at h

/-- Two timeseries, one with values in 2010 only, and their values relative to 2010. -/
def refF : DFrame ℚ :=
  { times := [dateTime 2010 1 1, dateTime 2010 6 1, dateTime 2020 1 1]
    cols := ["model", "scenario", "region", "variable", "unit"]
    data := [(0, [.num 1, .num 3, .num 10]), (1, [.nan, .nan, .num 7]), (2, [.nan, .num 4, .num 5])]
    «meta» := [(0, [.str "m", .str "a", .str "World", .str "T", .str "K"]), (1, [.str "m", .str "b", .str "World", .str "T", .str "K"]),
      (2, [.str "m", .str "c", .str "World", .str "T", .str "K"])] }

example : refF.relativeToRef (fun _ => "") demoO (some "rel") [("year", .list [.int 2010])] = .ok
    [([.str "m", .str "a", .str "World", .str "T rel", .str "K"], [.num (-1), .num 1, .num 8]),
     ([.str "m", .str "b", .str "World", .str "T rel", .str "K"], [.nan, .nan, .nan]),
     ([.str "m", .str "c", .str "World", .str "T rel", .str "K"], [.nan, .num 0, .num 1])] := by
  decide +kernel

/-- The default name wants lists: one year given as a number is refused although the filter takes it. -/
theorem C54_name : refF.relativeToRef (fun _ => "") demoO none [("year", .val (.int 2010))] = .error .typeError ∧
    (∃ r, refF.relativeToRef (fun _ => "") demoO (some "rel") [("year", .val (.int 2010))] = .ok r) ∧
    ∃ r, refF.relativeToRef (fun _ => "") demoO none [("year", .list [.int 2010])] = .ok r := by
  refine ⟨by decide +kernel,
    ⟨[([.str "m", .str "a", .str "World", .str "T rel", .str "K"], [.num (-1), .num 1, .num 8]),
     ([.str "m", .str "b", .str "World", .str "T rel", .str "K"], [.nan, .nan, .nan]),
     ([.str "m", .str "c", .str "World", .str "T rel", .str "K"], [.nan, .num 0, .num 1])], by decide +kernel⟩,
    ⟨[([.str "m", .str "a", .str "World", .str "T (ref. period year:  - )", .str "K"], [.num (-1), .num 1, .num 8]),
     ([.str "m", .str "b", .str "World", .str "T (ref. period year:  - )", .str "K"], [.nan, .nan, .nan]),
     ([.str "m", .str "c", .str "World", .str "T (ref. period year:  - )", .str "K"], [.nan, .num 0, .num 1])], by decide +kernel⟩⟩

end Openscm
