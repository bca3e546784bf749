import Verif.FrameAppend4
import Verif.FrameSessionProps

/-!
# C68: timeseries stay distinguishable

`timeseries()`, `values` and all that use them refuse frames in which two timeseries have the same metadata.
-/

set_option linter.unusedSectionVars false

namespace Openscm

variable {K : Type} [Field K] [LinearOrder K] [IsStrictOrderedRing K]

/-! ## Specification -/

/-- Any two timeseries differ in some column other than those of `X`. -/
def DistinctApart (X : List String) (F : DFrame K) : Prop :=
  ∀ i j : Nat, i < j → j < F.meta.length → ∃ c, c ∉ X ∧ ¬ SameValue (F.metaAt i c) (F.metaAt j c)

/-- Calls that keep timeseries distinct in columns other than those of `X`. -/
inductive FCall.Leaves (X : List String) : FCall K → Prop
  | long {T : Table K} : X = [] → T.Rect → T.HasCol "value" → Leaves X (.table T)
  | wrap {i} : Leaves X (.wrap i)
  | copy {i} : Leaves X (.copy i)
  | filter {i o keep filters inplace} : Leaves X (.filter i o keep filters inplace)
  | rename {i mapping inplace} : (X = [] ∨ ∀ cm ∈ mapping, cm.1 ∈ X) → Leaves X (.rename i mapping inplace)
  | convert {i o keep filters unit ctx inplace} : "unit" ∈ X → "unit_context" ∈ X →
      Leaves X (.convert i o keep filters unit ctx inplace)
  | append {i others msg inplace} : X = [] → Leaves X (.append i others msg inplace)
  | interpolate {i target ext} : "parameter_type" ∈ X → Leaves X (.interpolate i target ext)
  | resample {i r n ext} : "parameter_type" ∈ X → Leaves X (.resample i r n ext)
  | time {i ts} : Leaves X (.set i (.time ts))
  | set {i c v} : c ∈ X → Leaves X (.set i (.col c v))

/-- `df.rename(…, inplace=True)` -/
inductive FCall.RenamesInPlace : FCall K → Prop
  | mk {i mapping} : RenamesInPlace (.rename i mapping true)

/-! ## Facts -/

/-- Rows differ in some column other than those of `X`. -/
def RowsApart (X cols : List String) (r s : List (PyVal K)) : Prop := ∃ c, c ∉ X ∧ ¬ SameValue (rowVal cols r c) (rowVal cols s c)

theorem apart_iff {X : List String} {F : DFrame K} :
    DistinctApart X F ↔ (F.meta.map (·.2)).Pairwise (RowsApart X F.cols) := by
  rw [List.pairwise_map, List.pairwise_iff_getElem]
  unfold DistinctApart RowsApart
  constructor
  · intro h i j hi hj hij
    obtain ⟨c, hc, hs⟩ := h i j hij hj
    refine ⟨c, hc, ?_⟩
    simpa [DFrame.metaAt, List.getElem?_eq_getElem hi, List.getElem?_eq_getElem hj] using hs
  · intro h i j hij hj
    obtain ⟨c, hc, hs⟩ := h i j (by omega) hj hij
    refine ⟨c, hc, ?_⟩
    simpa [DFrame.metaAt, List.getElem?_eq_getElem (show i < F.meta.length by omega), List.getElem?_eq_getElem hj] using hs

theorem forall₂_rowVal {cols : List String} (hn : cols.Nodup) {r s : List (PyVal K)} (hr : r.length = cols.length)
    (hs : s.length = cols.length) : List.Forall₂ SameValue r s ↔ ∀ c, SameValue (rowVal cols r c) (rowVal cols s c) := by
  constructor
  · intro h c
    by_cases hc : c ∈ cols
    · have hlt := List.idxOf_lt_length_of_mem hc
      unfold rowVal
      rw [List.getD_eq_getElem?_getD, List.getD_eq_getElem?_getD, List.getElem?_eq_getElem (show _ < r.length by omega),
        List.getElem?_eq_getElem (show _ < s.length by omega)]
      exact List.forall₂_iff_get.1 h |>.2 _ (by omega) (by omega)
    · rw [rowVal_absent hr hc, rowVal_absent hs hc]
      exact .equal _
  · intro h
    refine List.forall₂_iff_get.2 ⟨by omega, fun i h1 h2 => ?_⟩
    have := h cols[i]
    unfold rowVal at this
    rw [hn.idxOf_getElem i (by omega), List.getD_eq_getElem?_getD, List.getD_eq_getElem?_getD, List.getElem?_eq_getElem h1,
      List.getElem?_eq_getElem h2] at this
    exact this

theorem apart_nil {F : DFrame K} (hF : F.Ok) : DistinctApart [] F ↔ DistinctMeta F := by
  rw [apart_iff, List.pairwise_map]
  unfold DistinctMeta
  refine ⟨fun h => ?_, fun h => ?_⟩
  · refine h.imp_of_mem fun {a b} ha hb hab hs => ?_
    obtain ⟨c, -, hc⟩ := hab
    exact hc ((forall₂_rowVal hF.cols_nodup (hF.meta_len a ha) (hF.meta_len b hb)).1 hs c)
  · refine h.imp_of_mem fun {a b} ha hb hab => ?_
    rw [forall₂_rowVal hF.cols_nodup (hF.meta_len a ha) (hF.meta_len b hb)] at hab
    push Not at hab
    obtain ⟨c, hc⟩ := hab
    exact ⟨c, by simp, hc⟩

/-- The rows have the same values in columns other than those of `X`. -/
def KeepsRows (X : List String) (F G : DFrame K) : Prop :=
  List.Forall₂ (fun r s : Nat × List (PyVal K) => ∀ c, c ∉ X → rowVal G.cols s.2 c = rowVal F.cols r.2 c) F.meta G.meta

theorem KeepsRows.refl (X : List String) (F : DFrame K) : KeepsRows X F F := List.forall₂_same.2 fun _ _ _ _ => rfl

theorem KeepsRows.trans {X : List String} {F G H : DFrame K} (h : KeepsRows X F G) (h' : KeepsRows X G H) : KeepsRows X F H := by
  unfold KeepsRows at *
  refine List.forall₂_iff_get.2 ⟨h.length_eq.trans h'.length_eq, fun i h1 h2 c hc => ?_⟩
  have hi : i < G.meta.length := by rw [← h.length_eq]; exact h1
  rw [(List.forall₂_iff_get.1 h').2 i hi h2 c hc, (List.forall₂_iff_get.1 h).2 i h1 hi c hc]

theorem KeepsRows.mono {X Y : List String} {F G : DFrame K} (h : KeepsRows X F G) (hXY : ∀ c ∈ X, c ∈ Y) : KeepsRows Y F G :=
  h.imp fun _ _ hrs c hc => hrs c fun hx => hc (hXY c hx)

theorem KeepsRows.apart {X : List String} {F G : DFrame K} (h : KeepsRows X F G) (hF : DistinctApart X F) : DistinctApart X G := by
  rw [apart_iff, List.pairwise_map, List.pairwise_iff_getElem] at *
  intro i j hi hj hij
  have hi' : i < F.meta.length := by rw [h.length_eq]; exact hi
  have hj' : j < F.meta.length := by rw [h.length_eq]; exact hj
  obtain ⟨c, hc, hs⟩ := hF i j hi' hj' hij
  refine ⟨c, hc, ?_⟩
  have h1 := (List.forall₂_iff_get.1 h).2 i hi' hi c hc
  have h2 := (List.forall₂_iff_get.1 h).2 j hj' hj c hc
  simp only [List.get_eq_getElem] at h1 h2
  rw [h1, h2]
  exact hs

theorem keepsRows_map {X : List String} {F G : DFrame K} {g : Nat × List (PyVal K) → Nat × List (PyVal K)}
    (hG : G.meta = F.meta.map g) (h : ∀ r ∈ F.meta, ∀ c, c ∉ X → rowVal G.cols (g r).2 c = rowVal F.cols r.2 c) : KeepsRows X F G := by
  unfold KeepsRows
  rw [hG, List.forall₂_map_right_iff]
  exact List.forall₂_same.2 h

theorem keepsRows_sort {X : List String} {F : DFrame K} (hF : F.Ok) (hr : ∀ c ∈ requiredCols, c ∈ F.cols) : KeepsRows X F F.sortMeta :=
  keepsRows_map rfl fun r h c _ => rowVal_select (hF.meta_len r h) (fun _ => sortedCols_mem hr) c

theorem rowVal_snoc {cols : List String} {row : List (PyVal K)} (hl : row.length = cols.length) {c d : String} (v : PyVal K)
    (hd : d ≠ c) : rowVal (cols ++ [c]) (row ++ [v]) d = rowVal cols row d := by
  by_cases hm : d ∈ cols
  · unfold rowVal
    rw [List.idxOf_append_of_mem hm, List.getD_eq_getElem?_getD, List.getD_eq_getElem?_getD,
      List.getElem?_append_left (by rw [hl]; exact List.idxOf_lt_length_of_mem hm)]
  · rw [rowVal_absent hl hm, rowVal_absent (by simp [hl]) (by simp [hm, hd])]

theorem keepsRows_snoc {F : DFrame K} (hF : F.Ok) (c : String) (v : PyVal K) :
    KeepsRows [c] F { F with cols := F.cols ++ [c], «meta» := F.meta.map fun r => (r.1, r.2 ++ [v]) } :=
  keepsRows_map rfl fun r h d hd => rowVal_snoc (hF.meta_len r h) v (by simpa using hd)

theorem ok_snoc {F : DFrame K} (hF : F.Ok) {c : String} (hc : c ∉ F.cols) (v : PyVal K) :
    ({ F with cols := F.cols ++ [c], «meta» := F.meta.map fun r => (r.1, r.2 ++ [v]) } : DFrame K).Ok where
  labels := by simpa [Function.comp_def] using hF.labels
  nodup := hF.nodup
  cols_nodup := List.nodup_append.2 ⟨hF.cols_nodup, by simp, fun a ha b hb => by
    rw [List.mem_singleton] at hb
    subst hb
    exact fun e => hc (e ▸ ha)⟩
  data_len := hF.data_len
  meta_len := fun r hr => by
    obtain ⟨s, hs, rfl⟩ := List.mem_map.1 hr
    simpa using hF.meta_len s hs

theorem keepsRows_context {F : DFrame K} (hF : F.Ok) (hr : ∀ c ∈ requiredCols, c ∈ F.cols) :
    KeepsRows ["unit_context"] F F.withContext := by
  unfold DFrame.withContext
  split
  · exact .refl _ _
  · rename_i h
    exact (keepsRows_snoc hF "unit_context" .none).trans
      (keepsRows_sort (ok_snoc hF h .none) fun c hc => List.mem_append_left _ (hr c hc))

theorem keepsRows_type {F : DFrame K} (hF : F.Ok) (hr : ∀ c ∈ requiredCols, c ∈ F.cols) :
    KeepsRows ["parameter_type"] F F.withType := by
  unfold DFrame.withType
  split
  · exact .refl _ _
  · rename_i h
    exact (keepsRows_snoc hF "parameter_type" .none).trans
      (keepsRows_sort (ok_snoc hF h .none) fun c hc => List.mem_append_left _ (hr c hc))

theorem keepsRows_labels {F : DFrame K} (hF : F.Ok) (hu : "unit" ∈ F.cols) (hc : "unit_context" ∈ F.cols) (ls : List Nat)
    (f : Fl K → Fl K) (unit : String) (ctx : PyVal K) : KeepsRows ["unit", "unit_context"] F (F.convertLabels ls f unit ctx) := by
  refine keepsRows_map rfl fun r h c hcX => ?_
  simp only [List.mem_cons, List.not_mem_nil, or_false, not_or] at hcX
  have hl := hF.meta_len r h
  change rowVal F.cols _ c = _
  split
  · unfold assignUnit
    simp only
    rw [rowVal_set (by simpa using hl) hc, if_neg hcX.2, rowVal_set hl hu, if_neg hcX.1]
  · rfl

theorem keepsRows_loop {conv : String → Except Err (Fl K → Fl K)} {unit : String} {ctx : PyVal K} {gs : List (String × List Nat)}
    {F : DFrame K} (hF : F.Ok) (hu : "unit" ∈ F.cols) (hc : "unit_context" ∈ F.cols) :
    KeepsRows ["unit", "unit_context"] F (convertLoop conv unit ctx gs F).2 := by
  induction gs generalizing F with
  | nil => exact .refl _ _
  | cons g gs ih =>
    obtain ⟨u, ls⟩ := g
    unfold convertLoop
    cases conv u with
    | error e => exact .refl _ _
    | ok f => exact (keepsRows_labels hF hu hc ls f unit ctx).trans (ih (convertLabels_ok hF ls f unit ctx) hu hc)

theorem keepsRows_convert {x : FObj K} (hx : x.Sound) (conv : String → Except Err (Fl K → Fl K)) (o : FilterOpts K) (keep : Bool)
    (filters : List (String × PyArg K)) (unit : String) (ctx : PyVal K) (inplace : Bool) :
    KeepsRows ["unit", "unit_context"] x.F (x.convertCall conv o keep filters unit ctx inplace).2.F ∧
    ∀ y, (x.convertCall conv o keep filters unit ctx inplace).1 = .ok (some y) → KeepsRows ["unit", "unit_context"] x.F y.F := by
  obtain ⟨w1, w2, w3⟩ := withContext_keeps hx.ok hx.req
  have hw : KeepsRows ["unit", "unit_context"] x.F x.F.withContext := (keepsRows_context hx.ok hx.req).mono (by simp)
  have hcx : "unit_context" ∈ x.F.withContext.cols := ((withContext_spec hx.ok hx.req).2.2.2.1 _).2 (.inr rfl)
  have hun : "unit" ∈ x.F.withContext.cols := w2 _ (hx.req _ (by simp [requiredCols]))
  have hrf : KeepsRows ["unit", "unit_context"] x.F x.F := .refl _ _
  unfold FObj.convertCall
  split
  · unfold DFrame.convertUnit
    split
    · rename_i h
      split at h
      · cases h
        cases inplace
        · exact ⟨hrf, fun y hy => by cases hy⟩
        · exact ⟨hw, fun y hy => by cases hy⟩
      · split at h
        · cases h
          cases inplace
          · exact ⟨hrf, fun y hy => by cases hy⟩
          · exact ⟨hw, fun y hy => by cases hy⟩
        · rename_i gs _
          have hl := hw.trans (keepsRows_loop (conv := conv) (unit := unit) (ctx := ctx) (gs := gs) w1 hun hcx)
          generalize convertLoop conv unit ctx gs x.F.withContext = r at h hl
          obtain ⟨e | e, G⟩ := r
          · cases h
            cases inplace
            · exact ⟨hrf, fun y hy => by cases hy⟩
            · exact ⟨hl, fun y hy => by cases hy⟩
          · cases inplace <;> cases h
    · rename_i h
      split at h
      · cases h
      · split at h
        · cases h
        · rename_i gs _
          have hl := hw.trans (keepsRows_loop (conv := conv) (unit := unit) (ctx := ctx) (gs := gs) w1 hun hcx)
          generalize convertLoop conv unit ctx gs x.F.withContext = r at h hl
          obtain ⟨e | e, G⟩ := r
          · cases h
          · cases inplace
            · cases h
              refine ⟨hrf, fun y hy => ?_⟩
              simp only [Option.map_some, Except.ok.injEq, Option.some.injEq] at hy
              subst hy
              exact hl
            · cases h
              exact ⟨hl, fun y hy => by simp at hy⟩
  · split
    · cases inplace
      · exact ⟨hrf, fun y hy => by cases hy⟩
      · exact ⟨hw, fun y hy => by cases hy⟩
    · exact ⟨hrf, fun y hy => by cases hy⟩

theorem keepsRows_points {X : List String} (F : DFrame K) (points : List Int) : KeepsRows X F { F with times := points } :=
  List.forall₂_same.2 fun _ _ _ _ => rfl

/-- The metadata of a frame without its values. -/
theorem keepsRows_interpolate {reg : Registry K} {views : Bool} {F G : DFrame K} {points target : List Int} {ext : Extrap}
    (hF : F.Ok) (hr : ∀ c ∈ requiredCols, c ∈ F.cols)
    (h : ({ F with times := points } : DFrame K).interpolate reg views target ext = .ok G) : KeepsRows ["parameter_type"] F G := by
  obtain ⟨rows, ks, new, h1, -, -, rfl⟩ := interpolate_parts h
  have e : ∀ (ps : List Int), ({ F with times := ps } : DFrame K).withType.cols = F.withType.cols ∧
      ({ F with times := ps } : DFrame K).withType.meta = F.withType.meta := by
    intro ps
    unfold DFrame.withType
    simp only
    split <;> exact ⟨rfl, rfl⟩
  rw [(e points).1, (e points).2] at h1
  rw [(e points).1]
  have ht := withType_ok hF
  have hp : "parameter_type" ∈ F.withType.cols := (withType_cols hr).2 (.inr rfl)
  have hrows : List.Forall₂ (fun a b : Nat × List (PyVal K) => b.2.length = F.withType.cols.length ∧
      ∀ d, d ≠ "parameter_type" → rowVal F.withType.cols b.2 d = rowVal F.withType.cols a.2 d) F.withType.meta rows := by
    cases views with
    | false =>
      cases h1
      exact List.forall₂_same.2 fun r hr => ⟨ht.meta_len r hr, fun _ _ => rfl⟩
    | true =>
      have hg := guessAll_ok h1
      refine List.forall₂_iff_get.2 ⟨hg.length_eq, fun i i1 i2 => ?_⟩
      have hl := ht.meta_len _ (List.get_mem F.withType.meta ⟨i, i1⟩)
      obtain ⟨g1, g2, -⟩ := guessRow_ok hl hp ((List.forall₂_iff_get.1 hg).2 i i1 i2).2
      exact ⟨g1.trans hl, g2⟩
  refine (keepsRows_type hF hr).trans ?_
  unfold KeepsRows
  rw [List.forall₂_map_right_iff]
  refine hrows.imp fun a b hab c hc => ?_
  have hc' : c ≠ "parameter_type" := by simpa using hc
  simp only
  split
  · rw [rowVal_set hab.1 hp, if_neg hc']
    exact hab.2 c hc'
  · exact hab.2 c hc'

theorem keepsRows_replace {F : DFrame K} (hF : F.Ok) {i : Nat} {c : String} (hi : F.cols[i]? = some c) (m : List (String × String)) :
    KeepsRows [c] F (F.replaceCol i m) := by
  refine keepsRows_map rfl fun r h d hd => ?_
  have hl := hF.meta_len r h
  change rowVal F.cols (r.2.modify i (replaceVal m)) d = _
  by_cases hm : d ∈ F.cols
  · unfold rowVal
    have : i ≠ F.cols.idxOf d := by
      rintro rfl
      rw [getElem?_idxOf' hm] at hi
      cases hi
      simp at hd
    rw [List.getD_eq_getElem?_getD, List.getD_eq_getElem?_getD, List.getElem?_modify_ne _ _ this]
  · rw [rowVal_absent (by simpa using hl) hm, rowVal_absent hl hm]

theorem keepsRows_rename {X : List String} {mapping : List (String × List (String × String))} {F : DFrame K} (hF : F.Ok)
    (h : ∀ cm ∈ mapping, cm.1 ∈ X) : KeepsRows X F (F.renameLoop mapping).2 := by
  induction mapping generalizing F with
  | nil => exact .refl _ _
  | cons x l ih =>
    obtain ⟨c, m⟩ := x
    unfold DFrame.renameLoop
    cases hi : F.cols.findIdx? (· = c) with
    | none => exact .refl _ _
    | some i =>
      have hk : KeepsRows X F (F.replaceCol i m) :=
        (keepsRows_replace hF (findIdx_col hi) m).mono (by simpa using h (c, m) (by simp))
      simp only
      split
      · exact hk
      · exact hk.trans (ih (hF.replaceCol i m) fun cm hcm => h cm (List.mem_cons_of_mem _ hcm))

theorem renameLoop_distinct {mapping : List (String × List (String × String))} {F : DFrame K} (hF : DistinctMeta F)
    (h : ∀ e, (F.renameLoop mapping).1 ≠ .error e) : DistinctMeta (F.renameLoop mapping).2 := by
  induction mapping generalizing F with
  | nil => exact hF
  | cons x l ih =>
    obtain ⟨c, m⟩ := x
    unfold DFrame.renameLoop at h ⊢
    cases hi : F.cols.findIdx? (· = c) with
    | none =>
      rw [hi] at h
      exact absurd rfl (h _)
    | some i =>
      rw [hi] at h
      simp only at h ⊢
      by_cases hd : hasDuplicates ((F.replaceCol i m).meta.map (·.2)) = true
      · rw [if_pos hd] at h
        exact absurd rfl (h _)
      · rw [if_neg hd] at h ⊢
        exact ih (hasDuplicates_iff.1 (by simpa using hd)) h

theorem keepsRows_set {F : DFrame K} (hF : F.Ok) (c : String) (vals : List (PyVal K)) : KeepsRows [c] F (F.setColumn c vals) := by
  unfold DFrame.setColumn
  split
  · rename_i hc
    refine List.forall₂_iff_get.2 ⟨by simp, fun i h1 h2 d hd => ?_⟩
    simp only [List.get_eq_getElem, List.getElem_map, List.getElem_zipIdx]
    rw [rowVal_set (hF.meta_len _ (List.getElem_mem h1)) hc, if_neg (by simpa using hd)]
  · refine List.forall₂_iff_get.2 ⟨by simp, fun i h1 h2 d hd => ?_⟩
    simp only [List.get_eq_getElem, List.getElem_map, List.getElem_zipIdx]
    exact rowVal_snoc (hF.meta_len _ (List.getElem_mem h1)) _ (by simpa using hd)

theorem restrict_apart {X : List String} {F : DFrame K} (hF : F.Ok) (h : DistinctApart X F) (P : List (PyVal K) → Int → Bool) :
    DistinctApart X (F.restrict P) := by
  rw [apart_iff] at *
  rw [(restrict_meta P).1]
  exact h.sublist (restrict_sublist hF P)

/-- Metadata that is the same only for the same timeseries. -/
theorem apart_of_same {F : DFrame K} (hl : F.meta.length = F.data.length)
    (h : ∀ i < F.data.length, ∀ j < F.data.length, SameMeta (F.metaAt i) (F.metaAt j) → i = j) : DistinctApart [] F := by
  intro i j hij hj
  by_contra hc
  push Not at hc
  have := h i (by omega) j (by omega) fun c => hc c (by simp)
  omega

/-! ## C68 -/

theorem leaves_step (env : FEnv K) {X : List String} {S : List (FObj K)} (hS : ∀ x ∈ S, x.Sound) (hX : ∀ x ∈ S, DistinctApart X x.F)
    {c : FCall K} (hc : c.Leaves X) (hu : c.RenamesInPlace → (fcall env S c).1 = none) :
    ∀ x ∈ (fcall env S c).2, DistinctApart X x.F := by
  cases hc with
  | @long T h1 h2 h3 =>
    subst h1
    refine settle_all hX _ _ fun y hy => ?_
    cases h : fromTable env.clock T with
    | error e => rw [h] at hy; cases hy
    | ok F =>
      rw [h] at hy
      cases hy
      obtain ⟨k, -, -, -, -, k2, -⟩ := C65_values env.clock T h2 h3 F h
      exact apart_of_same k.length_eq k2
  | @wrap i =>
    simp only [fcall]
    split
    · exact hX
    · rename_i x hx
      have hx' := hS x (List.mem_of_getElem? hx)
      refine settle_all hX _ _ fun y hy => ?_
      cases hy
      exact (keepsRows_sort hx'.ok hx'.req).apart (hX x (List.mem_of_getElem? hx))
  | @copy i =>
    simp only [fcall]
    split
    · exact hX
    · rename_i x hx
      refine settle_all hX _ _ fun y hy => ?_
      cases hy
      exact hX _ (List.mem_of_getElem? hx)
  | @filter i o keep filters inplace =>
    simp only [fcall]
    split
    · exact hX
    · rename_i x hx
      have hx' := hS x (List.mem_of_getElem? hx)
      refine settle_all hX _ _ fun y hy => ?_
      obtain ⟨-, P, rfl⟩ := hx'.filter hy
      exact restrict_apart hx'.ok (hX x (List.mem_of_getElem? hx)) P
  | @rename i mapping inplace hm =>
    simp only [fcall] at hu ⊢
    split
    · exact hX
    · rename_i x hx
      have hx' := hS x (List.mem_of_getElem? hx)
      have hxX := hX x (List.mem_of_getElem? hx)
      rw [hx] at hu
      simp only at hu
      have good : (∀ e, (x.F.renameLoop mapping).1 ≠ .error e) ∨ (∀ cm ∈ mapping, cm.1 ∈ X) → DistinctApart X (x.F.renameLoop mapping).2 := by
        rintro (h | h)
        · rcases hm with rfl | hm
          · rw [apart_nil (renameLoop_keeps hx'.ok).1]
            rw [apart_nil hx'.ok] at hxX
            exact renameLoop_distinct hxX h
          · exact (keepsRows_rename hx'.ok hm).apart hxX
        · exact (keepsRows_rename hx'.ok h).apart hxX
      refine settleBoth_all hX _ ?_ ?_
      · unfold FObj.renameCall DFrame.rename at hu ⊢
        generalize x.F.renameLoop mapping = r at hu good
        obtain ⟨e | e, G⟩ := r
        · cases inplace
          · exact hxX
          · have := hu .mk
            cases this
        · cases inplace
          · exact hxX
          · exact good (.inl fun e h => by cases h)
      · intro y hy
        unfold FObj.renameCall DFrame.rename at hy
        generalize x.F.renameLoop mapping = r at hy good
        obtain ⟨e | e, G⟩ := r
        · cases hy
        · cases inplace
          · cases hy
            exact good (.inl fun e h => by cases h)
          · cases hy
  | @convert i o keep filters unit ctx inplace h1 h2 =>
    simp only [fcall]
    split
    · exact hX
    · rename_i x hx
      have hx' := hS x (List.mem_of_getElem? hx)
      obtain ⟨k1, k2⟩ := keepsRows_convert hx' (env.conv unit ctx) o keep filters unit ctx inplace
      have hsub : ∀ c ∈ ["unit", "unit_context"], c ∈ X := by simpa using ⟨h1, h2⟩
      exact settleBoth_all hX _ ((k1.mono hsub).apart (hX x (List.mem_of_getElem? hx)))
        fun y hy => ((k2 y hy).mono hsub).apart (hX x (List.mem_of_getElem? hx))
  | @append i others msg inplace h1 =>
    subst h1
    simp only [fcall]
    split
    · exact hX
    · rename_i x hx
      have hx := hS x (List.mem_of_getElem? hx)
      split
      · exact hX
      · have hall : ∀ F ∈ x.F :: others.filterMap (fun j => S[j]?.map (·.F)), F.Ok ∧ ∀ c ∈ requiredCols, c ∈ F.cols := by
          intro F hF
          rcases List.mem_cons.1 hF with rfl | hF
          · exact ⟨hx.ok, hx.req⟩
          · obtain ⟨j, -, hj⟩ := List.mem_filterMap.1 hF
            obtain ⟨z, hz, rfl⟩ := Option.map_eq_some_iff.1 hj
            have hz := hS z (List.mem_of_getElem? hz)
            exact ⟨hz.ok, hz.req⟩
        split
        · exact hX
        · exact hX
        · rename_i R hR
          refine settle_all hX _ _ fun y hy => ?_
          cases hy
          obtain ⟨k, -, -, -, -, k2, -⟩ := C52_exact_partial (fun F hF => (hall F hF).1) (fun F hF => (hall F hF).2) hR
          exact apart_of_same k.length_eq fun i hi j hj hs => k2 i hi j hj fun c => .inl (hs c)
  | @interpolate i target ext h1 =>
    simp only [fcall]
    split
    · exact hX
    · rename_i x hx
      have hx' := hS x (List.mem_of_getElem? hx)
      refine settle_all hX _ _ fun y hy => ?_
      unfold FObj.interpolateCall at hy
      cases hi : ({ x.F with times := x.points } : DFrame K).interpolate env.reg env.views target ext with
      | error e => rw [hi] at hy; cases hy
      | ok G =>
        rw [hi] at hy
        cases hy
        exact ((keepsRows_interpolate hx'.ok hx'.req hi).mono (by simpa using h1)).apart (hX x (List.mem_of_getElem? hx))
  | @resample i r n ext h1 =>
    simp only [fcall]
    split
    · exact hX
    · rename_i x hx
      have hx' := hS x (List.mem_of_getElem? hx)
      refine settle_all hX _ _ fun y hy => ?_
      unfold FObj.resampleCall at hy
      cases hi : ({ x.F with times := x.points } : DFrame K).resample env.reg env.views r n ext with
      | error e => rw [hi] at hy; cases hy
      | ok G =>
        rw [hi] at hy
        cases hy
        unfold DFrame.resample at hi
        split at hi
        · split at hi
          · cases hi
          · exact ((keepsRows_interpolate hx'.ok hx'.req hi).mono (by simpa using h1)).apart (hX x (List.mem_of_getElem? hx))
        · cases hi
  | @time i ts =>
    simp only [fcall]
    split
    · exact hX
    · rename_i x hx
      intro z hz
      rcases List.mem_or_eq_of_mem_set hz with h | h
      · exact hX z h
      · subst h
        have : DistinctApart X x.F := hX x (List.mem_of_getElem? hx)
        simp only [FObj.setItem]
        split
        · exact (keepsRows_points x.F ts).apart this
        · exact this
  | @set i c v h1 =>
    simp only [fcall]
    split
    · exact hX
    · rename_i x hx
      have hx' := hS x (List.mem_of_getElem? hx)
      intro z hz
      rcases List.mem_or_eq_of_mem_set hz with h | h
      · exact hX z h
      · subst h
        have : DistinctApart X x.F := hX x (List.mem_of_getElem? hx)
        simp only [FObj.setItem]
        split
        · exact this
        · split
          · exact this
          · split
            · exact this
            · rename_i vals _
              exact ((keepsRows_set hx'.ok c vals).mono (by simpa using h1)).apart this

/-- C68: if the timeseries of all frames differ in columns other than those of `X`, they still do after any calls that change
at most the columns of `X`. With `X` empty these are copying, filtering, renaming, appending and the reading of long tables.
Missing: units may become equal by conversion, types by interpolation (`C68_convert`, `C68_interpolate`), and refused renaming in
place leaves the frame renamed (`C68_rename`). -/
theorem C68_distinct_partial (env : FEnv K) (X : List String) (before cs : List (FCall K))
    (hX : ∀ x ∈ fprogram env [] before, DistinctApart X x.F) (hc : ∀ c ∈ cs, c.Leaves X)
    (hu : Unrefused env FCall.RenamesInPlace (fprogram env [] before) cs) (x : FObj K)
    (hx : x ∈ fprogram env (fprogram env [] before) cs) : DistinctApart X x.F := by
  have key : ∀ (cs : List (FCall K)) (S : List (FObj K)), (∀ x ∈ S, x.Sound) → (∀ x ∈ S, DistinctApart X x.F) → (∀ c ∈ cs, c.Leaves X) →
      Unrefused env FCall.RenamesInPlace S cs → ∀ x ∈ fprogram env S cs, DistinctApart X x.F := by
    intro cs
    induction cs with
    | nil => exact fun S _ h _ _ => h
    | cons c cs ih =>
      intro S hS h hl hu
      exact ih _ (fcall_sound env hS c) (leaves_step env hS h (hl c (by simp)) hu.1) (fun d hd => hl d (List.mem_cons_of_mem _ hd)) hu.2
  exact key cs _ (fprogram_sound env (S := []) (by simp) before) hX hc hu x hx

/-- C68: `timeseries()` works exactly if any two timeseries differ in some column, and refuses the frame with `ValueError`
otherwise. -/
theorem C68_timeseries (env : FEnv K) (cs : List (FCall K)) (x : FObj K) (hx : x ∈ fprogram env [] cs) :
    (DistinctApart [] x.F → ∃ l, x.F.timeseries = .ok l ∧ l.length = x.F.data.length) ∧
    (¬ DistinctApart [] x.F → x.F.timeseries = .error .valueError) := by
  have hs := fprogram_sound env (S := []) (by simp) cs x hx
  rw [apart_nil hs.ok, ← hasDuplicates_iff]
  unfold DFrame.timeseries
  constructor
  · intro h
    rw [if_neg (by simp [h])]
    exact ⟨_, rfl, by simpa using hs.ok.length_eq.ge⟩
  · intro h
    rw [if_pos (by simpa using h)]

/-- What calls that work with all timeseries need: all frames have distinct timeseries. -/
theorem C68_works_partial (env : FEnv K) (before cs : List (FCall K))
    (hX : ∀ x ∈ fprogram env [] before, ∃ l, x.F.timeseries = .ok l) (hc : ∀ c ∈ cs, c.Leaves [])
    (hu : Unrefused env FCall.RenamesInPlace (fprogram env [] before) cs) (x : FObj K)
    (hx : x ∈ fprogram env [] (before ++ cs)) : ∃ l, x.F.timeseries = .ok l := by
  have e : ∀ (before : List (FCall K)) (S : List (FObj K)), fprogram env S (before ++ cs) = fprogram env (fprogram env S before) cs := by
    intro before
    induction before with
    | nil => exact fun _ => rfl
    | cons c l ih => exact fun S => ih _
  have h := C68_distinct_partial env [] before cs (fun y hy => by
    by_contra hn
    obtain ⟨l, hl⟩ := hX y hy
    rw [(C68_timeseries env before y hy).2 hn] at hl
    cases hl) hc hu x (e before [] ▸ hx)
  obtain ⟨l, hl, -⟩ := (C68_timeseries env _ x hx).1 h
  exact ⟨l, hl⟩

/-! ## Cases -/

/-- Filtering, renaming in place and appending. -/
example : ∃ cs : List (FCall ℚ), cs.length = 5 ∧ (∀ c ∈ cs, c.Leaves []) ∧
    (∀ x ∈ fprogram demoFEnv [] [twoSeries "a" "b" "K" "mK"], ∃ l, x.F.timeseries = .ok l) ∧
    Unrefused demoFEnv FCall.RenamesInPlace (fprogram demoFEnv [] [twoSeries "a" "b" "K" "mK"]) cs ∧
    (fprogram demoFEnv [] ([twoSeries "a" "b" "K" "mK"] ++ cs)).length = 4 := by
  refine ⟨[.copy 0, .rename 0 [("scenario", [("a", "c"), ("b", "d")])] true, .filter 1 demoO true [("scenario", .val (.str "b"))] true,
    .append 0 [1] .warn false, .wrap 2], rfl, ?_, ?_, ?_, by decide +kernel⟩
  · simp only [List.forall_mem_cons]
    exact ⟨.copy, .rename (.inl rfl), .filter, .append rfl, .wrap, by simp⟩
  · have : fprogram demoFEnv [] [twoSeries "a" "b" "K" "mK"] = [(DFrame.fresh
        { times := [0, 100, 200], cols := ["model", "scenario", "region", "variable", "unit"]
          data := [(0, [.num 1, .num 3, .num 5]), (1, [.num 10, .num 30, .num 50])]
          «meta» := [(0, [.str "m", .str "a", .str "World", .str "T", .str "K"]), (1, [.str "m", .str "b", .str "World", .str "T", .str "mK"])] } : FObj ℚ)] := by
      decide +kernel
    rw [this]
    simp only [List.forall_mem_cons]
    refine ⟨?_, by simp⟩
    unfold DFrame.timeseries
    exact ⟨_, if_neg (by decide +kernel)⟩
  · exact ⟨(fun h => by cases h), (fun _ => by decide +kernel), (fun h => by cases h), (fun h => by cases h), (fun h => by cases h), trivial⟩

/-- Converting units, with timeseries that differ in the scenario. -/
example : DistinctApart ["unit", "unit_context", "parameter_type"] tempF ∧
    FCall.Leaves ["unit", "unit_context", "parameter_type"] (.convert 0 demoO true [] "K" .none true : FCall ℚ) ∧
    FCall.Leaves ["unit", "unit_context", "parameter_type"] (.resample 0 (.week 0) 1 .none : FCall ℚ) := by
  refine ⟨?_, .convert (by simp) (by simp), .resample (by simp)⟩
  intro i j hij hj
  have h4 : j < 4 := hj
  have : (∃ c ∈ ["scenario", "variable"], PyVal.same (tempF.metaAt i c) (tempF.metaAt j c) = false) := by
    interval_cases j <;> interval_cases i <;> decide +kernel
  obtain ⟨c, hc, h⟩ := this
  refine ⟨c, ?_, fun hs => by rw [same_iff.2 hs] at h; cases h⟩
  simp only [List.mem_cons, List.not_mem_nil, or_false] at hc
  rcases hc with rfl | rfl <;> decide

/-- C68 fails for the conversion of units: two timeseries that differ only in the unit are the same afterwards, and
`timeseries()` refuses the frame. -/
theorem C68_convert :
    (fcall demoFEnv (fprogram demoFEnv [] [twoSeries "a" "a" "K" "mK"]) (.convert 0 demoO true [] "K" .none true)).1 = none ∧
    (fprogram demoFEnv [] [twoSeries "a" "a" "K" "mK"]).map (fun x => x.F.timeseries.toBool) = [true] ∧
    (fprogram demoFEnv [] [twoSeries "a" "a" "K" "mK", .convert 0 demoO true [] "K" .none true]).map
      (fun x => x.F.timeseries) = [.error .valueError] := by decide +kernel

/-- Two timeseries, one without a type. -/
def typedSeries : FCall ℚ :=
  .array 2 [[.num 1, .num 10], [.num 3, .num 30], [.num 5, .num 50]] [0, 100, 200] [("model", .scalar (.str "m")),
    ("scenario", .scalar (.str "a")), ("region", .scalar (.str "World")), ("variable", .scalar (.str "T")),
    ("unit", .scalar (.str "K")), ("parameter_type", .list [.none, .str "point"])] (by simp)

/-- C68 fails for interpolation: a timeseries without a type gets the type that the other one has. -/
theorem C68_interpolate :
    (fprogram demoFEnv [] [typedSeries]).map (fun x => x.F.timeseries.toBool) = [true] ∧
    (fprogram demoFEnv [] [typedSeries, .interpolate 0 [0, 200] .none]).map (fun x => x.F.timeseries.toBool) = [true, false] := by
  decide +kernel

/-- C68 fails for refused renaming in place: the names are changed all the same. -/
theorem C68_rename :
    (fcall demoFEnv (fprogram demoFEnv [] [twoSeries "a" "b" "K" "K"]) (.rename 0 [("scenario", [("a", "b")])] true)).1 = some .valueError ∧
    (fprogram demoFEnv [] [twoSeries "a" "b" "K" "K"]).map (fun x => x.F.timeseries.toBool) = [true] ∧
    (fprogram demoFEnv [] [twoSeries "a" "b" "K" "K", .rename 0 [("scenario", [("a", "b")])] true]).map
      (fun x => x.F.timeseries) = [.error .valueError] := by decide +kernel

end Openscm
