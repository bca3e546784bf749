import Verif.FrameMake
import Verif.FrameProps1
import Verif.UnitsProps
import Mathlib.Data.List.Dedup

/-!
# `convert_unit` (model) and C53

`convert_unit`, `openscm/scmdataframe/base.py:1216-1272`.

The converters for the wanted unit and context are a function from units to conversions of values (or errors).
Units in the metadata that are neither strings nor missing are not modelled.
-/

set_option linter.unusedSectionVars false

namespace Openscm

variable {K : Type} [Field K] [DecidableEq K]

/-- `openscm/scmdataframe/base.py:1255-1257`. -/
def DFrame.withContext (F : DFrame K) : DFrame K :=
  if "unit_context" ∈ F.cols then F
  else DFrame.sortMeta { F with cols := F.cols ++ ["unit_context"], «meta» := F.meta.map fun r => (r.1, r.2 ++ [.none]) }

/-- The unit in a row of metadata. -/
def unitIn (cols : List String) (row : List (PyVal K)) : PyVal K := row.getD (cols.idxOf "unit") .none

/-- `to_convert._meta.groupby("unit")`: units in order with the labels of their timeseries; missing units are left out. -/
def unitGroups (T : DFrame K) : Except Err (List (String × List Nat)) :=
  if T.meta.all fun r => match unitIn T.cols r.2 with | .str _ => true | v => v = .none || v = .flt .nan then
    let us := T.meta.filterMap fun r => match unitIn T.cols r.2 with | .str u => some u | _ => none
    .ok ((us.dedup.insertionSort (· ≤ ·)).map fun u => (u, (T.meta.filter fun r => unitIn T.cols r.2 = .str u).map (·.1)))
  else .error .unmodelled

/-- `.assign(unit=unit, unit_context=context)` for one row. -/
def assignUnit (cols : List String) (unit : String) (ctx : PyVal K) (row : List (PyVal K)) : List (PyVal K) :=
  (row.set (cols.idxOf "unit") (.str unit)).set (cols.idxOf "unit_context") ctx

/-- The body of the loop, `openscm/scmdataframe/base.py:1262-1266`. -/
def DFrame.convertLabels (F : DFrame K) (ls : List Nat) (f : Fl K → Fl K) (unit : String) (ctx : PyVal K) : DFrame K :=
  { F with data := F.data.map fun d => if d.1 ∈ ls then (d.1, d.2.map f) else d
           «meta» := F.meta.map fun r => if r.1 ∈ ls then (r.1, assignUnit F.cols unit ctx r.2) else r }

/-- The loop, `openscm/scmdataframe/base.py:1260-1266`. -/
def convertLoop (conv : String → Except Err (Fl K → Fl K)) (unit : String) (ctx : PyVal K) :
    List (String × List Nat) → DFrame K → Except Err Unit × DFrame K
  | [], F => (.ok (), F)
  | (u, ls) :: r, F =>
    match conv u with
    | .error e => (.error e, F)
    | .ok f => convertLoop conv unit ctx r (F.convertLabels ls f unit ctx)

/-- `convert_unit`, `openscm/scmdataframe/base.py:1216-1272`: what it returns or raises, and the frame afterwards. -/
def DFrame.convertUnit (conv : String → Except Err (Fl K → Fl K)) (F : DFrame K) (o : FilterOpts K) (keep : Bool)
    (filters : List (String × PyArg K)) (unit : String) (ctx : PyVal K) (inplace : Bool) :
    Except Err (Option (DFrame K)) × DFrame K :=
  match F.withContext.filter o keep filters with
  | .error e => (.error e, if inplace then F.withContext else F)
  | .ok T =>
    match unitGroups T with
    | .error e => (.error e, if inplace then F.withContext else F)
    | .ok gs =>
      match convertLoop conv unit ctx gs F.withContext with
      | (.error e, G) => (.error e, if inplace then G else F)
      | (.ok _, G) => if inplace then (.ok none, G) else (.ok (some G), F)

/-- The conversion of a converter without context, for values that may be missing. -/
def unitConv (reg : Registry K) (unit : String) (u : String) : Except Err (Fl K → Fl K) :=
  match mkConv reg u unit with
  | .error e => .error e
  | .ok c => .ok fun x => match x with | .nan => .nan | .num v => .num (c.convertFrom v)

/-! ## C53: specification -/

/-- A timeseries is selected: it has a value (not missing) at a time that matches. -/
def Selected (o : FilterOpts K) (keep : Bool) (filters : List (String × PyArg K)) (times : List Int) (cols : List String)
    (rd : SRow K) : Prop :=
  ∃ (k : Nat) (t : Int) (x : K), times[k]? = some t ∧ rd.2.2[k]? = some (.num x) ∧
    (Matches o filters cols rd.1.2 t ↔ keep = true)

/-- What becomes of a timeseries: converted if selected and not without unit, otherwise left as it is. -/
inductive RowConverted (conv : String → Except Err (Fl K → Fl K)) (unit : String) (ctx : PyVal K) (cols : List String)
    (sel : SRow K → Prop) : SRow K → SRow K → Prop
  | converted {l l' : Nat} {row row' : List (PyVal K)} {vals : List (Fl K)} {j : Nat} {u : String} {f : Fl K → Fl K} :
      sel ((l, row), (l', vals)) → cols[j]? = some "unit" → row[j]? = some (.str u) → conv u = .ok f →
      row'.length = row.length →
      (∀ (i : Nat) (v : PyVal K), cols[i]? = some "unit" → row'[i]? = some v → v = .str unit) →
      (∀ (i : Nat) (v : PyVal K), cols[i]? = some "unit_context" → row'[i]? = some v → v = ctx) →
      (∀ (i : Nat) (c : String), cols[i]? = some c → c ≠ "unit" → c ≠ "unit_context" → row'[i]? = row[i]?) →
      RowConverted conv unit ctx cols sel ((l, row), (l', vals)) ((l, row'), (l', vals.map f))
  | unselected {rd : SRow K} : ¬ sel rd → RowConverted conv unit ctx cols sel rd rd
  | noUnit {rd : SRow K} {j : Nat} {v : PyVal K} : cols[j]? = some "unit" → rd.1.2[j]? = some v → (∀ u, v ≠ .str u) →
      RowConverted conv unit ctx cols sel rd rd

/-! ## The context column -/

theorem append_context_ok {F : DFrame K} (hF : F.Ok) (h : "unit_context" ∉ F.cols) :
    DFrame.Ok { F with cols := F.cols ++ ["unit_context"], «meta» := F.meta.map fun r => (r.1, r.2 ++ [.none]) } where
  labels := by rw [List.map_map]; exact hF.labels
  nodup := hF.nodup
  cols_nodup := by
    rw [List.nodup_append]
    refine ⟨hF.cols_nodup, by simp, ?_⟩
    intro a ha b hb hab
    rw [List.mem_singleton] at hb
    exact h (hb ▸ hab ▸ ha)
  data_len := hF.data_len
  meta_len := by
    intro r hr
    obtain ⟨s, hs, rfl⟩ := List.mem_map.1 hr
    simpa using hF.meta_len s hs

theorem DFrame.Ok.withContext {F : DFrame K} (hF : F.Ok) : F.withContext.Ok := by
  unfold DFrame.withContext
  split
  · exact hF
  · rename_i h
    exact (append_context_ok hF h).sortMeta

/-- The column for contexts, and nothing else, is added if there is none. -/
theorem withContext_spec {F : DFrame K} (hF : F.Ok) (hr : ∀ c ∈ requiredCols, c ∈ F.cols) :
    F.withContext.times = F.times ∧ F.withContext.data = F.data ∧
    F.withContext.meta.map (·.1) = F.meta.map (·.1) ∧
    (∀ c, c ∈ F.withContext.cols ↔ c ∈ F.cols ∨ c = "unit_context") ∧
    (∀ i c v, c ≠ "unit_context" → (F.withContext.HasMeta i c v ↔ F.HasMeta i c v)) ∧
    (∀ i v, "unit_context" ∈ F.cols → (F.withContext.HasMeta i "unit_context" v ↔ F.HasMeta i "unit_context" v)) ∧
    (∀ i v, "unit_context" ∉ F.cols → F.withContext.HasMeta i "unit_context" v → v = .none) := by
  unfold DFrame.withContext
  split
  · rename_i h
    refine ⟨rfl, rfl, rfl, fun c => ⟨.inl, ?_⟩, fun _ _ _ _ => Iff.rfl, fun _ _ _ => Iff.rfl, fun _ _ h' => absurd h h'⟩
    rintro (hc | rfl)
    · exact hc
    · exact h
  · rename_i h
    have hok := append_context_ok hF h
    have hr' : ∀ c ∈ requiredCols, c ∈ F.cols ++ ["unit_context"] := fun c hc => List.mem_append_left _ (hr c hc)
    have hlen : ∀ s ∈ F.meta, s.2.length = F.cols.length := hF.meta_len
    refine ⟨rfl, rfl, ?_, ?_, ?_, fun _ _ h' => absurd h' h, ?_⟩
    · simp [DFrame.sortMeta, Function.comp_def]
    · intro c
      show c ∈ sortedCols (F.cols ++ ["unit_context"]) ↔ _
      rw [sortedCols_mem hr']
      simp
    · intro i c v hc
      rw [DFrame.sortMeta_hasMeta hok.meta_len hok.cols_nodup hr']
      unfold DFrame.HasMeta
      constructor
      · rintro ⟨j, r, h1, h2, h3⟩
        simp only at h1 h2
        rw [List.getElem?_map] at h2
        cases hm : F.meta[i]? with
        | none => rw [hm] at h2; simp at h2
        | some s =>
          rw [hm] at h2
          have := (Option.some.inj h2).symm
          subst this
          have hl := hlen s (List.mem_of_getElem? hm)
          simp only at h3
          rw [List.getElem?_append] at h1
          split at h1
          · rename_i hj
            refine ⟨j, s, h1, rfl, ?_⟩
            rwa [List.getElem?_append_left (by omega)] at h3
          · exfalso
            have := List.mem_of_getElem? h1
            rw [List.mem_singleton] at this
            exact hc this
      · rintro ⟨j, r, h1, h2, h3⟩
        have hj := (List.getElem?_eq_some_iff.1 h1).1
        have hl := hlen r (List.mem_of_getElem? h2)
        refine ⟨j, (r.1, r.2 ++ [.none]), ?_, ?_, ?_⟩
        · simp only; rw [List.getElem?_append_left hj, h1]
        · simp [h2]
        · simp only; rw [List.getElem?_append_left (by omega), h3]
    · intro i v _ hv
      rw [DFrame.sortMeta_hasMeta hok.meta_len hok.cols_nodup hr'] at hv
      obtain ⟨j, r, h1, h2, h3⟩ := hv
      simp only at h1 h2
      rw [List.getElem?_map] at h2
      cases hm : F.meta[i]? with
      | none => rw [hm] at h2; simp at h2
      | some s =>
        rw [hm] at h2
        have := (Option.some.inj h2).symm
        subst this
        have hl := hlen s (List.mem_of_getElem? hm)
        simp only at h3
        rw [List.getElem?_append] at h1 h3
        split at h1
        · exact absurd (List.mem_of_getElem? h1) h
        · rw [if_neg (by omega)] at h3
          have := List.mem_of_getElem? h3
          simpa using this

/-! ## The loop -/

def DisjointGroups (gs : List (String × List Nat)) : Prop := gs.Pairwise fun g h => ∀ l ∈ g.2, l ∉ h.2

/-- What the loop does to one timeseries. -/
def convRow (conv : String → Except Err (Fl K → Fl K)) (unit : String) (ctx : PyVal K) (cols : List String)
    (gs : List (String × List Nat)) (rd : SRow K) : SRow K :=
  match gs.find? fun g => decide (rd.2.1 ∈ g.2) with
  | none => rd
  | some g =>
    match conv g.1 with
    | .error _ => rd
    | .ok f => ((rd.1.1, assignUnit cols unit ctx rd.1.2), (rd.2.1, rd.2.2.map f))

theorem convRow_labels (conv : String → Except Err (Fl K → Fl K)) (unit : String) (ctx : PyVal K) (cols : List String)
    (gs : List (String × List Nat)) (rd : SRow K) :
    (convRow conv unit ctx cols gs rd).1.1 = rd.1.1 ∧ (convRow conv unit ctx cols gs rd).2.1 = rd.2.1 ∧
    (convRow conv unit ctx cols gs rd).1.2.length = rd.1.2.length ∧
    (convRow conv unit ctx cols gs rd).2.2.length = rd.2.2.length := by
  unfold convRow
  split
  · simp
  · split <;> simp [assignUnit]

theorem convertLabels_frameOf {times : List Int} {cols : List String} {R : List (SRow K)} (h : ∀ rd ∈ R, rd.1.1 = rd.2.1)
    (ls : List Nat) (f : Fl K → Fl K) (unit : String) (ctx : PyVal K) :
    (frameOf times cols R).convertLabels ls f unit ctx = frameOf times cols (R.map fun rd =>
      if rd.2.1 ∈ ls then ((rd.1.1, assignUnit cols unit ctx rd.1.2), (rd.2.1, rd.2.2.map f)) else rd) := by
  unfold DFrame.convertLabels frameOf
  simp only [List.map_map, DFrame.mk.injEq, true_and]
  constructor
  · refine List.map_congr_left fun rd _ => ?_
    simp only [Function.comp]
    split <;> rfl
  · refine List.map_congr_left fun rd hrd => ?_
    simp only [Function.comp, h rd hrd]
    split
    · simp
    · rfl

theorem convertLoop_ok {conv : String → Except Err (Fl K → Fl K)} {unit : String} {ctx : PyVal K}
    {gs : List (String × List Nat)} (hd : DisjointGroups gs) {times : List Int} {cols : List String} {R : List (SRow K)}
    (h : ∀ rd ∈ R, rd.1.1 = rd.2.1) {G : DFrame K} (hl : convertLoop conv unit ctx gs (frameOf times cols R) = (.ok (), G)) :
    G = frameOf times cols (R.map (convRow conv unit ctx cols gs)) ∧ ∀ g ∈ gs, ∃ f, conv g.1 = .ok f := by
  induction gs generalizing R with
  | nil =>
    simp only [convertLoop, Prod.mk.injEq, true_and] at hl
    refine ⟨?_, by simp⟩
    rw [← hl]
    congr 1
    conv_lhs => rw [← List.map_id R]
    rfl
  | cons g r ih =>
    obtain ⟨u, ls⟩ := g
    unfold convertLoop at hl
    cases hc : conv u with
    | error e => rw [hc] at hl; simp at hl
    | ok f =>
      rw [hc] at hl
      simp only at hl
      rw [convertLabels_frameOf h] at hl
      have hd' := List.pairwise_cons.1 hd
      obtain ⟨h1, h2⟩ := ih hd'.2 (by
        intro rd hrd
        obtain ⟨x, hx, rfl⟩ := List.mem_map.1 hrd
        split
        · exact h x hx
        · exact h x hx) hl
      refine ⟨?_, ?_⟩
      · rw [h1, List.map_map]
        congr 1
        refine List.map_congr_left fun rd hrd => ?_
        simp only [Function.comp]
        by_cases hm : rd.2.1 ∈ ls
        · rw [if_pos hm]
          have hn : r.find? (fun g => decide (rd.2.1 ∈ g.2)) = none := by
            rw [List.find?_eq_none]
            intro g hg
            have := hd'.1 g hg rd.2.1 hm
            simpa using this
          unfold convRow
          rw [List.find?_cons, show decide (rd.2.1 ∈ ((u, ls) : String × List Nat).2) = true by simpa using hm]
          simp only [hn, hc]
        · rw [if_neg hm]
          unfold convRow
          rw [List.find?_cons, show decide (rd.2.1 ∈ ((u, ls) : String × List Nat).2) = false by simpa using hm]
      · intro g hg
        rcases List.mem_cons.1 hg with rfl | hg
        · exact ⟨f, hc⟩
        · exact h2 g hg

theorem convertLoop_works {conv : String → Except Err (Fl K → Fl K)} {unit : String} {ctx : PyVal K}
    {gs : List (String × List Nat)} (h : ∀ g ∈ gs, ∃ f, conv g.1 = .ok f) (F : DFrame K) :
    ∃ G, convertLoop conv unit ctx gs F = (.ok (), G) := by
  induction gs generalizing F with
  | nil => exact ⟨F, rfl⟩
  | cons g r ih =>
    obtain ⟨u, ls⟩ := g
    obtain ⟨f, hf⟩ := h (u, ls) (by simp)
    obtain ⟨G, hG⟩ := ih (fun g hg => h g (by simp [hg])) (F.convertLabels ls f unit ctx)
    simp only at hf
    exact ⟨G, by simp only [convertLoop, hf, hG]⟩

theorem convertLoop_error {conv : String → Except Err (Fl K → Fl K)} {unit : String} {ctx : PyVal K}
    {gs : List (String × List Nat)} {F G : DFrame K} {e : Err} (h : convertLoop conv unit ctx gs F = (.error e, G)) :
    ∃ g ∈ gs, conv g.1 = .error e := by
  induction gs generalizing F with
  | nil => simp [convertLoop] at h
  | cons g r ih =>
    obtain ⟨u, ls⟩ := g
    unfold convertLoop at h
    cases hc : conv u with
    | error e' =>
      rw [hc] at h
      simp only [Prod.mk.injEq, Except.error.injEq] at h
      exact ⟨(u, ls), by simp, by rw [hc, h.1]⟩
    | ok f =>
      rw [hc] at h
      obtain ⟨g, hg, he⟩ := ih h
      exact ⟨g, by simp [hg], he⟩

/-! ## The groups -/

theorem unitGroups_ok {T : DFrame K} (hT : T.Ok) {gs : List (String × List Nat)} (h : unitGroups T = .ok gs) :
    DisjointGroups gs ∧ (∀ r ∈ T.meta, (∃ u, unitIn T.cols r.2 = .str u) ∨ unitIn T.cols r.2 = .none ∨ unitIn T.cols r.2 = .flt .nan) ∧
    (∀ u l, (∃ ls, (u, ls) ∈ gs ∧ l ∈ ls) ↔ ∃ r ∈ T.meta, r.1 = l ∧ unitIn T.cols r.2 = .str u) ∧
    (∀ g ∈ gs, ∃ r ∈ T.meta, unitIn T.cols r.2 = .str g.1) := by
  unfold unitGroups at h
  split at h
  · rename_i hall
    have := (Except.ok.inj h).symm
    subst this
    have hmem : ∀ u, u ∈ ((T.meta.filterMap fun r => match unitIn T.cols r.2 with | .str u => some u | _ => none).dedup.insertionSort (· ≤ ·)) ↔
        ∃ r ∈ T.meta, unitIn T.cols r.2 = .str u := by
      intro u
      rw [List.mem_insertionSort, List.mem_dedup, List.mem_filterMap]
      refine exists_congr fun r => and_congr_right fun _ => ?_
      cases unitIn T.cols r.2 <;> simp
    refine ⟨?_, ?_, ?_, ?_⟩
    · unfold DisjointGroups
      rw [List.pairwise_map]
      have hn : ((T.meta.filterMap fun r => match unitIn T.cols r.2 with | .str u => some u | _ => none).dedup.insertionSort (· ≤ ·)).Nodup :=
        (List.perm_insertionSort _ _).nodup_iff.2 (List.nodup_dedup _)
      refine hn.imp fun {a b} hab l hl hl' => ?_
      obtain ⟨r, hr, rfl⟩ := List.mem_map.1 hl
      obtain ⟨s, hs, e⟩ := List.mem_map.1 hl'
      rw [List.mem_filter, decide_eq_true_iff] at hr hs
      have hnd : (T.meta.map (·.1)).Nodup := hT.labels ▸ hT.nodup
      have : s = r := List.inj_on_of_nodup_map hnd hs.1 hr.1 e
      subst this
      rw [hr.2] at hs
      exact hab (PyVal.str.inj hs.2)
    · intro r hr
      have := List.all_eq_true.1 hall r hr
      cases hu : unitIn T.cols r.2 with
      | str u => exact .inl ⟨u, rfl⟩
      | int z => rw [hu] at this; simp at this
      | flt x => rw [hu] at this; simpa using this
      | none => exact .inr (.inl rfl)
      | time t => rw [hu] at this; simp at this
    · intro u l
      constructor
      · rintro ⟨ls, hg, hl⟩
        obtain ⟨w, hw, e⟩ := List.mem_map.1 hg
        cases e
        obtain ⟨r, hr, rfl⟩ := List.mem_map.1 hl
        rw [List.mem_filter, decide_eq_true_iff] at hr
        exact ⟨r, hr.1, rfl, hr.2⟩
      · rintro ⟨r, hr, rfl, hu⟩
        refine ⟨_, List.mem_map.2 ⟨u, (hmem u).2 ⟨r, hr, hu⟩, rfl⟩, ?_⟩
        exact List.mem_map.2 ⟨r, List.mem_filter.2 ⟨hr, by simpa using hu⟩, rfl⟩
    · intro g hg
      obtain ⟨w, hw, rfl⟩ := List.mem_map.1 hg
      exact (hmem w).1 hw
  · cases h

theorem unitGroups_works {T : DFrame K}
    (h : ∀ r ∈ T.meta, (∃ u, unitIn T.cols r.2 = .str u) ∨ unitIn T.cols r.2 = .none ∨ unitIn T.cols r.2 = .flt .nan) :
    ∃ gs, unitGroups T = .ok gs := by
  unfold unitGroups
  rw [if_pos]
  · exact ⟨_, rfl⟩
  · rw [List.all_eq_true]
    intro r hr
    rcases h r hr with ⟨u, hu⟩ | hu | hu <;> simp [hu]

/-! ## Selected timeseries -/

theorem maskVals_any {P : Int → Bool} {times : List Int} {vals : List (Fl K)} :
    (maskVals P times vals).any Fl.isNum = true ↔ ∃ (k : Nat) (t : Int) (x : K), times[k]? = some t ∧ vals[k]? = some (.num x) ∧ P t = true := by
  rw [List.any_eq_true]
  constructor
  · rintro ⟨v, hv, hn⟩
    obtain ⟨k, hk⟩ := List.getElem?_of_mem hv
    unfold maskVals at hk
    rw [List.getElem?_zipWith] at hk
    cases h1 : times[k]? with
    | none => rw [h1] at hk; simp at hk
    | some t =>
      cases h2 : vals[k]? with
      | none => rw [h1, h2] at hk; simp at hk
      | some w =>
        rw [h1, h2] at hk
        simp only [Option.some.injEq] at hk
        cases hp : P t with
        | false => rw [hp] at hk; subst hk; simp [Fl.isNum] at hn
        | true =>
          rw [hp] at hk
          simp only [if_true] at hk
          subst hk
          cases w with
          | nan => simp [Fl.isNum] at hn
          | num x => exact ⟨k, t, x, h1, h2, hp⟩
  · rintro ⟨k, t, x, h1, h2, h3⟩
    refine ⟨.num x, List.mem_of_getElem? (i := k) ?_, rfl⟩
    unfold maskVals
    rw [List.getElem?_zipWith, h1, h2]
    simp [h3]

theorem restrict_meta {F : DFrame K} (Q : List (PyVal K) → Int → Bool) :
    (F.restrict Q).cols = F.cols ∧ ∀ r, r ∈ (F.restrict Q).meta ↔ ∃ rd ∈ F.rows, rd.1 = r ∧
      ∃ (k : Nat) (t : Int) (x : K), F.times[k]? = some t ∧ rd.2.2[k]? = some (.num x) ∧ Q rd.1.2 t = true := by
  refine ⟨rfl, fun r => ?_⟩
  unfold DFrame.restrict dropRows frameOf maskRows
  simp only [List.map_map, List.mem_map, List.mem_filter, Function.comp]
  constructor
  · rintro ⟨rd, ⟨⟨x, hx, rfl⟩, h2⟩, rfl⟩
    exact ⟨x, hx, rfl, maskVals_any.1 h2⟩
  · rintro ⟨rd, hrd, rfl, h⟩
    exact ⟨_, ⟨⟨rd, hrd, rfl⟩, maskVals_any.2 h⟩, rfl⟩

theorem getElem?_idxOf_unit {cols : List String} (h : "unit" ∈ cols) {row : List (PyVal K)} (hl : row.length = cols.length) :
    row[cols.idxOf "unit"]? = some (unitIn cols row) := by
  have := List.idxOf_lt_length_of_mem h
  unfold unitIn
  rw [List.getD_eq_getElem?_getD, List.getElem?_eq_getElem (by omega), Option.getD_some]

theorem assignUnit_spec {cols : List String} (hn : cols.Nodup) (hc : "unit_context" ∈ cols) (hu : "unit" ∈ cols)
    (unit : String) (ctx : PyVal K) {row : List (PyVal K)} (hl : row.length = cols.length) :
    (∀ (i : Nat) (v : PyVal K), cols[i]? = some "unit" → (assignUnit cols unit ctx row)[i]? = some v → v = .str unit) ∧
    (∀ (i : Nat) (v : PyVal K), cols[i]? = some "unit_context" → (assignUnit cols unit ctx row)[i]? = some v → v = ctx) ∧
    (∀ (i : Nat) (c : String), cols[i]? = some c → c ≠ "unit" → c ≠ "unit_context" → (assignUnit cols unit ctx row)[i]? = row[i]?) := by
  have hne : cols.idxOf "unit_context" ≠ cols.idxOf "unit" := by
    intro h
    have h1 := getElem?_idxOf' hc
    have h2 := getElem?_idxOf' hu
    rw [h, h2] at h1
    exact absurd h1 (by decide)
  have hlt := List.idxOf_lt_length_of_mem hc
  have hlt' := List.idxOf_lt_length_of_mem hu
  unfold assignUnit
  refine ⟨fun i v h1 h2 => ?_, fun i v h1 h2 => ?_, fun i c h1 h2 h3 => ?_⟩
  · have hi := idxOf_of_getElem? hn h1
    subst hi
    rw [List.getElem?_set_ne hne, List.getElem?_set_self (by omega)] at h2
    exact (Option.some.inj h2).symm
  · have hi := idxOf_of_getElem? hn h1
    subst hi
    rw [List.getElem?_set_self (by simp; omega)] at h2
    exact (Option.some.inj h2).symm
  · have hi := idxOf_of_getElem? hn h1
    rw [List.getElem?_set_ne, List.getElem?_set_ne]
    · intro h
      rw [← h] at h1
      rw [getElem?_idxOf' hu] at h1
      exact h2 (Option.some.inj h1).symm
    · intro h
      rw [← h] at h1
      rw [getElem?_idxOf' hc] at h1
      exact h3 (Option.some.inj h1).symm

/-! ## C53 -/

theorem unit_mem_withContext {F : DFrame K} (hF : F.Ok) (hr : ∀ c ∈ requiredCols, c ∈ F.cols) :
    "unit" ∈ F.withContext.cols ∧ "unit_context" ∈ F.withContext.cols := by
  obtain ⟨-, -, -, h, -⟩ := withContext_spec hF hr
  exact ⟨(h _).2 (.inl (hr _ (by decide))), (h _).2 (.inr rfl)⟩

/-- The loop over the selected timeseries. -/
theorem convert_core {F0 : DFrame K} (h0 : F0.Ok) (hu : "unit" ∈ F0.cols) (hc : "unit_context" ∈ F0.cols)
    {conv : String → Except Err (Fl K → Fl K)} {o : FilterOpts K} {keep : Bool} {filters : List (String × PyArg K)}
    {unit : String} {ctx : PyVal K} {T G : DFrame K} {gs : List (String × List Nat)}
    (hT : F0.filter o keep filters = .ok T) (hg : unitGroups T = .ok gs)
    (hl : convertLoop conv unit ctx gs F0 = (.ok (), G)) :
    G.Ok ∧ G.times = F0.times ∧ G.cols = F0.cols ∧
    List.Forall₂ (RowConverted conv unit ctx F0.cols (Selected o keep filters F0.times F0.cols)) F0.rows G.rows := by
  obtain ⟨P, hP, hres⟩ := filter_restrict h0 hT
  have hTe : T = F0.restrict fun r t => P r t == keep := by
    have := hres F0 h0 (Within.refl F0) keep
    rw [hT] at this
    exact Except.ok.inj this
  obtain ⟨r1, r2, r3, r4, r5⟩ := h0.rows_ok
  have hTok : T.Ok := hTe ▸ h0.restrict _
  obtain ⟨g1, g2, g3, g4⟩ := unitGroups_ok hTok hg
  rw [h0.frameOf_eq] at hl
  obtain ⟨e1, e2⟩ := convertLoop_ok g1 r1 hl
  have hTc : T.cols = F0.cols := by rw [hTe]; rfl
  have hsel : ∀ rd ∈ F0.rows, (rd.1 ∈ T.meta ↔ Selected o keep filters F0.times F0.cols rd) := by
    intro rd hrd
    rw [hTe, (restrict_meta _).2]
    have hlab : ∀ rd' ∈ F0.rows, rd'.1 = rd.1 → rd' = rd := by
      intro rd' hrd' e
      refine List.inj_on_of_nodup_map r2 hrd' hrd ?_
      rw [← r1 rd' hrd', ← r1 rd hrd, e]
    constructor
    · rintro ⟨rd', hrd', e, k, t, x, h1, h2, h3⟩
      rw [hlab rd' hrd' e] at h2 h3
      refine ⟨k, t, x, h1, h2, ?_⟩
      rw [← hP _ _ (r5 rd hrd)]
      simp only [beq_iff_eq] at h3
      rw [h3]
    · rintro ⟨k, t, x, h1, h2, h3⟩
      refine ⟨rd, hrd, rfl, k, t, x, h1, h2, ?_⟩
      rw [← hP _ _ (r5 rd hrd)] at h3
      simp only [beq_iff_eq]
      exact Bool.eq_iff_iff.2 h3
  have hGrows : G.rows = F0.rows.map (convRow conv unit ctx F0.cols gs) := by rw [e1, frameOf_rows]
  refine ⟨?_, by rw [e1]; rfl, by rw [e1]; rfl, ?_⟩
  · rw [e1, frame_ok_iff]
    refine ⟨?_, ?_, r3, ?_, ?_⟩
    · intro rd hrd
      obtain ⟨x, hx, rfl⟩ := List.mem_map.1 hrd
      obtain ⟨a1, a2, -, -⟩ := convRow_labels conv unit ctx F0.cols gs x
      rw [a1, a2]
      exact r1 x hx
    · rw [List.map_map]
      have : ((fun rd : SRow K => rd.2.1) ∘ convRow conv unit ctx F0.cols gs) = fun rd => rd.2.1 := by
        funext x
        exact (convRow_labels conv unit ctx F0.cols gs x).2.1
      rw [this]
      exact r2
    · intro rd hrd
      obtain ⟨x, hx, rfl⟩ := List.mem_map.1 hrd
      rw [(convRow_labels conv unit ctx F0.cols gs x).2.2.2]
      exact r4 x hx
    · intro rd hrd
      obtain ⟨x, hx, rfl⟩ := List.mem_map.1 hrd
      rw [(convRow_labels conv unit ctx F0.cols gs x).2.2.1]
      exact r5 x hx
  · rw [hGrows, List.forall₂_map_right_iff, List.forall₂_same]
    intro rd hrd
    have hlen := r5 rd hrd
    by_cases hs : Selected o keep filters F0.times F0.cols rd
    · have hm := (hsel rd hrd).2 hs
      rcases g2 _ hm with ⟨u, hu1⟩ | hmiss
      · rw [hTc] at hu1
        have hin : ∃ ls, (u, ls) ∈ gs ∧ rd.2.1 ∈ ls := (g3 u rd.2.1).2 ⟨rd.1, hm, r1 rd hrd, by rw [hTc]; exact hu1⟩
        have hfind : ∃ g, gs.find? (fun g => decide (rd.2.1 ∈ g.2)) = some g ∧ g.1 = u := by
          obtain ⟨ls, h1, h2⟩ := hin
          cases hf : gs.find? (fun g => decide (rd.2.1 ∈ g.2)) with
          | none =>
            rw [List.find?_eq_none] at hf
            exact absurd h2 (by simpa using hf _ h1)
          | some g =>
            refine ⟨g, rfl, ?_⟩
            have hgm := List.mem_of_find?_eq_some hf
            have hgl := List.find?_some hf
            obtain ⟨r, hr, hrl, hru⟩ := (g3 g.1 rd.2.1).1 ⟨g.2, hgm, by simpa using hgl⟩
            have hnd : (T.meta.map (·.1)).Nodup := hTok.labels ▸ hTok.nodup
            have : r = rd.1 := List.inj_on_of_nodup_map hnd hr hm (by rw [hrl, r1 rd hrd])
            subst this
            rw [hTc, hu1] at hru
            exact (PyVal.str.inj hru).symm
        obtain ⟨g, hf1, hf2⟩ := hfind
        obtain ⟨f, hf⟩ := e2 g (List.mem_of_find?_eq_some hf1)
        obtain ⟨s1, s2, s3⟩ := assignUnit_spec r3 hc hu unit ctx hlen
        unfold convRow
        rw [hf1]
        simp only [hf]
        obtain ⟨⟨l, row⟩, ⟨l', vals⟩⟩ := rd
        refine .converted hs (getElem?_idxOf' hu) ?_ (hf2 ▸ hf) (by simp [assignUnit]) s1 s2 s3
        rw [getElem?_idxOf_unit hu hlen, hu1]
      · have hnone : gs.find? (fun g => decide (rd.2.1 ∈ g.2)) = none := by
          rw [List.find?_eq_none]
          intro g hg hgl
          obtain ⟨r, hr, hrl, hru⟩ := (g3 g.1 rd.2.1).1 ⟨g.2, hg, by simpa using hgl⟩
          have hnd : (T.meta.map (·.1)).Nodup := hTok.labels ▸ hTok.nodup
          have : r = rd.1 := List.inj_on_of_nodup_map hnd hr hm (by rw [hrl, r1 rd hrd])
          subst this
          rw [hru] at hmiss
          simp at hmiss
        unfold convRow
        rw [hnone]
        refine .noUnit (getElem?_idxOf' hu) (getElem?_idxOf_unit hu hlen) fun w hw => ?_
        rw [hTc, hw] at hmiss
        simp at hmiss
    · have hnone : gs.find? (fun g => decide (rd.2.1 ∈ g.2)) = none := by
        rw [List.find?_eq_none]
        intro g hg hgl
        obtain ⟨r, hr, hrl, -⟩ := (g3 g.1 rd.2.1).1 ⟨g.2, hg, by simpa using hgl⟩
        apply hs
        rw [← hsel rd hrd]
        have : r = rd.1 := by
          rw [hTe, (restrict_meta _).2] at hr
          obtain ⟨rd', hrd', e, -⟩ := hr
          have : rd' = rd := by
            refine List.inj_on_of_nodup_map r2 hrd' hrd ?_
            rw [← r1 rd' hrd', e, hrl]
          rw [← e, this]
        rw [← this]
        exact hr
      unfold convRow
      rw [hnone]
      exact .unselected hs

theorem convertUnit_ok {conv : String → Except Err (Fl K → Fl K)} {F : DFrame K} {o : FilterOpts K} {keep : Bool}
    {filters : List (String × PyArg K)} {unit : String} {ctx : PyVal K} {inplace : Bool} {res : Option (DFrame K)} {F' : DFrame K}
    (h : F.convertUnit conv o keep filters unit ctx inplace = (.ok res, F')) :
    ∃ T gs G, F.withContext.filter o keep filters = .ok T ∧ unitGroups T = .ok gs ∧
      convertLoop conv unit ctx gs F.withContext = (.ok (), G) ∧
      res = (if inplace then none else some G) ∧ F' = (if inplace then G else F) := by
  unfold DFrame.convertUnit at h
  cases hT : F.withContext.filter o keep filters with
  | error e => rw [hT] at h; simp at h
  | ok T =>
    rw [hT] at h
    simp only at h
    cases hg : unitGroups T with
    | error e => rw [hg] at h; simp at h
    | ok gs =>
      rw [hg] at h
      simp only at h
      rcases hl : convertLoop conv unit ctx gs F.withContext with ⟨_ | u, G⟩
      · rw [hl] at h; simp at h
      · rw [hl] at h
        refine ⟨T, gs, G, rfl, hg, hl, ?_⟩
        cases inplace <;> simp_all

/-- C53: the values and units of exactly the selected timeseries are converted; in place or not. -/
theorem C53_converted {conv : String → Except Err (Fl K → Fl K)} {F : DFrame K} (hF : F.Ok)
    (hr : ∀ c ∈ requiredCols, c ∈ F.cols) {o : FilterOpts K} {keep : Bool}
    {filters : List (String × PyArg K)} {unit : String} {ctx : PyVal K} {inplace : Bool} {res : Option (DFrame K)} {F' : DFrame K}
    (h : F.convertUnit conv o keep filters unit ctx inplace = (.ok res, F')) :
    ∃ G, res = (if inplace then none else some G) ∧ F' = (if inplace then G else F) ∧
      G.Ok ∧ G.times = F.times ∧ G.cols = F.withContext.cols ∧
      List.Forall₂ (RowConverted conv unit ctx F.withContext.cols (Selected o keep filters F.times F.withContext.cols))
        F.withContext.rows G.rows := by
  obtain ⟨T, gs, G, h1, h2, h3, h4, h5⟩ := convertUnit_ok h
  obtain ⟨hu, hc⟩ := unit_mem_withContext hF hr
  obtain ⟨a1, a2, a3, a4⟩ := convert_core hF.withContext hu hc h1 h2 h3
  have ht := (withContext_spec hF hr).1
  rw [ht] at a2 a4
  exact ⟨G, h4, h5, a1, a2, a3, a4⟩

/-- C53: not in place, the frame is unchanged, whatever happens. -/
theorem C53_unchanged (conv : String → Except Err (Fl K → Fl K)) (F : DFrame K) (o : FilterOpts K) (keep : Bool)
    (filters : List (String × PyArg K)) (unit : String) (ctx : PyVal K) :
    (F.convertUnit conv o keep filters unit ctx false).2 = F := by
  unfold DFrame.convertUnit
  cases F.withContext.filter o keep filters with
  | error e => rfl
  | ok T =>
    simp only
    cases unitGroups T with
    | error e => rfl
    | ok gs =>
      simp only
      rcases convertLoop conv unit ctx gs F.withContext with ⟨_ | u, G⟩ <;> rfl

/-- C53: if the filter works and all selected timeseries have string units or none, conversion works if and only
if all these units are convertible; otherwise the error is that of one of them. -/
theorem C53_works {conv : String → Except Err (Fl K → Fl K)} {F : DFrame K} (hF : F.Ok)
    (hr : ∀ c ∈ requiredCols, c ∈ F.cols) {o : FilterOpts K} {keep : Bool}
    {filters : List (String × PyArg K)} (unit : String) (ctx : PyVal K) (inplace : Bool) {T : DFrame K}
    (hT : F.withContext.filter o keep filters = .ok T)
    (hs : ∀ rd ∈ F.withContext.rows, Selected o keep filters F.times F.withContext.cols rd →
      (∃ u, unitIn F.withContext.cols rd.1.2 = .str u) ∨ unitIn F.withContext.cols rd.1.2 = .none ∨
        unitIn F.withContext.cols rd.1.2 = .flt .nan) :
    ((∃ r F', F.convertUnit conv o keep filters unit ctx inplace = (.ok r, F')) ↔
      ∀ rd ∈ F.withContext.rows, Selected o keep filters F.times F.withContext.cols rd →
        ∀ u, unitIn F.withContext.cols rd.1.2 = .str u → ∃ f, conv u = .ok f) ∧
    ∀ e F', F.convertUnit conv o keep filters unit ctx inplace = (.error e, F') →
      ∃ rd ∈ F.withContext.rows, Selected o keep filters F.times F.withContext.cols rd ∧
        ∃ u, unitIn F.withContext.cols rd.1.2 = .str u ∧ conv u = .error e := by
  have h0 := hF.withContext
  obtain ⟨ht, -⟩ := withContext_spec hF hr
  generalize hF0 : F.withContext = F0 at *
  rw [← ht] at hs ⊢
  obtain ⟨P, hP, hres⟩ := filter_restrict h0 hT
  have hTe : T = F0.restrict fun r t => P r t == keep := by
    have := hres F0 h0 (Within.refl F0) keep
    rw [hT] at this
    exact Except.ok.inj this
  have hTok : T.Ok := hTe ▸ h0.restrict _
  obtain ⟨r1, r2, r3, r4, r5⟩ := h0.rows_ok
  have hTc : T.cols = F0.cols := by rw [hTe]; rfl
  have hsel : ∀ r, r ∈ T.meta ↔ ∃ rd ∈ F0.rows, rd.1 = r ∧ Selected o keep filters F0.times F0.cols rd := by
    intro r
    rw [hTe, (restrict_meta _).2]
    refine exists_congr fun rd => and_congr_right fun hrd => and_congr_right fun _ => ?_
    unfold Selected
    refine exists_congr fun k => exists_congr fun t => exists_congr fun x => and_congr_right fun _ => and_congr_right fun _ => ?_
    rw [← hP _ _ (r5 rd hrd), beq_iff_eq]
    exact Bool.eq_iff_iff
  obtain ⟨gs, hg⟩ := unitGroups_works (T := T) (by
    intro r hrm
    obtain ⟨rd, hrd, rfl, hsd⟩ := (hsel r).1 hrm
    rw [hTc]
    exact hs rd hrd hsd)
  obtain ⟨g1, g2, g3, g4⟩ := unitGroups_ok hTok hg
  have hunits : ∀ u, (∃ g ∈ gs, g.1 = u) ↔ ∃ rd ∈ F0.rows, Selected o keep filters F0.times F0.cols rd ∧ unitIn F0.cols rd.1.2 = .str u := by
    intro u
    constructor
    · rintro ⟨g, hgm, rfl⟩
      obtain ⟨r, hrm, hu⟩ := g4 g hgm
      obtain ⟨rd, hrd, rfl, hsd⟩ := (hsel r).1 hrm
      exact ⟨rd, hrd, hsd, by rw [← hTc]; exact hu⟩
    · rintro ⟨rd, hrd, hsd, hu⟩
      obtain ⟨ls, hm, -⟩ := (g3 u rd.1.1).2 ⟨rd.1, (hsel _).2 ⟨rd, hrd, rfl, hsd⟩, rfl, by rw [hTc]; exact hu⟩
      exact ⟨_, hm, rfl⟩
  have hform : F.convertUnit conv o keep filters unit ctx inplace =
      match convertLoop conv unit ctx gs F0 with
      | (.error e, G) => (.error e, if inplace then G else F)
      | (.ok _, G) => if inplace then (.ok none, G) else (.ok (some G), F) := by
    unfold DFrame.convertUnit
    rw [hF0, hT]
    simp only [hg]
  rw [hform]
  constructor
  · constructor
    · rintro ⟨r, F', h⟩ rd hrd hsd u hu
      obtain ⟨g, hgm, rfl⟩ := (hunits u).2 ⟨rd, hrd, hsd, hu⟩
      rcases hl : convertLoop conv unit ctx gs F0 with ⟨_ | _, G⟩
      · rw [hl] at h; simp at h
      · rw [h0.frameOf_eq] at hl
        exact (convertLoop_ok g1 r1 hl).2 g hgm
    · intro h
      obtain ⟨G, hG⟩ := convertLoop_works (conv := conv) (unit := unit) (ctx := ctx) (gs := gs) (by
        intro g hgm
        obtain ⟨rd, hrd, hsd, hu⟩ := (hunits g.1).1 ⟨g, hgm, rfl⟩
        exact h rd hrd hsd _ hu) F0
      rw [hG]
      cases inplace
      · exact ⟨_, _, rfl⟩
      · exact ⟨_, _, rfl⟩
  · intro e F' h
    rcases hl : convertLoop conv unit ctx gs F0 with ⟨e' | _, G⟩
    · rw [hl] at h
      simp only [Prod.mk.injEq, Except.error.injEq] at h
      rw [h.1] at hl
      obtain ⟨g, hgm, hge⟩ := convertLoop_error hl
      obtain ⟨rd, hrd, hsd, hu⟩ := (hunits g.1).1 ⟨g, hgm, rfl⟩
      exact ⟨rd, hrd, hsd, g.1, hu, hge⟩
    · rw [hl] at h
      cases inplace <;> simp at h

end Openscm
