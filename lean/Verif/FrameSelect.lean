import Verif.FrameCommute
import Verif.FrameItems

/-!
# C93: selecting timeseries and interpolating
-/

set_option linter.unusedSectionVars false

namespace Openscm
variable {K : Type} [Field K] [LinearOrder K] [IsStrictOrderedRing K]

/-! ## Specification -/

/-- The filters name columns of the metadata (or the level of variables), and not the type of timeseries. -/
def AboutMeta (cols : List String) (filters : List (String × PyArg K)) : Prop :=
  ∀ f ∈ filters, (f.1 ∈ cols ∨ f.1 = "level") ∧ f.1 ≠ "parameter_type"

/-! ## What a selection by metadata leaves -/

theorem matches_meta {o : FilterOpts K} {filters : List (String × PyArg K)} {cols cols' : List String}
    {row row' : List (PyVal K)} (hf : AboutMeta cols filters) (hc : ∀ c, c ≠ "parameter_type" → (c ∈ cols ↔ c ∈ cols'))
    (h : ∀ c v, c ≠ "parameter_type" →
      ((∃ i : Nat, cols[i]? = some c ∧ row[i]? = some v) ↔ ∃ i : Nat, cols'[i]? = some c ∧ row'[i]? = some v))
    (t t' : Int) : Matches o filters cols row t ↔ Matches o filters cols' row' t' := by
  have hfit : ∀ (level : Option (PyArg K)) (c : String) (arg : PyArg K), c ≠ "parameter_type" →
      (MetaFits o level cols row c arg ↔ MetaFits o level cols' row' c arg) := by
    intro level c arg h3
    unfold MetaFits
    constructor
    · rintro ⟨i, v, w, a, b, d⟩
      obtain ⟨j, a', b'⟩ := (h c v h3).1 ⟨i, a, b⟩
      exact ⟨j, v, w, a', b', d⟩
    · rintro ⟨i, v, w, a, b, d⟩
      obtain ⟨j, a', b'⟩ := (h c v h3).2 ⟨i, a, b⟩
      exact ⟨j, v, w, a', b', d⟩
  unfold Matches
  refine forall_congr' fun f => forall_congr' fun hfm => ?_
  obtain ⟨h0, h3⟩ := hf f hfm
  unfold Wants
  by_cases hv : f.1 = "variable"
  · rw [if_pos hv, if_pos hv]
    exact hfit _ _ _ (by decide)
  · rw [if_neg hv, if_neg hv]
    by_cases hm : f.1 ∈ cols
    · rw [if_pos hm, if_pos ((hc _ h3).1 hm)]
      exact hfit _ _ _ h3
    · rw [if_neg hm, if_neg (fun h => hm ((hc _ h3).2 h))]
      rcases h0 with h0 | h0
      · exact absurd h0 hm
      · rw [if_pos h0, if_pos h0]
        exact or_congr Iff.rfl (hfit _ _ _ (by decide))

theorem pick_all {α β : Type} (l : List α) (m : List β) (h : l.length = m.length) : pick (l.map fun _ => true) m = m := by
  induction l generalizing m with
  | nil => cases m <;> simp [pick] at h ⊢
  | cons a l ih =>
    cases m with
    | nil => simp at h
    | cons b m =>
      rw [List.map_cons, pick, if_pos rfl, ih m (by simpa using h)]

theorem presentTimes_full {times : List Int} {data : List (Nat × List (Fl K))} (h : ∀ d ∈ data, d.2.length = times.length)
    {d : Nat × List (Fl K)} (hd : d ∈ data) (hn : ∀ v ∈ d.2, v.isNum = true) :
    presentTimes times data = times.map fun _ => true := by
  have h1 := presentTimes_covers h hd
  refine List.ext_getElem? fun i => ?_
  have hl := presentTimes_length times data h
  by_cases hi : i < times.length
  · rw [List.getElem?_map, List.getElem?_eq_getElem hi]
    have hi' : i < (d.2.map Fl.isNum).length := by simpa [h d hd] using hi
    have := h1.get hi' (by omega)
    rw [List.getElem?_eq_getElem (by omega)]
    simp only [List.get_eq_getElem] at this
    rw [this (by rw [List.getElem_map]; exact hn _ (List.getElem_mem _))]
    rfl
  · rw [List.getElem?_eq_none (by omega), List.getElem?_eq_none (by simpa using hi)]

theorem maskVals_const {b : Bool} {P : Int → Bool} {times : List Int} {vals : List (Fl K)} (hl : vals.length = times.length)
    (h : ∀ t ∈ times, P t = b) : maskVals P times vals = if b then vals else vals.map fun _ => .nan := by
  unfold maskVals
  induction times generalizing vals with
  | nil =>
    cases vals with
    | nil => cases b <;> rfl
    | cons v vals => simp at hl
  | cons t times ih =>
    cases vals with
    | nil => simp at hl
    | cons v vals =>
      rw [List.zipWith_cons_cons, ih (by simpa using hl) fun t ht => h t (by simp [ht]), h t (by simp)]
      cases b <;> rfl

/-- All rows of a frame without missing values are kept or dropped as a whole. -/
theorem restrict_whole {F : DFrame K} (hF : F.Ok) (hc : Complete F) (ht : F.times ≠ []) {P : List (PyVal K) → Int → Bool}
    {g : SRow K → Bool} (hg : ∀ rd ∈ F.rows, ∀ t, P rd.1.2 t = g rd) :
    (F.restrict P).rows = F.rows.filter g ∧ ((F.restrict P).rows ≠ [] → (F.restrict P).times = F.times) := by
  obtain ⟨h1, h2, h3, h4, h5⟩ := hF.rows_ok
  have hmem : ∀ rd ∈ F.rows, rd.2 ∈ F.data := fun rd h => by
    rw [hF.data_eq]
    exact List.mem_map_of_mem h
  have hmask : maskRows P F.times F.rows = F.rows.map fun rd => (rd.1, (rd.2.1, if g rd then rd.2.2 else rd.2.2.map fun _ => .nan)) := by
    unfold maskRows
    refine List.map_congr_left fun rd hrd => ?_
    rw [maskVals_const (h4 rd hrd) fun t _ => hg rd hrd t]
  have hany : ∀ rd ∈ F.rows, rd.2.2.any Fl.isNum = true := by
    intro rd hrd
    obtain ⟨vs, hvs⟩ := hc rd.2 (hmem rd hrd)
    have hl := h4 rd hrd
    rw [hvs] at hl ⊢
    match vs, hl with
    | [], hl => exact absurd (List.length_eq_zero_iff.1 hl.symm) ht
    | x :: r, _ => simp [Fl.isNum]
  have hnum : ∀ rd ∈ F.rows, ∀ v ∈ rd.2.2, Fl.isNum v = true := by
    intro rd hrd v hv
    obtain ⟨vs, hvs⟩ := hc rd.2 (hmem rd hrd)
    rw [hvs] at hv
    obtain ⟨x, -, rfl⟩ := List.mem_map.1 hv
    rfl
  have hfil : (maskRows P F.times F.rows).filter (fun rd => rd.2.2.any Fl.isNum) = F.rows.filter g := by
    rw [hmask, List.filter_map]
    have : F.rows.filter ((fun rd : SRow K => rd.2.2.any Fl.isNum) ∘ fun rd => (rd.1, (rd.2.1, if g rd then rd.2.2 else rd.2.2.map fun _ => .nan)))
        = F.rows.filter g := by
      refine List.filter_congr fun rd hrd => ?_
      simp only [Function.comp]
      cases hgr : g rd with
      | true => rw [if_pos rfl]; exact hany rd hrd
      | false =>
        rw [if_neg (by decide), List.any_map]
        exact List.any_eq_false.2 fun x _ => by simp [Function.comp, Fl.isNum]
    rw [this]
    conv_rhs => rw [← List.map_id (F.rows.filter g)]
    refine List.map_congr_left fun rd hrd => ?_
    rw [if_pos (List.mem_filter.1 hrd).2]
    rfl
  have hkeep : F.rows.filter g ≠ [] → presentTimes F.times ((maskRows P F.times F.rows).map (·.2)) = F.times.map fun _ => true := by
    intro hne
    obtain ⟨rd, hrd⟩ := List.exists_mem_of_ne_nil _ hne
    obtain ⟨a, b⟩ := List.mem_filter.1 hrd
    have hin : rd.2 ∈ (maskRows P F.times F.rows).map (·.2) := by
      rw [hmask, List.map_map]
      refine List.mem_map.2 ⟨rd, a, ?_⟩
      simp only [Function.comp]
      rw [if_pos b]
    refine presentTimes_full ?_ hin (hnum rd a)
    intro d hd
    obtain ⟨x, hx, rfl⟩ := List.mem_map.1 hd
    obtain ⟨y, hy, rfl⟩ := List.mem_map.1 hx
    exact maskVals_length (h4 y hy)
  have hrows : (F.restrict P).rows = F.rows.filter g := by
    unfold DFrame.restrict dropRows
    simp only
    rw [frameOf_rows, hfil]
    by_cases hne : F.rows.filter g = []
    · rw [hne]; rfl
    · rw [hkeep hne]
      conv_rhs => rw [← List.map_id (F.rows.filter g)]
      refine List.map_congr_left fun rd hrd => ?_
      rw [pick_all _ _ (h4 rd (List.mem_filter.1 hrd).1).symm]
      rfl
  refine ⟨hrows, fun hne => ?_⟩
  rw [hrows] at hne
  unfold DFrame.restrict dropRows frameOf
  simp only
  rw [hkeep hne, pick_all _ _ rfl]

open Classical in
theorem select_rows {F F' : DFrame K} (hF : F.Ok) (hc : Complete F) (ht : F.times ≠ []) {o : FilterOpts K} {keep : Bool}
    {filters : List (String × PyArg K)} (hf : AboutMeta F.cols filters) (h : F.filter o keep filters = .ok F') :
    F'.Ok ∧ F'.cols = F.cols ∧ F'.rows = F.rows.filter (fun rd => decide (PicksRow o keep filters F.cols rd.1.2)) ∧
    (F'.rows ≠ [] → F'.times = F.times) := by
  obtain ⟨P, h1, h2⟩ := filter_restrict hF h
  have e : F' = F.restrict fun r t => P r t == keep := by
    have := h2 F hF (Within.refl F) keep
    rw [h] at this
    exact Except.ok.inj this
  subst e
  refine ⟨hF.restrict _, rfl, restrict_whole hF hc ht fun rd hrd t => ?_⟩
  have hm : Matches o filters F.cols rd.1.2 t ↔ Matches o filters F.cols rd.1.2 0 :=
    matches_meta hf (fun _ _ => Iff.rfl) (fun _ _ _ => Iff.rfl) t 0
  have := (h1 rd.1.2 t (hF.rows_ok.2.2.2.2 rd hrd)).trans hm
  rw [Bool.eq_iff_iff, beq_iff_eq, decide_eq_true_iff]
  unfold PicksRow
  rw [← this]
  cases P rd.1.2 t <;> cases keep <;> simp

/-! ## Filters that work -/

theorem filter_of_apply {F : DFrame K} (hF : F.Ok) {o : FilterOpts K} {filters : List (String × PyArg K)} (keep : Bool)
    {r : List Bool × List Bool} (hr : F.applyFilters o filters = .ok r) : ∃ G, F.filter o keep filters = .ok G := by
  obtain ⟨p, q, h1, h2⟩ := applyLoop_test hF.cols_nodup filters (by simp) (by simp) hr
  refine ⟨_, filter_of_masks (p := p) (q := q) hF keep ?_⟩
  unfold DFrame.applyFilters
  rw [h2 F (Within.refl F) (fun _ => true) (fun _ => true)]
  simp

/-- Filters about metadata work for frames that have the same metadata. -/
theorem filter_same_meta {F G : DFrame K} (hG : G.Ok) {o : FilterOpts K} {keep : Bool} {filters : List (String × PyArg K)}
    (hf : AboutMeta F.cols filters) (hl : F.meta.length = G.meta.length)
    (hc : ∀ c, c ≠ "parameter_type" → (c ∈ F.cols ↔ c ∈ G.cols) ∧ F.column c = G.column c) {F' : DFrame K}
    (h : F.filter o keep filters = .ok F') : ∃ G', G.filter o keep filters = .ok G' := by
  have hcol := (hc "variable" (by decide)).2
  have hone : ∀ f ∈ filters, ∃ a, F.oneMask o filters f = a ∧ G.oneMask o filters f = a ∧ ∀ m, a ≠ .ok (some (.inr m)) := by
    intro f hfm
    obtain ⟨h0, h1⟩ := hf f hfm
    refine ⟨_, rfl, ?_⟩
    unfold DFrame.oneMask DFrame.metaMask
    rw [hcol]
    by_cases hv : f.1 = "variable"
    · rw [if_pos hv, if_pos hv]
      refine ⟨rfl, fun m => ?_⟩
      split
      · exact fun h => nomatch h
      · generalize patternMatch o.sep (levelOf filters) o.regexp o.hasNan _ f.2 = z
        cases z <;> simp [Except.map]
    · rw [if_neg hv, if_neg hv]
      by_cases hm : f.1 ∈ F.cols
      · obtain ⟨a, b⟩ := hc _ h1
        rw [if_pos hm, if_pos (a.1 hm), b]
        refine ⟨rfl, fun m => ?_⟩
        split
        · exact fun h => nomatch h
        · generalize patternMatch o.sep none o.regexp o.hasNan _ f.2 = z
          cases z <;> simp [Except.map]
      · have h0 : f.1 = "level" := h0.resolve_left hm
        rw [if_neg hm, if_neg (fun h => hm ((hc _ h1).1.2 h)), h0]
        simp only [String.reduceEq, if_false, if_true]
        refine ⟨trivial, fun m => ?_⟩
        split
        · exact fun h => nomatch h
        · split
          · exact fun h => nomatch h
          · generalize patternMatch o.sep (some f.2) o.regexp o.hasNan _ _ = z
            cases z <;> simp [Except.map]
  have loop : ∀ fs : List (String × PyArg K), (∀ f ∈ fs, f ∈ filters) → ∀ ts ts' me r, F.applyLoop o filters fs ts me = .ok r →
      ∃ r', G.applyLoop o filters fs ts' me = .ok r' := by
    intro fs
    induction fs with
    | nil => exact fun _ ts ts' me r _ => ⟨_, rfl⟩
    | cons f fs ih =>
      intro hfs ts ts' me r hr
      obtain ⟨a, e1, e2, e3⟩ := hone f (hfs f (by simp))
      unfold DFrame.applyLoop at hr ⊢
      rw [e1] at hr
      rw [e2]
      match a, e3 with
      | .error e, _ => cases hr
      | .ok none, _ => exact ih (fun f hf => hfs f (by simp [hf])) _ _ _ _ hr
      | .ok (some (.inl m)), _ =>
        simp only at hr ⊢
        split at hr
        · cases hr
        · exact ih (fun f hf => hfs f (by simp [hf])) _ _ _ _ hr
      | .ok (some (.inr m)), e3 => exact absurd rfl (e3 m)
  unfold DFrame.filter at h
  split at h
  · cases h
  · rename_i ts me happ
    unfold DFrame.applyFilters at happ
    obtain ⟨r', hr'⟩ := loop filters (fun _ h => h) _ (G.times.map fun _ => true) _ _ happ
    refine filter_of_apply hG keep (r := r') ?_
    unfold DFrame.applyFilters
    rw [← hr']
    congr 1
    simp [hl]

/-! ## Interpolation leaves no gaps -/

theorem evalAll_num {ext : Extrap} {lo hi : K} {knots : List (K × K)} {tgt : List K} {r : List (Fl K)}
    (h : evalAll ext lo hi knots tgt = .ok r) : ∃ ws : List K, r = ws.map .num := by
  induction tgt generalizing r with
  | nil => exact ⟨[], (Except.ok.inj h).symm⟩
  | cons t tgt ih =>
    unfold evalAll at h
    cases h1 : evalAt ext lo hi knots t with
    | error e => rw [h1] at h; cases h
    | ok y =>
      rw [h1] at h
      simp only at h
      cases h2 : evalAll ext lo hi knots tgt with
      | error e => rw [h2] at h; cases h
      | ok ys =>
        rw [h2] at h
        obtain ⟨ws, rfl⟩ := ih h2
        exact ⟨y :: ws, (Except.ok.inj h).symm⟩

theorem intervalAverages_nums {ext : Extrap} {lo hi : K} {knots : List (K × K)} {tgt : List K} {r : List (Fl K)}
    (ht : tgt.Pairwise (· < ·)) (h : intervalAverages ext lo hi knots tgt = .ok r) : ∃ ws : List K, r = ws.map .num := by
  induction tgt generalizing r with
  | nil => exact ⟨[], (Except.ok.inj h).symm⟩
  | cons t tgt ih =>
    cases tgt with
    | nil => exact ⟨[], (Except.ok.inj h).symm⟩
    | cons u tgt =>
      unfold intervalAverages at h
      cases h1 : intervalAverage ext lo hi knots t u with
      | error e => rw [h1] at h; cases h
      | ok y =>
        rw [h1] at h
        simp only at h
        cases h2 : intervalAverages ext lo hi knots (u :: tgt) with
        | error e => rw [h2] at h; cases h
        | ok ys =>
          rw [h2] at h
          obtain ⟨ws, rfl⟩ := ih (List.pairwise_cons.1 ht).2 h2
          unfold intervalAverage at h1
          split at h1
          · cases h1
          · rw [if_neg ((List.pairwise_cons.1 ht).1 u (by simp)).ne'] at h1
            cases h1
            exact ⟨_ :: ws, (Except.ok.inj h).symm⟩

theorem convertNum_num {ty : PType} {ext : Extrap} {src tgt vs : List K} {r : List (Fl K)} (ht : tgt.Pairwise (· < ·))
    (h : convertNum ty ext src tgt vs = .ok r) : ∃ ws : List K, r = ws.map .num := by
  have ok : ∀ {z : Except Err (List (Fl K))}, toInsufficient z = .ok r → z = .ok r := by
    intro z hz
    cases z with
    | ok a => exact hz
    | error e => unfold toInsufficient at hz; split at hz <;> first | cases hz; done | (rename_i heq; cases heq)
  unfold convertNum at h
  split at h
  · cases h
  · cases ty with
    | average =>
      simp only at h
      split at h
      · cases h
      · split at h
        · exact intervalAverages_nums ht (ok h)
        · cases h
    | point =>
      simp only at h
      split at h
      · cases h
      · split at h
        · exact evalAll_num (ok h)
        · cases h
    | _ => cases h

theorem Placed.complete {ext : Extrap} {src tgt : List Int} {vs : List K} {new : List (Fl K)} {p : PType}
    (ht : tgt.Pairwise (· < ·)) (h : Placed ext src tgt (vs.map .num) new p) : ∃ ws : List K, new = ws.map .num := by
  have cast : ∀ {l : List Int}, l.Pairwise (· < ·) → (l.map fun i : Int => (i : K)).Pairwise (· < ·) := by
    intro l hl
    exact List.pairwise_map.2 (hl.imp fun h => by exact_mod_cast h)
  have key : ∀ {s t : List K} {ty : PType} {c : TSConv K}, t.Pairwise (· < ·) →
      mkTSConv s t ty ext = .ok c → c.convertFrom (vs.map .num) = .ok new → ∃ ws : List K, new = ws.map .num := by
    intro s t ty c hinc hc hn
    have hcf := mkTSConv_fields hc
    subst hcf
    unfold TSConv.convertFrom convert at hn
    simp only [Fl.allNum_map_num] at hn
    exact convertNum_num hinc hn
  cases h with
  | point h1 h2 => exact key (cast ht) h1 h2
  | @average s t c h1 h2 h3 h4 =>
    refine key (cast ?_) h3 h4
    obtain ⟨l', a, b, rfl, rfl⟩ := h2
    rw [show l' ++ [a, b, b + (b - a)] = (l' ++ [a, b]) ++ [b + (b - a)] by simp]
    refine List.pairwise_append.2 ⟨ht, List.pairwise_singleton _ _, ?_⟩
    intro x hx y hy
    rw [List.mem_singleton.1 hy]
    obtain ⟨-, q2, q3⟩ := List.pairwise_append.1 ht
    have hab : a < b := (List.pairwise_cons.1 q2).1 b (by simp)
    rcases List.mem_append.1 hx with hx | hx
    · have := q3 x hx b (by simp)
      omega
    · simp only [List.mem_cons, List.not_mem_nil, or_false] at hx
      rcases hx with rfl | rfl <;> omega

/-! ## C93 -/

theorem forall₂_filter {α β : Type} {S : α → β → Prop} {p : α → Bool} {q : β → Bool} {l : List α} {m : List β}
    (h : List.Forall₂ S l m) (hpq : ∀ a b, S a b → p a = q b) : List.Forall₂ S (l.filter p) (m.filter q) := by
  induction h with
  | nil => exact .nil
  | @cons a b l m hab _ ih =>
    rw [List.filter_cons, List.filter_cons, hpq a b hab]
    split
    · exact .cons hab ih
    · exact ih

theorem type_across {reg : Registry K} {views : Bool} {F G : DFrame K} (hc : F.cols = G.cols) {i j : Nat}
    (hm : F.meta[i]? = G.meta[j]?) {v : PyVal K} (h : TypeIs reg views F i v) : TypeIs reg views G j v := by
  have hh : ∀ {c w}, F.HasMeta i c w → G.HasMeta j c w := by
    rintro c w ⟨k, r, h1, h2, h3⟩
    exact ⟨k, r, hc ▸ h1, hm ▸ h2, h3⟩
  have hn : "parameter_type" ∉ F.cols ∨ F.HasMeta i "parameter_type" .none → "parameter_type" ∉ G.cols ∨ G.HasMeta j "parameter_type" .none := by
    rintro (h | h)
    · exact .inl (hc ▸ h)
    · exact .inr (hh h)
  cases h with
  | given h1 h2 => exact .given (hh h1) h2
  | guessed h1 h2 h3 h4 => exact .guessed h1 (hn h2) (hh h3) (hh h4)
  | guessedNoUnit h1 h2 h3 h4 => exact .guessedNoUnit h1 (hn h2) (hh h3) (hh h4)
  | unknown h1 h2 h3 =>
    refine .unknown h1 (hn h2) ?_
    rw [List.getElem?_eq_getElem h3] at hm
    exact (List.getElem?_eq_some_iff.1 hm.symm).1

theorem withType_cols_eq {F G : DFrame K} (h : F.cols = G.cols) : F.withType.cols = G.withType.cols := by
  unfold DFrame.withType
  rw [h]
  split
  · exact h
  · rfl

theorem row_ext {cols : List String} (hn : cols.Nodup) {r s : List (PyVal K)} (hr : r.length = cols.length) (hs : s.length = cols.length)
    (h : ∀ c ∈ cols, rowVal cols r c = rowVal cols s c) : r = s := by
  refine List.ext_getElem (by omega) fun i h1 h2 => ?_
  have hi : i < cols.length := by omega
  have := h cols[i] (List.getElem_mem hi)
  unfold rowVal at this
  rw [hn.idxOf_getElem i hi] at this
  simpa [List.getD_eq_getElem?_getD, h1, h2] using this

/-- C93: if a frame without missing values, in which every timeseries has a type, can be interpolated, then so can every
selection of its timeseries, with the same result as selecting afterwards. -/
theorem C93_interpolate {reg : Registry K} {views : Bool} {F F' G : DFrame K} (hF : F.Ok) (hr : ∀ c ∈ requiredCols, c ∈ F.cols)
    (hc : Complete F) (ht : Typed reg views F) {o : FilterOpts K} {keep : Bool} {filters : List (String × PyArg K)}
    (hf : AboutMeta F.cols filters) {target : List Int} (hi : target.Pairwise (· < ·)) {ext : Extrap}
    (h1 : F.filter o keep filters = .ok F') (hne : F'.data ≠ []) (h2 : F.interpolate reg views target ext = .ok G) :
    ∃ H, F'.interpolate reg views target ext = .ok H ∧ G.filter o keep filters = .ok H := by
  classical
  obtain ⟨g1, g2, g3, g4, g5⟩ := C56_placed_partial hF hr h2
  have gcols := interpolate_cols h2
  have lF := hF.length_eq
  have lG := g1.length_eq
  have lFG : F.data.length = G.data.length := by simpa using (congrArg List.length g3).symm
  have placed : ∀ {i old}, F.data[i]? = some old → ∃ new w p, G.data[i]? = some new ∧ TypeIs reg views F i (.str w) ∧ KindWord w p ∧
      G.HasMeta i "parameter_type" (.str (typeText p)) ∧ Placed ext F.times target old.2 new.2 p := by
    intro i old hold
    obtain ⟨new, hn, ⟨w, p, a⟩ | ⟨v, a, b, -⟩⟩ := g5 i old hold
    · exact ⟨new, w, p, hn, a⟩
    · obtain ⟨w, hw⟩ := ht i (List.getElem?_eq_some_iff.1 hold).1
      cases a.unique hF hw
      cases b
  have rowF : ∀ {i : Nat} {rd : SRow K}, F.rows[i]? = some rd → F.meta[i]? = some rd.1 ∧ F.data[i]? = some rd.2 := by
    intro i rd h
    constructor
    · rw [hF.meta_eq, List.getElem?_map, h]; rfl
    · rw [hF.data_eq, List.getElem?_map, h]; rfl
  have rowG : ∀ {i : Nat} {rd : SRow K}, G.rows[i]? = some rd → G.meta[i]? = some rd.1 ∧ G.data[i]? = some rd.2 := by
    intro i rd h
    constructor
    · rw [g1.meta_eq, List.getElem?_map, h]; rfl
    · rw [g1.data_eq, List.getElem?_map, h]; rfl
  -- the frame has times
  have hFne : F.data ≠ [] := by
    intro h
    have hc' := (C46_cells hF h1).2.2.2.2
    have hl := (C46_cells hF h1).1.length_eq
    have hcell := (C46_cells hF h1).2.2.1
    obtain ⟨d, hd⟩ := List.exists_mem_of_ne_nil _ hne
    match hm : F'.meta, hl with
    | [], hl => exact hne (List.length_eq_zero_iff.1 (by simpa using hl.symm))
    | r :: _, _ =>
      obtain ⟨t, x, hx⟩ := hc' r (by rw [hm]; simp)
      rw [hcell] at hx
      have := (List.mem_filter.1 hx).1
      unfold DFrame.cells at this
      rw [h] at this
      simp at this
  obtain ⟨d0, hd0⟩ : ∃ d0, F.data[0]? = some d0 := by
    cases hh : F.data with
    | nil => exact absurd hh hFne
    | cons a l => exact ⟨a, rfl⟩
  have hts : F.times ≠ [] := by
    obtain ⟨_, _, _, -, -, -, -, hp⟩ := placed hd0
    exact hp.source_ne
  have htn : target ≠ [] := by
    obtain ⟨_, _, _, -, -, -, -, hp⟩ := placed hd0
    rintro rfl
    cases hp with
    | point h _ =>
      cases hsrc : F.times <;> simp [mkTSConv, hsrc] at h
    | average _ h => obtain ⟨l', a, b, e, -⟩ := h; simp at e
  have hcG : Complete G := by
    intro d hd
    obtain ⟨i, hi'⟩ := List.getElem?_of_mem hd
    have hlt : i < F.data.length := by rw [lFG]; exact (List.getElem?_eq_some_iff.1 hi').1
    obtain ⟨new, w, p, e, -, -, -, hp⟩ := placed (List.getElem?_eq_getElem hlt)
    rw [hi'] at e
    cases e
    obtain ⟨vs, hvs⟩ := hc _ (List.getElem_mem hlt)
    rw [hvs] at hp
    exact hp.complete hi
  -- the filter works afterwards
  have hcolsG : ∀ c, c ≠ "parameter_type" → (c ∈ F.cols ↔ c ∈ G.cols) := by
    intro c hc
    rw [gcols, withType_cols hr]
    simp [hc]
  have hcol : ∀ c, c ≠ "parameter_type" → (c ∈ F.cols ↔ c ∈ G.cols) ∧ F.column c = G.column c := by
    intro c hcp
    refine ⟨hcolsG c hcp, ?_⟩
    by_cases hcF : c ∈ F.cols
    · rw [column_eq hcF, column_eq ((hcolsG c hcp).1 hcF)]
      congr 1
      refine List.ext_getElem (by simp; omega) fun i a b => ?_
      simp only [List.length_map] at a b
      have : F.HasMeta i c (rowVal F.cols F.meta[i].2 c) := (hasMeta_iff hF).2 ⟨_, List.getElem?_eq_getElem a, hcF, rfl⟩
      obtain ⟨r, e1, -, e2⟩ := (hasMeta_iff g1).1 ((g4 i c _ hcp).2 this)
      rw [List.getElem?_eq_getElem b] at e1
      cases e1
      rw [List.getElem_map, List.getElem_map, e2]
    · have : c ∉ G.cols := fun h => hcF ((hcolsG c hcp).2 h)
      have nf : ∀ {l : List String}, c ∉ l → l.findIdx? (· = c) = none := fun h => by
        rw [List.findIdx?_eq_none_iff]
        intro x hx
        simp only [decide_eq_false_iff_not]
        rintro rfl
        exact h hx
      unfold DFrame.column
      rw [nf hcF, nf this]
  obtain ⟨G', hG'⟩ := filter_same_meta g1 hf (by omega) hcol h1
  have hfG : AboutMeta G.cols filters := fun f hfm => by
    obtain ⟨a, b⟩ := hf f hfm
    exact ⟨a.imp (hcolsG _ b).1 id, b⟩
  obtain ⟨a1, a2, a3, a4⟩ := select_rows hF hc hts hf h1
  obtain ⟨b1, b2, b3, b4⟩ := select_rows g1 hcG (g2 ▸ htn) hfG hG'
  have hrne : F'.rows ≠ [] := by
    intro h
    rw [a1.data_eq, h] at hne
    exact hne rfl
  have a4 := a4 hrne
  -- rows of the two frames belong together
  have lrows : F.rows.length = G.rows.length := by
    have := congrArg List.length hF.data_eq
    have := congrArg List.length g1.data_eq
    simp only [List.length_map] at *
    omega
  have both : List.Forall₂ (fun a b => ∃ i : Nat, F.rows[i]? = some a ∧ G.rows[i]? = some b) F.rows G.rows := by
    rw [List.forall₂_iff_get]
    refine ⟨lrows, fun i h h' => ⟨i, List.getElem?_eq_getElem h, List.getElem?_eq_getElem h'⟩⟩
  have both' : List.Forall₂ (fun a b => ∃ i : Nat, F.rows[i]? = some a ∧ G.rows[i]? = some b) F'.rows G'.rows := by
    rw [a3, b3]
    refine forall₂_filter both ?_
    rintro a b ⟨i, e1, e2⟩
    obtain ⟨m1, -⟩ := rowF e1
    obtain ⟨m2, -⟩ := rowG e2
    refine decide_eq_decide.2 (iff_congr ?_ Iff.rfl)
    refine matches_meta hf hcolsG (fun c v hcp => ?_) 0 0
    have := g4 i c v hcp
    unfold DFrame.HasMeta at this
    rw [m1, m2] at this
    constructor
    · rintro ⟨j, q1, q2⟩
      obtain ⟨j', r, q3, q4, q5⟩ := this.2 ⟨j, _, q1, rfl, q2⟩
      cases q4
      exact ⟨j', q3, q5⟩
    · rintro ⟨j, q1, q2⟩
      obtain ⟨j', r, q3, q4, q5⟩ := this.1 ⟨j, _, q1, rfl, q2⟩
      cases q4
      exact ⟨j', q3, q5⟩
  have rowF' : ∀ {i : Nat} {rd : SRow K}, F'.rows[i]? = some rd → F'.meta[i]? = some rd.1 ∧ F'.data[i]? = some rd.2 := by
    intro i rd h
    constructor
    · rw [a1.meta_eq, List.getElem?_map, h]; rfl
    · rw [a1.data_eq, List.getElem?_map, h]; rfl
  have back : ∀ {i : Nat} {d : Nat × List (Fl K)}, F'.data[i]? = some d → ∃ (a b : SRow K) (j : Nat), a.2 = d ∧ F'.rows[i]? = some a ∧ G'.rows[i]? = some b ∧
      F.rows[j]? = some a ∧ G.rows[j]? = some b := by
    intro i d hd
    rw [a1.data_eq, List.getElem?_map, Option.map_eq_some_iff] at hd
    obtain ⟨a, ha, e⟩ := hd
    have hlt := (List.getElem?_eq_some_iff.1 ha).1
    have hlt' : i < G'.rows.length := both'.length_eq ▸ hlt
    obtain ⟨j, q1, q2⟩ := both'.get hlt hlt'
    simp only [List.get_eq_getElem] at q1 q2
    have : F'.rows[i] = a := by rw [List.getElem?_eq_getElem hlt] at ha; exact Option.some.inj ha
    rw [this] at q1
    exact ⟨a, _, j, e, ha, List.getElem?_eq_getElem hlt', q1, q2⟩
  have hr' : ∀ c ∈ requiredCols, c ∈ F'.cols := by rw [a2]; exact hr
  have typeOf : ∀ {i v}, TypeIs reg views F' i v → ∃ j, TypeIs reg views F j v := by
    intro i v h
    have hlt : i < F'.meta.length := by
      cases h with
      | given h _ => exact HasMeta.lt h
      | guessed _ _ h _ => exact HasMeta.lt h
      | guessedNoUnit _ _ h _ => exact HasMeta.lt h
      | unknown _ _ h => exact h
    have hl' := a1.length_eq
    obtain ⟨a, b, j, -, e1, -, e3, -⟩ := back (List.getElem?_eq_getElem (i := i) (l := F'.data) (by omega))
    refine ⟨j, type_across a2 ?_ h⟩
    rw [(rowF' e1).1, (rowF e3).1]
  obtain ⟨H, hH⟩ : ∃ H, F'.interpolate reg views target ext = .ok H := by
    refine C56_works a1 hr' ?_ ?_
    · intro i old hold
      obtain ⟨a, b, j, rfl, e1, e2, e3, e4⟩ := back hold
      obtain ⟨new, w, p, -, q2, q3, -, q5⟩ := placed (rowF e3).2
      refine ⟨w, p, new.2, type_across a2.symm ?_ q2, q3, a4 ▸ q5⟩
      rw [(rowF e3).1, (rowF' e1).1]
    · intro i j a b q1 q2 q3 q4
      obtain ⟨i', q1⟩ := typeOf q1
      obtain ⟨j', q2⟩ := typeOf q2
      exact C56_refused hF hr q1 q2 q3 q4 h2
  refine ⟨H, hH, ?_⟩
  rw [hG']
  congr 1
  obtain ⟨k1, k2, k3, k4, k5⟩ := C56_placed_partial a1 hr' hH
  have kcols : H.cols = G'.cols := by
    rw [interpolate_cols hH, b2, gcols]
    exact withType_cols_eq a2
  have hGrne : G'.rows ≠ [] := by
    intro h
    have := both'.length_eq
    rw [h] at this
    exact hrne (List.length_eq_zero_iff.1 this)
  have ktimes : G'.times = H.times := by rw [b4 hGrne, g2, k2]
  rw [b1.frameOf_eq, k1.frameOf_eq, ktimes, kcols]
  congr 1
  have lH : H.data.length = F'.data.length := by simpa using congrArg List.length k3
  have lHr : H.rows.length = H.data.length := by rw [k1.data_eq, List.length_map]
  have lFr : F'.rows.length = F'.data.length := by rw [a1.data_eq, List.length_map]
  have lGr := both'.length_eq
  refine List.ext_getElem (by omega) fun i q1 q2 => ?_
  obtain ⟨a, b, j, -, e1, e2, e3, e4⟩ := back (List.getElem?_eq_getElem (i := i) (l := F'.data) (by omega))
  have eb : G'.rows[i] = b := by rw [List.getElem?_eq_getElem q1] at e2; exact Option.some.inj e2
  rw [eb]
  have eH : H.rows[i]? = some H.rows[i] := List.getElem?_eq_getElem q2
  generalize H.rows[i] = c at eH
  have mH : H.meta[i]? = some c.1 := by rw [k1.meta_eq, List.getElem?_map, eH]; rfl
  have dH : H.data[i]? = some c.2 := by rw [k1.data_eq, List.getElem?_map, eH]; rfl
  obtain ⟨mF', dF'⟩ := rowF' e1
  obtain ⟨mF, dF⟩ := rowF e3
  obtain ⟨mG, dG⟩ := rowG e4
  -- values and types
  obtain ⟨new, w, p, n1, n2, n3, n4, n5⟩ := placed dF
  rw [dG] at n1
  cases n1
  have tF' : TypeIs reg views F' i (.str w) := type_across a2.symm (by rw [mF, mF']) n2
  obtain ⟨new', m1, m2⟩ := k5 i a.2 dF'
  rw [dH] at m1
  cases m1
  have res : H.HasMeta i "parameter_type" (.str (typeText p)) ∧ Placed ext F.times target a.2.2 c.2.2 p := by
    rcases m2 with ⟨w', p', s1, s2, s3, s4⟩ | ⟨v, s1, s2, -⟩
    · cases s1.unique a1 tF'
      have : p' = p := by
        have := kindWord_iff.1 s2
        rw [kindWord_iff.1 n3] at this
        exact (Except.ok.inj this).symm
      subst this
      exact ⟨s3, a4 ▸ s4⟩
    · cases s1.unique a1 tF'
      cases s2
  have hvals : b.2.2 = c.2.2 := n5.same res.2
  have hlab : b.2.1 = c.2.1 := by
    have x1 : (G.data.map (·.1))[j]? = some b.2.1 := by rw [List.getElem?_map, dG]; rfl
    have x2 : (H.data.map (·.1))[i]? = some c.2.1 := by rw [List.getElem?_map, dH]; rfl
    rw [g3, List.getElem?_map, dF] at x1
    rw [k3, List.getElem?_map, dF'] at x2
    rw [← Option.some.inj x1, ← Option.some.inj x2]
  have hl1 : b.1.1 = b.2.1 := g1.rows_ok.1 b (List.mem_of_getElem? e4)
  have hl2 : c.1.1 = c.2.1 := k1.rows_ok.1 c (List.mem_of_getElem? eH)
  have hrow : b.1.2 = c.1.2 := by
    have hGc : G.cols = H.cols := by rw [kcols, b2]
    refine row_ext (cols := H.cols) k1.cols_nodup (hGc ▸ g1.rows_ok.2.2.2.2 b (List.mem_of_getElem? e4))
      (k1.rows_ok.2.2.2.2 c (List.mem_of_getElem? eH)) fun col hcol' => ?_
    by_cases hp : col = "parameter_type"
    · subst hp
      obtain ⟨r, x1, -, x2⟩ := (hasMeta_iff g1).1 n4
      obtain ⟨r', y1, -, y2⟩ := (hasMeta_iff k1).1 res.1
      rw [mG] at x1
      rw [mH] at y1
      cases x1
      cases y1
      rw [← hGc, x2, hGc, y2]
    · have h1' : H.HasMeta i col (rowVal H.cols c.1.2 col) := (hasMeta_iff k1).2 ⟨_, mH, hcol', rfl⟩
      have h2' : G.HasMeta j col (rowVal G.cols b.1.2 col) := (hasMeta_iff g1).2 ⟨_, mG, hGc ▸ hcol', rfl⟩
      have h3' := (k4 i col _ hp).1 h1'
      have h4' := (g4 j col _ hp).1 h2'
      obtain ⟨r, x1, -, x2⟩ := (hasMeta_iff a1).1 h3'
      obtain ⟨r', y1, -, y2⟩ := (hasMeta_iff hF).1 h4'
      rw [mF'] at x1
      rw [mF] at y1
      cases x1
      cases y1
      rw [← hGc, ← y2, hGc, ← x2, a2]
  exact Prod.ext (Prod.ext (by rw [hl1, hl2, hlab]) hrow) (Prod.ext hlab hvals)

end Openscm
