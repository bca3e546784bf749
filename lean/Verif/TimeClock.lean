import Verif.TimeAffine
import Mathlib.Algebra.Field.Rat

/-!
# C92: time conversion and clocks

Times may be counted from another origin and in another unit: `t ↦ s * t + c` with positive `s`. If the time points of source
and target are both counted so, conversion gives the same values and raises the same errors.
-/

set_option linter.unusedSectionVars false

namespace Openscm
variable {K : Type} [Field K] [LinearOrder K] [IsStrictOrderedRing K]

/-- The first coordinate mapped. -/
def mapX {β : Type} (f : K → K) (p : K × β) : K × β := (f p.1, p.2)

theorem affine_le {s c : K} (hs : 0 < s) {x y : K} : affine s c x ≤ affine s c y ↔ x ≤ y := by
  unfold affine
  rw [add_le_add_iff_right, mul_le_mul_iff_right₀ hs]

theorem affine_lt {s c : K} (hs : 0 < s) {x y : K} : affine s c x < affine s c y ↔ x < y := by
  rw [← not_le, ← not_le, affine_le hs]

theorem affine_inj {s c : K} (hs : 0 < s) {x y : K} : affine s c x = affine s c y ↔ x = y := by
  rw [le_antisymm_iff, affine_le hs, affine_le hs, ← le_antisymm_iff]

theorem affine_sub (s c x y : K) : affine s c x - affine s c y = s * (x - y) := by
  unfold affine
  ring

theorem line_mapX {s c : K} (hs : 0 < s) (p q : K × K) (x : K) :
    line (mapX (affine s c) p) (mapX (affine s c) q) (affine s c x) = line p q x := by
  simp only [line, mapX, affine_sub]
  rw [mul_comm s (q.1 - p.1), div_mul_eq_div_div]
  generalize (q.2 - p.2) / (q.1 - p.1) = z
  field_simp

theorem interp_mapX {s c : K} (hs : 0 < s) (knots : List (K × K)) (x : K) :
    interp (knots.map (mapX (affine s c))) (affine s c x) = interp knots x := by
  induction knots with
  | nil => rfl
  | cons p ks ih =>
    match ks, ih with
    | [], _ => rfl
    | [q], _ => exact line_mapX hs p q x
    | q :: r :: rs, ih =>
      simp only [List.map_cons, interp] at ih ⊢
      have hq : (mapX (affine s c) q).1 = affine s c q.1 := rfl
      rw [hq, ih, line_mapX hs]
      simp only [affine_le hs]

theorem lineArea_mapX {s c : K} (hs : 0 < s) (p q : K × K) (x : K) :
    lineArea (mapX (affine s c) p) (mapX (affine s c) q) (affine s c x) = s * lineArea p q x := by
  simp only [lineArea, mapX, affine_sub]
  rw [mul_comm s (q.1 - p.1), div_mul_eq_div_div]
  generalize (q.2 - p.2) / (q.1 - p.1) = z
  field_simp

theorem prim_mapX {s c : K} (hs : 0 < s) (knots : List (K × K)) (x : K) :
    prim (knots.map (mapX (affine s c))) (affine s c x) = s * prim knots x := by
  induction knots with
  | nil => exact (mul_zero s).symm
  | cons p ks ih =>
    match ks, ih with
    | [], _ =>
      simp only [List.map_cons, List.map_nil, prim, mapX, affine_sub]
      ring
    | [q], _ => exact lineArea_mapX hs p q x
    | q :: r :: rs, ih =>
      simp only [List.map_cons, prim] at ih ⊢
      have hq : (mapX (affine s c) q).1 = affine s c q.1 := rfl
      rw [hq, ih, lineArea_mapX hs, lineArea_mapX hs]
      simp only [affine_le hs]
      split
      · rfl
      · ring

theorem map_fst_mapX {β : Type} (f : K → K) (l : List (K × β)) : (l.map (mapX f)).map Prod.fst = (l.map Prod.fst).map f := by
  rw [List.map_map, List.map_map]
  rfl

theorem firstX_mapX {β : Type} (f : K → K) {l : List (K × β)} (h : l ≠ []) : firstX (l.map (mapX f)) = f (firstX l) := by
  cases l with
  | nil => exact absurd rfl h
  | cons p l => rfl

theorem lastX_mapX {β : Type} (f : K → K) {l : List (K × β)} (h : l ≠ []) : lastX (l.map (mapX f)) = f (lastX l) := by
  unfold lastX
  rw [map_fst_mapX, List.getLastD_eq_getLast?, List.getLastD_eq_getLast?, List.getLast?_map]
  cases l with
  | nil => exact absurd rfl h
  | cons p l => rw [List.map_cons, List.getLast?_cons]; rfl

theorem evalAt_mapX {s c : K} (hs : 0 < s) (ext : Extrap) (lo hi : K) {knots : List (K × K)} (h : knots ≠ []) (x : K) :
    evalAt ext lo hi (knots.map (mapX (affine s c))) (affine s c x) = evalAt ext lo hi knots x := by
  cases ext <;> simp only [evalAt, firstX_mapX _ h, lastX_mapX _ h, interp_mapX hs, affine_lt hs]

theorem primAt_mapX {s c : K} (hs : 0 < s) (ext : Extrap) (lo hi : K) {knots : List (K × K)} (h : knots ≠ []) (x : K) :
    primAt ext lo hi (knots.map (mapX (affine s c))) (affine s c x) = (primAt ext lo hi knots x).map (s * ·) := by
  cases ext <;> simp only [primAt, firstX_mapX _ h, lastX_mapX _ h, prim_mapX hs, affine_lt hs, affine_sub]
  · split <;> rfl
  · split
    · simp only [Except.map]
      congr 1
      ring
    · split
      · simp only [Except.map]
        congr 1
        ring
      · rfl
  · rfl

theorem intervalAverage_mapX {s c : K} (hs : 0 < s) (ext : Extrap) (lo hi : K) {knots : List (K × K)} (h : knots ≠ []) (l u : K) :
    intervalAverage ext lo hi (knots.map (mapX (affine s c))) (affine s c l) (affine s c u) = intervalAverage ext lo hi knots l u := by
  unfold intervalAverage quad
  rw [primAt_mapX hs ext lo hi h, primAt_mapX hs ext lo hi h]
  cases primAt ext lo hi knots l with
  | error e => rfl
  | ok y =>
    simp only [Except.map]
    cases primAt ext lo hi knots u with
    | error e => rfl
    | ok z =>
      simp only [affine_inj hs, affine_sub]
      rw [← mul_sub, mul_div_mul_left _ _ hs.ne']

theorem intervalAverages_mapX {s c : K} (hs : 0 < s) (ext : Extrap) (lo hi : K) {knots : List (K × K)} (h : knots ≠ []) (tgt : List K) :
    intervalAverages ext lo hi (knots.map (mapX (affine s c))) (tgt.map (affine s c)) = intervalAverages ext lo hi knots tgt := by
  induction tgt with
  | nil => rfl
  | cons l tgt ih =>
    match tgt, ih with
    | [], _ => rfl
    | u :: r, ih =>
      simp only [List.map_cons] at ih ⊢
      simp only [intervalAverages, intervalAverage_mapX hs ext lo hi h, ih]

theorem evalAll_mapX {s c : K} (hs : 0 < s) (ext : Extrap) (lo hi : K) {knots : List (K × K)} (h : knots ≠ []) (tgt : List K) :
    evalAll ext lo hi (knots.map (mapX (affine s c))) (tgt.map (affine s c)) = evalAll ext lo hi knots tgt := by
  induction tgt with
  | nil => rfl
  | cons x tgt ih => simp only [List.map_cons, evalAll, evalAt_mapX hs ext lo hi h, ih]

theorem linPoints_mapX (s c : K) (src : List K) : linPoints (src.map (affine s c)) = (linPoints src).map (affine s c) := by
  induction src with
  | nil => rfl
  | cons t src ih =>
    match src, ih with
    | [], _ => rfl
    | u :: r, ih =>
      simp only [List.map_cons, linPoints] at ih ⊢
      rw [ih]
      congr 2
      simp only [affine]
      ring

theorem sortKnots_mapX {β : Type} {s c : K} (hs : 0 < s) (l : List (K × β)) :
    sortKnots (l.map (mapX (affine s c))) = (sortKnots l).map (mapX (affine s c)) := by
  unfold sortKnots
  exact (List.map_insertionSort (r := fun a b : K × β => a.1 ≤ b.1) (s := fun a b : K × β => a.1 ≤ b.1)
    (mapX (affine s c)) l (fun _ _ _ _ => (affine_le hs).symm)).symm

theorem zip_mapX {β : Type} (f : K → K) (xs : List K) (ys : List β) : (xs.map f).zip ys = (xs.zip ys).map (mapX f) := by
  induction xs generalizing ys with
  | nil => rfl
  | cons x xs ih => cases ys <;> simp [mapX, ih]

theorem strictInc_affine {s c : K} (hs : 0 < s) (l : List K) : strictInc (l.map (affine s c)) = strictInc l := by
  induction l with
  | nil => rfl
  | cons a l ih =>
    match l, ih with
    | [], _ => rfl
    | b :: r, ih =>
      simp only [List.map_cons, strictInc] at ih ⊢
      rw [ih]
      simp only [affine_lt hs]

theorem sortKnots_ne {β : Type} {l : List (K × β)} (h : l ≠ []) : sortKnots l ≠ [] := by
  intro he
  apply h
  have := (List.perm_insertionSort (fun a b : K × β => a.1 ≤ b.1) l)
  unfold sortKnots at he
  rw [he] at this
  exact this.symm.eq_nil

theorem convertNum_mapX {s c : K} (hs : 0 < s) (ty : PType) (ext : Extrap) (src tgt vs : List K) :
    convertNum ty ext (src.map (affine s c)) (tgt.map (affine s c)) vs = convertNum ty ext src tgt vs := by
  unfold convertNum
  split
  · rfl
  rename_i h3
  cases ty with
  | average =>
    simp only [List.length_map]
    split
    · rfl
    rename_i hl
    rw [linPoints_mapX, zip_mapX, sortKnots_mapX hs, map_fst_mapX, strictInc_affine hs, intervalAverages_mapX hs]
    refine sortKnots_ne ?_
    match src, vs, hl, h3 with
    | s :: s' :: r, v :: w :: vs, _, _ => rw [linValues_eq]; simp [linPoints]
    | [], _, hl, _ => simp at hl
    | [_], vs, hl, h3 => exfalso; simp only [List.length_cons, List.length_nil, ne_eq, not_not] at hl; omega
    | _ :: _ :: _, [], hl, h3 => simp at h3
    | _ :: _ :: _, [_], hl, h3 => simp at h3
  | point =>
    simp only [List.length_map]
    split
    · rfl
    rename_i hl
    rw [zip_mapX, sortKnots_mapX hs, map_fst_mapX, strictInc_affine hs, evalAll_mapX hs]
    refine sortKnots_ne ?_
    match src, vs, hl, h3 with
    | s :: r, v :: vs, _, _ => simp
    | [], vs, hl, h3 => exfalso; simp only [List.length_nil, ne_eq, not_not] at hl; omega
    | _ :: _, [], hl, h3 => simp at h3
  | _ => rfl

/-! ## Missing values -/

theorem gapInterp_mapX {s c : K} (hs : 0 < s) (knots : List (K × Bool)) (x : K) :
    gapInterp (knots.map (mapX (affine s c))) (affine s c x) = gapInterp knots x := by
  induction knots with
  | nil => rfl
  | cons p ks ih =>
    match ks, ih with
    | [], _ => rfl
    | [q], _ => rfl
    | q :: r :: rs, ih =>
      simp only [List.map_cons, gapInterp] at ih ⊢
      have hq : (mapX (affine s c) q).1 = affine s c q.1 := rfl
      rw [hq, ih]
      simp only [affine_le hs]
      rfl

theorem gapAt_mapX {s c : K} (hs : 0 < s) (ext : Extrap) (lo hi : Bool) {knots : List (K × Bool)} (h : knots ≠ []) (x : K) :
    gapAt ext lo hi (knots.map (mapX (affine s c))) (affine s c x) = gapAt ext lo hi knots x := by
  cases ext <;> simp only [gapAt, firstX_mapX _ h, lastX_mapX _ h, gapInterp_mapX hs, affine_lt hs]

theorem gapIn_mapX {s c : K} (hs : 0 < s) (knots : List (K × Bool)) (l u : K) :
    gapIn (knots.map (mapX (affine s c))) (affine s c l) (affine s c u) = gapIn knots l u := by
  induction knots with
  | nil => rfl
  | cons p ks ih =>
    match ks, ih with
    | [], _ => rfl
    | q :: r, ih =>
      simp only [List.map_cons, gapIn] at ih ⊢
      rw [ih]
      simp only [mapX, affine_lt hs]

theorem affine_min {s c : K} (hs : 0 < s) (x y : K) : min (affine s c x) (affine s c y) = affine s c (min x y) := by
  rcases le_total x y with h | h
  · rw [min_eq_left h, min_eq_left ((affine_le hs).2 h)]
  · rw [min_eq_right h, min_eq_right ((affine_le hs).2 h)]

theorem affine_max {s c : K} (hs : 0 < s) (x y : K) : max (affine s c x) (affine s c y) = affine s c (max x y) := by
  rcases le_total x y with h | h
  · rw [max_eq_right h, max_eq_right ((affine_le hs).2 h)]
  · rw [max_eq_left h, max_eq_left ((affine_le hs).2 h)]

theorem any_mapX (f : K → K) (l : List (K × Bool)) : (l.map (mapX f)).any Prod.snd = l.any Prod.snd := by
  rw [List.any_map]
  rfl

theorem gapQuad_mapX {s c : K} (hs : 0 < s) (ext : Extrap) (lo hi : Bool) {knots : List (K × Bool)} (h : knots ≠ []) (l u : K) :
    gapQuad ext lo hi (knots.map (mapX (affine s c))) (affine s c l) (affine s c u) = gapQuad ext lo hi knots l u := by
  unfold gapQuad
  rw [affine_min hs, affine_max hs, gapIn_mapX hs]
  cases ext <;>
    simp only [firstX_mapX _ h, lastX_mapX _ h, affine_lt hs, ← List.map_take, ← List.map_reverse, any_mapX]

theorem gapAverages_mapX {s c : K} (hs : 0 < s) (ext : Extrap) (lo hi : Bool) {knots : List (K × Bool)} (h : knots ≠ []) (tgt : List K) :
    gapAverages ext lo hi (knots.map (mapX (affine s c))) (tgt.map (affine s c)) = gapAverages ext lo hi knots tgt := by
  induction tgt with
  | nil => rfl
  | cons l tgt ih =>
    match tgt, ih with
    | [], _ => rfl
    | u :: r, ih =>
      simp only [List.map_cons] at ih ⊢
      simp only [gapAverages, gapQuad_mapX hs ext lo hi h, ih]

theorem gaps_mapX {s c : K} (hs : 0 < s) (ty : PType) (ext : Extrap) {src : List K} (tgt : List K) {ms : List Bool} (h1 : src ≠ [])
    (h2 : ms ≠ []) : gaps ty ext (src.map (affine s c)) (tgt.map (affine s c)) ms = gaps ty ext src tgt ms := by
  have hz : src.zip ms ≠ [] := by
    cases src with
    | nil => exact absurd rfl h1
    | cons a src =>
      cases ms with
      | nil => exact absurd rfl h2
      | cons m ms => simp
  have hp : tgt.map (gapAt ext (ms.headD false) (ms.getLastD false) (sortKnots (src.zip ms)) ) =
      (tgt.map (affine s c)).map (gapAt ext (ms.headD false) (ms.getLastD false) (sortKnots ((src.map (affine s c)).zip ms))) := by
    rw [List.map_map, zip_mapX, sortKnots_mapX hs]
    refine List.map_congr_left fun x _ => ?_
    exact (gapAt_mapX hs _ _ _ (sortKnots_ne hz) x).symm
  cases ty with
  | average =>
    simp only [gaps]
    rw [linPoints_mapX, zip_mapX, sortKnots_mapX hs, gapAverages_mapX hs]
    refine sortKnots_ne ?_
    unfold linGaps
    simp only
    have hl : linPoints src ≠ [] := by
      match src, h1 with
      | [_], _ => simp [linPoints]
      | _ :: _ :: _, _ => simp [linPoints]
    intro he
    rcases List.zip_eq_nil_iff.1 he with h | h
    · exact hl h
    · simp at h
  | _ => exact hp.symm

/-- Conversion does not depend on how time is counted. -/
theorem convert_mapX {s c : K} (hs : 0 < s) (ty : PType) (ext : Extrap) (src tgt : List K) (vals : List (Fl K)) :
    convert ty ext (src.map (affine s c)) (tgt.map (affine s c)) vals = convert ty ext src tgt vals := by
  unfold convert
  simp only [convertNum_mapX hs]
  split
  · rfl
  · split
    · rfl
    · rename_i r hr
      have h3 : ¬ (vals.map Fl.orZero).length < 3 := by
        intro h
        unfold convertNum at hr
        rw [if_pos h] at hr
        cases hr
      rw [gaps_mapX hs]
      · rintro rfl
        unfold convertNum at hr
        rw [if_neg h3] at hr
        cases ty <;> simp only [List.length_nil] at hr
        case average => rw [if_pos (by omega)] at hr; cases hr
        case point => rw [if_pos (by omega)] at hr; cases hr
        all_goals cases hr
      · intro h
        apply h3
        rw [List.map_eq_nil_iff] at h
        subst h
        simp

/-! ## C92 -/

/-- The same times, counted from another origin and in another unit. -/
def Recounted (s c : K) (ts ts' : List K) : Prop := List.Forall₂ (fun t t' => t' = s * t + c) ts ts'

theorem Recounted.eq {s c : K} {ts ts' : List K} (h : Recounted s c ts ts') : ts' = ts.map (affine s c) := by
  induction h with
  | nil => rfl
  | cons h _ ih =>
    rw [List.map_cons, ← ih, h]
    rfl

/-- C92: a converter is accepted or refused whatever the clock. -/
theorem C92_accepted {s c : K} (hs : 0 < s) {src src' tgt tgt' : List K} (h : Recounted s c src src') (h' : Recounted s c tgt tgt')
    (ty : PType) (ext : Extrap) :
    (∃ C, mkTSConv src tgt ty ext = .ok C ∧ mkTSConv src' tgt' ty ext = .ok { C with source := src', target := tgt' }) ∨
    ∃ e, mkTSConv src tgt ty ext = .error e ∧ mkTSConv src' tgt' ty ext = .error e := by
  rw [h.eq, h'.eq]
  unfold mkTSConv
  match src, tgt with
  | [], _ => exact .inr ⟨_, rfl, rfl⟩
  | _ :: _, [] => exact .inr ⟨_, rfl, rfl⟩
  | _ :: _, [_] => exact .inr ⟨_, rfl, rfl⟩
  | a :: src, t :: t1 :: tgt =>
    simp only [List.map_cons, affine_lt hs]
    by_cases hlt : t1 < a
    · rw [if_pos hlt, if_pos hlt]
      exact .inr ⟨_, rfl, rfl⟩
    · rw [if_neg hlt, if_neg hlt]
      exact .inl ⟨_, rfl, rfl⟩

/-- C92: converters whose time points are the same times on different clocks give the same values, or the same error, in both
directions and also for values some of which are missing. -/
theorem C92_convert {s c : K} (hs : 0 < s) {C C' : TSConv K} (h : Recounted s c C.source C'.source) (h' : Recounted s c C.target C'.target)
    (hty : C'.ty = C.ty) (hext : C'.ext = C.ext) (vals : List (Fl K)) :
    C'.convertFrom vals = C.convertFrom vals ∧ C'.convertTo vals = C.convertTo vals := by
  unfold TSConv.convertFrom TSConv.convertTo
  rw [h.eq, h'.eq, hty, hext]
  exact ⟨convert_mapX hs .., convert_mapX hs ..⟩

/-- Three years, counted in years from 2000 on and in months from 1990 on. -/
example : Recounted (12 : ℚ) 120 [0, 1, 2, 3] [120, 132, 144, 156] ∧ Recounted (12 : ℚ) 120 [0, 1 / 2, 4] [120, 126, 168] ∧
    (TSConv.mk [120, 132, 144, 156] [120, 126, 168] .average .linear).convertFrom [.num (1 : ℚ), .num 2, .num 4] =
      (TSConv.mk [0, 1, 2, 3] [0, 1 / 2, 4] .average .linear).convertFrom [.num (1 : ℚ), .num 2, .num 4] ∧
    ((TSConv.mk [0, 1, 2, 3] [0, 1 / 2, 4] .average .linear).convertFrom [.num (1 : ℚ), .num 2, .num 4]).isOk = true := by
  have h1 : Recounted (12 : ℚ) 120 [0, 1, 2, 3] [120, 132, 144, 156] := by
    unfold Recounted
    norm_num
  have h2 : Recounted (12 : ℚ) 120 [0, 1 / 2, 4] [120, 126, 168] := by
    unfold Recounted
    norm_num
  exact ⟨h1, h2, (C92_convert (s := (12 : ℚ)) (c := 120) (by norm_num)
    (C := ⟨[0, 1, 2, 3], [0, 1 / 2, 4], .average, .linear⟩) (C' := ⟨[120, 132, 144, 156], [120, 126, 168], .average, .linear⟩) h1 h2
    rfl rfl _).1, by decide +kernel⟩

end Openscm
