import Verif.TimeGaps

/-!
# Time conversion and affine maps

Helper file for C71 and C72: converting to other time points commutes with `x ↦ a * x + b`.
-/

set_option linter.unusedSectionVars false

namespace Openscm
variable {K : Type} [Field K] [LinearOrder K] [IsStrictOrderedRing K]

/-- The map `x ↦ a * x + b`. -/
def affine (a b x : K) : K := a * x + b

/-- The second coordinate mapped. -/
def mapY (f : K → K) (p : K × K) : K × K := (p.1, f p.2)

theorem line_mapY (a b : K) (p q : K × K) (x : K) :
    line (mapY (affine a b) p) (mapY (affine a b) q) x = affine a b (line p q x) := by
  simp only [line, mapY, affine]
  rw [show a * q.2 + b - (a * p.2 + b) = a * (q.2 - p.2) by ring, mul_div_assoc]
  ring

theorem interp_mapY (a b : K) (knots : List (K × K)) (h : knots ≠ []) (x : K) :
    interp (knots.map (mapY (affine a b))) x = affine a b (interp knots x) := by
  induction knots with
  | nil => exact absurd rfl h
  | cons p ks ih =>
    match ks, ih with
    | [], _ => rfl
    | [q], _ => exact line_mapY a b p q x
    | q :: r :: rs, ih =>
      simp only [List.map_cons, interp] at ih ⊢
      have hq : (mapY (affine a b) q).1 = q.1 := rfl
      rw [hq]
      by_cases hx : x ≤ q.1
      · rw [if_pos hx, if_pos hx]; exact line_mapY a b p q x
      · rw [if_neg hx, if_neg hx]
        exact ih (by simp)

theorem lineArea_mapY (a b : K) (p q : K × K) (x : K) :
    lineArea (mapY (affine a b) p) (mapY (affine a b) q) x = a * lineArea p q x + b * (x - p.1) := by
  simp only [lineArea, mapY, affine]
  rw [show a * q.2 + b - (a * p.2 + b) = a * (q.2 - p.2) by ring, mul_div_assoc]
  ring

theorem prim_affine' (a b : K) (p : K × K) (ks : List (K × K)) (x : K) :
    prim ((p :: ks).map (mapY (affine a b))) x = a * prim (p :: ks) x + b * (x - p.1) := by
  induction ks generalizing p with
  | nil => simp only [List.map_cons, List.map_nil, prim, mapY, affine]; ring
  | cons q ks ih =>
    match ks, ih with
    | [], _ => exact lineArea_mapY a b p q x
    | r :: rs, ih =>
      have := ih q
      simp only [List.map_cons, prim] at this ⊢
      have hq : (mapY (affine a b) q).1 = q.1 := rfl
      rw [hq]
      by_cases hx : x ≤ q.1
      · rw [if_pos hx, if_pos hx]; exact lineArea_mapY a b p q x
      · rw [if_neg hx, if_neg hx, this, lineArea_mapY]; ring

theorem map_fst_mapY (f : K → K) (l : List (K × K)) : (l.map (mapY f)).map Prod.fst = l.map Prod.fst := by
  rw [List.map_map]; rfl

theorem firstX_mapY (f : K → K) (l : List (K × K)) : firstX (l.map (mapY f)) = firstX l := by
  unfold firstX; rw [map_fst_mapY]

theorem lastX_mapY (f : K → K) (l : List (K × K)) : lastX (l.map (mapY f)) = lastX l := by
  unfold lastX; rw [map_fst_mapY]

theorem evalAt_affine (a b : K) (ext : Extrap) (lo hi : K) (knots : List (K × K)) (h : knots ≠ []) (x : K) :
    evalAt ext (affine a b lo) (affine a b hi) (knots.map (mapY (affine a b))) x
      = (evalAt ext lo hi knots x).map (affine a b) := by
  cases ext <;> simp only [evalAt, firstX_mapY, lastX_mapY, interp_mapY a b knots h]
  · split <;> rfl
  · split
    · rfl
    · split <;> rfl
  · rfl

theorem primAt_affine (a b : K) (ext : Extrap) (lo hi : K) (knots : List (K × K)) (h : knots ≠ []) (x : K) :
    primAt ext (affine a b lo) (affine a b hi) (knots.map (mapY (affine a b))) x
      = (primAt ext lo hi knots x).map fun y => a * y + b * (x - firstX knots) := by
  match knots, h with
  | p :: ks, _ =>
    have hf : firstX (p :: ks) = p.1 := rfl
    cases ext <;> simp only [primAt, firstX_mapY, lastX_mapY, prim_affine', hf]
    · split <;> rfl
    · split
      · simp only [Except.map, affine]; congr 1; ring
      · split
        · simp only [Except.map, affine]; congr 1; ring
        · rfl
    · rfl

theorem intervalAverage_affine (a b : K) (ext : Extrap) (lo hi : K) (knots : List (K × K))
    (h : knots ≠ []) (l u : K) :
    intervalAverage ext (affine a b lo) (affine a b hi) (knots.map (mapY (affine a b))) l u
      = (intervalAverage ext lo hi knots l u).map (Fl.map (affine a b)) := by
  unfold intervalAverage quad
  rw [primAt_affine a b ext lo hi knots h, primAt_affine a b ext lo hi knots h]
  cases primAt ext lo hi knots l with
  | error e => rfl
  | ok y =>
    simp only [Except.map]
    cases primAt ext lo hi knots u with
    | error e => rfl
    | ok z =>
      simp only
      by_cases hu : u = l
      · rw [if_pos hu, if_pos hu]; rfl
      · rw [if_neg hu, if_neg hu]
        have : u - l ≠ 0 := sub_ne_zero.2 hu
        simp only [Fl.map, affine]
        congr 2
        field_simp
        ring

theorem intervalAverages_affine (a b : K) (ext : Extrap) (lo hi : K) (knots : List (K × K))
    (h : knots ≠ []) (tgt : List K) :
    intervalAverages ext (affine a b lo) (affine a b hi) (knots.map (mapY (affine a b))) tgt
      = (intervalAverages ext lo hi knots tgt).map (List.map (Fl.map (affine a b))) := by
  induction tgt with
  | nil => rfl
  | cons l tgt ih =>
    match tgt, ih with
    | [], _ => rfl
    | u :: r, ih =>
      simp only [intervalAverages, intervalAverage_affine a b ext lo hi knots h, ih]
      cases intervalAverage ext lo hi knots l u with
      | error e => rfl
      | ok y =>
        simp only [Except.map]
        cases intervalAverages ext lo hi knots (u :: r) <;> rfl

theorem evalAll_affine (a b : K) (ext : Extrap) (lo hi : K) (knots : List (K × K)) (h : knots ≠ [])
    (tgt : List K) :
    evalAll ext (affine a b lo) (affine a b hi) (knots.map (mapY (affine a b))) tgt
      = (evalAll ext lo hi knots tgt).map (List.map (Fl.map (affine a b))) := by
  induction tgt with
  | nil => rfl
  | cons x tgt ih =>
    simp only [evalAll, evalAt_affine a b ext lo hi knots h, ih]
    cases evalAt ext lo hi knots x with
    | error e => rfl
    | ok y =>
      simp only [Except.map]
      cases evalAll ext lo hi knots tgt <;> rfl

theorem zigTail_mapY (a b v : K) (l : List K) :
    zigTail (affine a b v) (l.map (affine a b)) = (zigTail v l).map (affine a b) := by
  induction l generalizing v with
  | nil => rfl
  | cons y ys ih =>
    match ys, ih with
    | [], _ =>
      simp only [List.map_cons, List.map_nil, zigTail, affine, List.cons.injEq, and_true]
      refine ⟨?_, trivial, ?_⟩ <;> ring
    | z :: zs, ih =>
      have := ih y
      simp only [List.map_cons, zigTail] at this ⊢
      rw [this]
      congr 1
      · simp only [affine]; ring
      · congr 1; simp only [affine]; ring

theorem linValues_affine (a b : K) (vs : List K) (h : 2 ≤ vs.length) :
    linValues (vs.map (affine a b)) = (linValues vs).map (affine a b) := by
  match vs, h with
  | v :: w :: r, _ =>
    simp only [List.map_cons]
    rw [linValues_eq, linValues_eq, ← List.map_cons, zigTail_mapY]
    simp only [List.map_cons, affine]
    congr 1; ring

theorem sortKnots_mapY (f : K → K) (l : List (K × K)) :
    sortKnots (l.map (mapY f)) = (sortKnots l).map (mapY f) := by
  unfold sortKnots
  exact (List.map_insertionSort (r := fun a b : K × K => a.1 ≤ b.1) (s := fun a b : K × K => a.1 ≤ b.1)
    (mapY f) l (fun _ _ _ _ => Iff.rfl)).symm

theorem zip_mapY (f : K → K) (xs ys : List K) : xs.zip (ys.map f) = (xs.zip ys).map (mapY f) := by
  induction xs generalizing ys with
  | nil => rfl
  | cons x xs ih => cases ys <;> simp [mapY, ih]

theorem toInsufficient_map {α β : Type} (f : α → β) (x : Except Err α) :
    toInsufficient (x.map f) = (toInsufficient x).map f := by cases x <;> rfl

/-- Conversion of numbers commutes with `x ↦ a * x + b`, also if it raises. -/
theorem convertNum_affine (a b : K) (ty : PType) (ext : Extrap) (src tgt vs : List K) :
    convertNum ty ext src tgt (vs.map (affine a b))
      = (convertNum ty ext src tgt vs).map (List.map (Fl.map (affine a b))) := by
  unfold convertNum
  rw [List.length_map]
  by_cases h3 : vs.length < 3
  · rw [if_pos h3, if_pos h3]; rfl
  · rw [if_neg h3, if_neg h3]
    have hlo : (vs.map (affine a b)).headD 0 = affine a b (vs.headD 0) := by
      match vs, h3 with
      | v :: _, _ => rfl
      | [], h3 => exact absurd (by simp) h3
    have hhi : (vs.map (affine a b)).getLastD 0 = affine a b (vs.getLastD 0) := by
      rw [List.getLastD_eq_getLast?, List.getLastD_eq_getLast?, List.getLast?_map]
      match vs, h3 with
      | v :: vs, _ => rw [List.getLast?_cons]; rfl
      | [], h3 => exact absurd (by simp) h3
    have sorted_ne : ∀ l : List (K × K), l ≠ [] → sortKnots l ≠ [] := by
      intro l hl he
      apply hl
      have := (List.perm_insertionSort (fun a b : K × K => a.1 ≤ b.1) l)
      unfold sortKnots at he
      rw [he] at this
      exact this.symm.eq_nil
    simp only [hlo, hhi]
    cases ty with
    | average =>
      simp only
      by_cases hl : src.length ≠ vs.length + 1
      · rw [if_pos hl, if_pos hl]; rfl
      · rw [if_neg hl, if_neg hl]
        rw [linValues_affine a b vs (by omega), zip_mapY, sortKnots_mapY, map_fst_mapY]
        have hne : sortKnots ((linPoints src).zip (linValues vs)) ≠ [] := by
          apply sorted_ne
          match src, vs, hl, h3 with
          | s :: s' :: r, v :: w :: vs, _, _ => rw [linValues_eq]; simp [linPoints]
          | [], _, hl, _ => simp at hl
          | [_], vs, hl, h3 => exfalso; simp only [List.length_cons, List.length_nil, ne_eq, not_not] at hl; omega
          | _ :: _ :: _, [], hl, h3 => simp at h3
          | _ :: _ :: _, [_], hl, h3 => simp at h3
        rw [intervalAverages_affine a b ext _ _ _ hne, toInsufficient_map]
        split <;> rfl
    | point =>
      simp only
      by_cases hl : src.length ≠ vs.length
      · rw [if_pos hl, if_pos hl]; rfl
      · rw [if_neg hl, if_neg hl]
        rw [zip_mapY, sortKnots_mapY, map_fst_mapY]
        have hne : sortKnots (src.zip vs) ≠ [] := by
          apply sorted_ne
          match src, vs, hl, h3 with
          | s :: r, v :: vs, _, _ => simp
          | [], vs, hl, h3 => exfalso; simp only [List.length_nil, ne_eq, not_not] at hl; omega
          | _ :: _, [], hl, h3 => simp at h3
        rw [evalAll_affine a b ext _ _ _ hne, toInsufficient_map]
        split <;> rfl
    | _ => rfl

theorem allNum_map (f : K → K) (l : List (Fl K)) :
    Fl.allNum (l.map (Fl.map f)) = (Fl.allNum l).map (List.map f) := by
  induction l with
  | nil => rfl
  | cons x l ih =>
    cases x with
    | nan => rfl
    | num x =>
      simp only [List.map_cons, Fl.map, Fl.allNum, ih]
      cases Fl.allNum l <;> rfl

/-- Conversion commutes with `x ↦ a * x + b`, also with NaN and if it raises. -/
theorem convert_affine (a b : K) (ty : PType) (ext : Extrap) (src tgt : List K) (l : List (Fl K)) :
    convert ty ext src tgt (l.map (Fl.map (affine a b)))
      = (convert ty ext src tgt l).map (List.map (Fl.map (affine a b))) := by
  unfold convert
  rw [allNum_map]
  cases e : Fl.allNum l with
  | some vs => exact convertNum_affine a b ty ext src tgt vs
  | none =>
    have hf : Fills ((l.map Fl.orZero).map (affine a b)) (l.map (Fl.map (affine a b))) := by
      unfold Fills
      rw [List.map_map, List.forall₂_map_left_iff, List.forall₂_map_right_iff, List.forall₂_same]
      intro v _ x hx
      cases v with
      | nan => cases hx
      | num y => cases hx; rfl
    have hn : (l.map (Fl.map (affine a b))).map Fl.isNan = l.map Fl.isNan := by
      rw [List.map_map]
      refine List.map_congr_left fun v _ => ?_
      cases v <;> rfl
    have := convert_fill (ty := ty) (ext := ext) (src := src) (tgt := tgt) hf (by rw [allNum_map, e]; rfl)
    unfold convert at this
    rw [allNum_map, e] at this
    refine this.trans ?_
    rw [hn, convertNum_affine]
    dsimp only
    cases convertNum ty ext src tgt (l.map Fl.orZero) with
    | error e => rfl
    | ok r =>
      simp only [Except.map, blank]
      rw [List.zipWith_map_right, List.map_zipWith]
      congr 1
      congr 1
      funext g y
      cases g <;> rfl

end Openscm
