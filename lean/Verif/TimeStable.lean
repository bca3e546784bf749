import Verif.TimeRange
import Verif.TimeGaps3

/-!
# C94: what small and local changes of a timeseries do to its conversion

The converter is `TimeseriesConverter`, `openscm/core/time.py:291-646` (`Time.lean`).
-/

set_option linter.unusedSectionVars false

namespace Openscm

variable {K : Type} [Field K] [LinearOrder K] [IsStrictOrderedRing K]

/-! ## Specification -/

/-- Two lists whose elements differ by something between `m` and `M`. -/
def DiffIn (m M : K) (vs ws : List K) : Prop :=
  vs.length = ws.length ∧
    ∀ (i : Nat) (v w : K), vs[i]? = some v → ws[i]? = some w → m ≤ w - v ∧ w - v ≤ M

/-! ## Errors -/

theorem DiffIn.comb {m M : K} {vs ws : List K} (h : DiffIn m M vs ws) :
    ∀ d ∈ combList (-1) 1 vs ws, m ≤ d ∧ d ≤ M := by
  intro d hd
  obtain ⟨i, hi, rfl⟩ := List.getElem_of_mem hd
  simp only [combList, List.length_zipWith, lt_inf_iff] at hi
  simp only [combList, List.getElem_zipWith]
  have := h.2 i vs[i] ws[i] (List.getElem?_eq_getElem _) (List.getElem?_eq_getElem _)
  constructor <;> linarith [this.1, this.2]

theorem length_combList' {a b : K} {vs ws : List K} (h : vs.length = ws.length) :
    (combList a b vs ws).length = vs.length := by
  simp [combList, h]

/-- C94 for point timeseries: what is added to the results is between the least and the most that is added to the
values, unless it is extrapolated linearly. -/
theorem C94_point {ext : Extrap} {src tgt vs ws : List K} {r r' : List (Fl K)} (hsrc : src.Pairwise (· < ·))
    (hr : convertNum .point ext src tgt vs = .ok r) (hr' : convertNum .point ext src tgt ws = .ok r')
    {m M : K} (h : DiffIn m M vs ws) {j : Nat} {t : K} (ht : tgt[j]? = some t)
    (hext : ext ≠ .linear ∨ ∃ a b, src.head? = some a ∧ src.getLast? = some b ∧ a ≤ t ∧ t ≤ b) :
    ∃ y z, r[j]? = some (.num y) ∧ r'[j]? = some (.num z) ∧ m ≤ z - y ∧ z - y ≤ M := by
  obtain ⟨hj, rfl⟩ := List.getElem?_eq_some_iff.1 ht
  obtain ⟨ys, rfl⟩ := C27_point_no_nan _ _ _ _ _ hr
  obtain ⟨zs, rfl⟩ := C27_point_no_nan _ _ _ _ _ hr'
  have hlr : ys.length = tgt.length := by simpa [pointsLength] using convertNum_length hr
  have hlr' : zs.length = tgt.length := by simpa [pointsLength] using convertNum_length hr'
  have hc := C28_linear .point (.inl rfl) ext src tgt vs ws (-1) 1 _ _ hsrc h.1 hr hr'
  have hl := length_combList' (a := -1) (b := 1) h.1
  have h3 : 3 ≤ vs.length ∧ src.length = vs.length := by
    unfold convertNum at hr
    split at hr
    · cases hr
    · dsimp only at hr
      split at hr
      · cases hr
      · rename_i a b
        exact ⟨by omega, by simpa using b⟩
  obtain ⟨y, hy, h1, h2⟩ := C75_point (by omega) (by omega) hsrc hc h.comb hj (by
    rcases hext with hext | ⟨a, b, ha, hb, h1, h2⟩
    · exact .inl hext
    · refine .inr ?_
      rw [List.head?_eq_getElem?, List.getElem?_eq_getElem (by omega)] at ha
      rw [List.getLast?_eq_getElem?, List.getElem?_eq_getElem (by omega)] at hb
      injection ha with ha; injection hb with hb
      exact ⟨ha ▸ h1, hb ▸ h2⟩)
  refine ⟨ys[j], zs[j], by simp, by simp, ?_⟩
  rw [List.getElem?_zipWith, List.getElem?_map, List.getElem?_map, List.getElem?_eq_getElem (by omega),
    List.getElem?_eq_getElem (by omega)] at hy
  simp only [Option.map_some, combFl, Fl.map_num, Fl.add_num, Option.some.injEq, Fl.num.injEq] at hy
  constructor <;> linarith

/-- C94: larger values of a point timeseries give larger results. -/
theorem C94_order {ext : Extrap} {src tgt vs ws : List K} {r r' : List (Fl K)} (hsrc : src.Pairwise (· < ·))
    (hr : convertNum .point ext src tgt vs = .ok r) (hr' : convertNum .point ext src tgt ws = .ok r')
    (h : List.Forall₂ (· ≤ ·) vs ws) {j : Nat} {t : K} (ht : tgt[j]? = some t)
    (hext : ext ≠ .linear ∨ ∃ a b, src.head? = some a ∧ src.getLast? = some b ∧ a ≤ t ∧ t ≤ b) :
    ∃ y z, r[j]? = some (.num y) ∧ r'[j]? = some (.num z) ∧ y ≤ z := by
  have hb : ∃ M, DiffIn 0 M vs ws := by
    clear hr hr' hext
    induction h with
    | nil => exact ⟨0, rfl, fun i v w hv => by simp at hv⟩
    | @cons a b vs ws hab h ih =>
      obtain ⟨M, hl, hM⟩ := ih
      refine ⟨max M (b - a), by simp [hl], ?_⟩
      intro i v w hv hw
      cases i with
      | zero =>
        simp only [List.getElem?_cons_zero, Option.some.injEq] at hv hw
        subst hv hw
        exact ⟨by linarith, le_max_right _ _⟩
      | succ i =>
        rw [List.getElem?_cons_succ] at hv hw
        exact ⟨(hM i v w hv hw).1, (hM i v w hv hw).2.trans (le_max_left _ _)⟩
  obtain ⟨M, hM⟩ := hb
  obtain ⟨y, z, h1, h2, h3, _⟩ := C94_point hsrc hr hr' hM ht hext
  exact ⟨y, z, h1, h2, by linarith⟩

/-- C94 for averages: errors of at most `e` give errors of at most `2 * e`. -/
theorem C94_average_partial {ext : Extrap} {src tgt vs ws : List K} {r r' : List (Fl K)} (hsrc : src.Pairwise (· < ·))
    (hr : convertNum .average ext src tgt vs = .ok r) (hr' : convertNum .average ext src tgt ws = .ok r')
    {e : K} (h : DiffIn (-e) e vs ws) {j : Nat} {l u : K} (hl : tgt[j]? = some l) (hu : tgt[j + 1]? = some u)
    (hlu : l ≠ u)
    (hext : ext ≠ .linear ∨ ∃ a b, src.head? = some a ∧ src.getLast? = some b ∧ ∀ t ∈ tgt, a ≤ t ∧ t ≤ b) :
    ∃ y z, r[j]? = some (.num y) ∧ r'[j]? = some (.num z) ∧ |z - y| ≤ 2 * e := by
  obtain ⟨hj, rfl⟩ := List.getElem?_eq_some_iff.1 hu
  rw [List.getElem?_eq_getElem (by omega)] at hl
  injection hl with hl
  subst hl
  have hlen := length_combList' (a := -1) (b := 1) h.1
  have h3 : 3 ≤ vs.length ∧ src.length = vs.length + 1 := by
    unfold convertNum at hr
    split at hr
    · cases hr
    · dsimp only at hr
      split at hr
      · cases hr
      · rename_i a b
        exact ⟨by omega, by simpa using b⟩
  have hc := C28_linear .average (.inr rfl) ext src tgt vs ws (-1) 1 _ _ hsrc h.1 hr hr'
  obtain ⟨d, hd, h1, h2⟩ := C75_average_partial (by omega) (by omega) hsrc hc h.comb hj (Ne.symm hlu) (by
    rcases hext with hext | ⟨a, b, ha, hb, h1⟩
    · exact .inl hext
    · refine .inr ?_
      rw [List.head?_eq_getElem?, List.getElem?_eq_getElem (by omega)] at ha
      rw [List.getLast?_eq_getElem?, List.getElem?_eq_getElem (by omega)] at hb
      injection ha with ha; injection hb with hb
      intro t ht
      refine ⟨ha ▸ (h1 t ht).1, ?_⟩
      have := (h1 t ht).2
      rw [← hb] at this
      simpa only [hlen, h3.2, Nat.add_sub_cancel] using this)
  rw [List.getElem?_zipWith] at hd
  revert hd
  cases e1 : r[j]? with
  | none => simp
  | some y =>
    cases e2 : r'[j]? with
    | none => simp
    | some z =>
      intro hd
      cases y with
      | nan => simp [combFl, Fl.add, Fl.map] at hd
      | num y =>
        cases z with
        | nan => simp [combFl, Fl.add, Fl.map] at hd
        | num z =>
          simp only [combFl, Fl.map_num, Fl.add_num, Option.some.injEq, Fl.num.injEq] at hd
          refine ⟨y, z, rfl, rfl, ?_⟩
          rw [abs_le]
          constructor <;> linarith

/-- C94: `2 * e` is the best bound for averages: for short target periods the error comes as close to it as you like. -/
theorem C94_sharp (d : ℚ) (h0 : 0 < d) (h1 : d ≤ 1 / 2) :
    ∃ r r' y z, convertNum .average .none [0, 1, 2, (3 : ℚ)] [0, d, 3] [0, 1, 0] = .ok r ∧
      convertNum .average .none [0, 1, 2, (3 : ℚ)] [0, d, 3] [1, 0, 1] = .ok r' ∧
      DiffIn (-1) 1 [0, 1, (0 : ℚ)] [1, 0, 1] ∧ r[0]? = some (.num y) ∧ r'[0]? = some (.num z) ∧ z - y = 2 - d := by
  have hs : ([0, 1, 2, (3 : ℚ)]).Pairwise (· < ·) := by decide +kernel
  have hr := C75_sharp d h0 h1
  obtain ⟨q, hq⟩ : ∃ q, convertNum .average .none [0, 1, 2, (3 : ℚ)] [0, d, 3] [1, 1, 1] = .ok q := by
    cases e : convertNum .average .none [0, 1, 2, (3 : ℚ)] [0, d, 3] [1, 1, 1] with
    | ok q => exact ⟨q, rfl⟩
    | error e' =>
      rw [(convertNum_err (vs := [1, 1, 1]) (ws := [0, 1, 0]) rfl e').1 e] at hr
      cases hr
  have hc := C25_average_constant .none _ _ 3 1 q (le_refl 3) rfl hs hq 0 (by simp) (by simpa using h0.ne')
  have := C28_linear .average (.inr rfl) .none _ _ [0, 1, 0] [1, 1, 1] (-1) 1 _ _ hs rfl hr hq
  have he : combList (-1) 1 [0, 1, 0] [1, 1, (1 : ℚ)] = [1, 0, 1] := by decide +kernel
  rw [he] at this
  refine ⟨_, _, _, 3 / 2 - d / 2, hr, this, ?_, rfl, ?_, ?_⟩
  · refine ⟨rfl, ?_⟩
    intro i v w hv hw
    match i, hv, hw with
    | 0, hv, hw => cases hv; cases hw; decide +kernel
    | 1, hv, hw => cases hv; cases hw; decide +kernel
    | 2, hv, hw => cases hv; cases hw; decide +kernel
  · rw [List.getElem?_zipWith, hc]
    simp only [List.getElem?_cons_zero, combFl, Fl.map_num, Fl.add_num, Option.some.injEq, Fl.num.injEq]
    ring
  · ring

/-- C94, "larger values give larger results" fails for averages. -/
theorem C94_order_average :
    convertNum .average .none [0, 1, 2, (3 : ℚ)] [0, 1 / 2, 1, 2, 3] [0, 0, 0]
      = .ok [.num 0, .num 0, .num 0, .num 0] ∧
    convertNum .average .none [0, 1, 2, (3 : ℚ)] [0, 1 / 2, 1, 2, 3] [0, 4, 0]
      = .ok [.num (-1), .num 1, .num 4, .num 0] := by
  decide +kernel

/-! ## Local changes -/

/-- The values two lists agree about. -/
def common (vs ws : List K) : List (Fl K) := List.zipWith (fun v w => if v = w then .num v else .nan) vs ws

theorem common_fills {vs ws : List K} (h : vs.length = ws.length) : Fills vs (common vs ws) ∧ Fills ws (common vs ws) := by
  unfold Fills common
  induction vs generalizing ws with
  | nil => cases ws with
    | nil => exact ⟨.nil, .nil⟩
    | cons => simp at h
  | cons v vs ih =>
    cases ws with
    | nil => simp at h
    | cons w ws =>
      obtain ⟨h1, h2⟩ := ih (ws := ws) (by simpa using h)
      rw [List.zipWith_cons_cons]
      by_cases e : v = w
      · rw [if_pos e]
        exact ⟨.cons (fun x hx => by injection hx) h1, .cons (fun x hx => by injection hx with hx; exact e ▸ hx) h2⟩
      · rw [if_neg e]
        exact ⟨.cons (fun x hx => nomatch hx) h1, .cons (fun x hx => nomatch hx) h2⟩

theorem common_num {vs ws : List K} {i : Nat} {x : K} (h1 : vs[i]? = some x) (h2 : ws[i]? = some x) :
    (common vs ws)[i]? = some (.num x) := by
  unfold common
  rw [List.getElem?_zipWith, h1, h2]
  simp

theorem convert_nums (ty : PType) (ext : Extrap) (src tgt vs : List K) :
    convert ty ext src tgt (vs.map .num) = convertNum ty ext src tgt vs := by
  unfold convert
  rw [Fl.allNum_map_num]

theorem common_converts {ty : PType} {ext : Extrap} {src tgt vs ws : List K} {r : List (Fl K)}
    (hl : vs.length = ws.length) (h : convertNum ty ext src tgt vs = .ok r) :
    ∃ g, convert ty ext src tgt (common vs ws) = .ok g := by
  cases hn : Fl.allNum (common vs ws) with
  | none =>
    rw [convert_fill (common_fills hl).1 hn, h]
    exact ⟨_, rfl⟩
  | some us =>
    have e := (Fills.all_num us hn).length_eq
    have e' := (common_fills hl).1.length_eq
    unfold convert
    rw [hn]
    dsimp only
    cases hu : convertNum ty ext src tgt us with
    | ok g => exact ⟨g, rfl⟩
    | error er =>
      rw [(convertNum_err (e.trans e'.symm) er).1 hu] at h
      cases h

/-- C94: the result at a time depends on the values at both ends of the stretch of the source in which it lies (the
first or last stretch, outside the source) and on no others. -/
theorem C94_local_point {ext : Extrap} {src tgt vs ws : List K} {r r' : List (Fl K)} (hsrc : src.Pairwise (· < ·))
    (hr : convertNum .point ext src tgt vs = .ok r) (hr' : convertNum .point ext src tgt ws = .ok r')
    {j i : Nat} {t a b : K} (ht : tgt[j]? = some t) (ha : src[i]? = some a) (hb : src[i + 1]? = some b)
    (h1 : i = 0 ∨ a < t) (h2 : i + 2 = src.length ∨ t ≤ b)
    (hv : vs[i]? = ws[i]?) (hv' : vs[i + 1]? = ws[i + 1]?) (hlen : vs.length = ws.length) : r[j]? = r'[j]? := by
  obtain ⟨g, hg⟩ := common_converts hlen hr
  have h3 : src.length = vs.length := by
    unfold convertNum at hr
    split at hr
    · cases hr
    · dsimp only at hr
      split at hr
      · cases hr
      · rename_i a b
        simpa using b
  obtain ⟨hi, rfl⟩ := List.getElem?_eq_some_iff.1 hb
  rw [List.getElem?_eq_getElem (by omega)] at ha
  injection ha with ha
  subst ha
  have k1 := List.getElem?_eq_getElem (l := vs) (i := i) (by omega)
  have k2 := List.getElem?_eq_getElem (l := vs) (i := i + 1) (by omega)
  obtain ⟨x, hx⟩ := C84_point_near hsrc hg ht hi h1 h2 (common_num k1 (hv ▸ k1)) (common_num k2 (hv' ▸ k2))
  obtain ⟨q, e1, e2⟩ := C84_sound hg hx (common_fills hlen).1
  obtain ⟨q', e1', e2'⟩ := C84_sound hg hx (common_fills hlen).2
  rw [convert_nums, hr] at e1
  rw [convert_nums, hr'] at e1'
  cases e1
  cases e1'
  rw [e2, e2']

/-- C94: the average over a target period depends on the averages of the source periods it has something of (the first
or last of them if it begins before or ends after the source), those next to them, and no others. -/
theorem C94_local_average {ext : Extrap} {src tgt vs ws : List K} {r r' : List (Fl K)} (hsrc : src.Pairwise (· < ·))
    (hr : convertNum .average ext src tgt vs = .ok r) (hr' : convertNum .average ext src tgt ws = .ok r')
    {j : Nat} {l u : K} (hl : tgt[j]? = some l) (hu : tgt[j + 1]? = some u) (hlu : l < u)
    (H : ∀ (p q : Nat) (a b : K), src[p]? = some a → src[p + 1]? = some b → (p = 0 ∨ a < u) →
      (p + 2 = src.length ∨ l < b) → q ≤ p + 1 → p ≤ q + 1 → vs[q]? = ws[q]?)
    (hlen : vs.length = ws.length) : r[j]? = r'[j]? := by
  obtain ⟨g, hg⟩ := common_converts hlen hr
  obtain ⟨x, hx⟩ := C84_average_near hsrc hg hl hu hlu (by
    intro p a b ha hb h1 h2 q hq hq1 hq2
    have e := H p q a b ha hb h1 h2 hq1 hq2
    have e' := (common_fills hlen).1.length_eq
    have k := List.getElem?_eq_getElem (l := vs) (i := q) (by omega)
    exact ⟨_, common_num k (e ▸ k)⟩)
  obtain ⟨q, e1, e2⟩ := C84_sound hg hx (common_fills hlen).1
  obtain ⟨q', e1', e2'⟩ := C84_sound hg hx (common_fills hlen).2
  rw [convert_nums, hr] at e1
  rw [convert_nums, hr'] at e1'
  cases e1
  cases e1'
  rw [e2, e2']

/-! ## Examples -/

/-- One value changed: results change next to it only, and by no more. -/
example :
    convertNum .point .constant [0, 1, 2, 3, (4 : ℚ)] [-1, 1 / 2, 1, 3 / 2, 7 / 2, 5] [1, 2, 3, 4, 5]
      = .ok [.num 1, .num (3 / 2), .num 2, .num (5 / 2), .num (9 / 2), .num 5] ∧
    convertNum .point .constant [0, 1, 2, 3, (4 : ℚ)] [-1, 1 / 2, 1, 3 / 2, 7 / 2, 5] [1, 3, 3, 4, 5]
      = .ok [.num 1, .num 2, .num 3, .num 3, .num (9 / 2), .num 5] := by
  decide +kernel

/-- Averages: changes reach one period further. -/
example :
    convertNum .average .none [0, 1, 2, 3, 4, (5 : ℚ)] [0, 1 / 2, 3 / 2, 3, 4, 9 / 2, 5] [1, 1, 1, 1, 1]
      = .ok [.num 1, .num 1, .num 1, .num 1, .num 1, .num 1] ∧
    (convertNum .average .none [0, 1, 2, 3, 4, (5 : ℚ)] [0, 1 / 2, 3 / 2, 3, 4, 9 / 2, 5] [3, 1, 1, 1, 1]).map
        (fun r => r.drop 3) = .ok [.num 1, .num 1, .num 1] := by
  decide +kernel

/-- `C94_local_average` used: a target period in the fourth period does not depend on the first two. -/
example {v w v' w' : ℚ} {r r' : List (Fl ℚ)}
    (hr : convertNum .average .none [0, 1, 2, 3, 4, (5 : ℚ)] [3, 7 / 2, 4] [v, w, 2, 3, 1] = .ok r)
    (hr' : convertNum .average .none [0, 1, 2, 3, 4, (5 : ℚ)] [3, 7 / 2, 4] [v', w', 2, 3, 1] = .ok r') :
    r[0]? = r'[0]? := by
  refine C94_local_average (by decide +kernel) hr hr' rfl rfl (by decide +kernel) ?_ rfl
  intro p q a b ha hb h1 h2 hq1 hq2
  have hp : p = 3 := by
    match p, ha, hb, h1, h2 with
    | 0, ha, hb, h1, h2 => cases ha; cases hb; exact absurd h2 (by decide +kernel)
    | 1, ha, hb, h1, h2 => cases ha; cases hb; exact absurd h2 (by decide +kernel)
    | 2, ha, hb, h1, h2 => cases ha; cases hb; exact absurd h2 (by decide +kernel)
    | 3, ha, hb, h1, h2 => rfl
    | 4, ha, hb, h1, h2 => cases ha; cases hb; exact absurd h1 (by decide +kernel)
    | n + 5, ha, hb, h1, h2 => simp at hb
  subst hp
  match q, hq1, hq2 with
  | 2, _, _ => rfl
  | 3, _, _ => rfl
  | 4, _, _ => rfl
  | n + 5, hq1, _ => omega

end Openscm
