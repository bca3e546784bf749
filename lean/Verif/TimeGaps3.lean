import Verif.TimeGaps2
import Mathlib.Tactic.Linarith
import Mathlib.Tactic.IntervalCases

/-!
# C84: missing values

A timeseries with NaN is converted (`TimeseriesConverter`, `openscm/core/time.py:291-646`).
-/

set_option linter.unusedSectionVars false

namespace Openscm
variable {K : Type} [Field K] [LinearOrder K] [IsStrictOrderedRing K]

/-! ## Results that depend on missing values -/

/-- Zero and one in place of missing values. -/
inductive Apart : List K → List K → List Bool → Prop
  | nil : Apart [] [] []
  | cons {v w : K} {m : Bool} {vs ws : List K} {ms : List Bool} :
      w - v = (if m then 1 else 0) → Apart vs ws ms → Apart (v :: vs) (w :: ws) (m :: ms)

inductive ApartKnots : List (K × K) → List (K × K) → List (K × Bool) → Prop
  | nil : ApartKnots [] [] []
  | cons {x v w : K} {m : Bool} {A B : List (K × K)} {M : List (K × Bool)} :
      w - v = (if m then 1 else 0) → ApartKnots A B M → ApartKnots ((x, v) :: A) ((x, w) :: B) ((x, m) :: M)

theorem apart_fills (vals : List (Fl K)) : Apart (vals.map Fl.orZero) (vals.map Fl.orOne) (vals.map Fl.isNan) := by
  induction vals with
  | nil => exact .nil
  | cons v vals ih =>
    refine .cons ?_ ih
    cases v with
    | nan => exact sub_zero _
    | num x => exact sub_self _

theorem Apart.zip {vs ws : List K} {ms : List Bool} (h : Apart vs ws ms) (src : List K) :
    ApartKnots (src.zip vs) (src.zip ws) (src.zip ms) := by
  induction h generalizing src with
  | nil => simpa using ApartKnots.nil
  | cons h1 _ ih =>
    cases src with
    | nil => exact .nil
    | cons x src => exact .cons h1 (ih src)

theorem Apart.headD {vs ws : List K} {ms : List Bool} (h : Apart vs ws ms) (hm : ms.headD false = true) :
    vs.headD 0 ≠ ws.headD 0 := by
  cases h with
  | nil => cases hm
  | cons h1 _ =>
    rw [List.headD_cons] at hm
    rw [if_pos hm] at h1
    intro hc
    rw [List.headD_cons, List.headD_cons] at hc
    rw [hc, sub_self] at h1
    exact zero_ne_one h1

theorem Apart.getLastD {vs ws : List K} {ms : List Bool} (h : Apart vs ws ms) (hm : ms.getLastD false = true) :
    vs.getLastD 0 ≠ ws.getLastD 0 := by
  induction h with
  | nil => cases hm
  | cons h1 h3 ih =>
    cases h3 with
    | nil => exact (Apart.cons h1 .nil).headD hm
    | cons h4 h6 => exact ih hm

theorem ApartKnots.agree {A B : List (K × K)} {M : List (K × Bool)} (h : ApartKnots A B M) : AgreeKnots A B M := by
  induction h with
  | nil => exact .nil
  | cons h1 _ ih =>
    refine .cons (fun hm => ?_) ih
    rw [hm] at h1
    exact (sub_eq_zero.1 h1).symm

theorem ApartKnots.insert {A B : List (K × K)} {M : List (K × Bool)} (h : ApartKnots A B M) {x v w : K} {m : Bool}
    (h1 : w - v = (if m then 1 else 0)) :
    ApartKnots (A.orderedInsert (fun a b => a.1 ≤ b.1) (x, v)) (B.orderedInsert (fun a b => a.1 ≤ b.1) (x, w))
      (M.orderedInsert (fun a b => a.1 ≤ b.1) (x, m)) := by
  induction h with
  | nil => exact .cons h1 .nil
  | @cons y v' w' m' A B M h2 h3 ih =>
    simp only [List.orderedInsert_cons]
    by_cases hx : x ≤ y
    · simp only [hx, if_true]
      exact .cons h1 (.cons h2 h3)
    · simp only [hx, if_false]
      exact .cons h2 ih

theorem ApartKnots.sort {A B : List (K × K)} {M : List (K × Bool)} (h : ApartKnots A B M) :
    ApartKnots (sortKnots A) (sortKnots B) (sortKnots M) := by
  induction h with
  | nil => exact .nil
  | cons h1 _ ih => exact ih.insert h1

theorem line_ne {x x' v w v' w' y : K} {m m' : Bool} (hx : x < x') (h : w - v = (if m then 1 else 0))
    (h' : w' - v' = (if m' then 1 else 0)) (hy : y ≠ x) (hy' : y ≠ x') (hg : gapLine (x, m) (x', m') = true) :
    line (x, v) (x', v') y ≠ line (x, w) (x', w') y := by
  unfold gapLine at hg
  have hne : x' - x ≠ 0 := (sub_pos.2 hx).ne'
  have e : line (x, w) (x', w') y - line (x, v) (x', v') y
      = (w - v) * ((x' - y) / (x' - x)) + (w' - v') * ((y - x) / (x' - x)) := by
    unfold line
    field_simp
    ring
  have c1 : (x' - y) / (x' - x) ≠ 0 := div_ne_zero (sub_ne_zero.2 hy'.symm) hne
  have c2 : (y - x) / (x' - x) ≠ 0 := div_ne_zero (sub_ne_zero.2 hy) hne
  have c3 : (x' - y) / (x' - x) + (y - x) / (x' - x) = 1 := by
    field_simp
    ring
  intro hc
  rw [hc, sub_self, h, h'] at e
  cases m <;> cases m' <;> simp only [Bool.false_eq_true, if_true, if_false, zero_mul, one_mul, zero_add, add_zero] at e
  · cases hg
  · exact c2 e.symm
  · exact c1 e.symm
  · rw [c3] at e
    exact zero_ne_one e

theorem interp_ne {A B : List (K × K)} {M : List (K × Bool)} (h : ApartKnots A B M) (hi : Inc A) {y : K}
    (hy : ∀ p ∈ M, y ≠ p.1) (hg : gapInterp M y = true) : interp A y ≠ interp B y := by
  induction h with
  | nil => cases hg
  | @cons x v w m A B M h1 h2 ih =>
    cases h2 with
    | nil =>
      have hm : m = true := hg
      intro hc
      have hc : v = w := hc
      rw [hc, sub_self, if_pos hm] at h1
      exact zero_ne_one h1
    | @cons x' v' w' m' A B M h3 h4 =>
      have hlt : x < x' := hi.lt (q := (x', v')) (by simp)
      have n1 : y ≠ x := hy (x, m) (by simp)
      have n2 : y ≠ x' := hy (x', m') (by simp)
      cases h4 with
      | nil => exact line_ne hlt h1 h3 n1 n2 hg
      | cons h5 h7 =>
        unfold interp
        unfold gapInterp at hg
        by_cases hy' : y ≤ x'
        · rw [if_pos hy'] at hg
          rw [if_pos hy', if_pos hy']
          exact line_ne hlt h1 h3 n1 n2 hg
        · rw [if_neg hy'] at hg
          rw [if_neg hy', if_neg hy']
          exact ih hi.tail (fun p hp => hy p (List.mem_cons_of_mem _ hp)) hg

theorem evalAt_ne {ext : Extrap} {lo lo' hi hi' : K} {ml mh : Bool} {A B : List (K × K)}
    {M : List (K × Bool)} (h : ApartKnots A B M) (hlo : ml = true → lo ≠ lo') (hhi : mh = true → hi ≠ hi') (hinc : Inc A)
    {y a b : K} (hy : ∀ p ∈ M, y ≠ p.1) (hg : gapAt ext ml mh M y = true) (e1 : evalAt ext lo hi A y = .ok a)
    (e2 : evalAt ext lo' hi' B y = .ok b) : a ≠ b := by
  have hag := h.agree
  unfold evalAt at e1 e2
  unfold gapAt at hg
  cases ext with
  | linear =>
    dsimp only at hg e1 e2
    cases e1; cases e2
    exact interp_ne h hinc hy hg
  | none =>
    dsimp only at hg e1 e2
    split at e1
    · cases e1
    · split at e2
      · cases e2
      · cases e1; cases e2
        exact interp_ne h hinc hy hg
  | constant =>
    dsimp only at hg e1 e2
    rw [hag.firstX.1, hag.lastX.1] at e1
    rw [hag.firstX.2, hag.lastX.2] at e2
    split at hg
    · rename_i hc
      rw [if_pos hc] at e1 e2
      cases e1; cases e2
      exact hlo hg
    · rename_i hc
      rw [if_neg hc] at e1 e2
      split at hg
      · rename_i hc
        rw [if_pos hc] at e1 e2
        cases e1; cases e2
        exact hhi hg
      · rename_i hc'
        rw [if_neg hc'] at e1 e2
        cases e1; cases e2
        exact interp_ne h hinc hy hg

theorem convertNum_point_knots {ext : Extrap} {src tgt vs : List K} {r : List (Fl K)}
    (h : convertNum .point ext src tgt vs = .ok r) :
    Inc (sortKnots (src.zip vs)) ∧ evalAll ext (vs.headD 0) (vs.getLastD 0) (sortKnots (src.zip vs)) tgt = .ok r := by
  unfold convertNum at h
  split at h
  · cases h
  · dsimp only at h
    split at h
    · cases h
    · split at h
      · rename_i hs
        refine ⟨(strictInc_iff _).1 hs, ?_⟩
        revert h
        cases evalAll ext (vs.headD 0) (vs.getLastD 0) (sortKnots (src.zip vs)) tgt <;> simp [toInsufficient]
      · cases h

theorem Fills.eq_of_num {ws vs : List K} {vals : List (Fl K)} (h : Fills ws vals) (hn : vals = vs.map .num) : ws = vs := by
  subst hn
  unfold Fills at h
  rw [List.forall₂_map_right_iff] at h
  induction h with
  | nil => rfl
  | cons h1 _ ih => rw [h1 _ rfl, ih]

theorem Fills.all_num {vals : List (Fl K)} (ws : List K) (hn : Fl.allNum vals = some ws) : Fills ws vals := by
  rw [Fl.allNum_eq_some.1 hn]
  unfold Fills
  rw [List.forall₂_map_right_iff, List.forall₂_same]
  rintro x - y h
  cases h
  rfl

/-! ## C84 -/

/-- **C84**: a result that is a number is that for whatever the missing values may have been: conversion works for any
numbers in their place, and has this result. -/
theorem C84_sound {ty : PType} {ext : Extrap} {src tgt : List K} {vals r : List (Fl K)}
    (h : convert ty ext src tgt vals = .ok r) {j : Nat} {x : K} (hx : r[j]? = some (.num x)) {ws : List K}
    (hw : Fills ws vals) : ∃ r', convert ty ext src tgt (ws.map .num) = .ok r' ∧ r'[j]? = some (.num x) := by
  cases hn : Fl.allNum vals with
  | some vs =>
    have e := Fl.allNum_eq_some.1 hn
    obtain rfl := hw.eq_of_num e
    rw [← e]
    exact ⟨r, h, hx⟩
  | none =>
    rw [convert_fill hw hn] at h
    unfold convert
    rw [Fl.allNum_map_num]
    dsimp only
    cases e : convertNum ty ext src tgt ws with
    | error e' => rw [e] at h; cases h
    | ok r' =>
      rw [e] at h
      cases h
      obtain ⟨g, z, -, hz, e⟩ := blank_getElem? hx
      refine ⟨r', rfl, hz.trans ?_⟩
      cases g with
      | true => cases e
      | false => exact congrArg some e.symm

/-- **C84** for point timeseries, at times other than those of the source: results are missing exactly if they depend on
what the missing values may have been. -/
theorem C84_point_partial {ext : Extrap} {src tgt : List K} {vals r : List (Fl K)}
    (h : convert .point ext src tgt vals = .ok r) {j : Nat} (hj : j < tgt.length) (ht : tgt[j] ∉ src) :
    r[j]? = some .nan ↔ ∃ ws ws' r1 r2, Fills ws vals ∧ Fills ws' vals ∧
      convert .point ext src tgt (ws.map .num) = .ok r1 ∧ convert .point ext src tgt (ws'.map .num) = .ok r2 ∧
      r1[j]? ≠ r2[j]? := by
  have hlen := C27_length _ _ _ _ _ _ h
  have hj' : j < r.length := by rw [hlen]; exact hj
  constructor
  · intro hr
    cases hn : Fl.allNum vals with
    | some vs =>
      exfalso
      unfold convert at h
      rw [hn] at h
      obtain ⟨ys, rfl⟩ := C27_point_no_nan _ _ _ _ _ h
      simp at hr
    | none =>
      have h0 := h
      have h1 := h
      rw [convert_fill (fills_orZero vals) hn] at h0
      rw [convert_fill (fills_orOne vals) hn] at h1
      cases e0 : convertNum .point ext src tgt (vals.map Fl.orZero) with
      | error e => rw [e0] at h0; cases h0
      | ok r0 =>
        cases e1 : convertNum .point ext src tgt (vals.map Fl.orOne) with
        | error e => rw [e1] at h1; cases h1
        | ok r1 =>
          rw [e0] at h0
          cases h0
          refine ⟨_, _, r0, r1, fills_orZero vals, fills_orOne vals, ?_, ?_, ?_⟩
          · unfold convert
            rw [Fl.allNum_map_num]
            exact e0
          · unfold convert
            rw [Fl.allNum_map_num]
            exact e1
          · obtain ⟨i0, k0⟩ := convertNum_point_knots e0
            obtain ⟨-, k1⟩ := convertNum_point_knots e1
            obtain ⟨y0, a0, b0⟩ := evalAll_getElem k0 j hj
            obtain ⟨y1, a1, b1⟩ := evalAll_getElem k1 j hj
            obtain ⟨g, z, hg, hz, e⟩ := blank_getElem? hr
            have hz' : z = .num y0 := by
              rw [List.getElem?_eq_getElem (by rw [evalAll_length k0]; exact hj), b0] at hz
              exact (Option.some.inj hz).symm
            have hg' : g = true := by
              cases g with
              | true => rfl
              | false => rw [hz'] at e; cases e
            subst hg'
            unfold gaps at hg
            rw [List.getElem?_map, List.getElem?_eq_getElem hj, Option.map_some, Option.some.injEq] at hg
            have hb := apart_fills vals
            have hsrc : ∀ p ∈ sortKnots (src.zip (vals.map Fl.isNan)), tgt[j] ≠ p.1 := by
              intro p hp hc
              have hp' := (List.perm_insertionSort _ _).mem_iff.1 hp
              exact ht (by rw [hc]; exact (List.of_mem_zip hp').1)
            have := evalAt_ne (hb.zip src).sort hb.headD hb.getLastD i0 hsrc hg a0 a1
            rw [List.getElem?_eq_getElem (by rw [evalAll_length k0]; exact hj), b0,
              List.getElem?_eq_getElem (by rw [evalAll_length k1]; exact hj), b1]
            intro hc
            injection hc with hc
            injection hc with hc
            exact this hc
  · rintro ⟨ws, ws', r1, r2, f1, f2, c1, c2, hne⟩
    rw [List.getElem?_eq_getElem hj']
    cases hr : r[j] with
    | nan => rfl
    | num x =>
      exfalso
      have hx : r[j]? = some (.num x) := by rw [List.getElem?_eq_getElem hj', hr]
      obtain ⟨s1, d1, q1⟩ := C84_sound h hx f1
      obtain ⟨s2, d2, q2⟩ := C84_sound h hx f2
      rw [c1] at d1
      rw [c2] at d2
      cases d1; cases d2
      exact hne (q1.trans q2.symm)

/-- A missing value is missed next to it, not elsewhere, but also at the next time point of the source. -/
example : convert .point .constant [0, 1, 2, (3 : ℚ)] [-1, 1/2, 1, 3/2, 2, 5/2, 3] [.num 0, .nan, .num 4, .num 6] =
    .ok [.num 0, .nan, .nan, .nan, .nan, .num 5, .num 6] := by decide +kernel

/-! ## Results that cannot be missing -/

theorem sortKnots_gaps {k : List (K × Bool)} (h : (k.map Prod.fst).Pairwise (· < ·)) : sortKnots k = k := by
  unfold sortKnots
  rw [List.pairwise_map] at h
  exact List.Pairwise.insertionSort_eq (h.imp (fun hab => le_of_lt hab))

/-- `gapInterp` picks the line around the time. -/
theorem gapInterp_near {src : List K} {ms : List Bool} (hl : src.length = ms.length)
    (hs : src.Pairwise (· < ·)) {i : Nat} (hi : i + 1 < src.length) {t : K} (h1 : i = 0 ∨ src[i] < t)
    (h2 : i + 2 = src.length ∨ t ≤ src[i + 1]) (hm : ms[i]? = some false) (hm' : ms[i + 1]? = some false) :
    gapInterp (src.zip ms) t = false := by
  induction i generalizing src ms with
  | zero =>
    match src, ms, hl with
    | x :: y :: src, m :: m' :: ms, hl =>
      simp only [List.getElem?_cons_zero, List.getElem?_cons_succ, Option.some.injEq, Nat.zero_add] at hm hm'
      subst hm hm'
      have hline : gapLine (x, false) (y, false) = false := rfl
      match src, ms, hl with
      | [], [], _ => exact hline
      | z :: src, m :: ms, _ =>
        rcases h2 with h2 | h2
        · simp at h2
        · exact (if_pos h2).trans hline
    | [x], _, _ => simp at hi
    | [], _, _ => simp at hi
  | succ i ih =>
    match src, ms, hl with
    | x :: y :: z :: src, m :: m' :: m'' :: ms, hl =>
      have hyt : y < t := by
        rcases h1 with h1 | h1
        · cases h1
        · refine lt_of_le_of_lt ?_ h1
          cases i with
          | zero => exact le_rfl
          | succ i =>
            refine ((List.pairwise_cons.1 (List.pairwise_cons.1 hs).2).1 _ ?_).le
            simp only [List.getElem_cons_succ]
            exact List.getElem_mem _
      refine (if_neg (not_le.2 hyt)).trans ?_
      refine ih (src := y :: z :: src) (ms := m' :: m'' :: ms) (by simpa using hl) (List.pairwise_cons.1 hs).2
        (by simpa using hi) ?_ ?_ (by simpa using hm) (by simpa using hm')
      · rcases h1 with h1 | h1
        · cases h1
        · exact Or.inr (by simpa using h1)
      · rcases h2 with h2 | h2
        · exact Or.inl (by simpa using h2)
        · exact Or.inr (by simpa using h2)
    | [x, y], _, _ => simp at hi
    | [x], _, _ => simp at hi
    | [], _, _ => simp at hi

/-- At a time point of the source, the line from the one before. -/
theorem gapInterp_next {src : List K} {ms : List Bool} (hl : src.length = ms.length)
    (hs : src.Pairwise (· < ·)) {i : Nat} (hi : i + 1 < src.length) (hm : ms[i]? = some true) :
    gapInterp (src.zip ms) src[i + 1] = true := by
  induction i generalizing src ms with
  | zero =>
    match src, ms, hl with
    | x :: y :: src, m :: m' :: ms, hl =>
      simp only [List.getElem?_cons_zero, Option.some.injEq] at hm
      subst hm
      match src, ms, hl with
      | [], [], _ => rfl
      | z :: src, m :: ms, _ => exact if_pos le_rfl
    | [x], _, _ => simp at hi
    | [], _, _ => simp at hi
  | succ i ih =>
    match src, ms, hl with
    | x :: y :: z :: src, m :: m' :: m'' :: ms, hl =>
      have hi' : i < (z :: src).length := by simpa using hi
      have hyt : y < (z :: src)[i] := (List.pairwise_cons.1 (List.pairwise_cons.1 hs).2).1 _ (List.getElem_mem _)
      refine (if_neg (not_le.2 hyt)).trans ?_
      exact ih (src := y :: z :: src) (ms := m' :: m'' :: ms) (by simpa using hl) (List.pairwise_cons.1 hs).2
        (by simpa using hi) (by simpa using hm)
    | [x, y], _, _ => simp at hi
    | [x], _, _ => simp at hi
    | [], _, _ => simp at hi

theorem isNan_of_num {vals : List (Fl K)} {i : Nat} {x : K} (h : vals[i]? = some (.num x)) :
    (vals.map Fl.isNan)[i]? = some false := by
  rw [List.getElem?_map, h]
  rfl

/-- **C84** for point timeseries, whatever the extrapolation: a result is there if the values at both ends of the stretch
of the source in which its time lies are (outside the source, the first or last stretch; a time point of the source
belongs to the stretch that ends with it). -/
theorem C84_point_near {ext : Extrap} {src tgt : List K} {vals r : List (Fl K)} (hs : src.Pairwise (· < ·))
    (h : convert .point ext src tgt vals = .ok r) {j : Nat} {t : K} (ht : tgt[j]? = some t) {i : Nat}
    (hi : i + 1 < src.length) (h1 : i = 0 ∨ src[i] < t) (h2 : i + 2 = src.length ∨ t ≤ src[i + 1]) {a b : K}
    (ha : vals[i]? = some (.num a)) (hb : vals[i + 1]? = some (.num b)) : ∃ x, r[j]? = some (.num x) := by
  obtain ⟨hj, rfl⟩ := List.getElem?_eq_some_iff.1 ht
  have hnum : ∀ {vs : List K} {r : List (Fl K)}, convertNum .point ext src tgt vs = .ok r → ∃ x, r[j]? = some (.num x) := by
    intro vs r hr
    obtain ⟨ys, rfl⟩ := C27_point_no_nan _ _ _ _ _ hr
    have := convertNum_length hr
    simp only [List.length_map, pointsLength] at this
    exact ⟨ys[j]'(by omega), by rw [List.getElem?_map, List.getElem?_eq_getElem (by omega)]; rfl⟩
  cases hn : Fl.allNum vals with
  | some vs =>
    unfold convert at h
    rw [hn] at h
    exact hnum h
  | none =>
    rw [convert_fill (fills_orZero vals) hn] at h
    cases e0 : convertNum .point ext src tgt (vals.map Fl.orZero) with
    | error e => rw [e0] at h; cases h
    | ok r0 =>
      rw [e0] at h
      cases h
      obtain ⟨x, hx⟩ := hnum e0
      refine ⟨x, ?_⟩
      have hl : src.length = vals.length := by
        by_contra hc
        have := C27_misfit .point (Or.inl rfl) ext src tgt vals (by simpa [pointsLength] using fun e => hc e.symm)
        rw [convert_fill (fills_orZero vals) hn, e0] at this
        cases this
      have hf : (src.zip (vals.map Fl.isNan)).map Prod.fst = src := by
        rw [List.map_fst_zip]
        simp [hl]
      have hgap : gapAt ext ((vals.map Fl.isNan).headD false) ((vals.map Fl.isNan).getLastD false)
          (sortKnots (src.zip (vals.map Fl.isNan))) tgt[j] = false := by
        rw [sortKnots_gaps (by rw [hf]; exact hs)]
        have hin := gapInterp_near (ms := vals.map Fl.isNan) (by simp [hl]) hs hi h1 h2
          (isNan_of_num ha) (isNan_of_num hb)
        unfold gapAt
        cases ext with
        | none => exact hin
        | linear => exact hin
        | constant =>
          dsimp only
          unfold firstX lastX
          rw [hf]
          have hsne : 0 < src.length := by omega
          have hhead : src.headD 0 = src[0] := by
            cases src with
            | nil => simp at hsne
            | cons => rfl
          have hlast : src.getLastD 0 = src[src.length - 1] := by
            rw [List.getLastD_eq_getLast?, List.getLast?_eq_getElem?, List.getElem?_eq_getElem (by omega)]
            rfl
          split
          · rename_i hc
            have : i = 0 := by
              rcases h1 with h1 | h1
              · exact h1
              · exfalso
                rw [hhead] at hc
                have : src[0] ≤ src[i] := by
                  rcases Nat.eq_zero_or_pos i with rfl | hp
                  · exact le_rfl
                  · exact (List.pairwise_iff_getElem.1 hs 0 i (by omega) (by omega) hp).le
                exact absurd (hc.trans_le this) (not_lt.2 h1.le)
            subst this
            rw [List.headD_eq_head?_getD, List.head?_eq_getElem?, isNan_of_num ha]
            rfl
          · split
            · rename_i hc
              have : i + 2 = src.length := by
                rcases h2 with h2 | h2
                · exact h2
                · exfalso
                  rw [hlast] at hc
                  have : src[i + 1] ≤ src[src.length - 1] := by
                    rcases Nat.eq_or_lt_of_le (show i + 1 ≤ src.length - 1 by omega) with he | hp
                    · simp only [he]; exact le_rfl
                    · exact (List.pairwise_iff_getElem.1 hs (i + 1) (src.length - 1) (by omega) (by omega) hp).le
                  exact absurd (h2.trans this) (not_le.2 hc)
              rw [List.getLastD_eq_getLast?, List.getLast?_eq_getElem?, List.length_map, ← hl,
                show src.length - 1 = i + 1 by omega, isNan_of_num hb]
              rfl
            · exact hin
      have hg : (gaps .point ext src tgt (vals.map Fl.isNan))[j]? = some false := by
        unfold gaps
        rw [List.getElem?_map, List.getElem?_eq_getElem hj]
        exact congrArg some hgap
      unfold blank
      rw [List.getElem?_zipWith_eq_some]
      exact ⟨_, _, hg, hx, rfl⟩

/-- The values of `C84_point_near` met. -/
example : ∃ x, (([.num 0, .nan, .nan, .nan, .nan, .num 5, .num 6] : List (Fl ℚ)))[5]? = some (.num x) :=
  C84_point_near (ext := .constant) (src := [0, 1, 2, (3 : ℚ)]) (tgt := [-1, 1/2, 1, 3/2, 2, 5/2, 3])
    (vals := [.num 0, .nan, .num 4, .num 6]) (by decide +kernel) (by decide +kernel) (j := 5) rfl (i := 2) (by simp)
    (Or.inr (by norm_num)) (Or.inl rfl) rfl rfl

/-- **C84** fails at the time points of the source: the value at the next one is lost, although it is known and the result
does not depend on any other. -/
theorem C84_lost {ext : Extrap} {src : List K} (hs : src.Pairwise (· < ·)) {vals : List (Fl K)} (h3 : 3 ≤ vals.length)
    (hl : src.length = vals.length) {i : Nat} (hi : i + 1 < src.length) (hm : vals[i]? = some .nan) :
    (∃ r, convert .point ext src src vals = .ok r ∧ r[i + 1]? = some .nan) ∧
    ∀ ws, Fills ws vals → convert .point ext src src (ws.map .num) = .ok (ws.map .num) := by
  have hown : ∀ ws, Fills ws vals → convertNum .point ext src src ws = .ok (ws.map .num) := by
    intro ws hw
    have : ws.length = vals.length := List.Forall₂.length_eq hw
    exact convertNum_own (Or.inl rfl) hs (by omega) (by rw [this, ← hl]; rfl)
  refine ⟨?_, fun ws hw => ?_⟩
  · have hn : Fl.allNum vals = none := by
      cases hc : Fl.allNum vals with
      | none => rfl
      | some vs =>
        rw [Fl.allNum_eq_some.1 hc, List.getElem?_map] at hm
        cases hv : vs[i]? with
        | none => rw [hv] at hm; cases hm
        | some v => rw [hv] at hm; cases hm
    refine ⟨_, by rw [convert_fill (fills_orZero vals) hn, hown _ (fills_orZero vals)]; rfl, ?_⟩
    unfold blank
    rw [List.getElem?_zipWith_eq_some]
    refine ⟨true, .num (vals[i + 1]'(by omega)).orZero, ?_, ?_, rfl⟩
    · unfold gaps
      rw [List.getElem?_map, List.getElem?_eq_getElem hi, Option.map_some, Option.some.injEq]
      have hf : (src.zip (vals.map Fl.isNan)).map Prod.fst = src := by
        rw [List.map_fst_zip]
        simp [hl]
      rw [sortKnots_gaps (by rw [hf]; exact hs)]
      have hin := gapInterp_next (src := src) (ms := vals.map Fl.isNan) (by simpa using hl) hs hi
        (by rw [List.getElem?_map, hm]; rfl)
      unfold gapAt
      cases ext with
      | none => exact hin
      | linear => exact hin
      | constant =>
        dsimp only
        unfold firstX lastX
        rw [hf, if_neg, if_neg]
        · exact hin
        · rw [List.getLastD_eq_getLast?, List.getLast?_eq_getElem?, List.getElem?_eq_getElem (by omega), Option.getD_some,
            not_lt]
          rcases Nat.eq_or_lt_of_le (show i + 1 ≤ src.length - 1 by omega) with he | hp
          · simp only [he]; exact le_rfl
          · exact (List.pairwise_iff_getElem.1 hs (i + 1) (src.length - 1) (by omega) (by omega) hp).le
        · rw [List.headD_eq_head?_getD, List.head?_eq_getElem?, List.getElem?_eq_getElem (by omega), Option.getD_some,
            not_lt]
          exact (List.pairwise_iff_getElem.1 hs 0 (i + 1) (by omega) (by omega) (by omega)).le
    · rw [List.getElem?_map, List.getElem?_map, List.getElem?_eq_getElem (by omega)]
      rfl
  · unfold convert
    rw [Fl.allNum_map_num]
    exact hown ws hw

/-- `C84_lost` met: the second value is missing, the third is known and lost. -/
example : (∃ r, convert .point .none [0, 1, 2, (3 : ℚ)] [0, 1, 2, 3] [.num 0, .nan, .num 4, .num 6] = .ok r ∧
    r[2]? = some .nan) :=
  (C84_lost (by decide +kernel) (by simp) (by simp) (i := 1) (by simp) rfl).1

/-! ## Averages -/

/-- Recursive form of `linGaps`. -/
def zigGaps : Bool → List Bool → List Bool
  | _, [] => []
  | a, [v] => [v || a, v, v || (v || a)]
  | a, v :: w :: r => (v || a) :: (v || (v || a) || (w || v)) :: zigGaps v (w :: r)

theorem gapEdges_cons (a b : Bool) (r : List Bool) : gapEdges (a :: b :: r) = (b || a) :: gapEdges (b :: r) := by
  cases r <;> simp [gapEdges, List.dropLast]

theorem gapMiddles_cons (a b c : Bool) (r : List Bool) :
    gapMiddles (a :: b :: c :: r) = (b || (b || a) || (c || b)) :: gapMiddles (b :: c :: r) := by
  unfold gapMiddles
  rw [gapEdges_cons, gapEdges_cons]
  cases r with
  | nil => simp [gapEdges]
  | cons d r => rw [gapEdges_cons]; simp [List.dropLast]

theorem interleave_zigGaps (a : Bool) (l : List Bool) (hl : l ≠ []) :
    interleave (gapEdges (a :: l)) (gapMiddles (a :: l) ++ [l.getLastD false]) ++
      [l.getLastD false || (gapEdges (a :: l)).getLastD false] = zigGaps a l := by
  induction l generalizing a with
  | nil => exact absurd rfl hl
  | cons v l ih =>
    cases l with
    | nil => simp [gapEdges, gapMiddles, interleave, zigGaps]
    | cons w r =>
      rw [gapEdges_cons, gapMiddles_cons]
      have := ih v (by simp)
      simp only [List.cons_append, interleave, zigGaps]
      rw [← this]
      have e1 : (v :: w :: r).getLastD false = (w :: r).getLastD false := by simp [List.getLastD]
      have e2 : ((v || a) :: gapEdges (v :: w :: r)).getLastD false = (gapEdges (v :: w :: r)).getLastD false := by
        rw [gapEdges_cons]; simp [List.getLastD]
      rw [e1, e2]

theorem linGaps_eq (a b : Bool) (r : List Bool) :
    linGaps (a :: b :: r) = (a || (b || a)) :: a :: zigGaps a (b :: r) := by
  have h := interleave_zigGaps a (b :: r) (by simp)
  have e1 : (a :: b :: r).getLastD false = (b :: r).getLastD false := by simp [List.getLastD]
  rw [← h]
  unfold linGaps
  simp only [e1, interleave, List.cons_append]
  rw [gapEdges_cons]
  simp

theorem length_zigGaps (a v : Bool) (r : List Bool) : (zigGaps a (v :: r)).length = 2 * r.length + 3 := by
  induction r generalizing a v with
  | nil => simp [zigGaps]
  | cons w r ih => simp only [zigGaps, List.length_cons, ih]; omega

/-- The periods the interval from `l` to `u` has something of. -/
def Touches (ts : List K) (l u : K) (p : Nat) : Prop := l < ts.getD (p + 1) 0 ∧ ts.getD p 0 < u

theorem half_lt {t t' : K} (h : t < t') : t < (t' + t) / 2 ∧ (t' + t) / 2 < t' := by
  constructor <;> linarith

theorem gapIn_period {t t' l u : K} (ht : t < t') {e m e' : Bool} {rest : List (K × Bool)}
    (h : l < t' ∧ t < u → e = false ∧ m = false ∧ e' = false) (hr : gapIn ((t', e') :: rest) l u = false) :
    gapIn ((t, e) :: ((t' + t) / 2, m) :: (t', e') :: rest) l u = false := by
  obtain ⟨h1, h2⟩ := half_lt ht
  have key : ∀ b : Bool, (l < t' ∧ t < u → b = false) → ∀ (P : Prop) [Decidable P], (P → l < t' ∧ t < u) →
      (b && decide P) = false := by
    intro b hb P _ hP
    by_cases hp : P
    · rw [hb (hP hp)]; rfl
    · rw [decide_eq_false hp]; exact Bool.and_false b
  rw [gapIn, gapIn, hr, key _ (fun hc => by rw [(h hc).1, (h hc).2.1]; rfl) _ fun hc => ⟨hc.1.trans h2, hc.2⟩,
    key _ (fun hc => by rw [(h hc).2.1, (h hc).2.2]; rfl) _ fun hc => ⟨hc.1, h1.trans hc.2⟩]
  rfl

theorem zigGaps_head (a v : Bool) (r : List Bool) : ∃ g, zigGaps a (v :: r) = (v || a) :: g := by
  cases r with
  | nil => exact ⟨_, rfl⟩
  | cons w r => exact ⟨_, rfl⟩

theorem gapIn_zig {l u : K} {a : Bool} {vs : List Bool} {ts : List K} (hl : ts.length = vs.length + 1) (hne : vs ≠ [])
    (hs : ts.Pairwise (· < ·)) (H : ∀ p, p < vs.length → Touches ts l u p →
      (a :: vs).getD p false = false ∧ vs.getD p false = false ∧ vs.getD (p + 1) false = false) :
    gapIn ((linPoints ts).zip (zigGaps a vs)) l u = false := by
  induction vs generalizing a ts with
  | nil => exact absurd rfl hne
  | cons v vs ih =>
    match ts, hl with
    | t :: t' :: ts, hl =>
      have ht : t < t' := (List.pairwise_cons.1 hs).1 _ (by simp)
      have H0 : l < t' ∧ t < u → a = false ∧ v = false ∧ vs.getD 0 false = false := fun hc => H 0 (by simp) hc
      cases vs with
      | nil =>
        match ts, hl with
        | [], _ =>
          refine gapIn_period ht (fun hc => ?_) rfl
          obtain ⟨rfl, rfl, -⟩ := H0 hc
          exact ⟨rfl, rfl, rfl⟩
      | cons w r =>
        have hr := ih (a := v) (ts := t' :: ts) (by simpa using hl) (by simp) (List.pairwise_cons.1 hs).2
          fun p hp hc => H (p + 1) (by simpa using hp) hc
        obtain ⟨g, hg⟩ := zigGaps_head v w r
        have hlp : ∃ q, linPoints (t' :: ts) = t' :: q := by
          cases ts with
          | nil => exact ⟨_, rfl⟩
          | cons => exact ⟨_, rfl⟩
        obtain ⟨q, hq⟩ := hlp
        rw [linPoints, zigGaps, hg, hq, List.zip_cons_cons, List.zip_cons_cons, List.zip_cons_cons]
        rw [hg, hq, List.zip_cons_cons] at hr
        refine gapIn_period ht (fun hc => ?_) hr
        obtain ⟨rfl, rfl, hw⟩ := H0 hc
        have hw : w = false := hw
        subst hw
        exact ⟨rfl, rfl, rfl⟩

theorem zig_last {a : Bool} {vs : List Bool} {ts : List K} (hl : ts.length = vs.length + 1) (hne : vs ≠ []) :
    (((linPoints ts).zip (zigGaps a vs)).reverse.take 2).any Prod.snd
      = ((a :: vs).getD (vs.length - 1) false || vs.getLastD false) := by
  induction vs generalizing a ts with
  | nil => exact absurd rfl hne
  | cons v vs ih =>
    match ts, hl with
    | t :: t' :: ts, hl =>
      cases vs with
      | nil =>
        match ts, hl with
        | [], _ =>
          simp only [linPoints, zigGaps]
          cases v <;> cases a <;> rfl
      | cons w r =>
        have hr := ih (a := v) (ts := t' :: ts) (by simpa using hl) (by simp)
        rw [linPoints, zigGaps, List.zip_cons_cons, List.zip_cons_cons, List.reverse_cons, List.reverse_cons,
          List.append_assoc, List.take_append_of_le_length, hr]
        · have e1 : (v :: w :: r).getLastD false = (w :: r).getLastD false := by simp [List.getLastD]
          rw [e1]
          rfl
        · rw [List.length_reverse, List.length_zip, length_zigGaps, length_linPoints]
          simp only [List.length_cons] at hl
          omega

theorem gapAverages_getElem? {ext : Extrap} {ml mh : Bool} {M : List (K × Bool)} {tgt : List K} {j : Nat}
    (hj : j + 1 < tgt.length) :
    (gapAverages ext ml mh M tgt)[j]? = some (gapQuad ext ml mh M tgt[j] tgt[j + 1]) := by
  induction tgt generalizing j with
  | nil => simp at hj
  | cons x tgt ih =>
    cases tgt with
    | nil => simp at hj
    | cons y tgt =>
      cases j with
      | zero => rfl
      | succ j => exact ih (j := j) (by simpa using hj)

/-- Averages that are there in, before and after a period. -/
def KnownAround (vals : List (Fl K)) (p : Nat) : Prop :=
  ∀ q, q < vals.length → q ≤ p + 1 → p ≤ q + 1 → ∃ x, vals[q]? = some (.num x)

/-- **C84** for averages: the average over a target period is there if those of all source periods it has something of
(the first or last of them if it begins before or ends after the source), and those next to them, are. -/
theorem C84_average_near {ext : Extrap} {src tgt : List K} {vals r : List (Fl K)} (hs : src.Pairwise (· < ·))
    (h : convert .average ext src tgt vals = .ok r) {j : Nat} {l u : K} (hl : tgt[j]? = some l)
    (hu : tgt[j + 1]? = some u) (hlu : l < u)
    (H : ∀ (p : Nat) (a b : K), src[p]? = some a → src[p + 1]? = some b → (p = 0 ∨ a < u) →
      (p + 2 = src.length ∨ l < b) → KnownAround vals p) : ∃ x, r[j]? = some (.num x) := by
  obtain ⟨hj, hu'⟩ := List.getElem?_eq_some_iff.1 hu
  have hl' : tgt[j] = l := by
    rw [List.getElem?_eq_getElem (by omega)] at hl
    exact Option.some.inj hl
  have hnum : ∀ {vs : List K} {r : List (Fl K)}, convertNum .average ext src tgt vs = .ok r →
      ∃ x, r[j]? = some (.num x) := by
    intro vs r hr
    have hr' : ∃ A, intervalAverages ext (vs.headD 0) (vs.getLastD 0) A tgt = .ok r := by
      unfold convertNum at hr
      split at hr
      · cases hr
      · dsimp only at hr
        split at hr
        · cases hr
        · split at hr
          · refine ⟨sortKnots ((linPoints src).zip (linValues vs)), ?_⟩
            revert hr
            cases intervalAverages ext (vs.headD 0) (vs.getLastD 0) (sortKnots ((linPoints src).zip (linValues vs))) tgt
              <;> simp [toInsufficient]
          · cases hr
    obtain ⟨A, hA⟩ := hr'
    have := intervalAverages_getElem hA j hj
    rw [hl', hu'] at this
    unfold intervalAverage at this
    cases hq : quad ext (vs.headD 0) (vs.getLastD 0) A l u with
    | error e => rw [hq] at this; cases this
    | ok y =>
      rw [hq] at this
      dsimp only at this
      rw [if_neg hlu.ne'] at this
      exact ⟨y / (u - l), by
        rw [List.getElem?_eq_getElem (by rw [intervalAverages_length hA]; omega), ← Except.ok.inj this]⟩
  cases hn : Fl.allNum vals with
  | some vs =>
    unfold convert at h
    rw [hn] at h
    exact hnum h
  | none =>
    have h3 : 3 ≤ vals.length := by
      by_contra hc
      rw [C27_short _ _ _ _ _ (by omega)] at h
      cases h
    have hlen : src.length = vals.length + 1 := by
      by_contra hc
      rw [C27_misfit .average (Or.inr rfl) ext src tgt vals (by simp only [pointsLength]; omega)] at h
      cases h
    rw [convert_fill (fills_orZero vals) hn] at h
    cases e0 : convertNum .average ext src tgt (vals.map Fl.orZero) with
    | error e => rw [e0] at h; cases h
    | ok r0 =>
      rw [e0] at h
      cases h
      obtain ⟨x, hx⟩ := hnum e0
      refine ⟨x, ?_⟩
      have hbal := bal_lin (vs := vals.map Fl.orZero) hs (by simpa using hlen) (by simp; omega)
      have hag := ((fills_orZero vals).agree (fills_orZero vals)).lin.zip (linPoints src)
      have hsorted := sortKnots_gaps (k := (linPoints src).zip (linGaps (vals.map Fl.isNan)))
        (by rw [← hag.fst.1]; exact hbal.inc)
      have known : ∀ p, p + 1 < src.length → (p = 0 ∨ src.getD p 0 < u) → (p + 2 = src.length ∨ l < src.getD (p + 1) 0) →
          ∀ q, q ≤ p + 1 → p ≤ q + 1 → (vals.map Fl.isNan).getD q false = false := by
        intro p hp h1 h2 q hq1 hq2
        rw [List.getD_eq_getElem?_getD, List.getElem?_eq_getElem (by omega), Option.getD_some] at h1 h2
        by_cases hq : q < vals.length
        · obtain ⟨y, hy⟩ := H p _ _ (List.getElem?_eq_getElem (by omega)) (List.getElem?_eq_getElem hp) h1 h2 q hq hq1 hq2
          rw [List.getD_eq_getElem?_getD, isNan_of_num hy]
          rfl
        · rw [List.getD_eq_getElem?_getD, List.getElem?_eq_none (by simpa using hq)]
          rfl
      have hgap : gapQuad ext ((vals.map Fl.isNan).headD false) ((vals.map Fl.isNan).getLastD false)
          ((linPoints src).zip (linGaps (vals.map Fl.isNan))) l u = false := by
        have hfirst : l < firstX ((linPoints src).zip (linGaps (vals.map Fl.isNan))) →
            ∀ q, q ≤ 1 → (vals.map Fl.isNan).getD q false = false := by
          intro hc q hq
          refine known 0 (by omega) (Or.inl rfl) (Or.inr ?_) q (by omega) (by omega)
          rw [← hag.firstX.1] at hc
          obtain ⟨e, he⟩ := hbal.mem src[1] (List.getElem_mem _)
          rw [List.getD_eq_getElem?_getD, List.getElem?_eq_getElem (by omega)]
          exact hc.trans_le (hbal.inc.firstX_le he)
        have hlast : lastX ((linPoints src).zip (linGaps (vals.map Fl.isNan))) < u →
            ∀ q, vals.length ≤ q + 2 → (vals.map Fl.isNan).getD q false = false := by
          intro hc q hq
          by_cases hq' : q < vals.length
          · refine known (vals.length - 1) (by omega) (Or.inr ?_) (Or.inl (by omega)) q (by omega) (by omega)
            rw [← hag.lastX.1] at hc
            obtain ⟨e, he⟩ := hbal.mem src[vals.length - 1] (List.getElem_mem _)
            rw [List.getD_eq_getElem?_getD, List.getElem?_eq_getElem (by omega)]
            exact (hbal.inc.le_lastX he).trans_lt hc
          · rw [List.getD_eq_getElem?_getD, List.getElem?_eq_none (by simpa using hq')]
            rfl
        have hinner : gapIn ((linPoints src).zip (linGaps (vals.map Fl.isNan))) l u = false := by
          have H' : ∀ p, p < vals.length → Touches src l u p → ∀ q, q ≤ p + 1 → p ≤ q + 1 →
              (vals.map Fl.isNan).getD q false = false :=
            fun p hp ht q h1 h2 => known p (by omega) (Or.inr ht.2) (Or.inr ht.1) q h1 h2
          clear known hag hbal hfirst hlast H hsorted e0
          have hlm : src.length = (vals.map Fl.isNan).length + 1 := by simpa using hlen
          have h3' : 3 ≤ (vals.map Fl.isNan).length := by simpa using h3
          rw [← List.length_map (f := Fl.isNan)] at H'
          generalize vals.map Fl.isNan = ms at *
          match ms, src, hlm, h3' with
          | a :: b :: ms, t :: t' :: ts, hlm, _ =>
            rw [linGaps_eq]
            have ht : t < t' := (List.pairwise_cons.1 hs).1 _ (by simp)
            have hr := gapIn_zig (a := a) (vs := b :: ms) (ts := t' :: ts) (l := l) (u := u) (by simpa using hlm)
              (by simp) (List.pairwise_cons.1 hs).2 fun p hp hc =>
                ⟨H' (p + 1) (by simpa using hp) hc p (by omega) (by omega),
                  H' (p + 1) (by simpa using hp) hc (p + 1) (by omega) (by omega),
                  H' (p + 1) (by simpa using hp) hc (p + 2) (by omega) (by omega)⟩
            obtain ⟨g, hg⟩ := zigGaps_head a b ms
            have hlp : ∃ q, linPoints (t' :: ts) = t' :: q := by
              cases ts with
              | nil => exact ⟨_, rfl⟩
              | cons => exact ⟨_, rfl⟩
            obtain ⟨q, hq⟩ := hlp
            rw [linPoints, hg, hq, List.zip_cons_cons, List.zip_cons_cons, List.zip_cons_cons]
            rw [hg, hq, List.zip_cons_cons] at hr
            refine gapIn_period ht (fun hc => ?_) hr
            have k0 : a = false := H' 0 (by simp) hc 0 (by omega) (by omega)
            have k1 : b = false := H' 0 (by simp) hc 1 (by omega) (by omega)
            subst k0 k1
            exact ⟨rfl, rfl, rfl⟩
        unfold gapQuad
        rw [min_eq_left hlu.le, max_eq_right hlu.le, hinner, Bool.false_or]
        clear known hag hbal hinner H hsorted e0
        have hlm : src.length = (vals.map Fl.isNan).length + 1 := by simpa using hlen
        have h3' : 3 ≤ (vals.map Fl.isNan).length := by simpa using h3
        rw [← List.length_map (f := Fl.isNan)] at hlast
        generalize vals.map Fl.isNan = ms at *
        have hgl : lastX ((linPoints src).zip (linGaps ms)) < u → ms.getLastD false = false := by
          intro hc
          rw [List.getLastD_eq_getLast?, List.getLast?_eq_getElem?, ← List.getD_eq_getElem?_getD]
          exact hlast hc _ (by omega)
        have hhd : l < firstX ((linPoints src).zip (linGaps ms)) → ms.headD false = false := by
          intro hc
          rw [List.headD_eq_head?_getD, List.head?_eq_getElem?, ← List.getD_eq_getElem?_getD]
          exact hfirst hc 0 (by omega)
        cases ext with
        | none => rfl
        | constant =>
          simp only [Bool.or_eq_false_iff, Bool.and_eq_false_iff, decide_eq_false_iff_not]
          exact ⟨(em _).symm.imp_right hhd, (em _).symm.imp_right hgl⟩
        | linear =>
          simp only [Bool.or_eq_false_iff, Bool.and_eq_false_iff, decide_eq_false_iff_not]
          refine ⟨(em _).symm.imp_right fun hc => ?_, (em _).symm.imp_right fun hc => ?_⟩
          · match ms, src, hlm, h3' with
            | a :: b :: ms, t :: t' :: ts, hlm, _ =>
              have k0 : a = false := hfirst hc 0 (by omega)
              have k1 : b = false := hfirst hc 1 (by omega)
              subst k0 k1
              rw [linGaps_eq, linPoints, List.zip_cons_cons, List.zip_cons_cons]
              rfl
          · match ms, src, hlm, h3' with
            | a :: b :: ms, t :: t' :: ts, hlm, h3' =>
              have k0 := hgl hc
              have k1 := hlast hc ms.length (by simp only [List.length_cons]; omega)
              have e1 : (a :: b :: ms).getLastD false = (b :: ms).getLastD false := by simp [List.getLastD]
              have := zig_last (a := a) (vs := b :: ms) (ts := t' :: ts) (by simpa using hlm) (by simp)
              rw [linGaps_eq, linPoints, List.zip_cons_cons, List.zip_cons_cons, List.reverse_cons, List.reverse_cons,
                List.append_assoc, List.take_append_of_le_length, this, ← e1, k0]
              · exact (Bool.or_false _).trans k1
              · rw [List.length_reverse, List.length_zip, length_zigGaps, length_linPoints]
                simp only [List.length_cons] at hlm
                omega
      have hg : (gaps .average ext src tgt (vals.map Fl.isNan))[j]? = some false := by
        unfold gaps
        rw [hsorted]
        dsimp only
        rw [gapAverages_getElem? hj, hl', hu', hgap]
      unfold blank
      rw [List.getElem?_zipWith_eq_some]
      exact ⟨_, _, hg, hx, rfl⟩

/-- Averages of six periods, one of them missing, over the same periods, halves and beyond: the averages over periods
next to a missing one are missing, others are there. -/
example : convert .average .linear [0, 1, 2, 3, 4, 5, (6 : ℚ)] [0, 1, 2, 3, 7/2, 4, 5, 7]
    [.num 0, .nan, .num 4, .num 6, .num 6, .num 7] =
    .ok [.nan, .nan, .nan, .num (23/4), .num (25/4), .num 6, .num (15/2)] := by decide +kernel

/-- The periods of `C84_average_near` met: the half period from 3 to 7/2, which lies in the fourth period. -/
example : ∃ x, (([.nan, .nan, .nan, .num (23/4), .num (25/4), .num 6, .num (15/2)] : List (Fl ℚ)))[3]? = some (.num x) :=
  C84_average_near (ext := .linear) (src := [0, 1, 2, 3, 4, 5, (6 : ℚ)]) (tgt := [0, 1, 2, 3, 7/2, 4, 5, 7])
    (vals := [.num 0, .nan, .num 4, .num 6, .num 6, .num 7]) (by decide +kernel) (by decide +kernel) (j := 3) (l := 3)
    (u := 7/2) rfl rfl (by norm_num) (by
      intro p a b ha hb h1 h2
      have hp : p < 6 := by
        have := (List.getElem?_eq_some_iff.1 hb).1
        simp only [List.length_cons, List.length_nil] at this
        omega
      have hp3 : p = 3 := by
        interval_cases p <;> simp at ha hb h1 h2 <;> subst ha hb <;> first | rfl | (exfalso; norm_num at h1; done) | (exfalso; norm_num at h2)
      subst hp3
      intro q hq h1 h2
      simp only [List.length_cons, List.length_nil] at hq
      have : q = 2 ∨ q = 3 ∨ q = 4 := by omega
      rcases this with rfl | rfl | rfl <;> exact ⟨_, rfl⟩)

end Openscm
