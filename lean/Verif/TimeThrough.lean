import Verif.TimeRange

/-!
# C95: conversion in steps

The converter is `TimeseriesConverter`, `openscm/core/time.py:291-646` (`Time.lean`).
-/

set_option linter.unusedSectionVars false

namespace Openscm

variable {K : Type} [Field K] [LinearOrder K] [IsStrictOrderedRing K]

/-- All of `P` is on one side of `t`. -/
def OneSide (P : K → Prop) (t : K) : Prop := (∀ x, P x → x ≤ t) ∨ ∀ x, P x → t ≤ x

/-- Elements between others. -/
def Inner (l : List (K × K)) (t : K) : Prop := (∃ p ∈ l, p.1 = t) ∧ (∃ a ∈ l, a.1 < t) ∧ ∃ b ∈ l, t < b.1

theorem Inner.tail {p : K × K} {l : List (K × K)} {t : K} (h : Inner l t) : Inner (p :: l) t := by
  obtain ⟨⟨a, h1, h1'⟩, ⟨b, h2, h2'⟩, c, h3, h3'⟩ := h
  exact ⟨⟨a, by simp [h1], h1'⟩, ⟨b, by simp [h2], h2'⟩, c, by simp [h3], h3'⟩

/-- Where there is no bend the interpolant is a line. -/
theorem interp_piece {k : List (K × K)} (hi : Inc k) (h2 : 2 ≤ k.length) {P : K → Prop}
    (h : ∀ t, Inner k t → OneSide P t) : ∃ a b, ∀ x, P x → interp k x = a * x + b := by
  induction k with
  | nil => simp at h2
  | cons p k ih =>
    cases k with
    | nil => simp at h2
    | cons q k =>
      have hl : ∃ a b, ∀ x, line p q x = a * x + b :=
        ⟨(q.2 - p.2) / (q.1 - p.1), p.2 - (q.2 - p.2) / (q.1 - p.1) * p.1, fun x => by unfold line; ring⟩
      cases k with
      | nil =>
        obtain ⟨a, b, hab⟩ := hl
        exact ⟨a, b, fun x _ => hab x⟩
      | cons r k =>
        rcases h q.1 ⟨⟨q, by simp, rfl⟩, ⟨p, by simp, hi.lt (by simp)⟩, r, by simp, hi.tail.lt (by simp)⟩ with hq | hq
        · obtain ⟨a, b, hab⟩ := hl
          exact ⟨a, b, fun x hx => by rw [interp_first (hq x hx), hab]⟩
        · obtain ⟨a, b, hab⟩ := ih hi.tail (by simp) (fun t ht => h t ht.tail)
          exact ⟨a, b, fun x hx => by rw [interp_tail hi (by simp) (hq x hx), hab x hx]⟩

/-- The interpolant at `x` is a line through two points with no bend between them and `x`. -/
theorem interp_line {m : List (K × K)} (hi : Inc m) (h2 : 2 ≤ m.length) (x : K) :
    ∃ p ∈ m, ∃ q ∈ m, p.1 < q.1 ∧ interp m x = line p q x ∧
      ∀ t, Inner m t → (x ≤ t → p.1 ≤ t ∧ q.1 ≤ t) ∧ (t < x → t ≤ p.1 ∧ t ≤ q.1) := by
  induction m with
  | nil => simp at h2
  | cons p m ih =>
    cases m with
    | nil => simp at h2
    | cons q m =>
      have hpq : p.1 < q.1 := hi.lt (by simp)
      have hin : ∀ t, Inner (p :: q :: m) t → q.1 ≤ t := by
        rintro t ⟨⟨a, ha, rfl⟩, ⟨b, hb, hba⟩, -⟩
        rcases List.mem_cons.1 ha with rfl | ha
        · rcases List.mem_cons.1 hb with rfl | hb
          · exact absurd hba (lt_irrefl _)
          · exact absurd hba (hi.lt hb).not_gt
        · rcases List.mem_cons.1 ha with rfl | ha
          · exact le_rfl
          · exact (hi.tail.lt ha).le
      by_cases hx : x ≤ q.1
      · refine ⟨p, by simp, q, by simp, hpq, interp_first hx, fun t ht => ?_⟩
        have := hin t ht
        exact ⟨fun _ => ⟨by linarith, this⟩, fun h => absurd h (by rw [not_lt]; linarith)⟩
      · rw [not_le] at hx
        cases m with
        | nil =>
          refine ⟨p, by simp, q, by simp, hpq, rfl, ?_⟩
          rintro t ⟨⟨a, ha, rfl⟩, ⟨b, hb, hb'⟩, c, hc, hc'⟩
          simp only [List.mem_cons, List.not_mem_nil, or_false] at ha hb hc
          rcases ha with rfl | rfl <;> rcases hb with rfl | rfl <;> rcases hc with rfl | rfl <;>
            first | exact absurd hb' (lt_irrefl _) | exact absurd hc' (lt_irrefl _) | exact absurd (hb'.trans hc') (lt_irrefl _)
        | cons r m =>
          obtain ⟨p', hp', q', hq', hlt, he, hb⟩ := ih hi.tail (by simp)
          refine ⟨p', List.mem_cons_of_mem _ hp', q', List.mem_cons_of_mem _ hq', hlt, ?_, ?_⟩
          · rw [interp_tail hi (by simp) hx.le, he]
          · have hge : ∀ a ∈ q :: r :: m, q.1 ≤ a.1 := by
              intro a ha
              rcases List.mem_cons.1 ha with rfl | ha
              · exact le_rfl
              · exact (hi.tail.lt ha).le
            intro t ht
            rcases eq_or_lt_of_le (hin t ht) with rfl | hlt'
            · exact ⟨fun h => absurd hx (not_lt.2 h), fun _ => ⟨hge _ hp', hge _ hq'⟩⟩
            · refine hb t ?_
              obtain ⟨⟨a, ha, rfl⟩, -, c, hc, hc'⟩ := ht
              have : ∀ a ∈ p :: q :: r :: m, q.1 < a.1 → a ∈ q :: r :: m := by
                intro a ha hqa
                rcases List.mem_cons.1 ha with rfl | ha
                · exact absurd hqa hpq.not_gt
                · exact ha
              exact ⟨⟨a, this a ha hlt', rfl⟩, ⟨q, by simp, hlt'⟩, c, this c hc (hlt'.trans hc'), hc'⟩

/-- Interpolation of points of a function that is a line where they allow no bend. -/
theorem interp_samples {m : List (K × K)} (hi : Inc m) (h2 : 2 ≤ m.length) {g : K → K} (hg : ∀ p ∈ m, p.2 = g p.1)
    {Q : K → Prop} (hQ : ∀ p ∈ m, Q p.1)
    (h : ∀ P : K → Prop, (∀ x, P x → Q x) → (∀ t, Inner m t → OneSide P t) → ∃ a b, ∀ x, P x → g x = a * x + b)
    {x : K} (hx : Q x) : interp m x = g x := by
  obtain ⟨p, hp, q, hq, hlt, he, hb⟩ := interp_line hi h2 x
  obtain ⟨a, b, hab⟩ := h (fun z => Q z ∧ ∀ t, Inner m t → (x ≤ t → z ≤ t) ∧ (t < x → t ≤ z)) (fun z hz => hz.1) (by
    intro t ht
    rcases le_or_gt x t with h' | h'
    · exact .inl fun z hz => (hz.2 t ht).1 h'
    · exact .inr fun z hz => (hz.2 t ht).2 h')
  have e1 := hab p.1 ⟨hQ p hp, fun t ht => ⟨fun h => ((hb t ht).1 h).1, fun h => ((hb t ht).2 h).1⟩⟩
  have e2 := hab q.1 ⟨hQ q hq, fun t ht => ⟨fun h => ((hb t ht).1 h).2, fun h => ((hb t ht).2 h).2⟩⟩
  have e3 := hab x ⟨hx, fun t ht => ⟨id, le_of_lt⟩⟩
  rw [he, e3]
  rw [← hg p hp] at e1
  rw [← hg q hq] at e2
  exact line_affine hlt e1 e2

/-- The first and last points of a list. -/
theorem ends_mem {k : List (K × K)} (h : k ≠ []) : (∃ p ∈ k, p.1 = firstX k) ∧ ∃ p ∈ k, p.1 = lastX k := by
  constructor
  · cases k with
    | nil => exact absurd rfl h
    | cons p k => exact ⟨p, by simp, rfl⟩
  · obtain ⟨k, p, rfl⟩ := (List.eq_nil_or_concat k).resolve_left h
    refine ⟨p, by simp, ?_⟩
    simp [lastX]

theorem first_lt_last {k : List (K × K)} (hi : Inc k) (h2 : 2 ≤ k.length) : firstX k < lastX k := by
  match k, h2 with
  | p :: q :: k, _ => exact (hi.lt (by simp)).trans_le (hi.le_lastX (p := q) (by simp))

/-- The points of a continuous representation, interpolated as it is, represent the same. -/
theorem evalAt_through {ext : Extrap} {k m : List (K × K)} {lo hi lo' hi' : K} (hk : Inc k) (h2 : 2 ≤ k.length) (hm : Inc m)
    (hlo : ∀ p ∈ k, p.1 = firstX k → p.2 = lo) (hhi : ∀ p ∈ k, p.1 = lastX k → p.2 = hi)
    (hlo' : ∀ p ∈ m, p.1 = firstX m → p.2 = lo') (hhi' : ∀ p ∈ m, p.1 = lastX m → p.2 = hi')
    (hsub : ∀ p ∈ k, ∃ q ∈ m, q.1 = p.1) (hval : ∀ q ∈ m, evalAt ext lo hi k q.1 = .ok q.2) (x : K) :
    evalAt ext lo' hi' m x = evalAt ext lo hi k x := by
  have hkne : k ≠ [] := fun h => by rw [h] at h2; simp at h2
  obtain ⟨⟨p0, hp0, e0⟩, p1, hp1, e1⟩ := ends_mem hkne
  obtain ⟨q0, hq0, f0⟩ := hsub p0 hp0
  obtain ⟨q1, hq1, f1⟩ := hsub p1 hp1
  have h01 := first_lt_last hk h2
  have hmne : m ≠ [] := fun h => by rw [h] at hq0; simp at hq0
  obtain ⟨⟨m0, hm0, g0⟩, m1, hm1, g1⟩ := ends_mem hmne
  have le0 : firstX m ≤ firstX k := by rw [← e0, ← f0]; exact hm.firstX_le hq0
  have le1 : lastX k ≤ lastX m := by rw [← e1, ← f1]; exact hm.le_lastX hq1
  have hm2 : 2 ≤ m.length := by
    match m, hmne, hq0, hq1 with
    | [q], _, hq0, hq1 =>
      simp only [List.mem_singleton] at hq0 hq1
      rw [hq0] at f0
      rw [hq1] at f1
      rw [← e0, ← e1, ← f0, ← f1] at h01
      exact absurd h01 (lt_irrefl _)
    | _ :: _ :: _, _, _, _ => simp
  have hin : ∀ t, Inner k t → Inner m t := by
    rintro t ⟨⟨a, ha, rfl⟩, ⟨b, hb, hb'⟩, c, hc, hc'⟩
    obtain ⟨a', ha', ea⟩ := hsub a ha
    obtain ⟨b', hb1, eb⟩ := hsub b hb
    obtain ⟨c', hc1, ec⟩ := hsub c hc
    exact ⟨⟨a', ha', ea⟩, ⟨b', hb1, by rw [eb]; exact hb'⟩, c', hc1, by rw [ec]; exact hc'⟩
  have same : (∀ q ∈ m, q.2 = interp k q.1) → interp m x = interp k x := fun hg =>
    interp_samples hm hm2 hg (Q := fun _ => True) (fun _ _ => trivial)
      (fun P _ hP => interp_piece hk h2 fun t ht => hP t (hin t ht)) trivial
  have klo : interp k (firstX k) = lo := by
    rw [← e0, interp_knot hk hp0 h2]; exact hlo p0 hp0 e0
  have khi : interp k (lastX k) = hi := by
    rw [← e1, interp_knot hk hp1 h2]; exact hhi p1 hp1 e1
  cases ext with
  | none =>
    have hr : ∀ q ∈ m, ¬ (q.1 < firstX k ∨ lastX k < q.1) ∧ q.2 = interp k q.1 := by
      intro q hq
      have := hval q hq
      unfold evalAt at this
      dsimp only at this
      split at this
      · cases this
      · rename_i hn
        exact ⟨hn, (Except.ok.inj this).symm⟩
    have a0 : firstX m = firstX k := by
      refine le_antisymm le0 ?_
      have := (hr m0 hm0).1
      push Not at this
      rw [← g0]; exact this.1
    have a1 : lastX m = lastX k := by
      refine le_antisymm ?_ le1
      have := (hr m1 hm1).1
      push Not at this
      rw [← g1]; exact this.2
    unfold evalAt
    dsimp only
    rw [a0, a1, same fun q hq => (hr q hq).2]
  | linear =>
    unfold evalAt
    dsimp only
    rw [same fun q hq => ((Except.ok.inj (hval q hq)).symm)]
  | constant =>
    let g : K → K := fun z => if z < firstX k then lo else if lastX k < z then hi else interp k z
    have hg : ∀ z, evalAt .constant lo hi k z = .ok (g z) := by
      intro z
      unfold evalAt
      dsimp only [g]
      split
      · rfl
      · split <;> rfl
    have hgm : ∀ q ∈ m, q.2 = g q.1 := fun q hq => by
      have := hval q hq
      rw [hg] at this
      exact (Except.ok.inj this).symm
    have glo : ∀ z, z ≤ firstX k → g z = lo := by
      intro z hz
      rcases eq_or_lt_of_le hz with rfl | hz
      · dsimp only [g]
        rw [if_neg (lt_irrefl _), if_neg h01.not_gt, klo]
      · exact if_pos hz
    have ghi : ∀ z, lastX k ≤ z → g z = hi := by
      intro z hz
      have hn : ¬ z < firstX k := not_lt.2 (h01.le.trans hz)
      rcases eq_or_lt_of_le hz with rfl | hz
      · dsimp only [g]
        rw [if_neg hn, if_neg (lt_irrefl _), khi]
      · dsimp only [g]
        rw [if_neg hn, if_pos hz]
    have gin : ∀ z, firstX k ≤ z → z ≤ lastX k → g z = interp k z := by
      intro z h1 h2
      dsimp only [g]
      rw [if_neg (not_lt.2 h1), if_neg (not_lt.2 h2)]
    rw [hg]
    unfold evalAt
    dsimp only
    split
    · rename_i hx
      rw [glo x (hx.le.trans le0), ← hlo' m0 hm0 g0, hgm m0 hm0, g0, glo _ le0]
    · rename_i hx
      rw [not_lt] at hx
      split
      · rename_i hx'
        rw [ghi x (le1.trans hx'.le), ← hhi' m1 hm1 g1, hgm m1 hm1, g1, ghi _ le1]
      · rename_i hx'
        rw [not_lt] at hx'
        congr 1
        refine interp_samples hm hm2 hgm (Q := fun z => firstX m ≤ z ∧ z ≤ lastX m)
          (fun p hp => ⟨hm.firstX_le hp, hm.le_lastX hp⟩) ?_ ⟨hx, hx'⟩
        intro P hPQ hP
        have s0 : OneSide P (firstX k) := by
          rcases eq_or_lt_of_le le0 with e | hlt
          · exact .inr fun z hz => e ▸ (hPQ z hz).1
          · exact hP _ ⟨⟨q0, hq0, f0.trans e0⟩, ⟨m0, hm0, by rw [g0]; exact hlt⟩, q1, hq1, by rw [f1, e1]; exact h01⟩
        have s1 : OneSide P (lastX k) := by
          rcases eq_or_lt_of_le le1 with e | hlt
          · exact .inl fun z hz => by rw [e]; exact (hPQ z hz).2
          · exact hP _ ⟨⟨q1, hq1, f1.trans e1⟩, ⟨q0, hq0, by rw [f0, e0]; exact h01⟩, m1, hm1, by rw [g1]; exact hlt⟩
        rcases s0 with s0 | s0
        · exact ⟨0, lo, fun z hz => by rw [glo z (s0 z hz)]; ring⟩
        · rcases s1 with s1 | s1
          · obtain ⟨a, b, hab⟩ := interp_piece hk h2 fun t ht => hP t (hin t ht)
            exact ⟨a, b, fun z hz => by rw [gin z (s0 z hz) (s1 z hz), hab z hz]⟩
          · exact ⟨0, hi, fun z hz => by rw [ghi z (s1 z hz)]; ring⟩

theorem evalAll_congr {ext : Extrap} {k m : List (K × K)} {lo hi lo' hi' : K}
    (h : ∀ x, evalAt ext lo' hi' m x = evalAt ext lo hi k x) (tgt : List K) :
    evalAll ext lo' hi' m tgt = evalAll ext lo hi k tgt := by
  induction tgt with
  | nil => rfl
  | cons x tgt ih => unfold evalAll; rw [h, ih]

theorem zip_head_value {ts vs : List K} (hl : ts.length = vs.length) (hi : ts.Pairwise (· < ·)) :
    ∀ p ∈ ts.zip vs, p.1 = firstX (ts.zip vs) → p.2 = vs.headD 0 := by
  intro p hp he
  have hinc := zip_inc hl hi
  match ts, vs, hl with
  | t :: ts, v :: vs, _ =>
    rcases List.mem_cons.1 hp with rfl | hp
    · rfl
    · exact absurd he (hinc.lt hp).ne'

theorem zip_last_value {ts vs : List K} (hl : ts.length = vs.length) (hi : ts.Pairwise (· < ·)) :
    ∀ p ∈ ts.zip vs, p.1 = lastX (ts.zip vs) → p.2 = vs.getLastD 0 := by
  intro p hp he
  obtain ⟨i, h1, h2, rfl⟩ := mem_zip_exists hl hp
  dsimp only at he ⊢
  rw [lastX_zip hl (by omega)] at he
  have hi' : i = ts.length - 1 := by
    by_contra hne
    exact absurd he (List.pairwise_iff_getElem.1 hi i (ts.length - 1) _ _ (by omega)).ne
  subst hi'
  rw [List.getLastD_eq_getLast?, List.getLast?_eq_getElem?, List.getElem?_eq_getElem (by omega)]
  simp only [Option.getD_some, hl]

/-- C95: a point timeseries converted to time points that include its own and from these to any others is what it is
when it is converted to these at once, or the same error, whatever the extrapolation. -/
theorem C95_through {ext : Extrap} {src mid tgt vs : List K} {r : List (Fl K)} (hsrc : src.Pairwise (· < ·))
    (hmid : mid.Pairwise (· < ·)) (hsub : ∀ t ∈ src, t ∈ mid) (h : convertNum .point ext src mid vs = .ok r) :
    ∃ ys, r = ys.map .num ∧ convertNum .point ext mid tgt ys = convertNum .point ext src tgt vs := by
  obtain ⟨ys, rfl⟩ := C27_point_no_nan _ _ _ _ _ h
  refine ⟨ys, rfl, ?_⟩
  have h3 : 3 ≤ vs.length ∧ src.length = vs.length := by
    unfold convertNum at h
    split at h
    · cases h
    · dsimp only at h
      split at h
      · cases h
      · rename_i a b
        exact ⟨by omega, by simpa using b⟩
  have hlen : mid.length = ys.length := by
    have := convertNum_length h
    simpa [pointsLength, eq_comm] using this
  have hle := length_le_of_subset hsrc hsub
  rw [convertNum_point (by omega) hlen hmid, convertNum_point h3.1 h3.2 hsrc]
  have hv := convertNum_point_ok h3.1 h3.2 hsrc h
  congr 1
  refine evalAll_congr (evalAt_through (zip_inc h3.2 hsrc) (by rw [List.length_zip]; omega) (zip_inc hlen hmid)
    (zip_head_value h3.2 hsrc) (zip_last_value h3.2 hsrc) (zip_head_value hlen hmid) (zip_last_value hlen hmid) ?_ ?_) tgt
  · intro p hp
    obtain ⟨i, h1, h2, rfl⟩ := mem_zip_exists h3.2 hp
    obtain ⟨j, hj, e⟩ := List.getElem_of_mem (hsub _ (List.getElem_mem h1))
    exact ⟨_, mem_zip_getElem hlen j hj, e⟩
  · intro q hq
    obtain ⟨i, h1, h2, rfl⟩ := mem_zip_exists hlen hq
    obtain ⟨y, hy, e⟩ := evalAll_getElem hv i h1
    rw [List.getElem_map] at e
    injection e with e
    rw [e]
    exact hy

/-- C95 fails for averages: on finer periods they are other lines. -/
theorem C95_through_average :
    convertNum .average .none [0, 2, 4, (6 : ℚ)] [0, 1, 2, 4, 6] [0, 4, 0] = .ok [.num (-1), .num 1, .num 4, .num 0] ∧
    convertNum .average .none [0, 1, 2, 4, (6 : ℚ)] [1, 3 / 2, 6] [-1, 1, 4, 0]
      ≠ convertNum .average .none [0, 2, 4, (6 : ℚ)] [1, 3 / 2, 6] [0, 4, 0] := by
  decide +kernel

/-- The hypotheses of `C95_through` met. -/
example : convertNum .point .constant [0, 2, (4 : ℚ)] [-1, 0, 1, 2, 4, 5] [1, 3, 2]
      = .ok ([1, 1, 2, 3, 2, 2].map .num) ∧
    convertNum .point .constant [-1, 0, 1, 2, 4, (5 : ℚ)] [-3, -1 / 2, 1 / 2, 3, 9] [1, 1, 2, 3, 2, 2]
      = .ok [.num 1, .num 1, .num (3 / 2), .num (5 / 2), .num 2] ∧
    convertNum .point .constant [0, 2, (4 : ℚ)] [-3, -1 / 2, 1 / 2, 3, 9] [1, 3, 2]
      = .ok [.num 1, .num 1, .num (3 / 2), .num (5 / 2), .num 2] := by
  decide +kernel

end Openscm
