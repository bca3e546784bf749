import Verif.TimeTotal

/-!
# Timeseries with missing values: helper lemmas

Results that are not marked by `gaps` do not depend on the values that are missing.
-/

set_option linter.unusedSectionVars false

namespace Openscm
variable {K : Type} [Field K] [LinearOrder K] [IsStrictOrderedRing K]

/-! ## Values that agree where they are not missing -/

inductive Agree : List K → List K → List Bool → Prop
  | nil : Agree [] [] []
  | cons {v w : K} {m : Bool} {vs ws : List K} {ms : List Bool} :
      (m = false → v = w) → Agree vs ws ms → Agree (v :: vs) (w :: ws) (m :: ms)

theorem Agree.tail {vs ws : List K} {ms : List Bool} (h : Agree vs ws ms) : Agree vs.tail ws.tail ms.tail := by
  cases h with
  | nil => exact .nil
  | cons _ h => exact h

theorem Agree.dropLast {vs ws : List K} {ms : List Bool} (h : Agree vs ws ms) :
    Agree vs.dropLast ws.dropLast ms.dropLast := by
  induction h with
  | nil => exact .nil
  | cons h1 h2 ih =>
    cases h2 with
    | nil => exact .nil
    | cons h3 h4 => exact .cons h1 ih

theorem Agree.zipWith {f : K → K → K} {vs ws vs' ws' : List K} {ms ms' : List Bool} (h : Agree vs ws ms)
    (h' : Agree vs' ws' ms') :
    Agree (List.zipWith f vs vs') (List.zipWith f ws ws') (List.zipWith (fun a b => a || b) ms ms') := by
  induction h generalizing vs' ws' ms' with
  | nil => exact .nil
  | cons h1 h2 ih =>
    cases h' with
    | nil => exact .nil
    | cons h3 h4 =>
      refine .cons (fun hm => ?_) (ih h4)
      rw [Bool.or_eq_false_iff] at hm
      rw [h1 hm.1, h3 hm.2]

theorem Agree.zipWith₃ {f : K → K × K → K} {vs ws vs' ws' vs'' ws'' : List K} {ms ms' ms'' : List Bool}
    (h : Agree vs ws ms) (h' : Agree vs' ws' ms') (h'' : Agree vs'' ws'' ms'') :
    Agree (List.zipWith f vs (vs'.zip vs'')) (List.zipWith f ws (ws'.zip ws''))
      (List.zipWith (fun v (e : Bool × Bool) => v || e.1 || e.2) ms (ms'.zip ms'')) := by
  induction h generalizing vs' ws' ms' vs'' ws'' ms'' with
  | nil => exact .nil
  | cons h1 h2 ih =>
    cases h' with
    | nil => exact .nil
    | cons h3 h4 =>
      cases h'' with
      | nil => exact .nil
      | cons h5 h6 =>
        refine .cons (fun hm => ?_) (ih h4 h6)
        simp only [Bool.or_eq_false_iff] at hm
        rw [h1 hm.1.1, h3 hm.1.2, h5 hm.2]

theorem Agree.interleave {vs ws vs' ws' : List K} {ms ms' : List Bool} (h : Agree vs ws ms) (h' : Agree vs' ws' ms') :
    Agree (Openscm.interleave vs vs') (Openscm.interleave ws ws') (Openscm.interleave ms ms') := by
  induction h generalizing vs' ws' ms' with
  | nil => exact .nil
  | cons h1 h2 ih =>
    cases h' with
    | nil => exact .nil
    | cons h3 h4 => exact .cons h1 (.cons h3 (ih h4))

theorem Agree.append {vs ws vs' ws' : List K} {ms ms' : List Bool} (h : Agree vs ws ms) (h' : Agree vs' ws' ms') :
    Agree (vs ++ vs') (ws ++ ws') (ms ++ ms') := by
  induction h with
  | nil => exact h'
  | cons h1 _ ih => exact .cons h1 ih

theorem Agree.headD {vs ws : List K} {ms : List Bool} (h : Agree vs ws ms) (hm : ms.headD false = false) :
    vs.headD 0 = ws.headD 0 := by
  cases h with
  | nil => rfl
  | cons h1 _ => exact h1 hm

theorem Agree.getLastD {vs ws : List K} {ms : List Bool} (h : Agree vs ws ms) (hm : ms.getLastD false = false) :
    vs.getLastD 0 = ws.getLastD 0 := by
  induction h with
  | nil => rfl
  | cons h1 h2 ih =>
    cases h2 with
    | nil => exact h1 hm
    | cons h3 h4 => exact ih hm

theorem Agree.length {vs ws : List K} {ms : List Bool} (h : Agree vs ws ms) :
    vs.length = ws.length ∧ ms.length = vs.length := by
  induction h with
  | nil => exact ⟨rfl, rfl⟩
  | cons _ _ ih => simp [ih.1, ih.2]

theorem Agree.edges {vs ws : List K} {ms : List Bool} (h : Agree vs ws ms) :
    Agree (edgeValues vs) (edgeValues ws) (gapEdges ms) := h.tail.zipWith h.dropLast

theorem Agree.middles {vs ws : List K} {ms : List Bool} (h : Agree vs ws ms) :
    Agree (middleValues vs) (middleValues ws) (gapMiddles ms) :=
  h.tail.dropLast.zipWith₃ h.edges.dropLast h.edges.tail

theorem Agree.lin {vs ws : List K} {ms : List Bool} (h : Agree vs ws ms) :
    Agree (linValues vs) (linValues ws) (linGaps ms) := by
  refine .append (.interleave (.cons (fun hm => ?_) h.edges)
    (.cons h.headD (h.middles.append (.cons h.getLastD .nil)))) (.cons (fun hm => ?_) .nil)
  · rw [Bool.or_eq_false_iff] at hm
    rw [h.headD hm.1, h.edges.headD hm.2]
  · rw [Bool.or_eq_false_iff] at hm
    rw [h.getLastD hm.1, h.edges.getLastD hm.2]

/-! ## Knots that agree where they are not missing -/

inductive AgreeKnots : List (K × K) → List (K × K) → List (K × Bool) → Prop
  | nil : AgreeKnots [] [] []
  | cons {x v w : K} {m : Bool} {A B : List (K × K)} {M : List (K × Bool)} :
      (m = false → v = w) → AgreeKnots A B M → AgreeKnots ((x, v) :: A) ((x, w) :: B) ((x, m) :: M)

theorem Agree.zip {vs ws : List K} {ms : List Bool} (h : Agree vs ws ms) (src : List K) :
    AgreeKnots (src.zip vs) (src.zip ws) (src.zip ms) := by
  induction h generalizing src with
  | nil => simpa using AgreeKnots.nil
  | cons h1 _ ih =>
    cases src with
    | nil => exact .nil
    | cons x src => exact .cons h1 (ih src)

theorem AgreeKnots.insert {A B : List (K × K)} {M : List (K × Bool)} (h : AgreeKnots A B M) {x v w : K} {m : Bool}
    (h1 : m = false → v = w) :
    AgreeKnots (A.orderedInsert (fun a b => a.1 ≤ b.1) (x, v)) (B.orderedInsert (fun a b => a.1 ≤ b.1) (x, w))
      (M.orderedInsert (fun a b => a.1 ≤ b.1) (x, m)) := by
  induction h with
  | nil => exact .cons h1 .nil
  | @cons y v' w' m' A B M h2 h3 ih =>
    simp only [List.orderedInsert_cons]
    by_cases hx : x ≤ y
    · simp only [hx, if_true]
      exact .cons h1 (.cons h2 h3)
    · simp only [hx, if_false]
      exact .cons h2 ih

theorem AgreeKnots.sort {A B : List (K × K)} {M : List (K × Bool)} (h : AgreeKnots A B M) :
    AgreeKnots (sortKnots A) (sortKnots B) (sortKnots M) := by
  induction h with
  | nil => exact .nil
  | cons h1 _ ih => exact ih.insert h1

theorem AgreeKnots.fst {A B : List (K × K)} {M : List (K × Bool)} (h : AgreeKnots A B M) :
    A.map Prod.fst = M.map Prod.fst ∧ B.map Prod.fst = M.map Prod.fst := by
  induction h with
  | nil => exact ⟨rfl, rfl⟩
  | cons _ _ ih => simp [ih.1, ih.2]

theorem AgreeKnots.firstX {A B : List (K × K)} {M : List (K × Bool)} (h : AgreeKnots A B M) :
    Openscm.firstX A = Openscm.firstX M ∧ Openscm.firstX B = Openscm.firstX M := by
  unfold Openscm.firstX
  rw [h.fst.1, h.fst.2]
  exact ⟨rfl, rfl⟩

theorem AgreeKnots.lastX {A B : List (K × K)} {M : List (K × Bool)} (h : AgreeKnots A B M) :
    Openscm.lastX A = Openscm.lastX M ∧ Openscm.lastX B = Openscm.lastX M := by
  unfold Openscm.lastX
  rw [h.fst.1, h.fst.2]
  exact ⟨rfl, rfl⟩

/-! ## Points -/

theorem line_gap {x x' v w v' w' y : K} {m m' : Bool} (h : m = false → v = w)
    (h' : m' = false → v' = w') (hg : gapLine (x, m) (x', m') = false) :
    line (x, v) (x', v') y = line (x, w) (x', w') y := by
  unfold gapLine at hg
  rw [Bool.or_eq_false_iff] at hg
  rw [h hg.1, h' hg.2]

theorem interp_gap {A B : List (K × K)} {M : List (K × Bool)} (h : AgreeKnots A B M) (hi : Inc A) {y : K}
    (hg : gapInterp M y = false) : interp A y = interp B y := by
  induction h with
  | nil => rfl
  | @cons x v w m A B M h1 h2 ih =>
    cases h2 with
    | nil => exact h1 hg
    | @cons x' v' w' m' A B M h3 h4 =>
      cases h4 with
      | nil => exact line_gap h1 h3 hg
      | cons h5 h6 =>
        unfold interp
        unfold gapInterp at hg
        by_cases hy : y ≤ x'
        · rw [if_pos hy] at hg
          rw [if_pos hy, if_pos hy]
          exact line_gap h1 h3 hg
        · rw [if_neg hy] at hg
          rw [if_neg hy, if_neg hy]
          exact ih hi.tail hg

theorem evalAt_gap {ext : Extrap} {lo lo' hi hi' : K} {ml mh : Bool} {A B : List (K × K)} {M : List (K × Bool)}
    (h : AgreeKnots A B M) (hlo : ml = false → lo = lo') (hhi : mh = false → hi = hi') (hinc : Inc A) {y : K}
    (hg : gapAt ext ml mh M y = false) : evalAt ext lo hi A y = evalAt ext lo' hi' B y := by
  unfold evalAt
  rw [h.firstX.1, h.lastX.1, h.firstX.2, h.lastX.2]
  unfold gapAt at hg
  cases ext with
  | none =>
    dsimp only at hg ⊢
    rw [interp_gap h hinc hg]
  | linear =>
    dsimp only at hg ⊢
    rw [interp_gap h hinc hg]
  | constant =>
    dsimp only at hg ⊢
    by_cases h1 : y < Openscm.firstX M
    · rw [if_pos h1] at hg
      rw [if_pos h1, if_pos h1, hlo hg]
    · rw [if_neg h1] at hg
      rw [if_neg h1, if_neg h1]
      by_cases h2 : Openscm.lastX M < y
      · rw [if_pos h2] at hg
        rw [if_pos h2, if_pos h2, hhi hg]
      · rw [if_neg h2] at hg
        rw [if_neg h2, if_neg h2, interp_gap h hinc hg]

theorem evalAll_gap {ext : Extrap} {lo lo' hi hi' : K} {ml mh : Bool} {A B : List (K × K)} {M : List (K × Bool)}
    (h : AgreeKnots A B M) (hlo : ml = false → lo = lo') (hhi : mh = false → hi = hi') (hinc : Inc A) {tgt : List K}
    {r r' : List (Fl K)} (h1 : evalAll ext lo hi A tgt = .ok r) (h2 : evalAll ext lo' hi' B tgt = .ok r') :
    blank (tgt.map (gapAt ext ml mh M)) r = blank (tgt.map (gapAt ext ml mh M)) r' := by
  induction tgt generalizing r r' with
  | nil =>
    unfold evalAll at h1 h2
    cases h1
    cases h2
    rfl
  | cons x tgt ih =>
    unfold evalAll at h1 h2
    cases e1 : evalAt ext lo hi A x with
    | error e => rw [e1] at h1; cases h1
    | ok y =>
      cases e2 : evalAt ext lo' hi' B x with
      | error e => rw [e2] at h2; cases h2
      | ok y' =>
        rw [e1] at h1
        rw [e2] at h2
        dsimp only at h1 h2
        cases e3 : evalAll ext lo hi A tgt with
        | error e => rw [e3] at h1; cases h1
        | ok s =>
          cases e4 : evalAll ext lo' hi' B tgt with
          | error e => rw [e4] at h2; cases h2
          | ok s' =>
            rw [e3] at h1
            rw [e4] at h2
            cases h1
            cases h2
            have := ih e3 e4
            unfold blank at this ⊢
            rw [List.map_cons, List.zipWith_cons_cons, List.zipWith_cons_cons, this]
            congr 1
            cases hg : gapAt ext ml mh M x with
            | true => rfl
            | false =>
              rw [evalAt_gap h hlo hhi hinc hg, e2] at e1
              cases e1
              rfl

/-! ## Averages -/

theorem prim_gap {A B : List (K × K)} {M : List (K × Bool)} (h : AgreeKnots A B M) (hi : Inc A) {l u : K} (hlu : l < u)
    (hg : gapIn M l u = false) (hf : l < firstX M → (M.take 2).any Prod.snd = false)
    (hl : lastX M < u → (M.reverse.take 2).any Prod.snd = false) (h2 : 2 ≤ M.length) :
    prim A u - prim A l = prim B u - prim B l := by
  induction h generalizing l with
  | nil => simp at h2
  | @cons x v w m A B M h1 h2' ih =>
    cases h2' with
    | nil => simp at h2
    | @cons x' v' w' m' A B M h3 h4 =>
      have hlt : x < x' := hi.lt (q := (x', v')) (by simp)
      -- the first line, if it matters
      have hline : (m || m') = false → ∀ y, lineArea (x, v) (x', v') y = lineArea (x, w) (x', w') y := by
        intro hm y
        rw [Bool.or_eq_false_iff] at hm
        rw [h1 hm.1, h3 hm.2]
      have hB : Inc ((x, w) :: (x', w') :: B) := by
        have e := (AgreeKnots.cons (x := x) h1 (.cons (x := x') h3 h4)).fst
        unfold Inc at hi ⊢
        rw [e.2, ← e.1]
        exact hi
      simp only [gapIn, Bool.or_eq_false_iff, Bool.and_eq_false_iff, decide_eq_false_iff_not] at hg
      have hsame : (l < x' ∧ x < u) ∨ u ≤ x → (m || m') = false := by
        rintro (hc | hc)
        · rcases hg.1 with hg1 | hg1
          · rw [Bool.or_eq_false_iff]; exact hg1
          · exact absurd hc hg1
        · have : l < firstX ((x, m) :: (x', m') :: M) := lt_of_lt_of_le hlu hc
          have := hf this
          simpa using this
      cases h4 with
      | nil =>
        show lineArea (x, v) (x', v') u - lineArea (x, v) (x', v') l =
          lineArea (x, w) (x', w') u - lineArea (x, w) (x', w') l
        have hm : (m || m') = false := by
          by_cases hc : (l < x' ∧ x < u) ∨ u ≤ x
          · exact hsame hc
          · push Not at hc
            have hx : x' ≤ l := by
              by_contra hx
              exact absurd (hc.1 (not_le.1 hx)) (not_le.2 hc.2)
            have := hl (show lastX [(x, m), (x', m')] < u from lt_of_le_of_lt hx hlu)
            simp only [List.reverse_cons, List.reverse_nil, List.nil_append, List.cons_append, List.take_succ_cons,
              List.take_zero, List.any_cons, List.any_nil, Bool.or_false, Bool.or_eq_false_iff] at this
            rw [Bool.or_eq_false_iff]
            exact ⟨this.2, this.1⟩
        rw [hline hm, hline hm]
      | @cons x'' v'' w'' m'' A B M h5 h6 =>
        have hl' : lastX ((x', m') :: (x'', m'') :: M) < u →
            (((x', m') :: (x'', m'') :: M).reverse.take 2).any Prod.snd = false := by
          intro hlast
          have := hl hlast
          have e : (((x, m) :: (x', m') :: (x'', m'') :: M).reverse.take 2) =
              (((x', m') :: (x'', m'') :: M).reverse.take 2) := by
            rw [List.reverse_cons (a := (x, m)), List.take_append_of_le_length (by simp)]
          rwa [e] at this
        have hrest : ∀ {a : K}, a < u → x' ≤ a → gapIn ((x', m') :: (x'', m'') :: M) a u = false →
            prim ((x', v') :: (x'', v'') :: A) u - prim ((x', v') :: (x'', v'') :: A) a =
            prim ((x', w') :: (x'', w'') :: B) u - prim ((x', w') :: (x'', w'') :: B) a := by
          intro a ha hxa hga
          exact ih hi.tail ha hga (fun hc => absurd hxa (not_le.2 hc)) hl' (by simp)
        by_cases hu : u ≤ x'
        · have hm : (m || m') = false := by
            rcases lt_or_ge x u with hxu | hxu
            · exact hsame (.inl ⟨lt_of_lt_of_le hlu hu, hxu⟩)
            · exact hsame (.inr hxu)
          rw [prim_first (q := (x', v')) hu, prim_first (q := (x', v')) (hlu.le.trans hu),
            prim_first (q := (x', w')) hu, prim_first (q := (x', w')) (hlu.le.trans hu), hline hm, hline hm]
        · rw [not_le] at hu
          rw [prim_tail hi (by simp) (q := (x', v')) hu.le, prim_tail hB (by simp) (q := (x', w')) hu.le]
          rcases le_or_gt x' l with hxl | hxl
          · rw [prim_tail hi (by simp) (q := (x', v')) hxl, prim_tail hB (by simp) (q := (x', w')) hxl]
            have := hrest hlu hxl hg.2
            linear_combination this
          · have hm : (m || m') = false := hsame (.inl ⟨hxl, hlt.trans hu⟩)
            rw [prim_first (q := (x', v')) hxl.le, prim_first (q := (x', w')) hxl.le, hline hm, hline hm]
            have hmono : gapIn ((x', m') :: (x'', m'') :: M) x' u = false := by
              have := hg.2
              clear hrest hl hl' hf hsame ih hg
              revert this
              have hall : ∀ (L : List (K × Bool)), gapIn L l u = false → gapIn L x' u = false := by
                intro L
                induction L with
                | nil => intro _; rfl
                | cons p L ih =>
                  cases L with
                  | nil => intro _; rfl
                  | cons q L =>
                    intro hL
                    simp only [gapIn, Bool.or_eq_false_iff, Bool.and_eq_false_iff, decide_eq_false_iff_not] at hL ⊢
                    exact ⟨hL.1.imp_right fun hn hc => hn ⟨hxl.trans hc.1, hc.2⟩, ih hL.2⟩
              exact hall _
            have hr := hrest hu le_rfl hmono
            rw [prim_head (p := (x', v')) hi.tail, prim_head (p := (x', w')) hB.tail] at hr
            linear_combination hr

/-- The antiderivative with constant extrapolation, in one formula. -/
theorem primAt_constant {lo hi : K} {k : List (K × K)} (hk : Inc k) (hne : k ≠ []) (x : K) :
    primAt .constant lo hi k x =
      .ok (lo * min (x - firstX k) 0 + prim k (max (firstX k) (min x (lastX k))) + hi * max (x - lastX k) 0) := by
  obtain ⟨p, k', rfl⟩ := List.exists_cons_of_ne_nil hne
  have hp : prim (p :: k') (firstX (p :: k')) = 0 := prim_head hk
  have hfl : firstX (p :: k') ≤ lastX (p :: k') := hk.le_lastX (p := p) (by simp)
  unfold primAt
  dsimp only
  by_cases h1 : x < firstX (p :: k')
  · rw [if_pos h1, min_eq_left (h1.le.trans hfl), max_eq_left h1.le, hp, min_eq_left (sub_nonpos.2 h1.le),
      max_eq_right (sub_nonpos.2 (h1.le.trans hfl))]
    simp
  · rw [if_neg h1]
    rw [not_lt] at h1
    rw [min_eq_right (sub_nonneg.2 h1)]
    by_cases h2 : lastX (p :: k') < x
    · rw [if_pos h2, min_eq_right h2.le, max_eq_right hfl, max_eq_left (sub_nonneg.2 h2.le)]
      simp
    · rw [if_neg h2]
      rw [not_lt] at h2
      rw [min_eq_left h2, max_eq_right h1, max_eq_right (sub_nonpos.2 h2)]
      simp

theorem gapIn_mono {L : List (K × Bool)} {a b l u : K} (ha : ∀ p ∈ L, a < p.1 → l < p.1) (hb : ∀ p ∈ L, p.1 < b → p.1 < u)
    (h : gapIn L l u = false) : gapIn L a b = false := by
  induction L with
  | nil => rfl
  | cons p L ih =>
    cases L with
    | nil => rfl
    | cons q L =>
      simp only [gapIn, Bool.or_eq_false_iff, Bool.and_eq_false_iff, decide_eq_false_iff_not] at h ⊢
      exact ⟨h.1.imp_right fun hn hc => hn ⟨ha q (by simp) hc.1, hb p (by simp) hc.2⟩,
        ih (fun p hp => ha p (by simp [hp])) (fun p hp => hb p (by simp [hp])) h.2⟩

theorem AgreeKnots.inc {A B : List (K × K)} {M : List (K × Bool)} (h : AgreeKnots A B M) (hi : Inc A) : Inc B := by
  unfold Inc at *
  rw [h.fst.2, ← h.fst.1]
  exact hi

theorem AgreeKnots.length {A B : List (K × K)} {M : List (K × Bool)} (h : AgreeKnots A B M) :
    A.length = M.length ∧ B.length = M.length := by
  induction h with
  | nil => exact ⟨rfl, rfl⟩
  | cons _ _ ih => simp [ih.1, ih.2]

theorem AgreeKnots.bounds {A B : List (K × K)} {M : List (K × Bool)} (h : AgreeKnots A B M) (hi : Inc A) :
    ∀ p ∈ M, Openscm.firstX M ≤ p.1 ∧ p.1 ≤ Openscm.lastX M := by
  intro p hp
  have : p.1 ∈ A.map Prod.fst := by rw [h.fst.1]; exact List.mem_map_of_mem hp
  obtain ⟨q, hq, e⟩ := List.mem_map.1 this
  rw [← h.firstX.1, ← h.lastX.1, ← e]
  exact ⟨hi.firstX_le hq, hi.le_lastX hq⟩

/-- From below to above: the integral is the same. -/
theorem quad_gap_lt {ext : Extrap} {lo lo' hi hi' : K} {ml mh : Bool} {A B : List (K × K)} {M : List (K × Bool)}
    (h : AgreeKnots A B M) (hlo : ml = false → lo = lo') (hhi : mh = false → hi = hi') (hinc : Inc A)
    (h2 : 2 ≤ M.length) {l u a b a' b' : K} (hlu : l < u) (hg : gapQuad ext ml mh M l u = false)
    (e1 : primAt ext lo hi A l = .ok a) (e2 : primAt ext lo hi A u = .ok b) (e3 : primAt ext lo' hi' B l = .ok a')
    (e4 : primAt ext lo' hi' B u = .ok b') : b - a = b' - a' := by
  unfold gapQuad at hg
  rw [min_eq_left hlu.le, max_eq_right hlu.le, Bool.or_eq_false_iff] at hg
  have hAne : A ≠ [] := by
    rintro rfl
    have := h.length.1
    simp at this
    omega
  have hBne : B ≠ [] := by
    rintro rfl
    have := h.length.2
    simp at this
    omega
  cases ext with
  | none =>
    unfold primAt at e1 e2 e3 e4
    dsimp only at e1 e2 e3 e4
    split at e1
    · cases e1
    · split at e2
      · cases e2
      · split at e3
        · cases e3
        · split at e4
          · cases e4
          · rename_i k1 k2 _ _
            cases e1; cases e2; cases e3; cases e4
            push Not at k1 k2
            rw [h.firstX.1, h.lastX.1] at k1 k2
            exact prim_gap h hinc hlu hg.1 (fun hc => absurd k1.1 (not_le.2 hc)) (fun hc => absurd k2.2 (not_le.2 hc)) h2
  | linear =>
    unfold primAt at e1 e2 e3 e4
    cases e1; cases e2; cases e3; cases e4
    have hg2 := hg.2
    simp only [Bool.or_eq_false_iff, Bool.and_eq_false_iff, decide_eq_false_iff_not] at hg2
    exact prim_gap h hinc hlu hg.1 (fun hc => hg2.1.resolve_left (not_not.2 hc))
      (fun hc => hg2.2.resolve_left (not_not.2 hc)) h2
  | constant =>
    rw [primAt_constant hinc hAne] at e1 e2
    rw [primAt_constant (h.inc hinc) hBne] at e3 e4
    rw [h.firstX.1, h.lastX.1] at e1 e2
    rw [h.firstX.2, h.lastX.2] at e3 e4
    cases e1; cases e2; cases e3; cases e4
    have hg2 := hg.2
    simp only [Bool.or_eq_false_iff, Bool.and_eq_false_iff, decide_eq_false_iff_not] at hg2
    have hfl : firstX M ≤ lastX M := by
      obtain ⟨p, M', rfl⟩ := List.exists_cons_of_ne_nil (l := M) (by rintro rfl; simp at h2)
      exact (h.bounds hinc p (by simp)).1.trans (h.bounds hinc p (by simp)).2
    have k1 : lo * (min (u - firstX M) 0 - min (l - firstX M) 0) = lo' * (min (u - firstX M) 0 - min (l - firstX M) 0) := by
      rcases hg2.1 with hc | hc
      · rw [not_lt] at hc
        rw [min_eq_right (sub_nonneg.2 hc), min_eq_right (sub_nonneg.2 (hc.trans hlu.le))]
        simp
      · rw [hlo hc]
    have k2 : hi * (max (u - lastX M) 0 - max (l - lastX M) 0) = hi' * (max (u - lastX M) 0 - max (l - lastX M) 0) := by
      rcases hg2.2 with hc | hc
      · rw [not_lt] at hc
        rw [max_eq_right (sub_nonpos.2 hc), max_eq_right (sub_nonpos.2 (hlu.le.trans hc))]
        simp
      · rw [hhi hc]
    have k3 : prim A (max (firstX M) (min u (lastX M))) - prim A (max (firstX M) (min l (lastX M))) =
        prim B (max (firstX M) (min u (lastX M))) - prim B (max (firstX M) (min l (lastX M))) := by
      have hle : max (firstX M) (min l (lastX M)) ≤ max (firstX M) (min u (lastX M)) :=
        max_le_max le_rfl (min_le_min hlu.le le_rfl)
      rcases hle.eq_or_lt with he | hlt
      · rw [he]
        simp
      · refine prim_gap h hinc hlt ?_ (fun hc => absurd (le_max_left _ _) (not_le.2 hc))
          (fun hc => absurd (max_le hfl (min_le_right _ _)) (not_le.2 hc)) h2
        refine gapIn_mono (fun p hp hc => ?_) (fun p hp hc => ?_) hg.1
        · have hc' := lt_of_le_of_lt (le_max_right _ _) hc
          rcases min_lt_iff.1 hc' with hc' | hc'
          · exact hc'
          · exact absurd (h.bounds hinc p hp).2 (not_le.2 hc')
        · rcases lt_max_iff.1 hc with hc | hc
          · exact absurd (h.bounds hinc p hp).1 (not_le.2 hc)
          · exact lt_of_lt_of_le hc (min_le_left _ _)
    linear_combination k1 + k2 + k3

theorem average_gap {ext : Extrap} {lo lo' hi hi' : K} {ml mh : Bool} {A B : List (K × K)} {M : List (K × Bool)}
    (h : AgreeKnots A B M) (hlo : ml = false → lo = lo') (hhi : mh = false → hi = hi') (hinc : Inc A)
    (h2 : 2 ≤ M.length) {l u : K} {y y' : Fl K} (hg : gapQuad ext ml mh M l u = false)
    (h1 : intervalAverage ext lo hi A l u = .ok y) (h2 : intervalAverage ext lo' hi' B l u = .ok y') : y = y' := by
  unfold intervalAverage quad at h1 h2
  cases e1 : primAt ext lo hi A l with
  | error e => rw [e1] at h1; cases h1
  | ok a =>
    cases e2 : primAt ext lo hi A u with
    | error e => rw [e1, e2] at h1; cases h1
    | ok b =>
      cases e3 : primAt ext lo' hi' B l with
      | error e => rw [e3] at h2; cases h2
      | ok a' =>
        cases e4 : primAt ext lo' hi' B u with
        | error e => rw [e3, e4] at h2; cases h2
        | ok b' =>
          rw [e1, e2] at h1
          rw [e3, e4] at h2
          cases h1
          cases h2
          by_cases hul : u = l
          · rw [if_pos hul, if_pos hul]
          · rw [if_neg hul, if_neg hul]
            rename_i h2
            rcases lt_or_gt_of_ne hul with hlt | hlt
            · have hg' : gapQuad ext ml mh M u l = false := by
                unfold gapQuad at hg ⊢
                rw [min_comm, max_comm]
                exact hg
              have := quad_gap_lt h hlo hhi hinc h2 hlt hg' e2 e1 e4 e3
              rw [← neg_sub a b, ← neg_sub a' b', this]
            · rw [quad_gap_lt h hlo hhi hinc h2 hlt hg e1 e2 e3 e4]

theorem intervalAverages_gap {ext : Extrap} {lo lo' hi hi' : K} {ml mh : Bool} {A B : List (K × K)} {M : List (K × Bool)}
    (h : AgreeKnots A B M) (hlo : ml = false → lo = lo') (hhi : mh = false → hi = hi') (hinc : Inc A)
    (hlen : 2 ≤ M.length) {tgt : List K} {r r' : List (Fl K)} (h1 : intervalAverages ext lo hi A tgt = .ok r)
    (h2 : intervalAverages ext lo' hi' B tgt = .ok r') :
    blank (gapAverages ext ml mh M tgt) r = blank (gapAverages ext ml mh M tgt) r' := by
  induction tgt generalizing r r' with
  | nil => rfl
  | cons l tgt ih =>
    cases tgt with
    | nil => rfl
    | cons u tgt =>
      unfold intervalAverages at h1 h2
      cases e1 : intervalAverage ext lo hi A l u with
      | error e => rw [e1] at h1; cases h1
      | ok y =>
        cases e2 : intervalAverage ext lo' hi' B l u with
        | error e => rw [e2] at h2; cases h2
        | ok y' =>
          rw [e1] at h1
          rw [e2] at h2
          dsimp only at h1 h2
          cases e3 : intervalAverages ext lo hi A (u :: tgt) with
          | error e => rw [e3] at h1; cases h1
          | ok s =>
            cases e4 : intervalAverages ext lo' hi' B (u :: tgt) with
            | error e => rw [e4] at h2; cases h2
            | ok s' =>
              rw [e3] at h1
              rw [e4] at h2
              cases h1
              cases h2
              have := ih e3 e4
              unfold blank at this ⊢
              rw [gapAverages, List.zipWith_cons_cons, List.zipWith_cons_cons, this]
              congr 1
              cases hg : gapQuad ext ml mh M l u with
              | true => rfl
              | false =>
                rw [average_gap h hlo hhi hinc hlen hg e1 e2]

/-! ## Conversion -/

theorem convertNum_gap {ty : PType} {ext : Extrap} {src tgt vs ws : List K} {ms : List Bool} (h : Agree vs ws ms)
    {r r' : List (Fl K)} (h1 : convertNum ty ext src tgt vs = .ok r) (h2 : convertNum ty ext src tgt ws = .ok r') :
    blank (gaps ty ext src tgt ms) r = blank (gaps ty ext src tgt ms) r' := by
  have hok : ∀ {x : Except Err (List (Fl K))} {y : List (Fl K)}, toInsufficient x = .ok y → x = .ok y := by
    intro x y hx
    cases x with
    | error e => cases hx
    | ok z => exact hx
  unfold convertNum at h1 h2
  split at h1
  · cases h1
  · rename_i h3
    rw [not_lt] at h3
    rw [if_neg (by rw [← h.length.1]; omega)] at h2
    cases ty with
    | average =>
      dsimp only at h1 h2
      split at h1
      · cases h1
      · rename_i hsl
        rw [not_not] at hsl
        rw [if_neg (by rw [← h.length.1]; simpa using hsl)] at h2
        have hk := (h.lin.zip (linPoints src)).sort
        split at h1
        · rename_i hs
          split at h2
          · refine intervalAverages_gap hk h.headD h.getLastD ((strictInc_iff _).1 hs) ?_ (hok h1) (hok h2)
            rw [← hk.length.1]
            unfold sortKnots
            rw [List.length_insertionSort, List.length_zip]
            obtain ⟨t, src, rfl⟩ : ∃ t s, src = t :: s := List.exists_cons_of_length_pos (by omega)
            rw [length_linPoints, length_linValues (by omega)]
            simp only [List.length_cons] at hsl
            omega
          · cases h2
        · cases h1
    | point =>
      dsimp only at h1 h2
      split at h1
      · cases h1
      · rename_i hsl
        rw [not_not] at hsl
        rw [if_neg (by rw [← h.length.1]; simpa using hsl)] at h2
        have hk := (h.zip src).sort
        split at h1
        · rename_i hs
          split at h2
          · exact evalAll_gap hk h.headD h.getLastD ((strictInc_iff _).1 hs) (hok h1) (hok h2)
          · cases h2
        · cases h1
    | _ => cases h1

/-- Values that are not missing, with any numbers for the missing ones. -/
def Fills (ws : List K) (vals : List (Fl K)) : Prop := List.Forall₂ (fun w v => ∀ x, v = Fl.num x → w = x) ws vals

theorem Fills.agree {vs ws : List K} {vals : List (Fl K)} (h : Fills vs vals) (h' : Fills ws vals) :
    Agree vs ws (vals.map Fl.isNan) := by
  unfold Fills at h h'
  induction h generalizing ws with
  | nil =>
    cases h'
    exact .nil
  | @cons w v vs vals h1 h2 ih =>
    cases h' with
    | cons h3 h4 =>
      refine .cons (fun hm => ?_) (ih h4)
      cases v with
      | nan => cases hm
      | num x => rw [h1 x rfl, h3 x rfl]

theorem fills_orZero (vals : List (Fl K)) : Fills (vals.map Fl.orZero) vals := by
  unfold Fills
  rw [List.forall₂_map_left_iff, List.forall₂_same]
  rintro v - x rfl
  rfl

theorem blank_of_false {gs : List Bool} {r : List (Fl K)} (h : ∀ g ∈ gs, g = false) (hl : gs.length = r.length) :
    blank gs r = r := by
  unfold blank
  induction gs generalizing r with
  | nil => cases r with
    | nil => rfl
    | cons => simp at hl
  | cons g gs ih =>
    cases r with
    | nil => simp at hl
    | cons y r =>
      rw [List.zipWith_cons_cons, h g (by simp), ih (fun g hg => h g (by simp [hg])) (by simpa using hl)]
      rfl

/-- A conversion is that of any numbers for the missing values, without the results that would depend on them. -/
theorem convert_fill {ty : PType} {ext : Extrap} {src tgt ws : List K} {vals : List (Fl K)} (h : Fills ws vals)
    (hn : Fl.allNum vals = none) :
    convert ty ext src tgt vals =
      (convertNum ty ext src tgt ws).map (blank (gaps ty ext src tgt (vals.map Fl.isNan))) := by
  have hag := (fills_orZero vals).agree h
  have he := convertNum_err (ty := ty) (ext := ext) (src := src) (tgt := tgt) hag.length.1
  unfold convert
  rw [hn]
  dsimp only
  cases e1 : convertNum ty ext src tgt (vals.map Fl.orZero) with
  | error e => rw [(he e).1 e1]; rfl
  | ok r =>
    cases e2 : convertNum ty ext src tgt ws with
    | error e => rw [(he e).2 e2] at e1; cases e1
    | ok r' =>
      dsimp only [Except.map]
      rw [convertNum_gap hag e1 e2]

end Openscm
