import Verif.TimeGaps2
import Verif.DiceSpec
import Verif.DiceRun

/-!
# The DICE adapter: runs and steps

Helper file.
-/

set_option linter.unusedSectionVars false

namespace Openscm
variable {K : Type} [Field K] [LinearOrder K] [IsStrictOrderedRing K]

/-- `n` calls of `step()` in a row, all of which succeed. -/
def Stepped (E : DEnv K) : Nat → Dice K → Dice K → Prop
  | 0, d, d' => d' = d
  | n + 1, d, d' => ∃ t d1, dcall E .step d = (.ok (.time t), d1) ∧ Stepped E n d1 d'

/-- The program went `n` steps into scenario `W`: by stepping, or by a whole run. -/
def Went (E : DEnv K) (d d' : Dice K) (W : Scenario K) (n : Nat) : Prop :=
  (∃ junk d0, dcall E (.resetStepping junk) d = (.ok .done, d0) ∧ Stepped E n d0 d') ∨
  (∃ junk, dcall E (.run junk) d = (.ok .done, d') ∧ n = W.steps)

theorem step_calc {E : DEnv K} {d d1 : Dice K} {r : DOut K} (h : dcall E .step d = (.ok r, d1)) :
    calcStep E d = (.ok (), d1) ∧ r = .time d1.current := by
  obtain ⟨t, d2, a1, g1⟩ := DM.bind_inv h
  obtain ⟨_, d3, a2, g2⟩ := DM.bind_inv a1
  obtain ⟨e1, r1⟩ := DM.gets_inv g2
  obtain ⟨e2, r2⟩ := DM.pure_inv g1
  subst r1
  subst r2
  exact ⟨a2, by rw [e2, e1]⟩

theorem stepped_steps {E : DEnv K} : ∀ (n : Nat) {d d' : Dice K}, Stepped E n d d' → steps E n d = (.ok (), d')
  | 0, d, d', h => by
    have h : d' = d := h
    rw [h]; rfl
  | n + 1, d, d', ⟨t, d1, h1, h2⟩ => by
    show (calcStep E >>= fun _ => steps E n) d = _
    rw [DM.bind_ok (step_calc h1).1]
    exact stepped_steps n h2

theorem Progress.more {E : DEnv K} {d d1 d' : Dice K} {W : Scenario K} {n m : Nat} {L L' : Series K}
    (h : Progress E d d1 W n L) (hl : Lives E d' (fun _ => false) L') (hc : Ctl E d1 d') (hr : Ran E d1 d' m L L') :
    Progress E d d' W (n + m) L' := by
  have hem : emis E d' = emis E d1 := congrArg DiceInputs.emissions hc.inputs
  have hknown : m ≠ 0 → n + m ≤ (emis E d1).length := by
    intro hm
    have := hr.known hm
    rw [h.timestep] at this
    exact this
  have hcol : ∀ j, j ≤ n → col L' j = col L j := by
    intro j hj
    funext o
    unfold col
    rw [List.getD_eq_getElem?_getD, List.getD_eq_getElem?_getD, hr.rest o j (.inl (by rw [h.timestep]; exact hj))]
  have hcf : coefsOf d' = coefsOf d1 := hc.coefs
  refine ⟨hl, ?_, by rw [hem]; exact h.emissions, h.ready.same hc.same, by rw [hc.initialized]; exact h.initialized,
    by rw [hcf]; exact h.coefs, by rw [hcol 0 (Nat.zero_le _)]; exact h.start, ?_, ?_, ?_, ?_, by rw [hc.count]; exact h.count,
    by rw [hr.timestep, h.timestep], ?_, h.nonzero, h.forward, ?_, fun o => by rw [hc.stat o]; exact h.written o, ?_,
    by rw [hc.attrs, hcf]; exact h.attrs, fun n => by rw [hc.same.sval]; exact h.svals n,
    by simp only [hc.same.gval]; exact h.gvals, h.begun, h.pext.trans hc.frame.pext,
    hc.frame.regions.trans h.regions, h.typed, fun a ha => hem.trans (h.reads a ha),
    hem.trans h.emisAt⟩
  · rw [hc.inputs, h.inputs, hem]
  · rw [hcf]
    intro j hj
    by_cases hjn : j < n
    · have := h.traj j hjn
      rw [hcol _ (by omega), hcol _ (by omega)]
      exact this
    · have hm : m ≠ 0 := by omega
      have := hr.traj (j - n) (by omega)
      rw [h.timestep] at this
      have hin : inputsOf E d1 = W.toDiceInputs := by
        rw [h.inputs, h.emissions (by
          intro hnil
          have := hknown hm
          rw [hnil] at this
          simp at this
          omega)]
      rw [hin] at this
      have e1 : n + (j - n) = 0 + j := by omega
      rw [e1] at this
      exact this
  · by_cases hm : m = 0
    · subst hm; exact h.fits
    · have := hr.fits .mat hm
      rw [h.timestep, h.length] at this
      omega
  · rw [hem]
    by_cases hm : m = 0
    · subst hm; exact h.known
    · exact hknown hm
  · intro o; rw [hr.length, h.length]
  · rw [hr.current, h.current, h.inputs]
    simp only [Scenario.period]
    push_cast
    ring
  · intro o
    obtain ⟨i, v, v1, v2, v3, v4, v5, v6, v7⟩ := h.made o
    obtain ⟨v', x1, x2⟩ := hc.frame.view o i v v1 v2
    have hst := congrArg Prod.fst x2
    simp only [TView.stat, TLeaf.stat, Prod.mk.injEq] at hst
    obtain ⟨y1, y2, y3⟩ := hst
    exact ⟨i, v', by rw [hc.frame.ov]; exact v1, x1,
      by rw [y1]; exact v3.mono hc.frame.pext (.of_eq hc.frame.regions), by rw [y2]; exact v4,
      by rw [y3]; exact v5, by rw [y3]; exact v6, by rw [y3]; exact v7⟩
  · intro o ha
    obtain ⟨i, v, v1, v2, v3, _⟩ := h.made o
    obtain ⟨P, p1, p2, _⟩ := (h.lives.out.good.tviews i v v2).ex
    exact (h.axes o ha).used hl.out.tree v3 p1 (by rw [p2]; simp) hc.frame.pext (.of_eq hc.frame.regions)

theorem Progress.steps {E : DEnv K} {d d1 d' : Dice K} {W : Scenario K} {n m : Nat} {L : Series K}
    (h : Progress E d d1 W n L) (hg : Openscm.steps E m d1 = (.ok (), d')) :
    ∃ L', Progress E d d' W (n + m) L' ∧ (∀ o j, (j ≤ n ∨ n + m < j) → (L' o)[j]? = (L o)[j]?) := by
  obtain ⟨L', s1, s2, s3, s4, s5, s6, s7, s8, s9⟩ := steps_spec _ h.lives hg
  refine ⟨L', h.more s1 s2 ⟨s3, s4, s5, s6, s7, s8, s9⟩, fun o j hj => s6 o j ?_⟩
  rw [h.timestep]; exact hj

theorem Progress.run {E : DEnv K} {d d1 d' : Dice K} {W : Scenario K} {L : Series K}
    (h : Progress E d d1 W 0 L) (hg : diceRun E d1 = (.ok (), d')) : ∃ L', Progress E d d' W W.steps L' := by
  obtain ⟨L', s1, s2, s3⟩ := diceRun_spec h.lives hg
  have hn : (d1.count - 1).toNat = W.steps := by rw [h.count]; omega
  rw [hn] at s3
  have := h.more s1 s2 s3
  rw [Nat.zero_add] at this
  exact ⟨L', this⟩

/-- What holds after a program went `n` steps into a scenario. -/
theorem went_spec {E : DEnv K} {d d' : Dice K} (h : DReach E d) {W : Scenario K} {n : Nat}
    (hW : Given E (prepared E d).inp W) (hw : Went E d d' W n) : ∃ L, Progress E d d' W n L := by
  have hs := h.sound
  rcases hw with ⟨junk, d0, h1, h2⟩ | ⟨junk, h1, rfl⟩
  · obtain ⟨_, d2, a1, g1⟩ := DM.bind_inv h1
    obtain ⟨_, r1⟩ := DM.pure_inv g1
    subst r1
    obtain ⟨L, p1, _⟩ := (resetStepping_spec hs h.out a1).2 W hW
    obtain ⟨L', p2, _⟩ := p1.steps (stepped_steps n h2)
    rw [Nat.zero_add] at p2
    exact ⟨L', p2⟩
  · obtain ⟨_, d2, a1, g1⟩ := DM.bind_inv h1
    obtain ⟨_, r1⟩ := DM.pure_inv g1
    subst r1
    obtain ⟨_, d1, a2, g2⟩ := DM.bind_inv a1
    obtain ⟨L, p1, _⟩ := (resetStepping_spec hs h.out a2).2 W hW
    exact p1.run g2

/-! ## Reading the outputs -/

/-- What somebody reads from output `o` of scenario `W`. -/
def readOutput (E : DEnv K) (d : Dice K) (W : Scenario K) (o : OName) : Res K GVal :=
  freshRead E.env d.out (outputKey o) (outputUnit o) (W.outAxis o) (.str (outputTypeName o)) (.enum .linear)
    (.enum .none)

theorem axis_sorted {W : Scenario K} (hp : 0 < W.period) (n : Nat) : (W.axis n).Pairwise (· < ·) := by
  unfold Scenario.axis
  rw [List.pairwise_map]
  refine List.Pairwise.imp ?_ (List.pairwise_lt_range)
  intro a b hab
  have : W.start + a * W.period < W.start + b * W.period := by
    have : (a : Int) * W.period < b * W.period := by
      apply mul_lt_mul_of_pos_right _ hp
      exact_mod_cast hab
    omega
  exact_mod_cast this

/-- On the time points of the parameter, what the model stored is what somebody reads (near missing values, more may
be missing). -/
theorem Progress.read {E : DEnv K} {d d' : Dice K} {W : Scenario K} {n : Nat} {L : Series K}
    (h : Progress E d d' W n L) {o : OName} (ha : OnAxis d.out (outputKey o) (W.outAxis o)) (hp : 0 < W.period) :
    ∃ r, readOutput E d' W o = .ok (.arr (.floats r)) ∧ ShownAs (L o) r := by
  obtain ⟨i, v, v1, v2, v3, v4, v5, v6, v7⟩ := h.made o
  obtain ⟨i', v', P, o1, o2, o3, o4, o5, o6, o7⟩ := h.lives.ov o
  rw [v1] at o1; cases o1
  rw [v2] at o2; cases o2
  obtain ⟨c, t, P0, w1, w2⟩ := h.written o
  rw [OStat_of v1 v2 o4] at w1
  simp only [Option.some.injEq, Prod.mk.injEq] at w1
  have hwr : P.written = true := by
    have := w1.2.2
    rw [← this] at w2
    exact w2
  have hinv := h.lives.out
  have hgood := hinv.good.tviews i v v2
  obtain ⟨Q, u, t', q1, q2, q3, q4, q5, q6, q7, _⟩ := hgood.leaf.ex
  rw [o4] at q1; cases q1
  obtain ⟨Q, x1, x2, _⟩ := hgood.ex
  rw [o4] at x1; cases x1
  have htps := h.axes o ha _ P v3 o4 q2
  rw [q5] at htps; cases htps
  have hc := ((hinv.good.params _ P o4).1 hwr).1
  obtain ⟨q, d1, d2⟩ := o7 rfl
  unfold readOutput
  rw [freshRead_eq hinv v3 o4 q2 hc]
  unfold freshOf
  have hint : (IntArg.enum Interp.linear).parse = .ok .linear := rfl
  have hext : (ExtArg.enum Extrap.none).parse = .ok .none := rfl
  rw [outputTy_parse, hint, hext]
  rw [v4] at q4
  rw [v5, v6, v7] at q7
  simp only [bind, Except.bind, x2, v6, ne_eq, not_true_eq_false, if_false, q3, mkConvOpt, q4, q5, q7, hwr,
    Bool.not_true, Bool.false_eq_true, d1]
  -- the converter
  have hsrc : v.leaf.ts.source = v.leaf.ts.target := by rw [q6, v5]
  have hty : v.leaf.ts.ty = .point ∨ v.leaf.ts.ty = .average := by
    rw [v6]; cases o <;> simp [outputType]
  have hsorted : v.leaf.ts.target.Pairwise (· < ·) := by
    rw [v5]; exact axis_sorted hp _
  have hlen : (L o).length = v.leaf.ts.targetLength := hgood.leaf.len _ o3
  have hnn : ∀ y, v.leaf.conv.convertFrom (v.leaf.conv.convertTo y) = y := fun y => C32_from_to q4 y
  unfold published Arr.vals at d2
  have h3 : 3 ≤ (L o).length := by
    by_contra hc3
    unfold TSConv.convertTo convert convertNum at d2
    split at d2
    · rename_i vs hvs
      have := allNum_length hvs
      rw [if_pos (by simp at this; omega)] at d2
      simp at d2
    · rw [if_pos (by simp; omega)] at d2
      simp at d2
  have hmap : ((L o).map (Fl.map v.leaf.conv.convertTo)).map (Fl.map v.leaf.conv.convertFrom) = L o := by
    rw [List.map_map]
    refine (List.map_congr_left fun y _ => ?_).trans (List.map_id _)
    cases y with
    | nan => rfl
    | num y => simp only [Function.comp, Fl.map, hnn, id]
  have hlen' : pointsLength v.leaf.ts.ty v.leaf.ts.target = (L o).length := hlen.symm
  obtain ⟨r1, e1, s1⟩ := convert_own (ext := v.leaf.ts.ext) hty hsorted (vals := (L o).map (Fl.map v.leaf.conv.convertTo))
    (by simpa using h3) (by simpa using hlen')
  unfold TSConv.convertTo at d2
  rw [hsrc, e1] at d2
  cases d2
  have s1' := s1.map v.leaf.conv.convertFrom
  rw [hmap] at s1'
  obtain ⟨r2, e2, s2⟩ := convert_own (ext := v.leaf.ts.ext) hty hsorted (vals := q.map (Fl.map v.leaf.conv.convertFrom))
    (by rw [s1'.length]; exact h3) (by rw [s1'.length]; exact hlen')
  refine ⟨r2, ?_, s1'.trans s2⟩
  unfold TSConv.convertFrom
  rw [hsrc, e2]
  rfl

end Openscm
