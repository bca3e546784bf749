import Verif.DiceReset

/-!
# The DICE adapter: locking, running and initialising

Helper file.
-/

set_option linter.unusedSectionVars false

namespace Openscm
variable {K : Type} [Field K] [LinearOrder K] [IsStrictOrderedRing K]

theorem OEff.lives {E : DEnv K} {d d' : Dice K} {lk : OName → Bool} {L : Series K}
    (h : Lives E d lk L) {o : OName} {b : Bool} (he : OEff E d d' o b (L o)) :
    Lives E d' (Function.update lk o b) L ∧ Ctl E d d' ∧ d'.timestep = d.timestep ∧
      d'.current = d.current := by
  refine ⟨⟨by rw [he.eq]; exact h.inp, he.inv, he.keys, fun o' => ?_, fun o' => (h.pub o').stat (he.stat o')⟩,
    ctl_out he.eq he.frame he.stat, by rw [he.eq], by rw [he.eq]⟩
  by_cases ho : o' = o
  · subst ho; rw [Function.update_self]; exact he.ov
  · rw [Function.update_of_ne ho]; exact (h.ov o').same (he.other o' ho)

theorem Lives.lock {E : DEnv K} {d d' : Dice K} {lk : OName → Bool} {L : Series K}
    (h : Lives E d lk L) {o : OName} (hg : lockOutput E o d = (.ok (), d')) :
    Lives E d' (Function.update lk o true) L ∧ Ctl E d d' ∧ d'.timestep = d.timestep ∧
      d'.current = d.current :=
  OEff.lives h (lock_inv h.out h.keys (h.ov o) hg)

theorem Lives.unlock {E : DEnv K} {d d' : Dice K} {lk : OName → Bool} {L : Series K}
    (h : Lives E d lk L) {o : OName} (hg : unlockOutput E o d = (.ok (), d')) :
    Lives E d' (Function.update lk o false) L ∧ Ctl E d d' ∧ d'.timestep = d.timestep ∧
      d'.current = d.current :=
  OEff.lives h (unlock_inv h.out h.keys (h.ov o) hg)

theorem Lives.cast {E : DEnv K} {d : Dice K} {lk lk' : OName → Bool} {L : Series K}
    (h : Lives E d lk L) (he : ∀ o, lk o = lk' o) : Lives E d lk' L := by
  have : lk = lk' := funext he
  rw [← this]; exact h

/-- The six arrays after `n` steps from a state with arrays `L`. -/
structure Ran (E : DEnv K) (d d' : Dice K) (n : Nat) (L L' : Series K) : Prop where
  length : ∀ o, (L' o).length = (L o).length
  fits : ∀ o, n ≠ 0 → d.timestep + n < (L o).length
  known : n ≠ 0 → d.timestep + n ≤ (inputsOf E d).emissions.length
  rest : ∀ o j, (j ≤ d.timestep ∨ d.timestep + n < j) → (L' o)[j]? = (L o)[j]?
  traj : Trajectory E.lg E.env.trunc (inputsOf E d) (coefsOf d) d.timestep n L'
  timestep : d'.timestep = d.timestep + n
  current : d'.current = d.current + (inputsOf E d).ticks * (inputsOf E d).tick * n

theorem diceRun_spec {E : DEnv K} {d d' : Dice K} {lk : OName → Bool} {L : Series K}
    (h : Lives E d lk L) (hg : diceRun E d = (.ok (), d')) :
    ∃ L', Lives E d' (fun _ => false) L' ∧ Ctl E d d' ∧ Ran E d d' (d.count - 1).toNat L L' := by
  unfold diceRun at hg
  obtain ⟨_, d1, a1, g1⟩ := DM.bind_inv hg
  obtain ⟨h1, c1, t1, r1⟩ := h.lock a1
  obtain ⟨_, d2, a2, g2⟩ := DM.bind_inv g1
  obtain ⟨h2, c2, t2, r2⟩ := h1.lock a2
  obtain ⟨_, d3, a3, g3⟩ := DM.bind_inv g2
  obtain ⟨h3, c3, t3, r3⟩ := h2.lock a3
  obtain ⟨_, d4, a4, g4⟩ := DM.bind_inv g3
  obtain ⟨h4, c4, t4, r4⟩ := h3.lock a4
  obtain ⟨_, d5, a5, g5⟩ := DM.bind_inv g4
  obtain ⟨h5, c5, t5, r5⟩ := h4.lock a5
  obtain ⟨_, d6, a6, g6⟩ := DM.bind_inv g5
  obtain ⟨h6, c6, t6, r6⟩ := h5.lock a6
  have C := ((((c1.trans c2).trans c3).trans c4).trans c5).trans c6
  have T : d6.timestep = d.timestep := by rw [t6, t5, t4, t3, t2, t1]
  have R : d6.current = d.current := by rw [r6, r5, r4, r3, r2, r1]
  obtain ⟨n, d6', a7, g7⟩ := DM.bind_inv g6
  obtain ⟨hn, e7⟩ := DM.gets_inv a7
  subst e7
  obtain ⟨_, d8, a8, g8⟩ := DM.bind_inv g7
  obtain ⟨L', s1, s2, s3, s4, s5, s6, s7, s8, s9⟩ := steps_spec _ h6 a8
  obtain ⟨_, f1, b1, k1⟩ := DM.bind_inv g8
  obtain ⟨u1, v1, w1, x1⟩ := s1.unlock b1
  obtain ⟨_, f2, b2, k2⟩ := DM.bind_inv k1
  obtain ⟨u2, v2, w2, x2⟩ := u1.unlock b2
  obtain ⟨_, f3, b3, k3⟩ := DM.bind_inv k2
  obtain ⟨u3, v3, w3, x3⟩ := u2.unlock b3
  obtain ⟨_, f4, b4, k4⟩ := DM.bind_inv k3
  obtain ⟨u4, v4, w4, x4⟩ := u3.unlock b4
  obtain ⟨_, f5, b5, k5⟩ := DM.bind_inv k4
  obtain ⟨u5, v5, w5, x5⟩ := u4.unlock b5
  obtain ⟨_, f6, b6, k6⟩ := DM.bind_inv k5
  obtain ⟨u6, v6, w6, x6⟩ := u5.unlock b6
  obtain ⟨u7, v7, w7, x7⟩ := u6.unlock k6
  have V := (((((v1.trans v2).trans v3).trans v4).trans v5).trans v6).trans v7
  have hn : n = d.count := by rw [hn]; exact C.count
  subst hn
  rw [C.inputs] at s5 s7 s9
  rw [C.coefs] at s7
  rw [T] at s4 s5 s6 s7 s8
  refine ⟨L', u7.cast (fun o => by cases o <;> rfl), (C.trans s2).trans V,
    ⟨s3, s4, s5, s6, s7, ?_, ?_⟩⟩
  · rw [w7, w6, w5, w4, w3, w2, w1, s8]
  · rw [x7, x6, x5, x4, x3, x2, x1, s9, R]

end Openscm
