import Verif.DiceTraj

/-!
# The DICE adapter: what a reset and a run compute

Helper file. `DiceStart` and `CoefSpec` are the documented initial values and coefficients.
-/

set_option linter.unusedSectionVars false

namespace Openscm
variable {K : Type} [Field K] [LinearOrder K] [IsStrictOrderedRing K]

/-- Initial values. -/
structure DiceStart (lg : K → K) (p : SName → Fl K) (c : OName → Fl K) : Prop where
  mat : c .mat = p .mat0
  ml : c .ml = p .ml0
  mu : c .mu = p .mu0
  tatm : c .tatm = p .tatm0
  tocean : c .tocean = p .tocean0
  forc : ∃ q l, Fl.quot (p .mat0) (p .mateq) = .ok q ∧ Fl.log2 lg q = .ok l ∧
    c .forc = p .fco22x * l + p .fex0

theorem DiceStart.det {lg : K → K} {p : SName → Fl K} {c c' : OName → Fl K} (h : DiceStart lg p c)
    (h' : DiceStart lg p c') : c = c' := by
  funext o
  cases o
  · rw [h.mat, h'.mat]
  · rw [h.ml, h'.ml]
  · rw [h.mu, h'.mu]
  · rw [h.tatm, h'.tatm]
  · rw [h.tocean, h'.tocean]
  · obtain ⟨q, l, a1, a2, a3⟩ := h.forc
    obtain ⟨q', l', b1, b2, b3⟩ := h'.forc
    rw [a1] at b1; cases b1
    rw [a2] at b2; cases b2
    rw [a3, b3]

/-- Transfer coefficients. -/
structure CoefSpec (p : SName → Fl K) (C : DiceCoefs K) : Prop where
  b11 : C.b11 = .num 1 - p .b12
  b21 : Fl.quot (p .b12 * p .mateq) (p .mueq) = .ok C.b21
  b22 : C.b22 = .num 1 - C.b21 - p .b23
  b32 : Fl.quot (p .b23 * p .mueq) (p .mleq) = .ok C.b32
  b33 : C.b33 = .num 1 - C.b32

/-! ## The outputs one after the other -/

/-- `done` says which outputs have been reset, and to what. -/
structure Setup (E : DEnv K) (d0 d : Dice K) (done : OName → Option (List (Fl K))) : Prop where
  inp : Inv E.env d.inp
  out : Inv E.env d.out
  keys : OKeys d
  set : ∀ o l, done o = some l → OV d o false l
  fresh : ∀ o, done o = none → OFresh d o
  eq : d = { d0 with out := d.out }
  frame : OFrame d0 d
  stat : ∀ o, OStat d o = if (done o).isSome then (OStat d0 o).map markStat else OStat d0 o

theorem Setup.step {E : DEnv K} {d0 d d' : Dice K} {done : OName → Option (List (Fl K))}
    (h : Setup E d0 d done) {o : OName} (ho : done o = none) {junk : Nat → Fl K} {x : DM K (Fl K)}
    {y : Dice K → Except Err (Fl K)} (hx : ∀ d, x d = (y d, d))
    (hy : ∀ d s, y { d with out := s } = y d) (hg : resetOutput E o junk x d = (.ok (), d')) :
    ∃ z, 0 < d0.count ∧ y d0 = .ok z ∧ Setup E d0 d'
      (Function.update done o (some (((List.range d0.count.toNat).map junk).set 0 z))) := by
  obtain ⟨z, d1, h1, h2, h3, h4, h5, h6, h7, h8, h9, h10⟩ :=
    resetOutput_inv h.out h.keys (h.fresh o ho) hx hg
  have hc : d.count = d0.count := by rw [h.eq]
  rw [hc] at h1 h4
  have e1 : y d1 = y d0 := by rw [h2, hy, h.eq, hy]
  rw [e1] at h3
  refine ⟨z, h1, h3, ?_, h8, h7, ?_, ?_, ?_, h.frame.trans h6, ?_⟩
  · rw [h9]; exact h.inp
  · intro o' l hl
    by_cases hoo : o' = o
    · subst hoo
      rw [Function.update_self] at hl
      cases hl
      exact h4
    · rw [Function.update_of_ne hoo] at hl
      exact (h.set o' l hl).same (h5 o' hoo)
  · intro o' hl
    by_cases hoo : o' = o
    · subst hoo; rw [Function.update_self] at hl; simp at hl
    · rw [Function.update_of_ne hoo] at hl
      exact (h.fresh o' hl).same (h5 o' hoo)
  · rw [h9, h.eq]
  · intro o'
    by_cases hoo : o' = o
    · subst hoo
      rw [Function.update_self, h10, h.stat o', ho]; rfl
    · rw [Function.update_of_ne hoo, (h5 o' hoo).stat h.keys, h.stat o']

/-- Reading a scalar as the value of an initial element. -/
theorem sget_pure (E : DEnv K) (n : SName) : ∀ d : Dice K, sget E n d = ((fun d => sval d n) d, d) :=
  fun d => sget_eq E n d

theorem sval_ok {d : Dice K} {n : SName} {x : Fl K} (h : sval d n = .ok x) : x = pval d n := by
  unfold pval; rw [h]

/-- The value of the first element of the forcing. -/
def forc0 (E : DEnv K) : DM K (Fl K) := do
  let f ← sget E .fco22x
  let m ← sget E .mat0
  let q ← sget E .mateq
  let r ← DM.ofExcept (Fl.quot m q)
  let l ← DM.ofExcept (Fl.log2 E.lg r)
  let x ← sget E .fex0
  pure (f * l + x)

/-- Computations that change nothing and do not look at the outputs. -/
def Peek {α : Type} (m : DM K α) : Prop :=
  ∀ d, (m d).2 = d ∧ ∀ s, (m { d with out := s }).1 = (m d).1

theorem Peek.bind {α β : Type} {m : DM K α} {f : α → DM K β} (hm : Peek m)
    (hf : ∀ a, Peek (f a)) : Peek (m >>= f) := by
  have key : ∀ d, ∃ r, m d = (r, d) := fun d => ⟨(m d).1, Prod.ext rfl (hm d).1⟩
  intro d
  refine ⟨?_, fun s => ?_⟩
  · obtain ⟨r, h⟩ := key d
    cases r with
    | error e => rw [DM.bind_error h]
    | ok a => rw [DM.bind_ok h]; exact (hf a d).1
  · obtain ⟨r, h⟩ := key d
    obtain ⟨r', h'⟩ := key { d with out := s }
    have hr := (hm d).2 s
    rw [h, h'] at hr
    have hr : r' = r := hr
    subst hr
    cases r' with
    | error e => rw [DM.bind_error h, DM.bind_error h']
    | ok a => rw [DM.bind_ok h, DM.bind_ok h']; exact (hf a d).2 s

theorem Peek.sget (E : DEnv K) (n : SName) : Peek (Openscm.sget E n) := fun d =>
  ⟨by rw [sget_eq], fun s => by rw [sget_eq, sget_eq]; rfl⟩

theorem Peek.ofExcept {α : Type} (x : Except Err α) : Peek (DM.ofExcept x : DM K α) := by
  cases x <;> exact fun d => ⟨rfl, fun s => rfl⟩

theorem Peek.pure {α : Type} (x : α) : Peek (Pure.pure x : DM K α) := fun _ => ⟨rfl, fun _ => rfl⟩

theorem forc0_peek (E : DEnv K) : Peek (forc0 E) :=
  (Peek.sget E _).bind fun _ => (Peek.sget E _).bind fun _ => (Peek.sget E _).bind fun _ =>
    (Peek.ofExcept _).bind fun _ => (Peek.ofExcept _).bind fun _ => (Peek.sget E _).bind fun _ =>
      Peek.pure _

theorem forc0_pure (E : DEnv K) (d : Dice K) : forc0 E d = ((fun d => (forc0 E d).1) d, d) :=
  Prod.ext rfl (forc0_peek E d).1

theorem forc0_spec {E : DEnv K} {d d' : Dice K} {z : Fl K} (h : forc0 E d = (.ok z, d')) :
    ∃ q l, Fl.quot (pval d .mat0) (pval d .mateq) = .ok q ∧ Fl.log2 E.lg q = .ok l ∧
      z = pval d .fco22x * l + pval d .fex0 := by
  unfold forc0 at h
  obtain ⟨x1, d1, a1, g1⟩ := DM.bind_inv h
  obtain ⟨e1, rfl⟩ := sget_pval a1
  obtain ⟨x2, d2, a2, g2⟩ := DM.bind_inv g1
  obtain ⟨e2, rfl⟩ := sget_pval a2
  obtain ⟨x3, d3, a3, g3⟩ := DM.bind_inv g2
  obtain ⟨e3, rfl⟩ := sget_pval a3
  obtain ⟨x4, d4, a4, g4⟩ := DM.bind_inv g3
  obtain ⟨e4, rfl⟩ := DM.ofExcept_inv a4
  obtain ⟨x5, d5, a5, g5⟩ := DM.bind_inv g4
  obtain ⟨e5, rfl⟩ := DM.ofExcept_inv a5
  obtain ⟨x6, d6, a6, g6⟩ := DM.bind_inv g5
  obtain ⟨e6, rfl⟩ := sget_pval a6
  obtain ⟨e7, rfl⟩ := DM.pure_inv g6
  rw [e2, e3] at e4
  exact ⟨x4, x5, e4, e5, by rw [e7, e1, e6]⟩

/-- What a reset does to outputs that have just been requested. -/
structure ResetSpec (E : DEnv K) (junk : OName → Nat → Fl K) (d d' : Dice K) (L : Series K) : Prop where
  lives : Lives E d' (fun _ => false) L
  pos : 0 < d.count
  length : ∀ o, (L o).length = d.count.toNat
  rest : ∀ o j, 0 < j → (L o)[j]? = if j < d.count.toNat then some (junk o j) else none
  start : DiceStart E.lg (pval d) (col L 0)
  coefs : CoefSpec (pval d) (coefsOf d')
  same : SameInputs d d'
  inputs : inputsOf E d' = inputsOf E d
  e : d'.e = d.e
  initialized : d'.initialized = d.initialized
  count : d'.count = d.count
  current : d'.current = d.current
  timestep : d'.timestep = 0
  frame : OFrame d d'
  stat : ∀ o, OStat d' o = (OStat d o).map markStat
  attrs : coefAttrs d' = (some (coefsOf d').b11, some (coefsOf d').b21, some (coefsOf d').b22,
    some (coefsOf d').b32, some (coefsOf d').b33)

theorem diceReset_spec {E : DEnv K} {junk : OName → Nat → Fl K} {d d' : Dice K}
    (hi : Inv E.env d.inp) (ho : Inv E.env d.out) (hk : OKeys d) (hf : ∀ o, OFresh d o)
    (hg : diceReset E junk d = (.ok (), d')) : ∃ L, ResetSpec E junk d d' L := by
  unfold diceReset at hg
  obtain ⟨_, d1, a1, g1⟩ := DM.bind_inv hg
  have e1 := DM.modify_inv a1
  obtain ⟨b12, d2, a2, g2⟩ := DM.bind_inv g1
  obtain ⟨e2, r2⟩ := sget_pval a2
  obtain ⟨_, d3, a3, g3⟩ := DM.bind_inv g2
  have e3 := DM.modify_inv a3
  obtain ⟨mateq, d4, a4, g4⟩ := DM.bind_inv g3
  obtain ⟨e4, r4⟩ := sget_pval a4
  obtain ⟨mueq, d5, a5, g5⟩ := DM.bind_inv g4
  obtain ⟨e5, r5⟩ := sget_pval a5
  obtain ⟨b21, d6, a6, g6⟩ := DM.bind_inv g5
  obtain ⟨e6, r6⟩ := DM.ofExcept_inv a6
  obtain ⟨_, d7, a7, g7⟩ := DM.bind_inv g6
  have e7 := DM.modify_inv a7
  obtain ⟨b23, d8, a8, g8⟩ := DM.bind_inv g7
  obtain ⟨e8, r8⟩ := sget_pval a8
  obtain ⟨_, d9, a9, g9⟩ := DM.bind_inv g8
  have e9 := DM.modify_inv a9
  obtain ⟨mleq, d10, a10, g10⟩ := DM.bind_inv g9
  obtain ⟨e10, r10⟩ := sget_pval a10
  obtain ⟨b32, d11, a11, g11⟩ := DM.bind_inv g10
  obtain ⟨e11, r11⟩ := DM.ofExcept_inv a11
  obtain ⟨_, d12, a12, g12⟩ := DM.bind_inv g11
  have e12 := DM.modify_inv a12
  have hd : d12 = { d with
      timestep := 0, b11 := some (.num 1 - b12), b21 := some b21,
      b22 := some (.num 1 - b21 - b23), b32 := some b32, b33 := some (.num 1 - b32) } := by
    rw [e12, r11, r10, e9, r8, e7, r6, r5, r4, e3, r2, e1]
  have p2 : b12 = pval d .b12 := by rw [e2, e1]; rfl
  have p4 : mateq = pval d .mateq := by rw [e4, e3, r2, e1]; rfl
  have p5 : mueq = pval d .mueq := by rw [e5, r4, e3, r2, e1]; rfl
  have p8 : b23 = pval d .b23 := by rw [e8, e7, r6, r5, r4, e3, r2, e1]; rfl
  have p10 : mleq = pval d .mleq := by rw [e10, e9, r8, e7, r6, r5, r4, e3, r2, e1]; rfl
  have hpv : pval d12 = pval d := by rw [hd]; rfl
  have hcount : d12.count = d.count := by rw [hd]
  have hout : d12.out = d.out := by rw [hd]
  have hov : d12.ov = d.ov := by rw [hd]
  have hsv : ∀ n s, sval { d12 with out := s } n = sval d12 n := fun _ _ => rfl
  have hb : ∀ (n : SName) (d : Dice K) (s : St K GVal),
      (fun d => sval d n) { d with out := s } = (fun d => sval d n) d := fun _ _ _ => rfl
  have s0 : Setup E d12 d12 (fun _ => none) :=
    ⟨by rw [hd]; exact hi, by rw [hout]; exact ho, hk.of_out hout hov, fun _ _ h => by simp at h,
      fun o _ => (hf o).same (.of_out hout hov o), rfl, .refl _, fun o => rfl⟩
  obtain ⟨_, f1, c1, k1⟩ := DM.bind_inv g12
  obtain ⟨z1, hpos, y1, s1⟩ := s0.step rfl (sget_pure E _) (hb _) c1
  obtain ⟨_, f2, c2, k2⟩ := DM.bind_inv k1
  obtain ⟨z2, _, y2, s2⟩ := s1.step rfl (sget_pure E _) (hb _) c2
  obtain ⟨_, f3, c3, k3⟩ := DM.bind_inv k2
  obtain ⟨z3, _, y3, s3⟩ := s2.step rfl (sget_pure E _) (hb _) c3
  obtain ⟨_, f4, c4, k4⟩ := DM.bind_inv k3
  obtain ⟨z4, _, y4, s4⟩ := s3.step rfl (sget_pure E _) (hb _) c4
  obtain ⟨_, f5, c5, k5⟩ := DM.bind_inv k4
  obtain ⟨z5, _, y5, s5⟩ := s4.step rfl (sget_pure E _) (hb _) c5
  have hfb : ∀ (d : Dice K) (s : St K GVal),
      (fun d => (forc0 E d).1) { d with out := s } = (fun d => (forc0 E d).1) d :=
    fun d s => (forc0_peek E d).2 s
  obtain ⟨z6, _, y6, s6⟩ := s5.step (x := forc0 E) rfl (forc0_pure E) hfb k5
  rw [hcount] at hpos s6
  have hd' := s6.eq
  let z : OName → Fl K := fun
    | .mat => z1 | .ml => z2 | .mu => z3 | .tatm => z4 | .tocean => z5 | .forc => z6
  let L : Series K := fun o => ((List.range d.count.toNat).map (junk o)).set 0 (z o)
  have hL : ∀ o, OV d' o false (L o) := by
    intro o
    cases o <;> exact s6.set _ _ rfl
  have hlen : ∀ o, (L o).length = d.count.toNat := by
    intro o
    show (((List.range d.count.toNat).map (junk o)).set 0 (z o)).length = _
    rw [List.length_set, List.length_map, List.length_range]
  have hcol : col L 0 = z := by
    funext o
    show (((List.range d.count.toNat).map (junk o)).set 0 (z o)).getD 0 .nan = _
    rw [List.getD_eq_getElem?_getD, List.getElem?_set_self (by simp; omega)]; rfl
  have pz : ∀ {n x}, sval d12 n = .ok x → x = pval d n := fun h => by rw [← hpv]; exact sval_ok h
  have hsame : SameInputs d d' := by
    rw [hd', hd]; exact ⟨rfl, rfl, rfl, rfl, rfl, rfl⟩
  have hsv' : SameInputs d12 d' := by rw [hd']; exact ⟨rfl, rfl, rfl, rfl, rfl, rfl⟩
  refine ⟨L, ⟨s6.inp, s6.out, s6.keys, hL, fun o => ?_⟩, hpos, hlen, fun o j hj => ?_, ?_, ?_,
    hsame, hsame.inputs ?_, by rw [hd', hd], by rw [hd', hd], by rw [hd', hd], by rw [hd', hd],
    by rw [hd', hd], (OFrame.of_out hout hov).trans s6.frame, fun o => ?_,
    by rw [hd', hd]; rfl⟩
  · exact (hL o).pub
  · show (((List.range d.count.toNat).map (junk o)).set 0 (z o))[j]? = _
    rw [List.getElem?_set_ne (by omega), List.getElem?_map]
    by_cases hlt : j < d.count.toNat
    · rw [if_pos hlt, List.getElem?_range hlt]; rfl
    · rw [if_neg hlt, List.getElem?_eq_none (by simpa using hlt)]; rfl
  · rw [hcol]
    refine ⟨pz y1, pz y2, pz y3, pz y4, pz y5, ?_⟩
    obtain ⟨q, l, i1, i2, i3⟩ := forc0_spec (d' := d12) (z := z6) (by
      rw [forc0_pure]; exact Prod.ext y6 rfl)
    rw [hpv] at i1 i3
    exact ⟨q, l, i1, i2, i3⟩
  · have hc : coefsOf d' = ⟨.num 1 - b12, b21, .num 1 - b21 - b23, b32, .num 1 - b32⟩ := by
      rw [hd', hd]; rfl
    rw [hc]
    refine ⟨by rw [p2], ?_, by rw [p8], ?_, rfl⟩
    · show Fl.quot _ _ = .ok b21
      rw [← e6, p2, p4, p5]
    · show Fl.quot _ _ = .ok b32
      rw [← e11, p8, p5, p10]
  · unfold emis; rw [hd', hd]
  · rw [s6.stat o, OStat_of_out hout hov o]
    cases o <;> rfl

end Openscm
