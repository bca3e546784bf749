import Verif.DiceOut

/-!
# The DICE adapter: what a step computes

Helper file. `DiceStep` is the model's documented recurrence, written down without reference to
parameter sets, views or caches; the rest of the file proves that a successful step obeys it.
-/

set_option linter.unusedSectionVars false

namespace Openscm
variable {K : Type} [Field K] [LinearOrder K] [IsStrictOrderedRing K]

/-! ## The recurrence -/

/-- All inputs of a step. -/
structure DiceInputs (K : Type) where
  p : SName → Fl K
  start : Int
  sat : Int
  ticks : Int
  tick : Int
  rounding : Bool
  emissions : List (Fl K)

/-- Coefficients computed by a reset. -/
structure DiceCoefs (K : Type) where
  b11 : Fl K
  b21 : Fl K
  b22 : Fl K
  b32 : Fl K
  b33 : Fl K

/-- Carbon emitted in the period before time point `t`, in GtC. -/
def emitted (I : DiceInputs K) (t : Nat) : Fl K :=
  (I.emissions.getD (t - 1) .nan).map (fun x =>
    x * (((I.ticks * I.tick : Int) : K) / 31536000) / (if I.rounding then 3666 / 1000 else 1))

/-- Values `c'` at time point `t` follow from the values `c` at the time point before. -/
structure DiceStep (lg : K → K) (tr : K → Int) (I : DiceInputs K) (C : DiceCoefs K) (t : Nat)
    (c c' : OName → Fl K) : Prop where
  mat : c' .mat = Fl.pyMax (I.p .mat_lower) (c .mat * C.b11 + c .mu * C.b21 + emitted I t)
  ml : c' .ml = Fl.pyMax (I.p .ml_lower) (c .ml * C.b33 + c .mu * I.p .b23)
  mu : c' .mu = Fl.pyMax (I.p .mu_lower) (c .mat * I.p .b12 + c .mu * C.b22 + c .ml * C.b32)
  tocean : c' .tocean = Fl.pyMax (I.p .tocean_lower) (Fl.pyMin (I.p .tocean_upper)
    (c .tocean + I.p .c4 * (c .tatm - c .tocean)))
  forc : ∃ q l, Fl.quot (c' .mat) (I.p .mateq) = .ok q ∧ Fl.log2 lg q = .ok l ∧
    c' .forc = I.p .fco22x * l + forcoth tr (I.p .fex0) (I.p .fex1) I.start I.sat I.ticks I.tick t
  tatm : ∃ lam, Fl.quot (I.p .fco22x) (I.p .t2xco2) = .ok lam ∧
    c' .tatm = Fl.pyMin (I.p .tatm_upper)
      (c .tatm + I.p .c1 * (c' .forc - lam * c .tatm - I.p .c3 * (c .tatm - c .tocean)))

/-- The recurrence determines the next values. -/
theorem DiceStep.det {lg : K → K} {tr : K → Int} {I : DiceInputs K} {C : DiceCoefs K} {t : Nat}
    {c c1 c2 : OName → Fl K} (h1 : DiceStep lg tr I C t c c1) (h2 : DiceStep lg tr I C t c c2) :
    c1 = c2 := by
  have hmat : c1 .mat = c2 .mat := by rw [h1.mat, h2.mat]
  have hforc : c1 .forc = c2 .forc := by
    obtain ⟨q, l, a1, a2, a3⟩ := h1.forc
    obtain ⟨q', l', b1, b2, b3⟩ := h2.forc
    rw [hmat, b1] at a1; cases a1
    rw [b2] at a2; cases a2
    rw [a3, b3]
  funext o
  cases o
  · exact hmat
  · rw [h1.ml, h2.ml]
  · rw [h1.mu, h2.mu]
  · obtain ⟨l, a1, a2⟩ := h1.tatm
    obtain ⟨l', b1, b2⟩ := h2.tatm
    rw [b1] at a1; cases a1
    rw [a2, b2, hforc]
  · rw [h1.tocean, h2.tocean]
  · exact hforc

/-! ## The inputs in a state -/

/-- Value of a scalar input. -/
def pval (d : Dice K) (n : SName) : Fl K :=
  match sval d n with
  | .ok x => x
  | .error _ => .nan

/-- Value of a generic input that is a time. -/
def tval (d : Dice K) (n : GName) : Int :=
  match gval d n with
  | .ok (some (.time t)) => t
  | _ => 0

/-- Value of a generic input that is a period. -/
def dval (d : Dice K) (n : GName) : Int × Int :=
  match gval d n with
  | .ok (some (.delta k u)) => (k, u)
  | _ => (0, 0)

/-- Value of a generic input that is a flag. -/
def bval (d : Dice K) (n : GName) : Bool :=
  match gval d n with
  | .ok (some (.bool b)) => b
  | _ => false

/-- The emissions as read by the model. -/
def emis (E : DEnv K) (d : Dice K) : List (Fl K) :=
  match d.e with
  | none => []
  | some i =>
    match (call E.env (.tGet i) d.inp).1 with
    | .ok (.arr a) => a.vals
    | _ => []

/-- All inputs as they can be read in a state. -/
def inputsOf (E : DEnv K) (d : Dice K) : DiceInputs K :=
  { p := pval d, start := tval d .start_time, sat := tval d .forcoth_saturation_time,
    ticks := (dval d .period_length).1, tick := (dval d .period_length).2,
    rounding := bval d .original_rounding, emissions := emis E d }

/-- The coefficients in a state. -/
def coefsOf (d : Dice K) : DiceCoefs K :=
  { b11 := d.b11.getD .nan, b21 := d.b21.getD .nan, b22 := d.b22.getD .nan,
    b32 := d.b32.getD .nan, b33 := d.b33.getD .nan }

theorem EArr.emis {E : DEnv K} {d : Dice K} {a : Arr K} (h : EArr E d a) : emis E d = a.vals := by
  obtain ⟨i, h1, h2⟩ := h
  unfold Openscm.emis
  simp only [h1, h2]

theorem sget_pval {E : DEnv K} {n : SName} {d d' : Dice K} {x : Fl K}
    (h : sget E n d = (.ok x, d')) : x = pval d n ∧ d' = d := by
  obtain ⟨h1, h2⟩ := sget_inv h
  refine ⟨?_, h2⟩
  unfold pval; rw [h1]

theorem gtime_tval {E : DEnv K} {n : GName} {d d' : Dice K} {t : Int}
    (h : gtime E n d = (.ok t, d')) : t = tval d n ∧ d' = d := by
  obtain ⟨h1, h2⟩ := gtime_inv h
  refine ⟨?_, h2⟩
  unfold tval; rw [h1]

theorem gdelta_dval {E : DEnv K} {n : GName} {d d' : Dice K} {x : Int × Int}
    (h : gdelta E n d = (.ok x, d')) : x = dval d n ∧ d' = d := by
  obtain ⟨h1, h2⟩ := gdelta_inv (k := x.1) (u := x.2) h
  refine ⟨?_, h2⟩
  unfold dval; rw [h1]

theorem gbool_bval {E : DEnv K} {n : GName} {d d' : Dice K} {b : Bool}
    (h : gbool E n d = (.ok b, d')) : b = bval d n ∧ d' = d := by
  obtain ⟨h1, h2⟩ := gbool_inv h
  refine ⟨?_, h2⟩
  unfold bval; rw [h1]

/-- The coefficients as attributes. -/
def coefAttrs (d : Dice K) : Option (Fl K) × Option (Fl K) × Option (Fl K) × Option (Fl K) × Option (Fl K) :=
  (d.b11, d.b21, d.b22, d.b32, d.b33)

/-! ## What a step leaves alone -/

/-- Everything but the outputs, the caches of the inputs, the step counter and the clock. -/
structure Ctl (E : DEnv K) (d d' : Dice K) : Prop where
  same : SameInputs d d'
  inputs : inputsOf E d' = inputsOf E d
  coefs : coefsOf d' = coefsOf d
  e : d'.e = d.e
  initialized : d'.initialized = d.initialized
  count : d'.count = d.count
  frame : OFrame d d'
  stat : ∀ o, OStat d' o = OStat d o
  attrs : coefAttrs d' = coefAttrs d

theorem Ctl.refl (E : DEnv K) (d : Dice K) : Ctl E d d :=
  ⟨.refl d, rfl, rfl, rfl, rfl, rfl, .refl d, fun _ => rfl, rfl⟩

theorem Ctl.trans {E : DEnv K} {d1 d2 d3 : Dice K} (h : Ctl E d1 d2) (h' : Ctl E d2 d3) :
    Ctl E d1 d3 :=
  ⟨h.same.trans h'.same, h'.inputs.trans h.inputs, h'.coefs.trans h.coefs, h'.e.trans h.e,
    h'.initialized.trans h.initialized, h'.count.trans h.count, h.frame.trans h'.frame,
    fun o => (h'.stat o).trans (h.stat o), h'.attrs.trans h.attrs⟩

theorem OStat_of_out {d d' : Dice K} (h : d'.out = d.out) (ho : d'.ov = d.ov) (o : OName) :
    OStat d' o = OStat d o := by unfold OStat; rw [h, ho]

theorem SameInputs.pval {d d' : Dice K} (h : SameInputs d d') : pval d' = pval d := by
  funext n; unfold Openscm.pval; rw [h.sval]

theorem SameInputs.inputs {E : DEnv K} {d d' : Dice K} (h : SameInputs d d')
    (he : emis E d' = emis E d) : inputsOf E d' = inputsOf E d := by
  unfold inputsOf tval dval bval
  rw [h.pval, he, h.gval, h.gval, h.gval, h.gval]

theorem Quiet1.ctl {E : DEnv K} {d d' : Dice K} (h : Quiet1 d d') (he : emis E d' = emis E d) :
    Ctl E d d' :=
  ⟨h.same, h.same.inputs he, by unfold coefsOf; rw [h.b11, h.b21, h.b22, h.b32, h.b33], h.e,
    h.initialized, h.count, .of_out h.out h.ov, OStat_of_out h.out h.ov,
    by unfold coefAttrs; rw [h.b11, h.b21, h.b22, h.b32, h.b33]⟩

theorem ctl_out {E : DEnv K} {d d' : Dice K} (h : d' = { d with out := d'.out }) (hf : OFrame d d')
    (hst : ∀ o, OStat d' o = OStat d o) : Ctl E d d' := by
  have e1 : d'.inp = d.inp := by rw [h]
  have e2 : d'.sv = d.sv := by rw [h]
  have e3 : d'.gv = d.gv := by rw [h]
  have e4 : d'.e = d.e := by rw [h]
  have hs : SameInputs d d' := ⟨e2, e3, by rw [e1], by rw [e1], by rw [e1], by rw [e1]⟩
  refine ⟨hs, hs.inputs ?_, ?_, e4, by rw [h], by rw [h], hf, hst, by rw [h]; rfl⟩
  · unfold emis; rw [e4, e1]
  · rw [h]; rfl

/-! ## The caches of the outputs -/

/-- The six arrays. -/
abbrev Series (K : Type) := OName → List (Fl K)

/-- Values at time point `n`. -/
def col (L : Series K) (n : Nat) : OName → Fl K := fun o => (L o).getD n .nan

/-- The arrays `L` are in the caches of the output views. -/
structure Lives (E : DEnv K) (d : Dice K) (lk : OName → Bool) (L : Series K) : Prop where
  inp : Inv E.env d.inp
  out : Inv E.env d.out
  keys : OKeys d
  ov : ∀ o, OV d o (lk o) (L o)
  pub : ∀ o, Pub d o (L o).length

theorem Pub.stat {d d' : Dice K} {o : OName} {n : Nat} (h : Pub d o n) (hs : OStat d' o = OStat d o) :
    Pub d' o n := by
  unfold Pub; rw [hs]; exact h

/-- Assignment of one element. -/
def Series.put (L : Series K) (o : OName) (n : Nat) (x : Fl K) : Series K :=
  Function.update L o ((L o).set n x)

theorem put_length {L : Series K} {o o' : OName} {n : Nat} {x : Fl K} :
    ((L.put o n x) o').length = (L o').length := by
  unfold Series.put
  by_cases ho : o' = o
  · subst ho; rw [Function.update_self, List.length_set]
  · rw [Function.update_of_ne ho]

theorem Lives.set {E : DEnv K} {d d' : Dice K} {lk : OName → Bool} {L : Series K} (h : Lives E d lk L)
    {o : OName} {t : Nat} {x : Fl K} (hg : oset E o t x d = (.ok (), d')) :
    t < (L o).length ∧ Lives E d' lk (L.put o t x) ∧ Ctl E d d' ∧
      d'.timestep = d.timestep ∧ d'.current = d.current := by
  obtain ⟨n, h1, h2, h3, h4, h5, h6, h7, h8⟩ := oset_inv h.out h.keys (h.ov o) hg
  have hn : n = t ∧ t < (L o).length := by
    unfold pyIndex at h1
    rw [if_pos (by omega)] at h1
    split at h1
    · rename_i hlt
      simp only [Int.toNat_natCast, Option.some.injEq] at h1
      exact ⟨h1.symm, by omega⟩
    · simp at h1
  obtain ⟨rfl, hlt⟩ := hn
  refine ⟨hlt, ⟨by rw [h7]; exact h.inp, h6, h5, fun o' => ?_, fun o' => ?_⟩, ctl_out h7 h4 h8, by rw [h7], by rw [h7]⟩
  · unfold Series.put
    by_cases ho : o' = o
    · subst ho; rw [Function.update_self]; exact h2
    · rw [Function.update_of_ne ho]; exact (h.ov o').same (h3 o' ho)
  · rw [put_length]; exact (h.pub o').stat (h8 o')

theorem Lives.get {E : DEnv K} {d d' : Dice K} {lk : OName → Bool} {L : Series K} (h : Lives E d lk L)
    {o : OName} {t : Nat} {x : Fl K} (hg : oget E o t d = (.ok x, d')) : x = col L t o ∧ d' = d := by
  obtain ⟨h1, n, h2, h3⟩ := oget_inv (h.ov o) hg
  have hn : n = t := by
    unfold pyIndex at h2
    rw [if_pos (by omega)] at h2
    split at h2
    · simpa using h2.symm
    · simp at h2
  subst hn
  refine ⟨?_, h1⟩
  unfold col
  rw [List.getD_eq_getElem?_getD, h3]; rfl

theorem Lives.ctl {E : DEnv K} {d d' : Dice K} {lk : OName → Bool} {L : Series K} (h : Lives E d lk L)
    (hq : Quiet1 d d') (hi : Inv E.env d'.inp) : Lives E d' lk L :=
  ⟨hi, by rw [hq.out]; exact h.out, h.keys.of_out hq.out hq.ov,
    fun o => (h.ov o).same (.of_out hq.out hq.ov o),
    fun o => (h.pub o).stat (OStat_of_out hq.out hq.ov o)⟩

theorem col_put_ne {L : Series K} {o : OName} {n m : Nat} {x : Fl K} (h : m ≠ n) :
    col (L.put o n x) m = col L m := by
  funext o'
  unfold col Series.put
  by_cases ho : o' = o
  · subst ho
    rw [Function.update_self, List.getD_eq_getElem?_getD, List.getD_eq_getElem?_getD,
      List.getElem?_set_ne (Ne.symm h)]
  · rw [Function.update_of_ne ho]

theorem col_put_self {L : Series K} {o : OName} {n : Nat} {x : Fl K} (h : n < (L o).length) :
    col (L.put o n x) n o = x := by
  unfold col Series.put
  rw [Function.update_self, List.getD_eq_getElem?_getD, List.getElem?_set_self h]; rfl

theorem put_other {L : Series K} {o o' : OName} {n : Nat} {x : Fl K} (h : o' ≠ o) :
    (L.put o n x) o' = L o' := by
  unfold Series.put; rw [Function.update_of_ne h]

theorem Lives.eget {E : DEnv K} {d d' : Dice K} {lk : OName → Bool} {L : Series K} (h : Lives E d lk L)
    {t : Nat} {x : Fl K} (hg : Openscm.eget E t d = (.ok x, d')) :
    x = (emis E d).getD t .nan ∧ t < (emis E d).length ∧ Lives E d' lk L ∧ Ctl E d d' ∧
      d'.timestep = d.timestep ∧ d'.current = d.current := by
  obtain ⟨a, h1, h2, h3, h4, h5, _⟩ := eget_inv h.inp hg
  have he : emis E d' = emis E d := by rw [h1.emis, h2.emis]
  have hx : a.vals[t]? = some x := by
    unfold Arr.getItem at h3
    cases hn : pyIndex a.length (t : Int) with
    | none => rw [hn] at h3; simp at h3
    | some n =>
      rw [hn] at h3
      have hn' : n = t := by
        unfold pyIndex at hn
        rw [if_pos (by omega)] at hn
        split at hn
        · simpa using hn.symm
        · simp at hn
      subst hn'
      cases hv : a.vals[n]? with
      | none => simp only [hv, reduceCtorEq] at h3
      | some y => simp only [hv, Except.ok.injEq] at h3; rw [h3]
  rw [h1.emis]
  refine ⟨?_, (List.getElem?_eq_some_iff.1 hx).1, h.ctl h4 h5, h4.ctl he, h4.timestep, h4.current⟩
  rw [List.getD_eq_getElem?_getD, hx]; rfl

/-! ## The parts of a step -/

theorem coef_getD {K α : Type} {f : Dice K → Option α} {d d' : Dice K} {a b : α}
    (h : DM.coef f d = (.ok a, d')) : a = (f d).getD b ∧ d' = d := by
  obtain ⟨h1, h2⟩ := DM.coef_inv h
  exact ⟨by rw [h1]; rfl, h2⟩

/-- One part of a step: output `o` gets the value `x` at time point `t`. -/
structure Part (E : DEnv K) (d d' : Dice K) (lk : OName → Bool) (L : Series K) (o : OName) (t : Nat)
    (x : Fl K) : Prop where
  lt : t < (L o).length
  lives : Lives E d' lk (L.put o t x)
  ctl : Ctl E d d'
  timestep : d'.timestep = d.timestep
  current : d'.current = d.current

theorem Part.ex {E : DEnv K} {d d' : Dice K} {lk : OName → Bool} {L : Series K} {o : OName} {t : Nat}
    {x : Fl K} (h : Part E d d' lk L o t x) : ∃ y, y = x ∧ Part E d d' lk L o t y := ⟨x, rfl, h⟩

theorem stepMat_spec {E : DEnv K} {d d' : Dice K} {lk : OName → Bool} {L : Series K} (h : Lives E d lk L)
    {t : Nat} (ht : 0 < t)
    (hg : stepMat E (inputsOf E d).ticks (inputsOf E d).tick t d = (.ok (), d')) :
    Part E d d' lk L .mat t (Fl.pyMax ((inputsOf E d).p .mat_lower)
        (col L (t - 1) .mat * (coefsOf d).b11 + col L (t - 1) .mu * (coefsOf d).b21
          + emitted (inputsOf E d) t)) ∧ t - 1 < (inputsOf E d).emissions.length := by
  unfold stepMat at hg
  have ht' : ((t : Int) - 1) = ((t - 1 : Nat) : Int) := by omega
  rw [ht'] at hg
  obtain ⟨x1, d1, a1, g1_⟩ := DM.bind_inv hg
  obtain ⟨e1, rfl⟩ := sget_pval a1
  obtain ⟨x2, d2, a2, g2_⟩ := DM.bind_inv g1_
  obtain ⟨e2, rfl⟩ := h.get a2
  obtain ⟨x3, d3, a3, g3_⟩ := DM.bind_inv g2_
  obtain ⟨e3, rfl⟩ := coef_getD (b := Fl.nan) a3
  obtain ⟨x4, d4, a4, g4_⟩ := DM.bind_inv g3_
  obtain ⟨e4, rfl⟩ := h.get a4
  obtain ⟨x5, d5, a5, g5_⟩ := DM.bind_inv g4_
  obtain ⟨e5, rfl⟩ := coef_getD (b := Fl.nan) a5
  obtain ⟨x6, d6, a6, g6_⟩ := DM.bind_inv g5_
  obtain ⟨e6, el, l6, c6, s6, t6⟩ := h.eget a6
  obtain ⟨x7, d7, a7, g7_⟩ := DM.bind_inv g6_
  obtain ⟨e7, rfl⟩ := gbool_bval a7
  obtain ⟨k1, k2, k3, k4, k5⟩ := l6.set g7_
  have hr : bval d7 .original_rounding = (inputsOf E d5).rounding := by rw [← c6.inputs]; rfl
  have hx : Fl.pyMax x1 (x2 * x3 + x4 * x5 + x6.map (fun x => x *
        ((((inputsOf E d5).ticks * (inputsOf E d5).tick : Int) : K) / 31536000) /
          (if x7 = true then 3666 / 1000 else 1)))
      = Fl.pyMax ((inputsOf E d5).p .mat_lower)
        (col L (t - 1) .mat * (coefsOf d5).b11 + col L (t - 1) .mu * (coefsOf d5).b21
          + emitted (inputsOf E d5) t) := by
    rw [e1, e2, e3, e4, e5, e6, e7, hr]; rfl
  rw [hx] at k2
  exact ⟨⟨k1, k2, c6.trans k3, k4.trans s6, k5.trans t6⟩, el⟩

theorem stepMl_spec {E : DEnv K} {d d' : Dice K} {lk : OName → Bool} {L : Series K} (h : Lives E d lk L)
    {t : Nat} (ht : 0 < t) (hg : stepMl E t d = (.ok (), d')) :
    Part E d d' lk L .ml t (Fl.pyMax ((inputsOf E d).p .ml_lower)
        (col L (t - 1) .ml * (coefsOf d).b33 + col L (t - 1) .mu * (inputsOf E d).p .b23)) := by
  unfold stepMl at hg
  have ht' : ((t : Int) - 1) = ((t - 1 : Nat) : Int) := by omega
  rw [ht'] at hg
  obtain ⟨x1, d1, a1, g1_⟩ := DM.bind_inv hg
  obtain ⟨e1, rfl⟩ := sget_pval a1
  obtain ⟨x2, d2, a2, g2_⟩ := DM.bind_inv g1_
  obtain ⟨e2, rfl⟩ := h.get a2
  obtain ⟨x3, d3, a3, g3_⟩ := DM.bind_inv g2_
  obtain ⟨e3, rfl⟩ := coef_getD (b := Fl.nan) a3
  obtain ⟨x4, d4, a4, g4_⟩ := DM.bind_inv g3_
  obtain ⟨e4, rfl⟩ := h.get a4
  obtain ⟨x5, d5, a5, g5_⟩ := DM.bind_inv g4_
  obtain ⟨e5, rfl⟩ := sget_pval a5
  obtain ⟨k1, k2, k3, k4, k5⟩ := h.set g5_
  rw [e1, e2, e3, e4, e5] at k2
  exact ⟨k1, k2, k3, k4, k5⟩

theorem stepMu_spec {E : DEnv K} {d d' : Dice K} {lk : OName → Bool} {L : Series K} (h : Lives E d lk L)
    {t : Nat} (ht : 0 < t) (hg : stepMu E t d = (.ok (), d')) :
    Part E d d' lk L .mu t (Fl.pyMax ((inputsOf E d).p .mu_lower)
        (col L (t - 1) .mat * (inputsOf E d).p .b12 + col L (t - 1) .mu * (coefsOf d).b22
          + col L (t - 1) .ml * (coefsOf d).b32)) := by
  unfold stepMu at hg
  have ht' : ((t : Int) - 1) = ((t - 1 : Nat) : Int) := by omega
  rw [ht'] at hg
  obtain ⟨x1, d1, a1, g1_⟩ := DM.bind_inv hg
  obtain ⟨e1, rfl⟩ := sget_pval a1
  obtain ⟨x2, d2, a2, g2_⟩ := DM.bind_inv g1_
  obtain ⟨e2, rfl⟩ := h.get a2
  obtain ⟨x3, d3, a3, g3_⟩ := DM.bind_inv g2_
  obtain ⟨e3, rfl⟩ := sget_pval a3
  obtain ⟨x4, d4, a4, g4_⟩ := DM.bind_inv g3_
  obtain ⟨e4, rfl⟩ := h.get a4
  obtain ⟨x5, d5, a5, g5_⟩ := DM.bind_inv g4_
  obtain ⟨e5, rfl⟩ := coef_getD (b := Fl.nan) a5
  obtain ⟨x6, d6, a6, g6_⟩ := DM.bind_inv g5_
  obtain ⟨e6, rfl⟩ := h.get a6
  obtain ⟨x7, d7, a7, g7_⟩ := DM.bind_inv g6_
  obtain ⟨e7, rfl⟩ := coef_getD (b := Fl.nan) a7
  obtain ⟨k1, k2, k3, k4, k5⟩ := h.set g7_
  rw [e1, e2, e3, e4, e5, e6, e7] at k2
  exact ⟨k1, k2, k3, k4, k5⟩

theorem stepTocean_spec {E : DEnv K} {d d' : Dice K} {lk : OName → Bool} {L : Series K} (h : Lives E d lk L)
    {t : Nat} (ht : 0 < t) (hg : stepTocean E t d = (.ok (), d')) :
    Part E d d' lk L .tocean t (Fl.pyMax ((inputsOf E d).p .tocean_lower)
      (Fl.pyMin ((inputsOf E d).p .tocean_upper) (col L (t - 1) .tocean
        + (inputsOf E d).p .c4 * (col L (t - 1) .tatm - col L (t - 1) .tocean)))) := by
  unfold stepTocean at hg
  have ht' : ((t : Int) - 1) = ((t - 1 : Nat) : Int) := by omega
  rw [ht'] at hg
  obtain ⟨x1, d1, a1, g1_⟩ := DM.bind_inv hg
  obtain ⟨e1, rfl⟩ := sget_pval a1
  obtain ⟨x2, d2, a2, g2_⟩ := DM.bind_inv g1_
  obtain ⟨e2, rfl⟩ := sget_pval a2
  obtain ⟨x3, d3, a3, g3_⟩ := DM.bind_inv g2_
  obtain ⟨e3, rfl⟩ := h.get a3
  obtain ⟨x4, d4, a4, g4_⟩ := DM.bind_inv g3_
  obtain ⟨e4, rfl⟩ := sget_pval a4
  obtain ⟨x5, d5, a5, g5_⟩ := DM.bind_inv g4_
  obtain ⟨e5, rfl⟩ := h.get a5
  obtain ⟨k1, k2, k3, k4, k5⟩ := h.set g5_
  rw [e1, e2, e3, e4, e5] at k2
  exact ⟨k1, k2, k3, k4, k5⟩

theorem forcothStep_spec {E : DEnv K} {d d' : Dice K} {t : Nat} {x : Fl K}
    (hg : forcothStep E t d = (.ok x, d')) :
    x = forcoth E.env.trunc ((inputsOf E d).p .fex0) ((inputsOf E d).p .fex1) (inputsOf E d).start
      (inputsOf E d).sat (inputsOf E d).ticks (inputsOf E d).tick t ∧ d' = d := by
  unfold forcothStep at hg
  obtain ⟨x1, d1, a1, g1_⟩ := DM.bind_inv hg
  obtain ⟨e1, rfl⟩ := gtime_tval a1
  obtain ⟨⟨k, u⟩, d2, a2, g2_⟩ := DM.bind_inv g1_
  obtain ⟨e2, rfl⟩ := gdelta_dval a2
  obtain ⟨x3, d3, a3, g3_⟩ := DM.bind_inv g2_
  obtain ⟨e3, rfl⟩ := gtime_tval a3
  have hk : k = (inputsOf E d3).ticks := by unfold inputsOf; rw [← e2]
  have hu : u = (inputsOf E d3).tick := by unfold inputsOf; rw [← e2]
  have e1 : x1 = (inputsOf E d3).start := e1
  have e3 : x3 = (inputsOf E d3).sat := e3
  rw [← e1, ← e3, ← hk, ← hu]
  by_cases hc : x3 ≤ x1 + k * u * t
  · rw [if_pos hc] at g3_
    obtain ⟨e4, rfl⟩ := sget_pval g3_
    refine ⟨?_, rfl⟩
    unfold forcoth; rw [if_pos hc]; exact e4
  · rw [if_neg hc] at g3_
    obtain ⟨x4, d4, a4, g4_⟩ := DM.bind_inv g3_
    obtain ⟨e4, rfl⟩ := sget_pval a4
    obtain ⟨x5, d5, a5, g5_⟩ := DM.bind_inv g4_
    obtain ⟨e5, rfl⟩ := sget_pval a5
    obtain ⟨e6, rfl⟩ := DM.pure_inv g5_
    rw [e6, e4, e5]
    exact ⟨rfl, rfl⟩

theorem stepForc_spec {E : DEnv K} {d d' : Dice K} {lk : OName → Bool} {L : Series K} (h : Lives E d lk L)
    {t : Nat} (hg : stepForc E t d = (.ok (), d')) :
    ∃ q l, Fl.quot (col L t .mat) ((inputsOf E d).p .mateq) = .ok q ∧ Fl.log2 E.lg q = .ok l ∧
      Part E d d' lk L .forc t ((inputsOf E d).p .fco22x * l
        + forcoth E.env.trunc ((inputsOf E d).p .fex0) ((inputsOf E d).p .fex1) (inputsOf E d).start
      (inputsOf E d).sat (inputsOf E d).ticks (inputsOf E d).tick t) := by
  unfold stepForc at hg
  obtain ⟨x1, d1, a1, g1_⟩ := DM.bind_inv hg
  obtain ⟨e1, rfl⟩ := forcothStep_spec a1
  obtain ⟨x2, d2, a2, g2_⟩ := DM.bind_inv g1_
  obtain ⟨e2, rfl⟩ := sget_pval a2
  obtain ⟨x3, d3, a3, g3_⟩ := DM.bind_inv g2_
  obtain ⟨e3, rfl⟩ := h.get a3
  obtain ⟨x4, d4, a4, g4_⟩ := DM.bind_inv g3_
  obtain ⟨e4, rfl⟩ := sget_pval a4
  obtain ⟨q, d5, a5, g5_⟩ := DM.bind_inv g4_
  obtain ⟨e5, rfl⟩ := DM.ofExcept_inv a5
  obtain ⟨l, d6, a6, g6_⟩ := DM.bind_inv g5_
  obtain ⟨e6, rfl⟩ := DM.ofExcept_inv a6
  obtain ⟨k1, k2, k3, k4, k5⟩ := h.set g6_
  rw [e3, e4] at e5
  rw [e1, e2] at k2
  exact ⟨q, l, e5, e6, k1, k2, k3, k4, k5⟩

theorem stepTatm_spec {E : DEnv K} {d d' : Dice K} {lk : OName → Bool} {L : Series K} (h : Lives E d lk L)
    {t : Nat} (ht : 0 < t) (hg : stepTatm E t d = (.ok (), d')) :
    ∃ lam, Fl.quot ((inputsOf E d).p .fco22x) ((inputsOf E d).p .t2xco2) = .ok lam ∧
      Part E d d' lk L .tatm t (Fl.pyMin ((inputsOf E d).p .tatm_upper)
      (col L (t - 1) .tatm + (inputsOf E d).p .c1 * (col L t .forc - lam * col L (t - 1) .tatm
        - (inputsOf E d).p .c3 * (col L (t - 1) .tatm - col L (t - 1) .tocean)))) := by
  unfold stepTatm at hg
  have ht' : ((t : Int) - 1) = ((t - 1 : Nat) : Int) := by omega
  rw [ht'] at hg
  obtain ⟨x1, d1, a1, g1_⟩ := DM.bind_inv hg
  obtain ⟨e1, rfl⟩ := sget_pval a1
  obtain ⟨x2, d2, a2, g2_⟩ := DM.bind_inv g1_
  obtain ⟨e2, rfl⟩ := h.get a2
  obtain ⟨x3, d3, a3, g3_⟩ := DM.bind_inv g2_
  obtain ⟨e3, rfl⟩ := sget_pval a3
  obtain ⟨x4, d4, a4, g4_⟩ := DM.bind_inv g3_
  obtain ⟨e4, rfl⟩ := h.get a4
  obtain ⟨x5, d5, a5, g5_⟩ := DM.bind_inv g4_
  obtain ⟨e5, rfl⟩ := sget_pval a5
  obtain ⟨x6, d6, a6, g6_⟩ := DM.bind_inv g5_
  obtain ⟨e6, rfl⟩ := sget_pval a6
  obtain ⟨lam, d7, a7, g7_⟩ := DM.bind_inv g6_
  obtain ⟨e7, rfl⟩ := DM.ofExcept_inv a7
  obtain ⟨x8, d8, a8, g8_⟩ := DM.bind_inv g7_
  obtain ⟨e8, rfl⟩ := sget_pval a8
  obtain ⟨x9, d9, a9, g9_⟩ := DM.bind_inv g8_
  obtain ⟨e9, rfl⟩ := h.get a9
  obtain ⟨k1, k2, k3, k4, k5⟩ := h.set g9_
  rw [e5, e6] at e7
  rw [e1, e2, e3, e4, e8, e9] at k2
  exact ⟨lam, e7, k1, k2, k3, k4, k5⟩

/-! ## A step -/

/-- Values `c` put at time point `t`. -/
def Series.putAll (L : Series K) (t : Nat) (c : OName → Fl K) : Series K := fun o => (L o).set t (c o)

theorem calcStep_spec {E : DEnv K} {d d' : Dice K} {lk : OName → Bool} {L : Series K} (h : Lives E d lk L)
    (hg : calcStep E d = (.ok (), d')) :
    ∃ c, DiceStep E.lg E.env.trunc (inputsOf E d) (coefsOf d) (d.timestep + 1) (col L d.timestep) c ∧
      (∀ o, d.timestep + 1 < (L o).length) ∧ d.timestep < (inputsOf E d).emissions.length ∧
      Lives E d' lk (L.putAll (d.timestep + 1) c) ∧ Ctl E d d' ∧ d'.timestep = d.timestep + 1 ∧
      d'.current = d.current + (inputsOf E d).ticks * (inputsOf E d).tick := by
  unfold calcStep at hg
  obtain ⟨_, d1, a1, g1_⟩ := DM.bind_inv hg
  have e1 := DM.modify_inv a1
  obtain ⟨⟨k, u⟩, d2, a2, g2_⟩ := DM.bind_inv g1_
  obtain ⟨e2, rfl⟩ := gdelta_dval a2
  simp only at g2_
  obtain ⟨_, d3, a3, g3_⟩ := DM.bind_inv g2_
  have e3 := DM.modify_inv a3
  obtain ⟨t, d4, a4, g4_⟩ := DM.bind_inv g3_
  obtain ⟨e4, rfl⟩ := DM.gets_inv a4
  have hI : inputsOf E d4 = inputsOf E d := by rw [e3, e1]; rfl
  have hk : k = (inputsOf E d4).ticks := by
    rw [hI]
    have : dval d2 .period_length = dval d .period_length := by rw [e1]; rfl
    unfold inputsOf; rw [← this, ← e2]
  have hu : u = (inputsOf E d4).tick := by
    rw [hI]
    have : dval d2 .period_length = dval d .period_length := by rw [e1]; rfl
    unfold inputsOf; rw [← this, ← e2]
  have ho : d4.out = d.out := by rw [e3, e1]
  have hv : d4.ov = d.ov := by rw [e3, e1]
  have hl : Lives E d4 lk L :=
    ⟨by rw [e3, e1]; exact h.inp, by rw [ho]; exact h.out, h.keys.of_out ho hv,
      fun o => (h.ov o).same (.of_out ho hv o), fun o => (h.pub o).stat (OStat_of_out ho hv o)⟩
  have hc0 : Ctl E d d4 := by
    refine ⟨⟨?_, ?_, ?_, ?_, ?_, ?_⟩, hI, ?_, ?_, ?_, ?_, .of_out ho hv, OStat_of_out ho hv, ?_⟩ <;>
      (first | (rw [e3, e1]; done) | (rw [e3, e1]; rfl))
  have ht : t = d.timestep + 1 := by rw [e4, e3, e1]
  have hcur : d4.current = d.current + k * u := by rw [e3, e1]
  have hts : d4.timestep = d.timestep + 1 := by rw [e3, e1]
  rw [hk, hu] at g4_
  have tpos : 0 < t := by omega
  have hne : t - 1 ≠ t := by omega
  obtain ⟨_, d5, a5, g5_⟩ := DM.bind_inv g4_
  obtain ⟨p5, el⟩ := stepMat_spec hl tpos a5
  obtain ⟨xm, hm, p5⟩ := p5.ex
  obtain ⟨_, d6, a6, g6_⟩ := DM.bind_inv g5_
  obtain ⟨xl, hml, p6⟩ := (stepMl_spec p5.lives tpos a6).ex
  obtain ⟨_, d7, a7, g7_⟩ := DM.bind_inv g6_
  obtain ⟨xu, hmu, p7⟩ := (stepMu_spec p6.lives tpos a7).ex
  obtain ⟨_, d8, a8, g8_⟩ := DM.bind_inv g7_
  obtain ⟨xo, hto, p8⟩ := (stepTocean_spec p7.lives tpos a8).ex
  obtain ⟨_, d9, a9, g9_⟩ := DM.bind_inv g8_
  obtain ⟨q, l, hq, hlg, p9⟩ := stepForc_spec p8.lives a9
  obtain ⟨xf, hf, p9⟩ := p9.ex
  obtain ⟨lam, hlam, p10⟩ := stepTatm_spec p9.lives tpos g9_
  obtain ⟨xa, hta, p10⟩ := p10.ex
  have c5 : Ctl E d d5 := hc0.trans p5.ctl
  have c6 := c5.trans p6.ctl
  have c7 := c6.trans p7.ctl
  have c8 := c7.trans p8.ctl
  have c9 := c8.trans p9.ctl
  have c10 := c9.trans p10.ctl
  have l5 := p5.lt
  have l6 := p6.lt
  have l7 := p7.lt
  have l8 := p8.lt
  have l9 := p9.lt
  have l10 := p10.lt
  simp only [put_length] at l6 l7 l8 l9 l10
  have hmat : col ((((L.put .mat t xm).put .ml t xl).put .mu t xu).put .tocean t xo) t .mat = xm := by
    unfold col
    rw [put_other (by decide), put_other (by decide), put_other (by decide)]
    exact col_put_self l5
  have hforc : col (((((L.put .mat t xm).put .ml t xl).put .mu t xu).put .tocean t xo).put .forc t xf)
      t .forc = xf := col_put_self (by simpa only [put_length] using l9)
  rw [hc0.inputs, hc0.coefs] at hm
  rw [c5.inputs, c5.coefs, col_put_ne hne] at hml
  rw [c6.inputs, c6.coefs, col_put_ne hne, col_put_ne hne] at hmu
  rw [c7.inputs, col_put_ne hne, col_put_ne hne, col_put_ne hne] at hto
  rw [c8.inputs] at hf hq
  rw [hmat] at hq
  rw [c9.inputs] at hta hlam
  rw [hforc, col_put_ne hne, col_put_ne hne, col_put_ne hne, col_put_ne hne, col_put_ne hne] at hta
  rw [hI] at el
  subst ht
  rw [Nat.add_sub_cancel] at hm hml hmu hto hta el
  refine ⟨fun | .mat => xm | .ml => xl | .mu => xu | .tatm => xa | .tocean => xo | .forc => xf,
    ⟨hm, hml, hmu, hto, ⟨q, l, hq, hlg, hf⟩, ⟨lam, hlam, hta⟩⟩, ?_, el, ?_, c10, ?_, ?_⟩
  · intro o
    cases o <;> assumption
  · have : ((((((L.put .mat (d.timestep + 1) xm).put .ml (d.timestep + 1) xl).put .mu (d.timestep + 1)
        xu).put .tocean (d.timestep + 1) xo).put .forc (d.timestep + 1) xf).put .tatm (d.timestep + 1) xa)
        = L.putAll (d.timestep + 1)
          (fun | .mat => xm | .ml => xl | .mu => xu | .tatm => xa | .tocean => xo | .forc => xf) := by
      funext o
      cases o <;> simp [Series.put, Series.putAll, Function.update]
    rw [← this]
    exact p10.lives
  · rw [p10.timestep, p9.timestep, p8.timestep, p7.timestep, p6.timestep, p5.timestep, hts]
  · rw [p10.current, p9.current, p8.current, p7.current, p6.current, p5.current, hcur, hk, hu, hI]

/-! ## Several steps -/

/-- `n` steps from time point `t`. -/
def Trajectory (lg : K → K) (tr : K → Int) (I : DiceInputs K) (C : DiceCoefs K) (t n : Nat)
    (L : Series K) : Prop :=
  ∀ j, j < n → DiceStep lg tr I C (t + j + 1) (col L (t + j)) (col L (t + j + 1))

theorem col_putAll_ne {L : Series K} {n m : Nat} {c : OName → Fl K} (h : m ≠ n) :
    col (L.putAll n c) m = col L m := by
  funext o
  unfold col Series.putAll
  rw [List.getD_eq_getElem?_getD, List.getD_eq_getElem?_getD, List.getElem?_set_ne (Ne.symm h)]

theorem col_putAll_self {L : Series K} {n : Nat} {c : OName → Fl K} (h : ∀ o, n < (L o).length) :
    col (L.putAll n c) n = c := by
  funext o
  unfold col Series.putAll
  rw [List.getD_eq_getElem?_getD, List.getElem?_set_self (h o)]; rfl

theorem steps_spec {E : DEnv K} {lk : OName → Bool} : ∀ (n : Nat) {d d' : Dice K} {L : Series K},
    Lives E d lk L → steps E n d = (.ok (), d') →
    ∃ L', Lives E d' lk L' ∧ Ctl E d d' ∧ (∀ o, (L' o).length = (L o).length) ∧
      (∀ o, n ≠ 0 → d.timestep + n < (L o).length) ∧
      (n ≠ 0 → d.timestep + n ≤ (inputsOf E d).emissions.length) ∧
      (∀ o j, (j ≤ d.timestep ∨ d.timestep + n < j) → (L' o)[j]? = (L o)[j]?) ∧
      Trajectory E.lg E.env.trunc (inputsOf E d) (coefsOf d) d.timestep n L' ∧
      d'.timestep = d.timestep + n ∧
      d'.current = d.current + (inputsOf E d).ticks * (inputsOf E d).tick * n
  | 0, d, d', L, h, hg => by
    obtain ⟨_, rfl⟩ := DM.pure_inv hg
    refine ⟨L, h, .refl E d', fun _ => rfl, fun _ h => absurd rfl h, fun h => absurd rfl h,
      fun _ _ _ => rfl, fun j hj => by omega, rfl, by simp⟩
  | n + 1, d, d', L, h, hg => by
    obtain ⟨_, d1, a1, g1_⟩ := DM.bind_inv hg
    obtain ⟨c, s1, s2, s3, s4, s5, s6, s7⟩ := calcStep_spec h a1
    obtain ⟨L', r1, r2, r3, r4, r5, r6, r7, r8, r9⟩ := steps_spec n s4 g1_
    rw [s6] at r4 r5 r6 r7 r8
    rw [s5.inputs] at r5 r7 r9
    rw [s5.coefs] at r7
    have hcol : ∀ m, m ≤ d.timestep + 1 → col L' m = col (L.putAll (d.timestep + 1) c) m := by
      intro m hm
      funext o
      unfold col
      rw [List.getD_eq_getElem?_getD, List.getD_eq_getElem?_getD, r6 o m (Or.inl hm)]
    refine ⟨L', r1, s5.trans r2, fun o => ?_, fun o _ => ?_, fun _ => ?_, fun o j hj => ?_, ?_, ?_, ?_⟩
    · rw [r3 o]; exact List.length_set
    · have e : (L.putAll (d.timestep + 1) c o).length = (L o).length := List.length_set
      by_cases hn : n = 0
      · subst hn; exact s2 o
      · have := r4 o hn; rw [e] at this; omega
    · by_cases hn : n = 0
      · subst hn; omega
      · have := r5 hn; omega
    · have hj' : j ≠ d.timestep + 1 := by rcases hj with hj | hj <;> omega
      rw [r6 o j (by rcases hj with hj | hj <;> omega)]
      show ((L o).set (d.timestep + 1) (c o))[j]? = _
      rw [List.getElem?_set_ne (Ne.symm hj')]
    · intro j hj
      cases j with
      | zero =>
        rw [Nat.add_zero, hcol _ (le_refl _), hcol _ (by omega), col_putAll_self s2,
          col_putAll_ne (by omega)]
        exact s1
      | succ j =>
        have := r7 j (by omega)
        rw [show d.timestep + (j + 1) = d.timestep + 1 + j by omega]
        exact this
    · omega
    · rw [r9, s7]; push_cast; ring

end Openscm
