import Verif.DiceSpec2

/-!
# The DICE adapter: when calls succeed

Helper file. The other direction of `DiceTraj.lean`: if the values of the next time point exist,
then the step succeeds.
-/

set_option linter.unusedSectionVars false

namespace Openscm
variable {K : Type} [Field K] [LinearOrder K] [IsStrictOrderedRing K]

/-- The inputs and coefficients can be read. -/
structure Able (d : Dice K) (W : DiceInputs K) : Prop where
  svals : ∀ n, sval d n = .ok (W.p n)
  start : gval d .start_time = .ok (some (.time W.start))
  sat : gval d .forcoth_saturation_time = .ok (some (.time W.sat))
  period : gval d .period_length = .ok (some (.delta W.ticks W.tick))
  rounding : gval d .original_rounding = .ok (some (.bool W.rounding))
  attrs : coefAttrs d = (some (coefsOf d).b11, some (coefsOf d).b21, some (coefsOf d).b22,
    some (coefsOf d).b32, some (coefsOf d).b33)

theorem Able.ctl {E : DEnv K} {d d' : Dice K} {W : DiceInputs K} (h : Able d W) (hc : Ctl E d d') : Able d' W :=
  ⟨fun n => by rw [hc.same.sval]; exact h.svals n, by rw [hc.same.gval]; exact h.start,
    by rw [hc.same.gval]; exact h.sat, by rw [hc.same.gval]; exact h.period,
    by rw [hc.same.gval]; exact h.rounding, by rw [hc.attrs, hc.coefs]; exact h.attrs⟩

theorem Progress.able {E : DEnv K} {d d' : Dice K} {W : Scenario K} {n : Nat} {L : Series K}
    (h : Progress E d d' W n L) : Able d' W.toDiceInputs :=
  ⟨h.svals, h.gvals.1, h.gvals.2.2.1, h.gvals.2.2.2.1, h.gvals.2.2.2.2, h.attrs⟩

theorem Able.sget {E : DEnv K} {d : Dice K} {W : DiceInputs K} (h : Able d W) (n : SName) :
    Openscm.sget E n d = (.ok (W.p n), d) := by
  rw [sget_eq, h.svals]

theorem gtime_ok {E : DEnv K} {d : Dice K} {n : GName} {t : Int} (h : gval d n = .ok (some (.time t))) :
    gtime E n d = (.ok t, d) := by
  unfold gtime
  have : gget E n d = (.ok (some (.time t)), d) := by rw [gget_eq, h]
  rw [DM.bind_ok this]; rfl

theorem gdelta_ok {E : DEnv K} {d : Dice K} {n : GName} {k u : Int} (h : gval d n = .ok (some (.delta k u))) :
    gdelta E n d = (.ok (k, u), d) := by
  unfold gdelta
  have : gget E n d = (.ok (some (.delta k u)), d) := by rw [gget_eq, h]
  rw [DM.bind_ok this]; rfl

theorem gbool_ok {E : DEnv K} {d : Dice K} {n : GName} {b : Bool} (h : gval d n = .ok (some (.bool b))) :
    gbool E n d = (.ok b, d) := by
  unfold gbool
  have : gget E n d = (.ok (some (.bool b)), d) := by rw [gget_eq, h]
  rw [DM.bind_ok this]; rfl

theorem coef_ok {f : Dice K → Option (Fl K)} {d : Dice K} {x : Fl K} (h : f d = some x) :
    DM.coef f d = (.ok x, d) := by
  unfold DM.coef
  simp only [h]

theorem Able.coefs {d : Dice K} {W : DiceInputs K} (h : Able d W) :
    d.b11 = some (coefsOf d).b11 ∧ d.b21 = some (coefsOf d).b21 ∧ d.b22 = some (coefsOf d).b22 ∧
      d.b32 = some (coefsOf d).b32 ∧ d.b33 = some (coefsOf d).b33 := by
  have := h.attrs
  unfold coefAttrs at this
  simpa only [Prod.mk.injEq] using this

theorem floats_getItem {l : List (Fl K)} {t : Nat} (h : t < l.length) :
    Arr.getItem (.floats l) (t : Int) = .ok (l.getD t .nan) := by
  unfold Arr.getItem
  have : pyIndex (Arr.floats l).length (t : Int) = some t := by
    unfold pyIndex
    rw [if_pos (by omega), if_pos (by show (t : Int) < (l.length : Int); omega)]
    rfl
  rw [this]
  simp only [Arr.vals]
  rw [List.getElem?_eq_getElem h]
  simp only [List.getD_eq_getElem?_getD, List.getElem?_eq_getElem h, Option.getD_some]

theorem Lives.oget {E : DEnv K} {d : Dice K} {lk : OName → Bool} {L : Series K} (h : Lives E d lk L) {o : OName}
    {t : Nat} (ht : t < (L o).length) : Openscm.oget E o t d = (.ok (col L t o), d) := by
  rw [oget_eq (h.ov o), floats_getItem ht]; rfl

theorem ok_of_fst {α : Type} {m : DM K α} {d : Dice K} {a : α} (h : (m d).1 = .ok a) : ∃ d', m d = (.ok a, d') :=
  ⟨(m d).2, Prod.ext h rfl⟩

theorem Lives.oset {E : DEnv K} {d : Dice K} {lk : OName → Bool} {L : Series K} (h : Lives E d lk L) {o : OName}
    {t : Nat} (ht : t < (L o).length) (x : Fl K) : ∃ d', Openscm.oset E o t x d = (.ok (), d') := by
  apply ok_of_fst
  rw [oset_fst (h.ov o) (h.pub o)]
  have : pyIndex (L o).length (t : Int) = some t := by
    unfold pyIndex
    rw [if_pos (by omega), if_pos (by omega)]
    rfl
  rw [this]

theorem Lives.oset_end {E : DEnv K} {d : Dice K} {lk : OName → Bool} {L : Series K} (h : Lives E d lk L) {o : OName}
    {t : Nat} (ht : (L o).length ≤ t) (x : Fl K) : (Openscm.oset E o t x d).1 = .error .indexError := by
  rw [oset_fst (h.ov o) (h.pub o)]
  have : pyIndex (L o).length (t : Int) = none := by
    unfold pyIndex
    rw [if_pos (by omega), if_neg (by omega)]
  rw [this]

theorem eget_ok {E : DEnv K} {d : Dice K} {t : Nat} (ht : t < (emis E d).length) :
    ∃ d', Openscm.eget E t d = (.ok ((emis E d).getD t .nan), d') := by
  unfold emis at ht ⊢
  cases he : d.e with
  | none => rw [he] at ht; simp at ht
  | some i =>
    rw [he] at ht
    simp only at ht ⊢
    cases hr : (call E.env (.tGet i) d.inp).1 with
    | error e => rw [hr] at ht; simp at ht
    | ok o =>
      rw [hr] at ht
      cases o with
      | arr a =>
        simp only at ht ⊢
        have h1 : call E.env (.tGet i) d.inp = (.ok (.arr a), (call E.env (.tGet i) d.inp).2) := Prod.ext hr rfl
        have h2 : (readT i >>= fun _ => (handle i >>= fun d => (pure (Out.arr d) : M K GVal (Out K GVal)))) d.inp
          = (.ok (.arr a), (call E.env (.tGet i) d.inp).2) := h1
        obtain ⟨_, s1, g1, g2⟩ := M.bind_inv h2
        obtain ⟨b, s2, g3, g4⟩ := M.bind_inv g2
        have g4 : ((Except.ok (Out.arr b) : Res K GVal), s2) = (.ok (.arr a), _) := g4
        simp only [Prod.mk.injEq, Except.ok.injEq, Out.arr.injEq] at g4
        obtain ⟨rfl, _⟩ := g4
        have hx : b.getItem (t : Int) = .ok (b.vals.getD t .nan) := by
          unfold Arr.getItem
          have : pyIndex b.length (t : Int) = some t := by
            unfold pyIndex
            have hl : b.length = b.vals.length := by cases b <;> simp [Arr.length, Arr.vals]
            rw [if_pos (by omega), if_pos (by rw [hl]; omega)]
            rfl
          rw [this]
          simp only [List.getElem?_eq_getElem ht, List.getD_eq_getElem?_getD, Option.getD_some]
        have h3 : call E.env (.tGetItem i t) d.inp = (.ok (.num (b.vals.getD t .nan)), s2) := by
          show (readT i >>= fun _ => (handle i >>= fun d => (M.ofExcept (d.getItem (t : Int)) >>= fun x =>
            (pure (Out.num x) : M K GVal (Out K GVal))))) d.inp = _
          rw [M.bind_ok g1, M.bind_ok g3, hx]; rfl
        refine ⟨{ d with inp := s2 }, ?_⟩
        unfold eget
        rw [DM.bind_ok (DM.attr_some he)]
        have h4 : onInp E (.tGetItem i t) d = (.ok (.num (b.vals.getD t .nan)), { d with inp := s2 }) := by
          rw [onInp_eq, h3]
        rw [DM.bind_ok h4]; rfl
      | _ => simp at ht

/-! ## The parts of a step -/

theorem stepMat_ok {E : DEnv K} {d : Dice K} {lk : OName → Bool} {L : Series K} (h : Lives E d lk L) {W : DiceInputs K}
    (ha : Able d W) (k u : Int) {t : Nat} (ht : 0 < t) (he : t - 1 < (emis E d).length) (hp : ∀ o, t - 1 < (L o).length) :
    (t < (L .mat).length → ∃ d', stepMat E k u t d = (.ok (), d')) ∧
      ((L .mat).length ≤ t → (stepMat E k u t d).1 = .error .indexError) := by
  have ht' : ((t : Int) - 1) = ((t - 1 : Nat) : Int) := by omega
  obtain ⟨c1, c2, _⟩ := ha.coefs
  obtain ⟨d1, hd1⟩ := eget_ok (E := E) he
  obtain ⟨_, _, l1, k1, _, _⟩ := h.eget hd1
  have ha1 := ha.ctl k1
  have key : ∃ x, stepMat E k u t d = Openscm.oset E .mat t x d1 := by
    unfold stepMat
    rw [ht', DM.bind_ok (ha.sget _), DM.bind_ok (h.oget (hp _)), DM.bind_ok (coef_ok c1), DM.bind_ok (h.oget (hp _)),
      DM.bind_ok (coef_ok c2), DM.bind_ok hd1, DM.bind_ok (gbool_ok ha1.rounding)]
    exact ⟨_, rfl⟩
  obtain ⟨x, key⟩ := key
  rw [key]
  exact ⟨fun hlt => l1.oset hlt x, fun hle => l1.oset_end hle x⟩

theorem stepMl_ok {E : DEnv K} {d : Dice K} {lk : OName → Bool} {L : Series K} (h : Lives E d lk L) {W : DiceInputs K}
    (ha : Able d W) {t : Nat} (ht : 0 < t) (hlt : ∀ o, t < (L o).length) : ∃ d', stepMl E t d = (.ok (), d') := by
  have ht' : ((t : Int) - 1) = ((t - 1 : Nat) : Int) := by omega
  have hp : ∀ o, t - 1 < (L o).length := fun o => by have := hlt o; omega
  obtain ⟨c1, c2, c3, c4, c5⟩ := ha.coefs
  unfold stepMl
  rw [ht', DM.bind_ok (ha.sget _), DM.bind_ok (h.oget (hp _)), DM.bind_ok (coef_ok c5), DM.bind_ok (h.oget (hp _)),
    DM.bind_ok (ha.sget _)]
  exact h.oset (hlt _) _

theorem stepMu_ok {E : DEnv K} {d : Dice K} {lk : OName → Bool} {L : Series K} (h : Lives E d lk L) {W : DiceInputs K}
    (ha : Able d W) {t : Nat} (ht : 0 < t) (hlt : ∀ o, t < (L o).length) : ∃ d', stepMu E t d = (.ok (), d') := by
  have ht' : ((t : Int) - 1) = ((t - 1 : Nat) : Int) := by omega
  have hp : ∀ o, t - 1 < (L o).length := fun o => by have := hlt o; omega
  obtain ⟨c1, c2, c3, c4, c5⟩ := ha.coefs
  unfold stepMu
  rw [ht', DM.bind_ok (ha.sget _), DM.bind_ok (h.oget (hp _)), DM.bind_ok (ha.sget _), DM.bind_ok (h.oget (hp _)),
    DM.bind_ok (coef_ok c3), DM.bind_ok (h.oget (hp _)), DM.bind_ok (coef_ok c4)]
  exact h.oset (hlt _) _

theorem stepTocean_ok {E : DEnv K} {d : Dice K} {lk : OName → Bool} {L : Series K} (h : Lives E d lk L)
    {W : DiceInputs K} (ha : Able d W) {t : Nat} (ht : 0 < t) (hlt : ∀ o, t < (L o).length) :
    ∃ d', stepTocean E t d = (.ok (), d') := by
  have ht' : ((t : Int) - 1) = ((t - 1 : Nat) : Int) := by omega
  have hp : ∀ o, t - 1 < (L o).length := fun o => by have := hlt o; omega
  unfold stepTocean
  rw [ht', DM.bind_ok (ha.sget _), DM.bind_ok (ha.sget _), DM.bind_ok (h.oget (hp _)), DM.bind_ok (ha.sget _),
    DM.bind_ok (h.oget (hp _))]
  exact h.oset (hlt _) _

theorem forcothStep_ok {E : DEnv K} {d : Dice K} {W : DiceInputs K} (ha : Able d W) (t : Nat) :
    ∃ x, forcothStep E t d = (.ok x, d) := by
  unfold forcothStep
  rw [DM.bind_ok (gtime_ok ha.start), DM.bind_ok (gdelta_ok ha.period)]
  simp only
  rw [DM.bind_ok (gtime_ok ha.sat)]
  split
  · exact ⟨_, ha.sget _⟩
  · rw [DM.bind_ok (ha.sget _), DM.bind_ok (ha.sget _)]
    exact ⟨_, rfl⟩

theorem stepForc_ok {E : DEnv K} {d : Dice K} {lk : OName → Bool} {L : Series K} (h : Lives E d lk L) {W : DiceInputs K}
    (ha : Able d W) {t : Nat} (hlt : ∀ o, t < (L o).length) {q l : Fl K}
    (hq : Fl.quot (col L t .mat) (W.p .mateq) = .ok q) (hl : Fl.log2 E.lg q = .ok l) :
    ∃ d', stepForc E t d = (.ok (), d') := by
  obtain ⟨x, hx⟩ := forcothStep_ok (E := E) ha t
  have e1 : (DM.ofExcept (Fl.quot (col L t .mat) (W.p .mateq)) : DM K (Fl K)) d = (.ok q, d) := by rw [hq]; rfl
  have e2 : (DM.ofExcept (Fl.log2 E.lg q) : DM K (Fl K)) d = (.ok l, d) := by rw [hl]; rfl
  unfold stepForc
  rw [DM.bind_ok hx, DM.bind_ok (ha.sget _), DM.bind_ok (h.oget (hlt _)), DM.bind_ok (ha.sget _), DM.bind_ok e1,
    DM.bind_ok e2]
  exact h.oset (hlt _) _

theorem stepTatm_ok {E : DEnv K} {d : Dice K} {lk : OName → Bool} {L : Series K} (h : Lives E d lk L) {W : DiceInputs K}
    (ha : Able d W) {t : Nat} (ht : 0 < t) (hlt : ∀ o, t < (L o).length) {lam : Fl K}
    (hl : Fl.quot (W.p .fco22x) (W.p .t2xco2) = .ok lam) : ∃ d', stepTatm E t d = (.ok (), d') := by
  have ht' : ((t : Int) - 1) = ((t - 1 : Nat) : Int) := by omega
  have hp : ∀ o, t - 1 < (L o).length := fun o => by have := hlt o; omega
  have e1 : (DM.ofExcept (Fl.quot (W.p .fco22x) (W.p .t2xco2)) : DM K (Fl K)) d = (.ok lam, d) := by rw [hl]; rfl
  unfold stepTatm
  rw [ht', DM.bind_ok (ha.sget _), DM.bind_ok (h.oget (hp _)), DM.bind_ok (ha.sget _), DM.bind_ok (h.oget (hlt _)),
    DM.bind_ok (ha.sget _), DM.bind_ok (ha.sget _), DM.bind_ok e1, DM.bind_ok (ha.sget _), DM.bind_ok (h.oget (hp _))]
  exact h.oset (hlt _) _

/-! ## A step -/

theorem calcStep_ok {E : DEnv K} {d : Dice K} {lk : OName → Bool} {L : Series K} (h : Lives E d lk L) {W : DiceInputs K}
    (ha : Able d W) (he : d.timestep < (emis E d).length) (hp : ∀ o, d.timestep < (L o).length) :
    ((∀ o, d.timestep + 1 < (L o).length) →
      (∃ c, DiceStep E.lg E.env.trunc (inputsOf E d) (coefsOf d) (d.timestep + 1) (col L d.timestep) c) →
      ∃ d', calcStep E d = (.ok (), d')) ∧
    ((L .mat).length ≤ d.timestep + 1 → (calcStep E d).1 = .error .indexError) := by
  have hin : ∀ n, (inputsOf E d).p n = W.p n := by
    intro n
    show pval d n = _
    unfold pval
    rw [ha.svals]
  have hdv : dval d .period_length = (W.ticks, W.tick) := by
    unfold dval
    rw [ha.period]
  have htk : (inputsOf E d).ticks = W.ticks := by
    show (dval d .period_length).1 = _
    rw [hdv]
  have htu : (inputsOf E d).tick = W.tick := by
    show (dval d .period_length).2 = _
    rw [hdv]
  obtain ⟨d4, hd4⟩ : ∃ d4 : Dice K, d4 = { d with
      timestep := d.timestep + 1, current := d.current + W.ticks * W.tick } := ⟨_, rfl⟩
  have ho : d4.out = d.out := by rw [hd4]
  have hv : d4.ov = d.ov := by rw [hd4]
  have hI : inputsOf E d4 = inputsOf E d := by rw [hd4]; rfl
  have hl : Lives E d4 lk L :=
    ⟨by rw [hd4]; exact h.inp, by rw [ho]; exact h.out, h.keys.of_out ho hv,
      fun o => (h.ov o).same (.of_out ho hv o), fun o => (h.pub o).stat (OStat_of_out ho hv o)⟩
  have ha4 : Able d4 W := by rw [hd4]; exact ⟨ha.svals, ha.start, ha.sat, ha.period, ha.rounding, ha.attrs⟩
  have he4 : (d.timestep + 1) - 1 < (emis E d4).length := by rw [hd4]; exact he
  have hp4 : ∀ o, (d.timestep + 1) - 1 < (L o).length := hp
  have hcs : calcStep E d = (stepMat E W.ticks W.tick (d.timestep + 1) >>= fun _ => (stepMl E (d.timestep + 1) >>= fun _ =>
      (stepMu E (d.timestep + 1) >>= fun _ => (stepTocean E (d.timestep + 1) >>= fun _ =>
        (stepForc E (d.timestep + 1) >>= fun _ => stepTatm E (d.timestep + 1)))))) d4 := by
    unfold calcStep
    have m1 : (DM.modify (fun d => { d with timestep := d.timestep + 1 }) : DM K Unit) d
      = (.ok (), { d with timestep := d.timestep + 1 }) := rfl
    have g1 : gdelta E .period_length { d with timestep := d.timestep + 1 }
      = (.ok (W.ticks, W.tick), { d with timestep := d.timestep + 1 }) := gdelta_ok ha.period
    have m2 : (DM.modify (fun d => { d with current := d.current + W.ticks * W.tick }) : DM K Unit)
        { d with timestep := d.timestep + 1 } = (.ok (), d4) := by rw [hd4]; rfl
    have g2 : (DM.gets (·.timestep) : DM K Nat) d4 = (.ok (d.timestep + 1), d4) := by rw [hd4]; rfl
    rw [DM.bind_ok m1, DM.bind_ok g1]
    simp only
    rw [DM.bind_ok m2, DM.bind_ok g2]
  obtain ⟨f1, f2⟩ := stepMat_ok hl ha4 W.ticks W.tick (Nat.succ_pos _) he4 hp4
  rw [hcs]
  refine ⟨fun hlt hc => ?_, fun hle => ?_⟩
  · obtain ⟨c, hc⟩ := hc
    have tpos : 0 < d.timestep + 1 := Nat.succ_pos _
    have hne : d.timestep + 1 - 1 ≠ d.timestep + 1 := by omega
    obtain ⟨d5, a5⟩ := f1 (hlt _)
    rw [DM.bind_ok a5]
    have a5' := a5
    rw [← htk, ← htu, ← hI] at a5'
    obtain ⟨p5, -⟩ := stepMat_spec hl tpos a5'
    obtain ⟨xm, hm, p5⟩ := p5.ex
    have ha5 := ha4.ctl p5.ctl
    obtain ⟨d6, a6⟩ := stepMl_ok p5.lives ha5 tpos (fun o => by rw [put_length]; exact hlt o)
    rw [DM.bind_ok a6]
    obtain ⟨xl, hml, p6⟩ := (stepMl_spec p5.lives tpos a6).ex
    have ha6 := ha5.ctl p6.ctl
    obtain ⟨d7, a7⟩ := stepMu_ok p6.lives ha6 tpos (fun o => by rw [put_length, put_length]; exact hlt o)
    rw [DM.bind_ok a7]
    obtain ⟨xu, hmu, p7⟩ := (stepMu_spec p6.lives tpos a7).ex
    have ha7 := ha6.ctl p7.ctl
    obtain ⟨d8, a8⟩ := stepTocean_ok p7.lives ha7 tpos (fun o => by rw [put_length, put_length, put_length]; exact hlt o)
    rw [DM.bind_ok a8]
    obtain ⟨xo, hto, p8⟩ := (stepTocean_spec p7.lives tpos a8).ex
    have ha8 := ha7.ctl p8.ctl
    have hmat : col ((((L.put .mat (d.timestep + 1) xm).put .ml (d.timestep + 1) xl).put .mu (d.timestep + 1) xu).put
        .tocean (d.timestep + 1) xo) (d.timestep + 1) .mat = xm := by
      unfold col
      rw [put_other (by decide), put_other (by decide), put_other (by decide)]
      exact col_put_self (hlt _)
    have hcm : xm = c .mat := by
      rw [hm, hc.mat, hI]
      have : coefsOf d4 = coefsOf d := by rw [hd4]; rfl
      rw [this]; rfl
    obtain ⟨q, l, q1, q2, _⟩ := hc.forc
    rw [← hcm, hin] at q1
    obtain ⟨d9, a9⟩ := stepForc_ok p8.lives ha8
      (fun o => by rw [put_length, put_length, put_length, put_length]; exact hlt o) (by rw [hmat]; exact q1) q2
    rw [DM.bind_ok a9]
    obtain ⟨q', l', _, _, p9⟩ := stepForc_spec p8.lives a9
    obtain ⟨xf, hf, p9⟩ := p9.ex
    have ha9 := ha8.ctl p9.ctl
    obtain ⟨lam, l1, _⟩ := hc.tatm
    rw [hin, hin] at l1
    exact stepTatm_ok p9.lives ha9 tpos
      (fun o => by rw [put_length, put_length, put_length, put_length, put_length]; exact hlt o) l1
  · have := f2 hle
    have : stepMat E W.ticks W.tick (d.timestep + 1) d4
      = (.error .indexError, (stepMat E W.ticks W.tick (d.timestep + 1) d4).2) := Prod.ext this rfl
    rw [DM.bind_error this]

/-- `n` steps succeed if the values exist. -/
theorem steps_ok {E : DEnv K} {lk : OName → Bool} {W : DiceInputs K} : ∀ (n : Nat) {d : Dice K} {L M : Series K},
    Lives E d lk L → Able d W → (n ≠ 0 → d.timestep + n ≤ (emis E d).length) → (∀ o, d.timestep + n < (L o).length) →
    col M d.timestep = col L d.timestep → Trajectory E.lg E.env.trunc (inputsOf E d) (coefsOf d) d.timestep n M →
    ∃ d', steps E n d = (.ok (), d')
  | 0, d, L, M, _, _, _, _, _, _ => ⟨d, rfl⟩
  | n + 1, d, L, M, h, ha, he, hlt, hcol, ht => by
    have he := he (by omega)
    have h0 : DiceStep E.lg E.env.trunc (inputsOf E d) (coefsOf d) (d.timestep + 1) (col L d.timestep)
        (col M (d.timestep + 1)) := by
      rw [← hcol]
      exact ht 0 (by omega)
    obtain ⟨d1, a1⟩ := (calcStep_ok h ha (by omega) (fun o => by have := hlt o; omega)).1
      (fun o => by have := hlt o; omega) ⟨_, h0⟩
    obtain ⟨c, c1, c2, c3, c4, c5, c6, c7⟩ := calcStep_spec h a1
    have hem : emis E d1 = emis E d := congrArg DiceInputs.emissions c5.inputs
    obtain ⟨d', hd'⟩ := steps_ok (L := L.putAll (d.timestep + 1) c) (M := M) n c4 (ha.ctl c5)
      (by rw [hem, c6]; omega) (fun o => by
        have := hlt o
        rw [c6]
        show _ < ((L o).set _ _).length
        rw [List.length_set]; omega)
      (by
        rw [c6, col_putAll_self c2]
        exact h0.det c1)
      (by
        intro j hj
        rw [c5.inputs, c5.coefs, c6]
        have := ht (j + 1) (by omega)
        have e : d.timestep + 1 + j = d.timestep + (j + 1) := by omega
        rw [e]
        exact this)
    refine ⟨d', ?_⟩
    show (calcStep E >>= fun _ => steps E n) d = _
    rw [DM.bind_ok a1, hd']

end Openscm

namespace Openscm
variable {K : Type} [Field K] [LinearOrder K] [IsStrictOrderedRing K]

/-! ## Running -/

theorem Lives.lock_ok {E : DEnv K} {d : Dice K} {lk : OName → Bool} {L : Series K} (h : Lives E d lk L) (o : OName) :
    ∃ d', lockOutput E o d = (.ok (), d') := ok_of_fst (lock_fst (h.ov o))

theorem Lives.unlock_ok {E : DEnv K} {d : Dice K} {lk : OName → Bool} {L : Series K} (h : Lives E d lk L) (o : OName) :
    ∃ d', unlockOutput E o d = (.ok (), d') := ok_of_fst (unlock_fst (h.ov o) (h.pub o))

theorem diceRun_ok {E : DEnv K} {d : Dice K} {lk : OName → Bool} {W : DiceInputs K} {L M : Series K}
    (h : Lives E d lk L) (ha : Able d W)
    (he : (d.count - 1).toNat ≠ 0 → d.timestep + (d.count - 1).toNat ≤ (emis E d).length)
    (hlt : ∀ o, d.timestep + (d.count - 1).toNat < (L o).length) (hcol : col M d.timestep = col L d.timestep)
    (ht : Trajectory E.lg E.env.trunc (inputsOf E d) (coefsOf d) d.timestep (d.count - 1).toNat M) :
    ∃ d', diceRun E d = (.ok (), d') := by
  unfold diceRun
  obtain ⟨d1, a1⟩ := h.lock_ok .mat
  obtain ⟨h1, c1, t1, r1⟩ := h.lock a1
  obtain ⟨d2, a2⟩ := h1.lock_ok .ml
  obtain ⟨h2, c2, t2, r2⟩ := h1.lock a2
  obtain ⟨d3, a3⟩ := h2.lock_ok .mu
  obtain ⟨h3, c3, t3, r3⟩ := h2.lock a3
  obtain ⟨d4, a4⟩ := h3.lock_ok .tatm
  obtain ⟨h4, c4, t4, r4⟩ := h3.lock a4
  obtain ⟨d5, a5⟩ := h4.lock_ok .tocean
  obtain ⟨h5, c5, t5, r5⟩ := h4.lock a5
  obtain ⟨d6, a6⟩ := h5.lock_ok .forc
  obtain ⟨h6, c6, t6, r6⟩ := h5.lock a6
  have C := ((((c1.trans c2).trans c3).trans c4).trans c5).trans c6
  have T : d6.timestep = d.timestep := by rw [t6, t5, t4, t3, t2, t1]
  have hem : emis E d6 = emis E d := congrArg DiceInputs.emissions C.inputs
  have g7 : (DM.gets (·.count) : DM K Int) d6 = (.ok d.count, d6) := by
    show ((Except.ok d6.count : Except Err Int), d6) = _
    rw [C.count]
  obtain ⟨d8, a8⟩ := steps_ok (M := M) (d.count - 1).toNat h6 (ha.ctl C) (by rw [T, hem]; exact he)
    (fun o => by rw [T]; exact hlt o) (by rw [T]; exact hcol) (by rw [T, C.inputs, C.coefs]; exact ht)
  obtain ⟨L', s1, _⟩ := steps_spec _ h6 a8
  obtain ⟨f1, b1⟩ := s1.unlock_ok .forc
  obtain ⟨u1, _⟩ := s1.unlock b1
  obtain ⟨f2, b2⟩ := u1.unlock_ok .mat
  obtain ⟨u2, _⟩ := u1.unlock b2
  obtain ⟨f3, b3⟩ := u2.unlock_ok .ml
  obtain ⟨u3, _⟩ := u2.unlock b3
  obtain ⟨f4, b4⟩ := u3.unlock_ok .mu
  obtain ⟨u4, _⟩ := u3.unlock b4
  obtain ⟨f5, b5⟩ := u4.unlock_ok .tatm
  obtain ⟨u5, _⟩ := u4.unlock b5
  obtain ⟨f6, b6⟩ := u5.unlock_ok .tocean
  obtain ⟨u6, _⟩ := u5.unlock b6
  obtain ⟨f7, b7⟩ := u6.unlock_ok .forc
  refine ⟨f7, ?_⟩
  rw [DM.bind_ok a1, DM.bind_ok a2, DM.bind_ok a3, DM.bind_ok a4, DM.bind_ok a5, DM.bind_ok a6, DM.bind_ok g7,
    DM.bind_ok a8, DM.bind_ok b1, DM.bind_ok b2, DM.bind_ok b3, DM.bind_ok b4, DM.bind_ok b5, DM.bind_ok b6, b7]

/-! ## Resetting -/

/-- A reset of an output that succeeds shows that the array can be assigned. -/
theorem resetOutput_outcome {E : DEnv K} {d d' : Dice K} (hi : Inv E.env d.out) {o : OName}
    (h : OFresh d o) {junk : Nat → Fl K} {x : DM K (Fl K)} (hg : resetOutput E o junk x d = (.ok (), d')) :
    ∃ y, OStat d o = some y ∧ setOutcome y ((List.range d.count.toNat).map junk) = .ok () := by
  unfold resetOutput at hg
  obtain ⟨n, d1, h1, h2⟩ := DM.bind_inv hg
  obtain ⟨rfl, rfl⟩ := DM.gets_inv h1
  by_cases hn : d1.count < 0
  · rw [if_pos hn] at h2; exact (DM.throw_inv h2).elim
  · rw [if_neg hn] at h2
    obtain ⟨i, d2, h3, h4⟩ := DM.bind_inv h2
    obtain ⟨hov, rfl⟩ := DM.attr_inv h3
    obtain ⟨r, d3, h5, h6⟩ := DM.bind_inv h4
    rw [onOut_eq] at h5
    simp only [Prod.mk.injEq] at h5
    obtain ⟨y, y1, y2⟩ := tSet_fst (E := E) hi hov h ((List.range d2.count.toNat).map junk)
    refine ⟨y, y1, ?_⟩
    rw [h5.1] at y2
    cases hs : setOutcome y ((List.range d2.count.toNat).map junk) with
    | ok u => rfl
    | error e => rw [hs] at y2; cases y2

theorem resetOutput_ok {E : DEnv K} {d : Dice K} (hi : Inv E.env d.out) (hk : OKeys d) {o : OName}
    (h : OFresh d o) (junk : Nat → Fl K) {x : DM K (Fl K)} {f : Dice K → Except Err (Fl K)}
    (hx : ∀ d, x d = (f d, d)) (hf : ∀ s, ∃ z, f { d with out := s } = .ok z) (hpos : 0 < d.count)
    {y : Conv K × TSConv K × Param K GVal} (hy : OStat d o = some y) {l : List (Fl K)} (hl : l.length = d.count.toNat)
    (hs : setOutcome y l = .ok ()) : ∃ d', resetOutput E o junk x d = (.ok (), d') := by
  obtain ⟨i, v, k1, k2, k3, k4⟩ := id h
  unfold resetOutput
  have g0 : (DM.gets (·.count) : DM K Int) d = (.ok d.count, d) := rfl
  rw [DM.bind_ok g0, if_neg (by omega), DM.bind_ok (DM.attr_some k1)]
  obtain ⟨y', y1, y2⟩ := tSet_fst (E := E) hi k1 h ((List.range d.count.toNat).map junk)
  rw [hy] at y1
  cases y1
  have hs' : setOutcome y ((List.range d.count.toNat).map junk) = .ok () := by
    rw [← hs]; exact setOutcome_length (by simp [hl])
  rw [hs'] at y2
  have y2 : (call E.env (.tSet i (.floats ((List.range d.count.toNat).map junk))) d.out).1 = .ok .done := y2
  obtain ⟨s1, g1⟩ : ∃ s1, call E.env (.tSet i (.floats ((List.range d.count.toNat).map junk))) d.out = (.ok .done, s1) :=
    ⟨_, Prod.ext y2 rfl⟩
  have g2 : onOut E (.tSet i (.floats ((List.range d.count.toNat).map junk))) d = (.ok .done, { d with out := s1 }) := by
    rw [onOut_eq, g1]
  rw [DM.bind_ok g2]
  obtain ⟨z, hz⟩ := hf s1
  have g3 : x { d with out := s1 } = (.ok z, { d with out := s1 }) := by rw [hx, hz]
  rw [DM.bind_ok g3]
  obtain ⟨w1, w2⟩ := tSet_inv (E := E) hi hk k1 h g1
  apply ok_of_fst
  rw [oset_fst w1 w1.pub]
  have : pyIndex ((List.range d.count.toNat).map junk).length 0 = some 0 := by
    unfold pyIndex
    rw [if_pos (by omega), if_pos (by simp; omega)]
    rfl
  rw [this]

/-- The arrays of all outputs can be assigned. -/
def Assignable (d : Dice K) : Prop :=
  0 < d.count ∧ ∀ o, ∃ y l, OStat d o = some y ∧ l.length = d.count.toNat ∧ setOutcome y l = .ok ()

theorem Setup.step_ok {E : DEnv K} {d0 d : Dice K} {done : OName → Option (List (Fl K))}
    (h : Setup E d0 d done) {o : OName} (ho : done o = none) (junk : Nat → Fl K) {x : DM K (Fl K)}
    {y : Dice K → Except Err (Fl K)} (hx : ∀ d, x d = (y d, d)) (hy : ∀ d s, y { d with out := s } = y d)
    {z : Fl K} (hz : y d0 = .ok z) (ha : Assignable d0) : ∃ d', resetOutput E o junk x d = (.ok (), d') := by
  have hc : d.count = d0.count := by rw [h.eq]
  obtain ⟨hpos, ha⟩ := ha
  obtain ⟨w, l, w1, w2, w3⟩ := ha o
  have hs := h.stat o
  rw [ho] at hs
  simp only [Option.isSome_none, Bool.false_eq_true, if_false] at hs
  refine resetOutput_ok h.out h.keys (h.fresh o ho) junk hx (fun s => ⟨z, ?_⟩) (by rw [hc]; exact hpos)
    (hs.trans w1) (by rw [hc]; exact w2) w3
  rw [hy, h.eq, hy]; exact hz

theorem Setup.outcome {E : DEnv K} {d0 d d' : Dice K} {done : OName → Option (List (Fl K))}
    (h : Setup E d0 d done) {o : OName} (ho : done o = none) {junk : Nat → Fl K} {x : DM K (Fl K)}
    (hg : resetOutput E o junk x d = (.ok (), d')) :
    ∃ y l, OStat d0 o = some y ∧ l.length = d0.count.toNat ∧ setOutcome y l = .ok () := by
  have hc : d.count = d0.count := by rw [h.eq]
  obtain ⟨y, y1, y2⟩ := resetOutput_outcome h.out (h.fresh o ho) hg
  have hs := h.stat o
  rw [ho] at hs
  simp only [Option.isSome_none, Bool.false_eq_true, if_false] at hs
  exact ⟨y, _, hs ▸ y1, by simp [hc], y2⟩

/-- Success of a reset: the numbers exist and the arrays can be assigned. -/
theorem diceReset_assignable {E : DEnv K} {junk : OName → Nat → Fl K} {d d' : Dice K}
    (hi : Inv E.env d.inp) (ho : Inv E.env d.out) (hk : OKeys d) (hf : ∀ o, OFresh d o)
    (hg : diceReset E junk d = (.ok (), d')) : Assignable d := by
  unfold diceReset at hg
  obtain ⟨_, d1, a1, g1⟩ := DM.bind_inv hg
  have e1 := DM.modify_inv a1
  obtain ⟨b12, d2, a2, g2⟩ := DM.bind_inv g1
  obtain ⟨e2, r2⟩ := sget_pval a2
  obtain ⟨_, d3, a3, g3⟩ := DM.bind_inv g2
  have e3 := DM.modify_inv a3
  obtain ⟨mateq, d4, a4, g4⟩ := DM.bind_inv g3
  obtain ⟨e4, r4⟩ := sget_pval a4
  obtain ⟨mueq, d5, a5, g5⟩ := DM.bind_inv g4
  obtain ⟨e5, r5⟩ := sget_pval a5
  obtain ⟨b21, d6, a6, g6⟩ := DM.bind_inv g5
  obtain ⟨e6, r6⟩ := DM.ofExcept_inv a6
  obtain ⟨_, d7, a7, g7⟩ := DM.bind_inv g6
  have e7 := DM.modify_inv a7
  obtain ⟨b23, d8, a8, g8⟩ := DM.bind_inv g7
  obtain ⟨e8, r8⟩ := sget_pval a8
  obtain ⟨_, d9, a9, g9⟩ := DM.bind_inv g8
  have e9 := DM.modify_inv a9
  obtain ⟨mleq, d10, a10, g10⟩ := DM.bind_inv g9
  obtain ⟨e10, r10⟩ := sget_pval a10
  obtain ⟨b32, d11, a11, g11⟩ := DM.bind_inv g10
  obtain ⟨e11, r11⟩ := DM.ofExcept_inv a11
  obtain ⟨_, d12, a12, g12⟩ := DM.bind_inv g11
  have e12 := DM.modify_inv a12
  have hd : d12 = { d with
      timestep := 0, b11 := some (.num 1 - b12), b21 := some b21,
      b22 := some (.num 1 - b21 - b23), b32 := some b32, b33 := some (.num 1 - b32) } := by
    rw [e12, r11, r10, e9, r8, e7, r6, r5, r4, e3, r2, e1]
  have hcount : d12.count = d.count := by rw [hd]
  have hout : d12.out = d.out := by rw [hd]
  have hov : d12.ov = d.ov := by rw [hd]
  have hb : ∀ (n : SName) (d : Dice K) (s : St K GVal),
      (fun d => sval d n) { d with out := s } = (fun d => sval d n) d := fun _ _ _ => rfl
  have s0 : Setup E d12 d12 (fun _ => none) :=
    ⟨by rw [hd]; exact hi, by rw [hout]; exact ho, hk.of_out hout hov, fun _ _ h => by simp at h,
      fun o _ => (hf o).same (.of_out hout hov o), rfl, .refl _, fun o => rfl⟩
  obtain ⟨_, f1, c1, k1⟩ := DM.bind_inv g12
  obtain ⟨z1, hpos, y1, s1⟩ := s0.step rfl (sget_pure E _) (hb _) c1
  obtain ⟨_, f2, c2, k2⟩ := DM.bind_inv k1
  obtain ⟨z2, _, y2, s2⟩ := s1.step rfl (sget_pure E _) (hb _) c2
  obtain ⟨_, f3, c3, k3⟩ := DM.bind_inv k2
  obtain ⟨z3, _, y3, s3⟩ := s2.step rfl (sget_pure E _) (hb _) c3
  obtain ⟨_, f4, c4, k4⟩ := DM.bind_inv k3
  obtain ⟨z4, _, y4, s4⟩ := s3.step rfl (sget_pure E _) (hb _) c4
  obtain ⟨_, f5, c5, k5⟩ := DM.bind_inv k4
  obtain ⟨z5, _, y5, s5⟩ := s4.step rfl (sget_pure E _) (hb _) c5
  have key : ∀ o, ∃ y l, OStat d12 o = some y ∧ l.length = d12.count.toNat ∧ setOutcome y l = .ok () := by
    intro o
    cases o
    · exact s0.outcome rfl c1
    · exact s1.outcome rfl c2
    · exact s2.outcome rfl c3
    · exact s3.outcome rfl c4
    · exact s4.outcome rfl c5
    · exact s5.outcome rfl k5
  refine ⟨by rw [← hcount]; exact hpos, fun o => ?_⟩
  obtain ⟨y, l, h1, h2, h3⟩ := key o
  exact ⟨y, l, by rw [← OStat_of_out hout hov o]; exact h1, by rw [← hcount]; exact h2, h3⟩

theorem diceReset_ok {E : DEnv K} (junk : OName → Nat → Fl K) {d : Dice K} {p : SName → Fl K} {C : DiceCoefs K}
    {c : OName → Fl K} (hi : Inv E.env d.inp) (ho : Inv E.env d.out) (hk : OKeys d) (hf : ∀ o, OFresh d o)
    (hp : ∀ n, sval d n = .ok (p n)) (hC : CoefSpec p C) (hc : DiceStart E.lg p c) (ha : Assignable d) :
    ∃ d', diceReset E junk d = (.ok (), d') := by
  obtain ⟨d12, hd⟩ : ∃ d12 : Dice K, d12 = { d with
      timestep := 0, b11 := some (.num 1 - p .b12), b21 := some C.b21,
      b22 := some (.num 1 - C.b21 - p .b23), b32 := some C.b32, b33 := some (.num 1 - C.b32) } := ⟨_, rfl⟩
  have hcount : d12.count = d.count := by rw [hd]
  have hout : d12.out = d.out := by rw [hd]
  have hov : d12.ov = d.ov := by rw [hd]
  have hsv : ∀ n, sval d12 n = .ok (p n) := fun n => by rw [hd]; exact hp n
  have hb : ∀ (n : SName) (d : Dice K) (s : St K GVal),
      (fun d => sval d n) { d with out := s } = (fun d => sval d n) d := fun _ _ _ => rfl
  have s0 : Setup E d12 d12 (fun _ => none) :=
    ⟨by rw [hd]; exact hi, by rw [hout]; exact ho, hk.of_out hout hov, fun _ _ h => by simp at h,
      fun o _ => (hf o).same (.of_out hout hov o), rfl, .refl _, fun o => rfl⟩
  have ha12 : Assignable d12 := by
    refine ⟨by rw [hcount]; exact ha.1, fun o => ?_⟩
    obtain ⟨y, l, h1, h2, h3⟩ := ha.2 o
    exact ⟨y, l, by rw [OStat_of_out hout hov o]; exact h1, by rw [hcount]; exact h2, h3⟩
  obtain ⟨f1, c1⟩ := s0.step_ok (o := .mat) rfl (junk .mat) (sget_pure E .mat0) (hb _) (hsv _) ha12
  obtain ⟨z1, hpos, y1, s1⟩ := s0.step rfl (sget_pure E _) (hb _) c1
  obtain ⟨f2, c2⟩ := s1.step_ok (o := .ml) rfl (junk .ml) (sget_pure E .ml0) (hb _) (hsv _) ha12
  obtain ⟨z2, _, y2, s2⟩ := s1.step rfl (sget_pure E _) (hb _) c2
  obtain ⟨f3, c3⟩ := s2.step_ok (o := .mu) rfl (junk .mu) (sget_pure E .mu0) (hb _) (hsv _) ha12
  obtain ⟨z3, _, y3, s3⟩ := s2.step rfl (sget_pure E _) (hb _) c3
  obtain ⟨f4, c4⟩ := s3.step_ok (o := .tatm) rfl (junk .tatm) (sget_pure E .tatm0) (hb _) (hsv _) ha12
  obtain ⟨z4, _, y4, s4⟩ := s3.step rfl (sget_pure E _) (hb _) c4
  obtain ⟨f5, c5⟩ := s4.step_ok (o := .tocean) rfl (junk .tocean) (sget_pure E .tocean0) (hb _) (hsv _) ha12
  obtain ⟨z5, _, y5, s5⟩ := s4.step rfl (sget_pure E _) (hb _) c5
  have hfb : ∀ (d : Dice K) (s : St K GVal),
      (fun d => (forc0 E d).1) { d with out := s } = (fun d => (forc0 E d).1) d :=
    fun d s => (forc0_peek E d).2 s
  have hz : (fun d => (forc0 E d).1) d12 = .ok (c .forc) := by
    obtain ⟨q, l, q1, q2, q3⟩ := hc.forc
    have e1 : (DM.ofExcept (Fl.quot (p .mat0) (p .mateq)) : DM K (Fl K)) d12 = (.ok q, d12) := by rw [q1]; rfl
    have e2 : (DM.ofExcept (Fl.log2 E.lg q) : DM K (Fl K)) d12 = (.ok l, d12) := by rw [q2]; rfl
    have hg : ∀ n, sget E n d12 = (.ok (p n), d12) := fun n => by rw [sget_eq, hsv]
    show (forc0 E d12).1 = _
    unfold forc0
    rw [DM.bind_ok (hg _), DM.bind_ok (hg _), DM.bind_ok (hg _), DM.bind_ok e1, DM.bind_ok e2, DM.bind_ok (hg _), q3]
    rfl
  obtain ⟨f6, c6⟩ := s5.step_ok (o := .forc) rfl (junk .forc) (forc0_pure E) hfb hz ha12
  refine ⟨f6, ?_⟩
  have hg : ∀ (n : SName) (t : Nat) (x1 x2 x3 x4 x5 : Option (Fl K)),
      sget E n { d with timestep := t, b11 := x1, b21 := x2, b22 := x3, b32 := x4, b33 := x5 } = (.ok (p n),
        { d with timestep := t, b11 := x1, b21 := x2, b22 := x3, b32 := x4, b33 := x5 }) :=
    fun n t x1 x2 x3 x4 x5 => by
      rw [sget_eq]
      have : sval { d with timestep := t, b11 := x1, b21 := x2, b22 := x3, b32 := x4, b33 := x5 } n = .ok (p n) := hp n
      rw [this]
  have hq1 : ∀ d' : Dice K, (DM.ofExcept (Fl.quot (p .b12 * p .mateq) (p .mueq)) : DM K (Fl K)) d' = (.ok C.b21, d') := by
    intro d'; rw [hC.b21]; rfl
  have hq2 : ∀ d' : Dice K, (DM.ofExcept (Fl.quot (p .b23 * p .mueq) (p .mleq)) : DM K (Fl K)) d' = (.ok C.b32, d') := by
    intro d'; rw [hC.b32]; rfl
  have hm : ∀ (f : Dice K → Dice K) (d : Dice K), DM.modify f d = (.ok (), f d) := fun _ _ => rfl
  unfold diceReset
  rw [DM.bind_ok (hm _ _), DM.bind_ok (hg .b12 _ _ _ _ _ _), DM.bind_ok (hm _ _), DM.bind_ok (hg .mateq _ _ _ _ _ _),
    DM.bind_ok (hg .mueq _ _ _ _ _ _), DM.bind_ok (hq1 _), DM.bind_ok (hm _ _), DM.bind_ok (hg .b23 _ _ _ _ _ _),
    DM.bind_ok (hm _ _), DM.bind_ok (hg .mleq _ _ _ _ _ _), DM.bind_ok (hq2 _), DM.bind_ok (hm _ _)]
  have : ∀ d' : Dice K, d' = d12 → ∀ m : DM K Unit, m d12 = (.ok (), f6) → m d' = (.ok (), f6) := by
    intro d' h m hm; rw [h]; exact hm
  refine this _ (by rw [hd]) _ ?_
  rw [DM.bind_ok c1, DM.bind_ok c2, DM.bind_ok c3, DM.bind_ok c4, DM.bind_ok c5]
  exact c6

end Openscm
