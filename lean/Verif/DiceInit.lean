import Verif.DiceCalls

/-!
# The DICE adapter: initialisation

Helper file.
-/

set_option linter.unusedSectionVars false

namespace Openscm
variable {K : Type} [Field K] [LinearOrder K] [IsStrictOrderedRing K]

/-! ## Requests -/

theorem generic_ok {G : Type} {env : Env K} {s : St K G} (hi : Inv env s) {name region : HName} {i : Nat}
    (h : result env s (.generic name region) = .ok (.view i)) :
    ∃ p, HasKey (call env (.generic name region) s).2 p (region.parts, name.parts) ∧
      (call env (.generic name region) s).2.gviews[i]? = some { param := p, writable := false } := by
  have hc : call env (.generic name region) s
      = (genericCall name region >>= fun i => pure (Out.view i : Out K G)) s := rfl
  unfold result at h
  have hsp := reach_spec hi name region
  have hq1 := (quiet_reach env name region s).inv hi
  cases hr : reach name region s with
  | mk r s1 =>
    rw [hr] at hsp hq1
    unfold genericCall at hc
    cases r with
    | error e =>
      rw [M.bind_error (M.bind_error hr)] at hc
      rw [hc] at h; simp at h
    | ok p =>
      rcases hsp with ⟨_, h', _⟩ | ⟨_, _, ⟨h', _⟩ | ⟨p', h1, h2, _⟩⟩
      · simp at h'
      · simp at h'
      · simp only [Except.ok.injEq] at h1; subst h1
        simp only at h2 hq1
        have hqs := quiet_attemptRead env p .generic none none (Or.inl ⟨rfl, rfl⟩) s1
        cases ha : attemptRead p .generic none (none : Option (List K)) s1 with
        | mk r2 s2 =>
          rw [ha] at hqs
          cases r2 with
          | error e =>
            have : (reach name region >>= fun p => attemptRead p .generic none none >>= fun _ =>
                addGView { param := p, writable := false }) s = (.error e, s2) := by
              rw [M.bind_ok hr, M.bind_error ha]
            rw [M.bind_error this] at hc
            rw [hc] at h; simp at h
          | ok u =>
            have : (reach name region >>= fun p => attemptRead p .generic none none >>= fun _ =>
                addGView { param := p, writable := false }) s
                = (.ok s2.gviews.length,
                  { s2 with gviews := s2.gviews ++ [{ param := p, writable := false }] }) := by
              rw [M.bind_ok hr, M.bind_ok ha]; rfl
            rw [M.bind_ok this] at hc
            rw [hc] at h ⊢
            have h : s2.gviews.length = i := by
              have h : (Except.ok (Out.view s2.gviews.length) : Res K G) = .ok (.view i) := h
              simpa using h
            subst h
            have hk2 : HasKey s2 p (region.parts, name.parts) := h2.mono (hqs.pext hq1) hqs.rext
            refine ⟨p, ?_, ?_⟩
            · have hx : PExt s2 { s2 with gviews := s2.gviews ++ [{ param := p, writable := false }] } :=
                .of_eq rfl
              have hy : RExt s2 { s2 with gviews := s2.gviews ++ [{ param := p, writable := false }] } :=
                .of_eq rfl
              exact hk2.mono hx hy
            · show (s2.gviews ++ [_])[s2.gviews.length]? = some _
              simp

/-- Requesting a generic parameter again only hands out a view. -/
theorem generic_again {G : Type} {env : Env K} {s : St K G} (hi : Inv env s) {name region : HName}
    {p : Nat} {P : Param K G} (hk : HasKey s p (region.parts, name.parts)) (hp : s.params[p]? = some P)
    (ht : P.ptype = some .generic) (hr : P.readFrom = true) :
    call env (.generic name region) s = (.ok (.view s.gviews.length),
      { s with gviews := s.gviews ++ [{ param := p, writable := false }] }) := by
  have h1 : reach name region s = (.ok p, s) := reach_existing (ns := []) hi.tree hk (by simp)
  have h2 : attemptRead p .generic none (none : Option (List K)) s = (.ok (), s) := by
    unfold attemptRead
    rw [hp]
    simp only [ht, ne_eq, not_true_eq_false, if_false]
    rw [setParam_id hp (by cases P; simp_all)]
  show (genericCall name region >>= fun i => pure (Out.view i : Out K G)) s = _
  unfold genericCall
  have : (reach name region >>= fun p => attemptRead p .generic none none >>= fun _ =>
      addGView { param := p, writable := false }) s = (.ok s.gviews.length,
      { s with gviews := s.gviews ++ [{ param := p, writable := false }] }) := by
    rw [M.bind_ok h1, M.bind_ok h2]; rfl
  rw [M.bind_ok this]; rfl

/-! ## Nothing non-empty is overwritten -/

/-- Every parameter that was written is unchanged in value and version. -/
def Safe (s s' : St K GVal) : Prop :=
  ∀ (p : Nat) (P : Param K GVal), s.params[p]? = some P → P.written = true → ∃ P', s'.params[p]? = some P' ∧
    P'.written = true ∧ P'.version = P.version ∧ P'.data = P.data

theorem Safe.refl (s : St K GVal) : Safe s s := fun _ P h hw => ⟨P, h, hw, rfl, rfl⟩

theorem Safe.trans {s1 s2 s3 : St K GVal} (h : Safe s1 s2) (h' : Safe s2 s3) : Safe s1 s3 := by
  intro p P hp hw
  obtain ⟨Q, q1, q2, q3, q4⟩ := h p P hp hw
  obtain ⟨R, r1, r2, r3, r4⟩ := h' p Q q1 q2
  exact ⟨R, r1, r2, r3.trans q3, r4.trans q4⟩

theorem Safe.of_params {s s' : St K GVal} (h : s'.params = s.params) : Safe s s' :=
  fun _ P hp hw => ⟨P, by rw [h]; exact hp, hw, rfl, rfl⟩

theorem written_type {env : Env K} {s : St K GVal} (hi : Inv env s) {p : Nat} {P : Param K GVal}
    (hp : s.params[p]? = some P) (hw : P.written = true) : P.ptype ≠ none := by
  intro h
  have h1 := hi.good.params p P hp
  have h2 := (h1.1 hw).2
  have h3 := h1.2
  rw [h] at h3
  rw [h3.1] at h2
  simp at h2

theorem Grow.safe {env : Env K} {s s' : St K GVal} (hi : Inv env s) (h : Grow s s') : Safe s s' := by
  intro p P hp hw
  obtain ⟨P', h1, h2, h3, h4⟩ := h.old p P hp
  exact ⟨P', h1, h2.trans hw, h3, h4 (written_type hi hp hw)⟩

theorem Frame.safe {r : VRef} {p : Nat} {s s' : St K GVal} (h : Frame r p s s') {P : Param K GVal}
    (hp : s.params[p]? = some P) (hw : P.written = false) : Safe s s' := by
  intro q Q hq hw'
  have hne : q ≠ p := by
    rintro rfl
    rw [hp] at hq; cases hq
    rw [hw] at hw'; simp at hw'
  exact ⟨Q, by rw [h.params q hne]; exact hq, hw', rfl, rfl⟩

/-! ## Setting the defaults -/

/-- The view `r` belongs to parameter `k` and shows unit `u`. -/
def ViewOf (s : St K GVal) (r : VRef) (k : Key) (u : Option String) : Prop :=
  ∃ p, viewTarget s r = some (p, u) ∧ HasKey s p k

theorem ViewOf.after {env : Env K} {s : St K GVal} (hi : Inv env s) {r : VRef} {k : Key}
    {u : Option String} (h : ViewOf s r k u) (ops : List (Op K GVal)) :
    ViewOf (Openscm.after env s ops) r k u := by
  obtain ⟨p, h1, h2⟩ := h
  exact ⟨p, after_viewTarget hi ops h1, after_key hi ops h2⟩

theorem onInp_ok {E : DEnv K} {op : Op K GVal} {d d' : Dice K} {o : Out K GVal}
    (h : onInp E op d = (.ok o, d')) :
    (call E.env op d.inp) = (.ok o, d'.inp) ∧ d' = { d with inp := (call E.env op d.inp).2 } := by
  rw [onInp_eq] at h
  simp only [Prod.mk.injEq] at h
  obtain ⟨h1, rfl⟩ := h
  exact ⟨by rw [← h1], rfl⟩

theorem asView_inv {o : Out K GVal} {i : Nat} (h : asView o = .ok i) : o = .view i := by
  cases o <;> simp only [asView, Except.ok.injEq, reduceCtorEq] at h
  rw [h]

theorem asEmpty_inv {o : Out K GVal} {b : Bool} (h : asEmpty o = .ok b) :
    ∃ I, o = .info (some I) ∧ I.empty = b := by
  cases o with
  | info x =>
    cases x with
    | none => simp [asEmpty] at h
    | some I => simp only [asEmpty, Except.ok.injEq] at h; exact ⟨I, rfl, h⟩
  | _ => simp [asEmpty] at h

theorem asGen_inv {o : Out K GVal} {g : Option GVal} (h : asGen o = .ok g) : o = .gen g := by
  cases o <;> simp only [asGen, Except.ok.injEq, reduceCtorEq] at h
  rw [h]

/-- Reading through a view. -/
def readOp : VRef → Op K GVal
  | .s i => .sGet i
  | .t i => .tGet i
  | .g i => .gGet i

/-- There is no value at `k`. -/
def EmptyAt (env : Env K) (s : St K GVal) (k : Key) : Prop :=
  ∀ I, infoAt env s k = some I → I.empty = true

/-- The parameter of view `r` was written. -/
def Filled (s : St K GVal) (r : VRef) : Prop :=
  ∃ p u P, viewTarget s r = some (p, u) ∧ s.params[p]? = some P ∧ P.written = true

theorem emptyAt_iff {env : Env K} {s : St K GVal} (hi : Inv env s) {k : Key} {p : Nat}
    {P : Param K GVal} (hk : HasKey s p k) (hp : s.params[p]? = some P) :
    EmptyAt env s k ↔ P.written = false := by
  unfold EmptyAt
  rw [infoAt_of hi.tree hk hp]
  simp

theorem emptyAt_request {env : Env K} {s : St K GVal} (hi : Inv env s) {op : Op K GVal}
    {nr : HName × HName} (hop : request op = some nr) {k : Key} (hw : EmptyAt env s k) :
    EmptyAt env (call env op s).2 k := by
  have hg := request_grows env op nr hop s hi
  intro I hI
  obtain ⟨p, P, hk, hp, rfl⟩ := (infoAt_some (call_inv op hi).tree).1 hI
  show (!P.written) = true
  cases hq : s.params[p]? with
  | none => rw [(hg.new p P hp hq).1]; rfl
  | some Q =>
    obtain ⟨k', hk'⟩ := HasKey.exists hi.tree hq
    have hk2 := hk'.mono (call_pext op hi) (call_rext op hi)
    obtain rfl := hk2.det hk
    obtain ⟨Q', q1, q2, _⟩ := hg.old p Q hq
    rw [hp] at q1; cases q1
    rw [q2, (emptyAt_iff hi hk' hq).1 hw]; rfl

/-- What one successful `set_parameter` does with the inputs. -/
structure Put (env : Env K) (s s' : St K GVal) (r : VRef) (k : Key) (u : Option String)
    (x : Option (Out K GVal)) : Prop where
  inv : Inv env s'
  calls : ∃ ops, s' = after env s ops
  safe : Safe s s'
  view : ViewOf s' r k u
  filled : x ≠ none → Filled s' r
  /-- An empty parameter gets the default. -/
  default : ∀ o, x = some o → EmptyAt env s k → result env s' (readOp r) = .ok o
  only : ∀ k', k' ≠ k → EmptyAt env s k' → EmptyAt env s' k'

theorem Put.request {env : Env K} {s : St K GVal} (hi : Inv env s) {op : Op K GVal}
    {nr : HName × HName} (hop : request op = some nr) {r : VRef} {p : Nat} {u : Option String}
    {k : Key} {P : Param K GVal} {x : Option (Out K GVal)}
    (hv : viewTarget (call env op s).2 r = some (p, u)) (hk : HasKey (call env op s).2 p k)
    (hp : (call env op s).2.params[p]? = some P) (hw : x = none ∨ P.written = true) :
    Put env s (call env op s).2 r k u x where
  inv := call_inv op hi
  calls := ⟨[op], (after_one _ _ _).symm⟩
  safe := (request_grows env op nr hop s hi).safe hi
  view := ⟨p, hv, hk⟩
  filled hx := ⟨p, u, P, hv, hp, hw.resolve_left hx⟩
  default o ho he := by
    have h1 := (emptyAt_iff (call_inv op hi) hk hp).1 (emptyAt_request hi hop he)
    rcases hw with hw | hw
    · rw [hw] at ho; simp at ho
    · rw [h1] at hw; simp at hw
  only k' _ h := emptyAt_request hi hop h

theorem Put.set {env : Env K} {s : St K GVal} (hi : Inv env s) {op op' : Op K GVal}
    {nr : HName × HName} (hop : Openscm.request op = some nr) {r : VRef} {p : Nat} {u : Option String}
    {k : Key} {P P' : Param K GVal} {x : Out K GVal}
    (hv : viewTarget (call env op s).2 r = some (p, u)) (hk : HasKey (call env op s).2 p k)
    (hp : (call env op s).2.params[p]? = some P) (hw : P.written = false)
    (hc : callee op' = some r)
    (hp' : (call env op' (call env op s).2).2.params[p]? = some P') (hw' : P'.written = true)
    (hx : result env (call env op' (call env op s).2).2 (readOp r) = .ok x) :
    Put env s (call env op' (call env op s).2).2 r k u (some x) := by
  have hi1 := call_inv op hi
  have hi2 := call_inv op' hi1
  have hf : Frame r p (call env op s).2 (call env op' (call env op s).2).2 := by
    rcases call_frame hi1 hc with ⟨p', u', f1, f2⟩ | ⟨f1, _⟩
    · rw [hv] at f1; cases f1; exact f2
    · rw [hv] at f1; simp at f1
  have hview : ViewOf (call env op' (call env op s).2).2 r k u := by
    have := ViewOf.after hi1 (⟨p, hv, hk⟩ : ViewOf (call env op s).2 r k u) [op']
    rwa [after_one] at this
  refine ⟨hi2, ⟨[op, op'], ?_⟩, ?_, hview, ?_, ?_, ?_⟩
  · rw [after_cons, after_one]
  · exact ((request_grows env op nr hop s hi).safe hi).trans (hf.safe hp hw)
  · intro _
    obtain ⟨p', h1, h2⟩ := hview
    have : viewTarget (call env op' (call env op s).2).2 r = some (p, u) := by
      have := after_viewTarget hi1 [op'] hv
      rwa [after_one] at this
    exact ⟨p, u, P', this, hp', hw'⟩
  · intro o ho _
    cases ho; exact hx
  · intro k' hk' he I hI
    obtain ⟨q, Q, q1, q2, rfl⟩ := (infoAt_some hi2.tree).1 hI
    have hne : q ≠ p := by
      rintro rfl
      have := hk.mono (call_pext op' hi1) (call_rext op' hi1)
      exact hk' (q1.det this)
    rw [hf.params q hne] at q2
    obtain ⟨k2, hk2⟩ := HasKey.exists hi1.tree q2
    have := hk2.mono (call_pext op' hi1) (call_rext op' hi1)
    obtain rfl := this.det q1
    have := (emptyAt_iff hi1 hk2 q2).1 (emptyAt_request hi hop he)
    simp [this]

/-- A place for a view in the adapter. -/
abbrev Slot := SName ⊕ GName

def Dice.slot (d : Dice K) : Slot → Option VRef
  | .inl n => (d.sv n).map .s
  | .inr n => (d.gv n).map .g

def Dice.setSlot (d : Dice K) (s : St K GVal) : Slot → Nat → Dice K
  | .inl n, i => { d with inp := s, sv := Function.update d.sv n (some i) }
  | .inr n, i => { d with inp := s, gv := Function.update d.gv n (some i) }

theorem setScalarParameter_spec {E : DEnv K} {d d' : Dice K} (hi : Inv E.env d.inp) {n : SName}
    {full : List String} {unit : String} {x : K}
    (hg : setScalarParameter E n full unit x d = (.ok (), d')) :
    ∃ i, d' = d.setSlot d'.inp (.inl n) i ∧
      Put E.env d.inp d'.inp (.s i) (["World"], full) (some unit) (some (.num (.num x))) := by
  unfold setScalarParameter at hg
  obtain ⟨r, d1, a1, g1⟩ := DM.bind_inv hg
  obtain ⟨i, d2, a2, g2⟩ := DM.bind_inv g1
  obtain ⟨e2, r2⟩ := DM.ofExcept_inv a2
  subst r2
  have := asView_inv e2
  subst this
  obtain ⟨c1, e1⟩ := onInp_ok a1
  have hi1 : Inv E.env d2.inp := by rw [e1]; exact call_inv _ hi
  obtain ⟨p, v, k1, k2, k3, k4, _⟩ := scalar_ok hi (by unfold result; rw [c1])
  have hinp : (call E.env (.scalar (.seq full) unit rootRegion) d.inp).2 = d2.inp := by rw [c1]
  have hview : viewTarget (call E.env (.scalar (.seq full) unit rootRegion) d.inp).2 (.s i)
      = some (p, some unit) := by
    simp [viewTarget, k2, k3, k4]
  obtain ⟨I, d3, a3, g3⟩ := DM.bind_inv g2
  obtain ⟨b, d4, a4, g4⟩ := DM.bind_inv g3
  obtain ⟨e4, r4⟩ := DM.ofExcept_inv a4
  subst r4
  obtain ⟨J, rfl, hJ⟩ := asEmpty_inv e4
  obtain ⟨c3, e3⟩ := onInp_ok a3
  obtain ⟨P, hP, _⟩ := id k1
  rw [vInfo_eq (hinp ▸ hview) (hinp ▸ hP)] at c3 e3
  simp only at e3
  simp only [Prod.mk.injEq, Except.ok.injEq, Out.info.injEq, Option.some.injEq] at c3
  obtain ⟨c3, c3'⟩ := c3
  have hd4 : d4 = d2 := by rw [e3]
  subst hd4
  have hb : b = !P.written := by rw [← hJ, ← c3]; rfl
  by_cases hbt : b = true
  · rw [if_pos hbt] at g4
    obtain ⟨o, d5, a5, g5⟩ := DM.bind_inv g4
    have e6 := DM.modify_inv g5
    obtain ⟨c5, e5⟩ := onInp_ok a5
    have hw : P.written = false := by rw [hbt] at hb; simpa using hb.symm
    have hset : result E.env d4.inp (.sSet i (.num x)) = .ok .done := by
      unfold result
      rw [c5]
      by_cases hch : P.children = []
      · rw [sSet_leaf hi1 (hinp ▸ k2) (by rw [k3]; exact (hinp ▸ hP)) hch] at c5
        simp only [Prod.mk.injEq] at c5
        rw [c5.1]
      · rw [sSet_children hi1 (hinp ▸ k2) (by rw [k3]; exact (hinp ▸ hP)) hch] at c5; simp at c5
    obtain ⟨v', P', s1, s2, s3, s4⟩ := sSet_ok hi1 hset
    rw [hinp] at k2 hP
    rw [k2] at s1; cases s1
    rw [k3, hP] at s2; cases s2
    refine ⟨i, ?_, ?_⟩
    · rw [e6, e5, e1]; rfl
    · have hfin : d'.inp = (call E.env (.sSet i (.num x)) (call E.env (.scalar (.seq full) unit rootRegion) d.inp).2).2 := by
        rw [e6, e5, hinp]
      rw [hfin]
      have hp' : (call E.env (.sSet i (.num x)) (call E.env (.scalar (.seq full) unit rootRegion) d.inp).2).2.params[p]?
          = some (P.put (.scalar ((Fl.num x).map v.conv.convertTo))) := by
        rw [hinp, s4]
        show ((d4.inp.setParam v.param _).params)[p]? = _
        rw [k3, setParam_self, hP]; rfl
      refine Put.set hi (nr := (.seq full, rootRegion)) rfl hview k1 (by rw [hinp]; exact hP) hw rfl hp'
        rfl ?_
      rw [hinp, s4]
      obtain ⟨a, b, q1, q2, q3⟩ := scalar_roundtrip hi1 (x := .num x) k2 k2 (by rw [k3]; exact hP) s3 rfl
      rw [q1] at q2; cases q2
      show result E.env _ (.sGet i) = _
      rw [q3]
      have : (Fl.num x).map (pintTo a a) = .num x := by
        have := a.scale_ne
        simp only [Fl.map, pintTo, UDef.ofBase, UDef.toBase, Fl.num.injEq]
        field_simp; ring
      rw [this]
  · rw [if_neg hbt] at g4
    have e6 := DM.modify_inv g4
    have hw : P.written = true := by
      cases hPw : P.written with
      | true => rfl
      | false => rw [hPw] at hb; exact absurd hb hbt
    refine ⟨i, ?_, ?_⟩
    · rw [e6, e1]; rfl
    · have hfin : d'.inp = (call E.env (.scalar (.seq full) unit rootRegion) d.inp).2 := by rw [e6, hinp]
      rw [hfin]
      exact Put.request hi (nr := (.seq full, rootRegion)) rfl hview k1 hP (Or.inr hw)

theorem setGenericParameter_spec {E : DEnv K} {d d' : Dice K} (hi : Inv E.env d.inp) {n : GName}
    {full : List String} {x : Option GVal}
    (hg : setGenericParameter E n full x d = (.ok (), d')) :
    ∃ i, d' = d.setSlot d'.inp (.inr n) i ∧
      Put E.env d.inp d'.inp (.g i) (["World"], full) none (x.map fun g => .gen (some g)) := by
  unfold setGenericParameter at hg
  obtain ⟨r, d1, a1, g1⟩ := DM.bind_inv hg
  obtain ⟨i, d2, a2, g2⟩ := DM.bind_inv g1
  obtain ⟨e2, r2⟩ := DM.ofExcept_inv a2
  subst r2
  have := asView_inv e2
  subst this
  obtain ⟨c1, e1⟩ := onInp_ok a1
  have hi1 : Inv E.env d2.inp := by rw [e1]; exact call_inv _ hi
  obtain ⟨p, k1, k2⟩ := generic_ok hi (by unfold result; rw [c1])
  have hinp : (call E.env (.generic (.seq full) rootRegion) d.inp).2 = d2.inp := by rw [c1]
  obtain ⟨P, hP, _⟩ := id k1
  have hunit : P.unit = none := by
    rw [hinp] at k2 hP
    obtain ⟨Q, q1, q2, _⟩ := hi1.good.gviews i _ k2
    rw [hP] at q1; cases q1
    have := (hi1.good.params p P hP).2
    rw [q2] at this
    exact this.1
  have hview : viewTarget (call E.env (.generic (.seq full) rootRegion) d.inp).2 (.g i)
      = some (p, none) := by
    simp [viewTarget, k2, hP, hunit]
  cases x with
  | none =>
    have e6 := DM.modify_inv g2
    refine ⟨i, ?_, ?_⟩
    · rw [e6, e1]; rfl
    · have hfin : d'.inp = (call E.env (.generic (.seq full) rootRegion) d.inp).2 := by rw [e6, hinp]
      rw [hfin]
      exact Put.request hi (nr := (.seq full, rootRegion)) rfl hview k1 hP (Or.inl rfl)
  | some g =>
    obtain ⟨I, d3, a3, g3⟩ := DM.bind_inv g2
    obtain ⟨b, d4, a4, g4⟩ := DM.bind_inv g3
    obtain ⟨e4, r4⟩ := DM.ofExcept_inv a4
    subst r4
    obtain ⟨J, rfl, hJ⟩ := asEmpty_inv e4
    obtain ⟨c3, e3⟩ := onInp_ok a3
    rw [vInfo_eq (hinp ▸ hview) (hinp ▸ hP)] at c3 e3
    simp only at e3
    simp only [Prod.mk.injEq, Except.ok.injEq, Out.info.injEq, Option.some.injEq] at c3
    obtain ⟨c3, c3'⟩ := c3
    have hd4 : d4 = d2 := by rw [e3]
    subst hd4
    have hb : b = !P.written := by rw [← hJ, ← c3]; rfl
    by_cases hbt : b = true
    · rw [if_pos hbt] at g4
      obtain ⟨o, d5, a5, g5⟩ := DM.bind_inv g4
      have e6 := DM.modify_inv g5
      obtain ⟨c5, e5⟩ := onInp_ok a5
      have hw : P.written = false := by rw [hbt] at hb; simpa using hb.symm
      rw [hinp] at k2 hP
      have hch : P.children = [] := by
        by_contra hch
        rw [gSet_children hi1 k2 hP hch] at c5; simp at c5
      have s4 := gSet_leaf (x := g) hi1 k2 hP hch
      refine ⟨i, ?_, ?_⟩
      · rw [e6, e5, e1]; rfl
      · have hfin : d'.inp = (call E.env (.gSet i g) (call E.env (.generic (.seq full) rootRegion) d.inp).2).2 := by
          rw [e6, e5, hinp]
        rw [hfin]
        have hp' : (call E.env (.gSet i g) (call E.env (.generic (.seq full) rootRegion) d.inp).2).2.params[p]?
            = some (P.put (.generic (some g))) := by
          rw [hinp, s4]
          show ((d4.inp.setParam p _).params)[p]? = _
          rw [setParam_self, hP]; rfl
        refine Put.set hi (nr := (.seq full, rootRegion)) rfl hview k1 (by rw [hinp]; exact hP) hw rfl hp'
          rfl ?_
        rw [hinp, s4] at hp' ⊢
        show result E.env _ (.gGet i) = _
        unfold result
        have hv' : (wroteG d4.inp i { param := p, writable := false } g).gviews[i]? = some { param := p, writable := true } := by
          simp [wroteG, St.setG, St.setParam, k2]
        rw [gGet_eq hv']
        unfold genericValue
        simp only [hp', Param.put]
        rfl
    · rw [if_neg hbt] at g4
      have e6 := DM.modify_inv g4
      have hw : P.written = true := by
        cases hPw : P.written with
        | true => rfl
        | false => rw [hPw] at hb; exact absurd hb hbt
      refine ⟨i, ?_, ?_⟩
      · rw [e6, e1]; rfl
      · have hfin : d'.inp = (call E.env (.generic (.seq full) rootRegion) d.inp).2 := by rw [e6, hinp]
        rw [hfin]
        exact Put.request hi (nr := (.seq full, rootRegion)) rfl hview k1 hP (Or.inr hw)

/-! ## All parameters -/

/-- One entry of the tables of defaults: the place of the view, the parameter, its unit, the
default as it is read. -/
structure Dflt (K : Type) where
  slot : Slot
  key : Key
  unit : Option String
  default : Option (Out K GVal)

/-- The view with index `i` in a place. -/
def slotRef : Slot → Nat → VRef
  | .inl _, i => .s i
  | .inr _, i => .g i

theorem slot_setSlot (d : Dice K) (s : St K GVal) (sl sl' : Slot) (i : Nat) :
    (d.setSlot s sl i).slot sl' = if sl' = sl then some (slotRef sl i) else d.slot sl' := by
  cases sl <;> cases sl' <;> simp [Dice.setSlot, Dice.slot, slotRef, Function.update_apply] <;> split <;> simp

theorem filled_after {env : Env K} {s : St K GVal} (hi : Inv env s) {r : VRef} (h : Filled s r)
    (ops : List (Op K GVal)) : Filled (after env s ops) r := by
  obtain ⟨p, u, P, h1, h2, h3⟩ := h
  obtain ⟨P', p1, p2⟩ := after_pext ops hi p P h2
  exact ⟨p, u, P', after_viewTarget hi ops h1, p1, p2.written h3⟩

/-- Values of filled parameters do not change. -/
theorem read_safe {env : Env K} {s : St K GVal} (hi : Inv env s) {ops : List (Op K GVal)}
    (hs : Safe s (after env s ops)) {r : VRef} (hr : ∀ i, r ≠ .t i) (hf : Filled s r) :
    result env (after env s ops) (readOp r) = result env s (readOp r) := by
  obtain ⟨p, u, P, h1, h2, h3⟩ := hf
  obtain ⟨P', q1, q2, q3, q4⟩ := hs p P h2 h3
  obtain ⟨P'', p1, p2⟩ := after_pext ops hi p P h2
  rw [q1] at p1; cases p1
  have hc := ((hi.good.params p P h2).1 h3)
  have hc' : P'.children = [] := by rw [p2.frozen hc.2, hc.1]
  cases r with
  | t i => exact absurd rfl (hr i)
  | s i =>
    simp only [viewTarget, Option.map_eq_some_iff] at h1
    obtain ⟨v, v1, v2⟩ := h1
    simp only [Prod.mk.injEq] at v2
    obtain ⟨v', w1, w2, w3, w4⟩ := after_sview hi ops v1
    show result _ _ (.sGet i) = result _ _ (.sGet i)
    unfold result
    rw [sGet_eq v1, sGet_eq w1]
    simp only
    congr 1
    unfold scalarValue
    rw [w2, w3, v2.1]
    simp only [q1, h2, hc', hc.1, ne_eq, not_true_eq_false, if_false]
    unfold readScalarLeaf
    simp only [q1, h2, q2, h3, q4, hc', hc.1]
  | g i =>
    have h1' := after_viewTarget hi ops h1
    simp only [viewTarget, Option.map_eq_some_iff] at h1 h1'
    obtain ⟨v, v1, v2⟩ := h1
    obtain ⟨v', w1, w2⟩ := h1'
    simp only [Prod.mk.injEq] at v2 w2
    show result _ _ (.gGet i) = result _ _ (.gGet i)
    unfold result
    rw [gGet_eq v1, gGet_eq w1]
    simp only
    congr 1
    unfold genericValue
    rw [v2.1, w2.1]
    simp only [q1, h2, q2, h3, q4]

/-- What setting a list of parameters does. -/
structure SetAll (env : Env K) (d d' : Dice K) (l : List (Dflt K)) : Prop where
  rest : d' = { d with inp := d'.inp, sv := d'.sv, gv := d'.gv }
  inv : Inv env d'.inp
  calls : ∃ ops, d'.inp = after env d.inp ops
  safe : Safe d.inp d'.inp
  other : ∀ sl, sl ∉ l.map Dflt.slot → d'.slot sl = d.slot sl
  set : ∀ e ∈ l, ∃ r, d'.slot e.slot = some r ∧ (∀ i, r ≠ .t i) ∧ ViewOf d'.inp r e.key e.unit ∧
    ∀ o, e.default = some o → Filled d'.inp r ∧
      (EmptyAt env d.inp e.key → result env d'.inp (readOp r) = .ok o)
  only : ∀ k, k ∉ l.map Dflt.key → EmptyAt env d.inp k → EmptyAt env d'.inp k

theorem SetAll.nil {env : Env K} {d : Dice K} (hi : Inv env d.inp) : SetAll env d d [] :=
  ⟨rfl, hi, ⟨[], rfl⟩, .refl _, fun _ _ => rfl, by simp, fun _ _ h => h⟩

theorem SetAll.append {env : Env K} {d d1 d2 : Dice K} {l1 l2 : List (Dflt K)}
    (h1 : SetAll env d d1 l1) (h2 : SetAll env d1 d2 l2)
    (hs : ∀ e ∈ l1, ∀ e' ∈ l2, e.slot ≠ e'.slot) (hk : ∀ e ∈ l1, ∀ e' ∈ l2, e.key ≠ e'.key) :
    SetAll env d d2 (l1 ++ l2) where
  rest := by rw [h2.rest, h1.rest]
  inv := h2.inv
  calls := by
    obtain ⟨a, ha⟩ := h1.calls
    obtain ⟨b, hb⟩ := h2.calls
    exact ⟨a ++ b, by rw [after_append, ← ha, hb]⟩
  safe := h1.safe.trans h2.safe
  other sl h := by
    simp only [List.map_append, List.mem_append, not_or] at h
    rw [h2.other sl h.2, h1.other sl h.1]
  set e he := by
    rcases List.mem_append.1 he with he | he
    · obtain ⟨r, r1, r2, r3, r4⟩ := h1.set e he
      obtain ⟨b, hb⟩ := h2.calls
      refine ⟨r, ?_, r2, ?_, fun o ho => ?_⟩
      · rw [h2.other _ (by simpa using fun e' he' => (hs e he e' he').symm), r1]
      · rw [hb]; exact ViewOf.after h1.inv r3 b
      · obtain ⟨f1, f2⟩ := r4 o ho
        refine ⟨by rw [hb]; exact filled_after h1.inv f1 b, fun hemp => ?_⟩
        have hsf := h2.safe
        rw [hb] at hsf ⊢
        rw [read_safe h1.inv hsf r2 f1, f2 hemp]
    · obtain ⟨r, r1, r2, r3, r4⟩ := h2.set e he
      refine ⟨r, r1, r2, r3, fun o ho => ⟨(r4 o ho).1, fun hemp => (r4 o ho).2 ?_⟩⟩
      exact h1.only _ (by simpa using fun e' he' => hk e' he' e he) hemp
  only k h he := by
    simp only [List.map_append, List.mem_append, not_or] at h
    exact h2.only k h.2 (h1.only k h.1 he)

theorem SetAll.one {env : Env K} {d d' : Dice K} {sl : Slot} {i : Nat} {k : Key} {u : Option String}
    {x : Option (Out K GVal)} (hd : d' = d.setSlot d'.inp sl i)
    (hp : Put env d.inp d'.inp (slotRef sl i) k u x) :
    SetAll env d d' [⟨sl, k, u, x⟩] where
  rest := by
    rw [hd]; cases sl <;> rfl
  inv := hp.inv
  calls := hp.calls
  safe := hp.safe
  other sl' h := by
    simp only [List.map_cons, List.map_nil, List.mem_singleton] at h
    rw [hd, slot_setSlot, if_neg h]
  set e he := by
    simp only [List.mem_singleton] at he
    subst he
    refine ⟨_, by rw [hd, slot_setSlot, if_pos rfl], by cases sl <;> simp [slotRef], hp.view, fun o ho => ?_⟩
    exact ⟨hp.filled (by simp only at ho; rw [ho]; simp), fun h => hp.default o ho h⟩
  only k' h he := by
    simp only [List.map_cons, List.map_nil, List.mem_singleton] at h
    exact hp.only k' h he

def scalarEntry (e : SName × List String × String × ℚ) : Dflt K :=
  ⟨.inl e.1, (["World"], e.2.1), some e.2.2.1, some (.num (.num (e.2.2.2 : K)))⟩

def genericEntry (e : GName × List String × Option GVal) : Dflt K :=
  ⟨.inr e.1, (["World"], e.2.1), none, e.2.2.map fun g => .gen (some g)⟩

theorem setScalars_spec {E : DEnv K} (l : List (SName × List String × String × ℚ))
    (hn : (l.map (·.1)).Nodup) (hk : (l.map (·.2.1)).Nodup) {d d' : Dice K} (hi : Inv E.env d.inp)
    (hg : setScalars E l d = (.ok (), d')) : SetAll E.env d d' (l.map scalarEntry) := by
  induction l generalizing d with
  | nil =>
    obtain ⟨_, rfl⟩ := DM.pure_inv hg
    exact .nil hi
  | cons a l ih =>
    obtain ⟨n, full, unit, x⟩ := a
    obtain ⟨u, d1, a1, g1⟩ := DM.bind_inv hg
    obtain ⟨i, i1, i2⟩ := setScalarParameter_spec hi a1
    simp only [List.map_cons, List.nodup_cons] at hn hk
    have h1 : SetAll E.env d d1 [scalarEntry (n, full, unit, x)] := .one (sl := .inl n) i1 i2
    refine SetAll.append (l1 := [scalarEntry (n, full, unit, x)]) h1 (ih hn.2 hk.2 i2.inv g1) ?_ ?_
    · intro e he e' he' h
      simp only [List.mem_singleton] at he
      obtain ⟨b, hb, rfl⟩ := List.mem_map.1 he'
      subst he
      simp only [scalarEntry, Sum.inl.injEq] at h
      exact hn.1 (List.mem_map.2 ⟨b, hb, h.symm⟩)
    · intro e he e' he' h
      simp only [List.mem_singleton] at he
      obtain ⟨b, hb, rfl⟩ := List.mem_map.1 he'
      subst he
      simp only [scalarEntry, Prod.mk.injEq, true_and] at h
      exact hk.1 (List.mem_map.2 ⟨b, hb, h.symm⟩)

theorem setGenerics_spec {E : DEnv K} (l : List (GName × List String × Option GVal))
    (hn : (l.map (·.1)).Nodup) (hk : (l.map (·.2.1)).Nodup) {d d' : Dice K} (hi : Inv E.env d.inp)
    (hg : setGenerics E l d = (.ok (), d')) : SetAll E.env d d' (l.map genericEntry) := by
  induction l generalizing d with
  | nil =>
    obtain ⟨_, rfl⟩ := DM.pure_inv hg
    exact .nil hi
  | cons a l ih =>
    obtain ⟨n, full, x⟩ := a
    obtain ⟨u, d1, a1, g1⟩ := DM.bind_inv hg
    obtain ⟨i, i1, i2⟩ := setGenericParameter_spec hi a1
    simp only [List.map_cons, List.nodup_cons] at hn hk
    have h1 : SetAll E.env d d1 [genericEntry (n, full, x)] := .one (sl := .inr n) i1 i2
    refine SetAll.append (l1 := [genericEntry (n, full, x)]) h1 (ih hn.2 hk.2 i2.inv g1) ?_ ?_
    · intro e he e' he' h
      simp only [List.mem_singleton] at he
      obtain ⟨b, hb, rfl⟩ := List.mem_map.1 he'
      subst he
      simp only [genericEntry, Sum.inr.injEq] at h
      exact hn.1 (List.mem_map.2 ⟨b, hb, h.symm⟩)
    · intro e he e' he' h
      simp only [List.mem_singleton] at he
      obtain ⟨b, hb, rfl⟩ := List.mem_map.1 he'
      subst he
      simp only [genericEntry, Prod.mk.injEq, true_and] at h
      exact hk.1 (List.mem_map.2 ⟨b, hb, h.symm⟩)

/-- All entries of the tables. -/
def entries (K : Type) [Field K] : List (Dflt K) :=
  scalarDefaults.map scalarEntry ++ genericDefaults.map genericEntry ++
    standardScalars.map scalarEntry ++ standardGenerics.map genericEntry

/-- The adapter at the start of `_initialize_model`. -/
def Dice.cleared (d : Dice K) : Dice K :=
  { d with
    sv := fun _ => none, gv := fun _ => none, ov := fun _ => none, e := none,
    b11 := none, b21 := none, b22 := none, b32 := none, b33 := none }

theorem initializeModel_spec {E : DEnv K} {d d' : Dice K} (hi : Inv E.env d.inp)
    (hg : initializeModel E d = (.ok (), d')) : SetAll E.env d.cleared d' (entries K) := by
  unfold initializeModel at hg
  obtain ⟨u0, d0, a0, g0⟩ := DM.bind_inv hg
  have e0 := DM.modify_inv a0
  obtain ⟨u1, d1, a1, g1⟩ := DM.bind_inv g0
  obtain ⟨u2, d2, a2, g2⟩ := DM.bind_inv g1
  obtain ⟨u3, d3, a3, g3⟩ := DM.bind_inv g2
  have e0 : d0 = d.cleared := e0
  subst e0
  have h1 := setScalars_spec _ (by decide) (by decide +kernel) (d := d.cleared) hi a1
  have h2 := setGenerics_spec _ (by decide) (by decide +kernel) h1.inv a2
  have h3 := setScalars_spec _ (by decide) (by decide +kernel) h2.inv a3
  have h4 := setGenerics_spec _ (by decide) (by decide +kernel) h3.inv g3
  have hss : ∀ (l l' : List (SName × List String × String × ℚ)),
      (∀ a ∈ l.map (·.1), ∀ b ∈ l'.map (·.1), a ≠ b) → ∀ e ∈ l.map (scalarEntry (K := K)),
        ∀ e' ∈ l'.map (scalarEntry (K := K)), e.slot ≠ e'.slot := by
    intro l l' h e he e' he'
    obtain ⟨a, ha, rfl⟩ := List.mem_map.1 he
    obtain ⟨b, hb, rfl⟩ := List.mem_map.1 he'
    intro hc
    simp only [scalarEntry, Sum.inl.injEq] at hc
    exact h _ (List.mem_map.2 ⟨a, ha, rfl⟩) _ (List.mem_map.2 ⟨b, hb, rfl⟩) hc
  have hgg : ∀ (l l' : List (GName × List String × Option GVal)),
      (∀ a ∈ l.map (·.1), ∀ b ∈ l'.map (·.1), a ≠ b) → ∀ e ∈ l.map (genericEntry (K := K)),
        ∀ e' ∈ l'.map (genericEntry (K := K)), e.slot ≠ e'.slot := by
    intro l l' h e he e' he'
    obtain ⟨a, ha, rfl⟩ := List.mem_map.1 he
    obtain ⟨b, hb, rfl⟩ := List.mem_map.1 he'
    intro hc
    simp only [genericEntry, Sum.inr.injEq] at hc
    exact h _ (List.mem_map.2 ⟨a, ha, rfl⟩) _ (List.mem_map.2 ⟨b, hb, rfl⟩) hc
  have hsg : ∀ (l : List (SName × List String × String × ℚ))
      (l' : List (GName × List String × Option GVal)), ∀ e ∈ l.map (scalarEntry (K := K)),
        ∀ e' ∈ l'.map (genericEntry (K := K)), e.slot ≠ e'.slot := by
    intro l l' e he e' he'
    obtain ⟨a, ha, rfl⟩ := List.mem_map.1 he
    obtain ⟨b, hb, rfl⟩ := List.mem_map.1 he'
    simp [scalarEntry, genericEntry]
  have keyS : ∀ (l : List (SName × List String × String × ℚ)) (q : List String → Prop),
      (∀ a ∈ l.map (·.2.1), q a) → ∀ e ∈ l.map (scalarEntry (K := K)), e.key.1 = ["World"] ∧ q e.key.2 := by
    intro l q h e he
    obtain ⟨a, ha, rfl⟩ := List.mem_map.1 he
    exact ⟨rfl, h _ (List.mem_map.2 ⟨a, ha, rfl⟩)⟩
  have keyG : ∀ (l : List (GName × List String × Option GVal)) (q : List String → Prop),
      (∀ a ∈ l.map (·.2.1), q a) → ∀ e ∈ l.map (genericEntry (K := K)), e.key.1 = ["World"] ∧ q e.key.2 := by
    intro l q h e he
    obtain ⟨a, ha, rfl⟩ := List.mem_map.1 he
    exact ⟨rfl, h _ (List.mem_map.2 ⟨a, ha, rfl⟩)⟩
  have h12 := h1.append h2 (hsg _ _) (by
    intro e he e' he' h
    have x := (keyS _ (fun a => a ∈ scalarDefaults.map (·.2.1)) (fun _ h => h) e he).2
    have y := (keyG _ (fun a => a ∉ scalarDefaults.map (·.2.1)) (by decide +kernel) e' he').2
    rw [h] at x; exact y x)
  have h123 := h12.append h3 (by
    intro e he e' he'
    rcases List.mem_append.1 he with he | he
    · exact hss _ _ (by decide) e he e' he'
    · exact (hsg _ _ e' he' e he).symm) (by
    intro e he e' he' h
    have y := (keyS _ (fun a => a ∉ scalarDefaults.map (·.2.1) ∧ a ∉ genericDefaults.map (·.2.1))
      (by decide +kernel) e' he').2
    rcases List.mem_append.1 he with he | he
    · have x := (keyS _ (fun a => a ∈ scalarDefaults.map (·.2.1)) (fun _ h => h) e he).2
      rw [h] at x; exact y.1 x
    · have x := (keyG _ (fun a => a ∈ genericDefaults.map (·.2.1)) (fun _ h => h) e he).2
      rw [h] at x; exact y.2 x)
  exact h123.append h4 (by
    intro e he e' he'
    rcases List.mem_append.1 he with he | he
    · rcases List.mem_append.1 he with he | he
      · exact hsg _ _ e he e' he'
      · exact hgg _ _ (by decide) e he e' he'
    · exact hsg _ _ e he e' he') (by
    intro e he e' he' h
    have y := (keyG _ (fun a => a ∉ scalarDefaults.map (·.2.1) ∧ a ∉ genericDefaults.map (·.2.1) ∧
      a ∉ standardScalars.map (·.2.1)) (by decide +kernel) e' he').2
    rcases List.mem_append.1 he with he | he
    · rcases List.mem_append.1 he with he | he
      · have x := (keyS _ (fun a => a ∈ scalarDefaults.map (·.2.1)) (fun _ h => h) e he).2
        rw [h] at x; exact y.1 x
      · have x := (keyG _ (fun a => a ∈ genericDefaults.map (·.2.1)) (fun _ h => h) e he).2
        rw [h] at x; exact y.2.1 x
    · have x := (keyS _ (fun a => a ∈ standardScalars.map (·.2.1)) (fun _ h => h) e he).2
      rw [h] at x; exact y.2.2 x)

end Openscm
