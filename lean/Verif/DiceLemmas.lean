import Verif.Dice
import Verif.CoreProps10

/-!
# The DICE adapter: effect of its accesses to the parameter sets

Helper file.
-/

set_option linter.unusedSectionVars false

namespace Openscm

/-! ## The monad -/

namespace DM
variable {K α β : Type}

theorem bind_ok {m : DM K α} {f : α → DM K β} {d d' : Dice K} {a : α} (h : m d = (.ok a, d')) :
    (m >>= f) d = f a d' := by
  show DM.bind m f d = _
  unfold DM.bind; rw [h]

theorem bind_error {m : DM K α} {f : α → DM K β} {d d' : Dice K} {e : Err}
    (h : m d = (.error e, d')) : (m >>= f) d = (.error e, d') := by
  show DM.bind m f d = _
  unfold DM.bind; rw [h]

theorem bind_inv {m : DM K α} {f : α → DM K β} {d d' : Dice K} {b : β}
    (h : (m >>= f) d = (.ok b, d')) : ∃ a d1, m d = (.ok a, d1) ∧ f a d1 = (.ok b, d') := by
  cases hm : m d with
  | mk r d1 =>
    cases r with
    | error e => rw [bind_error hm] at h; simp at h
    | ok a => rw [bind_ok hm] at h; exact ⟨a, d1, rfl, h⟩

theorem pure_inv {a b : α} {d d' : Dice K} (h : (Pure.pure a : DM K α) d = (.ok b, d')) :
    b = a ∧ d' = d := by
  have h : ((Except.ok a : Except Err α), d) = (.ok b, d') := h
  simp only [Prod.mk.injEq, Except.ok.injEq] at h
  exact ⟨h.1.symm, h.2.symm⟩

theorem ofExcept_inv {x : Except Err α} {d d' : Dice K} {a : α}
    (h : (DM.ofExcept x : DM K α) d = (.ok a, d')) : x = .ok a ∧ d' = d := by
  cases x with
  | error e => simp [DM.ofExcept, DM.throw] at h
  | ok b =>
    have h : ((Except.ok b : Except Err α), d) = (.ok a, d') := h
    simp only [Prod.mk.injEq, Except.ok.injEq] at h
    exact ⟨by rw [h.1], h.2.symm⟩

theorem attr_some {f : Dice K → Option α} {d : Dice K} {a : α} (h : f d = some a) :
    DM.attr f d = (.ok a, d) := by unfold DM.attr; rw [h]

theorem attr_none {f : Dice K → Option α} {d : Dice K} (h : f d = none) :
    DM.attr f d = (.error .attributeError, d) := by unfold DM.attr; rw [h]

theorem attr_inv {f : Dice K → Option α} {d d' : Dice K} {a : α}
    (h : DM.attr f d = (.ok a, d')) : f d = some a ∧ d' = d := by
  unfold DM.attr at h
  cases hf : f d with
  | none => rw [hf] at h; simp at h
  | some b => rw [hf] at h; simp at h; exact ⟨by rw [h.1], h.2.symm⟩

theorem coef_inv {f : Dice K → Option α} {d d' : Dice K} {a : α}
    (h : DM.coef f d = (.ok a, d')) : f d = some a ∧ d' = d := by
  unfold DM.coef at h
  cases hf : f d with
  | none => rw [hf] at h; simp at h
  | some b => rw [hf] at h; simp at h; exact ⟨by rw [h.1], h.2.symm⟩

theorem modify_inv {f : Dice K → Dice K} {d d' : Dice K} {u : Unit}
    (h : DM.modify f d = (.ok u, d')) : d' = f d := by
  have h : ((Except.ok () : Except Err Unit), f d) = (.ok u, d') := h
  simp only [Prod.mk.injEq] at h
  exact h.2.symm

theorem gets_inv {f : Dice K → α} {d d' : Dice K} {a : α}
    (h : DM.gets f d = (.ok a, d')) : a = f d ∧ d' = d := by
  have h : ((Except.ok (f d) : Except Err α), d) = (.ok a, d') := h
  simp only [Prod.mk.injEq, Except.ok.injEq] at h
  exact ⟨h.1.symm, h.2.symm⟩

theorem throw_inv {e : Err} {d d' : Dice K} {a : α} (h : (DM.throw e : DM K α) d = (.ok a, d')) :
    False := by
  have h : ((Except.error e : Except Err α), d) = (.ok a, d') := h
  simp at h

end DM

variable {K : Type} [Field K] [LinearOrder K] [IsStrictOrderedRing K]

/-! ## Reading the inputs -/

/-- What `v.name.value` gives for a scalar input. -/
def sval (d : Dice K) (n : SName) : Except Err (Fl K) :=
  match d.sv n with
  | none => .error .attributeError
  | some i =>
    match d.inp.sviews[i]? with
    | none => .error .badHandle
    | some v => scalarValue d.inp v

/-- What `v.name.value` gives for a generic input. -/
def gval (d : Dice K) (n : GName) : Except Err (Option GVal) :=
  match d.gv n with
  | none => .error .attributeError
  | some i =>
    match d.inp.gviews[i]? with
    | none => .error .badHandle
    | some v => genericValue d.inp v

theorem onInp_eq (E : DEnv K) (op : Op K GVal) (d : Dice K) :
    onInp E op d = ((call E.env op d.inp).1, { d with inp := (call E.env op d.inp).2 }) := rfl

theorem onOut_eq (E : DEnv K) (op : Op K GVal) (d : Dice K) :
    onOut E op d = ((call E.env op d.out).1, { d with out := (call E.env op d.out).2 }) := rfl

theorem sGet_none {env : Env K} {s : St K GVal} {i : Nat} (hv : s.sviews[i]? = none) :
    call env (.sGet i) s = (.error .badHandle, s) := by
  show (M.look (fun s : St K GVal => s.sviews[i]?) >>= _) s = _
  exact M.bind_error (look_none hv)

theorem gGet_none {env : Env K} {s : St K GVal} {i : Nat} (hv : s.gviews[i]? = none) :
    call env (.gGet i) s = (.error .badHandle, s) := by
  show (M.look (fun s : St K GVal => s.gviews[i]?) >>= _) s = _
  exact M.bind_error (look_none hv)

theorem sget_eq (E : DEnv K) (n : SName) (d : Dice K) : sget E n d = (sval d n, d) := by
  unfold sget sval
  cases hs : d.sv n with
  | none =>
    exact DM.bind_error (DM.attr_none hs)
  | some i =>
    rw [DM.bind_ok (DM.attr_some hs)]
    cases hv : d.inp.sviews[i]? with
    | none =>
      have : onInp E (.sGet i) d = (.error .badHandle, d) := by rw [onInp_eq, sGet_none hv]
      simp only [DM.bind_error this, hv]
    | some v =>
      have e := sGet_eq (env := E.env) hv
      cases hx : scalarValue d.inp v with
      | error e' =>
        rw [hx] at e
        have : onInp E (.sGet i) d = (.error e', d) := by rw [onInp_eq, e]; rfl
        simp only [DM.bind_error this, hv, hx]
      | ok x =>
        rw [hx] at e
        have : onInp E (.sGet i) d = (.ok (.num x), d) := by rw [onInp_eq, e]; rfl
        simp only [DM.bind_ok this, hv, hx]; rfl

theorem gget_eq (E : DEnv K) (n : GName) (d : Dice K) : gget E n d = (gval d n, d) := by
  unfold gget gval
  cases hs : d.gv n with
  | none =>
    exact DM.bind_error (DM.attr_none hs)
  | some i =>
    rw [DM.bind_ok (DM.attr_some hs)]
    cases hv : d.inp.gviews[i]? with
    | none =>
      have : onInp E (.gGet i) d = (.error .badHandle, d) := by rw [onInp_eq, gGet_none hv]
      simp only [DM.bind_error this, hv]
    | some v =>
      have e := gGet_eq (env := E.env) hv
      cases hx : genericValue d.inp v with
      | error e' =>
        rw [hx] at e
        have : onInp E (.gGet i) d = (.error e', d) := by rw [onInp_eq, e]; rfl
        simp only [DM.bind_error this, hv, hx]
      | ok x =>
        rw [hx] at e
        have : onInp E (.gGet i) d = (.ok (.gen x), d) := by rw [onInp_eq, e]; rfl
        simp only [DM.bind_ok this, hv, hx]; rfl

theorem sget_inv {E : DEnv K} {n : SName} {d d' : Dice K} {x : Fl K}
    (h : sget E n d = (.ok x, d')) : sval d n = .ok x ∧ d' = d := by
  rw [sget_eq] at h
  simp only [Prod.mk.injEq] at h
  exact ⟨h.1, h.2.symm⟩

theorem gget_inv {E : DEnv K} {n : GName} {d d' : Dice K} {x : Option GVal}
    (h : gget E n d = (.ok x, d')) : gval d n = .ok x ∧ d' = d := by
  rw [gget_eq] at h
  simp only [Prod.mk.injEq] at h
  exact ⟨h.1, h.2.symm⟩

theorem gdelta_inv {E : DEnv K} {n : GName} {d d' : Dice K} {k u : Int}
    (h : gdelta E n d = (.ok (k, u), d')) : gval d n = .ok (some (.delta k u)) ∧ d' = d := by
  obtain ⟨x, d1, h1, h2⟩ := DM.bind_inv h
  obtain ⟨h1, rfl⟩ := gget_inv h1
  rcases x with _ | g
  · exact (DM.throw_inv h2).elim
  · cases g with
    | delta k' u' => obtain ⟨h3, rfl⟩ := DM.pure_inv h2; cases h3; exact ⟨h1, rfl⟩
    | _ => exact (DM.throw_inv h2).elim

theorem gtime_inv {E : DEnv K} {n : GName} {d d' : Dice K} {t : Int}
    (h : gtime E n d = (.ok t, d')) : gval d n = .ok (some (.time t)) ∧ d' = d := by
  obtain ⟨x, d1, h1, h2⟩ := DM.bind_inv h
  obtain ⟨h1, rfl⟩ := gget_inv h1
  rcases x with _ | g
  · exact (DM.throw_inv h2).elim
  · cases g with
    | time t' => obtain ⟨h3, rfl⟩ := DM.pure_inv h2; cases h3; exact ⟨h1, rfl⟩
    | _ => exact (DM.throw_inv h2).elim

theorem gbool_inv {E : DEnv K} {n : GName} {d d' : Dice K} {b : Bool}
    (h : gbool E n d = (.ok b, d')) : gval d n = .ok (some (.bool b)) ∧ d' = d := by
  obtain ⟨x, d1, h1, h2⟩ := DM.bind_inv h
  obtain ⟨h1, rfl⟩ := gget_inv h1
  rcases x with _ | g
  · exact (DM.throw_inv h2).elim
  · cases g with
    | bool t' => obtain ⟨h3, rfl⟩ := DM.pure_inv h2; cases h3; exact ⟨h1, rfl⟩
    | _ => exact (DM.throw_inv h2).elim

/-- Scalar and generic inputs, and how they are accessed, are the same. -/
structure SameInputs (d d' : Dice K) : Prop where
  sv : d'.sv = d.sv
  gv : d'.gv = d.gv
  params : d'.inp.params = d.inp.params
  sviews : d'.inp.sviews = d.inp.sviews
  gviews : d'.inp.gviews = d.inp.gviews
  regions : d'.inp.regions = d.inp.regions

theorem SameInputs.refl (d : Dice K) : SameInputs d d := ⟨rfl, rfl, rfl, rfl, rfl, rfl⟩

theorem SameInputs.trans {d1 d2 d3 : Dice K} (h : SameInputs d1 d2) (h' : SameInputs d2 d3) :
    SameInputs d1 d3 :=
  ⟨h'.sv.trans h.sv, h'.gv.trans h.gv, h'.params.trans h.params, h'.sviews.trans h.sviews,
    h'.gviews.trans h.gviews, h'.regions.trans h.regions⟩

theorem SameInputs.sval {d d' : Dice K} (h : SameInputs d d') (n : SName) : sval d' n = sval d n := by
  unfold Openscm.sval
  rw [h.sv, h.sviews]
  cases d.sv n with
  | none => rfl
  | some i =>
    cases hv : d.inp.sviews[i]? with
    | none => simp only [hv]
    | some v => simp only [hv]; exact scalarValue_params h.params v

theorem SameInputs.gval {d d' : Dice K} (h : SameInputs d d') (n : GName) : gval d' n = gval d n := by
  unfold Openscm.gval
  rw [h.gv, h.gviews]
  cases d.gv n with
  | none => rfl
  | some i =>
    cases hv : d.inp.gviews[i]? with
    | none => simp only [hv]
    | some v => simp only [hv]; unfold genericValue; rw [h.params]

/-! ## Reading the emissions -/

/-- Reading the view of the emissions gives the array `a`. -/
def EArr (E : DEnv K) (d : Dice K) (a : Arr K) : Prop :=
  ∃ i, d.e = some i ∧ (call E.env (.tGet i) d.inp).1 = .ok (.arr a)

theorem readT_params (i : Nat) (s : St K GVal) :
    (readT i s).2.params = s.params ∧ (readT i s).2.sviews = s.sviews ∧
      (readT i s).2.gviews = s.gviews ∧ (readT i s).2.regions = s.regions := by
  cases hv : s.tviews[i]? with
  | none => rw [readT_none hv]; exact ⟨rfl, rfl, rfl, rfl⟩
  | some v => rw [readT_state hv]; exact ⟨rfl, rfl, rfl, rfl⟩

theorem asNum_inv {o : Out K GVal} {x : Fl K} (h : asNum o = .ok x) : o = .num x := by
  cases o <;> simp only [asNum, Except.ok.injEq, reduceCtorEq] at h
  rw [h]

theorem tGetItem_inv {env : Env K} {s s' : St K GVal} (hi : Inv env s) {i : Nat} {j : Int} {o : Out K GVal}
    (h : call env (.tGetItem i j) s = (.ok o, s')) :
    ∃ a x, call env (.tGet i) s = (.ok (.arr a), s') ∧ a.getItem j = .ok x ∧ o = .num x ∧
      Synced s' i a := by
  have h : (readT i >>= fun _ => (handle i >>= fun d => (M.ofExcept (d.getItem j) >>= fun x =>
          (pure (Out.num x) : M K GVal (Out K GVal))))) s = (.ok o, s') := h
  obtain ⟨_, s1, h1, h2⟩ := M.bind_inv h
  obtain ⟨a, s2, h3, h4⟩ := M.bind_inv h2
  obtain ⟨rfl, v, hv, hd⟩ := handle_inv h3
  obtain ⟨x, s3, h5, h6⟩ := M.bind_inv h4
  obtain ⟨h7, rfl⟩ := M.ofExcept_inv h5
  have h6 : ((Except.ok (Out.num x) : Res K GVal), s3) = (.ok o, s') := h6
  simp only [Prod.mk.injEq, Except.ok.injEq] at h6
  obtain ⟨rfl, rfl⟩ := h6
  have hg : call env (.tGet i) s = (.ok (.arr a), s3) := by
    show (readT i >>= fun _ => (handle i >>= fun d => (pure (Out.arr d) : M K GVal (Out K GVal)))) s = _
    rw [M.bind_ok h1, M.bind_ok h3]; rfl
  refine ⟨a, x, hg, h7, rfl, ?_⟩
  have hr : result env s (.tGet i) = .ok (.arr a) := by unfold result; rw [hg]
  obtain ⟨a', v', P', g1, g2, g3, g4⟩ := tGet_ok_synced hi hr
  rw [after_one, hg] at g1 g3
  simp only at g1 g3
  rw [hv] at g1; cases g1
  rw [hd] at g2; cases g2
  exact ⟨v, P', hv, hd, g3, g4⟩

/-- Only `out` and the caches of the inputs change. -/
structure Quiet1 (d d' : Dice K) : Prop where
  same : SameInputs d d'
  out : d'.out = d.out
  ov : d'.ov = d.ov
  e : d'.e = d.e
  initialized : d'.initialized = d.initialized
  current : d'.current = d.current
  timestep : d'.timestep = d.timestep
  count : d'.count = d.count
  b11 : d'.b11 = d.b11
  b21 : d'.b21 = d.b21
  b22 : d'.b22 = d.b22
  b32 : d'.b32 = d.b32
  b33 : d'.b33 = d.b33

theorem eget_inv {E : DEnv K} {d d' : Dice K} (hi : Inv E.env d.inp) {j : Int} {x : Fl K}
    (h : eget E j d = (.ok x, d')) :
    ∃ a, EArr E d a ∧ EArr E d' a ∧ a.getItem j = .ok x ∧ Quiet1 d d' ∧ Inv E.env d'.inp ∧
      ∃ i, d.e = some i ∧ Synced d'.inp i a := by
  unfold eget at h
  obtain ⟨i, d1, h1, h2⟩ := DM.bind_inv h
  obtain ⟨h1, rfl⟩ := DM.attr_inv h1
  obtain ⟨o, d2, h3, h4⟩ := DM.bind_inv h2
  obtain ⟨h7, rfl⟩ := DM.ofExcept_inv h4
  have := asNum_inv h7
  subst this
  rw [onInp_eq] at h3
  simp only [Prod.mk.injEq] at h3
  obtain ⟨h5, rfl⟩ := h3
  have h6 : call E.env (.tGetItem i j) d1.inp = (.ok (.num x), (call E.env (.tGetItem i j) d1.inp).2) := by
    rw [← h5]
  obtain ⟨a, y, g1, g2, g3, g4⟩ := tGetItem_inv hi h6
  cases g3
  refine ⟨a, ⟨i, h1, by rw [g1]⟩, ⟨i, h1, ?_⟩, g2, ?_, call_inv _ hi, i, h1, g4⟩
  · show (call E.env (.tGet i) (call E.env (.tGetItem i j) d1.inp).2).1 = _
    rw [tGet_synced g4]
  · have e : (call E.env (.tGetItem i j) d1.inp).2 = (readT i d1.inp).2 := by
      have g1' : (call E.env (.tGet i) d1.inp).2 = (readT i d1.inp).2 := by
        show ((readT i >>= fun _ => (handle i >>= fun d => (pure (Out.arr d) : M K GVal (Out K GVal))))
          d1.inp).2 = _
        rw [M.bind_apply]
        cases hr : readT i d1.inp with
        | mk r s1 =>
          cases r with
          | error e => rfl
          | ok u => exact bind_state (handle_state i s1) (fun _ => rfl)
      rw [← g1', g1]
    obtain ⟨p1, p2, p3, p4⟩ := readT_params i d1.inp
    refine ⟨⟨rfl, rfl, ?_, ?_, ?_, ?_⟩, rfl, rfl, rfl, rfl, rfl, rfl, rfl, rfl, rfl, rfl, rfl, rfl⟩
    · show (call E.env (.tGetItem i j) d1.inp).2.params = _; rw [e, p1]
    · show (call E.env (.tGetItem i j) d1.inp).2.sviews = _; rw [e, p2]
    · show (call E.env (.tGetItem i j) d1.inp).2.gviews = _; rw [e, p3]
    · show (call E.env (.tGetItem i j) d1.inp).2.regions = _; rw [e, p4]

theorem EArr.det {E : DEnv K} {d : Dice K} {a b : Arr K} (h : EArr E d a) (h' : EArr E d b) :
    a = b := by
  obtain ⟨i, h1, h2⟩ := h
  obtain ⟨j, h3, h4⟩ := h'
  rw [h1] at h3; cases h3
  rw [h2] at h4; simpa using h4

end Openscm
