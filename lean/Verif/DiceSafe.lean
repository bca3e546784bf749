import Verif.DiceInit

/-!
# The DICE adapter never overwrites inputs

Helper file: whatever a call to the adapter does and however it ends, input parameters that have a
value keep it, and once the model is initialised no input parameter is written at all.
-/

set_option linter.unusedSectionVars false

namespace Openscm
variable {K : Type} [Field K] [LinearOrder K] [IsStrictOrderedRing K]

/-- Reading from a timeseries and locking it do not touch parameters. -/
theorem noassign_params {env : Env K} {s : St K GVal} {op : Op K GVal} {i : Nat}
    (h : onT op = some i) (ha : assigns op = false) : (call env op s).2.params = s.params := by
  cases op <;> simp only [onT, Option.some.injEq, reduceCtorEq, assigns, Bool.true_eq_false] at h ha
  case tGet j =>
    subst h
    show ((readT j >>= fun _ => (handle j >>= fun d => (pure (Out.arr d) : M K GVal _))) s).2.params = _
    rw [M.bind_apply]
    have hp := (readT_params j s).1
    cases hr : readT j s with
    | mk r s1 =>
      rw [hr] at hp
      cases r with
      | error e => exact hp
      | ok u =>
        simp only
        rw [bind_state (handle_state j s1) (fun _ => rfl)]; exact hp
  case tGetItem j x =>
    subst h
    show ((readT j >>= fun _ => (handle j >>= fun d => (M.ofExcept (d.getItem x) >>= fun x =>
      (pure (Out.num x) : M K GVal (Out K GVal))))) s).2.params = _
    rw [M.bind_apply]
    have hp := (readT_params j s).1
    cases hr : readT j s with
    | mk r s1 =>
      rw [hr] at hp
      cases r with
      | error e => exact hp
      | ok u =>
        simp only
        rw [bind_state (handle_state j s1) (fun d => bind_state (by rw [ofExcept_state]) (fun _ => rfl))]
        exact hp
  case hGetItem j x =>
    subst h
    show ((handle j >>= fun _ => (readT j >>= fun _ => (handle j >>= fun d =>
      (M.ofExcept (d.getItem x) >>= fun x =>
      (pure (Out.num x) : M K GVal (Out K GVal)))))) s).2.params = _
    rw [M.bind_apply]
    have h0 := handle_state j s
    cases hr0 : handle j s with
    | mk r0 s0 =>
      rw [hr0] at h0
      simp only at h0
      subst h0
      cases r0 with
      | error e => rfl
      | ok u0 =>
        simp only
        rw [M.bind_apply]
        have hp := (readT_params j s0).1
        cases hr : readT j s0 with
        | mk r s1 =>
          rw [hr] at hp
          cases r with
          | error e => exact hp
          | ok u =>
            simp only
            rw [bind_state (handle_state j s1) (fun d => bind_state (by rw [ofExcept_state]) (fun _ => rfl))]
            exact hp
  case tLock j =>
    subst h
    show ((M.look (fun s : St K GVal => s.tviews[j]?) >>= fun _ =>
      (updTView j (fun v => { v with locked := true }) >>= fun _ =>
        (pure Out.done : M K GVal (Out K GVal)))) s).2.params = _
    cases hv : s.tviews[j]? with
    | none => rw [M.bind_error (look_none hv)]
    | some v => rw [M.bind_ok (look_some hv)]; rfl

/-! ## Without assignments -/

/-- No parameter was written. -/
structure Still (s s' : St K GVal) : Prop where
  old : ∀ (p : Nat) (P : Param K GVal), s.params[p]? = some P → ∃ P', s'.params[p]? = some P' ∧
    P'.written = P.written ∧ P'.version = P.version ∧ (P.ptype ≠ none → P'.data = P.data)
  new : ∀ (p : Nat) (P' : Param K GVal), s'.params[p]? = some P' → s.params[p]? = none →
    P'.written = false ∧ P'.version = 0

theorem Still.of_params {s s' : St K GVal} (h : s'.params = s.params) : Still s s' :=
  ⟨fun _ P hp => ⟨P, by rw [h]; exact hp, rfl, rfl, fun _ => rfl⟩,
    fun _ P' hp hn => by rw [h, hn] at hp; simp at hp⟩

theorem Grow.still {s s' : St K GVal} (h : Grow s s') : Still s s' := ⟨h.old, h.new⟩

theorem Still.trans {s1 s2 s3 : St K GVal} (h : Still s1 s2) (h' : Still s2 s3) (hx : PExt s1 s2) :
    Still s1 s3 where
  old p P hp := by
    obtain ⟨Q, q1, q2, q3, q4⟩ := h.old p P hp
    obtain ⟨R, r1, r2, r3, r4⟩ := h'.old p Q q1
    refine ⟨R, r1, r2.trans q2, r3.trans q3, fun ht => ?_⟩
    obtain ⟨Q', e1, e2⟩ := hx p P hp
    rw [q1] at e1; cases e1
    refine (r4 ?_).trans (q4 ht)
    cases hP : P.ptype with
    | none => exact absurd hP ht
    | some t => rw [e2.ptype t hP]; simp
  new p P hp hn := by
    cases hq : s2.params[p]? with
    | none => exact h'.new p P hp hq
    | some Q =>
      obtain ⟨q1, q2⟩ := h.new p Q hq hn
      obtain ⟨R, r1, r2, r3, _⟩ := h'.old p Q hq
      rw [hp] at r1; cases r1
      exact ⟨r2.trans q1, r3.trans q2⟩

theorem Still.safe {env : Env K} {s s' : St K GVal} (hi : Inv env s) (h : Still s s') : Safe s s' := by
  intro p P hp hw
  obtain ⟨P', h1, h2, h3, h4⟩ := h.old p P hp
  exact ⟨P', h1, h2.trans hw, h3, h4 (written_type hi hp hw)⟩

theorem still_call {env : Env K} {s : St K GVal} (hi : Inv env s) {op : Op K GVal}
    (h : assigns op = false) : Still s (call env op s).2 := by
  rcases op_cases op with ⟨nr, h1⟩ | h1 | ⟨i, x, rfl⟩ | ⟨i, g, rfl⟩ | ⟨i, h1⟩
  · exact (request_grows env op nr h1 s hi).still
  · exact .of_params (by rw [looks_state _ _ h1])
  · simp [assigns] at h
  · simp [assigns] at h
  · exact .of_params (noassign_params h1 h)

theorem still_after {env : Env K} (ops : List (Op K GVal)) {s : St K GVal} (hi : Inv env s)
    (h : ∀ op ∈ ops, Reads op) : Still s (after env s ops) := by
  induction ops generalizing s with
  | nil => exact .of_params rfl
  | cons op ops ih =>
    rw [after_cons]
    exact (still_call hi (h op (by simp))).trans
      (ih (call_inv op hi) (fun o ho => h o (by simp [ho]))) (call_pext op hi)

theorem Calls.still {E : DEnv K} {α : Type} {m : DM K α} (h : Calls E Reads AnyOp m) {d : Dice K}
    (hi : Inv E.env d.inp) : Still d.inp (m d).2.inp := by
  obtain ⟨a, _, h1, _, h2, _⟩ := h d
  rw [h2]; exact still_after a hi h1

/-! ## With assignments -/

/-- `m` keeps all values of the inputs, however it ends. -/
def KeepsIn (E : DEnv K) {α : Type} (m : DM K α) : Prop :=
  ∀ d : Dice K, Inv E.env d.inp → Inv E.env (m d).2.inp ∧ Safe d.inp (m d).2.inp

theorem KeepsIn.bind {E : DEnv K} {α β : Type} {m : DM K α} {f : α → DM K β} (hm : KeepsIn E m)
    (hf : ∀ a, KeepsIn E (f a)) : KeepsIn E (m >>= f) := by
  intro d hi
  obtain ⟨h1, h2⟩ := hm d hi
  cases h : m d with
  | mk r d1 =>
    rw [h] at h1 h2
    cases r with
    | error e => rw [DM.bind_error h]; exact ⟨h1, h2⟩
    | ok x =>
      rw [DM.bind_ok h]
      obtain ⟨h3, h4⟩ := hf x d1 h1
      exact ⟨h3, h2.trans h4⟩

theorem Calls.keepsIn {E : DEnv K} {α : Type} {m : DM K α} (h : Calls E Reads AnyOp m) : KeepsIn E m := by
  intro d hi
  obtain ⟨a, _, h1, _, h2, _⟩ := h d
  refine ⟨by rw [h2]; exact after_inv a hi, (h.still hi).safe hi⟩

theorem KeepsIn.quiet {E : DEnv K} {α : Type} {m : DM K α} (h : ∀ d, (m d).2.inp = d.inp) : KeepsIn E m := by
  intro d hi; rw [h d]; exact ⟨hi, .refl _⟩

theorem keeps_setScalarParameter (E : DEnv K) (n : SName) (full : List String) (unit : String) (x : K) :
    KeepsIn E (setScalarParameter E n full unit x) := by
  intro d hi
  have hi1 := call_inv (.scalar (.seq full) unit rootRegion) hi
  have hg : Safe d.inp _ :=
    (request_grows E.env (.scalar (.seq full) unit rootRegion) _ rfl d.inp hi).safe hi
  unfold setScalarParameter
  have e0 := onInp_eq E (.scalar (.seq full) unit rootRegion) d
  cases hr : (call E.env (.scalar (.seq full) unit rootRegion) d.inp).1 with
  | error e => rw [hr] at e0; rw [DM.bind_error e0]; exact ⟨hi1, hg⟩
  | ok o =>
    rw [hr] at e0
    rw [DM.bind_ok e0]
    cases ho : asView o with
    | error e => rw [DM.bind_error (by rfl)]; exact ⟨hi1, hg⟩
    | ok i =>
      rw [DM.bind_ok (by rfl)]
      obtain rfl := asView_inv ho
      obtain ⟨p, v, k1, k2, k3, k4, _⟩ := scalar_ok hi hr
      obtain ⟨P, hP, _⟩ := id k1
      have hview : viewTarget (call E.env (.scalar (.seq full) unit rootRegion) d.inp).2 (.s i)
          = some (p, some unit) := by simp [viewTarget, k2, k3, k4]
      have e1 := onInp_eq E (.vInfo (.s i))
        { d with inp := (call E.env (.scalar (.seq full) unit rootRegion) d.inp).2 }
      simp only at e1
      rw [vInfo_eq hview hP] at e1
      rw [DM.bind_ok e1, DM.bind_ok (by rfl)]
      by_cases hw : P.written = true
      · rw [if_neg (by simp [infoOf, hw])]
        exact ⟨hi1, hg⟩
      · rw [if_pos (by simp [infoOf, hw])]
        have hw : P.written = false := by simpa using hw
        have hx : Inv E.env (call E.env (.sSet i (.num x))
              (call E.env (.scalar (.seq full) unit rootRegion) d.inp).2).2 ∧
            Safe d.inp (call E.env (.sSet i (.num x))
              (call E.env (.scalar (.seq full) unit rootRegion) d.inp).2).2 := by
          refine ⟨call_inv _ hi1, hg.trans ?_⟩
          rcases call_frame hi1 (op := .sSet i (.num x)) (r := .s i) rfl with ⟨p', u', f1, f2⟩ | ⟨f1, _⟩
          · rw [hview] at f1; cases f1; exact f2.safe hP hw
          · rw [hview] at f1; simp at f1
        have e2 := onInp_eq E (.sSet i (.num x))
          { d with inp := (call E.env (.scalar (.seq full) unit rootRegion) d.inp).2 }
        simp only at e2
        cases hs : (call E.env (.sSet i (.num x))
              (call E.env (.scalar (.seq full) unit rootRegion) d.inp).2).1 with
        | error e => rw [hs] at e2; rw [DM.bind_error e2]; exact hx
        | ok o => rw [hs] at e2; rw [DM.bind_ok e2]; exact hx

theorem keeps_setGenericParameter (E : DEnv K) (n : GName) (full : List String) (x : Option GVal) :
    KeepsIn E (setGenericParameter E n full x) := by
  intro d hi
  have hi1 := call_inv (.generic (.seq full) rootRegion) hi
  have hg : Safe d.inp _ :=
    (request_grows E.env (.generic (.seq full) rootRegion) _ rfl d.inp hi).safe hi
  unfold setGenericParameter
  have e0 := onInp_eq E (.generic (.seq full) rootRegion) d
  cases hr : (call E.env (.generic (.seq full) rootRegion) d.inp).1 with
  | error e => rw [hr] at e0; rw [DM.bind_error e0]; exact ⟨hi1, hg⟩
  | ok o =>
    rw [hr] at e0
    rw [DM.bind_ok e0]
    cases ho : asView o with
    | error e => rw [DM.bind_error (by rfl)]; exact ⟨hi1, hg⟩
    | ok i =>
      rw [DM.bind_ok (by rfl)]
      cases x with
      | none => exact ⟨hi1, hg⟩
      | some g =>
        obtain rfl := asView_inv ho
        obtain ⟨p, k1, k2⟩ := generic_ok hi hr
        obtain ⟨P, hP, _⟩ := id k1
        have hview : viewTarget (call E.env (.generic (.seq full) rootRegion) d.inp).2 (.g i)
            = some (p, P.unit) := by simp [viewTarget, k2, hP]
        have e1 := onInp_eq E (.vInfo (.g i))
          { d with inp := (call E.env (.generic (.seq full) rootRegion) d.inp).2 }
        simp only at e1
        rw [vInfo_eq hview hP] at e1
        simp only
        rw [DM.bind_ok e1, DM.bind_ok (by rfl)]
        by_cases hw : P.written = true
        · rw [if_neg (by simp [infoOf, hw])]
          exact ⟨hi1, hg⟩
        · rw [if_pos (by simp [infoOf, hw])]
          have hw : P.written = false := by simpa using hw
          have hx : Inv E.env (call E.env (.gSet i g)
                (call E.env (.generic (.seq full) rootRegion) d.inp).2).2 ∧
              Safe d.inp (call E.env (.gSet i g)
                (call E.env (.generic (.seq full) rootRegion) d.inp).2).2 := by
            refine ⟨call_inv _ hi1, hg.trans ?_⟩
            rcases call_frame hi1 (op := .gSet i g) (r := .g i) rfl with ⟨p', u', f1, f2⟩ | ⟨f1, _⟩
            · rw [hview] at f1; cases f1; exact f2.safe hP hw
            · rw [hview] at f1; simp at f1
          have e2 := onInp_eq E (.gSet i g)
            { d with inp := (call E.env (.generic (.seq full) rootRegion) d.inp).2 }
          simp only at e2
          cases hs : (call E.env (.gSet i g)
                (call E.env (.generic (.seq full) rootRegion) d.inp).2).1 with
          | error e => rw [hs] at e2; rw [DM.bind_error e2]; exact hx
          | ok o => rw [hs] at e2; rw [DM.bind_ok e2]; exact hx

theorem keeps_setScalars (E : DEnv K) : ∀ l, KeepsIn E (setScalars E l)
  | [] => .quiet fun _ => rfl
  | (_, _, _, _) :: l => (keeps_setScalarParameter E _ _ _ _).bind fun _ => keeps_setScalars E l

theorem keeps_setGenerics (E : DEnv K) : ∀ l, KeepsIn E (setGenerics E l)
  | [] => .quiet fun _ => rfl
  | (_, _, _) :: l => (keeps_setGenericParameter E _ _ _).bind fun _ => keeps_setGenerics E l

theorem keeps_initializeModel (E : DEnv K) : KeepsIn E (initializeModel E) :=
  (KeepsIn.quiet fun _ => rfl).bind fun _ => (keeps_setScalars E _).bind fun _ =>
    (keeps_setGenerics E _).bind fun _ => (keeps_setScalars E _).bind fun _ => keeps_setGenerics E _

theorem keeps_ensureInitialized (E : DEnv K) : KeepsIn E (ensureInitialized E) := by
  refine (KeepsIn.quiet fun _ => rfl).bind fun b => ?_
  cases b
  · exact (keeps_initializeModel E).bind fun _ => KeepsIn.quiet fun _ => rfl
  · exact KeepsIn.quiet fun _ => rfl

/-- Calls on the model rather than on the parameter sets. -/
def DOp.model : DOp K → Bool
  | .input _ => false
  | .output _ => false
  | _ => true

theorem keeps_dcall (E : DEnv K) {op : DOp K} (h : op.model = true) : KeepsIn E (dcall E op) := by
  have hq : ∀ {α : Type} (x : α), KeepsIn E (Pure.pure x : DM K α) := fun _ => .quiet fun _ => rfl
  have hr : ∀ j, KeepsIn E (resetStepping E j) := fun j =>
    (keeps_ensureInitialized E).bind fun _ =>
      ((keeps_ensureInitialized E).bind fun _ => (calls_initializeRun E).keepsIn).bind fun _ =>
        (calls_adapterReset E j).keepsIn
  cases op with
  | input op => simp [DOp.model] at h
  | output op => simp [DOp.model] at h
  | resetStepping j => exact (hr j).bind fun _ => hq _
  | run j => exact ((hr j).bind fun _ => (calls_diceRun E).keepsIn).bind fun _ => hq _
  | step => exact (calls_adapterStep E).keepsIn.bind fun _ => hq _
  | initModelInput => exact (keeps_ensureInitialized E).bind fun _ => hq _
  | initRunParameters =>
    exact ((keeps_ensureInitialized E).bind fun _ => (calls_initializeRun E).keepsIn).bind fun _ => hq _
  | reset j => exact (calls_adapterReset E j).keepsIn.bind fun _ => hq _
  | adapterRun => exact (calls_diceRun E).keepsIn.bind fun _ => hq _

/-! ## Initialised models -/

theorem ensure_initialized {E : DEnv K} {d : Dice K} (h : d.initialized = true) :
    ensureInitialized E d = (.ok (), d) := by
  unfold ensureInitialized
  rw [DM.bind_ok (by rfl : DM.gets (·.initialized) d = (.ok d.initialized, d)), h]; rfl

end Openscm
