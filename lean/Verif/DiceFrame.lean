import Verif.FrameAny
import Verif.FrameDice

/-!
# Outputs of DICE as a frame (C101)

The parameter set with the outputs of the model, converted to a frame on the times of the model.
-/

set_option linter.unusedSectionVars false

namespace Openscm
variable {K : Type} [Field K] [LinearOrder K] [IsStrictOrderedRing K]

/-! ## What the model requests of its outputs -/

/-- A call that requests nothing but outputs of the model. -/
def OutReq (op : Op K GVal) : Prop := ∀ nr, request op = some nr → ∃ o pts avgs, op = outputRequest o pts avgs

section
variable (E : DEnv K) {P : Op K GVal → Prop}

theorem ocalls_oget (o : OName) (j : Int) : Calls E P OutReq (oget E o j) :=
  (Calls.attr _).bind fun _ => (Calls.onOut fun _ h => nomatch h).bind fun _ => .ofExcept _

theorem ocalls_oset (o : OName) (j : Int) (x : Fl K) : Calls E P OutReq (oset E o j x) :=
  (Calls.attr _).bind fun _ => (Calls.onOut fun _ h => nomatch h).bind fun _ => .pure _

theorem ocalls_requestOutput (o : OName) (p a : List K) : Calls E P OutReq (requestOutput E o p a) :=
  (Calls.onOut fun _ _ => ⟨o, _, _, rfl⟩).bind fun _ => (Calls.ofExcept _).bind fun _ =>
    calls_modify E (by intros; rfl) (by intros; rfl)

theorem ocalls_initializeRun : Calls E Reads OutReq (initializeRun E) := by
  unfold initializeRun
  refine (calls_modify E (by intros; rfl) (by intros; rfl)).bind fun _ => ?_
  refine (calls_gtime E _).bind fun _ => (calls_gtime E _).bind fun _ => ?_
  refine (calls_gdelta E _).bind fun x => ?_
  obtain ⟨k, u⟩ := x
  refine Calls.ite (.throw _) ?_
  refine (calls_modify E (by intros; rfl) (by intros; rfl)).bind fun _ => ?_
  refine (Calls.ofExcept _).bind fun _ => (Calls.ofExcept _).bind fun _ => ?_
  refine (calls_gbool E _).bind fun _ => (calls_read E rfl).bind fun _ => ?_
  refine (Calls.ofExcept _).bind fun _ => ?_
  refine (calls_modify E (by intros; rfl) (by intros; rfl)).bind fun _ => ?_
  exact (ocalls_requestOutput E _ _ _).bind fun _ => (ocalls_requestOutput E _ _ _).bind fun _ =>
    (ocalls_requestOutput E _ _ _).bind fun _ => (ocalls_requestOutput E _ _ _).bind fun _ =>
    (ocalls_requestOutput E _ _ _).bind fun _ => ocalls_requestOutput E _ _ _

theorem ocalls_resetOutput (o : OName) (j : Nat → Fl K) {x : DM K (Fl K)} (hx : Calls E Reads OutReq x) :
    Calls E Reads OutReq (resetOutput E o j x) := by
  unfold resetOutput
  refine (Calls.gets _).bind fun _ => Calls.ite (.throw _) ?_
  exact (Calls.attr _).bind fun _ => (Calls.onOut fun _ h => nomatch h).bind fun _ => hx.bind fun _ =>
    ocalls_oset E _ _ _

theorem ocalls_diceReset (j : OName → Nat → Fl K) : Calls E Reads OutReq (diceReset E j) := by
  unfold diceReset
  refine (calls_modify E (by intros; rfl) (by intros; rfl)).bind fun _ => ?_
  refine (calls_sget E _).bind fun _ => ?_
  refine (calls_modify E (by intros; rfl) (by intros; rfl)).bind fun _ => ?_
  refine (calls_sget E _).bind fun _ => (calls_sget E _).bind fun _ => (Calls.ofExcept _).bind fun _ => ?_
  refine (calls_modify E (by intros; rfl) (by intros; rfl)).bind fun _ => ?_
  refine (calls_sget E _).bind fun _ => ?_
  refine (calls_modify E (by intros; rfl) (by intros; rfl)).bind fun _ => ?_
  refine (calls_sget E _).bind fun _ => (Calls.ofExcept _).bind fun _ => ?_
  refine (calls_modify E (by intros; rfl) (by intros; rfl)).bind fun _ => ?_
  refine (ocalls_resetOutput E _ _ (calls_sget E _)).bind fun _ => ?_
  refine (ocalls_resetOutput E _ _ (calls_sget E _)).bind fun _ => ?_
  refine (ocalls_resetOutput E _ _ (calls_sget E _)).bind fun _ => ?_
  refine (ocalls_resetOutput E _ _ (calls_sget E _)).bind fun _ => ?_
  refine (ocalls_resetOutput E _ _ (calls_sget E _)).bind fun _ => ?_
  refine ocalls_resetOutput E _ _ ?_
  exact (calls_sget E _).bind fun _ => (calls_sget E _).bind fun _ => (calls_sget E _).bind fun _ =>
    (Calls.ofExcept _).bind fun _ => (Calls.ofExcept _).bind fun _ => (calls_sget E _).bind fun _ => .pure _

theorem ocalls_adapterReset (j : OName → Nat → Fl K) : Calls E Reads OutReq (adapterReset E j) := by
  unfold adapterReset
  refine (calls_read E rfl).bind fun _ => (Calls.ofExcept _).bind fun _ => (calls_read E rfl).bind fun _ => ?_
  refine (Calls.ofExcept _).bind fun x => ?_
  rcases x with _ | g
  · exact .throw _
  · cases g <;>
      first
        | exact .throw _
        | exact (calls_modify E (by intros; rfl) (by intros; rfl)).bind fun _ => ocalls_diceReset E j

theorem ocalls_stepMat (k u : Int) (t : Nat) : Calls E Reads OutReq (stepMat E k u t) := by
  unfold stepMat
  exact (calls_sget E _).bind fun _ => (ocalls_oget E _ _).bind fun _ => (Calls.coef _).bind fun _ =>
    (ocalls_oget E _ _).bind fun _ => (Calls.coef _).bind fun _ => (calls_eget E _).bind fun _ =>
    (calls_gbool E _).bind fun _ => ocalls_oset E _ _ _

theorem ocalls_stepMl (t : Nat) : Calls E Reads OutReq (stepMl E t) := by
  unfold stepMl
  exact (calls_sget E _).bind fun _ => (ocalls_oget E _ _).bind fun _ => (Calls.coef _).bind fun _ =>
    (ocalls_oget E _ _).bind fun _ => (calls_sget E _).bind fun _ => ocalls_oset E _ _ _

theorem ocalls_stepMu (t : Nat) : Calls E Reads OutReq (stepMu E t) := by
  unfold stepMu
  exact (calls_sget E _).bind fun _ => (ocalls_oget E _ _).bind fun _ => (calls_sget E _).bind fun _ =>
    (ocalls_oget E _ _).bind fun _ => (Calls.coef _).bind fun _ => (ocalls_oget E _ _).bind fun _ =>
    (Calls.coef _).bind fun _ => ocalls_oset E _ _ _

theorem ocalls_stepTocean (t : Nat) : Calls E Reads OutReq (stepTocean E t) := by
  unfold stepTocean
  exact (calls_sget E _).bind fun _ => (calls_sget E _).bind fun _ => (ocalls_oget E _ _).bind fun _ =>
    (calls_sget E _).bind fun _ => (ocalls_oget E _ _).bind fun _ => ocalls_oset E _ _ _

theorem ocalls_forcothStep (t : Nat) : Calls E Reads OutReq (forcothStep E t) := by
  unfold forcothStep
  refine (calls_gtime E _).bind fun _ => (calls_gdelta E _).bind fun x => ?_
  obtain ⟨k, u⟩ := x
  refine (calls_gtime E _).bind fun _ => Calls.ite (calls_sget E _) ?_
  exact (calls_sget E _).bind fun _ => (calls_sget E _).bind fun _ => .pure _

theorem ocalls_stepForc (t : Nat) : Calls E Reads OutReq (stepForc E t) := by
  unfold stepForc
  exact (ocalls_forcothStep E _).bind fun _ => (calls_sget E _).bind fun _ => (ocalls_oget E _ _).bind fun _ =>
    (calls_sget E _).bind fun _ => (Calls.ofExcept _).bind fun _ => (Calls.ofExcept _).bind fun _ =>
    ocalls_oset E _ _ _

theorem ocalls_stepTatm (t : Nat) : Calls E Reads OutReq (stepTatm E t) := by
  unfold stepTatm
  exact (calls_sget E _).bind fun _ => (ocalls_oget E _ _).bind fun _ => (calls_sget E _).bind fun _ =>
    (ocalls_oget E _ _).bind fun _ => (calls_sget E _).bind fun _ => (calls_sget E _).bind fun _ =>
    (Calls.ofExcept _).bind fun _ => (calls_sget E _).bind fun _ => (ocalls_oget E _ _).bind fun _ =>
    ocalls_oset E _ _ _

theorem ocalls_calcStep : Calls E Reads OutReq (calcStep E) := by
  unfold calcStep
  refine (calls_modify E (by intros; rfl) (by intros; rfl)).bind fun _ => (calls_gdelta E _).bind fun x => ?_
  obtain ⟨k, u⟩ := x
  refine (calls_modify E (by intros; rfl) (by intros; rfl)).bind fun _ => (Calls.gets _).bind fun _ => ?_
  exact (ocalls_stepMat E _ _ _).bind fun _ => (ocalls_stepMl E _).bind fun _ =>
    (ocalls_stepMu E _).bind fun _ => (ocalls_stepTocean E _).bind fun _ =>
    (ocalls_stepForc E _).bind fun _ => ocalls_stepTatm E _

theorem ocalls_steps : ∀ n, Calls E Reads OutReq (steps E n)
  | 0 => .pure _
  | n + 1 => (ocalls_calcStep E).bind fun _ => ocalls_steps n

theorem ocalls_lock (o : OName) : Calls E P OutReq (lockOutput E o) :=
  (Calls.attr _).bind fun _ => (Calls.onOut fun _ h => nomatch h).bind fun _ => .pure _

theorem ocalls_unlock (o : OName) : Calls E P OutReq (unlockOutput E o) :=
  (Calls.attr _).bind fun _ => (Calls.onOut fun _ h => nomatch h).bind fun _ => .pure _

theorem ocalls_diceRun : Calls E Reads OutReq (diceRun E) := by
  unfold diceRun
  refine (ocalls_lock E _).bind fun _ => (ocalls_lock E _).bind fun _ => (ocalls_lock E _).bind fun _ =>
    (ocalls_lock E _).bind fun _ => (ocalls_lock E _).bind fun _ => (ocalls_lock E _).bind fun _ => ?_
  refine (Calls.gets _).bind fun _ => (ocalls_steps E _).bind fun _ => ?_
  exact (ocalls_unlock E _).bind fun _ => (ocalls_unlock E _).bind fun _ => (ocalls_unlock E _).bind fun _ =>
    (ocalls_unlock E _).bind fun _ => (ocalls_unlock E _).bind fun _ => (ocalls_unlock E _).bind fun _ =>
    ocalls_unlock E _

theorem ocalls_adapterStep : Calls E Reads OutReq (adapterStep E) :=
  (ocalls_calcStep E).bind fun _ => .gets _

theorem ocalls_dcall {op : DOp K} (h : op.model = true) : Calls E AnyOp OutReq (dcall E op) := by
  have w : ∀ {α : Type} {m : DM K α}, Calls E Reads OutReq m → Calls E AnyOp OutReq m :=
    fun h => h.mono (fun _ _ => trivial) fun _ h => h
  have hinit : Calls E AnyOp OutReq (initializeRunParameters E) :=
    (calls_ensureInitialized E).bind fun _ => w (ocalls_initializeRun E)
  have hreset : ∀ j, Calls E AnyOp OutReq (resetStepping E j) := fun j =>
    (calls_ensureInitialized E).bind fun _ => hinit.bind fun _ => w (ocalls_adapterReset E j)
  cases op with
  | resetStepping j => exact (hreset j).bind fun _ => .pure _
  | run j => exact ((hreset j).bind fun _ => w (ocalls_diceRun E)).bind fun _ => .pure _
  | step => exact (w (ocalls_adapterStep E)).bind fun _ => .pure _
  | initModelInput => exact (calls_ensureInitialized E).bind fun _ => .pure _
  | initRunParameters => exact hinit.bind fun _ => .pure _
  | reset j => exact (w (ocalls_adapterReset E j)).bind fun _ => .pure _
  | adapterRun => exact (w (ocalls_diceRun E)).bind fun _ => .pure _
  | input op => cases h
  | output op => cases h

end

/-! ## What has a type after a call -/

/-- A parameter with a type had it before the call, or the call asked for it as such. -/
theorem typed_by {G : Type} {env : Env K} {s : St K G} (hi : Inv env s) (op : Op K G) {q : Nat} {Q : Param K G} {k : Key}
    (hq : (call env op s).2.params[q]? = some Q) (hk : HasKey (call env op s).2 q k) (hQ : Q.ptype ≠ none) :
    (∃ Q0, s.params[q]? = some Q0 ∧ Q0.ptype ≠ none) ∨
      ∃ name region t, request op = some (name, region) ∧ asks op = some t ∧ k = (region.parts, name.parts) ∧
        Q.ptype = some t ∧ Q.unit = asksUnit op := by
  cases hc : callee op with
  | some r =>
    left
    rcases call_frame hi hc with ⟨p, u, h1, h2⟩ | ⟨_, h2⟩
    · obtain ⟨P, hP, _, hPt⟩ := viewTarget_param hi h1
      by_cases hqp : q = p
      · subst hqp; exact ⟨P, hP, hPt⟩
      · rw [h2.params q hqp] at hq
        exact ⟨Q, hq, hQ⟩
    · rw [h2] at hq; exact ⟨Q, hq, hQ⟩
  | none =>
    rcases callee_none hc with ⟨⟨name, region⟩, hreq⟩ | hl
    · cases ha : asks op with
      | none =>
        left
        rw [request_unparsed hreq ha] at hq; exact ⟨Q, hq, hQ⟩
      | some t =>
        obtain ⟨_, f, hfp, hf⟩ := request_bind (env := env) hreq ha
        have hsteps := quiet_reach env name region s
        have hfr := typeFr_reach name region s
        rw [hf] at hq hk
        cases hr : reach name region s with
        | mk res s1 =>
          rw [hr] at hsteps hfr
          have hi1 := hsteps.inv hi
          have old : ∀ {P1 : Param K G}, s1.params[q]? = some P1 → P1.ptype ≠ none →
              ∃ Q0, s.params[q]? = some Q0 ∧ Q0.ptype ≠ none := by
            intro P1 h1 h2
            rcases hfr q P1 h1 with h | ⟨Q0, h3, h4⟩
            · exact absurd h h2
            · exact ⟨Q0, h3, by rw [h4]; exact h2⟩
          cases res with
          | error e => rw [M.bind_error hr] at hq; exact .inl (old hq hQ)
          | ok p =>
            rw [M.bind_ok hr] at hq hk
            have hkey : HasKey s1 p (region.parts, name.parts) := by
              rcases reach_spec hi name region with ⟨_, h, _⟩ | ⟨_, _, h | ⟨q, h, h', _⟩⟩
              · rw [hr] at h; simp at h
              · rw [hr] at h; simp at h
              · rw [hr] at h h'; simp only [Except.ok.injEq] at h; subst h; exact h'
            obtain ⟨P1, hp1, _⟩ := id hkey
            have qa := quiet_attemptRead (G := G) env p t (asksUnit op) (asksPoints op)
              (by
                cases op <;> simp only [request, reduceCtorEq] at hreq
                · exact Or.inr ⟨by simp only [asks, Option.some.injEq] at ha; subst ha; simp, rfl⟩
                · refine Or.inr ⟨?_, rfl⟩
                  have := (request_bind (env := env) (op := Op.timeseries _ _ _ _ _ _ _) rfl ha).1.2 rfl
                  rcases this with rfl | rfl <;> simp
                · exact Or.inl ⟨by simp only [asks, Option.some.injEq] at ha; exact ha.symm, rfl⟩) s1
            have e1 : ((attemptRead p t (asksUnit op) (asksPoints op) >>= fun _ => f p) s1).2.params =
                (attemptRead p t (asksUnit op) (asksPoints op) s1).2.params ∧
                ((attemptRead p t (asksUnit op) (asksPoints op) >>= fun _ => f p) s1).2.regions =
                (attemptRead p t (asksUnit op) (asksPoints op) s1).2.regions := by
              cases hat : attemptRead p t (asksUnit op) (asksPoints op) s1 with
              | mk r2 s2 =>
                cases r2 with
                | error e => rw [M.bind_error hat]; exact ⟨rfl, rfl⟩
                | ok u => rw [M.bind_ok hat]; exact hfp p s2
            by_cases hold : ∃ Q0, s.params[q]? = some Q0 ∧ Q0.ptype ≠ none
            · exact .inl hold
            · right
              rw [e1.1] at hq
              have hne : q = p := by
                by_contra hne
                refine hold (old (P1 := Q) ?_ hQ)
                rw [← hq]
                unfold attemptRead
                rw [hp1]
                simp only
                split
                · split
                  · rfl
                  · exact (setParam_ne _ _ (Ne.symm hne)).symm
                · split <;> exact (setParam_ne _ _ (Ne.symm hne)).symm
              subst hne
              have hnone : P1.ptype = none := by
                by_contra h
                exact hold (old hp1 h)
              refine ⟨name, region, t, hreq, rfl, ?_, ?_⟩
              · exact hk.det ((qa.key hi1 hkey).mono (.of_eq e1.1) (.of_eq e1.2))
              · unfold attemptRead at hq
                simp only [hp1, hnone] at hq
                have hu : (firstRead P1 t (asksUnit op) (asksPoints op)).1.unit = asksUnit op := by
                  unfold firstRead
                  cases t <;> simp only [] <;> repeat' split
                  all_goals rfl
                cases hf1 : firstRead P1 t (asksUnit op) (asksPoints op) with
                | mk P2 e =>
                  rw [hf1] at hq hu
                  have h2 := (firstRead_ptype hf1).1
                  cases e with
                  | some e =>
                    rw [setParam_self, hp1] at hq
                    cases hq
                    exact ⟨h2, hu⟩
                  | none =>
                    rw [setParam_self, hp1] at hq
                    cases hq
                    exact ⟨h2, hu⟩
    · left
      rw [looks_state env op hl] at hq
      exact ⟨Q, hq, hQ⟩

/-! ## Nothing but outputs -/

/-- The parameter set of the outputs has nothing but outputs of the model, as the model requests them. -/
def OwnOutputs (env : Env K) (s : St K GVal) : Prop :=
  ∀ k I, infoAt env s k = some I → k.1 = ["World"] ∧ (∃ o, k.2 <+: outputName o) ∧
    (I.ptype ≠ none → ∃ o, k = outputKey o ∧ I.ptype = some (outputType o) ∧ I.unit = some (outputUnit o))

theorem outputRequest_asks (o : OName) (pts avgs : List K) :
    asks (outputRequest o pts avgs) = some (outputType o) := by
  unfold outputRequest
  simp only [asks, outputTy_parse]
  rfl

theorem OwnOutputs.call {env : Env K} {s : St K GVal} (hi : Inv env s) (h : OwnOutputs env s) {op : Op K GVal}
    (hop : OutReq op) : OwnOutputs env (call env op s).2 := by
  have hi' := call_inv (env := env) op hi
  intro k I hI
  obtain ⟨q, Q, hq, hQ, rfl⟩ := (infoAt_some hi'.tree).1 hI
  refine ⟨?_, ?_, ?_⟩
  · rcases (call_creates hi op k).1 ⟨q, hq⟩ with ⟨q0, h0⟩ | ⟨name, region, h1, h2, _, _, _, h3, h4, h5⟩
    · obtain ⟨Q0, hQ0, _⟩ := id h0
      exact (h k _ (infoAt_of hi.tree h0 hQ0)).1
    · obtain ⟨o, pts, avgs, rfl⟩ := hop _ h1
      cases h1
      exact h3.symm
  · rcases (call_creates hi op k).1 ⟨q, hq⟩ with ⟨q0, h0⟩ | ⟨name, region, h1, h2, _, _, _, h3, h4, h5⟩
    · obtain ⟨Q0, hQ0, _⟩ := id h0
      exact (h k _ (infoAt_of hi.tree h0 hQ0)).2.1
    · obtain ⟨o, pts, avgs, rfl⟩ := hop _ h1
      cases h1
      exact ⟨o, h4⟩
  · intro ht
    rcases typed_by hi op hQ hq ht with ⟨Q0, h0, h0t⟩ | ⟨name, region, t, h1, h2, h3, h4, h5⟩
    · obtain ⟨k0, hk0⟩ := HasKey.exists hi.tree h0
      have := (hk0.mono (call_pext op hi) (call_rext op hi)).det hq
      subst this
      obtain ⟨Q', g1, g2⟩ := call_pext op hi q Q0 h0
      rw [hQ] at g1; cases g1
      obtain ⟨o, e1, e2, e3⟩ := (h k0 _ (infoAt_of hi.tree hk0 h0)).2.2 h0t
      exact ⟨o, e1, g2.ptype _ e2, by rw [g2.unit h0t]; exact e3⟩
    · obtain ⟨o, pts, avgs, rfl⟩ := hop _ h1
      cases h1
      rw [outputRequest_asks] at h2
      cases h2
      exact ⟨o, h3, h4, h5⟩

theorem OwnOutputs.after {env : Env K} : ∀ (ops : List (Op K GVal)) {s : St K GVal}, Inv env s → OwnOutputs env s →
    (∀ op ∈ ops, OutReq op) → OwnOutputs env (after env s ops)
  | [], _, _, h, _ => h
  | op :: ops, s, hi, h, hops => by
    rw [after_cons]
    exact OwnOutputs.after ops (call_inv op hi) (h.call hi (hops op (by simp))) fun o ho => hops o (by simp [ho])

theorem OwnOutputs.dcall {E : DEnv K} {op : DOp K} (hop : op.model = true) {d : Dice K} (hi : Inv E.env d.out)
    (h : OwnOutputs E.env d.out) : OwnOutputs E.env (dcall E op d).2.out := by
  obtain ⟨_, b, _, hb, _, e⟩ := ocalls_dcall E hop d
  rw [e]
  exact OwnOutputs.after b hi h hb

theorem OwnOutputs.stepped {E : DEnv K} : ∀ (n : Nat) {d d' : Dice K}, Stepped E n d d' → Reachable E.env d.inp →
    Reachable E.env d.out → OwnOutputs E.env d.out → Reachable E.env d'.out ∧ OwnOutputs E.env d'.out
  | 0, _, _, h, _, hr, ho => by cases h; exact ⟨hr, ho⟩
  | n + 1, d, d', ⟨t, d1, h1, h2⟩, hri, hr, ho => by
    have e : d1 = (Openscm.dcall E .step d).2 := by rw [h1]
    obtain ⟨g1, g2⟩ := dafter_reach (E := E) [.step] hri hr
    refine OwnOutputs.stepped n h2 (by rw [e]; exact g1) (by rw [e]; exact g2) ?_
    rw [e]
    exact OwnOutputs.dcall rfl hr.inv ho

theorem OwnOutputs.went {E : DEnv K} {d d' : Dice K} {W : Scenario K} {n : Nat} (h : Went E d d' W n) (hd : DReach E d)
    (ho : OwnOutputs E.env d.out) : Reachable E.env d'.out ∧ OwnOutputs E.env d'.out := by
  rcases h with ⟨junk, d0, h1, h2⟩ | ⟨junk, h1, _⟩
  · have e : d0 = (Openscm.dcall E (.resetStepping junk) d).2 := by rw [h1]
    obtain ⟨g1, g2⟩ := dafter_reach (E := E) [.resetStepping junk] hd.inp hd.out
    refine OwnOutputs.stepped n h2 (by rw [e]; exact g1) (by rw [e]; exact g2) ?_
    rw [e]
    exact OwnOutputs.dcall rfl hd.out.inv ho
  · have e : d' = (Openscm.dcall E (.run junk) d).2 := by rw [h1]
    obtain ⟨g1, g2⟩ := dafter_reach (E := E) [.run junk] hd.inp hd.out
    refine ⟨by rw [e]; exact g2, ?_⟩
    rw [e]
    exact OwnOutputs.dcall rfl hd.out.inv ho

/-! ## The outputs are the childless parameters -/

theorem output_leaf (o o' : OName) (n : String) : ¬ outputName o ++ [n] <+: outputName o' := by
  cases o <;> cases o' <;> simp [outputName]

theorem prefix_found {env : Env K} {s : St K GVal} (hs : Reachable env s) {k : Key} {l : List String}
    (h : infoAt env s k ≠ none) (hl : l <+: k.2) (hne : l ≠ []) : infoAt env s (k.1, l) ≠ none := by
  obtain ⟨root, ops, rfl⟩ := hs
  obtain ⟨pre, op, post, e, name, region, h1, h2, h3, h4, h5, h6, h7, h8⟩ := C16_found_iff_requested.1 h
  exact C16_found_iff_requested.2 ⟨pre, op, post, e, name, region, h1, h2, h3, h4, h5, h6, hl.trans h7, hne⟩

theorem freshRead_parse {G : Type} {env : Env K} {s : St K G} (hi : Inv env s) {k : Key} {I : Info} (hI : infoAt env s k = some I)
    (ht : I.ptype ≠ none) (hc : ¬ HasChildren env s k) (w : String) (tps : List K) {ty ty' : TyArg}
    (hty : ty.parse = ty'.parse) (int : IntArg) (ext : ExtArg) :
    freshRead env s k w tps ty int ext = freshRead env s k w tps ty' int ext := by
  obtain ⟨q, Q, hq, hQ, rfl⟩ := (infoAt_some hi.tree).1 hI
  have hch := (not_hasChildren_iff hi.tree hq hQ).1 hc
  rw [freshRead_eq hi hq hQ ht hch, freshRead_eq hi hq hQ ht hch]
  unfold freshOf
  rw [hty]

theorem outAxis_axis {W : Scenario K} (h : 1 ≤ W.steps) (o : OName) : Axis W.begins (outputType o) (W.outAxis o) := by
  have hp : Axis W.begins .point (W.axis (W.steps + 1)) := by
    have : W.axis (W.steps + 1) = W.begins.map fun i : Int => (i : K) := by
      unfold Scenario.axis Scenario.begins
      rw [List.map_map]
      rfl
    rw [this]
    exact .point
  cases o
  case forc => exact begins_axis h
  all_goals exact hp

theorem axis_unique {times : List Int} {p : PType} {a b : List K} (ha : Axis times p a) (hb : Axis times p b) : a = b := by
  have hp : p = .average ∨ p = .point := by cases ha <;> simp
  obtain ⟨m, h1, rfl⟩ := (axis_iff hp).1 ha
  obtain ⟨m', h2, rfl⟩ := (axis_iff hp).1 hb
  rw [h1] at h2
  cases h2
  rfl

section
variable {E : DEnv K} {d d' : Dice K} {W : Scenario K} {n : Nat}

theorem own_output (hj : Journey E d d' W n) (hown : OwnOutputs E.env d.out) (o : OName) :
    ∃ I, infoAt E.env d'.out (outputKey o) = some I ∧ I.ptype = some (outputType o) ∧ I.unit = some (outputUnit o) ∧
      ¬ HasChildren E.env d'.out (outputKey o) := by
  obtain ⟨hr, ho⟩ := OwnOutputs.went hj.went hj.reach hown
  obtain ⟨L, hL, _⟩ := hj.spec
  obtain ⟨i, v, _, hv, hk⟩ := hL.lives.keys o
  obtain ⟨P, hP, _, hPt⟩ := viewTarget_param hr.inv (r := .t i) (p := v.leaf.param) (u := some v.leaf.conv.target)
    (by simp [viewTarget, hv])
  have hI := infoAt_of (env := E.env) hr.inv.tree hk hP
  obtain ⟨_, _, h3⟩ := ho _ _ hI
  obtain ⟨o', e1, e2, e3⟩ := h3 hPt
  have := outputKey_inj e1
  subst this
  refine ⟨_, hI, e2, e3, ?_⟩
  rintro ⟨m, hm⟩
  obtain ⟨J, hJ⟩ := Option.ne_none_iff_exists'.1 hm
  obtain ⟨_, ⟨o', h'⟩, _⟩ := ho _ _ hJ
  exact output_leaf o o' m h'

theorem own_leaf (hj : Journey E d d' W n) (hown : OwnOutputs E.env d.out) {k : Key} {I : Info}
    (hI : infoAt E.env d'.out k = some I) (hc : ¬ HasChildren E.env d'.out k) : ∃ o, k = outputKey o := by
  obtain ⟨hr, ho⟩ := OwnOutputs.went hj.went hj.reach hown
  obtain ⟨h1, ⟨o, l, hl⟩, _⟩ := ho _ _ hI
  obtain ⟨k1, k2⟩ := k
  simp only at h1 hl
  subst h1
  cases l with
  | nil => exact ⟨o, by unfold outputKey; rw [← hl, List.append_nil]⟩
  | cons m l =>
    exfalso
    refine hc ⟨m, ?_⟩
    obtain ⟨J, hJ, _⟩ := own_output hj hown o
    exact prefix_found hr (k := outputKey o) (by rw [hJ]; simp) (l := k2 ++ [m])
      (by show _ <+: outputName o; rw [← hl]; exact ⟨l, by simp⟩) (by simp)

theorem own_series (hj : Journey E d d' W n) (h1 : 1 ≤ W.steps) (hown : OwnOutputs E.env d.out) (f : GVal → PyVal K)
    (k : Key) (p : PType) (u : String) (vals : List (Fl K)) :
    SeriesOn E.env (d'.out.mapG f) W.begins k p u vals ↔
      ∃ o, k = outputKey o ∧ p = outputType o ∧ u = outputUnit o ∧ readOutput E d' W o = .ok (.arr (.floats vals)) := by
  obtain ⟨hr, ho⟩ := OwnOutputs.went hj.went hj.reach hown
  have hch : ∀ k, HasChildren E.env (d'.out.mapG f) k ↔ HasChildren E.env d'.out k := by
    intro k
    unfold HasChildren
    simp only [infoAt_mapG]
  have hread : ∀ o, readOutput E d' W o = freshRead E.env d'.out (outputKey o) (outputUnit o) (W.outAxis o)
      (.enum (outputType o)) (.enum .linear) (.enum .none) := by
    intro o
    obtain ⟨I, hI, ht, _, hc⟩ := own_output hj hown o
    refine freshRead_parse hr.inv hI (by rw [ht]; simp) hc _ _ ?_ _ _
    rw [outputTy_parse]
    cases o <;> rfl
  constructor
  · rintro ⟨I, pts, ⟨hI, hc, _⟩, ht, hu, hax, hv⟩
    rw [infoAt_mapG] at hI
    rw [hch] at hc
    obtain ⟨o, rfl⟩ := own_leaf hj hown hI hc
    obtain ⟨J, hJ, e1, e2, _⟩ := own_output hj hown o
    rw [hI] at hJ
    cases hJ
    rw [ht] at e1
    rw [hu] at e2
    cases e1
    cases e2
    refine ⟨o, rfl, rfl, rfl, ?_⟩
    rw [axis_unique hax (outAxis_axis h1 o)] at hv
    rw [hread]
    exact (freshRead_mapG_floats f _ _ _ _ _ _ _ _ _).1 hv
  · rintro ⟨o, rfl, rfl, rfl, hv⟩
    obtain ⟨I, hI, e1, e2, hc⟩ := own_output hj hown o
    refine ⟨I, _, ⟨by rw [infoAt_mapG, hI], by rw [hch]; exact hc, by simp [outputKey]⟩, e1, e2, outAxis_axis h1 o, ?_⟩
    rw [hread] at hv
    exact (freshRead_mapG_floats f _ _ _ _ _ _ _ _ _).2 hv

theorem own_free (hj : Journey E d d' W n) (hown : OwnOutputs E.env d.out) (f : GVal → PyVal K) {k : Key} {I : Info}
    (hI : ShallowLeaf E.env (d'.out.mapG f) k I) : ∃ o, k = outputKey o ∧ I.ptype = some (outputType o) := by
  obtain ⟨h1, h2, _⟩ := hI
  rw [infoAt_mapG] at h1
  have hc : ¬ HasChildren E.env d'.out k := by
    rintro ⟨m, hm⟩
    exact h2 ⟨m, by rw [infoAt_mapG]; exact hm⟩
  obtain ⟨o, rfl⟩ := own_leaf hj hown h1 hc
  obtain ⟨J, hJ, e1, _⟩ := own_output hj hown o
  rw [h1] at hJ
  cases hJ
  exact ⟨o, rfl, e1⟩

theorem own_names (hj : Journey E d d' W n) (hown : OwnOutputs E.env d.out) (f : GVal → PyVal K) :
    NamesFree E.env (d'.out.mapG f) := by
  intro k I hI hg
  obtain ⟨o, _, e⟩ := own_free hj hown f hI
  rw [e] at hg
  cases o <;> cases hg

theorem own_reach (hj : Journey E d d' W n) (hown : OwnOutputs E.env d.out) (f : GVal → PyVal K) :
    Reachable E.env (d'.out.mapG f) := by
  obtain ⟨⟨root, ops, e⟩, _⟩ := OwnOutputs.went hj.went hj.reach hown
  exact ⟨root, ops.map (Op.mapG f), by rw [e, ← after_mapG]; rfl⟩

end

/-! ## C101 -/

/-- Variable, unit and type of the outputs of DICE. -/
def outputSpec : OName → String × String × String
  | .mat => ("Pool|CO2|Atmosphere", "GtC", "point")
  | .ml => ("Pool|CO2|Ocean|lower", "GtC", "point")
  | .mu => ("Pool|CO2|Ocean|shallow", "GtC", "point")
  | .tatm => ("Surface Temperature|Increase", "delta_degC", "point")
  | .tocean => ("Ocean Temperature|Increase", "delta_degC", "point")
  | .forc => ("Radiative Forcing|CO2", "W/m^2", "average")

theorem outputSpec_eq (o : OName) : outputSpec o =
    (joinName (outputName o), outputUnit o, typeText (outputType o)) := by
  cases o <;> decide +kernel

theorem outputSpec_inj {o o' : OName} (h : (outputSpec o).1 = (outputSpec o').1) : o = o' := by
  cases o <;> cases o' <;> first | rfl | (exfalso; revert h; decide +kernel)

theorem converted_ok {env : Env K} {s s' : St K (PyVal K)} (hs : Reachable env s) (hn : NamesFree env s)
    {times : List Int} {model scenario climate : String} {F' : DFrame K}
    (h : convertToFrame env times model scenario climate s = (.ok F', s')) : F'.Ok := by
  have hi := hs.inv
  obtain ⟨avg, havg, hall⟩ := convert_inv hi h
  obtain ⟨S, _, _, s1, _, _, h3, h4, _⟩ := convert_any hi hn havg hall model scenario climate
  have hne : S ≠ [] := fun h0 => by
    have := h3 h0
    rw [h] at this
    cases this
  obtain ⟨F1, e1, e2, _⟩ := h4 hne
  rw [h] at e1
  cases e1
  exact e2

section
variable {E : DEnv K} {d d' : Dice K} {W : Scenario K} {n : Nat}

/-- **C101**. A model that was handed an empty parameter set for its outputs puts nothing else there, whatever it is
asked to do, as long as nobody else uses it. -/
theorem C101_own (inp : St K GVal) (r : String) (ops : List (DOp K)) (hops : ∀ op ∈ ops, ∀ o, op ≠ .output o) :
    OwnOutputs E.env (dafter E (Dice.new inp (St.init r)) ops).out := by
  have key : ∀ (ops : List (DOp K)) (d : Dice K), Inv E.env d.out → OwnOutputs E.env d.out →
      (∀ op ∈ ops, ∀ o, op ≠ .output o) → OwnOutputs E.env (dafter E d ops).out := by
    intro ops
    induction ops with
    | nil => intro d _ h _; exact h
    | cons op ops ih =>
      intro d hi h hops
      rw [dafter]
      have hc : Inv E.env (dcall E op d).2.out ∧ OwnOutputs E.env (dcall E op d).2.out := by
        cases hop : op with
        | output o => exact absurd hop (hops op (by simp) o)
        | input o =>
          have e : (dcall E (.input o) d).2.out = d.out := by
            show ((onInp E o >>= fun x => (pure (DOut.out x) : DM K _)) d).2.out = d.out
            cases hc : onInp E o d with
            | mk r d1 =>
              have h1 : d1.out = d.out := by
                have := congrArg (fun z => z.2.out) hc
                exact this.symm
              cases r with
              | error e => rw [DM.bind_error hc]; exact h1
              | ok x => rw [DM.bind_ok hc]; exact h1
          rw [e]
          exact ⟨hi, h⟩
        | _ =>
          obtain ⟨_, b, _, hb, _, e⟩ := ocalls_dcall E (op := op) (by rw [hop]; rfl) d
          rw [← hop, e]
          exact ⟨after_inv b hi, OwnOutputs.after b hi h hb⟩
      exact ih _ hc.1 hc.2 fun o ho => hops o (by simp [ho])
  refine key ops _ (Inv.init E.env r) ?_ hops
  intro k I hI
  exfalso
  obtain ⟨q, Q, _, hQ, _⟩ := (infoAt_some (Inv.init E.env r).tree).1 hI
  simp [St.init] at hQ

/-- **C101**. The outputs of DICE can be converted to a frame on the times at which its steps begin: the frame has one
row for each output and no others. -/
theorem C101_frame (hj : Journey E d d' W n) (h1 : 1 ≤ W.steps) (hown : OwnOutputs E.env d.out) (f : GVal → PyVal K)
    (model scenario climate : String) : ∃ F' s',
      convertToFrame E.env W.begins model scenario climate (d'.out.mapG f) = (.ok F', s') ∧ F'.times = W.begins ∧
      (∀ o, ∃! i, ∃ g u vals, F'.IsRow i (outputSpec o).1 g u vals) ∧
      ∀ i < F'.data.length, ∃ o g u vals, F'.IsRow i (outputSpec o).1 g u vals := by
  have hs := own_reach hj hown f
  have hn := own_names hj hown f
  have hser := own_series hj h1 hown f
  have hread : ∀ o, ∃ r, readOutput E d' W o = .ok (.arr (.floats r)) := by
    obtain ⟨L, _, h, _⟩ := hj.spec
    intro o
    obtain ⟨r, hr, _⟩ := h o
    exact ⟨r, hr⟩
  obtain ⟨F', s', hF⟩ := (C99_succeeds_partial hs hn W.begins model scenario climate).2 (by
    refine ⟨by unfold Scenario.begins; simp; omega, ?_, ?_⟩
    · obtain ⟨r, hr⟩ := hread .mat
      exact ⟨_, _, _, r, (hser _ _ _ _).2 ⟨.mat, rfl, rfl, rfl, hr⟩⟩
    · intro k I hI
      left
      obtain ⟨o, rfl, _⟩ := own_free hj hown f hI
      obtain ⟨r, hr⟩ := hread o
      exact ⟨_, _, r, (hser _ _ _ _).2 ⟨o, rfl, rfl, rfl, hr⟩⟩)
  obtain ⟨ht, key, k1, k2, k3⟩ := C99_rows_partial hs hn hF
  have hrow : ∀ i < F'.data.length, ∃ o, key i = outputKey o ∧ ∃ g u vals, F'.IsRow i (outputSpec o).1 g u vals := by
    intro i hi
    obtain ⟨p, u, vals, h2, h3, _⟩ := k2 i hi
    obtain ⟨o, e1, _⟩ := (hser _ _ _ _).1 h2
    rw [e1] at h3
    exact ⟨o, e1, _, _, _, by rw [outputSpec_eq]; exact h3⟩
  refine ⟨F', s', hF, ht, fun o => ?_, fun i hi => ?_⟩
  · obtain ⟨r, hr⟩ := hread o
    obtain ⟨i, hi, hki⟩ := k3 _ _ _ _ ((hser _ _ _ _).2 ⟨o, rfl, rfl, rfl, hr⟩)
    obtain ⟨o1, e1, h2⟩ := hrow i hi
    rw [hki] at e1
    have := outputKey_inj e1
    subst this
    refine ⟨i, h2, ?_⟩
    rintro i' ⟨g, u, vals, h3⟩
    have hi' : i' < F'.data.length := by
      obtain ⟨_, _, _, dd, hd, _⟩ := h3
      exact (List.getElem?_eq_some_iff.1 hd).1
    obtain ⟨o2, e2, g2, u2, vals2, h4⟩ := hrow i' hi'
    have hv : PyVal.str (K := K) (outputSpec o).1 = .str (outputSpec o2).1 :=
      HasMeta.unique (converted_ok hs hn hF) h3.1 h4.1
    have := outputSpec_inj (PyVal.str.inj hv)
    subst this
    exact k1 i' i hi' hi (by rw [e2, hki])
  · obtain ⟨o, _, h⟩ := hrow i hi
    exact ⟨o, h⟩

/-- **C101**. The row of an output is of region "World", in the unit and of the type of the output, and has as many
values as there are times: what somebody who reads the output is shown. -/
theorem C101_rows (hj : Journey E d d' W n) (h1 : 1 ≤ W.steps) (hown : OwnOutputs E.env d.out) (f : GVal → PyVal K)
    {model scenario climate : String} {F' : DFrame K} {s' : St K (PyVal K)}
    (hF : convertToFrame E.env W.begins model scenario climate (d'.out.mapG f) = (.ok F', s')) {o : OName} {i : Nat}
    {g u : String} {vals : List (Fl K)} (hrow : F'.IsRow i (outputSpec o).1 g u vals) :
    g = "World" ∧ u = (outputSpec o).2.1 ∧ F'.HasMeta i "parameter_type" (.str (outputSpec o).2.2) ∧
      vals.length = F'.times.length ∧ ∀ j x, vals[j]? = some (.num x) ↔ Shows E d' W o j x := by
  have hs := own_reach hj hown f
  have hn := own_names hj hown f
  have hok := converted_ok hs hn hF
  obtain ⟨ht, key, k1, k2, k3⟩ := C99_rows_partial hs hn hF
  obtain ⟨m1, m2, m3, dd, hd, rfl⟩ := id hrow
  have hi : i < F'.data.length := (List.getElem?_eq_some_iff.1 hd).1
  obtain ⟨p, u', vals', h2, ⟨q1, q2, q3, dd', hd', rfl⟩, h4⟩ := k2 i hi
  obtain ⟨o', e1, rfl, rfl, e4⟩ := (own_series hj h1 hown f _ _ _ _).1 h2
  rw [hd] at hd'
  cases hd'
  rw [e1] at q1 q2
  have hv : PyVal.str (K := K) (outputSpec o).1 = .str (outputSpec o').1 := by
    rw [outputSpec_eq o']
    exact HasMeta.unique hok m1 q1
  have := outputSpec_inj (PyVal.str.inj hv)
  subst this
  have hg : g = "World" := by
    have := PyVal.str.inj (HasMeta.unique hok m2 q2)
    rw [this]
    show joinName ["World"] = "World"
    decide +kernel
  refine ⟨hg, ?_, ?_, ?_, ?_⟩
  · rw [outputSpec_eq]
    exact PyVal.str.inj (HasMeta.unique hok m3 q3)
  · rw [outputSpec_eq]
    exact h4
  · exact hok.data_len dd (List.mem_of_getElem? hd)
  · intro j x
    constructor
    · intro h; exact ⟨_, e4, h⟩
    · rintro ⟨a, ha, hx⟩
      rw [e4] at ha
      cases ha
      exact hx

/-- **C101**. The columns of the frame: what every frame of timeseries has, with the names that were given. -/
theorem C101_columns (hj : Journey E d d' W n) (hown : OwnOutputs E.env d.out) (f : GVal → PyVal K)
    {model scenario climate : String} {F' : DFrame K} {s' : St K (PyVal K)}
    (hF : convertToFrame E.env W.begins model scenario climate (d'.out.mapG f) = (.ok F', s')) :
    (∀ c, c ∈ F'.cols ↔
      c ∈ ["climate_model", "scenario", "model", "variable", "region", "unit", "parameter_type"]) ∧
    ∀ i < F'.data.length, F'.HasMeta i "model" (.str model) ∧ F'.HasMeta i "scenario" (.str scenario) ∧
      F'.HasMeta i "climate_model" (.str climate) := by
  obtain ⟨c1, c2⟩ := C99_columns_partial (own_reach hj hown f) (own_names hj hown f) hF
  have hno : ∀ c, ¬ ∃ v, ValueColumn E.env (d'.out.mapG f) c v := by
    rintro c ⟨v, k, I, hI, -, h⟩
    obtain ⟨o, _, e⟩ := own_free hj hown f hI
    rw [e] at h
    rcases h with ⟨h, _⟩ | ⟨h, _⟩ <;> cases o <;> cases h
  have hcols : ∀ c, c ∈ F'.cols ↔
      c ∈ ["climate_model", "scenario", "model", "variable", "region", "unit", "parameter_type"] := fun c => by
    rw [c1]
    simp only [hno, or_false]
  refine ⟨hcols, fun i hi => ?_⟩
  have get : ∀ c w, c ∈ ["climate_model", "scenario", "model"] → (∀ v : PyVal K,
      (c, v) ∈ [("climate_model", PyVal.str climate), ("scenario", .str scenario), ("model", .str model)] → v = w) →
      F'.HasMeta i c w := by
    intro c w hc hw
    obtain ⟨v, hv, hx⟩ := c2 c ((hcols c).2 (by revert hc; simp; tauto)) (by
      simp only [List.mem_cons, List.not_mem_nil, or_false] at hc
      rcases hc with rfl | rfl | rfl <;> decide +kernel)
    rcases hx with hx | ⟨_, hx⟩
    · exact absurd ⟨v, hx⟩ (hno c)
    · rw [← hw v hx]; exact hv i hi
  refine ⟨get _ _ (by simp) ?_, get _ _ (by simp) ?_, get _ _ (by simp) ?_⟩ <;> simp

end

/-- **C101** with C100, from frames to frames: as long as no pool is at its lower bound, what the rows of the three
pools of carbon gain together is what the emissions of the frame that was given, on the times of the model, bring. -/
theorem C101_carbon {E : DEnv K} {views : Bool} {F G : DFrame K} (hT : F.Tidy)
    (hr : ∀ c ∈ requiredCols, c ∈ F.cols) {s : St K (PyVal K)}
    (hto : toParameterset E.env F (St.init "World") = (.ok (), s)) (f : PyVal K → GVal) (r : String) (ops : List (DOp K))
    (hu : Untouched E s (dafter E (Dice.new (s.mapG f) (St.init r)) ops)) {d' : Dice K} {W : Scenario K} {n : Nat}
    (hops : ∀ op ∈ ops, ∀ o, op ≠ .output o)
    (hjour : Journey E (dafter E (Dice.new (s.mapG f) (St.init r)) ops) d' W n) (hsteps : 1 ≤ W.steps)
    (hG : F.interpolate E.env.units views W.begins .none = .ok G) (hviews : views = true ∨ "parameter_type" ∈ F.cols)
    {i : Nat} {u : String} {new : List (Fl K)} (hrow : G.IsRow i "Emissions|CO2" "World" u new)
    (hav : G.HasMeta i "parameter_type" (.str "average")) {a b : UDef K} (ha : E.env.units u = some a)
    (hb : E.env.units (diceUnit W.rounding) = some b) (hab : a.dim = b.dim)
    {f' : GVal → PyVal K} {model scenario climate : String} {F' : DFrame K} {s' : St K (PyVal K)}
    (hF : convertToFrame E.env W.begins model scenario climate (d'.out.mapG f') = (.ok F', s'))
    {x : Nat → OName → K} {m : Nat} (hm : m ≤ n) {vals : OName → List (Fl K)}
    (hpool : ∀ o, (o = .mat ∨ o = .ml ∨ o = .mu) → ∃ k g w, F'.IsRow k (outputSpec o).1 g w (vals o))
    (hx : ∀ j o, j ≤ m → (o = .mat ∨ o = .ml ∨ o = .mu) → (vals o)[j]? = some (.num (x j o)))
    (hfree : ∀ j o s, 1 ≤ j → j ≤ m → (o = .mat ∨ o = .ml ∨ o = .mu) → lowerBound o = some s →
      W.p s ≠ .num (x j o)) :
    ∃ es : List K, new.take m = es.map .num ∧ es.length = m ∧
      x m .mat + x m .ml + x m .mu =
        x 0 .mat + x 0 .ml + x 0 .mu + (es.map fun e => carbon W (pintTo a b e)).sum := by
  refine C100_carbon hT hr hto f r ops hu hjour hsteps hG hviews hrow hav ha hb hab hm (fun j o hj ho => ?_) hfree
  obtain ⟨k, g, w, hk⟩ := hpool o ho
  exact ((C101_rows hjour hsteps (C101_own _ r ops hops) f' hF hk).2.2.2.2 j _).1 (hx j o hj ho)

/-! ## The hypotheses are met -/

theorem diceFOps_other : ∀ op ∈ diceFOps, ∀ o, op ≠ .output o := by
  intro op hop o
  simp only [diceFOps, List.mem_cons, List.not_mem_nil, or_false] at hop
  rcases hop with rfl | rfl | rfl | rfl <;> exact fun h => nomatch h

theorem diceF_own : OwnOutputs diceEnv.env diceF0.out :=
  C101_own _ "World" diceFOps diceFOps_other

def diceOut : Except Err (DFrame ℚ) :=
  (convertToFrame diceEnv.env diceFW.begins "DICE" "idealised" "DICE" (diceF1.out.mapG fun _ => .none)).1

/-- What the frame looks like: carbon in the atmosphere comes first, one value per time. -/
example : ∃ F', diceOut = .ok F' ∧ F'.data.length = 6 ∧ F'.times = [0, 31536000, 63072000, 94608000] ∧
    (F'.data[0]?.bind fun d => d.2[0]?) = some (.num (4152 / 5)) ∧
    (F'.data[0]?.bind fun d => d.2[1]?) = some (.num (191642346391 / 229125000)) := by
  have h : (match diceOut with
    | .ok F => decide (F.data.length = 6 ∧ F.times = [0, 31536000, 63072000, 94608000] ∧
        (F.data[0]?.bind fun d => d.2[0]?) = some (.num (4152 / 5)) ∧
        (F.data[0]?.bind fun d => d.2[1]?) = some (.num (191642346391 / 229125000)))
    | .error _ => false) = true := by decide +kernel
  generalize diceOut = x at h
  cases x with
  | error e => cases h
  | ok F => exact ⟨F, rfl, by simpa using h⟩

example : ∃ (F' : DFrame ℚ) (s' : St ℚ (PyVal ℚ)), convertToFrame diceEnv.env diceFW.begins "DICE" "idealised" "DICE"
      (diceF1.out.mapG fun _ => .none) = (.ok F', s') ∧
    (∃ i vals, F'.IsRow i "Pool|CO2|Atmosphere" "World" "GtC" vals ∧ vals.length = 4 ∧
      vals[1]? = some (.num (191642346391 / 229125000))) ∧
    (∀ c, c ∈ F'.cols → c ∈ ["climate_model", "scenario", "model", "variable", "region", "unit", "parameter_type"]) := by
  obtain ⟨F', s', hF, ht, hrows, _⟩ := C101_frame diceF_journey (by decide +kernel) diceF_own (fun _ => .none) "DICE"
    "idealised" "DICE"
  obtain ⟨i, ⟨g, u, vals, hi⟩, _⟩ := hrows .mat
  obtain ⟨rfl, rfl, _, hl, hv⟩ := C101_rows diceF_journey (by decide +kernel) diceF_own (fun _ => .none) hF hi
  refine ⟨F', s', hF, ⟨i, vals, hi, ?_, (hv 1 _).2 (shows_of (by decide +kernel))⟩, fun c => ?_⟩
  · rw [hl, ht]; decide +kernel
  · exact ((C101_columns diceF_journey diceF_own (fun _ => .none) hF).1 c).1

example : ∃ es : List ℚ, ([.num 9, .num 11, .num (55 / 4), .num (57 / 4)] : List (Fl ℚ)).take 1 = es.map .num ∧
    es.length = 1 ∧ diceFPools 1 .mat + diceFPools 1 .ml + diceFPools 1 .mu =
      diceFPools 0 .mat + diceFPools 0 .ml + diceFPools 0 .mu + (es.map fun e => carbon diceFW (pintTo
        ⟨[("carbon", 1), ("time", -1)], 1, 0, by norm_num⟩ ⟨[("carbon", 1), ("time", -1)], 12 / 44, 0, by norm_num⟩ e)).sum := by
  obtain ⟨F', s', hF, _, hrows, _⟩ := C101_frame diceF_journey (by decide +kernel) diceF_own (fun _ => .none) "DICE"
    "idealised" "DICE"
  have hrow : ∀ o, ∃ vals k g w, F'.IsRow k (outputSpec o).1 g w vals := fun o => by
    obtain ⟨i, ⟨g, u, vals, hi⟩, _⟩ := hrows o
    exact ⟨vals, i, g, u, hi⟩
  choose vals hvals using hrow
  refine C101_carbon diceF_tidy (by decide) diceF_to (fun _ => .other 0) "World" diceFOps diceF_untouched
    diceFOps_other
    diceF_journey (by decide +kernel) diceG_eq (.inl rfl) diceG_row diceG_average rfl rfl (by decide +kernel) hF
    (m := 1) (by omega) (vals := vals) (fun o _ => hvals o) ?_ ?_
  · intro j o hj ho
    obtain ⟨k, g, w, hk⟩ := hvals o
    refine ((C101_rows diceF_journey (by decide +kernel) diceF_own (fun _ => .none) hF hk).2.2.2.2 j _).2 ?_
    have : j = 0 ∨ j = 1 := by omega
    rcases this with rfl | rfl <;> rcases ho with rfl | rfl | rfl <;> exact shows_of (by decide +kernel)
  · intro j o s h1 hj ho hs
    have : j = 1 := by omega
    subst this
    rcases ho with rfl | rfl | rfl <;> cases hs <;> decide +kernel

/-- Somebody else's request of a parameter among the outputs is enough to make the conversion fail. -/
example : (convertToFrame diceEnv.env diceFW.begins "DICE" "idealised" "DICE"
    (after diceEnv.env (diceF1.out.mapG fun _ => PyVal.none)
      [.scalar (.str "Note") "GtC" (.seq ["World"])])).1 = .error .parameterEmpty := by decide +kernel

end Openscm
