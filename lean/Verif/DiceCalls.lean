import Verif.DiceRun

/-!
# The DICE adapter as a client of the parameter sets

Helper file: everything the adapter does is a sequence of public calls on its two parameter sets.
-/

set_option linter.unusedSectionVars false

namespace Openscm
variable {K : Type} [Field K] [LinearOrder K] [IsStrictOrderedRing K]

/-- Calls that assign something. -/
def assigns : Op K GVal → Bool
  | .sSet _ _ | .gSet _ _ | .tSet _ _ | .tSetItem _ _ | .hSetItem _ _ | .hInplace _ _ | .tSetOwn _
  | .tUnlock _ => true
  | _ => false

/-- The effect of `m` on the parameter sets is that of calls with properties `P` and `Q`. -/
def Calls (E : DEnv K) (P Q : Op K GVal → Prop) {α : Type} (m : DM K α) : Prop :=
  ∀ d, ∃ a b, (∀ op ∈ a, P op) ∧ (∀ op ∈ b, Q op) ∧ (m d).2.inp = after E.env d.inp a ∧
    (m d).2.out = after E.env d.out b

section
variable {E : DEnv K} {P Q : Op K GVal → Prop} {α β : Type}

theorem Calls.nothing {m : DM K α} (h1 : ∀ d, (m d).2.inp = d.inp) (h2 : ∀ d, (m d).2.out = d.out) :
    Calls E P Q m := fun d => ⟨[], [], by simp, by simp, h1 d, h2 d⟩

theorem Calls.bind {m : DM K α} {f : α → DM K β} (hm : Calls E P Q m) (hf : ∀ a, Calls E P Q (f a)) :
    Calls E P Q (m >>= f) := by
  intro d
  obtain ⟨a, b, h1, h2, h3, h4⟩ := hm d
  cases h : m d with
  | mk r d1 =>
    rw [h] at h3 h4
    cases r with
    | error e => rw [DM.bind_error h]; exact ⟨a, b, h1, h2, h3, h4⟩
    | ok x =>
      rw [DM.bind_ok h]
      obtain ⟨a', b', g1, g2, g3, g4⟩ := hf x d1
      refine ⟨a ++ a', b ++ b', ?_, ?_, ?_, ?_⟩
      · intro op hop
        rcases List.mem_append.1 hop with hop | hop
        · exact h1 op hop
        · exact g1 op hop
      · intro op hop
        rcases List.mem_append.1 hop with hop | hop
        · exact h2 op hop
        · exact g2 op hop
      · rw [g3, after_append, ← h3]
      · rw [g4, after_append, ← h4]

theorem Calls.pure (x : α) : Calls E P Q (Pure.pure x : DM K α) := .nothing (fun _ => rfl) fun _ => rfl

theorem Calls.throw (e : Err) : Calls E P Q (DM.throw e : DM K α) := .nothing (fun _ => rfl) fun _ => rfl

theorem Calls.ofExcept (x : Except Err α) : Calls E P Q (DM.ofExcept x : DM K α) := by
  cases x <;> exact .nothing (fun _ => rfl) fun _ => rfl

theorem Calls.attr (f : Dice K → Option α) : Calls E P Q (DM.attr f) := by
  refine .nothing (fun d => ?_) fun d => ?_ <;> · unfold DM.attr; cases f d <;> rfl

theorem Calls.coef (f : Dice K → Option α) : Calls E P Q (DM.coef f) := by
  refine .nothing (fun d => ?_) fun d => ?_ <;> · unfold DM.coef; cases f d <;> rfl

theorem Calls.gets (f : Dice K → α) : Calls E P Q (DM.gets f) := .nothing (fun _ => rfl) fun _ => rfl

theorem Calls.ite {c : Prop} [Decidable c] {m m' : DM K α} (h : Calls E P Q m) (h' : Calls E P Q m') :
    Calls E P Q (if c then m else m') := by
  split
  · exact h
  · exact h'

theorem Calls.onInp {op : Op K GVal} (h : P op) : Calls E P Q (Openscm.onInp E op) := fun d =>
  ⟨[op], [], by simpa using h, by simp, by rw [after_one]; rfl, rfl⟩

theorem Calls.onOut {op : Op K GVal} (h : Q op) : Calls E P Q (Openscm.onOut E op) := fun d =>
  ⟨[], [op], by simp, by simpa using h, rfl, by rw [after_one]; rfl⟩

theorem Calls.mono {P' Q' : Op K GVal → Prop} {m : DM K α} (h : Calls E P Q m)
    (hp : ∀ op, P op → P' op) (hq : ∀ op, Q op → Q' op) : Calls E P' Q' m := by
  intro d
  obtain ⟨a, b, h1, h2, h3, h4⟩ := h d
  exact ⟨a, b, fun op h => hp op (h1 op h), fun op h => hq op (h2 op h), h3, h4⟩

end

/-! ## Everything after the initialisation only reads the inputs -/

/-- Calls that assign nothing. -/
abbrev Reads (op : Op K GVal) : Prop := assigns op = false

/-- All calls. -/
abbrev AnyOp (_ : Op K GVal) : Prop := True

section
variable (E : DEnv K) {P Q : Op K GVal → Prop}

theorem calls_read {op : Op K GVal} (h : assigns op = false) : Calls E Reads Q (onInp E op) :=
  Calls.onInp h

theorem calls_any {op : Op K GVal} : Calls E AnyOp Q (onInp E op) := Calls.onInp trivial

theorem calls_anyOut {op : Op K GVal} : Calls E P AnyOp (onOut E op) := Calls.onOut trivial

theorem calls_sget (n : SName) : Calls E Reads Q (sget E n) :=
  (Calls.attr _).bind fun _ => (calls_read E rfl).bind fun _ => .ofExcept _

theorem calls_gget (n : GName) : Calls E Reads Q (gget E n) :=
  (Calls.attr _).bind fun _ => (calls_read E rfl).bind fun _ => .ofExcept _

theorem calls_gdelta (n : GName) : Calls E Reads Q (gdelta E n) := by
  refine (calls_gget E n).bind fun x => ?_
  rcases x with _ | g
  · exact .throw _
  · cases g <;> first | exact .pure _ | exact .throw _

theorem calls_gtime (n : GName) : Calls E Reads Q (gtime E n) := by
  refine (calls_gget E n).bind fun x => ?_
  rcases x with _ | g
  · exact .throw _
  · cases g <;> first | exact .pure _ | exact .throw _

theorem calls_gbool (n : GName) : Calls E Reads Q (gbool E n) := by
  refine (calls_gget E n).bind fun x => ?_
  rcases x with _ | g
  · exact .throw _
  · cases g <;> first | exact .pure _ | exact .throw _

theorem calls_oget (o : OName) (j : Int) : Calls E P AnyOp (oget E o j) :=
  (Calls.attr _).bind fun _ => (calls_anyOut E).bind fun _ => .ofExcept _

theorem calls_eget (j : Int) : Calls E Reads Q (eget E j) :=
  (Calls.attr _).bind fun _ => (calls_read E rfl).bind fun _ => .ofExcept _

theorem calls_oset (o : OName) (j : Int) (x : Fl K) : Calls E P AnyOp (oset E o j x) :=
  (Calls.attr _).bind fun _ => (calls_anyOut E).bind fun _ => .pure _

theorem calls_modify {f : Dice K → Dice K} (h1 : ∀ d, (f d).inp = d.inp) (h2 : ∀ d, (f d).out = d.out) :
    Calls E P Q (DM.modify f) := .nothing h1 h2

theorem calls_requestOutput (o : OName) (p a : List K) : Calls E P AnyOp (requestOutput E o p a) :=
  (calls_anyOut E).bind fun _ => (Calls.ofExcept _).bind fun _ =>
    calls_modify E (by intros; rfl) (by intros; rfl)

theorem calls_initializeRun : Calls E Reads AnyOp (initializeRun E) := by
  unfold initializeRun
  refine (calls_modify E (by intros; rfl) (by intros; rfl)).bind fun _ => ?_
  refine (calls_gtime E _).bind fun _ => (calls_gtime E _).bind fun _ => ?_
  refine (calls_gdelta E _).bind fun x => ?_
  obtain ⟨k, u⟩ := x
  refine Calls.ite (.throw _) ?_
  refine (calls_modify E (by intros; rfl) (by intros; rfl)).bind fun _ => ?_
  refine (Calls.ofExcept _).bind fun _ => (Calls.ofExcept _).bind fun _ => ?_
  refine (calls_gbool E _).bind fun _ => (calls_read E rfl).bind fun _ => ?_
  refine (Calls.ofExcept _).bind fun _ => ?_
  refine (calls_modify E (by intros; rfl) (by intros; rfl)).bind fun _ => ?_
  exact (calls_requestOutput E _ _ _).bind fun _ => (calls_requestOutput E _ _ _).bind fun _ =>
    (calls_requestOutput E _ _ _).bind fun _ => (calls_requestOutput E _ _ _).bind fun _ =>
    (calls_requestOutput E _ _ _).bind fun _ => calls_requestOutput E _ _ _

theorem calls_resetOutput (o : OName) (j : Nat → Fl K) {x : DM K (Fl K)} (hx : Calls E Reads AnyOp x) :
    Calls E Reads AnyOp (resetOutput E o j x) := by
  unfold resetOutput
  refine (Calls.gets _).bind fun _ => Calls.ite (.throw _) ?_
  exact (Calls.attr _).bind fun _ => (calls_anyOut E).bind fun _ => hx.bind fun _ =>
    calls_oset E _ _ _

theorem calls_diceReset (j : OName → Nat → Fl K) : Calls E Reads AnyOp (diceReset E j) := by
  unfold diceReset
  refine (calls_modify E (by intros; rfl) (by intros; rfl)).bind fun _ => ?_
  refine (calls_sget E _).bind fun _ => ?_
  refine (calls_modify E (by intros; rfl) (by intros; rfl)).bind fun _ => ?_
  refine (calls_sget E _).bind fun _ => (calls_sget E _).bind fun _ => (Calls.ofExcept _).bind fun _ => ?_
  refine (calls_modify E (by intros; rfl) (by intros; rfl)).bind fun _ => ?_
  refine (calls_sget E _).bind fun _ => ?_
  refine (calls_modify E (by intros; rfl) (by intros; rfl)).bind fun _ => ?_
  refine (calls_sget E _).bind fun _ => (Calls.ofExcept _).bind fun _ => ?_
  refine (calls_modify E (by intros; rfl) (by intros; rfl)).bind fun _ => ?_
  refine (calls_resetOutput E _ _ (calls_sget E _)).bind fun _ => ?_
  refine (calls_resetOutput E _ _ (calls_sget E _)).bind fun _ => ?_
  refine (calls_resetOutput E _ _ (calls_sget E _)).bind fun _ => ?_
  refine (calls_resetOutput E _ _ (calls_sget E _)).bind fun _ => ?_
  refine (calls_resetOutput E _ _ (calls_sget E _)).bind fun _ => ?_
  refine calls_resetOutput E _ _ ?_
  exact (calls_sget E _).bind fun _ => (calls_sget E _).bind fun _ => (calls_sget E _).bind fun _ =>
    (Calls.ofExcept _).bind fun _ => (Calls.ofExcept _).bind fun _ => (calls_sget E _).bind fun _ => .pure _

theorem calls_adapterReset (j : OName → Nat → Fl K) : Calls E Reads AnyOp (adapterReset E j) := by
  unfold adapterReset
  refine (calls_read E rfl).bind fun _ => (Calls.ofExcept _).bind fun _ => (calls_read E rfl).bind fun _ => ?_
  refine (Calls.ofExcept _).bind fun x => ?_
  rcases x with _ | g
  · exact .throw _
  · cases g <;>
      first
        | exact .throw _
        | exact (calls_modify E (by intros; rfl) (by intros; rfl)).bind fun _ => calls_diceReset E j

theorem calls_stepMat (k u : Int) (t : Nat) : Calls E Reads AnyOp (stepMat E k u t) := by
  unfold stepMat
  exact (calls_sget E _).bind fun _ => (calls_oget E _ _).bind fun _ => (Calls.coef _).bind fun _ =>
    (calls_oget E _ _).bind fun _ => (Calls.coef _).bind fun _ => (calls_eget E _).bind fun _ =>
    (calls_gbool E _).bind fun _ => calls_oset E _ _ _

theorem calls_stepMl (t : Nat) : Calls E Reads AnyOp (stepMl E t) := by
  unfold stepMl
  exact (calls_sget E _).bind fun _ => (calls_oget E _ _).bind fun _ => (Calls.coef _).bind fun _ =>
    (calls_oget E _ _).bind fun _ => (calls_sget E _).bind fun _ => calls_oset E _ _ _

theorem calls_stepMu (t : Nat) : Calls E Reads AnyOp (stepMu E t) := by
  unfold stepMu
  exact (calls_sget E _).bind fun _ => (calls_oget E _ _).bind fun _ => (calls_sget E _).bind fun _ =>
    (calls_oget E _ _).bind fun _ => (Calls.coef _).bind fun _ => (calls_oget E _ _).bind fun _ =>
    (Calls.coef _).bind fun _ => calls_oset E _ _ _

theorem calls_stepTocean (t : Nat) : Calls E Reads AnyOp (stepTocean E t) := by
  unfold stepTocean
  exact (calls_sget E _).bind fun _ => (calls_sget E _).bind fun _ => (calls_oget E _ _).bind fun _ =>
    (calls_sget E _).bind fun _ => (calls_oget E _ _).bind fun _ => calls_oset E _ _ _

theorem calls_forcothStep (t : Nat) : Calls E Reads AnyOp (forcothStep E t) := by
  unfold forcothStep
  refine (calls_gtime E _).bind fun _ => (calls_gdelta E _).bind fun x => ?_
  obtain ⟨k, u⟩ := x
  refine (calls_gtime E _).bind fun _ => Calls.ite (calls_sget E _) ?_
  exact (calls_sget E _).bind fun _ => (calls_sget E _).bind fun _ => .pure _

theorem calls_stepForc (t : Nat) : Calls E Reads AnyOp (stepForc E t) := by
  unfold stepForc
  exact (calls_forcothStep E _).bind fun _ => (calls_sget E _).bind fun _ => (calls_oget E _ _).bind fun _ =>
    (calls_sget E _).bind fun _ => (Calls.ofExcept _).bind fun _ => (Calls.ofExcept _).bind fun _ =>
    calls_oset E _ _ _

theorem calls_stepTatm (t : Nat) : Calls E Reads AnyOp (stepTatm E t) := by
  unfold stepTatm
  exact (calls_sget E _).bind fun _ => (calls_oget E _ _).bind fun _ => (calls_sget E _).bind fun _ =>
    (calls_oget E _ _).bind fun _ => (calls_sget E _).bind fun _ => (calls_sget E _).bind fun _ =>
    (Calls.ofExcept _).bind fun _ => (calls_sget E _).bind fun _ => (calls_oget E _ _).bind fun _ =>
    calls_oset E _ _ _

theorem calls_calcStep : Calls E Reads AnyOp (calcStep E) := by
  unfold calcStep
  refine (calls_modify E (by intros; rfl) (by intros; rfl)).bind fun _ => (calls_gdelta E _).bind fun x => ?_
  obtain ⟨k, u⟩ := x
  refine (calls_modify E (by intros; rfl) (by intros; rfl)).bind fun _ => (Calls.gets _).bind fun _ => ?_
  exact (calls_stepMat E _ _ _).bind fun _ => (calls_stepMl E _).bind fun _ =>
    (calls_stepMu E _).bind fun _ => (calls_stepTocean E _).bind fun _ =>
    (calls_stepForc E _).bind fun _ => calls_stepTatm E _

theorem calls_steps : ∀ n, Calls E Reads AnyOp (steps E n)
  | 0 => .pure _
  | n + 1 => (calls_calcStep E).bind fun _ => calls_steps n

theorem calls_lock (o : OName) : Calls E P AnyOp (lockOutput E o) :=
  (Calls.attr _).bind fun _ => (calls_anyOut E).bind fun _ => .pure _

theorem calls_unlock (o : OName) : Calls E P AnyOp (unlockOutput E o) :=
  (Calls.attr _).bind fun _ => (calls_anyOut E).bind fun _ => .pure _

theorem calls_diceRun : Calls E Reads AnyOp (diceRun E) := by
  unfold diceRun
  refine (calls_lock E _).bind fun _ => (calls_lock E _).bind fun _ => (calls_lock E _).bind fun _ =>
    (calls_lock E _).bind fun _ => (calls_lock E _).bind fun _ => (calls_lock E _).bind fun _ => ?_
  refine (Calls.gets _).bind fun _ => (calls_steps E _).bind fun _ => ?_
  exact (calls_unlock E _).bind fun _ => (calls_unlock E _).bind fun _ => (calls_unlock E _).bind fun _ =>
    (calls_unlock E _).bind fun _ => (calls_unlock E _).bind fun _ => (calls_unlock E _).bind fun _ =>
    calls_unlock E _

theorem calls_adapterStep : Calls E Reads AnyOp (adapterStep E) :=
  (calls_calcStep E).bind fun _ => .gets _

/-! ## The initialisation -/

theorem calls_setScalarParameter (n : SName) (f : List String) (u : String) (x : K) :
    Calls E AnyOp Q (setScalarParameter E n f u x) := by
  unfold setScalarParameter
  refine (calls_any E).bind fun _ => (Calls.ofExcept _).bind fun _ =>
    (calls_any E).bind fun _ => (Calls.ofExcept _).bind fun _ => Calls.ite ?_ ?_
  · exact (calls_any E).bind fun _ => calls_modify E (by intros; rfl) (by intros; rfl)
  · exact calls_modify E (by intros; rfl) (by intros; rfl)

theorem calls_setGenericParameter (n : GName) (f : List String) (g : Option GVal) :
    Calls E AnyOp Q (setGenericParameter E n f g) := by
  unfold setGenericParameter
  refine (calls_any E).bind fun _ => (Calls.ofExcept _).bind fun _ => ?_
  cases g with
  | none => exact calls_modify E (by intros; rfl) (by intros; rfl)
  | some g =>
    refine (calls_any E).bind fun _ => (Calls.ofExcept _).bind fun _ => Calls.ite ?_ ?_
    · exact (calls_any E).bind fun _ => calls_modify E (by intros; rfl) (by intros; rfl)
    · exact calls_modify E (by intros; rfl) (by intros; rfl)

theorem calls_setScalars : ∀ l, Calls E AnyOp Q (setScalars E l)
  | [] => .pure _
  | (n, f, u, _) :: r => (calls_setScalarParameter E n f u _).bind fun _ => calls_setScalars r

theorem calls_setGenerics : ∀ l, Calls E AnyOp Q (setGenerics E l)
  | [] => .pure _
  | (n, f, g) :: r => (calls_setGenericParameter E n f g).bind fun _ => calls_setGenerics r

theorem calls_initializeModel : Calls E AnyOp Q (initializeModel E) := by
  unfold initializeModel
  exact (calls_modify E (by intros; rfl) (by intros; rfl)).bind fun _ => (calls_setScalars E _).bind fun _ =>
    (calls_setGenerics E _).bind fun _ => (calls_setScalars E _).bind fun _ => calls_setGenerics E _

theorem calls_ensureInitialized : Calls E AnyOp Q (ensureInitialized E) := by
  unfold ensureInitialized
  refine (Calls.gets _).bind fun b => Calls.ite (.pure _) ?_
  exact (calls_initializeModel E).bind fun _ => calls_modify E (by intros; rfl) (by intros; rfl)

/-- Every call of the adapter or of the facade is a sequence of calls on the parameter sets. -/
theorem calls_dcall (op : DOp K) : Calls E AnyOp AnyOp (dcall E op) := by
  have w : ∀ {α : Type} {m : DM K α}, Calls E Reads AnyOp m → Calls E AnyOp AnyOp m :=
    fun h => h.mono (fun _ _ => trivial) fun _ h => h
  have hinit : Calls E AnyOp AnyOp (initializeRunParameters E) :=
    (calls_ensureInitialized E).bind fun _ => w (calls_initializeRun E)
  have hreset : ∀ j, Calls E AnyOp AnyOp (resetStepping E j) := fun j =>
    (calls_ensureInitialized E).bind fun _ => hinit.bind fun _ => w (calls_adapterReset E j)
  cases op with
  | resetStepping j => exact (hreset j).bind fun _ => .pure _
  | run j => exact ((hreset j).bind fun _ => w (calls_diceRun E)).bind fun _ => .pure _
  | step => exact (w (calls_adapterStep E)).bind fun _ => .pure _
  | initModelInput => exact (calls_ensureInitialized E).bind fun _ => .pure _
  | initRunParameters => exact hinit.bind fun _ => .pure _
  | reset j => exact (w (calls_adapterReset E j)).bind fun _ => .pure _
  | adapterRun => exact (w (calls_diceRun E)).bind fun _ => .pure _
  | input op => exact (calls_any E).bind fun _ => .pure _
  | output op => exact (calls_anyOut E).bind fun _ => .pure _

end

/-- States a program can reach with a new adapter on new parameter sets. -/
def DReach (E : DEnv K) (d : Dice K) : Prop :=
  ∃ r r' ops, d = dafter E (Dice.new (St.init r) (St.init r')) ops

theorem dafter_reach {E : DEnv K} : ∀ (ops : List (DOp K)) {d : Dice K}, Reachable E.env d.inp →
    Reachable E.env d.out → Reachable E.env (dafter E d ops).inp ∧ Reachable E.env (dafter E d ops).out
  | [], d, h1, h2 => ⟨h1, h2⟩
  | op :: ops, d, h1, h2 => by
    obtain ⟨a, b, _, _, g3, g4⟩ := calls_dcall E op d
    exact dafter_reach ops (by rw [g3]; exact h1.after a) (by rw [g4]; exact h2.after b)

theorem DReach.inp {E : DEnv K} {d : Dice K} (h : DReach E d) : Reachable E.env d.inp := by
  obtain ⟨r, r', ops, rfl⟩ := h
  exact (dafter_reach ops ⟨r, [], rfl⟩ ⟨r', [], rfl⟩).1

theorem DReach.out {E : DEnv K} {d : Dice K} (h : DReach E d) : Reachable E.env d.out := by
  obtain ⟨r, r', ops, rfl⟩ := h
  exact (dafter_reach ops ⟨r, [], rfl⟩ ⟨r', [], rfl⟩).2

end Openscm
