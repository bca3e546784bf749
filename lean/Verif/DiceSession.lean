import Verif.DiceSafe

/-!
# The DICE adapter: sessions

Helper file: what is known after initialisation, for whole histories of calls.
-/

set_option linter.unusedSectionVars false

namespace Openscm
variable {K : Type} [Field K] [LinearOrder K] [IsStrictOrderedRing K]

/-! ## Attributes that are set once -/

/-- `m` does not touch the views of the inputs and the flag, nor, if `b`, those of the outputs. -/
def Fixed (b : Bool) {α : Type} (m : DM K α) : Prop :=
  ∀ d, (m d).2.sv = d.sv ∧ (m d).2.gv = d.gv ∧ (m d).2.initialized = d.initialized ∧
    (b = true → (m d).2.ov = d.ov)

section
variable {E : DEnv K} {α β : Type} {b : Bool}

theorem Fixed.bind {m : DM K α} {f : α → DM K β} (hm : Fixed b m) (hf : ∀ a, Fixed b (f a)) :
    Fixed b (m >>= f) := by
  intro d
  have h1 := hm d
  cases h : m d with
  | mk r d1 =>
    rw [h] at h1
    cases r with
    | error e => rw [DM.bind_error h]; exact h1
    | ok x =>
      rw [DM.bind_ok h]
      have h2 := hf x d1
      exact ⟨h2.1.trans h1.1, h2.2.1.trans h1.2.1, h2.2.2.1.trans h1.2.2.1,
        fun hb => (h2.2.2.2 hb).trans (h1.2.2.2 hb)⟩

theorem Fixed.pure (x : α) : Fixed b (Pure.pure x : DM K α) := fun _ => ⟨rfl, rfl, rfl, fun _ => rfl⟩

theorem Fixed.throw (e : Err) : Fixed b (DM.throw e : DM K α) := fun _ => ⟨rfl, rfl, rfl, fun _ => rfl⟩

theorem Fixed.ofExcept (x : Except Err α) : Fixed b (DM.ofExcept x : DM K α) := by
  cases x <;> exact fun _ => ⟨rfl, rfl, rfl, fun _ => rfl⟩

theorem Fixed.attr (f : Dice K → Option α) : Fixed b (DM.attr f) := by
  intro d; unfold DM.attr; cases f d <;> exact ⟨rfl, rfl, rfl, fun _ => rfl⟩

theorem Fixed.coef (f : Dice K → Option α) : Fixed b (DM.coef f) := by
  intro d; unfold DM.coef; cases f d <;> exact ⟨rfl, rfl, rfl, fun _ => rfl⟩

theorem Fixed.gets (f : Dice K → α) : Fixed b (DM.gets f) := fun _ => ⟨rfl, rfl, rfl, fun _ => rfl⟩

theorem Fixed.onInp (op : Op K GVal) : Fixed b (Openscm.onInp E op) := fun _ => ⟨rfl, rfl, rfl, fun _ => rfl⟩

theorem Fixed.onOut (op : Op K GVal) : Fixed b (Openscm.onOut E op) := fun _ => ⟨rfl, rfl, rfl, fun _ => rfl⟩

theorem Fixed.sget (n : SName) : Fixed b (Openscm.sget E n) :=
  (Fixed.attr _).bind fun _ => (Fixed.onInp _).bind fun _ => Fixed.ofExcept _

theorem Fixed.gget (n : GName) : Fixed b (Openscm.gget E n) :=
  (Fixed.attr _).bind fun _ => (Fixed.onInp _).bind fun _ => Fixed.ofExcept _

theorem Fixed.gdelta (n : GName) : Fixed b (Openscm.gdelta E n) := by
  refine (Fixed.gget n).bind fun g => ?_
  split
  · exact .pure _
  · exact .throw _

theorem Fixed.gtime (n : GName) : Fixed b (Openscm.gtime E n) := by
  refine (Fixed.gget n).bind fun g => ?_
  split
  · exact .pure _
  · exact .throw _

theorem Fixed.gbool (n : GName) : Fixed b (Openscm.gbool E n) := by
  refine (Fixed.gget n).bind fun g => ?_
  split
  · exact .pure _
  · exact .throw _

theorem Fixed.oget (o : OName) (j : Int) : Fixed b (Openscm.oget E o j) :=
  (Fixed.attr _).bind fun _ => (Fixed.onOut _).bind fun _ => Fixed.ofExcept _

theorem Fixed.eget (j : Int) : Fixed b (Openscm.eget E j) :=
  (Fixed.attr _).bind fun _ => (Fixed.onInp _).bind fun _ => Fixed.ofExcept _

theorem Fixed.oset (o : OName) (j : Int) (x : Fl K) : Fixed b (Openscm.oset E o j x) :=
  (Fixed.attr _).bind fun _ => (Fixed.onOut _).bind fun _ => Fixed.pure _

theorem fixed_requestOutput (o : OName) (p a : List K) : Fixed false (requestOutput E o p a) :=
  (Fixed.onOut _).bind fun _ => (Fixed.ofExcept _).bind fun _ => fun _ => ⟨rfl, rfl, rfl, fun h => by simp at h⟩

theorem fixed_initializeRun : Fixed false (initializeRun E) := by
  refine Fixed.bind (fun _ => ⟨rfl, rfl, rfl, fun _ => rfl⟩) fun _ => ?_
  refine (Fixed.gtime _).bind fun stop => ?_
  refine (Fixed.gtime _).bind fun start => ?_
  refine (Fixed.gdelta _).bind fun ku => ?_
  obtain ⟨k, u⟩ := ku
  simp only
  split
  · exact .throw _
  · refine Fixed.bind (fun _ => ⟨rfl, rfl, rfl, fun _ => rfl⟩) fun _ => ?_
    refine (Fixed.ofExcept _).bind fun _ => ?_
    refine (Fixed.ofExcept _).bind fun _ => ?_
    refine (Fixed.gbool _).bind fun _ => ?_
    refine (Fixed.onInp _).bind fun _ => ?_
    refine (Fixed.ofExcept _).bind fun _ => ?_
    refine Fixed.bind (fun _ => ⟨rfl, rfl, rfl, fun _ => rfl⟩) fun _ => ?_
    exact (fixed_requestOutput _ _ _).bind fun _ => (fixed_requestOutput _ _ _).bind fun _ =>
      (fixed_requestOutput _ _ _).bind fun _ => (fixed_requestOutput _ _ _).bind fun _ =>
      (fixed_requestOutput _ _ _).bind fun _ => fixed_requestOutput _ _ _

theorem fixed_resetOutput (o : OName) (j : Nat → Fl K) {x : DM K (Fl K)} (hx : Fixed b x) :
    Fixed b (resetOutput E o j x) := by
  refine (Fixed.gets _).bind fun n => ?_
  split
  · exact .throw _
  · exact (Fixed.attr _).bind fun _ => (Fixed.onOut _).bind fun _ => hx.bind fun _ => Fixed.oset _ _ _

theorem fixed_diceReset (j : OName → Nat → Fl K) : Fixed b (diceReset E j) := by
  refine Fixed.bind (fun _ => ⟨rfl, rfl, rfl, fun _ => rfl⟩) fun _ => ?_
  refine (Fixed.sget _).bind fun _ => ?_
  refine Fixed.bind (fun _ => ⟨rfl, rfl, rfl, fun _ => rfl⟩) fun _ => ?_
  refine (Fixed.sget _).bind fun _ => ?_
  refine (Fixed.sget _).bind fun _ => ?_
  refine (Fixed.ofExcept _).bind fun _ => ?_
  refine Fixed.bind (fun _ => ⟨rfl, rfl, rfl, fun _ => rfl⟩) fun _ => ?_
  refine (Fixed.sget _).bind fun _ => ?_
  refine Fixed.bind (fun _ => ⟨rfl, rfl, rfl, fun _ => rfl⟩) fun _ => ?_
  refine (Fixed.sget _).bind fun _ => ?_
  refine (Fixed.ofExcept _).bind fun _ => ?_
  refine Fixed.bind (fun _ => ⟨rfl, rfl, rfl, fun _ => rfl⟩) fun _ => ?_
  refine (fixed_resetOutput _ _ (Fixed.sget _)).bind fun _ => ?_
  refine (fixed_resetOutput _ _ (Fixed.sget _)).bind fun _ => ?_
  refine (fixed_resetOutput _ _ (Fixed.sget _)).bind fun _ => ?_
  refine (fixed_resetOutput _ _ (Fixed.sget _)).bind fun _ => ?_
  refine (fixed_resetOutput _ _ (Fixed.sget _)).bind fun _ => ?_
  refine fixed_resetOutput _ _ ?_
  exact (Fixed.sget _).bind fun _ => (Fixed.sget _).bind fun _ => (Fixed.sget _).bind fun _ =>
    (Fixed.ofExcept _).bind fun _ => (Fixed.ofExcept _).bind fun _ => (Fixed.sget _).bind fun _ => .pure _

theorem fixed_adapterReset (j : OName → Nat → Fl K) : Fixed b (adapterReset E j) := by
  refine (Fixed.onInp _).bind fun _ => ?_
  refine (Fixed.ofExcept _).bind fun _ => ?_
  refine (Fixed.onInp _).bind fun _ => ?_
  refine (Fixed.ofExcept _).bind fun g => ?_
  split
  · exact Fixed.bind (fun _ => ⟨rfl, rfl, rfl, fun _ => rfl⟩) fun _ => fixed_diceReset j
  · exact .throw _

theorem fixed_forcothStep (t : Nat) : Fixed b (forcothStep E t) := by
  refine (Fixed.gtime _).bind fun _ => ?_
  refine (Fixed.gdelta _).bind fun _ => ?_
  refine (Fixed.gtime _).bind fun _ => ?_
  split
  · exact Fixed.sget _
  · exact (Fixed.sget _).bind fun _ => (Fixed.sget _).bind fun _ => .pure _

theorem fixed_calcStep : Fixed b (calcStep E) := by
  refine Fixed.bind (fun _ => ⟨rfl, rfl, rfl, fun _ => rfl⟩) fun _ => ?_
  refine (Fixed.gdelta _).bind fun ku => ?_
  obtain ⟨k, u⟩ := ku
  refine Fixed.bind (fun _ => ⟨rfl, rfl, rfl, fun _ => rfl⟩) fun _ => ?_
  refine (Fixed.gets _).bind fun t => ?_
  refine Fixed.bind ?_ fun _ => Fixed.bind ?_ fun _ => Fixed.bind ?_ fun _ => Fixed.bind ?_ fun _ =>
    Fixed.bind ?_ fun _ => ?_
  · exact (Fixed.sget _).bind fun _ => (Fixed.oget _ _).bind fun _ => (Fixed.coef _).bind fun _ =>
      (Fixed.oget _ _).bind fun _ => (Fixed.coef _).bind fun _ => (Fixed.eget _).bind fun _ =>
      (Fixed.gbool _).bind fun _ => Fixed.oset _ _ _
  · exact (Fixed.sget _).bind fun _ => (Fixed.oget _ _).bind fun _ => (Fixed.coef _).bind fun _ =>
      (Fixed.oget _ _).bind fun _ => (Fixed.sget _).bind fun _ => Fixed.oset _ _ _
  · exact (Fixed.sget _).bind fun _ => (Fixed.oget _ _).bind fun _ => (Fixed.sget _).bind fun _ =>
      (Fixed.oget _ _).bind fun _ => (Fixed.coef _).bind fun _ => (Fixed.oget _ _).bind fun _ =>
      (Fixed.coef _).bind fun _ => Fixed.oset _ _ _
  · exact (Fixed.sget _).bind fun _ => (Fixed.sget _).bind fun _ => (Fixed.oget _ _).bind fun _ =>
      (Fixed.sget _).bind fun _ => (Fixed.oget _ _).bind fun _ => Fixed.oset _ _ _
  · exact (fixed_forcothStep t).bind fun _ => (Fixed.sget _).bind fun _ => (Fixed.oget _ _).bind fun _ =>
      (Fixed.sget _).bind fun _ => (Fixed.ofExcept _).bind fun _ => (Fixed.ofExcept _).bind fun _ =>
      Fixed.oset _ _ _
  · exact (Fixed.sget _).bind fun _ => (Fixed.oget _ _).bind fun _ => (Fixed.sget _).bind fun _ =>
      (Fixed.oget _ _).bind fun _ => (Fixed.sget _).bind fun _ => (Fixed.sget _).bind fun _ =>
      (Fixed.ofExcept _).bind fun _ => (Fixed.sget _).bind fun _ => (Fixed.oget _ _).bind fun _ =>
      Fixed.oset _ _ _

theorem fixed_steps : ∀ n, Fixed b (steps E n)
  | 0 => .pure _
  | n + 1 => fixed_calcStep.bind fun _ => fixed_steps n

theorem fixed_lock (o : OName) : Fixed b (lockOutput E o) :=
  (Fixed.attr _).bind fun _ => (Fixed.onOut _).bind fun _ => .pure _

theorem fixed_unlock (o : OName) : Fixed b (unlockOutput E o) :=
  (Fixed.attr _).bind fun _ => (Fixed.onOut _).bind fun _ => .pure _

theorem fixed_diceRun : Fixed b (diceRun E) :=
  (fixed_lock _).bind fun _ => (fixed_lock _).bind fun _ => (fixed_lock _).bind fun _ =>
  (fixed_lock _).bind fun _ => (fixed_lock _).bind fun _ => (fixed_lock _).bind fun _ =>
  (Fixed.gets _).bind fun _ => (fixed_steps _).bind fun _ =>
  (fixed_unlock _).bind fun _ => (fixed_unlock _).bind fun _ => (fixed_unlock _).bind fun _ =>
  (fixed_unlock _).bind fun _ => (fixed_unlock _).bind fun _ => (fixed_unlock _).bind fun _ =>
  fixed_unlock _

theorem fixed_adapterStep : Fixed b (adapterStep E) := fixed_calcStep.bind fun _ => Fixed.gets _

end

/-! ## Initialised adapters -/

/-- Without initialisation there are no output views. -/
def NoViews (d : Dice K) : Prop := d.initialized = false → ∀ o, d.ov o = none

/-- All entries of the tables have their views, and values where there are defaults. -/
def Ready (d : Dice K) : Prop :=
  ∀ e ∈ entries K, ∃ r, d.slot e.slot = some r ∧ (∀ i, r ≠ .t i) ∧ ViewOf d.inp r e.key e.unit ∧
    (e.default ≠ none → Filled d.inp r)

/-- What holds between any two calls. -/
structure Sound (E : DEnv K) (d : Dice K) : Prop where
  inp : Inv E.env d.inp
  out : Inv E.env d.out
  ready : d.initialized = true → Ready d
  views : NoViews d

theorem Ready.after {env : Env K} {d d' : Dice K} (hi : Inv env d.inp) (h : Ready d)
    (hs : d'.sv = d.sv) (hg : d'.gv = d.gv) {ops : List (Op K GVal)}
    (hd : d'.inp = Openscm.after env d.inp ops) : Ready d' := by
  intro e he
  obtain ⟨r, h1, h2, h3, h4⟩ := h e he
  refine ⟨r, ?_, h2, by rw [hd]; exact ViewOf.after hi h3 ops, fun hx => by
    rw [hd]; exact filled_after hi (h4 hx) ops⟩
  rw [← h1]
  cases e.slot <;> simp [Dice.slot, hs, hg]

theorem Sound.fixed {E : DEnv K} {P Q : Op K GVal → Prop} {α : Type} {m : DM K α} {d : Dice K} (h : Sound E d)
    (hc : Calls E P Q m) {b : Bool} (hf : Fixed b m) (hb : b = true ∨ d.initialized = true) :
    Sound E (m d).2 := by
  obtain ⟨a, b, _, _, h3, h4⟩ := hc d
  obtain ⟨f1, f2, f3, f4⟩ := hf d
  refine ⟨by rw [h3]; exact after_inv a h.inp, by rw [h4]; exact after_inv b h.out, fun hi => ?_, fun hi o => ?_⟩
  · rw [f3] at hi
    exact (h.ready hi).after h.inp f1 f2 h3
  · rw [f3] at hi
    rcases hb with hb | hb
    · rw [f4 hb]; exact h.views hi o
    · rw [hi] at hb; simp at hb

theorem SetAll.ready {env : Env K} {d d' : Dice K} (h : SetAll env d d' (entries K)) : Ready d' := by
  intro e he
  obtain ⟨r, h1, h2, h3, h4⟩ := h.set e he
  refine ⟨r, h1, h2, h3, fun hx => ?_⟩
  cases hd : e.default with
  | none => exact absurd hd hx
  | some o => exact (h4 o hd).1

/-- `m` does not touch the flag and the views of the outputs. -/
def FlagKept {α : Type} (m : DM K α) : Prop :=
  ∀ d, (m d).2.initialized = d.initialized ∧ (m d).2.ov = d.ov

theorem FlagKept.bind {α β : Type} {m : DM K α} {f : α → DM K β} (hm : FlagKept m)
    (hf : ∀ a, FlagKept (f a)) : FlagKept (m >>= f) := by
  intro d
  have h1 := hm d
  cases h : m d with
  | mk r d1 =>
    rw [h] at h1
    cases r with
    | error e => rw [DM.bind_error h]; exact h1
    | ok x =>
      rw [DM.bind_ok h]
      exact ⟨(hf x d1).1.trans h1.1, (hf x d1).2.trans h1.2⟩

theorem Fixed.flag {α : Type} {m : DM K α} (h : Fixed true m) : FlagKept m :=
  fun d => ⟨(h d).2.2.1, (h d).2.2.2 rfl⟩

theorem flag_setScalars (E : DEnv K) : ∀ l, FlagKept (setScalars E l)
  | [] => fun _ => ⟨rfl, rfl⟩
  | (n, full, unit, x) :: l => by
    refine FlagKept.bind ?_ fun _ => flag_setScalars E l
    refine (Fixed.onInp _).flag.bind fun _ => (Fixed.ofExcept _).flag.bind fun _ =>
      (Fixed.onInp _).flag.bind fun _ => (Fixed.ofExcept _).flag.bind fun b => ?_
    cases b
    · exact fun _ => ⟨rfl, rfl⟩
    · exact (Fixed.onInp _).flag.bind fun _ => fun _ => ⟨rfl, rfl⟩

theorem flag_setGenerics (E : DEnv K) : ∀ l, FlagKept (setGenerics E l)
  | [] => fun _ => ⟨rfl, rfl⟩
  | (n, full, x) :: l => by
    refine FlagKept.bind ?_ fun _ => flag_setGenerics E l
    refine (Fixed.onInp _).flag.bind fun _ => (Fixed.ofExcept _).flag.bind fun _ => ?_
    cases x with
    | none => exact fun _ => ⟨rfl, rfl⟩
    | some g =>
      refine (Fixed.onInp _).flag.bind fun _ => (Fixed.ofExcept _).flag.bind fun b => ?_
      cases b
      · exact fun _ => ⟨rfl, rfl⟩
      · exact (Fixed.onInp _).flag.bind fun _ => fun _ => ⟨rfl, rfl⟩

theorem flag_initializeModel (E : DEnv K) (d : Dice K) :
    (initializeModel E d).2.initialized = d.initialized ∧ ∀ o, (initializeModel E d).2.ov o = none := by
  have h : FlagKept (setScalars E scalarDefaults >>= fun _ => setGenerics E genericDefaults >>= fun _ =>
      setScalars E standardScalars >>= fun _ => setGenerics E standardGenerics) :=
    (flag_setScalars E _).bind fun _ =>
      (flag_setGenerics E _).bind fun _ => (flag_setScalars E _).bind fun _ => flag_setGenerics E _
  have h := h d.cleared
  refine ⟨h.1, fun o => ?_⟩
  have : (initializeModel E d).2.ov = d.cleared.ov := h.2
  rw [this]; rfl

/-- Attempts to initialise keep everything in order. -/
theorem good_ensure {E : DEnv K} {d : Dice K} (h : Sound E d) :
    Sound E (ensureInitialized E d).2 ∧
      ((ensureInitialized E d).1 = .ok () → (ensureInitialized E d).2.initialized = true) := by
  by_cases hi : d.initialized = true
  · rw [ensure_initialized hi]; exact ⟨h, fun _ => hi⟩
  · have hi' : d.initialized = false := by simpa using hi
    obtain ⟨a, b, _, _, c3, c4⟩ := calls_initializeModel (E := E) (Q := AnyOp) d
    unfold ensureInitialized
    rw [DM.bind_ok (by rfl : DM.gets (·.initialized) d = (.ok d.initialized, d)), hi']
    simp only [Bool.false_eq_true, if_false]
    have hfalse : (initializeModel E d).2.initialized = false := by
      rw [(flag_initializeModel E d).1, hi']
    have hov := (flag_initializeModel E d).2
    cases hm : initializeModel E d with
    | mk r d1 =>
      rw [hm] at c3 c4 hfalse hov
      simp only at c3 c4 hfalse hov
      cases r with
      | error e =>
        rw [DM.bind_error hm]
        refine ⟨⟨by rw [c3]; exact after_inv a h.inp, by rw [c4]; exact after_inv b h.out, fun hx => ?_,
          fun _ => hov⟩, fun hx => by simp at hx⟩
        simp only [hfalse, Bool.false_eq_true] at hx
      | ok u =>
        rw [DM.bind_ok hm]
        refine ⟨⟨?_, ?_, fun _ => ?_, fun hx => Bool.noConfusion hx⟩, fun _ => rfl⟩
        · show Inv E.env d1.inp
          rw [c3]; exact after_inv a h.inp
        · show Inv E.env d1.out
          rw [c4]; exact after_inv b h.out
        · have hr := (initializeModel_spec h.inp hm).ready
          intro e he
          exact hr e he

/-- Everything else keeps everything in order, too. -/
theorem Sound.bind {E : DEnv K} {α β : Type} {m : DM K α} {f : α → DM K β}
    (hm : ∀ d, Sound E d → Sound E (m d).2) (hf : ∀ a d, Sound E d → Sound E (f a d).2) (d : Dice K)
    (h : Sound E d) : Sound E ((m >>= f) d).2 := by
  have h1 := hm d h
  cases hd : m d with
  | mk r d1 =>
    rw [hd] at h1
    cases r with
    | error e => rw [DM.bind_error hd]; exact h1
    | ok x => rw [DM.bind_ok hd]; exact hf x d1 h1

theorem sound_initializeRun {E : DEnv K} (d : Dice K) (h : Sound E d) :
    Sound E (initializeRunParameters E d).2 := by
  obtain ⟨h1, h2⟩ := good_ensure h
  show Sound E ((ensureInitialized E >>= fun _ => initializeRun E) d).2
  cases hd : ensureInitialized E d with
  | mk r d1 =>
    rw [hd] at h1 h2
    cases r with
    | error e => rw [DM.bind_error hd]; exact h1
    | ok x =>
      rw [DM.bind_ok hd]
      exact h1.fixed (calls_initializeRun E) fixed_initializeRun (Or.inr (h2 rfl))

theorem sound_resetStepping {E : DEnv K} (j : OName → Nat → Fl K) (d : Dice K) (h : Sound E d) :
    Sound E (resetStepping E j d).2 :=
  Sound.bind (fun _ h => (good_ensure h).1) (fun _ => Sound.bind sound_initializeRun
    (fun _ _ h => h.fixed (b := true) (calls_adapterReset E j) (fixed_adapterReset j) (Or.inl rfl))) d h

theorem sound_dcall {E : DEnv K} (op : DOp K) (d : Dice K) (h : Sound E d) : Sound E (dcall E op d).2 := by
  have hp : ∀ {α : Type} (x : α) (d : Dice K), Sound E d → Sound E ((Pure.pure x : DM K α) d).2 :=
    fun _ _ h => h
  cases op with
  | resetStepping j => exact Sound.bind (sound_resetStepping j) (fun _ => hp _) d h
  | run j =>
    exact Sound.bind (Sound.bind (sound_resetStepping j)
      (fun _ _ h => h.fixed (b := true) (calls_diceRun E) fixed_diceRun (Or.inl rfl))) (fun _ => hp _) d h
  | step => exact Sound.bind (fun _ h => h.fixed (b := true) (calls_adapterStep E) fixed_adapterStep (Or.inl rfl)) (fun _ => hp _) d h
  | initModelInput => exact Sound.bind (fun _ h => (good_ensure h).1) (fun _ => hp _) d h
  | initRunParameters =>
    exact Sound.bind sound_initializeRun (fun _ => hp _) d h
  | reset j =>
    exact Sound.bind (fun _ h => h.fixed (b := true) (calls_adapterReset E j) (fixed_adapterReset j) (Or.inl rfl)) (fun _ => hp _) d h
  | adapterRun => exact Sound.bind (fun _ h => h.fixed (b := true) (calls_diceRun E) fixed_diceRun (Or.inl rfl)) (fun _ => hp _) d h
  | input op =>
    exact Sound.bind (fun _ h => h.fixed (calls_any E (Q := AnyOp)) (Fixed.onInp (b := true) op) (Or.inl rfl)) (fun _ => hp _) d h
  | output op =>
    exact Sound.bind (fun _ h => h.fixed (calls_anyOut E (P := AnyOp)) (Fixed.onOut (b := true) op) (Or.inl rfl)) (fun _ => hp _) d h

theorem sound_dafter {E : DEnv K} : ∀ (ops : List (DOp K)) {d : Dice K}, Sound E d → Sound E (dafter E d ops)
  | [], _, h => h
  | op :: ops, d, h => sound_dafter ops (sound_dcall op d h)

theorem DReach.sound {E : DEnv K} {d : Dice K} (h : DReach E d) : Sound E d := by
  obtain ⟨r, r', ops, rfl⟩ := h
  exact sound_dafter ops ⟨.init E.env r, .init E.env r', fun h => by simp [Dice.new] at h, fun _ _ => rfl⟩

/-- Once initialised, always initialised. -/
theorem initialized_dcall {E : DEnv K} (op : DOp K) (d : Dice K) (h : d.initialized = true) :
    (dcall E op d).2.initialized = true := by
  have hb : ∀ {α β : Type} {m : DM K α} {f : α → DM K β},
      (∀ d : Dice K, d.initialized = true → (m d).2.initialized = true) →
      (∀ a (d : Dice K), d.initialized = true → (f a d).2.initialized = true) →
      ∀ d : Dice K, d.initialized = true → ((m >>= f) d).2.initialized = true := by
    intro α β m f hm hf d h
    have h1 := hm d h
    cases hd : m d with
    | mk r d1 =>
      rw [hd] at h1
      cases r with
      | error e => rw [DM.bind_error hd]; exact h1
      | ok x => rw [DM.bind_ok hd]; exact hf x d1 h1
  have he : ∀ d : Dice K, d.initialized = true → (ensureInitialized E d).2.initialized = true :=
    fun d h => by rw [ensure_initialized h]; exact h
  have hfx : ∀ {α : Type} {m : DM K α} {b : Bool}, Fixed b m → ∀ d : Dice K, d.initialized = true →
      (m d).2.initialized = true := fun hf d h => (hf d).2.2.1.trans h
  have hr : ∀ j (d : Dice K), d.initialized = true → (resetStepping E j d).2.initialized = true :=
    fun j => hb he fun _ => hb (hb he fun _ => hfx fixed_initializeRun) fun _ => hfx (fixed_adapterReset (b := true) j)
  cases op with
  | resetStepping j => exact hb (hr j) (fun _ => hfx (.pure (b := true) _)) d h
  | run j => exact hb (hb (hr j) (fun _ => hfx (fixed_diceRun (b := true)))) (fun _ => hfx (.pure (b := true) _)) d h
  | step => exact hb (hfx (fixed_adapterStep (b := true))) (fun _ => hfx (.pure (b := true) _)) d h
  | initModelInput => exact hb he (fun _ => hfx (.pure (b := true) _)) d h
  | initRunParameters => exact hb (hb he fun _ => hfx fixed_initializeRun) (fun _ => hfx (.pure (b := true) _)) d h
  | reset j => exact hb (hfx (fixed_adapterReset (b := true) j)) (fun _ => hfx (.pure (b := true) _)) d h
  | adapterRun => exact hb (hfx (fixed_diceRun (b := true))) (fun _ => hfx (.pure (b := true) _)) d h
  | input op => exact hb (hfx (.onInp (b := true) op)) (fun _ => hfx (.pure (b := true) _)) d h
  | output op => exact hb (hfx (.onOut (b := true) op)) (fun _ => hfx (.pure (b := true) _)) d h

/-- Calls on an initialised model do not write any input parameter. -/
theorem still_dcall {E : DEnv K} {op : DOp K} (hm : op.model = true) {d : Dice K} (hi : Inv E.env d.inp)
    (h : d.initialized = true) : Still d.inp (dcall E op d).2.inp := by
  have hq : ∀ {α : Type} (x : α), Calls E Reads AnyOp (Pure.pure x : DM K α) := fun _ => .pure _
  have step : ∀ {α : Type} {m : DM K α}, Calls E Reads AnyOp m → ∀ x : DOut K,
      Still d.inp ((m >>= fun _ => (Pure.pure x : DM K (DOut K))) d).2.inp :=
    fun hc x => (hc.bind fun _ => hq x).still hi
  have ens : ∀ {β : Type} (f : Unit → DM K β), (ensureInitialized E >>= f) d = f () d :=
    fun f => DM.bind_ok (ensure_initialized h)
  have hreset : ∀ j, resetStepping E j d = (initializeRun E >>= fun _ => adapterReset E j) d := by
    intro j
    show (ensureInitialized E >>= fun _ => initializeRunParameters E >>= fun _ => adapterReset E j) d = _
    rw [ens]
    show ((ensureInitialized E >>= fun _ => initializeRun E) >>= fun _ => adapterReset E j) d = _
    show DM.bind (ensureInitialized E >>= fun _ => initializeRun E) _ d = DM.bind (initializeRun E) _ d
    unfold DM.bind
    rw [ens]
  have hc : ∀ j, Calls E Reads AnyOp (initializeRun E >>= fun _ => adapterReset E j) := fun j =>
    (calls_initializeRun E).bind fun _ => calls_adapterReset E j
  cases op with
  | input op => simp [DOp.model] at hm
  | output op => simp [DOp.model] at hm
  | resetStepping j =>
    have : dcall E (.resetStepping j) d = ((initializeRun E >>= fun _ => adapterReset E j) >>=
        fun _ => (Pure.pure .done : DM K (DOut K))) d := by
      show DM.bind (resetStepping E j) _ d = DM.bind (initializeRun E >>= fun _ => adapterReset E j) _ d
      unfold DM.bind; rw [hreset]
    rw [this]; exact step (hc j) _
  | run j =>
    have : dcall E (.run j) d = (((initializeRun E >>= fun _ => adapterReset E j) >>= fun _ => diceRun E) >>=
        fun _ => (Pure.pure .done : DM K (DOut K))) d := by
      have h1 : openscmRun E j d = ((initializeRun E >>= fun _ => adapterReset E j) >>= fun _ => diceRun E) d := by
        show DM.bind (resetStepping E j) _ d = DM.bind (initializeRun E >>= fun _ => adapterReset E j) _ d
        unfold DM.bind; rw [hreset]
      show DM.bind (openscmRun E j) _ d = DM.bind _ _ d
      unfold DM.bind; rw [h1]
    rw [this]; exact step ((hc j).bind fun _ => calls_diceRun E) _
  | step =>
    exact ((calls_adapterStep E).bind fun _ => hq _).still hi
  | initModelInput =>
    have : dcall E .initModelInput d = (.ok .done, d) := ens _
    rw [this]; exact .of_params rfl
  | initRunParameters =>
    have : dcall E .initRunParameters d = (initializeRun E >>=
        fun _ => (Pure.pure .done : DM K (DOut K))) d := by
      have h1 : initializeRunParameters E d = initializeRun E d := ens _
      show DM.bind (initializeRunParameters E) _ d = DM.bind _ _ d
      unfold DM.bind; rw [h1]
    rw [this]; exact step (calls_initializeRun E) _
  | reset j => exact step (calls_adapterReset E j) _
  | adapterRun => exact step (calls_diceRun E) _

end Openscm
