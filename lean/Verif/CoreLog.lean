import Verif.CoreProps1

/-!
# The write log

Helper file: what a program can tell from its own calls and their outcomes about what was written,
and the proof that the heap agrees with it.
-/

set_option linter.unusedSectionVars false

namespace Openscm
variable {K G : Type} [Field K] [LinearOrder K] [IsStrictOrderedRing K]

/-! ## Specification: the log of successful writes -/

/-- What was written: a number in the unit of the view, a generic value, or an array. -/
inductive Entry (K G : Type) where
  | num (x : Fl K) (unit : String)
  | gen (g : G)
  | series

/-- Calls that assign through a timeseries view. -/
def assignsT : Op K G → Option Nat
  | .tSet i _ => some i
  | .tSetItem i _ => some i
  | .hSetItem i _ => some i
  | .hInplace i _ => some i
  | .tSetOwn i => some i
  | _ => none

def succeeded (r : Res K G) : Bool :=
  match r with
  | .ok _ => true
  | .error _ => false

def refusedWith (e : Err) (r : Res K G) : Bool :=
  match r with
  | .ok _ => false
  | .error e' => decide (e' = e)

/-- What a call wrote, given which timeseries views are locked: successful assignments write, those
through a locked view do not; a successful `unlock` does. -/
def logged (env : Env K) (s : St K G) (locks : Nat → Bool) (op : Op K G) :
    Option (Key × Entry K G) :=
  if succeeded (result env s op) then
    match op with
    | .sSet i x =>
      (viewInfo env s (.s i)).bind (fun I => I.unit.map (fun u => (I.key, Entry.num x u)))
    | .gSet i g => (viewKey env s (.g i)).map (fun k => (k, Entry.gen g))
    | .tUnlock i => (viewKey env s (.t i)).map (fun k => (k, Entry.series))
    | op =>
      match assignsT op with
      | none => none
      | some i => if locks i then none else (viewKey env s (.t i)).map (fun k => (k, Entry.series))
  else none

/-- Which timeseries views are locked after a call. -/
def lockStep (env : Env K) (s : St K G) (locks : Nat → Bool) (op : Op K G) : Nat → Bool :=
  match op with
  | .tLock i => if succeeded (result env s op) then Function.update locks i true else locks
  | .tUnlock i => Function.update locks i false
  | _ => locks

/-- All writes of a history, oldest first. -/
def log (env : Env K) (s : St K G) (locks : Nat → Bool) : List (Op K G) → List (Key × Entry K G)
  | [] => []
  | op :: ops => (logged env s locks op).toList ++
      log env (after env s [op]) (lockStep env s locks op) ops

/-- All writes of a history that starts with a new parameter set. -/
def writes (env : Env K) (root : String) (ops : List (Op K G)) : List (Key × Entry K G) :=
  log env (St.init root) (fun _ => false) ops

/-- A whole-array assignment that got past the write check: it may still have been refused later. -/
def tried (env : Env K) (s : St K G) (op : Op K G) : Option Key :=
  match op with
  | .tSet i _ => if refusedWith .parameterReadonly (result env s op) then none else viewKey env s (.t i)
  | .tSetOwn i =>
    if refusedWith .parameterReadonly (result env s op) || refusedWith .badHandle (result env s op)
    then none
    else viewKey env s (.t i)
  | _ => none

/-- All attempted whole-array assignments of a history. -/
def attempts (env : Env K) (s : St K G) : List (Op K G) → List Key
  | [] => []
  | op :: ops => (tried env s op).toList ++ attempts env (after env s [op]) ops

/-! ## Observations that computations keep -/

/-- `m` does not change what `o` observes. -/
def Keeps {α β : Type} (o : St K G → β) (m : M K G α) : Prop := ∀ s, o (m s).2 = o s

theorem Keeps.bind {α β γ : Type} {o : St K G → γ} {m : M K G α} {f : α → M K G β}
    (h : Keeps o m) (h' : ∀ a, Keeps o (f a)) : Keeps o (m >>= f) := by
  intro s
  have h1 := h s
  rw [M.bind_apply]
  cases hm : m s with
  | mk r s' =>
    rw [hm] at h1
    cases r with
    | error e => exact h1
    | ok a => exact (h' a s').trans h1

theorem Keeps.of_eq {α γ : Type} {o : St K G → γ} {m : M K G α} (h : ∀ s, (m s).2 = s) :
    Keeps o m := fun s => by rw [h]

theorem Keeps.look {α γ : Type} {o : St K G → γ} (f : St K G → Option α) : Keeps o (M.look f) :=
  .of_eq (look_state f)

theorem Keeps.ofExcept {α γ : Type} {o : St K G → γ} (x : Except Err α) :
    Keeps o (M.ofExcept x : M K G α) := .of_eq (fun s => by rw [ofExcept_state])

theorem Keeps.ite {α γ : Type} {o : St K G → γ} {c : Prop} [Decidable c] {m m' : M K G α}
    (h : Keeps o m) (h' : Keeps o m') : Keeps o (if c then m else m') := by
  by_cases hc : c
  · rw [if_pos hc]; exact h
  · rw [if_neg hc]; exact h'

theorem map_modify_keep {α β : Type} (l : List α) (i : Nat) (f : α → α) (g : α → β)
    (h : ∀ a, g (f a) = g a) : (l.modify i f).map g = l.map g := by
  apply List.ext_getElem?
  intro j
  rw [List.getElem?_map, List.getElem?_map]
  by_cases hj : i = j
  · subst hj
    rw [getElem?_modify_self, Option.map_map]
    cases l[i]? <;> simp [h]
  · rw [getElem?_modify_ne _ _ hj]

/-- Lock flags of all timeseries views. -/
def lockFlags (s : St K G) : List Bool := s.tviews.map (fun v => v.locked)

theorem locks_updT {i : Nat} {f : TView K → TView K} (h : ∀ v, (f v).locked = v.locked) :
    Keeps lockFlags (updTView i f : M K G Unit) :=
  fun s => map_modify_keep s.tviews i f _ h

theorem locks_updParam (p : Nat) (f : Param K G → Param K G) : Keeps lockFlags (updParam p f) :=
  fun _ => rfl

theorem locks_readT (i : Nat) : Keeps lockFlags (readT i : M K G Unit) := by
  intro s
  cases hv : s.tviews[i]? with
  | none => rw [readT_none hv]
  | some v =>
    rw [readT_state hv]
    unfold lockFlags
    apply List.ext_getElem?
    intro j
    rw [List.getElem?_map, List.getElem?_map]
    by_cases hj : i = j
    · subst hj
      show ((s.setT i _).tviews[i]?).map _ = _
      rw [setT_self, hv]
      simp [(readView_same s v).1]
    · show ((s.setT i _).tviews[j]?).map _ = _
      rw [setT_ne _ _ hj]

theorem locks_attemptRead (p : Nat) (t : PType) (u : Option String) (tps : Option (List K)) :
    Keeps lockFlags (attemptRead p t u tps : M K G Unit) := by
  intro s
  unfold attemptRead
  split
  · rfl
  · split
    · split <;> rfl
    · split <;> rfl

theorem locks_attemptWrite (p : Nat) (t : PType) (u : Option String) (tps : Option (List K)) :
    Keeps lockFlags (attemptWrite p t u tps : M K G Unit) := by
  unfold attemptWrite
  refine (Keeps.look _).bind (fun P => Keeps.ite (Keeps.of_eq (fun _ => rfl)) ?_)
  exact (locks_attemptRead p t u tps).bind (fun _ => locks_updParam p _)

theorem locks_checkWrite (i : Nat) : Keeps lockFlags (checkWrite i : M K G Unit) := by
  unfold checkWrite
  refine (Keeps.look _).bind (fun v => Keeps.ite (Keeps.of_eq (fun _ => rfl)) ?_)
  exact (locks_attemptWrite _ _ _ _).bind (fun _ => locks_updT (fun v => rfl))

theorem locks_writeT (i : Nat) : Keeps lockFlags (writeT i : M K G Unit) := by
  unfold writeT
  refine (Keeps.look _).bind (fun v => Keeps.ite (Keeps.of_eq (fun _ => rfl)) ?_)
  cases v.leaf.data with
  | none => exact Keeps.of_eq (fun _ => rfl)
  | some d =>
    refine (Keeps.ofExcept _).bind (fun l => ?_)
    exact (locks_updParam _ _).bind (fun _ => (Keeps.look _).bind
      (fun P => locks_updT (fun v => rfl)))

theorem locks_setValues (i : Nat) (a : Arr K) : Keeps lockFlags (setValues i a : M K G Unit) := by
  unfold setValues
  refine (locks_checkWrite i).bind (fun _ => (Keeps.look _).bind (fun v =>
    Keeps.ite (Keeps.of_eq (fun _ => rfl)) ?_))
  exact (Keeps.ofExcept _).bind (fun d => Keeps.bind (locks_updT (fun v => rfl))
    (fun _ => locks_writeT i))

theorem locks_setItems (env : Env K) (i : Nat) (ix : List (Int × Fl K)) :
    Keeps lockFlags (setItems env i ix : M K G Unit) := by
  unfold setItems
  refine (Keeps.look _).bind (fun v => ?_)
  cases v.leaf.data with
  | none => exact Keeps.of_eq (fun _ => rfl)
  | some d =>
    exact (Keeps.ofExcept _).bind (fun d => Keeps.bind (locks_updT (fun v => rfl))
      (fun _ => locks_writeT i))

theorem locks_handle (i : Nat) : Keeps lockFlags (handle i : M K G (Arr K)) :=
  Keeps.of_eq (handle_state i)

/-- Calls on timeseries views other than `lock` and `unlock` keep all locks. -/
theorem locks_onT (env : Env K) (op : Op K G) (i : Nat) (h : onT op = some i)
    (h1 : op ≠ .tLock i) (h2 : op ≠ .tUnlock i) : Keeps lockFlags (call env op) := by
  have hp : ∀ (o : Out K G), Keeps lockFlags (pure o : M K G (Out K G)) :=
    fun o => Keeps.of_eq (fun _ => rfl)
  cases op <;> simp only [onT, Option.some.injEq, reduceCtorEq] at h <;> subst h
  case tGet i => exact (locks_readT i).bind (fun _ => (locks_handle i).bind (fun _ => hp _))
  case tSet i a => exact (locks_setValues i a).bind (fun _ => hp _)
  case tGetItem i j =>
    exact (locks_readT i).bind (fun _ => (locks_handle i).bind (fun _ =>
      (Keeps.ofExcept _).bind (fun _ => hp _)))
  case tSetItem i ix =>
    exact (locks_readT i).bind (fun _ => (locks_setItems env i ix).bind (fun _ => hp _))
  case hGetItem i j =>
    exact (locks_handle i).bind (fun _ => (locks_readT i).bind (fun _ => (locks_handle i).bind
      (fun _ => (Keeps.ofExcept _).bind (fun _ => hp _))))
  case hSetItem i ix => exact (locks_setItems env i ix).bind (fun _ => hp _)
  case hInplace i f =>
    exact (locks_handle i).bind (fun _ => (locks_readT i).bind (fun _ => (locks_handle i).bind
      (fun d => (Keeps.ofExcept _).bind (fun d' => Keeps.bind (locks_updT (fun v => rfl))
        (fun _ => (locks_writeT i).bind (fun _ => hp _))))))
  case tSetOwn i => exact (locks_handle i).bind (fun d => (locks_setValues i d).bind (fun _ => hp _))
  case tLock i => exact absurd rfl h1
  case tUnlock i => exact absurd rfl h2

theorem tLock_eq (env : Env K) (i : Nat) (s : St K G) {v : TView K} (hv : s.tviews[i]? = some v) :
    call env (.tLock i) s = (.ok .done, s.setT i (fun v => { v with locked := true })) := by
  show (M.look (fun s : St K G => s.tviews[i]?) >>= _) s = _
  have e1 : M.look (fun s : St K G => s.tviews[i]?) s = (.ok v, s) := look_some hv
  rw [M.bind_ok e1]; rfl

theorem tUnlock_eq (env : Env K) (i : Nat) (s : St K G) {v : TView K} (hv : s.tviews[i]? = some v) :
    call env (.tUnlock i) s =
      (writeT i >>= fun _ => pure .done) (s.setT i (fun v => { v with locked := false })) := by
  show (M.look (fun s : St K G => s.tviews[i]?) >>= _) s = _
  have e1 : M.look (fun s : St K G => s.tviews[i]?) s = (.ok v, s) := look_some hv
  rw [M.bind_ok e1]; rfl

/-! ## Requests and views -/

theorem tviews_walkRegions (r : Nat) (ns : List String) :
    Keeps (fun s : St K G => s.tviews) (walkRegions r ns : M K G Nat) := by
  induction ns generalizing r with
  | nil => exact Keeps.of_eq (fun _ => rfl)
  | cons n ns ih =>
    refine Keeps.bind ?_ (fun c => ih c)
    intro s
    unfold subregion
    repeat' split
    all_goals rfl

theorem tviews_walkParams (r : Nat) (ns : List String) :
    Keeps (fun s : St K G => s.tviews) (walkParams r ns : M K G Nat) := by
  induction ns generalizing r with
  | nil => exact Keeps.of_eq (fun _ => rfl)
  | cons n ns ih =>
    refine Keeps.bind ?_ (fun c => ih c)
    intro s
    unfold childParam
    repeat' split
    all_goals rfl

theorem tviews_reach (name region : HName) :
    Keeps (fun s : St K G => s.tviews) (reach name region : M K G Nat) := by
  refine Keeps.bind ?_ (fun r => ?_)
  · unfold getOrCreateRegion
    cases region.parts with
    | nil => exact Keeps.of_eq (fun _ => rfl)
    | cons n ns =>
      exact (Keeps.look _).bind (fun R => Keeps.ite (Keeps.of_eq (fun _ => rfl))
        (tviews_walkRegions 0 ns))
  · unfold getOrCreateParam
    cases name.parts with
    | nil => exact Keeps.of_eq (fun _ => rfl)
    | cons n ns =>
      refine Keeps.bind ?_ (fun p => tviews_walkParams p ns)
      intro s
      unfold rootParam
      repeat' split
      all_goals rfl

theorem tviews_attemptRead (p : Nat) (t : PType) (u : Option String) (tps : Option (List K)) :
    Keeps (fun s : St K G => s.tviews) (attemptRead p t u tps : M K G Unit) := by
  intro s
  unfold attemptRead
  split
  · rfl
  · split
    · split <;> rfl
    · split <;> rfl

/-- A request hands out at most one new timeseries view, not locked and without cache. -/
theorem request_tviews (env : Env K) (op : Op K G) (nr : HName × HName) (h : request op = some nr)
    (s : St K G) : (call env op s).2.tviews = s.tviews ∨ ∃ v : TView K, v.locked = false ∧
      v.leaf.data = none ∧ v.leaf.version = none ∧ v.writable = false ∧
      (∀ ks, v.kids = some ks → ∀ k ∈ ks, k.data = none ∧ k.version = none) ∧
      (call env op s).2.tviews = s.tviews ++ [v] := by
  have hp : ∀ (o : Out K G), Keeps (fun s : St K G => s.tviews) (pure o : M K G (Out K G)) :=
    fun o => Keeps.of_eq (fun _ => rfl)
  cases op <;> simp only [request, reduceCtorEq] at h
  case scalar n u r =>
    left
    refine Keeps.bind (o := fun s : St K G => s.tviews) (Keeps.bind (tviews_reach n r) (fun p =>
      Keeps.bind (tviews_attemptRead p _ _ _) (fun _ => Keeps.bind (Keeps.of_eq (fun _ => rfl))
        (fun v => ?_)))) (fun _ => hp _) s
    intro s; rfl
  case generic n r =>
    left
    refine Keeps.bind (o := fun s : St K G => s.tviews) (Keeps.bind (tviews_reach n r) (fun p =>
      Keeps.bind (tviews_attemptRead p _ _ _) (fun _ => ?_))) (fun _ => hp _) s
    intro s; rfl
  case timeseries n u tps r ty int ext =>
    show ((timeseriesCall env n u tps r ty int ext >>= fun i => pure (Out.view i : Out K G)) s).2.tviews
      = s.tviews ∨ ∃ v : TView K, v.locked = false ∧ v.leaf.data = none ∧ v.leaf.version = none ∧
      v.writable = false ∧
      (∀ ks, v.kids = some ks → ∀ k ∈ ks, k.data = none ∧ k.version = none) ∧
      ((timeseriesCall env n u tps r ty int ext >>= fun i => pure (Out.view i : Out K G)) s).2.tviews
      = s.tviews ++ [v]
    have hst : ((timeseriesCall env n u tps r ty int ext >>= fun i =>
        (pure (Out.view i : Out K G) : M K G _)) s).2
        = (timeseriesCall env n u tps r ty int ext s).2 := by
      rw [M.bind_apply]
      cases timeseriesCall env n u tps r ty int ext s with
      | mk r s' => cases r <;> rfl
    rw [hst]
    unfold timeseriesCall
    cases h1 : ty.parse with
    | error e => left; rfl
    | ok ty' =>
      cases h2 : int.parse with
      | error e => left; rfl
      | ok int' =>
        cases h3 : ext.parse with
        | error e => left; rfl
        | ok ext' =>
          have hq := tviews_reach n r s
          show ((reach n r >>= fun p => attemptRead p ty' (some u) (some tps) >>= fun _ =>
            M.value (fun s => mkTView env s p u tps ty' ext') >>= fun v => addTView v) s).2.tviews
              = s.tviews ∨ ∃ v : TView K, v.locked = false ∧ v.leaf.data = none ∧
              v.leaf.version = none ∧ v.writable = false ∧
              (∀ ks, v.kids = some ks → ∀ k ∈ ks, k.data = none ∧ k.version = none) ∧
              ((reach n r >>= fun p => attemptRead p ty' (some u) (some tps) >>= fun _ =>
            M.value (fun s => mkTView env s p u tps ty' ext') >>= fun v => addTView v) s).2.tviews
              = s.tviews ++ [v]
          cases hr : reach n r s with
          | mk res s1 =>
            rw [hr] at hq
            cases res with
            | error e => rw [M.bind_error hr]; exact Or.inl hq
            | ok p =>
              rw [M.bind_ok hr]
              have hq2 := tviews_attemptRead p ty' (some u) (some tps) s1
              cases ha : attemptRead p ty' (some u) (some tps) s1 with
              | mk res2 s2 =>
                rw [ha] at hq2
                simp only at hq hq2
                cases res2 with
                | error e => rw [M.bind_error ha]; exact Or.inl (hq2.trans hq)
                | ok _ =>
                  rw [M.bind_ok ha, M.bind_apply, M.value_apply]
                  cases hmk : mkTView env s2 p u tps ty' ext' with
                  | error e => exact Or.inl (hq2.trans hq)
                  | ok v =>
                    right
                    have hleaf : ∀ q l, mkTLeaf env s2 u tps ty' ext' q = .ok l →
                        l.data = none ∧ l.version = none := by
                      intro q l hl
                      unfold mkTLeaf at hl
                      split at hl
                      · simp at hl
                      · split at hl
                        · simp at hl
                        · split at hl
                          · simp at hl
                          · split at hl
                            · simp at hl
                            · injection hl with hl; subst hl; exact ⟨rfl, rfl⟩
                    refine ⟨v, ?_⟩
                    have hst2 : s2.tviews ++ [v] = s.tviews ++ [v] := by rw [hq2, hq]
                    unfold mkTView at hmk
                    split at hmk
                    · simp at hmk
                    · split at hmk
                      · simp at hmk
                      · rename_i l hl
                        obtain ⟨g1, g2⟩ := hleaf p l hl
                        split at hmk
                        · injection hmk with hmk; subst hmk
                          exact ⟨rfl, g1, g2, rfl, fun ks hk => by simp at hk, hst2⟩
                        · split at hmk
                          · simp at hmk
                          · rename_i ks hks
                            injection hmk with hmk; subst hmk
                            refine ⟨rfl, g1, g2, rfl, ?_, hst2⟩
                            intro ks' hk k hkm
                            simp only [Option.some.injEq] at hk; subst hk
                            obtain ⟨q, _, hq'⟩ := mapLeaves_mem hks k hkm
                            exact hleaf q k hq'

end Openscm
