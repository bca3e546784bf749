import Verif.Core

/-!
# Every public call is a sequence of primitive heap changes

Helper file: the primitive changes `Prim`, sequences of them `Steps`, and the decomposition of
every public call (`call_steps`). Invariants are proved once per primitive.
-/

set_option linter.unusedSectionVars false

namespace Openscm
variable {K G : Type} [Field K] [LinearOrder K] [IsStrictOrderedRing K]

namespace M
variable {α β : Type}

theorem bind_ok {m : M K G α} {f : α → M K G β} {s s' : St K G} {a : α} (h : m s = (.ok a, s')) :
    (m >>= f) s = f a s' := by
  show M.bind m f s = _
  unfold M.bind; rw [h]

theorem bind_error {m : M K G α} {f : α → M K G β} {s s' : St K G} {e : Err}
    (h : m s = (.error e, s')) : (m >>= f) s = (.error e, s') := by
  show M.bind m f s = _
  unfold M.bind; rw [h]

theorem bind_apply (m : M K G α) (f : α → M K G β) (s : St K G) :
    (m >>= f) s = match m s with
      | (.ok a, s') => f a s'
      | (.error e, s') => (.error e, s') := rfl

@[simp] theorem pure_apply (a : α) (s : St K G) : (Pure.pure a : M K G α) s = (.ok a, s) := rfl
@[simp] theorem pure'_apply (a : α) (s : St K G) : (M.pure a : M K G α) s = (.ok a, s) := rfl
@[simp] theorem throw_apply (e : Err) (s : St K G) : (M.throw e : M K G α) s = (.error e, s) := rfl

end M

/-- Primitive heap changes. The list in the middle is what was stored: `parameter.data = d` with
`version += 1`, at most once. -/
inductive Prim (env : Env K) : St K G → List (Nat × Data K G) → St K G → Prop
  | addRegion (s : St K G) (r : Nat) (R : Region) (n : String) (hr : s.regions[r]? = some R)
      (hn : R.children.lookup n = none) (ha : R.aggregated = false) :
      Prim env s [] { s with
        regions := s.regions.modify r
          (fun R => { R with children := R.children ++ [(n, s.regions.length)] })
          ++ [newRegion n (some r)] }
  | addRoot (s : St K G) (r : Nat) (R : Region) (n : String) (hr : s.regions[r]? = some R)
      (hn : R.params.lookup n = none) :
      Prim env s [] { s with
        regions := s.regions.modify r
          (fun R => { R with params := R.params ++ [(n, s.params.length)] })
        params := s.params ++ [newParam n r none] }
  | addChild (s : St K G) (p : Nat) (P : Param K G) (n : String) (hp : s.params[p]? = some P)
      (hn : P.children.lookup n = none) (hw : P.written = false) (hr : P.readFrom = false) :
      Prim env s [] { s with
        params := s.params.modify p
          (fun P => { P with children := P.children ++ [(n, s.params.length)] })
          ++ [newParam n P.region (some p)] }
  | typed (s : St K G) (p : Nat) (P P' : Param K G) (t : PType) (u : Option String)
      (tps : Option (List K)) (e : Err) (hp : s.params[p]? = some P) (ht : P.ptype = none)
      (hu : (t = .generic ∧ u = none) ∨ (t ≠ .generic ∧ u.isSome))
      (hf : firstRead P t u tps = (P', some e)) :
      Prim env s [] (s.setParam p (fun _ => P'))
  | typedRead (s : St K G) (p : Nat) (P P' : Param K G) (t : PType) (u : Option String)
      (tps : Option (List K)) (hp : s.params[p]? = some P) (ht : P.ptype = none)
      (hu : (t = .generic ∧ u = none) ∨ (t ≠ .generic ∧ u.isSome))
      (hf : firstRead P t u tps = (P', none)) :
      Prim env s [] (s.setParam p (fun _ => { P' with readFrom := true }))
  | read (s : St K G) (p : Nat) (P : Param K G) (t : PType) (hp : s.params[p]? = some P)
      (ht : P.ptype = some t) :
      Prim env s [] (s.setParam p (fun P => { P with readFrom := true }))
  | mark (s : St K G) (p : Nat) (P : Param K G) (hp : s.params[p]? = some P)
      (hc : P.children = []) (hr : P.readFrom = true) :
      Prim env s [] (s.setParam p (fun P => { P with written := true }))
  | newS (s : St K G) (p : Nat) (P : Param K G) (u : String) (v : SView K)
      (hp : s.params[p]? = some P) (ht : P.ptype = some .scalar) (hr : P.readFrom = true)
      (hv : mkSView env s p u = .ok v) : Prim env s [] { s with sviews := s.sviews ++ [v] }
  | newT (s : St K G) (p : Nat) (P : Param K G) (u : String) (tps : List K) (ty : PType)
      (ext : Extrap) (v : TView K) (hp : s.params[p]? = some P) (hty : ty = .average ∨ ty = .point)
      (ht : P.ptype = some ty) (hr : P.readFrom = true)
      (hv : mkTView env s p u tps ty ext = .ok v) :
      Prim env s [] { s with tviews := s.tviews ++ [v] }
  | newG (s : St K G) (p : Nat) (P : Param K G) (hp : s.params[p]? = some P)
      (ht : P.ptype = some .generic) (hr : P.readFrom = true) :
      Prim env s [] { s with gviews := s.gviews ++ [{ param := p, writable := false }] }
  | sWritable (s : St K G) (i : Nat) (v : SView K) (P : Param K G) (hv : s.sviews[i]? = some v)
      (hp : s.params[v.param]? = some P) (hw : P.written = true) :
      Prim env s [] (s.setS i (fun v => { v with writable := true }))
  | gWritable (s : St K G) (i : Nat) (v : GView) (P : Param K G) (hv : s.gviews[i]? = some v)
      (hp : s.params[v.param]? = some P) (hw : P.written = true) :
      Prim env s [] (s.setG i (fun v => { v with writable := true }))
  | tWritable (s : St K G) (i : Nat) (v : TView K) (P : Param K G) (hv : s.tviews[i]? = some v)
      (hp : s.params[v.leaf.param]? = some P) (hw : P.written = true) :
      Prim env s [] (s.setT i (fun v => { v with writable := true }))
  | storeS (s : St K G) (i : Nat) (v : SView K) (x : Fl K) (hv : s.sviews[i]? = some v)
      (hw : v.writable = true) :
      Prim env s [(v.param, .scalar (x.map v.conv.convertTo))]
        (s.setParam v.param (fun P =>
          { P with data := .scalar (x.map v.conv.convertTo), version := P.version + 1 }))
  | storeG (s : St K G) (i : Nat) (v : GView) (g : G) (hv : s.gviews[i]? = some v)
      (hw : v.writable = true) :
      Prim env s [(v.param, .generic (some g))]
        (s.setParam v.param (fun P =>
          { P with data := .generic (some g), version := P.version + 1 }))
  | tRead (s : St K G) (i : Nat) (v : TView K) (hv : s.tviews[i]? = some v) :
      Prim env s [] (s.setT i (fun _ => (readView s v).1))
  | tCache (s : St K G) (i : Nat) (v : TView K) (d : Arr K) (hv : s.tviews[i]? = some v)
      (hd : d.length = v.leaf.ts.targetLength ∨ ∃ d0, v.leaf.data = some d0 ∧ d.length = d0.length) :
      Prim env s [] (s.setT i (fun v => { v with leaf := { v.leaf with data := some d } }))
  | tLocked (s : St K G) (i : Nat) (b : Bool) :
      Prim env s [] (s.setT i (fun v => { v with locked := b }))
  | tStore (s : St K G) (i : Nat) (v : TView K) (P : Param K G) (d : Arr K) (l : List (Fl K))
      (hv : s.tviews[i]? = some v) (hl : v.locked = false) (hd : v.leaf.data = some d)
      (hp : s.params[v.leaf.param]? = some P)
      (hc : v.leaf.ts.convertTo (d.vals.map (Fl.map v.leaf.conv.convertTo)) = .ok l) :
      Prim env s [(v.leaf.param, .series l)]
        ((s.setParam v.leaf.param
            (fun P => { P with data := .series l, version := P.version + 1 })).setT i
            (fun v => { v with leaf := { v.leaf with version := some (P.version + 1) } }))

/-- Sequences of primitive changes with everything stored on the way. -/
inductive Steps (env : Env K) : St K G → List (Nat × Data K G) → St K G → Prop
  | refl (s : St K G) : Steps env s [] s
  | tail {s s1 s2 : St K G} {l1 l2 : List (Nat × Data K G)} (h : Steps env s l1 s1)
      (h' : Prim env s1 l2 s2) : Steps env s (l1 ++ l2) s2

theorem Steps.one {env : Env K} {s s' : St K G} {l : List (Nat × Data K G)}
    (h : Prim env s l s') : Steps env s l s' := by
  have := (Steps.refl s).tail h
  simpa using this

theorem Steps.trans {env : Env K} {s s1 s2 : St K G} {l1 l2 : List (Nat × Data K G)}
    (h1 : Steps env s l1 s1) (h2 : Steps env s1 l2 s2) : Steps env s (l1 ++ l2) s2 := by
  induction h2 with
  | refl => simpa using h1
  | tail _ hp ih => rw [← List.append_assoc]; exact ih.tail hp

theorem Steps.trans0 {env : Env K} {s s1 s2 : St K G} {l : List (Nat × Data K G)}
    (h1 : Steps env s [] s1) (h2 : Steps env s1 l s2) : Steps env s l s2 := by
  simpa using h1.trans h2

theorem Steps.tail0 {env : Env K} {s s1 s2 : St K G} {l : List (Nat × Data K G)}
    (h1 : Steps env s [] s1) (h2 : Prim env s1 l s2) : Steps env s l s2 :=
  h1.trans0 (.one h2)

/-! ## Heap access after updates -/

theorem getElem?_modify_self {α : Type} (l : List α) (i : Nat) (f : α → α) :
    (l.modify i f)[i]? = (l[i]?).map f := by
  rw [List.getElem?_modify]; simp

theorem getElem?_modify_ne {α : Type} (l : List α) {i j : Nat} (f : α → α) (h : i ≠ j) :
    (l.modify i f)[j]? = l[j]? := by
  rw [List.getElem?_modify]; simp [h]

@[simp] theorem setParam_self (s : St K G) (p : Nat) (f : Param K G → Param K G) :
    (s.setParam p f).params[p]? = (s.params[p]?).map f := getElem?_modify_self _ _ _

theorem setParam_ne (s : St K G) {p q : Nat} (f : Param K G → Param K G) (h : p ≠ q) :
    (s.setParam p f).params[q]? = s.params[q]? := getElem?_modify_ne _ _ h

@[simp] theorem setParam_regions (s : St K G) (p : Nat) (f : Param K G → Param K G) :
    (s.setParam p f).regions = s.regions := rfl
@[simp] theorem setParam_sviews (s : St K G) (p : Nat) (f : Param K G → Param K G) :
    (s.setParam p f).sviews = s.sviews := rfl
@[simp] theorem setParam_tviews (s : St K G) (p : Nat) (f : Param K G → Param K G) :
    (s.setParam p f).tviews = s.tviews := rfl
@[simp] theorem setParam_gviews (s : St K G) (p : Nat) (f : Param K G → Param K G) :
    (s.setParam p f).gviews = s.gviews := rfl
@[simp] theorem setParam_length (s : St K G) (p : Nat) (f : Param K G → Param K G) :
    (s.setParam p f).params.length = s.params.length := by simp [St.setParam]

/-! ## Decomposition of the calls -/

/-- A computation that stores nothing. -/
def Quiet (env : Env K) {α : Type} (m : M K G α) : Prop := ∀ s, Steps env s [] (m s).2

theorem Quiet.bind {env : Env K} {α β : Type} {m : M K G α} {f : α → M K G β}
    (h : Quiet env m) (h' : ∀ a, Quiet env (f a)) : Quiet env (m >>= f) := by
  intro s
  rw [M.bind_apply]
  have := h s
  cases hm : m s with
  | mk r s' =>
    rw [hm] at this
    cases r with
    | error e => exact this
    | ok a => exact this.trans0 (h' a s')

theorem Quiet.pure {env : Env K} {α : Type} (a : α) : Quiet env (Pure.pure a : M K G α) :=
  fun s => .refl s

theorem Quiet.throw {env : Env K} {α : Type} (e : Err) : Quiet env (M.throw e : M K G α) :=
  fun s => .refl s

theorem Quiet.ofExcept {env : Env K} {α : Type} (x : Except Err α) :
    Quiet env (M.ofExcept x : M K G α) := by
  intro s; cases x <;> exact .refl s

theorem look_state {α : Type} (f : St K G → Option α) (s : St K G) : (M.look f s).2 = s := by
  unfold M.look; split <;> rfl

theorem look_ok {α : Type} {f : St K G → Option α} {s s' : St K G} {a : α}
    (h : M.look f s = (.ok a, s')) : s' = s ∧ f s = some a := by
  unfold M.look at h
  cases hf : f s with
  | none => rw [hf] at h; simp at h
  | some b => rw [hf] at h; simp at h; obtain ⟨rfl, rfl⟩ := h; exact ⟨rfl, rfl⟩

theorem look_some {α : Type} {f : St K G → Option α} {s : St K G} {a : α} (h : f s = some a) :
    M.look f s = (.ok a, s) := by unfold M.look; rw [h]

theorem look_none {α : Type} {f : St K G → Option α} {s : St K G} (h : f s = none) :
    M.look f s = (.error .badHandle, s) := by unfold M.look; rw [h]

theorem Quiet.look {env : Env K} {α : Type} (f : St K G → Option α) : Quiet env (M.look f) := by
  intro s; rw [look_state]; exact .refl s

theorem Quiet.value {env : Env K} {α : Type} (f : St K G → Except Err α) :
    Quiet env (fun s => (f s, s) : M K G α) := fun s => .refl s

theorem quiet_subregion (env : Env K) (r : Nat) (n : String) :
    Quiet env (subregion r n : M K G Nat) := by
  intro s
  unfold subregion
  split
  · exact .refl s
  · rename_i R hR
    split
    · exact .refl s
    · rename_i hn
      split
      · exact .refl s
      · rename_i ha
        exact .one (.addRegion s r R n hR hn (by simpa using ha))

theorem quiet_walkRegions (env : Env K) (r : Nat) (ns : List String) :
    Quiet env (walkRegions r ns : M K G Nat) := by
  induction ns generalizing r with
  | nil => exact Quiet.pure r
  | cons n ns ih => exact (quiet_subregion env r n).bind (fun c => ih c)

theorem quiet_getOrCreateRegion (env : Env K) (name : HName) :
    Quiet env (getOrCreateRegion name : M K G Nat) := by
  unfold getOrCreateRegion
  split
  · exact Quiet.throw _
  · refine (Quiet.look _).bind (fun root => ?_)
    split
    · exact Quiet.throw _
    · exact quiet_walkRegions env _ _

theorem quiet_rootParam (env : Env K) (r : Nat) (n : String) :
    Quiet env (rootParam r n : M K G Nat) := by
  intro s
  unfold rootParam
  split
  · exact .refl s
  · rename_i R hR
    split
    · exact .refl s
    · rename_i hn
      exact .one (.addRoot s r R n hR hn)

theorem quiet_childParam (env : Env K) (p : Nat) (n : String) :
    Quiet env (childParam p n : M K G Nat) := by
  intro s
  unfold childParam
  split
  · exact .refl s
  · rename_i P hP
    split
    · exact .refl s
    · rename_i hn
      split
      · exact .refl s
      · rename_i hw
        split
        · exact .refl s
        · rename_i hr
          exact .one (.addChild s p P n hP hn (by simpa using hw) (by simpa using hr))

theorem quiet_walkParams (env : Env K) (p : Nat) (ns : List String) :
    Quiet env (walkParams p ns : M K G Nat) := by
  induction ns generalizing p with
  | nil => exact Quiet.pure p
  | cons n ns ih => exact (quiet_childParam env p n).bind (fun c => ih c)

theorem quiet_getOrCreateParam (env : Env K) (name : HName) (r : Nat) :
    Quiet env (getOrCreateParam name r : M K G Nat) := by
  unfold getOrCreateParam
  split
  · exact Quiet.throw _
  · exact (quiet_rootParam env _ _).bind (fun p => quiet_walkParams env p _)

theorem quiet_reach (env : Env K) (name region : HName) :
    Quiet env (reach name region : M K G Nat) :=
  (quiet_getOrCreateRegion env region).bind (fun r => quiet_getOrCreateParam env name r)

theorem quiet_attemptRead (env : Env K) (p : Nat) (t : PType) (u : Option String)
    (tps : Option (List K)) (hu : (t = .generic ∧ u = none) ∨ (t ≠ .generic ∧ u.isSome)) :
    Quiet env (attemptRead p t u tps : M K G Unit) := by
  intro s
  unfold attemptRead
  split
  · exact .refl s
  · rename_i P hP
    split
    · rename_i t' ht
      split
      · exact .refl s
      · exact .one (.read s p P t' hP ht)
    · rename_i ht
      split
      · rename_i P' e hf
        exact .one (.typed s p P P' t u tps e hP ht hu hf)
      · rename_i P' hf
        exact .one (.typedRead s p P P' t u tps hP ht hu hf)

theorem firstRead_ptype {P P' : Param K G} {t : PType} {u : Option String}
    {tps : Option (List K)} {e : Option Err} (h : firstRead P t u tps = (P', e)) :
    P'.ptype = some t ∧ P'.children = P.children ∧ P'.written = P.written := by
  have h := congrArg Prod.fst h
  subst h
  unfold firstRead
  cases t with
  | scalar => exact ⟨rfl, rfl, rfl⟩
  | generic => simp only []; split <;> exact ⟨rfl, rfl, rfl⟩
  | average => simp only []; split <;> exact ⟨rfl, rfl, rfl⟩
  | point => simp only []; split <;> exact ⟨rfl, rfl, rfl⟩

/-- What a successful `attempt_read` leaves behind. -/
theorem attemptRead_ok {p : Nat} {t : PType} {u : Option String} {tps : Option (List K)}
    {s s' : St K G} (h : attemptRead p t u tps s = (.ok (), s')) :
    ∃ P P', s.params[p]? = some P ∧ s' = s.setParam p (fun _ => P') ∧ P'.ptype = some t ∧
      P'.readFrom = true ∧ P'.children = P.children ∧ P'.written = P.written := by
  unfold attemptRead at h
  split at h
  · simp at h
  · rename_i P hP
    split at h
    · rename_i t' ht
      split at h
      · simp at h
      · rename_i htt
        have htt : t' = t := by simpa using htt
        simp at h
        refine ⟨P, { P with readFrom := true }, hP, ?_, ?_, rfl, rfl, rfl⟩
        · rw [← h]
          unfold St.setParam
          congr 1
          apply List.ext_getElem?
          intro q
          by_cases hq : p = q
          · subst hq; rw [getElem?_modify_self, getElem?_modify_self, hP]; rfl
          · rw [getElem?_modify_ne _ _ hq, getElem?_modify_ne _ _ hq]
        · simp [ht, htt]
    · split at h
      · simp at h
      · rename_i P' hf
        simp at h
        obtain ⟨h1, h2, h3⟩ := firstRead_ptype hf
        exact ⟨P, { P' with readFrom := true }, hP, h.symm, h1, rfl, h2, h3⟩

theorem getParam_ok {p : Nat} {s s' : St K G} {P : Param K G} (h : getParam p s = (.ok P, s')) :
    s' = s ∧ s.params[p]? = some P := look_ok h

/-- `attempt_write`: nothing is stored; on success the parameter is childless and marked. -/
theorem attemptWrite_spec (env : Env K) (p : Nat) (t : PType) (u : Option String)
    (tps : Option (List K)) (hu : (t = .generic ∧ u = none) ∨ (t ≠ .generic ∧ u.isSome))
    (s : St K G) :
    Steps env s [] (attemptWrite p t u tps s).2 ∧
    ((attemptWrite p t u tps s).1 = .ok () →
      ∃ P P', s.params[p]? = some P ∧ P.children = [] ∧
        (attemptWrite p t u tps s).2 = s.setParam p (fun _ => P') ∧ P'.ptype = some t ∧
        P'.readFrom = true ∧ P'.children = [] ∧ P'.written = true) := by
  unfold attemptWrite
  cases hP : s.params[p]? with
  | none =>
    have : getParam p s = (.error .badHandle, s) := look_none hP
    rw [M.bind_error this]
    exact ⟨.refl s, fun h => by simp at h⟩
  | some P =>
    have : getParam p s = (.ok P, s) := look_some hP
    rw [M.bind_ok this]
    by_cases hc : P.children = []
    · simp only [hc, ne_eq, not_true_eq_false, if_false]
      cases hr : attemptRead p t u tps s with
      | mk r s' =>
        have hq := quiet_attemptRead env p t u tps hu s
        rw [hr] at hq
        cases r with
        | error e => rw [M.bind_error hr]; exact ⟨hq, fun h => by simp at h⟩
        | ok a =>
          rw [M.bind_ok hr]
          obtain ⟨P0, P', h0, h1, h2, h3, h4, h5⟩ := attemptRead_ok hr
          rw [hP] at h0; cases h0
          have hs' : s'.params[p]? = some P' := by rw [h1, setParam_self, hP]; rfl
          have e2 : (updParam p (fun P : Param K G => { P with written := true }) s')
              = (.ok (), s'.setParam p (fun P => { P with written := true })) := rfl
          rw [e2]
          refine ⟨hq.tail0 (.mark s' p P' hs' (by rw [h4, hc]) h3), fun _ => ?_⟩
          refine ⟨P, { P' with written := true }, rfl, hc, ?_, h2, h3, by simp [h4, hc], rfl⟩
          rw [h1]
          unfold St.setParam
          simp only
          congr 1
          apply List.ext_getElem?
          intro q
          by_cases hq : p = q
          · subst hq; simp [hP]
          · simp [getElem?_modify_ne _ _ hq]
    · simp only [hc, ne_eq, not_false_eq_true, if_true]
      exact ⟨.refl s, fun h => by simp at h⟩

/-! ## Requests -/

theorem M.value_apply {α : Type} (f : St K G → Except Err α) (s : St K G) :
    M.value f s = (f s, s) := rfl

theorem quiet_scalarCall (env : Env K) (n : HName) (u : String) (r : HName) :
    Quiet env (scalarCall env n u r : M K G Nat) := by
  unfold scalarCall
  refine (quiet_reach env n r).bind (fun p => ?_)
  intro s
  have hq := quiet_attemptRead (G := G) env p .scalar (some u) none (Or.inr ⟨by simp, rfl⟩) s
  cases hr : attemptRead p .scalar (some u) none s with
  | mk res s' =>
    rw [hr] at hq
    cases res with
    | error e => rw [M.bind_error hr]; exact hq
    | ok a =>
      rw [M.bind_ok hr]
      obtain ⟨P, P', h0, h1, h2, h3, -, -⟩ := attemptRead_ok hr
      have hs' : s'.params[p]? = some P' := by rw [h1, setParam_self, h0]; rfl
      rw [M.bind_apply, M.value_apply]
      cases hv : mkSView env s' p u with
      | error e => exact hq
      | ok v => exact hq.tail0 (.newS s' p P' u v hs' h2 h3 hv)

theorem tyArg_parse {a : TyArg} {ty : PType} (h : a.parse = .ok ty) :
    ty = .average ∨ ty = .point := by
  cases a with
  | enum t =>
    simp only [TyArg.parse] at h
    split at h
    · rename_i ht; injection h with h; subst h; exact ht
    · simp at h
  | str s =>
    simp only [TyArg.parse] at h
    split at h
    · injection h with h; exact Or.inl h.symm
    · split at h
      · injection h with h; exact Or.inr h.symm
      · simp at h


theorem quiet_timeseriesCall (env : Env K) (n : HName) (u : String) (tps : List K) (r : HName)
    (ty : TyArg) (int : IntArg) (ext : ExtArg) :
    Quiet env (timeseriesCall env n u tps r ty int ext : M K G Nat) := by
  intro s
  unfold timeseriesCall
  cases hty : ty.parse with
  | error e => exact .refl s
  | ok ty' =>
    have hty' := tyArg_parse hty
    have e1 : (M.ofExcept (.ok ty') : M K G PType) s = (.ok ty', s) := rfl
    rw [M.bind_ok e1]
    refine ((Quiet.ofExcept _).bind (fun _ => (Quiet.ofExcept _).bind (fun ext' =>
      (quiet_reach env n r).bind (fun p => ?_)))) s
    intro s
    have hq := quiet_attemptRead (G := G) env p ty' (some u) (some tps)
      (Or.inr ⟨by rcases hty' with rfl | rfl <;> simp, rfl⟩) s
    cases hr : attemptRead p ty' (some u) (some tps) s with
    | mk res s' =>
      rw [hr] at hq
      cases res with
      | error e => rw [M.bind_error hr]; exact hq
      | ok a =>
        rw [M.bind_ok hr]
        obtain ⟨P, P', h0, h1, h2, h3, -, -⟩ := attemptRead_ok hr
        have hs' : s'.params[p]? = some P' := by rw [h1, setParam_self, h0]; rfl
        rw [M.bind_apply, M.value_apply]
        cases hv : mkTView env s' p u tps ty' ext' with
        | error e => exact hq
        | ok v => exact hq.tail0 (.newT s' p P' u tps ty' ext' v hs' hty' h2 h3 hv)

theorem quiet_genericCall (env : Env K) (n : HName) (r : HName) :
    Quiet env (genericCall n r : M K G Nat) := by
  unfold genericCall
  refine (quiet_reach env n r).bind (fun p => ?_)
  intro s
  have hq := quiet_attemptRead (G := G) env p .generic none none (Or.inl ⟨rfl, rfl⟩) s
  cases hr : attemptRead p .generic none none s with
  | mk res s' =>
    rw [hr] at hq
    cases res with
    | error e => rw [M.bind_error hr]; exact hq
    | ok a =>
      rw [M.bind_ok hr]
      obtain ⟨P, P', h0, h1, h2, h3, -, -⟩ := attemptRead_ok hr
      have hs' : s'.params[p]? = some P' := by rw [h1, setParam_self, h0]; rfl
      exact hq.tail0 (.newG s' p P' hs' h2 h3)

/-! ## Writes -/

/-- What a call stored: nothing if it failed, otherwise exactly `l`. -/
def Stores (env : Env K) {α : Type} (m : M K G α) (s : St K G) (l : List (Nat × Data K G)) : Prop :=
  ((m s).1.isOk = true ∧ Steps env s l (m s).2) ∨
    ((∃ e, (m s).1 = .error e) ∧ Steps env s [] (m s).2)

theorem checkWriteS_pos (i : Nat) (v : SView K) (hw : v.writable = true) :
    (checkWriteS i v : M K G Unit) = Pure.pure () := by
  unfold checkWriteS; rw [if_pos hw]

theorem checkWriteS_neg (i : Nat) (v : SView K) (hw : ¬ v.writable = true) :
    (checkWriteS i v : M K G Unit) = (attemptWrite v.param .scalar (some v.conv.target) none >>= fun _ =>
      updSView i (fun v => { v with writable := true })) := by
  unfold checkWriteS; rw [if_neg hw]

theorem checkWriteS_spec (env : Env K) (i : Nat) (v : SView K) (s : St K G)
    (hv : s.sviews[i]? = some v) :
    Steps env s [] (checkWriteS i v s).2 ∧
      ((checkWriteS i v s).1 = .ok () → ∃ v', (checkWriteS i v s).2.sviews[i]? = some v' ∧
        v'.writable = true ∧ v'.param = v.param ∧ v'.conv = v.conv) := by
  by_cases hw : v.writable = true
  · rw [checkWriteS_pos i v hw]
    exact ⟨.refl s, fun _ => ⟨v, hv, hw, rfl, rfl⟩⟩
  · rw [checkWriteS_neg i v hw]
    obtain ⟨h1, h2⟩ := attemptWrite_spec (G := G) env v.param .scalar (some v.conv.target) none
      (Or.inr ⟨by simp, rfl⟩) s
    cases hr : attemptWrite v.param .scalar (some v.conv.target) none s with
    | mk res s' =>
      rw [hr] at h1 h2
      cases res with
      | error e => simp only [M.bind_error hr]; exact ⟨h1, fun h => by simp at h⟩
      | ok a =>
        simp only [M.bind_ok hr]
        obtain ⟨P, P', h3, h4, h5, h6, h7, h8, h9⟩ := h2 rfl
        simp only at h5
        have hv' : s'.sviews[i]? = some v := by rw [h5]; exact hv
        have hp' : s'.params[v.param]? = some P' := by rw [h5, setParam_self, h3]; rfl
        refine ⟨h1.tail0 (.sWritable s' i v P' hv' hp' h9), fun _ => ⟨{ v with writable := true },
          ?_, rfl, rfl, rfl⟩⟩
        show (s'.setS i _).sviews[i]? = _
        unfold St.setS; simp only
        rw [getElem?_modify_self, hv']; rfl

theorem setScalar_steps (env : Env K) (i : Nat) (x : Fl K) (s : St K G) :
    (s.sviews[i]? = none ∧ setScalar i x s = (.error .badHandle, s)) ∨
    ∃ v, s.sviews[i]? = some v ∧
      Stores env (setScalar i x) s [(v.param, .scalar (x.map v.conv.convertTo))] := by
  cases hv : s.sviews[i]? with
  | none =>
    left
    refine ⟨rfl, ?_⟩
    unfold setScalar
    exact M.bind_error (look_none hv)
  | some v =>
    right
    refine ⟨v, rfl, ?_⟩
    unfold Stores setScalar
    have e1 : M.look (fun s : St K G => s.sviews[i]?) s = (.ok v, s) := look_some hv
    simp only [M.bind_ok e1]
    obtain ⟨h1, h2⟩ := checkWriteS_spec env i v s hv
    cases hr : checkWriteS i v s with
    | mk res s' =>
      rw [hr] at h1 h2
      cases res with
      | error e => simp only [M.bind_error hr]; exact Or.inr ⟨⟨e, rfl⟩, h1⟩
      | ok a =>
        simp only [M.bind_ok hr]
        obtain ⟨v', h3, h4, h5, h6⟩ := h2 rfl
        left
        refine ⟨rfl, ?_⟩
        have := Prim.storeS (env := env) s' i v' x h3 h4
        rw [h5, h6] at this
        exact h1.tail0 this

theorem checkWriteG_pos (i : Nat) (v : GView) (hw : v.writable = true) :
    (checkWriteG i v : M K G Unit) = Pure.pure () := by
  unfold checkWriteG; rw [if_pos hw]

theorem checkWriteG_neg (i : Nat) (v : GView) (hw : ¬ v.writable = true) :
    (checkWriteG i v : M K G Unit) = (attemptWrite v.param .generic none none >>= fun _ =>
      updGView i (fun v => { v with writable := true })) := by
  unfold checkWriteG; rw [if_neg hw]

theorem checkWriteG_spec (env : Env K) (i : Nat) (v : GView) (s : St K G)
    (hv : s.gviews[i]? = some v) :
    Steps env s [] (checkWriteG i v s).2 ∧
      ((checkWriteG i v s).1 = .ok () → ∃ v', (checkWriteG i v s).2.gviews[i]? = some v' ∧
        v'.writable = true ∧ v'.param = v.param) := by
  by_cases hw : v.writable = true
  · rw [checkWriteG_pos i v hw]
    exact ⟨.refl s, fun _ => ⟨v, hv, hw, rfl⟩⟩
  · rw [checkWriteG_neg i v hw]
    obtain ⟨h1, h2⟩ := attemptWrite_spec (G := G) env v.param .generic none none
      (Or.inl ⟨rfl, rfl⟩) s
    cases hr : attemptWrite v.param .generic none none s with
    | mk res s' =>
      rw [hr] at h1 h2
      cases res with
      | error e => simp only [M.bind_error hr]; exact ⟨h1, fun h => by simp at h⟩
      | ok a =>
        simp only [M.bind_ok hr]
        obtain ⟨P, P', h3, h4, h5, h6, h7, h8, h9⟩ := h2 rfl
        simp only at h5
        have hv' : s'.gviews[i]? = some v := by rw [h5]; exact hv
        have hp' : s'.params[v.param]? = some P' := by rw [h5, setParam_self, h3]; rfl
        refine ⟨h1.tail0 (.gWritable s' i v P' hv' hp' h9), fun _ => ⟨{ v with writable := true },
          ?_, rfl, rfl⟩⟩
        show (s'.setG i _).gviews[i]? = _
        unfold St.setG; simp only
        rw [getElem?_modify_self, hv']; rfl

theorem setGeneric_steps (env : Env K) (i : Nat) (g : G) (s : St K G) :
    (s.gviews[i]? = none ∧ setGeneric i g s = (.error .badHandle, s)) ∨
    ∃ v, s.gviews[i]? = some v ∧
      Stores env (setGeneric i g) s [(v.param, .generic (some g))] := by
  cases hv : s.gviews[i]? with
  | none =>
    left
    refine ⟨rfl, ?_⟩
    unfold setGeneric
    exact M.bind_error (look_none hv)
  | some v =>
    right
    refine ⟨v, rfl, ?_⟩
    unfold Stores setGeneric
    have e1 : M.look (fun s : St K G => s.gviews[i]?) s = (.ok v, s) := look_some hv
    simp only [M.bind_ok e1]
    obtain ⟨h1, h2⟩ := checkWriteG_spec env i v s hv
    cases hr : checkWriteG i v s with
    | mk res s' =>
      rw [hr] at h1 h2
      cases res with
      | error e => simp only [M.bind_error hr]; exact Or.inr ⟨⟨e, rfl⟩, h1⟩
      | ok a =>
        simp only [M.bind_ok hr]
        obtain ⟨v', h3, h4, h5⟩ := h2 rfl
        left
        refine ⟨rfl, ?_⟩
        have := Prim.storeG (env := env) s' i v' g h3 h4
        rw [h5] at this
        exact h1.tail0 this


@[simp] theorem setT_self (s : St K G) (i : Nat) (f : TView K → TView K) :
    (s.setT i f).tviews[i]? = (s.tviews[i]?).map f := getElem?_modify_self _ _ _

theorem setT_ne (s : St K G) {i j : Nat} (f : TView K → TView K) (h : i ≠ j) :
    (s.setT i f).tviews[j]? = s.tviews[j]? := getElem?_modify_ne _ _ h

@[simp] theorem setT_params (s : St K G) (i : Nat) (f : TView K → TView K) :
    (s.setT i f).params = s.params := rfl
@[simp] theorem setT_regions (s : St K G) (i : Nat) (f : TView K → TView K) :
    (s.setT i f).regions = s.regions := rfl
@[simp] theorem setT_sviews (s : St K G) (i : Nat) (f : TView K → TView K) :
    (s.setT i f).sviews = s.sviews := rfl
@[simp] theorem setT_gviews (s : St K G) (i : Nat) (f : TView K → TView K) :
    (s.setT i f).gviews = s.gviews := rfl

/-- The state after a successful `_write` of view `i`. -/
def storedT (s : St K G) (i : Nat) (v : TView K) (P : Param K G) (l : List (Fl K)) : St K G :=
  (s.setParam v.leaf.param (fun P => { P with data := .series l, version := P.version + 1 })).setT i
    (fun v => { v with leaf := { v.leaf with version := some (P.version + 1) } })

theorem writeT_none {i : Nat} {s : St K G} (h : s.tviews[i]? = none) :
    writeT i s = (.error .badHandle, s) := by
  unfold writeT; exact M.bind_error (look_none h)

theorem writeT_locked {i : Nat} {s : St K G} {v : TView K} (h : s.tviews[i]? = some v)
    (hl : v.locked = true) : writeT i s = (.ok (), s) := by
  unfold writeT
  have e1 : M.look (fun s : St K G => s.tviews[i]?) s = (.ok v, s) := look_some h
  rw [M.bind_ok e1, hl]; rfl

theorem writeT_nodata {i : Nat} {s : St K G} {v : TView K} (h : s.tviews[i]? = some v)
    (hl : v.locked = false) (hd : v.leaf.data = none) : writeT i s = (.error .typeError, s) := by
  unfold writeT
  have e1 : M.look (fun s : St K G => s.tviews[i]?) s = (.ok v, s) := look_some h
  rw [M.bind_ok e1, hl, hd]; rfl

/-- What `_write` sends to the parameter. -/
def published (v : TView K) (d : Arr K) : Except Err (List (Fl K)) :=
  v.leaf.ts.convertTo (d.vals.map (Fl.map v.leaf.conv.convertTo))

theorem writeT_error {i : Nat} {s : St K G} {v : TView K} {d : Arr K} {e : Err}
    (h : s.tviews[i]? = some v) (hl : v.locked = false) (hd : v.leaf.data = some d)
    (he : published v d = .error e) : writeT i s = (.error e, s) := by
  unfold writeT
  have e1 : M.look (fun s : St K G => s.tviews[i]?) s = (.ok v, s) := look_some h
  unfold published at he
  rw [M.bind_ok e1, hl, hd]
  simp only [he]; rfl

theorem writeT_ok {i : Nat} {s : St K G} {v : TView K} {d : Arr K} {l : List (Fl K)}
    {P : Param K G} (h : s.tviews[i]? = some v) (hl : v.locked = false)
    (hd : v.leaf.data = some d) (he : published v d = .ok l)
    (hp : s.params[v.leaf.param]? = some P) : writeT i s = (.ok (), storedT s i v P l) := by
  unfold writeT
  have e1 : M.look (fun s : St K G => s.tviews[i]?) s = (.ok v, s) := look_some h
  unfold published at he
  rw [M.bind_ok e1, hl, hd]
  simp only [he]
  have e2 : (M.ofExcept (.ok l) : M K G (List (Fl K))) s = (.ok l, s) := rfl
  have e3 : (store v.leaf.param (.series l) : M K G Unit) s = (.ok (), s.setParam v.leaf.param
    (fun P => { P with data := .series l, version := P.version + 1 })) := rfl
  have e4 : getParam v.leaf.param (s.setParam v.leaf.param
    (fun P => { P with data := .series l, version := P.version + 1 }))
    = (.ok { P with data := .series l, version := P.version + 1 }, _) :=
    look_some (by rw [setParam_self, hp]; rfl)
  show (M.ofExcept (.ok l) >>= _) s = _
  rw [M.bind_ok e2, M.bind_ok e3, M.bind_ok e4]
  rfl

theorem writeT_dangling {i : Nat} {s : St K G} {v : TView K} {d : Arr K} {l : List (Fl K)}
    (h : s.tviews[i]? = some v) (hl : v.locked = false)
    (hd : v.leaf.data = some d) (he : published v d = .ok l)
    (hp : s.params[v.leaf.param]? = none) : writeT i s = (.error .badHandle, s) := by
  unfold writeT
  have e1 : M.look (fun s : St K G => s.tviews[i]?) s = (.ok v, s) := look_some h
  unfold published at he
  rw [M.bind_ok e1, hl, hd]
  simp only [he]
  have e2 : (M.ofExcept (.ok l) : M K G (List (Fl K))) s = (.ok l, s) := rfl
  have e0 : (s.setParam v.leaf.param
    (fun P => { P with data := .series l, version := P.version + 1 })) = s := by
    unfold St.setParam
    congr 1
    rw [List.modify_eq_self]
    exact List.getElem?_eq_none_iff.1 hp
  have e3 : (store v.leaf.param (.series l) : M K G Unit) s = (.ok (), s.setParam v.leaf.param
    (fun P => { P with data := .series l, version := P.version + 1 })) := rfl
  rw [e0] at e3
  have e4 : getParam v.leaf.param s = (.error .badHandle, s) := look_none hp
  show (M.ofExcept (.ok l) >>= _) s = _
  rw [M.bind_ok e2, M.bind_ok e3, M.bind_error e4]

/-- Outcome of a call that writes through timeseries view `i`, seen from the state `s` before:
either it raised and stored nothing, or the view was locked and nothing was stored, or exactly one
array was stored in the view's parameter. -/
def TWrites (env : Env K) (i : Nat) (locked : Bool) (s : St K G) {α : Type}
    (r : Except Err α × St K G) : Prop :=
  ((∃ e, r.1 = .error e) ∧ Steps env s [] r.2) ∨
  (r.1.isOk = true ∧ ∃ v, s.tviews[i]? = some v ∧
    ((locked = true ∧ Steps env s [] r.2) ∨
      (locked = false ∧ ∃ l, Steps env s [(v.leaf.param, .series l)] r.2)))

theorem TWrites.prepend {env : Env K} {i : Nat} {b : Bool} {s s1 : St K G} {α : Type}
    {r : Except Err α × St K G} {v v1 : TView K} (h : Steps env s [] s1)
    (hv : s.tviews[i]? = some v) (hv1 : s1.tviews[i]? = some v1)
    (hp : v1.leaf.param = v.leaf.param) (h1 : TWrites env i b s1 r) : TWrites env i b s r := by
  rcases h1 with ⟨he, h2⟩ | ⟨ho, v2, hv2, h2⟩
  · exact Or.inl ⟨he, h.trans0 h2⟩
  · rw [hv1] at hv2; cases hv2
    refine Or.inr ⟨ho, v, hv, ?_⟩
    rcases h2 with ⟨hb, h2⟩ | ⟨hb, l, h2⟩
    · exact Or.inl ⟨hb, h.trans0 h2⟩
    · exact Or.inr ⟨hb, l, hp ▸ h.trans0 h2⟩

theorem TWrites.done {env : Env K} {i : Nat} {b : Bool} {s : St K G} {m : M K G Unit}
    (h : TWrites env i b s (m s)) (o : Out K G) :
    TWrites env i b s ((m >>= fun _ => Pure.pure o) s) := by
  rw [M.bind_apply]
  cases hm : m s with
  | mk r s' =>
    rw [hm] at h
    cases r with
    | error e =>
      rcases h with ⟨_, h⟩ | ⟨h, _⟩
      · exact Or.inl ⟨⟨e, rfl⟩, h⟩
      · simp [Except.isOk, Except.toBool] at h
    | ok a =>
      rcases h with ⟨⟨e, h⟩, _⟩ | ⟨_, h⟩
      · simp at h
      · exact Or.inr ⟨rfl, h⟩

theorem writeT_spec (env : Env K) (i : Nat) (s : St K G) (v : TView K)
    (hv : s.tviews[i]? = some v) : TWrites env i v.locked s (writeT i s) := by
  cases hl : v.locked with
  | true => rw [writeT_locked hv hl]; exact Or.inr ⟨rfl, v, hv, Or.inl ⟨rfl, .refl s⟩⟩
  | false =>
    cases hd : v.leaf.data with
    | none => rw [writeT_nodata hv hl hd]; exact Or.inl ⟨⟨_, rfl⟩, .refl s⟩
    | some d =>
      cases he : published v d with
      | error e => rw [writeT_error hv hl hd he]; exact Or.inl ⟨⟨_, rfl⟩, .refl s⟩
      | ok l =>
        cases hp : s.params[v.leaf.param]? with
        | none => rw [writeT_dangling hv hl hd he hp]; exact Or.inl ⟨⟨_, rfl⟩, .refl s⟩
        | some P =>
          rw [writeT_ok hv hl hd he hp]
          exact Or.inr ⟨rfl, v, hv, Or.inr ⟨rfl, l, .one (.tStore s i v P d l hv hl hd hp he)⟩⟩

theorem quiet_readT (env : Env K) (i : Nat) : Quiet env (readT i : M K G Unit) := by
  intro s
  unfold readT
  split
  · exact .refl s
  · rename_i v hv
    exact .one (.tRead s i v hv)

/-- Reading keeps everything but the caches. -/
theorem refresh_same {v l : TLeaf K} {n : Nat} {vals : Except Err (List (Fl K))}
    (h : refresh v n vals = .ok l) : l.param = v.param ∧ l.conv = v.conv ∧ l.ts = v.ts := by
  unfold refresh at h
  split at h
  · split at h
    · simp at h
    · injection h with h; subst h; exact ⟨rfl, rfl, rfl⟩
  · split at h
    · simp at h
    · split at h
      · injection h with h; subst h; exact ⟨rfl, rfl, rfl⟩
      · split at h
        · simp at h
        · split at h
          · simp at h
          · injection h with h; subst h; exact ⟨rfl, rfl, rfl⟩

theorem readLeaf_same {s : St K G} {v l : TLeaf K} (h : readLeaf s v = .ok l) :
    l.param = v.param ∧ l.conv = v.conv ∧ l.ts = v.ts := by
  unfold readLeaf at h
  split at h
  · simp at h
  · exact refresh_same h

theorem readView_same (s : St K G) (v : TView K) :
    (readView s v).1.locked = v.locked ∧ (readView s v).1.writable = v.writable ∧
    (readView s v).1.leaf.param = v.leaf.param ∧ (readView s v).1.leaf.conv = v.leaf.conv ∧
    (readView s v).1.leaf.ts = v.leaf.ts := by
  unfold readView
  split
  · exact ⟨rfl, rfl, rfl, rfl, rfl⟩
  · split
    · split
      · split
        · exact ⟨rfl, rfl, rfl, rfl, rfl⟩
        · rename_i h; exact ⟨rfl, rfl, refresh_same h⟩
      · split
        · exact ⟨rfl, rfl, rfl, rfl, rfl⟩
        · simp only
          split
          · exact ⟨rfl, rfl, rfl, rfl, rfl⟩
          · rename_i h; exact ⟨rfl, rfl, refresh_same h⟩
    · split
      · exact ⟨rfl, rfl, rfl, rfl, rfl⟩
      · rename_i h; exact ⟨rfl, rfl, readLeaf_same h⟩

theorem readT_state {i : Nat} {s : St K G} {v : TView K} (h : s.tviews[i]? = some v) :
    readT i s = ((readView s v).2, s.setT i (fun _ => (readView s v).1)) := by
  unfold readT; rw [h]

theorem readT_none {i : Nat} {s : St K G} (h : s.tviews[i]? = none) :
    readT i s = (.error .badHandle, s) := by
  unfold readT; rw [h]

theorem handle_none {i : Nat} {s : St K G} (h : s.tviews[i]? = none) :
    handle i s = (.error .badHandle, s) := by
  unfold handle; exact M.bind_error (look_none h)

theorem handle_some {i : Nat} {s : St K G} {v : TView K} (h : s.tviews[i]? = some v) :
    handle i s = ((match v.leaf.data with | none => .error .badHandle | some d => .ok d), s) := by
  unfold handle
  have e1 : M.look (fun s : St K G => s.tviews[i]?) s = (.ok v, s) := look_some h
  rw [M.bind_ok e1]
  cases v.leaf.data <;> rfl

theorem handle_cases (i : Nat) (s : St K G) :
    (handle i s = (.error .badHandle, s)) ∨
      ∃ v d, s.tviews[i]? = some v ∧ v.leaf.data = some d ∧ handle i s = (.ok d, s) := by
  cases hv : s.tviews[i]? with
  | none => exact Or.inl (handle_none hv)
  | some v =>
    have := handle_some hv
    cases hd : v.leaf.data with
    | none => rw [hd] at this; exact Or.inl this
    | some d => rw [hd] at this; exact Or.inr ⟨v, d, rfl, hd, this⟩

theorem quiet_handle (env : Env K) (i : Nat) : Quiet env (handle i : M K G (Arr K)) := by
  intro s
  rcases handle_cases i s with h | ⟨_, _, _, _, h⟩ <;> rw [h] <;> exact .refl s

theorem checkWrite_none {i : Nat} {s : St K G} (h : s.tviews[i]? = none) :
    checkWrite i s = (.error .badHandle, s) := by
  unfold checkWrite; exact M.bind_error (look_none h)

theorem checkWrite_writable {i : Nat} {s : St K G} {v : TView K} (h : s.tviews[i]? = some v)
    (hw : v.writable = true) : checkWrite i s = (.ok (), s) := by
  unfold checkWrite
  have e1 : M.look (fun s : St K G => s.tviews[i]?) s = (.ok v, s) := look_some h
  rw [M.bind_ok e1, hw]; rfl

theorem checkWrite_fresh {i : Nat} {s : St K G} {v : TView K} (h : s.tviews[i]? = some v)
    (hw : v.writable = false) : checkWrite i s =
      (attemptWrite v.leaf.param v.leaf.ts.ty (some v.leaf.conv.target) (some v.leaf.ts.target)
        >>= fun _ => updTView i (fun v => { v with writable := true })) s := by
  unfold checkWrite
  have e1 : M.look (fun s : St K G => s.tviews[i]?) s = (.ok v, s) := look_some h
  rw [M.bind_ok e1, hw]; rfl

theorem checkWrite_spec (env : Env K) (i : Nat) (s : St K G) (v : TView K)
    (hv : s.tviews[i]? = some v) (hty : v.leaf.ts.ty ≠ .generic) :
    Steps env s [] (checkWrite i s).2 ∧
      ((checkWrite i s).1 = .ok () →
        (checkWrite i s).2.tviews[i]? = some { v with writable := true }) := by
  cases hw : v.writable with
  | true =>
    rw [checkWrite_writable hv hw]
    refine ⟨.refl s, fun _ => ?_⟩
    rw [hv]; cases v; simp at hw; subst hw; rfl
  | false =>
    rw [checkWrite_fresh hv hw]
    obtain ⟨h1, h2⟩ := attemptWrite_spec (G := G) env v.leaf.param v.leaf.ts.ty
      (some v.leaf.conv.target) (some v.leaf.ts.target) (Or.inr ⟨hty, rfl⟩) s
    cases hr : attemptWrite v.leaf.param v.leaf.ts.ty (some v.leaf.conv.target)
      (some v.leaf.ts.target) s with
    | mk res s' =>
      rw [hr] at h1 h2
      cases res with
      | error e => simp only [M.bind_error hr]; exact ⟨h1, fun h => by simp at h⟩
      | ok a =>
        simp only [M.bind_ok hr]
        obtain ⟨P, P', h3, h4, h5, h6, h7, h8, h9⟩ := h2 rfl
        simp only at h5
        have hv' : s'.tviews[i]? = some v := by rw [h5]; exact hv
        have hp' : s'.params[v.leaf.param]? = some P' := by rw [h5, setParam_self, h3]; rfl
        refine ⟨h1.tail0 (.tWritable s' i v P' hv' hp' h9), fun _ => ?_⟩
        show (s'.setT i _).tviews[i]? = _
        rw [setT_self, hv']; rfl

/-- Put an array into the cache of view `i`. -/
def putCache (i : Nat) (d : Arr K) : M K G Unit :=
  updTView i (fun v => { v with leaf := { v.leaf with data := some d } })

theorem putCache_apply (i : Nat) (d : Arr K) (s : St K G) :
    putCache i d s = (.ok (), s.setT i (fun v => { v with leaf := { v.leaf with data := some d } })) :=
  rfl

/-- Change the cache, then `_write`. -/
theorem putCache_write (env : Env K) (i : Nat) (d : Arr K) (s : St K G) (v : TView K)
    (hv : s.tviews[i]? = some v)
    (hd : d.length = v.leaf.ts.targetLength ∨ ∃ d0, v.leaf.data = some d0 ∧ d.length = d0.length) :
    TWrites env i v.locked s ((putCache i d >>= fun _ => writeT i) s) := by
  rw [M.bind_ok (putCache_apply i d s)]
  have h1 := Prim.tCache (env := env) s i v d hv hd
  have hv1 : (s.setT i (fun v => { v with leaf := { v.leaf with data := some d } })).tviews[i]?
      = some { v with leaf := { v.leaf with data := some d } } := by rw [setT_self, hv]; rfl
  have h2 := writeT_spec env i _ _ hv1
  exact TWrites.prepend (.one h1) hv hv1 rfl h2

theorem Arr.copyTo_length {a b c : Arr K} (h : a.copyTo b = .ok c) : c.length = b.length := by
  cases a with
  | floats l =>
    simp only [Arr.copyTo] at h; injection h with h; subst h
    cases b with
    | floats l => rfl
    | ints l => simp [Arr.length, Arr.vals]
  | ints l =>
    cases b with
    | floats l => simp [Arr.copyTo] at h
    | ints l => simp only [Arr.copyTo] at h; injection h with h; subst h; rfl

theorem newCache_length {d : Option (Arr K)} {a c : Arr K} (h : newCache d a = .ok c) :
    c.length = a.length := by
  cases d with
  | none => simp only [newCache] at h; injection h with h; subst h; rfl
  | some d => exact Arr.copyTo_length h

theorem assignAt_length {α : Type} (l : List α) (ix : List (Nat × α)) :
    (assignAt l ix).length = l.length := by
  induction ix generalizing l with
  | nil => rfl
  | cons p r ih => rw [assignAt, ih]; simp

theorem Arr.setItems_length {trunc : K → Int} {a b : Arr K} {ix : List (Int × Fl K)}
    (h : a.setItems trunc ix = .ok b) : b.length = a.length := by
  unfold Arr.setItems at h
  split at h
  · simp at h
  · split at h
    · injection h with h; subst h; exact assignAt_length _ _
    · split at h
      · simp at h
      · injection h with h; subst h; exact assignAt_length _ _

theorem Arr.inplace_length {f : K → K} {a b : Arr K} (h : a.inplace f = .ok b) :
    b.length = a.length := by
  cases a with
  | floats l => simp only [Arr.inplace] at h; injection h with h; subst h; simp [Arr.length]
  | ints l => simp [Arr.inplace] at h

theorem setValues_spec (env : Env K) (i : Nat) (a : Arr K) (s : St K G) (v : TView K)
    (hv : s.tviews[i]? = some v) (hty : v.leaf.ts.ty ≠ .generic) :
    TWrites env i v.locked s (setValues i a s) := by
  unfold setValues
  obtain ⟨h1, h2⟩ := checkWrite_spec env i s v hv hty
  cases hr : checkWrite i s with
  | mk res s' =>
    rw [hr] at h1 h2
    cases res with
    | error e => rw [M.bind_error hr]; exact Or.inl ⟨⟨e, rfl⟩, h1⟩
    | ok u =>
      rw [M.bind_ok hr]
      have hv' := h2 rfl
      simp only at hv'
      have e1 : M.look (fun s : St K G => s.tviews[i]?) s' = (.ok _, s') := look_some hv'
      rw [M.bind_ok e1]
      by_cases hlen : a.length ≠ v.leaf.ts.targetLength
      · simp only [hlen, if_true, ne_eq, not_false_eq_true]
        exact Or.inl ⟨⟨_, rfl⟩, h1⟩
      · have hlen' : a.length = v.leaf.ts.targetLength := by simpa using hlen
        simp only [hlen', ne_eq, not_true_eq_false, if_false]
        cases hc : newCache v.leaf.data a with
        | error e => exact Or.inl ⟨⟨e, rfl⟩, h1⟩
        | ok d =>
          have := putCache_write env i d s' _ hv'
            (Or.inl (by rw [newCache_length hc]; exact hlen'))
          exact TWrites.prepend h1 hv hv' rfl this

theorem setItems_spec (env : Env K) (i : Nat) (ix : List (Int × Fl K)) (s : St K G) (v : TView K)
    (hv : s.tviews[i]? = some v) : TWrites env i v.locked s (setItems env i ix s) := by
  unfold setItems
  have e1 : M.look (fun s : St K G => s.tviews[i]?) s = (.ok v, s) := look_some hv
  rw [M.bind_ok e1]
  cases hd : v.leaf.data with
  | none => exact Or.inl ⟨⟨_, rfl⟩, .refl s⟩
  | some d =>
    cases hx : d.setItems env.trunc ix with
    | error e => simp only [hx]; exact Or.inl ⟨⟨e, rfl⟩, .refl s⟩
    | ok d' =>
      simp only [hx]
      exact putCache_write env i d' s v hv (Or.inr ⟨d, hd, Arr.setItems_length hx⟩)


/-! ## All calls -/

/-- The view through which a call writes. -/
def writesView : Op K G → Option VRef
  | .sSet i _ => some (.s i)
  | .gSet i _ => some (.g i)
  | .tSet i _ => some (.t i)
  | .tSetItem i _ => some (.t i)
  | .hSetItem i _ => some (.t i)
  | .hInplace i _ => some (.t i)
  | .tSetOwn i => some (.t i)
  | .tUnlock i => some (.t i)
  | _ => none

/-- `unlock` publishes although the view was locked before. -/
def isUnlock : Op K G → Bool
  | .tUnlock _ => true
  | _ => false

/-- No timeseries view has the type `generic`. -/
def TyOK (s : St K G) : Prop :=
  ∀ (i : Nat) (v : TView K), s.tviews[i]? = some v → v.leaf.ts.ty = .average ∨ v.leaf.ts.ty = .point

theorem quiet_locked (env : Env K) (i : Nat) (b : Bool) :
    Quiet env (updTView i (fun v => { v with locked := b }) : M K G Unit) :=
  fun s => .one (.tLocked s i b)

theorem Quiet.gets {env : Env K} {α : Type} (f : St K G → α) : Quiet env (M.gets f) :=
  fun s => .refl s

theorem Quiet.valueM {env : Env K} {α : Type} (f : St K G → Except Err α) :
    Quiet env (M.value f) := fun s => .refl s

/-- Calls that do not write store nothing. -/
theorem call_quiet (env : Env K) (op : Op K G) (h : writesView op = none) :
    Quiet env (call env op) := by
  cases op with
  | scalar n u r => exact (quiet_scalarCall env n u r).bind (fun _ => Quiet.pure _)
  | timeseries n u tps r ty int ext =>
    exact (quiet_timeseriesCall env n u tps r ty int ext).bind (fun _ => Quiet.pure _)
  | generic n r => exact (quiet_genericCall env n r).bind (fun _ => Quiet.pure _)
  | info n r => exact (Quiet.valueM _).bind (fun _ => Quiet.pure _)
  | sGet i =>
    exact (Quiet.look _).bind (fun _ => (Quiet.valueM _).bind (fun _ => Quiet.pure _))
  | gGet i =>
    exact (Quiet.look _).bind (fun _ => (Quiet.valueM _).bind (fun _ => Quiet.pure _))
  | tGet i =>
    exact (quiet_readT env i).bind (fun _ => (quiet_handle env i).bind (fun _ => Quiet.pure _))
  | tGetItem i j =>
    exact (quiet_readT env i).bind (fun _ => (quiet_handle env i).bind
      (fun _ => (Quiet.ofExcept _).bind (fun _ => Quiet.pure _)))
  | hGetItem i j =>
    exact (quiet_handle env i).bind (fun _ => (quiet_readT env i).bind
      (fun _ => (quiet_handle env i).bind
      (fun _ => (Quiet.ofExcept _).bind (fun _ => Quiet.pure _))))
  | hPeek i => exact (quiet_handle env i).bind (fun _ => Quiet.pure _)
  | tLock i =>
    exact (Quiet.look _).bind (fun _ => (quiet_locked env i true).bind (fun _ => Quiet.pure _))
  | tLength i => exact (Quiet.look _).bind (fun _ => Quiet.pure _)
  | vInfo r =>
    exact (Quiet.look _).bind (fun _ => (Quiet.look _).bind
      (fun _ => (Quiet.gets _).bind (fun _ => Quiet.pure _)))
  | ensure r =>
    refine (Quiet.look _).bind (fun _ => (Quiet.look _).bind (fun P => ?_))
    intro s
    by_cases hw : P.written = true
    · rw [if_pos hw]; exact .refl s
    · rw [if_neg hw]; exact .refl s
  | sSet => simp [writesView] at h
  | gSet => simp [writesView] at h
  | tSet => simp [writesView] at h
  | tSetItem => simp [writesView] at h
  | hSetItem => simp [writesView] at h
  | hInplace => simp [writesView] at h
  | tSetOwn => simp [writesView] at h
  | tUnlock => simp [writesView] at h

theorem Stores.done {env : Env K} {s : St K G} {m : M K G Unit} {l : List (Nat × Data K G)}
    (h : Stores env m s l) (o : Out K G) : Stores env (m >>= fun _ => Pure.pure o) s l := by
  unfold Stores at *
  rw [M.bind_apply]
  cases hm : m s with
  | mk r s' =>
    rw [hm] at h
    cases r with
    | error e =>
      rcases h with ⟨h, _⟩ | ⟨_, h⟩
      · simp [Except.isOk, Except.toBool] at h
      · exact Or.inr ⟨⟨e, rfl⟩, h⟩
    | ok a =>
      rcases h with ⟨_, h⟩ | ⟨⟨e, h⟩, _⟩
      · exact Or.inl ⟨rfl, h⟩
      · simp at h

theorem call_sSet (env : Env K) (i : Nat) (x : Fl K) (s : St K G) :
    (s.sviews[i]? = none ∧ call env (.sSet i x) s = (.error .badHandle, s)) ∨
    ∃ v, s.sviews[i]? = some v ∧
      Stores env (call env (.sSet i x)) s [(v.param, .scalar (x.map v.conv.convertTo))] := by
  rcases setScalar_steps env i x s with ⟨h1, h2⟩ | ⟨v, h1, h2⟩
  · exact Or.inl ⟨h1, M.bind_error h2⟩
  · exact Or.inr ⟨v, h1, h2.done _⟩

theorem call_gSet (env : Env K) (i : Nat) (g : G) (s : St K G) :
    (s.gviews[i]? = none ∧ call env (.gSet i g) s = (.error .badHandle, s)) ∨
    ∃ v, s.gviews[i]? = some v ∧
      Stores env (call env (.gSet i g)) s [(v.param, .generic (some g))] := by
  rcases setGeneric_steps env i g s with ⟨h1, h2⟩ | ⟨v, h1, h2⟩
  · exact Or.inl ⟨h1, M.bind_error h2⟩
  · exact Or.inr ⟨v, h1, h2.done _⟩

/-- A call that writes through a timeseries view that was never handed out fails. -/
theorem call_tNone (env : Env K) (op : Op K G) (i : Nat) (h : writesView op = some (.t i))
    (s : St K G) (hv : s.tviews[i]? = none) : call env op s = (.error .badHandle, s) := by
  cases op <;> simp only [writesView, Option.some.injEq, VRef.t.injEq, reduceCtorEq] at h
  case tSet j a =>
    subst h
    have : setValues j a s = (.error .badHandle, s) := by
      unfold setValues; exact M.bind_error (checkWrite_none hv)
    exact M.bind_error this
  case tSetItem j ix => subst h; exact M.bind_error (readT_none hv)
  case hSetItem j ix =>
    subst h
    have : setItems env j ix s = (.error .badHandle, s) := by
      unfold setItems; exact M.bind_error (look_none hv)
    exact M.bind_error this
  case hInplace j f => subst h; exact M.bind_error (handle_none hv)
  case tSetOwn j => subst h; exact M.bind_error (handle_none hv)
  case tUnlock j => subst h; exact M.bind_error (look_none hv)

/-- Every call that writes through a timeseries view. -/
theorem call_tWrites (env : Env K) (op : Op K G) (i : Nat) (h : writesView op = some (.t i))
    (s : St K G) (hty : TyOK s) (v : TView K) (hv : s.tviews[i]? = some v) :
    TWrites env i (v.locked && !isUnlock op) s (call env op s) := by
  have hg : v.leaf.ts.ty ≠ .generic := by rcases hty i v hv with h | h <;> rw [h] <;> simp
  cases op <;> simp only [writesView, Option.some.injEq, VRef.t.injEq, reduceCtorEq] at h
  case tSet j a =>
    subst h
    simp only [isUnlock, Bool.not_false, Bool.and_true]
    exact (setValues_spec env j a s v hv hg).done _
  case tSetItem j ix =>
    subst h
    simp only [isUnlock, Bool.not_false, Bool.and_true]
    have hq := quiet_readT env j s
    have hr := readT_state hv
    show TWrites env j v.locked s ((readT j >>= fun _ => setItems env j ix >>= fun _ => _) s)
    rw [hr] at hq
    obtain ⟨h1, h2, h3, h4, h5⟩ := readView_same s v
    have hv' : (s.setT j (fun _ => (readView s v).1)).tviews[j]? = some (readView s v).1 := by
      rw [setT_self, hv]; rfl
    cases hres : (readView s v).2 with
    | error e =>
      rw [hres] at hr
      rw [M.bind_error hr]; exact Or.inl ⟨⟨e, rfl⟩, hq⟩
    | ok u =>
      rw [hres] at hr
      rw [M.bind_ok hr]
      have := (setItems_spec env j ix _ _ hv').done (.done : Out K G)
      rw [h1] at this
      exact TWrites.prepend hq hv hv' h3 this
  case hSetItem j ix =>
    subst h
    simp only [isUnlock, Bool.not_false, Bool.and_true]
    exact (setItems_spec env j ix s v hv).done _
  case hInplace j f =>
    subst h
    simp only [isUnlock, Bool.not_false, Bool.and_true]
    have hq := quiet_readT env j s
    have hr := readT_state hv
    rw [hr] at hq
    obtain ⟨h1, h2, h3, h4, h5⟩ := readView_same s v
    have hv' : (s.setT j (fun _ => (readView s v).1)).tviews[j]? = some (readView s v).1 := by
      rw [setT_self, hv]; rfl
    show TWrites env j v.locked s ((handle j >>= fun _ => readT j >>= fun _ => handle j >>= fun d =>
      M.ofExcept (d.inplace f) >>= fun d' => putCache j d' >>= fun _ => writeT j >>= fun _ => _) s)
    rcases handle_cases j s with hh | ⟨v0, d0, hv0, hd0, hh⟩
    · rw [M.bind_error hh]; exact Or.inl ⟨⟨_, rfl⟩, .refl s⟩
    · rw [M.bind_ok hh]
      cases hres : (readView s v).2 with
      | error e =>
        rw [hres] at hr
        rw [M.bind_error hr]; exact Or.inl ⟨⟨e, rfl⟩, hq⟩
      | ok u =>
        rw [hres] at hr
        rw [M.bind_ok hr]
        rcases handle_cases j (s.setT j (fun _ => (readView s v).1)) with hh | ⟨v1, d1, hv1, hd1, hh⟩
        · rw [M.bind_error hh]; exact Or.inl ⟨⟨_, rfl⟩, hq⟩
        · rw [M.bind_ok hh]
          rw [hv'] at hv1; cases hv1
          cases hi : d1.inplace f with
          | error e => exact Or.inl ⟨⟨e, rfl⟩, hq⟩
          | ok d2 =>
            have h6 := putCache_write env j d2 _ _ hv' (Or.inr ⟨d1, hd1, Arr.inplace_length hi⟩)
            rw [h1] at h6
            have h7 := h6.done (.done : Out K G)
            exact TWrites.prepend hq hv hv' h3 h7
  case tSetOwn j =>
    subst h
    simp only [isUnlock, Bool.not_false, Bool.and_true]
    show TWrites env j v.locked s ((handle j >>= fun d => setValues j d >>= fun _ => _) s)
    rcases handle_cases j s with hh | ⟨v0, d0, hv0, hd0, hh⟩
    · rw [M.bind_error hh]; exact Or.inl ⟨⟨_, rfl⟩, .refl s⟩
    · rw [M.bind_ok hh]
      exact (setValues_spec env j d0 s v hv hg).done _
  case tUnlock j =>
    subst h
    simp only [isUnlock, Bool.not_true, Bool.and_false]
    have e1 : M.look (fun s : St K G => s.tviews[j]?) s = (.ok v, s) := look_some hv
    show TWrites env j false s ((M.look _ >>= fun _ => updTView j (fun v => { v with locked := false })
      >>= fun _ => writeT j >>= fun _ => _) s)
    rw [M.bind_ok e1]
    have e2 : (updTView j (fun v => { v with locked := false }) : M K G Unit) s
      = (.ok (), s.setT j (fun v => { v with locked := false })) := rfl
    rw [M.bind_ok e2]
    have hv' : (s.setT j (fun v => { v with locked := false })).tviews[j]?
        = some { v with locked := false } := by rw [setT_self, hv]; rfl
    have h6 := (writeT_spec env j _ _ hv').done (.done : Out K G)
    exact TWrites.prepend (.one (.tLocked s j false)) hv hv' rfl h6

/-- Every public call is a sequence of primitive changes. -/
theorem call_steps (env : Env K) (op : Op K G) (s : St K G) (hty : TyOK s) :
    ∃ l, Steps env s l (call env op s).2 := by
  cases h : writesView op with
  | none => exact ⟨[], call_quiet env op h s⟩
  | some r =>
    cases r with
    | s i =>
      cases op <;> simp only [writesView, Option.some.injEq, VRef.s.injEq, reduceCtorEq] at h
      case sSet j x =>
        rcases call_sSet env j x s with ⟨_, h2⟩ | ⟨v, _, h2⟩
        · rw [h2]; exact ⟨[], .refl s⟩
        · rcases h2 with ⟨_, h2⟩ | ⟨_, h2⟩ <;> exact ⟨_, h2⟩
    | g i =>
      cases op <;> simp only [writesView, Option.some.injEq, VRef.g.injEq, reduceCtorEq] at h
      case gSet j x =>
        rcases call_gSet env j x s with ⟨_, h2⟩ | ⟨v, _, h2⟩
        · rw [h2]; exact ⟨[], .refl s⟩
        · rcases h2 with ⟨_, h2⟩ | ⟨_, h2⟩ <;> exact ⟨_, h2⟩
    | t i =>
      cases hv : s.tviews[i]? with
      | none => rw [call_tNone env op i h s hv]; exact ⟨[], .refl s⟩
      | some v =>
        rcases call_tWrites env op i h s hty v hv with ⟨_, h2⟩ | ⟨_, _, _, h2⟩
        · exact ⟨_, h2⟩
        · rcases h2 with ⟨_, h2⟩ | ⟨_, _, h2⟩ <;> exact ⟨_, h2⟩

end Openscm
