import Verif.CoreReach

/-!
# What calls leave alone

Helper file: requests only add, reads only refresh caches, writes touch one parameter and one view.
-/

set_option linter.unusedSectionVars false

namespace Openscm
variable {K G : Type} [Field K] [LinearOrder K] [IsStrictOrderedRing K]

/-- Effect of requests: nothing is written, no view is changed. -/
structure Grow (s s' : St K G) : Prop where
  old : ∀ (p : Nat) (P : Param K G), s.params[p]? = some P → ∃ P', s'.params[p]? = some P' ∧
    P'.written = P.written ∧ P'.version = P.version ∧ (P.ptype ≠ none → P'.data = P.data)
  new : ∀ (p : Nat) (P' : Param K G), s'.params[p]? = some P' → s.params[p]? = none →
    P'.written = false ∧ P'.version = 0
  sv : ∀ (i : Nat) (v : SView K), s.sviews[i]? = some v → s'.sviews[i]? = some v
  tv : ∀ (i : Nat) (v : TView K), s.tviews[i]? = some v → s'.tviews[i]? = some v
  gv : ∀ (i : Nat) (v : GView), s.gviews[i]? = some v → s'.gviews[i]? = some v

theorem Grow.refl (s : St K G) : Grow s s :=
  ⟨fun _ P h => ⟨P, h, rfl, rfl, fun _ => rfl⟩,
   fun _ P' h h' => by rw [h] at h'; simp at h', fun _ _ h => h, fun _ _ h => h, fun _ _ h => h⟩

theorem Grow.trans {s1 s2 s3 : St K G} (h : Grow s1 s2) (h' : Grow s2 s3) (hx : PExt s1 s2) :
    Grow s1 s3 := by
  refine ⟨fun p P hp => ?_, fun p P' hp hn => ?_, fun i v hv => h'.sv i v (h.sv i v hv),
    fun i v hv => h'.tv i v (h.tv i v hv), fun i v hv => h'.gv i v (h.gv i v hv)⟩
  · obtain ⟨Q, q1, q2, q3, q4⟩ := h.old p P hp
    obtain ⟨R, r1, r2, r3, r4⟩ := h'.old p Q q1
    refine ⟨R, r1, r2.trans q2, r3.trans q3, fun ht => ?_⟩
    rw [r4, q4 ht]
    obtain ⟨Q', x1, x2⟩ := hx p P hp
    rw [q1] at x1; cases x1
    obtain ⟨t, ht'⟩ := Option.ne_none_iff_exists'.1 ht
    rw [x2.ptype t ht']; simp
  · cases h2 : s2.params[p]? with
    | none => exact h'.new p P' hp h2
    | some Q =>
      obtain ⟨R, r1, r2, r3, _⟩ := h'.old p Q h2
      rw [hp] at r1; cases r1
      obtain ⟨a, b⟩ := h.new p Q h2 hn
      exact ⟨r2.trans a, r3.trans b⟩

/-- A computation that only grows the parameter set. -/
def Grows (env : Env K) {α : Type} (m : M K G α) : Prop :=
  ∀ s, Inv env s → Grow s (m s).2

theorem Grows.bind {env : Env K} {α β : Type} {m : M K G α} {f : α → M K G β}
    (h : Grows env m) (hq : Quiet env m) (h' : ∀ a, Grows env (f a)) : Grows env (m >>= f) := by
  intro s hi
  rw [M.bind_apply]
  have h1 := h s hi
  have h2 := hq s
  cases hm : m s with
  | mk r s' =>
    rw [hm] at h1 h2
    cases r with
    | error e => exact h1
    | ok a => exact h1.trans (h' a s' (h2.inv hi)) (h2.pext hi)

theorem Grows.of_eq {env : Env K} {α : Type} {m : M K G α} (h : ∀ s, (m s).2 = s) :
    Grows env m := fun s _ => by rw [h]; exact .refl s

theorem modify_none {α : Type} {l : List α} {i : Nat} (f : α → α) (j : Nat) :
    (l.modify i f)[j]? = none ↔ l[j]? = none := by
  rw [List.getElem?_eq_none_iff, List.getElem?_eq_none_iff]; simp

theorem Grow.params_modify {s : St K G} {p : Nat} {P : Param K G} {f : Param K G → Param K G}
    (hp : s.params[p]? = some P) (h1 : (f P).written = P.written) (h2 : (f P).version = P.version)
    (h3 : P.ptype ≠ none → (f P).data = P.data) : Grow s (s.setParam p f) := by
  refine ⟨fun q Q hq => ?_, fun q Q hq hn => ?_, fun _ _ h => h, fun _ _ h => h, fun _ _ h => h⟩
  · by_cases hpq : p = q
    · subst hpq
      rw [hp] at hq; cases hq
      exact ⟨f P, by rw [setParam_self, hp]; rfl, h1, h2, h3⟩
    · exact ⟨Q, by rw [setParam_ne _ _ hpq]; exact hq, rfl, rfl, fun _ => rfl⟩
  · have := (modify_none (i := p) f q).2 hn
    rw [show (s.setParam p f).params = s.params.modify p f from rfl, this] at hq
    simp at hq

theorem Grow.of_regions {s : St K G} {r : List Region} : Grow s { s with regions := r } :=
  ⟨fun _ P h => ⟨P, h, rfl, rfl, fun _ => rfl⟩,
   fun _ P' h h' => by rw [show s.params[_]? = some P' from h] at h'; simp at h',
   fun _ _ h => h, fun _ _ h => h, fun _ _ h => h⟩

theorem Grow.snoc {s : St K G} {r : List Region} (P : Param K G) (h1 : P.written = false)
    (h2 : P.version = 0) : Grow s { s with regions := r, params := s.params ++ [P] } := by
  refine ⟨fun q Q hq => ⟨Q, getElem?_append_of_some hq, rfl, rfl, fun _ => rfl⟩,
    fun q Q hq hn => ?_, fun _ _ h => h, fun _ _ h => h, fun _ _ h => h⟩
  have hq : (s.params ++ [P])[q]? = some Q := hq
  rcases getElem?_snoc_cases hq with h | ⟨_, rfl⟩
  · rw [hn] at h; simp at h
  · exact ⟨h1, h2⟩

theorem grows_subregion (env : Env K) (r : Nat) (n : String) :
    Grows env (subregion r n : M K G Nat) := by
  intro s _
  unfold subregion
  split
  · exact .refl s
  · split
    · exact .refl s
    · split
      · exact .refl s
      · exact .of_regions

theorem grows_walkRegions (env : Env K) (r : Nat) (ns : List String) :
    Grows env (walkRegions r ns : M K G Nat) := by
  induction ns generalizing r with
  | nil => exact Grows.of_eq (fun _ => rfl)
  | cons n ns ih => exact (grows_subregion env r n).bind (quiet_subregion env r n) (fun c => ih c)

theorem grows_getOrCreateRegion (env : Env K) (name : HName) :
    Grows env (getOrCreateRegion name : M K G Nat) := by
  unfold getOrCreateRegion
  split
  · exact Grows.of_eq (fun _ => rfl)
  · refine (Grows.of_eq (look_state _)).bind (Quiet.look _) (fun root => ?_)
    split
    · exact Grows.of_eq (fun _ => rfl)
    · exact grows_walkRegions env _ _

theorem grows_rootParam (env : Env K) (r : Nat) (n : String) :
    Grows env (rootParam r n : M K G Nat) := by
  intro s _
  unfold rootParam
  split
  · exact .refl s
  · split
    · exact .refl s
    · exact .snoc _ rfl rfl

theorem grows_childParam (env : Env K) (p : Nat) (n : String) :
    Grows env (childParam p n : M K G Nat) := by
  intro s _
  unfold childParam
  split
  · exact .refl s
  · rename_i P hP
    split
    · exact .refl s
    · split
      · exact .refl s
      · split
        · exact .refl s
        · have h1 : Grow s (s.setParam p
              (fun P => { P with children := P.children ++ [(n, s.params.length)] })) :=
            .params_modify hP rfl rfl (fun _ => rfl)
          have h2 := Grow.snoc (s := s.setParam p
              (fun P => { P with children := P.children ++ [(n, s.params.length)] }))
              (r := s.regions) (newParam n P.region (some p)) rfl rfl
          refine ⟨fun q Q hq => ?_, fun q Q hq hn => ?_, fun _ _ h => h, fun _ _ h => h,
            fun _ _ h => h⟩
          · obtain ⟨A, a1, a2, a3, a4⟩ := h1.old q Q hq
            obtain ⟨B, b1, b2, b3, b4⟩ := h2.old q A a1
            refine ⟨B, b1, b2.trans a2, b3.trans a3, fun ht => ?_⟩
            have hA : A.ptype = Q.ptype := by
              by_cases hpq : p = q
              · subst hpq
                rw [setParam_self, hq] at a1
                cases a1; rfl
              · rw [setParam_ne _ _ hpq, hq] at a1
                cases a1; rfl
            rw [b4 (by rw [hA]; exact ht), a4 ht]
          · exact h2.new q Q hq ((modify_none _ q).2 hn)

theorem grows_walkParams (env : Env K) (p : Nat) (ns : List String) :
    Grows env (walkParams p ns : M K G Nat) := by
  induction ns generalizing p with
  | nil => exact Grows.of_eq (fun _ => rfl)
  | cons n ns ih => exact (grows_childParam env p n).bind (quiet_childParam env p n) (fun c => ih c)

theorem grows_reach (env : Env K) (name region : HName) :
    Grows env (reach name region : M K G Nat) := by
  refine (grows_getOrCreateRegion env region).bind (quiet_getOrCreateRegion env region) (fun r => ?_)
  unfold getOrCreateParam
  split
  · exact Grows.of_eq (fun _ => rfl)
  · exact (grows_rootParam env _ _).bind (quiet_rootParam env _ _)
      (fun p => grows_walkParams env p _)

theorem firstRead_keeps {P P' : Param K G} {t : PType} {u : Option String}
    {tps : Option (List K)} {e : Option Err} (h : firstRead P t u tps = (P', e)) :
    P'.version = P.version := by
  have h := congrArg Prod.fst h
  subst h
  unfold firstRead
  cases t with
  | scalar => rfl
  | generic => simp only []; split <;> rfl
  | average => simp only []; split <;> rfl
  | point => simp only []; split <;> rfl

theorem grows_attemptRead (env : Env K) (p : Nat) (t : PType) (u : Option String)
    (tps : Option (List K)) : Grows env (attemptRead p t u tps : M K G Unit) := by
  intro s _
  unfold attemptRead
  split
  · exact .refl s
  · rename_i P hP
    split
    · split
      · exact .refl s
      · exact .params_modify hP rfl rfl (fun _ => rfl)
    · rename_i ht
      split
      · rename_i P' e hf
        exact .params_modify hP (firstRead_ptype hf).2.2 (firstRead_keeps hf)
          (fun h => absurd ht h)
      · rename_i P' hf
        have e1 := (firstRead_ptype hf).2.2
        have e2 := firstRead_keeps hf
        exact .params_modify hP (by exact e1) (by exact e2) (fun h => absurd ht h)

theorem grows_addS (env : Env K) (v : SView K) : Grows env (addSView v : M K G Nat) := by
  intro s _
  exact ⟨fun _ P h => ⟨P, h, rfl, rfl, fun _ => rfl⟩,
    fun _ P' h h' => by rw [show s.params[_]? = some P' from h] at h'; simp at h',
    fun _ _ h => getElem?_append_of_some h, fun _ _ h => h, fun _ _ h => h⟩

theorem grows_addT (env : Env K) (v : TView K) : Grows env (addTView v : M K G Nat) := by
  intro s _
  exact ⟨fun _ P h => ⟨P, h, rfl, rfl, fun _ => rfl⟩,
    fun _ P' h h' => by rw [show s.params[_]? = some P' from h] at h'; simp at h',
    fun _ _ h => h, fun _ _ h => getElem?_append_of_some h, fun _ _ h => h⟩

theorem grows_addG (env : Env K) (v : GView) : Grows env (addGView v : M K G Nat) := by
  intro s _
  exact ⟨fun _ P h => ⟨P, h, rfl, rfl, fun _ => rfl⟩,
    fun _ P' h h' => by rw [show s.params[_]? = some P' from h] at h'; simp at h',
    fun _ _ h => h, fun _ _ h => h, fun _ _ h => getElem?_append_of_some h⟩

/-- Name and region of a request. -/
def request : Op K G → Option (HName × HName)
  | .scalar n _ r => some (n, r)
  | .timeseries n _ _ r _ _ _ => some (n, r)
  | .generic n r => some (n, r)
  | _ => none

theorem ofExcept_state {α : Type} (x : Except Err α) (s : St K G) :
    (M.ofExcept x : M K G α) s = (x, s) := by cases x <;> rfl

/-- Requests only grow the parameter set. -/
theorem request_grows (env : Env K) (op : Op K G) (nr : HName × HName) (h : request op = some nr) :
    Grows env (call env op) := by
  cases op <;> simp only [request, reduceCtorEq] at h
  case scalar n u r =>
    intro s hi
    show Grow s ((scalarCall env n u r >>= fun i => (pure (.view i) : M K G (Out K G))) s).2
    refine Grows.bind ?_ (quiet_scalarCall env n u r) (fun _ => Grows.of_eq (fun _ => rfl)) s hi
    refine (grows_reach env n r).bind (quiet_reach env n r) (fun p => ?_)
    refine (grows_attemptRead env p _ _ _).bind
      (quiet_attemptRead env p _ _ _ (Or.inr ⟨by simp, rfl⟩)) (fun _ => ?_)
    exact (Grows.of_eq (fun _ => rfl)).bind (Quiet.valueM _) (fun v => grows_addS env v)
  case timeseries n u tps r ty int ext =>
    intro s hi
    show Grow s ((timeseriesCall env n u tps r ty int ext >>= fun i =>
      (pure (.view i) : M K G (Out K G))) s).2
    refine Grows.bind ?_ (quiet_timeseriesCall env n u tps r ty int ext)
      (fun _ => Grows.of_eq (fun _ => rfl)) s hi
    intro s hi
    unfold timeseriesCall
    cases hty : ty.parse with
    | error e => exact .refl s
    | ok ty' =>
      have e1 : (M.ofExcept (.ok ty') : M K G PType) s = (.ok ty', s) := rfl
      rw [M.bind_ok e1]
      have hty' := tyArg_parse hty
      have hb : ∀ (x : Except Err Interp), (∀ s, ((M.ofExcept x : M K G Interp) s).2 = s) :=
        fun x s => by rw [ofExcept_state]
      have hb' : ∀ (x : Except Err Extrap), (∀ s, ((M.ofExcept x : M K G Extrap) s).2 = s) :=
        fun x s => by rw [ofExcept_state]
      refine Grows.bind (Grows.of_eq (hb _)) (Quiet.ofExcept _) (fun _ =>
        Grows.bind (Grows.of_eq (hb' _)) (Quiet.ofExcept _) (fun ext' => ?_)) s hi
      refine (grows_reach env n r).bind (quiet_reach env n r) (fun p => ?_)
      refine (grows_attemptRead env p _ _ _).bind
        (quiet_attemptRead env p _ _ _ (Or.inr ⟨by rcases hty' with rfl | rfl <;> simp, rfl⟩))
        (fun _ => ?_)
      exact (Grows.of_eq (fun _ => rfl)).bind (Quiet.valueM _) (fun v => grows_addT env v)
  case generic n r =>
    intro s hi
    show Grow s ((genericCall n r >>= fun i => (pure (.view i) : M K G (Out K G))) s).2
    refine Grows.bind ?_ (quiet_genericCall env n r) (fun _ => Grows.of_eq (fun _ => rfl)) s hi
    refine (grows_reach env n r).bind (quiet_reach env n r) (fun p => ?_)
    refine (grows_attemptRead env p _ _ _).bind
      (quiet_attemptRead env p _ _ _ (Or.inl ⟨rfl, rfl⟩)) (fun _ => ?_)
    exact grows_addG env _

/-! ## Calls that do not change the state -/

/-- Calls that only look. -/
def looks : Op K G → Bool
  | .info .. | .sGet .. | .gGet .. | .hPeek .. | .tLength .. | .vInfo .. | .ensure .. => true
  | _ => false

theorem handle_state (i : Nat) (s : St K G) : (handle i s).2 = s := by
  rcases handle_cases i s with h | ⟨_, _, _, _, h⟩ <;> rw [h]

theorem bind_state {α β : Type} {m : M K G α} {f : α → M K G β} {s : St K G}
    (h : (m s).2 = s) (h' : ∀ a, ((f a) s).2 = s) : ((m >>= f) s).2 = s := by
  rw [M.bind_apply]
  cases hm : m s with
  | mk r s' =>
    rw [hm] at h
    simp only at h
    subst h
    cases r with
    | error e => rfl
    | ok a => exact h' a

theorem looks_state (env : Env K) (op : Op K G) (h : looks op = true) (s : St K G) :
    (call env op s).2 = s := by
  cases op <;> simp only [looks, Bool.false_eq_true] at h
  case info n r => exact bind_state rfl (fun _ => rfl)
  case sGet i => exact bind_state (look_state _ _) (fun _ => bind_state rfl (fun _ => rfl))
  case gGet i => exact bind_state (look_state _ _) (fun _ => bind_state rfl (fun _ => rfl))
  case hPeek i => exact bind_state (handle_state i s) (fun _ => rfl)
  case tLength i => exact bind_state (look_state _ _) (fun _ => rfl)
  case vInfo r =>
    refine bind_state (look_state _ _) (fun a => ?_)
    obtain ⟨p, u⟩ := a
    exact bind_state (look_state _ _) (fun _ => bind_state rfl (fun _ => rfl))
  case ensure r =>
    refine bind_state (look_state _ _) (fun a => ?_)
    obtain ⟨p, u⟩ := a
    refine bind_state (look_state _ _) (fun P => ?_)
    show ((if P.written then pure .done else M.throw .parameterEmpty : M K G (Out K G)) s).2 = s
    cases P.written <;> rfl

/-! ## Calls on a timeseries view touch that view and its parameter only -/

/-- The part of a view that never changes. -/
def TLeaf.stat (l : TLeaf K) : Nat × Conv K × TSConv K := (l.param, l.conv, l.ts)

/-- The part of a view that never changes. -/
def TView.stat (v : TView K) : (Nat × Conv K × TSConv K) × Option (List (Nat × Conv K × TSConv K)) :=
  (v.leaf.stat, v.kids.map (List.map TLeaf.stat))

theorem readLeaf_stat {s : St K G} {v l : TLeaf K} (h : readLeaf s v = .ok l) :
    l.stat = v.stat := by
  obtain ⟨h1, h2, h3⟩ := readLeaf_same h
  unfold TLeaf.stat; rw [h1, h2, h3]

theorem refresh_stat {v l : TLeaf K} {n : Nat} {vals : Except Err (List (Fl K))}
    (h : refresh v n vals = .ok l) : l.stat = v.stat := by
  obtain ⟨h1, h2, h3⟩ := refresh_same h
  unfold TLeaf.stat; rw [h1, h2, h3]

theorem sumKids_stat (s : St K G) (acc : Option (List (Fl K))) (ks : List (TLeaf K)) :
    (sumKids s acc ks).1.map TLeaf.stat = ks.map TLeaf.stat := by
  induction ks generalizing acc with
  | nil => rfl
  | cons v r ih =>
    simp only [sumKids]
    cases h : readLeaf s v with
    | error e => rfl
    | ok v' => simp only [List.map_cons, ih, readLeaf_stat h]

theorem readView_stat (s : St K G) (v : TView K) : (readView s v).1.stat = v.stat := by
  unfold readView
  split
  · rfl
  · split
    · split
      · split
        · rfl
        · rename_i h; simp only [TView.stat, refresh_stat h]
      · split
        · rfl
        · rename_i kids hk
          have := sumKids_stat s none kids
          split
          rename_i r' res hs
          rw [hs] at this
          split
          · simp only [TView.stat, hk, Option.map_some, this]
          · rename_i h; simp only [TView.stat, refresh_stat h, hk, Option.map_some, this]
    · split
      · rfl
      · rename_i h; simp only [TView.stat, readLeaf_stat h]

/-- `s'` differs from `s` at most in parameter `p` and timeseries view `i`, which stays a view
of `p`. -/
structure TFrame (i p : Nat) (s s' : St K G) : Prop where
  regions : s'.regions = s.regions
  sviews : s'.sviews = s.sviews
  gviews : s'.gviews = s.gviews
  params : ∀ q, q ≠ p → s'.params[q]? = s.params[q]?
  plen : s'.params.length = s.params.length
  tviews : ∀ j, j ≠ i → s'.tviews[j]? = s.tviews[j]?
  tlen : s'.tviews.length = s.tviews.length
  view : (s'.tviews[i]?).map TView.stat = (s.tviews[i]?).map TView.stat

theorem TFrame.refl (i p : Nat) (s : St K G) : TFrame i p s s :=
  ⟨rfl, rfl, rfl, fun _ _ => rfl, rfl, fun _ _ => rfl, rfl, rfl⟩

theorem TFrame.trans {i p : Nat} {s1 s2 s3 : St K G} (h : TFrame i p s1 s2)
    (h' : TFrame i p s2 s3) : TFrame i p s1 s3 :=
  ⟨h'.regions.trans h.regions, h'.sviews.trans h.sviews, h'.gviews.trans h.gviews,
   fun q hq => (h'.params q hq).trans (h.params q hq), h'.plen.trans h.plen,
   fun j hj => (h'.tviews j hj).trans (h.tviews j hj), h'.tlen.trans h.tlen,
   h'.view.trans h.view⟩

theorem TFrame.setParam (i p : Nat) (s : St K G) (f : Param K G → Param K G) :
    TFrame i p s (s.setParam p f) :=
  ⟨rfl, rfl, rfl, fun _ hq => setParam_ne _ _ (Ne.symm hq), by simp, fun _ _ => rfl, rfl, rfl⟩

theorem TFrame.setT (i p : Nat) (s : St K G) (f : TView K → TView K)
    (hf : ∀ v, s.tviews[i]? = some v → (f v).stat = v.stat) :
    TFrame i p s (s.setT i f) := by
  refine ⟨rfl, rfl, rfl, fun _ _ => rfl, rfl, fun _ hj => setT_ne _ _ (Ne.symm hj),
    by simp [St.setT], ?_⟩
  rw [setT_self]
  cases h : s.tviews[i]? with
  | none => rfl
  | some v => simp [hf v h]

/-- Computations on view `i`, a view of `p`. -/
def Fr (i p : Nat) {α : Type} (m : M K G α) : Prop :=
  ∀ s : St K G, (s.tviews[i]?).map (fun v => v.leaf.param) = some p → TFrame i p s (m s).2

theorem Fr.bind {i p : Nat} {α β : Type} {m : M K G α} {f : α → M K G β} (h : Fr i p m)
    (h' : ∀ a, Fr i p (f a)) : Fr i p (m >>= f) := by
  intro s hs
  have h1 := h s hs
  rw [M.bind_apply]
  cases hm : m s with
  | mk r s' =>
    rw [hm] at h1
    cases r with
    | error e => exact h1
    | ok a =>
      refine h1.trans (h' a s' ?_)
      have := congrArg (Option.map (fun x => x.1.1)) h1.view
      simp only [Option.map_map] at this
      exact this.trans hs

theorem Fr.of_eq {i p : Nat} {α : Type} {m : M K G α} (h : ∀ s, (m s).2 = s) : Fr i p m :=
  fun s _ => by rw [h]; exact .refl i p s

/-- Look at view `i`, then go on with something that may use its parameter. -/
theorem Fr.look {i p : Nat} {β : Type} {f : TView K → M K G β}
    (h' : ∀ v, v.leaf.param = p → Fr i p (f v)) :
    Fr i p (M.look (fun s : St K G => s.tviews[i]?) >>= f) := by
  intro s hs
  cases hv : s.tviews[i]? with
  | none => rw [hv] at hs; simp at hs
  | some v =>
    have e1 : M.look (fun s : St K G => s.tviews[i]?) s = (.ok v, s) := look_some hv
    rw [M.bind_ok e1]
    rw [hv] at hs
    exact h' v (by simpa using hs) s (by rw [hv]; exact hs)

theorem Fr.updT {i p : Nat} {f : TView K → TView K}
    (hf : ∀ v, (f v).stat = v.stat) : Fr i p (updTView i f : M K G Unit) :=
  fun s _ => .setT i p s f (fun v _ => hf v)

theorem Fr.updParam {i p : Nat} {f : Param K G → Param K G} : Fr i p (updParam p f) :=
  fun s _ => .setParam i p s f

theorem fr_attemptRead (i p : Nat) (t : PType) (u : Option String) (tps : Option (List K)) :
    Fr i p (attemptRead p t u tps : M K G Unit) := by
  intro s _
  unfold attemptRead
  split
  · exact .refl i p s
  · split
    · split
      · exact .refl i p s
      · exact .setParam i p s _
    · split
      · exact .setParam i p s _
      · exact .setParam i p s _

theorem fr_attemptWrite (i p : Nat) (t : PType) (u : Option String) (tps : Option (List K)) :
    Fr i p (attemptWrite p t u tps : M K G Unit) := by
  unfold attemptWrite
  refine (Fr.of_eq (look_state _)).bind (fun P => ?_)
  split
  · exact Fr.of_eq (fun _ => rfl)
  · exact (fr_attemptRead i p t u tps).bind (fun _ => Fr.updParam)

theorem fr_checkWrite (i p : Nat) : Fr i p (checkWrite i : M K G Unit) := by
  unfold checkWrite
  refine Fr.look (fun v hv => ?_)
  split
  · exact Fr.of_eq (fun _ => rfl)
  · rw [hv]
    exact (fr_attemptWrite i p _ _ _).bind (fun _ => Fr.updT (fun v => rfl))

theorem fr_writeT (i p : Nat) : Fr i p (writeT i : M K G Unit) := by
  unfold writeT
  refine Fr.look (fun v hv => ?_)
  split
  · exact Fr.of_eq (fun _ => rfl)
  · split
    · exact Fr.of_eq (fun _ => rfl)
    · rw [hv]
      refine (Fr.of_eq (fun s => by rw [ofExcept_state])).bind (fun l => ?_)
      refine Fr.updParam.bind (fun _ => ?_)
      refine (Fr.of_eq (look_state _)).bind (fun P => ?_)
      exact Fr.updT (fun v => rfl)

theorem fr_setValues (i p : Nat) (a : Arr K) : Fr i p (setValues i a : M K G Unit) := by
  unfold setValues
  refine (fr_checkWrite i p).bind (fun _ => Fr.look (fun v _ => ?_))
  split
  · exact Fr.of_eq (fun _ => rfl)
  · refine Fr.bind (Fr.of_eq (fun s => by rw [ofExcept_state])) (fun d => ?_)
    exact Fr.bind (Fr.updT (fun v => by rfl)) (fun _ => fr_writeT i p)

theorem fr_setItems (env : Env K) (i p : Nat) (ix : List (Int × Fl K)) :
    Fr i p (setItems env i ix : M K G Unit) := by
  unfold setItems
  refine Fr.look (fun v _ => ?_)
  split
  · exact Fr.of_eq (fun _ => rfl)
  · refine Fr.bind (Fr.of_eq (fun s => by rw [ofExcept_state])) (fun d => ?_)
    exact Fr.bind (Fr.updT (fun v => by rfl)) (fun _ => fr_writeT i p)

theorem fr_readT (i p : Nat) : Fr i p (readT i : M K G Unit) := by
  intro s hs
  cases hv : s.tviews[i]? with
  | none => rw [hv] at hs; simp at hs
  | some v =>
    rw [readT_state hv]
    refine .setT i p s _ (fun v' hv' => ?_)
    rw [hv] at hv'; cases hv'
    exact readView_stat s v

theorem fr_handle (i p : Nat) : Fr i p (handle i : M K G (Arr K)) := Fr.of_eq (handle_state i)

/-- The timeseries view a call works on. -/
def onT : Op K G → Option Nat
  | .tGet i | .tSet i _ | .tGetItem i _ | .tSetItem i _ | .hGetItem i _ | .hSetItem i _
  | .hInplace i _ | .tSetOwn i | .tLock i | .tUnlock i => some i
  | _ => none

theorem onT_fr (env : Env K) (op : Op K G) (i p : Nat) (h : onT op = some i) :
    Fr i p (call env op) := by
  cases op <;> simp only [onT, Option.some.injEq, reduceCtorEq] at h <;> subst h
  case tGet i =>
    exact (fr_readT i p).bind (fun _ => (fr_handle i p).bind (fun _ => Fr.of_eq (fun _ => rfl)))
  case tSet i a => exact (fr_setValues i p a).bind (fun _ => Fr.of_eq (fun _ => rfl))
  case tGetItem i j =>
    exact (fr_readT i p).bind (fun _ => (fr_handle i p).bind (fun _ =>
      (Fr.of_eq (fun s => by rw [ofExcept_state])).bind (fun _ => Fr.of_eq (fun _ => rfl))))
  case tSetItem i ix =>
    exact (fr_readT i p).bind (fun _ => (fr_setItems env i p ix).bind
      (fun _ => Fr.of_eq (fun _ => rfl)))
  case hGetItem i j =>
    exact (fr_handle i p).bind (fun _ => (fr_readT i p).bind (fun _ => (fr_handle i p).bind (fun _ =>
      (Fr.of_eq (fun s => by rw [ofExcept_state])).bind (fun _ => Fr.of_eq (fun _ => rfl)))))
  case hSetItem i ix => exact (fr_setItems env i p ix).bind (fun _ => Fr.of_eq (fun _ => rfl))
  case hInplace i f =>
    exact (fr_handle i p).bind (fun _ => (fr_readT i p).bind (fun _ => (fr_handle i p).bind (fun d =>
      (Fr.of_eq (fun s => by rw [ofExcept_state])).bind (fun d' =>
        Fr.bind (Fr.updT (fun v => by rfl)) (fun _ => (fr_writeT i p).bind
          (fun _ => Fr.of_eq (fun _ => rfl)))))))
  case tSetOwn i =>
    exact (fr_handle i p).bind (fun d => (fr_setValues i p d).bind (fun _ => Fr.of_eq (fun _ => rfl)))
  case tLock i =>
    exact (Fr.of_eq (look_state _)).bind (fun _ => Fr.bind (Fr.updT (fun v => by rfl))
      (fun _ => Fr.of_eq (fun _ => rfl)))
  case tUnlock i =>
    exact (Fr.of_eq (look_state _)).bind (fun _ => Fr.bind (Fr.updT (fun v => by rfl))
      (fun _ => (fr_writeT i p).bind (fun _ => Fr.of_eq (fun _ => rfl))))

theorem onT_none (env : Env K) (op : Op K G) (i : Nat) (h : onT op = some i) (s : St K G)
    (hv : s.tviews[i]? = none) : call env op s = (.error .badHandle, s) := by
  cases op <;> simp only [onT, Option.some.injEq, reduceCtorEq] at h <;> subst h
  case tGet i => exact M.bind_error (readT_none hv)
  case tSet i a => exact M.bind_error (M.bind_error (checkWrite_none hv))
  case tGetItem i j => exact M.bind_error (readT_none hv)
  case tSetItem i ix => exact M.bind_error (readT_none hv)
  case hGetItem i j => exact M.bind_error (handle_none hv)
  case hSetItem i ix => exact M.bind_error (M.bind_error (look_none hv))
  case hInplace i f => exact M.bind_error (handle_none hv)
  case tSetOwn i => exact M.bind_error (handle_none hv)
  case tLock i => exact M.bind_error (look_none hv)
  case tUnlock i => exact M.bind_error (look_none hv)

/-- Every call is a request, a look, an assignment to a scalar or generic view, or a call on a
timeseries view. -/
theorem op_cases (op : Op K G) : (∃ nr, request op = some nr) ∨ looks op = true ∨
    (∃ i x, op = .sSet i x) ∨ (∃ i g, op = .gSet i g) ∨ ∃ i, onT op = some i := by
  cases op <;> simp [request, looks, onT]

/-! ## Views keep their parameter, converters and children -/

theorem wroteS_sviews (s : St K G) (i : Nat) (v : SView K) (x : Fl K) (j : Nat) :
    (wroteS s i v x).sviews[j]? =
      (s.sviews[j]?).map (fun w => if i = j then { w with writable := true } else w) := by
  show (s.sviews.modify i _)[j]? = _
  by_cases h : i = j
  · subst h; rw [getElem?_modify_self]; simp
  · rw [getElem?_modify_ne _ _ h]; simp [h]

theorem call_sview {env : Env K} {s : St K G} (hi : Inv env s) (op : Op K G) {i : Nat}
    {v : SView K} (hv : s.sviews[i]? = some v) : ∃ v', (call env op s).2.sviews[i]? = some v' ∧
      v'.param = v.param ∧ v'.conv = v.conv ∧ v'.kids = v.kids := by
  rcases op_cases op with ⟨nr, h⟩ | h | ⟨j, x, rfl⟩ | ⟨j, g, rfl⟩ | ⟨j, h⟩
  · exact ⟨v, (request_grows env op nr h s hi).sv i v hv, rfl, rfl, rfl⟩
  · rw [looks_state env op h]; exact ⟨v, hv, rfl, rfl, rfl⟩
  · cases hw : s.sviews[j]? with
    | none => rw [sSet_none hw]; exact ⟨v, hv, rfl, rfl, rfl⟩
    | some w =>
      obtain ⟨P, u, hp, _⟩ := (hi.good.sviews j w hw).ex
      by_cases hc : P.children = []
      · rw [sSet_leaf hi hw hp hc]
        show ∃ v', (wroteS s j w x).sviews[i]? = some v' ∧ _
        rw [wroteS_sviews, hv]
        by_cases hji : j = i
        · rw [Option.map_some, if_pos hji]; exact ⟨_, rfl, rfl, rfl, rfl⟩
        · rw [Option.map_some, if_neg hji]; exact ⟨_, rfl, rfl, rfl, rfl⟩
      · rw [sSet_children hi hw hp hc]; exact ⟨v, hv, rfl, rfl, rfl⟩
  · cases hw : s.gviews[j]? with
    | none => rw [gSet_none hw]; exact ⟨v, hv, rfl, rfl, rfl⟩
    | some w =>
      obtain ⟨P, hp, _⟩ := hi.good.gviews j w hw
      by_cases hc : P.children = []
      · rw [gSet_leaf hi hw hp hc]; exact ⟨v, hv, rfl, rfl, rfl⟩
      · rw [gSet_children hi hw hp hc]; exact ⟨v, hv, rfl, rfl, rfl⟩
  · cases hw : s.tviews[j]? with
    | none => rw [onT_none env op j h s hw]; exact ⟨v, hv, rfl, rfl, rfl⟩
    | some w =>
      have := onT_fr env op j w.leaf.param h s (by rw [hw]; rfl)
      exact ⟨v, by rw [this.sviews]; exact hv, rfl, rfl, rfl⟩

theorem call_gview {env : Env K} {s : St K G} (hi : Inv env s) (op : Op K G) {i : Nat}
    {v : GView} (hv : s.gviews[i]? = some v) : ∃ v', (call env op s).2.gviews[i]? = some v' ∧
      v'.param = v.param := by
  rcases op_cases op with ⟨nr, h⟩ | h | ⟨j, x, rfl⟩ | ⟨j, g, rfl⟩ | ⟨j, h⟩
  · exact ⟨v, (request_grows env op nr h s hi).gv i v hv, rfl⟩
  · rw [looks_state env op h]; exact ⟨v, hv, rfl⟩
  · cases hw : s.sviews[j]? with
    | none => rw [sSet_none hw]; exact ⟨v, hv, rfl⟩
    | some w =>
      obtain ⟨P, u, hp, _⟩ := (hi.good.sviews j w hw).ex
      by_cases hc : P.children = []
      · rw [sSet_leaf hi hw hp hc]; exact ⟨v, hv, rfl⟩
      · rw [sSet_children hi hw hp hc]; exact ⟨v, hv, rfl⟩
  · cases hw : s.gviews[j]? with
    | none => rw [gSet_none hw]; exact ⟨v, hv, rfl⟩
    | some w =>
      obtain ⟨P, hp, _⟩ := hi.good.gviews j w hw
      by_cases hc : P.children = []
      · rw [gSet_leaf hi hw hp hc]
        show ∃ v', (s.gviews.modify j _)[i]? = some v' ∧ _
        by_cases hji : j = i
        · subst hji; rw [getElem?_modify_self, hv]; exact ⟨_, rfl, rfl⟩
        · rw [getElem?_modify_ne _ _ hji]; exact ⟨v, hv, rfl⟩
      · rw [gSet_children hi hw hp hc]; exact ⟨v, hv, rfl⟩
  · cases hw : s.tviews[j]? with
    | none => rw [onT_none env op j h s hw]; exact ⟨v, hv, rfl⟩
    | some w =>
      have := onT_fr env op j w.leaf.param h s (by rw [hw]; rfl)
      exact ⟨v, by rw [this.gviews]; exact hv, rfl⟩

/-- A call that is not made on timeseries view `i` leaves it as it is. -/
theorem call_tview_other {env : Env K} {s : St K G} (hi : Inv env s) (op : Op K G) {i : Nat}
    {v : TView K} (hv : s.tviews[i]? = some v) (ho : onT op ≠ some i) :
    (call env op s).2.tviews[i]? = some v := by
  rcases op_cases op with ⟨nr, h⟩ | h | ⟨j, x, rfl⟩ | ⟨j, g, rfl⟩ | ⟨j, h⟩
  · exact (request_grows env op nr h s hi).tv i v hv
  · rw [looks_state env op h]; exact hv
  · cases hw : s.sviews[j]? with
    | none => rw [sSet_none hw]; exact hv
    | some w =>
      obtain ⟨P, u, hp, _⟩ := (hi.good.sviews j w hw).ex
      by_cases hc : P.children = []
      · rw [sSet_leaf hi hw hp hc]; exact hv
      · rw [sSet_children hi hw hp hc]; exact hv
  · cases hw : s.gviews[j]? with
    | none => rw [gSet_none hw]; exact hv
    | some w =>
      obtain ⟨P, hp, _⟩ := hi.good.gviews j w hw
      by_cases hc : P.children = []
      · rw [gSet_leaf hi hw hp hc]; exact hv
      · rw [gSet_children hi hw hp hc]; exact hv
  · cases hw : s.tviews[j]? with
    | none => rw [onT_none env op j h s hw]; exact hv
    | some w =>
      have := onT_fr env op j w.leaf.param h s (by rw [hw]; rfl)
      rw [this.tviews i (by rintro rfl; exact ho h)]; exact hv

theorem call_tview {env : Env K} {s : St K G} (hi : Inv env s) (op : Op K G) {i : Nat}
    {v : TView K} (hv : s.tviews[i]? = some v) : ∃ v', (call env op s).2.tviews[i]? = some v' ∧
      v'.stat = v.stat := by
  by_cases ho : onT op = some i
  · have := onT_fr env op i v.leaf.param ho s (by rw [hv]; rfl)
    have h := this.view
    rw [hv] at h
    cases hw : (call env op s).2.tviews[i]? with
    | none => rw [hw] at h; simp at h
    | some w => rw [hw] at h; simp at h; exact ⟨w, rfl, h⟩
  · exact ⟨v, call_tview_other hi op hv ho, rfl⟩

/-- A view stays a view of the same parameter, in the same unit. -/
theorem call_viewTarget {env : Env K} {s : St K G} (hi : Inv env s) (op : Op K G) {r : VRef}
    {p : Nat} {u : Option String} (h : viewTarget s r = some (p, u)) :
    viewTarget (call env op s).2 r = some (p, u) := by
  cases r with
  | s i =>
    simp only [viewTarget, Option.map_eq_some_iff, Prod.mk.injEq] at h ⊢
    obtain ⟨v, hv, rfl, rfl⟩ := h
    obtain ⟨v', h1, h2, h3, _⟩ := call_sview hi op hv
    exact ⟨v', h1, h2, by rw [h3]⟩
  | t i =>
    simp only [viewTarget, Option.map_eq_some_iff, Prod.mk.injEq] at h ⊢
    obtain ⟨v, hv, rfl, rfl⟩ := h
    obtain ⟨v', h1, h2⟩ := call_tview hi op hv
    simp only [TView.stat, TLeaf.stat, Prod.mk.injEq] at h2
    exact ⟨v', h1, h2.1.1, by rw [h2.1.2.1]⟩
  | g i =>
    simp only [viewTarget, Option.map_eq_some_iff, Prod.mk.injEq] at h ⊢
    obtain ⟨v, hv, rfl, rfl⟩ := h
    obtain ⟨v', h1, h2⟩ := call_gview hi op hv
    refine ⟨v', h1, h2, ?_⟩
    rw [h2]
    obtain ⟨P, a1, a2, _⟩ := hi.good.gviews i v hv
    obtain ⟨P', b1, b2⟩ := call_pext op hi _ P a1
    rw [a1, b1, Option.bind_some, Option.bind_some, b2.unit (by rw [a2]; simp)]

theorem call_viewKey {env : Env K} {s : St K G} (hi : Inv env s) (op : Op K G) {r : VRef}
    {k : Key} (h : viewKey env s r = some k) : viewKey env (call env op s).2 r = some k := by
  obtain ⟨p, u, h1, h2⟩ := (viewKey_some hi).1 h
  exact (viewKey_some (call_inv op hi)).2
    ⟨p, u, call_viewTarget hi op h1, h2.mono (call_pext op hi) (call_rext op hi)⟩

theorem after_viewTarget {env : Env K} {s : St K G} (hi : Inv env s) (ops : List (Op K G))
    {r : VRef} {p : Nat} {u : Option String} (h : viewTarget s r = some (p, u)) :
    viewTarget (after env s ops) r = some (p, u) := by
  induction ops generalizing s with
  | nil => exact h
  | cons op ops ih => rw [after_cons]; exact ih (call_inv op hi) (call_viewTarget hi op h)

theorem after_sview {env : Env K} {s : St K G} (hi : Inv env s) (ops : List (Op K G)) {i : Nat}
    {v : SView K} (hv : s.sviews[i]? = some v) : ∃ v', (after env s ops).sviews[i]? = some v' ∧
      v'.param = v.param ∧ v'.conv = v.conv ∧ v'.kids = v.kids := by
  induction ops generalizing s v with
  | nil => exact ⟨v, hv, rfl, rfl, rfl⟩
  | cons op ops ih =>
    rw [after_cons]
    obtain ⟨v1, h1, h2, h3, h4⟩ := call_sview hi op hv
    obtain ⟨v2, g1, g2, g3, g4⟩ := ih (call_inv op hi) h1
    exact ⟨v2, g1, g2.trans h2, g3.trans h3, g4.trans h4⟩

theorem after_tview {env : Env K} {s : St K G} (hi : Inv env s) (ops : List (Op K G)) {i : Nat}
    {v : TView K} (hv : s.tviews[i]? = some v) : ∃ v', (after env s ops).tviews[i]? = some v' ∧
      v'.stat = v.stat := by
  induction ops generalizing s v with
  | nil => exact ⟨v, hv, rfl⟩
  | cons op ops ih =>
    rw [after_cons]
    obtain ⟨v1, h1, h2⟩ := call_tview hi op hv
    obtain ⟨v2, g1, g2⟩ := ih (call_inv op hi) h1
    exact ⟨v2, g1, g2.trans h2⟩

theorem after_key {env : Env K} {s : St K G} (hi : Inv env s) (ops : List (Op K G)) {p : Nat}
    {k : Key} (h : HasKey s p k) : HasKey (after env s ops) p k :=
  h.mono (after_pext ops hi) (after_rext ops hi)

theorem after_viewKey {env : Env K} {s : St K G} (hi : Inv env s) (ops : List (Op K G)) {r : VRef}
    {k : Key} (h : viewKey env s r = some k) : viewKey env (after env s ops) r = some k := by
  obtain ⟨p, u, h1, h2⟩ := (viewKey_some hi).1 h
  exact (viewKey_some (after_inv ops hi)).2 ⟨p, u, after_viewTarget hi ops h1, after_key hi ops h2⟩

end Openscm
