import Verif.CoreDemo

/-!
# C01, C03-C07: reading back, fixed attributes, children and write protection
-/

set_option linter.unusedSectionVars false

namespace Openscm
variable {K G : Type} [Field K] [LinearOrder K] [IsStrictOrderedRing K]

theorem after_one (env : Env K) (s : St K G) (op : Op K G) :
    after env s [op] = (call env op s).2 := by rw [after_cons]; rfl

/-! ## C01 -/

/-- Two converters from the same storage unit: going back through the first and forth through the
second is pint's conversion between the two units shown to the user. -/
theorem conv_between {reg : Registry K} {u : String} {c c' : Conv K}
    (h : mkConv reg u c.target = .ok c) (h' : mkConv reg u c'.target = .ok c') :
    ∃ a b, reg c.target = some a ∧ reg c'.target = some b ∧
      ∀ x, c'.convertFrom (c.convertTo x) = pintTo a b x := by
  obtain ⟨s, t, hs, ht, _, _, _, a1, a2⟩ := mkConv_ok h
  obtain ⟨s', t', hs', ht', _, _, _, b1, b2⟩ := mkConv_ok h'
  rw [hs] at hs'; cases hs'
  refine ⟨t, t', ht, ht', fun x => ?_⟩
  have := s.scale_ne; have := t.scale_ne; have := t'.scale_ne
  simp only [Conv.convertFrom, Conv.convertTo, pintTo, UDef.toBase, UDef.ofBase, a1, a2, b1, b2]
  field_simp; ring

theorem sSet_ok {env : Env K} {s : St K G} (hi : Inv env s) {i : Nat} {x : Fl K}
    (h : result env s (.sSet i x) = .ok .done) : ∃ v P, s.sviews[i]? = some v ∧
      s.params[v.param]? = some P ∧ P.children = [] ∧
      call env (.sSet i x) s = (.ok .done, wroteS s i v x) := by
  unfold result at h
  cases hv : s.sviews[i]? with
  | none => rw [sSet_none hv] at h; simp at h
  | some v =>
    obtain ⟨P, u, hp, _⟩ := (hi.good.sviews i v hv).ex
    by_cases hc : P.children = []
    · exact ⟨v, P, rfl, hp, hc, sSet_leaf hi hv hp hc⟩
    · rw [sSet_children hi hv hp hc] at h; simp at h

theorem scalar_roundtrip {env : Env K} {s : St K G} (hi : Inv env s) {i j : Nat} {x : Fl K}
    {v w : SView K} {P : Param K G} (hv : s.sviews[i]? = some v) (hw : s.sviews[j]? = some w)
    (hp : s.params[v.param]? = some P) (hc : P.children = []) (hvw : w.param = v.param) :
    ∃ a b, env.units v.conv.target = some a ∧ env.units w.conv.target = some b ∧
      result env (wroteS s i v x) (.sGet j) = .ok (.num (x.map (pintTo a b))) := by
  obtain ⟨P1, u, a1, a2, a3, a4, a5, _⟩ := (hi.good.sviews i v hv).ex
  obtain ⟨P2, u', b1, b2, b3, b4, b5, _⟩ := (hi.good.sviews j w hw).ex
  rw [hp] at a1; cases a1
  rw [hvw, hp] at b1; cases b1
  rw [a4] at b4; cases b4
  obtain ⟨a, b, ha, hb, hab⟩ := conv_between a5 b5
  refine ⟨a, b, ha, hb, ?_⟩
  have hw' : ∃ w', (wroteS s i v x).sviews[j]? = some w' ∧ w'.param = v.param ∧ w'.conv = w.conv := by
    rw [wroteS_sviews, hw]
    by_cases h : i = j
    · rw [Option.map_some, if_pos h]; exact ⟨_, rfl, hvw, rfl⟩
    · rw [Option.map_some, if_neg h]; exact ⟨_, rfl, hvw, rfl⟩
  obtain ⟨w', h1, h2, h3⟩ := hw'
  have hpar : (wroteS s i v x).params[v.param]?
      = some (P.put (.scalar (x.map v.conv.convertTo))) := by
    show (s.setParam v.param _).params[v.param]? = _
    rw [setParam_self, hp]; rfl
  unfold result
  rw [sGet_eq h1]
  have : scalarValue (wroteS s i v x) w' = .ok (x.map (pintTo a b)) := by
    unfold scalarValue
    rw [h2, hpar]
    simp only [Param.put, hc, ne_eq, not_true_eq_false, if_false]
    unfold readScalarLeaf
    rw [hpar]
    simp only [Param.put, hc, ne_eq, not_true_eq_false, if_false, Bool.not_true, Bool.false_eq_true,
      h3, Fl.map_map, hab]
  rw [this]; rfl

/-- **C01**: what was assigned is what is read back, whatever unit the parameter is stored in. -/
theorem C01_own_view {env : Env K} {s : St K G} (hs : Reachable env s) {i : Nat} {x : Fl K}
    (hx : result env s (.sSet i x) = .ok .done) :
    result env (after env s [.sSet i x]) (.sGet i) = .ok (.num x) := by
  have hi := hs.inv
  obtain ⟨v, P, hv, hp, hc, hcall⟩ := sSet_ok hi hx
  rw [after_one, hcall]
  obtain ⟨a, b, ha, hb, h⟩ := scalar_roundtrip (x := x) hi hv hv hp hc rfl
  rw [h]
  rw [ha] at hb; cases hb
  have : pintTo a a = fun y : K => y := by
    funext y
    have := a.scale_ne
    simp only [pintTo, UDef.toBase, UDef.ofBase]; field_simp; ring
  rw [this, Fl.map_id']

/-- **C01**: any other scalar view of the same parameter (same region and name) shows the value
converted, as pint does it, from the first view's unit to its own. -/
theorem C01_any_view {env : Env K} {s : St K G} (hs : Reachable env s) {i j : Nat} {x : Fl K}
    {I J : Info} (hI : viewInfo env s (.s i) = some I) (hJ : viewInfo env s (.s j) = some J)
    (hk : I.key = J.key) (hx : result env s (.sSet i x) = .ok .done) :
    ∃ u w a b, I.unit = some u ∧ J.unit = some w ∧ env.units u = some a ∧ env.units w = some b ∧
      result env (after env s [.sSet i x]) (.sGet j) = .ok (.num (x.map (pintTo a b))) := by
  have hi := hs.inv
  obtain ⟨v, P, hv, hp, hc, hcall⟩ := sSet_ok hi hx
  obtain ⟨p, u, k, P1, a1, a2, a3, rfl⟩ := (viewInfo_some hi).1 hI
  obtain ⟨q, u', k', P2, b1, b2, b3, rfl⟩ := (viewInfo_some hi).1 hJ
  simp only [viewTarget, hv, Option.map_some, Option.some.injEq, Prod.mk.injEq] at a1
  obtain ⟨rfl, rfl⟩ := a1
  cases hw : s.sviews[j]? with
  | none => simp [viewTarget, hw] at b1
  | some w =>
    simp only [viewTarget, hw, Option.map_some, Option.some.injEq, Prod.mk.injEq] at b1
    obtain ⟨rfl, rfl⟩ := b1
    have hkk : k = k' := by
      simp only [Info.key, Prod.mk.injEq] at hk
      exact Prod.ext hk.1 hk.2
    subst hkk
    have hvw := b2.inj hi.tree a2
    obtain ⟨a, b, ha, hb, h⟩ := scalar_roundtrip (x := x) hi hv hw hp hc hvw
    rw [after_one, hcall]
    exact ⟨_, _, a, b, rfl, rfl, ha, hb, h⟩

/-- Hypotheses of C01 met: two views in kelvin and Celsius of one parameter. -/
example : let s := demoSt [.scalar (.seq ["T"]) "K" world, .scalar (.str "T") "degC" world]
    viewInfo demoEnv s (.s 0) = some ⟨["T"], ["World"], some .scalar, some "K", true, 0⟩ ∧
    viewInfo demoEnv s (.s 1) = some ⟨["T"], ["World"], some .scalar, some "degC", true, 0⟩ ∧
    result demoEnv s (.sSet 0 (.num 300)) = .ok .done ∧
    result demoEnv (after demoEnv s [.sSet 0 (.num 300)]) (.sGet 1)
      = .ok (.num (.num (537 / 20))) := by decide +kernel

/-! ## C03, C04: fixed by the first access -/

/-- The type a request asks for; `none` if the given type is none. -/
def asks : Op K G → Option PType
  | .scalar .. => some .scalar
  | .generic .. => some .generic
  | .timeseries _ _ _ _ ty int ext =>
    match ty.parse, int.parse, ext.parse with
    | .ok t, .ok _, .ok _ => some t
    | _, _, _ => none
  | _ => none

/-- **C03**: the type reported for a parameter never changes once there is one. -/
theorem C03_type_fixed {env : Env K} {s : St K G} (hs : Reachable env s) {k : Key} {I : Info}
    {t : PType} (hI : infoAt env s k = some I) (ht : I.ptype = some t) (ops : List (Op K G)) :
    ∃ J, infoAt env (after env s ops) k = some J ∧ J.ptype = some t := by
  have hi := hs.inv
  obtain ⟨p, P, h1, h2, rfl⟩ := (infoAt_some hi.tree).1 hI
  obtain ⟨P', g1, g2⟩ := after_pext ops hi p P h2
  exact ⟨_, infoAt_of (after_inv ops hi).tree (after_key hi ops h1) g1, g2.ptype t ht⟩

theorem attemptRead_wrong {s : St K G} {p : Nat} {P : Param K G} {t t' : PType}
    {u : Option String} {tps : Option (List K)} (hp : s.params[p]? = some P)
    (ht : P.ptype = some t') (hne : t' ≠ t) : attemptRead p t u tps s = (.error .parameterType, s) := by
  unfold attemptRead
  simp only [hp, ht]
  rw [if_pos hne]

/-- Unit and time points given in a request. -/
def asksUnit : Op K G → Option String
  | .scalar _ u _ => some u
  | .timeseries _ u _ _ _ _ _ => some u
  | _ => none

def asksPoints : Op K G → Option (List K)
  | .timeseries _ _ tps _ _ _ _ => some tps
  | _ => none

/-- What a request does before anything specific to its kind. -/
theorem request_bind {env : Env K} {op : Op K G} {name region : HName} {t : PType}
    (h : request op = some (name, region)) (ht : asks op = some t) :
    ((t = .average ∨ t = .point) ↔ (asksPoints op).isSome = true) ∧
    ∃ f : Nat → M K G (Out K G), (∀ p s, (f p s).2.params = s.params ∧ (f p s).2.regions = s.regions) ∧
    ∀ s, call env op s =
      (reach name region >>= fun p => attemptRead p t (asksUnit op) (asksPoints op) >>= fun _ => f p) s := by
  have assoc' : ∀ {α β γ : Type} (m : M K G α) (f : α → M K G β) (g : β → M K G γ),
      ((m >>= f) >>= g) = (m >>= fun a => f a >>= g) := by
    intro α β γ m f g; funext s
    rw [M.bind_apply, M.bind_apply, M.bind_apply]
    cases m s with
    | mk r s' => cases r <;> rfl
  cases op <;> simp only [request, Option.some.injEq, reduceCtorEq, Prod.mk.injEq] at h
  case scalar n u r =>
    obtain ⟨rfl, rfl⟩ := h
    simp only [asks, Option.some.injEq] at ht; subst ht
    refine ⟨by simp [asksPoints], fun p => M.value (fun s => mkSView env s p u) >>= fun v =>
      addSView v >>= fun i => pure (Out.view i : Out K G), fun p s => ?_, fun s => ?_⟩
    · show ((M.value (fun s => mkSView env s p u) >>= fun v => addSView v >>= fun i =>
        (pure (Out.view i : Out K G) : M K G _)) s).2.params = _ ∧ ((M.value (fun s => mkSView env s p u)
        >>= fun v => addSView v >>= fun i => (pure (Out.view i : Out K G) : M K G _)) s).2.regions = _
      rw [M.bind_apply, M.value_apply]
      cases mkSView env s p u <;> exact ⟨rfl, rfl⟩
    · show (scalarCall env n u r >>= fun i => pure (Out.view i : Out K G)) s = _
      unfold scalarCall
      simp only [assoc']
      rfl
  case generic n r =>
    obtain ⟨rfl, rfl⟩ := h
    simp only [asks, Option.some.injEq] at ht; subst ht
    refine ⟨by simp [asksPoints], fun p => addGView { param := p, writable := false } >>= fun i =>
      pure (Out.view i : Out K G), fun p s => ⟨rfl, rfl⟩, fun s => ?_⟩
    show (genericCall n r >>= fun i => pure (Out.view i : Out K G)) s = _
    unfold genericCall
    simp only [assoc']
    rfl
  case timeseries n u tps r ty int ext =>
    obtain ⟨rfl, rfl⟩ := h
    simp only [asks] at ht
    cases h1 : ty.parse with
    | error e => simp [h1] at ht
    | ok ty' =>
      cases h2 : int.parse with
      | error e => simp [h1, h2] at ht
      | ok int' =>
        cases h3 : ext.parse with
        | error e => simp [h1, h2, h3] at ht
        | ok ext' =>
          simp only [h1, h2, h3, Option.some.injEq] at ht; subst ht
          refine ⟨by simp [asksPoints, tyArg_parse h1], fun p => M.value (fun s => mkTView env s p u tps ty' ext')
            >>= fun v => addTView v >>= fun i => pure (Out.view i : Out K G), fun p s => ?_, fun s => ?_⟩
          · show ((M.value (fun s => mkTView env s p u tps ty' ext') >>= fun v => addTView v >>= fun i =>
              (pure (Out.view i : Out K G) : M K G _)) s).2.params = _ ∧
              ((M.value (fun s => mkTView env s p u tps ty' ext') >>= fun v => addTView v >>= fun i =>
              (pure (Out.view i : Out K G) : M K G _)) s).2.regions = _
            rw [M.bind_apply, M.value_apply]
            cases mkTView env s p u tps ty' ext' <;> exact ⟨rfl, rfl⟩
          · show (timeseriesCall env n u tps r ty int ext >>= fun i => pure (Out.view i : Out K G)) s = _
            unfold timeseriesCall
            rw [h1, h2, h3]
            simp only [assoc']
            rfl

/-- **C03**: a request for an existing parameter as another type raises `ParameterTypeError` and
changes nothing. -/
theorem C03_other_type_refused {env : Env K} {s : St K G} (hs : Reachable env s) {op : Op K G}
    {name region : HName} {I : Info} {t t' : PType} (hop : request op = some (name, region))
    (hask : asks op = some t') (hI : infoAt env s (region.parts, name.parts) = some I)
    (ht : I.ptype = some t) (hne : t ≠ t') :
    call env op s = (.error .parameterType, s) := by
  have hi := hs.inv
  obtain ⟨p, P, h1, h2, rfl⟩ := (infoAt_some hi.tree).1 hI
  obtain ⟨_, f, _, hf⟩ := request_bind (env := env) hop hask
  rw [hf]
  have hr : reach name region s = (.ok p, s) := by
    rw [reach_existing hi.tree (ns := []) h1 (by simp)]; rfl
  rw [M.bind_ok hr]
  exact M.bind_error (attemptRead_wrong h2 ht hne)

/-- Hypotheses of C03 met. -/
example : let s := demoSt [.scalar (.seq ["a", "T"]) "K" world]
    infoAt demoEnv s (["World"], ["a", "T"])
      = some ⟨["a", "T"], ["World"], some .scalar, some "K", true, 0⟩ ∧
    result demoEnv s (points ["a", "T"] "K" [0, 1, 2]) = .error .parameterType ∧
    result demoEnv s (.generic (.str "a|T") world) = .error .parameterType := by decide +kernel

/-- **C04**: the storage unit never changes once the parameter has a type. -/
theorem C04_unit_fixed {env : Env K} {s : St K G} (hs : Reachable env s) {k : Key} {I : Info}
    (hI : infoAt env s k = some I) (ht : I.ptype ≠ none) (ops : List (Op K G)) :
    ∃ J, infoAt env (after env s ops) k = some J ∧ J.unit = I.unit := by
  have hi := hs.inv
  obtain ⟨p, P, h1, h2, rfl⟩ := (infoAt_some hi.tree).1 hI
  obtain ⟨P', g1, g2⟩ := after_pext ops hi p P h2
  exact ⟨_, infoAt_of (after_inv ops hi).tree (after_key hi ops h1) g1, g2.unit ht⟩

/-! The time points of a parameter are not reported by any call, so the rest of C04 looks at the
heap: `tps` is what `TimeseriesView` reads as `parameter.time_points`. -/

/-- Nothing is typed on the way from `s` to `s'`. -/
def TypeFr (s s' : St K G) : Prop :=
  ∀ (q : Nat) (P' : Param K G), s'.params[q]? = some P' →
    P'.ptype = none ∨ ∃ P, s.params[q]? = some P ∧ P.ptype = P'.ptype

theorem TypeFr.of_eq {s s' : St K G} (h : s'.params = s.params) : TypeFr s s' :=
  fun _ P' hp => Or.inr ⟨P', by rw [← h]; exact hp, rfl⟩

theorem TypeFr.trans {s1 s2 s3 : St K G} (h : TypeFr s1 s2) (h' : TypeFr s2 s3) : TypeFr s1 s3 := by
  intro q P' hp
  rcases h' q P' hp with h1 | ⟨P, h1, h2⟩
  · exact Or.inl h1
  · rcases h q P h1 with h3 | ⟨Q, h3, h4⟩
    · exact Or.inl (h2 ▸ h3)
    · exact Or.inr ⟨Q, h3, h4.trans h2⟩

theorem TypeFr.bind {α β : Type} {m : M K G α} {f : α → M K G β} {s : St K G}
    (h : TypeFr s (m s).2) (h' : ∀ a s', TypeFr s' (f a s').2) : TypeFr s ((m >>= f) s).2 := by
  rw [M.bind_apply]
  cases hm : m s with
  | mk r s' =>
    rw [hm] at h
    cases r with
    | error e => exact h
    | ok a => exact h.trans (h' a s')

theorem typeFr_rootParam (r : Nat) (n : String) (s : St K G) : TypeFr s (rootParam r n s).2 := by
  unfold rootParam
  split
  · exact .of_eq rfl
  · split
    · exact .of_eq rfl
    · intro q P' hp
      rcases getElem?_snoc_cases hp with h | ⟨_, rfl⟩
      · exact Or.inr ⟨P', h, rfl⟩
      · exact Or.inl rfl

theorem typeFr_childParam (p : Nat) (n : String) (s : St K G) : TypeFr s (childParam p n s).2 := by
  unfold childParam
  split
  · exact .of_eq rfl
  · split
    · exact .of_eq rfl
    · split
      · exact .of_eq rfl
      · split
        · exact .of_eq rfl
        · intro q P' hp
          rcases getElem?_snoc_cases hp with h | ⟨_, rfl⟩
          · by_cases hq : p = q
            · subst hq
              rw [getElem?_modify_self, Option.map_eq_some_iff] at h
              obtain ⟨P, h1, rfl⟩ := h
              exact Or.inr ⟨P, h1, rfl⟩
            · rw [getElem?_modify_ne _ _ hq] at h
              exact Or.inr ⟨P', h, rfl⟩
          · exact Or.inl rfl

theorem typeFr_walkParams (p : Nat) (ns : List String) (s : St K G) :
    TypeFr s (walkParams p ns s).2 := by
  induction ns generalizing p s with
  | nil => exact .of_eq rfl
  | cons n ns ih =>
    rw [walkParams]
    exact .bind (typeFr_childParam p n s) (fun c s' => ih c s')

theorem typeFr_reach (name region : HName) (s : St K G) : TypeFr s (reach name region s).2 := by
  refine .bind ?_ (fun r s' => ?_)
  · unfold getOrCreateRegion
    cases region.parts with
    | nil => exact .of_eq rfl
    | cons n ns =>
      refine .bind (.of_eq (by rw [look_state])) (fun R s' => ?_)
      by_cases h : n ≠ R.name
      · rw [if_pos h]; exact .of_eq rfl
      · rw [if_neg h]; exact .of_eq (walkRegions_params 0 ns s')
  · unfold getOrCreateParam
    cases name.parts with
    | nil => exact .of_eq rfl
    | cons n ns => exact .bind (typeFr_rootParam r n s') (fun p s'' => typeFr_walkParams p ns s'')

theorem firstRead_ok {P P' : Param K G} {t : PType} {u : Option String} {tps : Option (List K)}
    (hP : PGood P) (hn : P.ptype = none) (h : firstRead P t u tps = (P', none)) :
    P'.ptype = some t ∧ P'.unit = u ∧
      P'.tps = (match t with | .average | .point => tps | _ => none) := by
  have htps : P.tps = none := by
    have := hP.2; rw [hn] at this; exact this.2.2.1
  unfold firstRead at h
  cases t with
  | scalar => simp only [Prod.mk.injEq] at h; obtain ⟨rfl, _⟩ := h; exact ⟨rfl, rfl, htps⟩
  | generic =>
    simp only at h
    split at h
    · simp only [Prod.mk.injEq] at h; obtain ⟨rfl, _⟩ := h; exact ⟨rfl, rfl, htps⟩
    · simp at h
  | average =>
    match tps, h with
    | none, h => simp at h
    | some [], h => simp at h
    | some (t0 :: ts), h => simp only [Prod.mk.injEq] at h; obtain ⟨rfl, _⟩ := h; exact ⟨rfl, rfl, rfl⟩
  | point =>
    match tps, h with
    | none, h => simp at h
    | some ts, h => simp only [Prod.mk.injEq] at h; obtain ⟨rfl, _⟩ := h; exact ⟨rfl, rfl, rfl⟩

/-- **C04**: the first successful request for a parameter fixes its type, its unit and its time
points: they are the ones asked for. -/
theorem C04_first_view {env : Env K} {s : St K G} (hs : Reachable env s) {op : Op K G}
    {name region : HName} {t : PType} {i : Nat} (hop : request op = some (name, region))
    (hask : asks op = some t)
    (hnew : ∀ I, infoAt env s (region.parts, name.parts) = some I → I.ptype = none)
    (hok : result env s op = .ok (.view i)) :
    ∃ p P, HasKey (after env s [op]) p (region.parts, name.parts) ∧
      (after env s [op]).params[p]? = some P ∧
      P.ptype = some t ∧ P.unit = asksUnit op ∧ P.tps = asksPoints op := by
  have hi := hs.inv
  obtain ⟨hty, f, hfp, hf⟩ := request_bind (env := env) hop hask
  rw [after_one]
  unfold result at hok
  rw [hf] at hok ⊢
  have hsteps := quiet_reach env name region s
  cases hr : reach name region s with
  | mk res s1 =>
    rw [hr] at hsteps
    have hi1 := hsteps.inv hi
    cases res with
    | error e => rw [M.bind_error hr] at hok; simp at hok
    | ok p =>
      rw [M.bind_ok hr] at hok ⊢
      have hkey : HasKey s1 p (region.parts, name.parts) := by
        rcases reach_spec hi name region with ⟨_, h, _⟩ | ⟨_, _, h | ⟨q, h, h', _⟩⟩
        · rw [hr] at h; simp at h
        · rw [hr] at h; simp at h
        · rw [hr] at h h'; simp only [Except.ok.injEq] at h; subst h; exact h'
      obtain ⟨P1, hp1, hreg, hpn⟩ := id hkey
      have hnone : P1.ptype = none := by
        have := typeFr_reach name region s
        rw [hr] at this
        rcases this p P1 hp1 with h | ⟨P, h1, h2⟩
        · exact h
        · rw [← h2]
          obtain ⟨k, hk⟩ := HasKey.exists hi.tree h1
          have hk' := hsteps.key hi hk
          have := hk'.det hkey
          subst this
          have hin := infoAt_of (env := env) hi.tree hk h1
          exact hnew _ hin
      have hg := hi1.good.params p P1 hp1
      cases hfr : firstRead P1 t (asksUnit op) (asksPoints op) with
      | mk P2 e =>
        cases e with
        | some e =>
          have : attemptRead p t (asksUnit op) (asksPoints op) s1
              = (.error e, s1.setParam p (fun _ => P2)) := by
            unfold attemptRead; simp only [hp1, hnone, hfr]
          rw [M.bind_error this] at hok; simp at hok
        | none =>
          have e1 : attemptRead p t (asksUnit op) (asksPoints op) s1
              = (.ok (), s1.setParam p (fun _ => { P2 with readFrom := true })) := by
            unfold attemptRead; simp only [hp1, hnone, hfr]
          rw [M.bind_ok e1]
          have hpar := hfp p (s1.setParam p (fun _ => { P2 with readFrom := true }))
          obtain ⟨g1, g2, g3⟩ := firstRead_ok hg hnone hfr
          refine ⟨p, { P2 with readFrom := true }, ?_, ?_, g1, g2, ?_⟩
          · have q := quiet_attemptRead env p t (asksUnit op) (asksPoints op)
              (by
                cases op <;> simp only [request, reduceCtorEq] at hop
                · exact Or.inr ⟨by simp only [asks, Option.some.injEq] at hask; subst hask; simp, rfl⟩
                · refine Or.inr ⟨?_, rfl⟩
                  have := hty.2 rfl
                  rcases this with rfl | rfl <;> simp
                · exact Or.inl ⟨by simp only [asks, Option.some.injEq] at hask; exact hask.symm, rfl⟩) s1
            rw [e1] at q
            exact (q.key hi1 hkey).mono (.of_eq hpar.1) (.of_eq hpar.2)
          · rw [hpar.1, setParam_self, hp1]; rfl
          · show P2.tps = _
            rw [g3]
            cases t with
            | scalar =>
              have : ¬ (asksPoints op).isSome = true := fun h => by simpa using hty.2 h
              cases h : asksPoints op with
              | none => rfl
              | some _ => rw [h] at this; simp at this
            | generic =>
              have : ¬ (asksPoints op).isSome = true := fun h => by simpa using hty.2 h
              cases h : asksPoints op with
              | none => rfl
              | some _ => rw [h] at this; simp at this
            | average => rfl
            | point => rfl

/-- Hypotheses of `C04_first_view` met, and the later request in another unit leaves the storage
unit alone. -/
example : result demoEnv (demoSt []) (points ["a", "T"] "K" [0, 1, 2]) = .ok (.view 0) ∧
    infoAt demoEnv (demoSt []) (["World"], ["a", "T"]) = none ∧
    infoAt demoEnv (demoSt [points ["a", "T"] "K" [0, 1, 2], points ["a", "T"] "mK" [0, 2]])
      (["World"], ["a", "T"])
      = some ⟨["a", "T"], ["World"], some .point, some "K", true, 0⟩ := by decide +kernel

/-- **C04**: the time points of a parameter never change once it has some. -/
theorem C04_points_fixed {env : Env K} {s : St K G} (hs : Reachable env s) {p : Nat} {k : Key}
    {P : Param K G} {t : List K} (hk : HasKey s p k) (hp : s.params[p]? = some P)
    (ht : P.tps = some t) (ops : List (Op K G)) :
    ∃ P', HasKey (after env s ops) p k ∧ (after env s ops).params[p]? = some P' ∧
      P'.tps = some t := by
  obtain ⟨P', h1, h2⟩ := after_pext ops hs.inv p P hp
  exact ⟨P', after_key hs.inv ops hk, h1, h2.tps t ht⟩

/-- **C04**: the stored array always has the length its time points require: one value per time
point, or per interval between time points. -/
theorem C04_length {env : Env K} {s : St K G} (hs : Reachable env s) {p : Nat} {P : Param K G}
    {t : List K} (hp : s.params[p]? = some P) (ht : P.tps = some t) :
    (P.ptype = some .average → ∃ l, P.data = .series l ∧ l.length = t.length - 1) ∧
    (P.ptype = some .point → ∃ l, P.data = .series l ∧ l.length = t.length) := by
  have h := (hs.inv.good.params p P hp).2
  constructor
  · intro hty
    rw [hty] at h
    rcases h.2 with ⟨h, _⟩ | ⟨t', l, h1, h2, h3, _⟩
    · rw [h] at ht; simp at ht
    · rw [ht] at h1; cases h1
      exact ⟨l, h2, h3⟩
  · intro hty
    rw [hty] at h
    rcases h.2 with ⟨h, _⟩ | ⟨t', l, h1, h2, h3, _⟩
    · rw [h] at ht; simp at ht
    · rw [ht] at h1; cases h1
      exact ⟨l, h2, h3⟩

/-- A stored array of three values, after a write from a view on other time points. -/
example : (demoSt [points ["T"] "K" [0, 1, 2], points ["T"] "mK" [0, 1, 2, 3],
      .tSet 1 (nums [1000, 2000, 3000, 4000])]).params.map (fun P => P.tps)
    = [some [0, 1, 2]] ∧
    ((demoSt [points ["T"] "K" [0, 1, 2], points ["T"] "mK" [0, 1, 2, 3],
      .tSet 1 (nums [1000, 2000, 3000, 4000])]).params.map (fun P => match P.data with
        | .series l => l
        | _ => [])) = [[.num 1, .num 2, .num 3]] := by decide +kernel

/-! ## C05, C06: children -/

/-- Parts of a name below `k`. -/
theorem request_below {env : Env K} {s : St K G} (hi : Inv env s) {op : Op K G}
    {name region : HName} {k : Key} {n : String} {ns : List String} {p : Nat} {P : Param K G}
    (hop : request op = some (name, region)) (hask : asks op ≠ none)
    (hr : region.parts = k.1) (hn : name.parts = k.2 ++ n :: ns) (hk : HasKey s p k)
    (hp : s.params[p]? = some P) (hread : P.readFrom = true)
    (hc : infoAt env s (Key.child k n) = none) :
    call env op s = (.error (if P.written then .parameterWritten else .parameterRead), s) := by
  obtain ⟨t, ht⟩ := Option.ne_none_iff_exists'.1 hask
  obtain ⟨_, f, _, hf⟩ := request_bind (env := env) hop ht
  rw [hf]
  have hl : P.children.lookup n = none := by
    cases h : P.children.lookup n with
    | none => rfl
    | some c =>
      exact absurd ⟨c, (child_key hi.tree hk hp n c).2 (lookup_mem h)⟩ ((infoAt_none hi.tree).1 hc)
  refine M.bind_error ?_
  rw [reach_existing hi.tree (pre := k.2) (ns := n :: ns) (by rw [hr]; exact hk) hn]
  exact walkParams_refused hp hl hread

/-- **C05**: a parameter that is not empty has no children, now or later. -/
theorem C05_no_children {env : Env K} {s : St K G} (hs : Reachable env s) {k : Key} {I : Info}
    (hI : infoAt env s k = some I) (he : I.empty = false) (ops : List (Op K G)) :
    ¬ HasChildren env (after env s ops) k := by
  have hi := hs.inv
  obtain ⟨p, P, h1, h2, rfl⟩ := (infoAt_some hi.tree).1 hI
  obtain ⟨P', g1, g2⟩ := after_pext ops hi p P h2
  have hi' := after_inv ops hi
  rw [not_hasChildren_iff hi'.tree (after_key hi ops h1) g1]
  exact ((hi'.good.params p P' g1).1 (g2.written (by simpa using he))).1

/-- **C05**: asking for anything below a parameter that is not empty raises
`ParameterWrittenError` and changes nothing. -/
theorem C05_child_refused {env : Env K} {s : St K G} (hs : Reachable env s) {op : Op K G}
    {name region : HName} {k : Key} {n : String} {ns : List String} {I : Info}
    (hop : request op = some (name, region)) (hask : asks op ≠ none)
    (hr : region.parts = k.1) (hn : name.parts = k.2 ++ n :: ns)
    (hI : infoAt env s k = some I) (he : I.empty = false) :
    call env op s = (.error .parameterWritten, s) := by
  have hi := hs.inv
  have hc := C05_no_children hs hI he []
  obtain ⟨p, P, h1, h2, rfl⟩ := (infoAt_some hi.tree).1 hI
  have hw : P.written = true := by simpa using he
  have := request_below hi (env := env) hop hask hr hn h1 h2
    ((hi.good.params p P h2).1 hw).2 (by
      by_contra h
      exact hc ⟨n, h⟩)
  rw [this, hw]; rfl

theorem tSet_ok {env : Env K} {s : St K G} (hi : Inv env s) {i : Nat} {a : Arr K}
    (h : result env s (.tSet i a) = .ok .done) : ∃ v P d, s.tviews[i]? = some v ∧
      s.params[v.leaf.param]? = some P ∧ P.children = [] ∧ a.length = v.leaf.ts.targetLength ∧
      newCache v.leaf.data a = .ok d ∧
      setValues i a s = writeT i (cached (marked s i v) i d) := by
  unfold result at h
  rw [tSet_eq] at h
  cases hv : s.tviews[i]? with
  | none =>
    have : setValues i a s = (.error .badHandle, s) := by
      unfold setValues; exact M.bind_error (checkWrite_none hv)
    rw [this] at h; simp [Except.map] at h
  | some v =>
    obtain ⟨P, hp, _⟩ := (hi.good.tviews i v hv).ex
    by_cases hc : P.children = []
    · by_cases hl : a.length = v.leaf.ts.targetLength
      · cases hd : newCache v.leaf.data a with
        | error e => rw [setValues_dtype hi hv hp hc hl hd] at h; simp [Except.map] at h
        | ok d => exact ⟨v, P, d, rfl, hp, hc, hl, hd, setValues_write hi hv hp hc hl hd⟩
      · rw [setValues_mismatch hi hv hp hc hl] at h; simp [Except.map] at h
    · rw [setValues_children hi hv hp hc] at h; simp [Except.map] at h

/-- **C05**: after an accepted assignment through a view its parameter is not empty. -/
theorem C05_assigned {env : Env K} {s : St K G} (hs : Reachable env s) {op : Op K G} {r : VRef}
    {k : Key} (hop : (∃ i x, op = .sSet i x ∧ r = .s i) ∨ (∃ i g, op = .gSet i g ∧ r = .g i) ∨
      ∃ i a, op = .tSet i a ∧ r = .t i)
    (hk : viewKey env s r = some k) (hok : result env s op = .ok .done) :
    ∃ I, infoAt env (after env s [op]) k = some I ∧ I.empty = false := by
  have hi := hs.inv
  have hi' := call_inv op hi
  obtain ⟨p, u, h1, h2⟩ := (viewKey_some hi).1 hk
  have h2' := h2.mono (call_pext op hi) (call_rext op hi)
  rw [after_one]
  suffices ∃ P, (call env op s).2.params[p]? = some P ∧ P.written = true by
    obtain ⟨P, g1, g2⟩ := this
    exact ⟨_, infoAt_of hi'.tree h2' g1, by simp [g2]⟩
  rcases hop with ⟨i, x, rfl, rfl⟩ | ⟨i, x, rfl, rfl⟩ | ⟨i, a, rfl, rfl⟩
  · obtain ⟨v, P, hv, hp, hc, hcall⟩ := sSet_ok hi hok
    simp only [viewTarget, hv, Option.map_some, Option.some.injEq, Prod.mk.injEq] at h1
    obtain ⟨rfl, rfl⟩ := h1
    rw [hcall]
    refine ⟨P.put (.scalar (x.map v.conv.convertTo)), ?_, rfl⟩
    show (s.setParam v.param _).params[v.param]? = _
    rw [setParam_self, hp]; rfl
  · unfold result at hok
    cases hv : s.gviews[i]? with
    | none => simp [viewTarget, hv] at h1
    | some v =>
      simp only [viewTarget, hv, Option.map_some, Option.some.injEq, Prod.mk.injEq] at h1
      obtain ⟨rfl, rfl⟩ := h1
      obtain ⟨P, hp, _⟩ := hi.good.gviews i v hv
      by_cases hc : P.children = []
      · rw [gSet_leaf hi hv hp hc]
        refine ⟨P.put (.generic (some x)), ?_, rfl⟩
        show (s.setParam v.param _).params[v.param]? = _
        rw [setParam_self, hp]; rfl
      · rw [gSet_children hi hv hp hc] at hok; simp at hok
  · obtain ⟨v, P, d, hv, hp, hc, _, _, hcall⟩ := tSet_ok hi hok
    simp only [viewTarget, hv, Option.map_some, Option.some.injEq, Prod.mk.injEq] at h1
    obtain ⟨rfl, rfl⟩ := h1
    rw [tSet_eq, hcall]
    have hm := marked_param (s := s) (i := i) hp
    have hw := writeT_cases (i := i) (cached_view (d := d) (marked_view hv)) rfl
      (P := { P with written := true }) hm
    cases hw' : writeT i (cached (marked s i v) i d) with
    | mk res s' =>
      rw [hw'] at hw
      cases hw with
      | locked h => exact ⟨_, hm, rfl⟩
      | refused h e he => exact ⟨_, hm, rfl⟩
      | stored h l he =>
        refine ⟨{ P with written := true, data := .series l, version := P.version + 1 }, ?_, rfl⟩
        show ((cached (marked s i v) i d).setParam v.leaf.param _).params[v.leaf.param]? = _
        rw [setParam_self]
        show ((marked s i v).params[v.leaf.param]?).map _ = _
        rw [hm]; rfl

/-- Hypotheses of C05 met, for a child two levels down and each kind of request. -/
example : let s := demoSt [.scalar (.seq ["T"]) "K" world, .sSet 0 (.num 1)]
    infoAt demoEnv s (["World"], ["T"]) = some ⟨["T"], ["World"], some .scalar, some "K", false, 1⟩ ∧
    result demoEnv s (.scalar (.str "T|a") "K" world) = .error .parameterWritten ∧
    result demoEnv s (.generic (.str "T|a|b") world) = .error .parameterWritten ∧
    result demoEnv s (points ["T", "a"] "K" [0, 1, 2]) = .error .parameterWritten ∧
    result demoEnv (demoSt [points ["T"] "K" [0, 1, 2], .tSet 0 (nums [1, 2, 3])])
      (.scalar (.str "T|a") "K" world) = .error .parameterWritten := by decide +kernel

/-- **C06**: once there is a view of a parameter, the set of its children is frozen. -/
theorem C06_children_frozen {env : Env K} {s : St K G} (hs : Reachable env s) {r : VRef} {k : Key}
    (hk : viewKey env s r = some k) (ops : List (Op K G)) (n : String) :
    infoAt env (after env s ops) (Key.child k n) = none ↔ infoAt env s (Key.child k n) = none := by
  have hi := hs.inv
  have hi' := after_inv ops hi
  obtain ⟨p, u, h1, h2⟩ := (viewKey_some hi).1 hk
  obtain ⟨P, hp, hread, _⟩ := viewTarget_param hi h1
  obtain ⟨P', hp', hle⟩ := after_pext ops hi p P hp
  rw [infoAt_none hi'.tree, infoAt_none hi.tree, not_iff_not]
  have e1 : ∀ c, HasKey s c (Key.child k n) ↔ (n, c) ∈ P.children := child_key hi.tree h2 hp n
  have e2 : ∀ c, HasKey (after env s ops) c (Key.child k n) ↔ (n, c) ∈ P'.children :=
    child_key hi'.tree (after_key hi ops h2) hp' n
  simp only [e1, e2, hle.frozen hread]

/-- **C06**: asking for a new child of a parameter that has a view raises `ParameterReadError`
(`ParameterWrittenError` if it is not empty) and changes nothing. -/
theorem C06_child_refused {env : Env K} {s : St K G} (hs : Reachable env s) {op : Op K G}
    {name region : HName} {k : Key} {n : String} {ns : List String} {r : VRef}
    (hop : request op = some (name, region)) (hask : asks op ≠ none)
    (hr : region.parts = k.1) (hn : name.parts = k.2 ++ n :: ns)
    (hk : viewKey env s r = some k) (hnew : infoAt env s (Key.child k n) = none) :
    ∃ I, infoAt env s k = some I ∧
      call env op s = (.error (if I.empty then .parameterRead else .parameterWritten), s) := by
  have hi := hs.inv
  obtain ⟨p, u, h1, h2⟩ := (viewKey_some hi).1 hk
  obtain ⟨P, hp, hread, _⟩ := viewTarget_param hi h1
  refine ⟨_, infoAt_of hi.tree h2 hp, ?_⟩
  rw [request_below hi hop hask hr hn h2 hp hread hnew]
  cases P.written <;> rfl

/-- Hypotheses of C06 met by a parameter with one child. -/
example : let s := demoSt [.scalar (.seq ["T", "a"]) "K" world, .scalar (.seq ["T"]) "K" world]
    viewKey demoEnv s (.s 1) = some (["World"], ["T"]) ∧
    infoAt demoEnv s (Key.child (["World"], ["T"]) "b") = none ∧
    infoAt demoEnv s (Key.child (["World"], ["T"]) "a") ≠ none ∧
    result demoEnv s (.scalar (.str "T|b|c") "K" world) = .error .parameterRead := by decide +kernel

/-! ## C07 -/

/-- **C07**: assigning through a scalar view of a parameter with children is refused, and changes
nothing at all. -/
theorem C07_scalar {env : Env K} {s : St K G} (hs : Reachable env s) {i : Nat} {k : Key}
    (hk : viewKey env s (.s i) = some k) (hc : HasChildren env s k) (x : Fl K) :
    call env (.sSet i x) s = (.error .parameterReadonly, s) := by
  have hi := hs.inv
  obtain ⟨p, u, h1, h2⟩ := (viewKey_some hi).1 hk
  simp only [viewTarget, Option.map_eq_some_iff, Prod.mk.injEq] at h1
  obtain ⟨v, hv, rfl, rfl⟩ := h1
  obtain ⟨P, _, hp, _⟩ := (hi.good.sviews i v hv).ex
  exact sSet_children hi hv hp ((hasChildren_iff hi.tree h2 hp).1 hc)

/-- **C07** for generic views (which a parameter with children has after a second request, see
C20). -/
theorem C07_generic {env : Env K} {s : St K G} (hs : Reachable env s) {i : Nat} {k : Key}
    (hk : viewKey env s (.g i) = some k) (hc : HasChildren env s k) (x : G) :
    call env (.gSet i x) s = (.error .parameterReadonly, s) := by
  have hi := hs.inv
  obtain ⟨p, u, h1, h2⟩ := (viewKey_some hi).1 hk
  simp only [viewTarget, Option.map_eq_some_iff, Prod.mk.injEq] at h1
  obtain ⟨v, hv, rfl, rfl⟩ := h1
  obtain ⟨P, hp, _⟩ := hi.good.gviews i v hv
  exact gSet_children hi hv hp ((hasChildren_iff hi.tree h2 hp).1 hc)

/-- **C07** for timeseries views, whatever the length of the array. -/
theorem C07_timeseries {env : Env K} {s : St K G} (hs : Reachable env s) {i : Nat} {k : Key}
    (hk : viewKey env s (.t i) = some k) (hc : HasChildren env s k) (a : Arr K) :
    call env (.tSet i a) s = (.error .parameterReadonly, s) := by
  have hi := hs.inv
  obtain ⟨p, u, h1, h2⟩ := (viewKey_some hi).1 hk
  simp only [viewTarget, Option.map_eq_some_iff, Prod.mk.injEq] at h1
  obtain ⟨v, hv, rfl, rfl⟩ := h1
  obtain ⟨P, hp, _⟩ := (hi.good.tviews i v hv).ex
  rw [tSet_eq, setValues_children hi hv hp ((hasChildren_iff hi.tree h2 hp).1 hc)]
  rfl

/-- Hypotheses of C07 met, for each kind of view. -/
example : let s := demoSt [.scalar (.seq ["T", "a"]) "K" world, .scalar (.seq ["T"]) "K" world,
      points ["U", "a"] "K" [0, 1, 2], points ["U"] "K" [0, 1, 2],
      .generic (.seq ["V", "a"]) world, .generic (.seq ["V"]) world, .generic (.seq ["V"]) world]
    viewKey demoEnv s (.s 1) = some (["World"], ["T"]) ∧
    infoAt demoEnv s (Key.child (["World"], ["T"]) "a") ≠ none ∧
    viewKey demoEnv s (.t 1) = some (["World"], ["U"]) ∧
    infoAt demoEnv s (Key.child (["World"], ["U"]) "a") ≠ none ∧
    viewKey demoEnv s (.g 1) = some (["World"], ["V"]) ∧
    infoAt demoEnv s (Key.child (["World"], ["V"]) "a") ≠ none := by decide +kernel

end Openscm
