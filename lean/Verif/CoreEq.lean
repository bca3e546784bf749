import Verif.CoreNames

/-!
# What each call does, as equations

Helper file: in states satisfying the invariant every write either is refused or changes exactly
the parameter and the view written through.
-/

set_option linter.unusedSectionVars false

namespace Openscm
variable {K G : Type} [Field K] [LinearOrder K] [IsStrictOrderedRing K]

theorem modify_id {α : Type} {l : List α} {i : Nat} {f : α → α}
    (h : ∀ a, l[i]? = some a → f a = a) : l.modify i f = l := by
  apply List.ext_getElem?
  intro j
  by_cases hj : i = j
  · subst hj
    rw [getElem?_modify_self]
    cases hl : l[i]? with
    | none => rfl
    | some a => simp [h a hl]
  · rw [getElem?_modify_ne _ _ hj]

theorem setParam_id {s : St K G} {p : Nat} {P : Param K G} {f : Param K G → Param K G}
    (hp : s.params[p]? = some P) (hf : f P = P) : s.setParam p f = s := by
  unfold St.setParam
  rw [modify_id (fun a ha => by rw [hp] at ha; cases ha; exact hf)]

theorem setS_id {s : St K G} {i : Nat} {v : SView K} {f : SView K → SView K}
    (hp : s.sviews[i]? = some v) (hf : f v = v) : s.setS i f = s := by
  unfold St.setS
  rw [modify_id (fun a ha => by rw [hp] at ha; cases ha; exact hf)]

theorem setG_id {s : St K G} {i : Nat} {v : GView} {f : GView → GView}
    (hp : s.gviews[i]? = some v) (hf : f v = v) : s.setG i f = s := by
  unfold St.setG
  rw [modify_id (fun a ha => by rw [hp] at ha; cases ha; exact hf)]

theorem setT_id {s : St K G} {i : Nat} {v : TView K} {f : TView K → TView K}
    (hp : s.tviews[i]? = some v) (hf : f v = v) : s.setT i f = s := by
  unfold St.setT
  rw [modify_id (fun a ha => by rw [hp] at ha; cases ha; exact hf)]

theorem setParam_setParam {s : St K G} {p : Nat} {f g : Param K G → Param K G} :
    (s.setParam p f).setParam p g = s.setParam p (fun P => g (f P)) := by
  unfold St.setParam
  simp only
  congr 1
  apply List.ext_getElem?
  intro q
  by_cases hq : p = q
  · subst hq
    simp only [getElem?_modify_self, Option.map_map]; rfl
  · simp only [getElem?_modify_ne _ _ hq]

theorem setT_setT {s : St K G} {p : Nat} {f g : TView K → TView K} :
    (s.setT p f).setT p g = s.setT p (fun P => g (f P)) := by
  unfold St.setT
  simp only
  congr 1
  apply List.ext_getElem?
  intro q
  by_cases hq : p = q
  · subst hq
    simp only [getElem?_modify_self, Option.map_map]; rfl
  · simp only [getElem?_modify_ne _ _ hq]

/-! ## `attempt_read` and `attempt_write` on a parameter that has been viewed -/

theorem attemptRead_again {s : St K G} {p : Nat} {P : Param K G} {t : PType} {u : Option String}
    {tps : Option (List K)} (hp : s.params[p]? = some P) (ht : P.ptype = some t)
    (hr : P.readFrom = true) : attemptRead p t u tps s = (.ok (), s) := by
  unfold attemptRead
  simp only [hp, ht]
  rw [if_neg (by simp)]
  rw [setParam_id hp (by cases P; simp_all)]

theorem attemptWrite_children {s : St K G} {p : Nat} {P : Param K G} {t : PType}
    {u : Option String} {tps : Option (List K)} (hp : s.params[p]? = some P)
    (hc : P.children ≠ []) : attemptWrite p t u tps s = (.error .parameterReadonly, s) := by
  unfold attemptWrite
  have : getParam p s = (.ok P, s) := look_some hp
  rw [M.bind_ok this, if_pos hc]; rfl

theorem attemptWrite_leaf {s : St K G} {p : Nat} {P : Param K G} {t : PType}
    {u : Option String} {tps : Option (List K)} (hp : s.params[p]? = some P)
    (hc : P.children = []) (ht : P.ptype = some t) (hr : P.readFrom = true) :
    attemptWrite p t u tps s = (.ok (), s.setParam p (fun P => { P with written := true })) := by
  unfold attemptWrite
  have : getParam p s = (.ok P, s) := look_some hp
  rw [M.bind_ok this, if_neg (by simpa using hc), M.bind_ok (attemptRead_again hp ht hr)]; rfl

/-! ## Scalar writes -/

/-- A parameter after a successful write of `d`. -/
def Param.put (P : Param K G) (d : Data K G) : Param K G :=
  { P with written := true, data := d, version := P.version + 1 }

/-- The state after a successful scalar assignment. -/
def wroteS (s : St K G) (i : Nat) (v : SView K) (x : Fl K) : St K G :=
  (s.setParam v.param (fun P => P.put (.scalar (x.map v.conv.convertTo)))).setS i
    (fun v => { v with writable := true })

theorem sSet_children {env : Env K} {s : St K G} {i : Nat} {v : SView K} {P : Param K G} {x : Fl K}
    (hi : Inv env s) (hv : s.sviews[i]? = some v) (hp : s.params[v.param]? = some P)
    (hc : P.children ≠ []) : call env (.sSet i x) s = (.error .parameterReadonly, s) := by
  obtain ⟨Q, u, a1, a2, a3, a4, a5, a6, a7, a8⟩ := (hi.good.sviews i v hv).ex
  rw [hp] at a1; cases a1
  have hw : ¬ v.writable = true := fun h => hc ((hi.good.params _ P hp).1 (a6 h)).1
  show (setScalar i x >>= fun _ => pure Out.done) s = _
  refine M.bind_error ?_
  unfold setScalar
  have e1 : M.look (fun s : St K G => s.sviews[i]?) s = (.ok v, s) := look_some hv
  rw [M.bind_ok e1, checkWriteS_neg i v hw]
  refine M.bind_error ?_
  exact M.bind_error (attemptWrite_children hp hc)

theorem sSet_leaf {env : Env K} {s : St K G} {i : Nat} {v : SView K} {P : Param K G} {x : Fl K}
    (hi : Inv env s) (hv : s.sviews[i]? = some v) (hp : s.params[v.param]? = some P)
    (hc : P.children = []) : call env (.sSet i x) s = (.ok .done, wroteS s i v x) := by
  obtain ⟨Q, u, a1, a2, a3, a4, a5, a6, a7, a8⟩ := (hi.good.sviews i v hv).ex
  rw [hp] at a1; cases a1
  show (setScalar i x >>= fun _ => pure Out.done) s = _
  have key : setScalar i x s = (.ok (), wroteS s i v x) := by
    unfold setScalar
    have e1 : M.look (fun s : St K G => s.sviews[i]?) s = (.ok v, s) := look_some hv
    rw [M.bind_ok e1]
    by_cases hw : v.writable = true
    · rw [checkWriteS_pos i v hw]
      have hwr := a6 hw
      show ((Except.ok () : Except Err Unit), s.setParam v.param _) = _
      unfold wroteS
      rw [setS_id (s := s.setParam _ _) hv (by cases v; simp_all)]
      congr 1
      unfold St.setParam
      congr 1
      apply List.ext_getElem?
      intro q
      by_cases hq : v.param = q
      · subst hq; simp only [getElem?_modify_self, hp, Option.map_some, hwr, Param.put]
      · simp only [getElem?_modify_ne _ _ hq]
    · rw [checkWriteS_neg i v hw]
      have e2 : (attemptWrite v.param .scalar (some v.conv.target) none >>= fun _ =>
          updSView i (fun v => { v with writable := true })) s
          = (.ok (), (s.setParam v.param (fun P => { P with written := true })).setS i
              (fun v => { v with writable := true })) := by
        rw [M.bind_ok (attemptWrite_leaf hp hc a2 a3)]; rfl
      rw [M.bind_ok e2]
      show ((Except.ok () : Except Err Unit), (((s.setParam v.param _).setS i _).setParam v.param _)) = _
      have : ∀ (f g : Param K G → Param K G) (h : SView K → SView K),
          ((s.setParam v.param f).setS i h).setParam v.param g
            = ((s.setParam v.param f).setParam v.param g).setS i h := fun _ _ _ => rfl
      rw [this, setParam_setParam]; rfl
  rw [M.bind_ok key]; rfl

theorem sSet_none {env : Env K} {s : St K G} {i : Nat} {x : Fl K} (hv : s.sviews[i]? = none) :
    call env (.sSet i x) s = (.error .badHandle, s) := by
  show (setScalar i x >>= fun _ => pure Out.done) s = _
  refine M.bind_error ?_
  unfold setScalar
  exact M.bind_error (look_none hv)

theorem sGet_eq {env : Env K} {s : St K G} {i : Nat} {v : SView K} (hv : s.sviews[i]? = some v) :
    call env (.sGet i) s = ((scalarValue s v).map Out.num, s) := by
  show (M.look (fun s : St K G => s.sviews[i]?) >>= _) s = _
  have e1 : M.look (fun s : St K G => s.sviews[i]?) s = (.ok v, s) := look_some hv
  rw [M.bind_ok e1, M.bind_apply, M.value_apply]
  cases scalarValue s v <;> rfl

/-! ## Generic writes -/

/-- The state after a successful generic assignment. -/
def wroteG (s : St K G) (i : Nat) (v : GView) (g : G) : St K G :=
  (s.setParam v.param (fun P => P.put (.generic (some g)))).setG i
    (fun v => { v with writable := true })

theorem checkWriteG_pos' (i : Nat) (v : GView) (hw : v.writable = true) :
    (checkWriteG i v : M K G Unit) = Pure.pure () := by
  unfold checkWriteG; rw [if_pos hw]

theorem checkWriteG_neg' (i : Nat) (v : GView) (hw : ¬ v.writable = true) :
    (checkWriteG i v : M K G Unit) = (attemptWrite v.param .generic none none >>= fun _ =>
      updGView i (fun v => { v with writable := true })) := by
  unfold checkWriteG; rw [if_neg hw]

theorem gSet_children {env : Env K} {s : St K G} {i : Nat} {v : GView} {P : Param K G} {x : G}
    (hi : Inv env s) (hv : s.gviews[i]? = some v) (hp : s.params[v.param]? = some P)
    (hc : P.children ≠ []) : call env (.gSet i x) s = (.error .parameterReadonly, s) := by
  obtain ⟨Q, a1, a2, a3, a6⟩ := hi.good.gviews i v hv
  rw [hp] at a1; cases a1
  have hw : ¬ v.writable = true := fun h => hc ((hi.good.params _ P hp).1 (a6 h)).1
  show (setGeneric i x >>= fun _ => pure Out.done) s = _
  refine M.bind_error ?_
  unfold setGeneric
  have e1 : M.look (fun s : St K G => s.gviews[i]?) s = (.ok v, s) := look_some hv
  rw [M.bind_ok e1, checkWriteG_neg' i v hw]
  refine M.bind_error ?_
  exact M.bind_error (attemptWrite_children hp hc)

theorem gSet_leaf {env : Env K} {s : St K G} {i : Nat} {v : GView} {P : Param K G} {x : G}
    (hi : Inv env s) (hv : s.gviews[i]? = some v) (hp : s.params[v.param]? = some P)
    (hc : P.children = []) : call env (.gSet i x) s = (.ok .done, wroteG s i v x) := by
  obtain ⟨Q, a1, a2, a3, a6⟩ := hi.good.gviews i v hv
  rw [hp] at a1; cases a1
  show (setGeneric i x >>= fun _ => pure Out.done) s = _
  have key : setGeneric i x s = (.ok (), wroteG s i v x) := by
    unfold setGeneric
    have e1 : M.look (fun s : St K G => s.gviews[i]?) s = (.ok v, s) := look_some hv
    rw [M.bind_ok e1]
    by_cases hw : v.writable = true
    · rw [checkWriteG_pos' i v hw]
      have hwr := a6 hw
      show ((Except.ok () : Except Err Unit), s.setParam v.param _) = _
      unfold wroteG
      rw [setG_id (s := s.setParam _ _) hv (by cases v; simp_all)]
      congr 1
      unfold St.setParam
      congr 1
      apply List.ext_getElem?
      intro q
      by_cases hq : v.param = q
      · subst hq; simp only [getElem?_modify_self, hp, Option.map_some, hwr, Param.put]
      · simp only [getElem?_modify_ne _ _ hq]
    · rw [checkWriteG_neg' i v hw]
      have e2 : (attemptWrite v.param .generic none none >>= fun _ =>
          updGView i (fun v => { v with writable := true })) s
          = (.ok (), (s.setParam v.param (fun P => { P with written := true })).setG i
              (fun v => { v with writable := true })) := by
        rw [M.bind_ok (attemptWrite_leaf hp hc a2 a3)]; rfl
      rw [M.bind_ok e2]
      show ((Except.ok () : Except Err Unit), (((s.setParam v.param _).setG i _).setParam v.param _)) = _
      have : ∀ (f g : Param K G → Param K G) (h : GView → GView),
          ((s.setParam v.param f).setG i h).setParam v.param g
            = ((s.setParam v.param f).setParam v.param g).setG i h := fun _ _ _ => rfl
      rw [this, setParam_setParam]; rfl
  rw [M.bind_ok key]; rfl

theorem gSet_none {env : Env K} {s : St K G} {i : Nat} {x : G} (hv : s.gviews[i]? = none) :
    call env (.gSet i x) s = (.error .badHandle, s) := by
  show (setGeneric i x >>= fun _ => pure Out.done) s = _
  refine M.bind_error ?_
  unfold setGeneric
  exact M.bind_error (look_none hv)

theorem gGet_eq {env : Env K} {s : St K G} {i : Nat} {v : GView} (hv : s.gviews[i]? = some v) :
    call env (.gGet i) s = ((genericValue s v).map Out.gen, s) := by
  show (M.look (fun s : St K G => s.gviews[i]?) >>= _) s = _
  have e1 : M.look (fun s : St K G => s.gviews[i]?) s = (.ok v, s) := look_some hv
  rw [M.bind_ok e1, M.bind_apply, M.value_apply]
  cases genericValue s v <;> rfl

/-! ## Timeseries writes -/

/-- The state after the write check of a timeseries view. -/
def marked (s : St K G) (i : Nat) (v : TView K) : St K G :=
  (s.setParam v.leaf.param (fun P => { P with written := true })).setT i
    (fun v => { v with writable := true })

theorem checkWrite_children {env : Env K} {s : St K G} {i : Nat} {v : TView K} {P : Param K G}
    (hi : Inv env s) (hv : s.tviews[i]? = some v) (hp : s.params[v.leaf.param]? = some P)
    (hc : P.children ≠ []) : checkWrite i s = (.error .parameterReadonly, s) := by
  obtain ⟨Q, a1, a2, a3, a6, _⟩ := (hi.good.tviews i v hv).ex
  rw [hp] at a1; cases a1
  have hw : v.writable = false := by
    cases h : v.writable with
    | false => rfl
    | true => exact absurd ((hi.good.params _ P hp).1 (a6 h)).1 hc
  rw [checkWrite_fresh hv hw]
  exact M.bind_error (attemptWrite_children hp hc)

theorem checkWrite_leaf {env : Env K} {s : St K G} {i : Nat} {v : TView K} {P : Param K G}
    (hi : Inv env s) (hv : s.tviews[i]? = some v) (hp : s.params[v.leaf.param]? = some P)
    (hc : P.children = []) : checkWrite i s = (.ok (), marked s i v) := by
  obtain ⟨Q, a1, a2, a3, a6, _⟩ := (hi.good.tviews i v hv).ex
  rw [hp] at a1; cases a1
  cases hw : v.writable with
  | true =>
    rw [checkWrite_writable hv hw]
    unfold marked
    have hwr := a6 hw
    rw [setParam_id hp (by cases P; simp_all), setT_id hv (by cases v; simp_all)]
  | false =>
    rw [checkWrite_fresh hv hw, M.bind_ok (attemptWrite_leaf hp hc a2 a3)]; rfl

/-- `tSet` in steps. -/
theorem setValues_children {env : Env K} {s : St K G} {i : Nat} {v : TView K} {P : Param K G}
    {a : Arr K} (hi : Inv env s) (hv : s.tviews[i]? = some v)
    (hp : s.params[v.leaf.param]? = some P) (hc : P.children ≠ []) :
    setValues i a s = (.error .parameterReadonly, s) := by
  unfold setValues
  exact M.bind_error (checkWrite_children hi hv hp hc)

theorem marked_view {s : St K G} {i : Nat} {v : TView K} (hv : s.tviews[i]? = some v) :
    (marked s i v).tviews[i]? = some { v with writable := true } := by
  unfold marked
  rw [setT_self]
  show (s.tviews[i]?).map _ = _
  rw [hv]; rfl

theorem setValues_mismatch {env : Env K} {s : St K G} {i : Nat} {v : TView K} {P : Param K G}
    {a : Arr K} (hi : Inv env s) (hv : s.tviews[i]? = some v)
    (hp : s.params[v.leaf.param]? = some P) (hc : P.children = [])
    (ha : a.length ≠ v.leaf.ts.targetLength) :
    setValues i a s = (.error .pointsValuesMismatch, marked s i v) := by
  unfold setValues
  rw [M.bind_ok (checkWrite_leaf hi hv hp hc)]
  have e1 : M.look (fun s : St K G => s.tviews[i]?) (marked s i v)
      = (.ok { v with writable := true }, marked s i v) := look_some (marked_view hv)
  rw [M.bind_ok e1, if_pos ha]; rfl

theorem setValues_dtype {env : Env K} {s : St K G} {i : Nat} {v : TView K} {P : Param K G}
    {a : Arr K} {e : Err} (hi : Inv env s) (hv : s.tviews[i]? = some v)
    (hp : s.params[v.leaf.param]? = some P) (hc : P.children = [])
    (ha : a.length = v.leaf.ts.targetLength) (hd : newCache v.leaf.data a = .error e) :
    setValues i a s = (.error e, marked s i v) := by
  unfold setValues
  rw [M.bind_ok (checkWrite_leaf hi hv hp hc)]
  have e1 : M.look (fun s : St K G => s.tviews[i]?) (marked s i v)
      = (.ok { v with writable := true }, marked s i v) := look_some (marked_view hv)
  rw [M.bind_ok e1, if_neg (by simpa using ha)]
  refine M.bind_error ?_
  simp only [hd]; rfl

/-- The state with array `d` in the cache of view `i`. -/
def cached (s : St K G) (i : Nat) (d : Arr K) : St K G :=
  s.setT i (fun v => { v with leaf := { v.leaf with data := some d } })

theorem setValues_write {env : Env K} {s : St K G} {i : Nat} {v : TView K} {P : Param K G}
    {a d : Arr K} (hi : Inv env s) (hv : s.tviews[i]? = some v)
    (hp : s.params[v.leaf.param]? = some P) (hc : P.children = [])
    (ha : a.length = v.leaf.ts.targetLength) (hd : newCache v.leaf.data a = .ok d) :
    setValues i a s = writeT i (cached (marked s i v) i d) := by
  unfold setValues
  rw [M.bind_ok (checkWrite_leaf hi hv hp hc)]
  have e1 : M.look (fun s : St K G => s.tviews[i]?) (marked s i v)
      = (.ok { v with writable := true }, marked s i v) := look_some (marked_view hv)
  rw [M.bind_ok e1, if_neg (by simpa using ha)]
  have e2 : (M.ofExcept (newCache v.leaf.data a) : M K G (Arr K)) (marked s i v)
      = (.ok d, marked s i v) := by rw [hd]; rfl
  rw [M.bind_ok e2]; rfl

theorem cached_view {s : St K G} {i : Nat} {v : TView K} {d : Arr K}
    (hv : s.tviews[i]? = some v) :
    (cached s i d).tviews[i]? = some { v with leaf := { v.leaf with data := some d } } := by
  unfold cached
  rw [setT_self, hv]; rfl

theorem marked_param {s : St K G} {i : Nat} {v : TView K} {P : Param K G}
    (hp : s.params[v.leaf.param]? = some P) :
    (marked s i v).params[v.leaf.param]? = some { P with written := true } := by
  show (s.setParam v.leaf.param _).params[v.leaf.param]? = _
  rw [setParam_self, hp]; rfl

/-- The two outcomes of writing back the cache. -/
inductive WroteBack (s : St K G) (i : Nat) (v : TView K) (P : Param K G) (d : Arr K) :
    Except Err Unit × St K G → Prop
  | locked (h : v.locked = true) : WroteBack s i v P d (.ok (), s)
  | refused (h : v.locked = false) (e : Err) (he : published v d = .error e) :
      WroteBack s i v P d (.error e, s)
  | stored (h : v.locked = false) (l : List (Fl K)) (he : published v d = .ok l) :
      WroteBack s i v P d (.ok (), storedT s i v P l)

theorem writeT_cases {s : St K G} {i : Nat} {v : TView K} {P : Param K G} {d : Arr K}
    (hv : s.tviews[i]? = some v) (hd : v.leaf.data = some d)
    (hp : s.params[v.leaf.param]? = some P) : WroteBack s i v P d (writeT i s) := by
  cases hl : v.locked with
  | true => rw [writeT_locked hv hl]; exact .locked hl
  | false =>
    cases he : published v d with
    | error e => rw [writeT_error hv hl hd he]; exact .refused hl e he
    | ok l => rw [writeT_ok hv hl hd he hp]; exact .stored hl l he

theorem tSet_eq {env : Env K} {i : Nat} {a : Arr K} (s : St K G) :
    call env (.tSet i a) s = ((setValues i a s).1.map (fun _ => Out.done), (setValues i a s).2) := by
  show (setValues i a >>= fun _ => pure Out.done) s = _
  rw [M.bind_apply]
  cases h : setValues i a s with
  | mk r s' => cases r <;> rfl

end Openscm
