import Verif.CoreProps6

/-!
# What a new view of a childless parameter shows

Helper file: it depends on the parameter only.
-/

set_option linter.unusedSectionVars false

namespace Openscm
variable {K G : Type} [Field K] [LinearOrder K] [IsStrictOrderedRing K]

/-- Reading a new view of the childless parameter `P`. -/
def freshOf (env : Env K) (P : Param K G) (w : String) (tps : List K) (ty : TyArg) (int : IntArg)
    (ext : ExtArg) : Except Err (Out K G) := do
  let t ← ty.parse
  let _ ← int.parse
  let x ← ext.parse
  if P.ptype ≠ some t then .error .parameterType
  else do
    let c ← mkConvOpt env.units P.unit w
    match P.tps with
    | none => .error .attributeError
    | some src => do
      let ts ← mkTSConv src tps t x
      if !P.written then .error .parameterEmpty
      else
        match P.data with
        | .series l => (ts.convertFrom (l.map (Fl.map c.convertFrom))).map (fun a => .arr (.floats a))
        | _ => .error .unmodelled

theorem freshRead_error {env : Env K} {s : St K G} {k : Key} {w : String} {tps : List K} {ty : TyArg}
    {int : IntArg} {ext : ExtArg} {e : Err}
    (h : (timeseriesCall env (.seq k.2) w tps (.seq k.1) ty int ext s).1 = .error e) :
    freshRead env s k w tps ty int ext = .error e := by
  unfold freshRead result
  have : (call env (.timeseries (.seq k.2) w tps (.seq k.1) ty int ext) s).1 = .error e := by
    show ((timeseriesCall env (.seq k.2) w tps (.seq k.1) ty int ext >>=
      fun i => pure (Out.view i : Out K G)) s).1 = _
    rw [M.bind_apply]
    cases hc : timeseriesCall env (.seq k.2) w tps (.seq k.1) ty int ext s with
    | mk r s' => rw [hc] at h; simp only at h; subst h; rfl
  simp only [this]

theorem freshRead_eq {env : Env K} {s : St K G} (hi : Inv env s) {q : Nat} {k : Key} {Q : Param K G}
    (hk : HasKey s q k) (hQ : s.params[q]? = some Q) (ht : Q.ptype ≠ none) (hc : Q.children = [])
    (w : String) (tps : List K) (ty : TyArg) (int : IntArg) (ext : ExtArg) :
    freshRead env s k w tps ty int ext = freshOf env Q w tps ty int ext := by
  have hr : reach (.seq k.2) (.seq k.1) s = (.ok q, s) :=
    reach_existing (ns := []) hi.tree hk (by simp [HName.parts])
  unfold freshOf
  cases h1 : ty.parse with
  | error e =>
    refine freshRead_error ?_
    unfold timeseriesCall; rw [h1]; rfl
  | ok t =>
  cases h2 : int.parse with
  | error e =>
    refine freshRead_error ?_
    unfold timeseriesCall; rw [h1, h2]; rfl
  | ok y =>
  cases h3 : ext.parse with
  | error e =>
    refine freshRead_error ?_
    unfold timeseriesCall; rw [h1, h2, h3]; rfl
  | ok x =>
  have hts : timeseriesCall env (.seq k.2) w tps (.seq k.1) ty int ext s
      = ((attemptRead q t (some w) (some tps) >>= fun _ =>
          M.value (fun s => mkTView env s q w tps t x) >>= addTView) : M K G Nat) s := by
    unfold timeseriesCall
    rw [h1, h2, h3]
    show (reach (.seq k.2) (.seq k.1) >>= fun p => attemptRead p t (some w) (some tps) >>= fun _ =>
      M.value (fun s => mkTView env s p w tps t x) >>= addTView) s = _
    rw [M.bind_ok hr]
  cases hp : Q.ptype with
  | none => exact absurd hp ht
  | some t' =>
  by_cases htt : t' = t
  · subst htt
    obtain ⟨s1, ha, hs1⟩ : ∃ s1, attemptRead q t' (some w) (some tps) s = (.ok (), s1) ∧
        s1.params[q]? = some { Q with readFrom := true } := by
      refine ⟨s.setParam q (fun P => { P with readFrom := true }), ?_, ?_⟩
      · unfold attemptRead; rw [hQ]; simp only [hp, ne_eq, not_true_eq_false, if_false]
      · rw [setParam_self, hQ]; rfl
    have hmk : ∀ e, mkTLeaf env s1 w tps t' x q = .error e →
        freshRead env s k w tps ty int ext = .error e := by
      intro e he
      refine freshRead_error ?_
      rw [hts, M.bind_ok ha, M.bind_apply, M.value_apply]
      unfold mkTView
      rw [hs1]
      simp only [he]
    have hleaf : ∀ s' : St K G, ∀ P', s'.params[q]? = some P' → P'.unit = Q.unit → P'.tps = Q.tps →
        mkTLeaf env s' w tps t' x q = (mkConvOpt env.units Q.unit w).bind fun c =>
          match Q.tps with
          | none => .error .attributeError
          | some src => (mkTSConv src tps t' x).map fun ts =>
              { param := q, conv := c, ts := ts, data := none, version := none } := by
      intro s' P' hP' hu htp
      unfold mkTLeaf
      rw [hP']
      simp only [hu, htp]
      cases mkConvOpt env.units Q.unit w with
      | error e => rfl
      | ok c =>
        simp only [Except.bind]
        cases Q.tps with
        | none => rfl
        | some src =>
          simp only
          cases mkTSConv src tps t' x <;> rfl
    have hl1 := hleaf s1 _ hs1 rfl rfl
    have hl := hleaf s _ hQ rfl rfl
    simp only [bind, Except.bind, ne_eq, not_true_eq_false, if_false]
    cases hcv : mkConvOpt env.units Q.unit w with
    | error e => exact hmk e (by rw [hl1, hcv]; rfl)
    | ok c =>
      simp only
      cases htp : Q.tps with
      | none => exact hmk _ (by rw [hl1, hcv, htp]; rfl)
      | some src =>
        simp only
        cases hcts : mkTSConv src tps t' x with
        | error e => exact hmk _ (by rw [hl1, hcv, htp]; simp only [Except.bind, hcts]; rfl)
        | ok ts =>
          rw [hcv, htp] at hl
          simp only [Except.bind, hcts, Except.map] at hl
          rw [fresh_leaf hi h1 h2 h3 hk hQ hp hc hl]
          unfold leafValues
          simp only [hQ, hc, ne_eq, not_true_eq_false, if_false]
          by_cases hw : Q.written = true
          · simp only [hw, Bool.not_true, Bool.false_eq_true, if_false]
            cases Q.data with
            | series l =>
              simp only
              cases ts.convertFrom (l.map (Fl.map c.convertFrom)) <;> rfl
            | _ => rfl
          · have hw : Q.written = false := by simpa using hw
            simp only [hw, Bool.not_false, if_true]
  · have : freshRead env s k w tps ty int ext = .error .parameterType := by
      refine freshRead_error ?_
      rw [hts]
      have : attemptRead q t (some w) (some tps) s = (.error .parameterType, s) := by
        unfold attemptRead; rw [hQ]; simp only [hp, ne_eq, htt, not_false_eq_true, if_true]
      rw [M.bind_error this]
    rw [this]
    simp only [bind, Except.bind, ne_eq, Option.some.injEq, htt, not_false_eq_true, if_true]

/-- Parameters with the same type, unit, time points and data show the same. -/
theorem freshOf_congr {env : Env K} {P Q : Param K G} (h1 : Q.ptype = P.ptype) (h2 : Q.unit = P.unit)
    (h3 : P.ptype = some .average ∨ P.ptype = some .point → Q.tps = P.tps) (h4 : Q.written = P.written)
    (h5 : Q.data = P.data) (w : String) (tps : List K) (ty : TyArg) (int : IntArg) (ext : ExtArg) :
    freshOf env Q w tps ty int ext = freshOf env P w tps ty int ext := by
  unfold freshOf
  rw [h1, h2, h4, h5]
  cases hp : ty.parse with
  | error e => rfl
  | ok t =>
    by_cases ht : P.ptype = some t
    · rw [h3 (by rcases tyArg_parse hp with rfl | rfl <;> simp [ht])]
    · simp only [bind, Except.bind, ne_eq, ht, not_false_eq_true, if_true]

/-- Time points are determined by a parameter whose data is known. -/
theorem tps_kept {P P' : Param K G} (h : PLe P P') (hg : PGood P) (hg' : PGood P')
    (hd : P'.data = P.data) (ht : P.ptype = some .average ∨ P.ptype = some .point) :
    P'.tps = P.tps := by
  cases htp : P.tps with
  | some t => exact h.tps t htp
  | none =>
    have h2 := hg.2
    have h3 := hg'.2
    rcases ht with ht | ht
    all_goals
      rw [ht] at h2
      rw [h.ptype _ ht] at h3
      rcases h2.2 with ⟨_, a⟩ | ⟨t, l, a, _⟩
      · rcases h3.2 with ⟨b, _⟩ | ⟨t, l, _, b, _⟩
        · exact b
        · rw [hd, a] at b; simp at b
      · rw [htp] at a; simp at a

end Openscm
