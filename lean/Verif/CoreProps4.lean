import Verif.CoreProps3

/-!
# C16: lookup finds exactly what was created
-/

set_option linter.unusedSectionVars false

namespace Openscm
variable {K G : Type} [Field K] [LinearOrder K] [IsStrictOrderedRing K]

/-- Exceptions other than the refusal to create a child. -/
def Late (e : Err) : Prop := e ≠ .parameterWritten ∧ e ≠ .parameterRead

theorem mkConvOpt_late {reg : Registry K} {u : Option String} {t : String} {e : Err}
    (h : mkConvOpt reg u t = .error e) : Late e := by
  unfold Late
  cases u with
  | none => simp only [mkConvOpt, Except.error.injEq] at h; subst h; simp
  | some w =>
    simp only [mkConvOpt] at h
    unfold mkConv at h
    repeat' split at h
    all_goals simp only [Except.error.injEq, reduceCtorEq] at h
    all_goals subst h; simp

theorem mapLeaves_late {α β : Type} {f : α → Except Err β} (hf : ∀ x e, f x = .error e → Late e)
    {xs : List α} {e : Err} (h : mapLeaves f xs = .error e) : Late e := by
  induction xs with
  | nil => simp [mapLeaves] at h
  | cons x xs ih =>
    simp only [mapLeaves] at h
    split at h
    · rename_i e' he; injection h with h; subst h; exact hf x _ he
    · split at h
      · rename_i e' he; injection h with h; subst h; exact ih he
      · simp at h

theorem mkSView_late {env : Env K} {s : St K G} {p : Nat} {u : String} {e : Err}
    (h : mkSView env s p u = .error e) : Late e := by
  unfold mkSView at h
  split at h
  · injection h with h; subst h; simp [Late]
  · split at h
    · rename_i e' he; injection h with h; subst h; exact mkConvOpt_late he
    · split at h
      · simp at h
      · split at h
        · rename_i e' he
          injection h with h; subst h
          refine mapLeaves_late (fun q e hq => ?_) he
          unfold leafConv at hq
          split at hq
          · injection hq with hq; subst hq; simp [Late]
          · split at hq
            · rename_i e' he; injection hq with hq; subst hq; exact mkConvOpt_late he
            · simp at hq
        · simp at h

theorem mkTSConv_late {src tgt : List K} {ty : PType} {ext : Extrap} {e : Err}
    (h : mkTSConv src tgt ty ext = .error e) : Late e := by
  unfold Late
  unfold mkTSConv at h
  repeat' split at h
  all_goals simp only [Except.error.injEq, reduceCtorEq] at h
  all_goals subst h; simp

theorem mkTLeaf_late {env : Env K} {s : St K G} {u : String} {tps : List K} {ty : PType}
    {ext : Extrap} {p : Nat} {e : Err} (h : mkTLeaf env s u tps ty ext p = .error e) : Late e := by
  unfold mkTLeaf at h
  split at h
  · injection h with h; subst h; simp [Late]
  · split at h
    · rename_i e' he; injection h with h; subst h; exact mkConvOpt_late he
    · split at h
      · injection h with h; subst h; simp [Late]
      · split at h
        · rename_i e' he; injection h with h; subst h; exact mkTSConv_late he
        · simp at h

theorem mkTView_late {env : Env K} {s : St K G} {p : Nat} {u : String} {tps : List K} {ty : PType}
    {ext : Extrap} {e : Err} (h : mkTView env s p u tps ty ext = .error e) : Late e := by
  unfold mkTView at h
  split at h
  · injection h with h; subst h; simp [Late]
  · split at h
    · rename_i e' he; injection h with h; subst h; exact mkTLeaf_late he
    · split at h
      · simp at h
      · split at h
        · rename_i e' he
          injection h with h; subst h
          exact mapLeaves_late (fun q e hq => mkTLeaf_late hq) he
        · simp at h

theorem firstRead_late {P P' : Param K G} {t : PType} {u : Option String} {tps : Option (List K)}
    {e : Err} (h : firstRead P t u tps = (P', some e)) : Late e := by
  unfold Late
  unfold firstRead at h
  cases t <;> simp only at h
  · simp at h
  · split at h <;> simp only [Prod.mk.injEq, Option.some.injEq, reduceCtorEq, and_false] at h
    all_goals obtain ⟨_, rfl⟩ := h; simp
  · split at h <;> simp only [Prod.mk.injEq, Option.some.injEq, reduceCtorEq, and_false] at h
    all_goals obtain ⟨_, rfl⟩ := h; simp
  · split at h <;> simp only [Prod.mk.injEq, Option.some.injEq, reduceCtorEq, and_false] at h
    all_goals obtain ⟨_, rfl⟩ := h; simp

theorem attemptRead_late {p : Nat} {t : PType} {u : Option String} {tps : Option (List K)}
    {s : St K G} {e : Err} (h : (attemptRead p t u tps s).1 = .error e) : Late e := by
  unfold attemptRead at h
  split at h
  · simp only [Except.error.injEq] at h; subst h; simp [Late]
  · split at h
    · split at h
      · simp only [Except.error.injEq] at h; subst h; simp [Late]
      · simp at h
    · split at h
      · rename_i P' e' hf
        simp only [Except.error.injEq] at h; subst h; exact firstRead_late hf
      · simp at h

/-- A computation that does not fail with a refusal to create a child. -/
def LateM {α : Type} (m : M K G α) : Prop := ∀ s e, (m s).1 = .error e → Late e

theorem LateM.bind {α β : Type} {m : M K G α} {f : α → M K G β} (h : LateM m)
    (h' : ∀ a, LateM (f a)) : LateM (m >>= f) := by
  intro s e he
  rw [M.bind_apply] at he
  cases hm : m s with
  | mk r s' =>
    rw [hm] at he
    cases r with
    | error e' =>
      simp only [Except.error.injEq] at he; subst he
      exact h s e' (by rw [hm])
    | ok a => exact h' a s' e he

/-- Requests: first the names are resolved, then nothing refuses to create children any more and
no parameter is created. -/
theorem request_late {env : Env K} {op : Op K G} {name region : HName}
    (h : request op = some (name, region)) (ht : asks op ≠ none) :
    ∃ g : Nat → M K G (Out K G), (∀ p, LateM (g p)) ∧
      ∀ s, call env op s = (reach name region >>= g) s := by
  have hread : ∀ p t u tps, LateM (attemptRead p t u tps : M K G Unit) :=
    fun p t u tps s e he => attemptRead_late he
  have hval : ∀ {α : Type} (f : St K G → Except Err α), (∀ s e, f s = .error e → Late e) →
      LateM (M.value f) := by
    intro α f hf s e he
    rw [M.value_apply] at he
    exact hf s e he
  have assoc' : ∀ {α β γ : Type} (m : M K G α) (f : α → M K G β) (g : β → M K G γ),
      ((m >>= f) >>= g) = (m >>= fun a => f a >>= g) := by
    intro α β γ m f g; funext s
    rw [M.bind_apply, M.bind_apply, M.bind_apply]
    cases m s with
    | mk r s' => cases r <;> rfl
  cases op <;> simp only [request, Option.some.injEq, reduceCtorEq, Prod.mk.injEq] at h
  case scalar n u r =>
    obtain ⟨rfl, rfl⟩ := h
    refine ⟨fun p => attemptRead p .scalar (some u) none >>= fun _ =>
      M.value (fun s => mkSView env s p u) >>= fun v =>
      addSView v >>= fun i => (pure (Out.view i : Out K G) : M K G _), fun p => ?_, fun s => ?_⟩
    · refine (hread p _ _ _).bind (fun _ => (hval _ (fun s e he => mkSView_late he)).bind (fun v => ?_))
      intro s e he; simp [addSView, M.bind_apply] at he
    · show (scalarCall env n u r >>= fun i => pure (Out.view i : Out K G)) s = _
      unfold scalarCall
      simp only [assoc']
  case generic n r =>
    obtain ⟨rfl, rfl⟩ := h
    refine ⟨fun p => attemptRead p .generic none none >>= fun _ =>
      addGView { param := p, writable := false } >>= fun i =>
      (pure (Out.view i : Out K G) : M K G _), fun p => ?_, fun s => ?_⟩
    · refine (hread p _ _ _).bind (fun _ => ?_)
      intro s e he; simp [addGView, M.bind_apply] at he
    · show (genericCall n r >>= fun i => pure (Out.view i : Out K G)) s = _
      unfold genericCall
      simp only [assoc']
  case timeseries n u tps r ty int ext =>
    obtain ⟨rfl, rfl⟩ := h
    simp only [asks] at ht
    cases h1 : ty.parse with
    | error e => simp [h1] at ht
    | ok ty' =>
      cases h2 : int.parse with
      | error e => simp [h1, h2] at ht
      | ok int' =>
        cases h3 : ext.parse with
        | error e => simp [h1, h2, h3] at ht
        | ok ext' =>
          refine ⟨fun p => attemptRead p ty' (some u) (some tps) >>= fun _ =>
            M.value (fun s => mkTView env s p u tps ty' ext') >>= fun v =>
            addTView v >>= fun i => (pure (Out.view i : Out K G) : M K G _), fun p => ?_, fun s => ?_⟩
          · refine (hread p _ _ _).bind
              (fun _ => (hval _ (fun s e he => mkTView_late he)).bind (fun v => ?_))
            intro s e he; simp [addTView, M.bind_apply] at he
          · show (timeseriesCall env n u tps r ty int ext >>= fun i => pure (Out.view i : Out K G)) s = _
            unfold timeseriesCall
            rw [h1, h2, h3]
            simp only [assoc']
            rfl

/-- A request with an unknown type, interpolation or extrapolation does nothing. -/
theorem request_unparsed {env : Env K} {op : Op K G} {nr : HName × HName}
    (h : request op = some nr) (ht : asks op = none) (s : St K G) : (call env op s).2 = s := by
  cases op <;> simp only [request, Option.some.injEq, reduceCtorEq] at h
  case scalar => simp [asks] at ht
  case generic => simp [asks] at ht
  case timeseries n u tps r ty int ext =>
    simp only [asks] at ht
    show ((timeseriesCall env n u tps r ty int ext >>= fun i => pure (Out.view i : Out K G)) s).2 = _
    have e : ∃ e, timeseriesCall env n u tps r ty int ext s = (.error e, s) := by
      unfold timeseriesCall
      cases h1 : ty.parse with
      | error e => exact ⟨e, rfl⟩
      | ok ty' =>
        cases h2 : int.parse with
        | error e => exact ⟨e, rfl⟩
        | ok int' =>
          cases h3 : ext.parse with
          | error e => exact ⟨e, rfl⟩
          | ok ext' => simp [h1, h2, h3] at ht
    obtain ⟨e, he⟩ := e
    rw [M.bind_error he]

/-- The request `op`, made in state `s`, asks for parameter `k` or for one below it: a well-formed
request below the root region, not refused because a parameter on the way cannot get children. -/
def Creates (env : Env K) (root : String) (s : St K G) (op : Op K G) (k : Key) : Prop :=
  ∃ name region, request op = some (name, region) ∧ asks op ≠ none ∧
    refusedWith .parameterWritten (result env s op) = false ∧
    refusedWith .parameterRead (result env s op) = false ∧
    region.parts.head? = some root ∧ region.parts = k.1 ∧ k.2 <+: name.parts ∧ k.2 ≠ []

theorem rootName_ext {s s' : St K G} (t : Tree s) (h : RExt s s') : rootName s' = rootName s := by
  obtain ⟨R, h1, _⟩ := t.root
  obtain ⟨R', h2, h3, _⟩ := h 0 R h1
  unfold rootName
  rw [h1, h2]; simp [h3]

theorem refusedWith_false {e : Err} {r : Res K G} : refusedWith e r = false ↔ r ≠ .error e := by
  cases r with
  | ok o => simp [refusedWith]
  | error e' => simp [refusedWith]

/-- One call creates exactly what it asks for. -/
theorem call_creates {env : Env K} {s : St K G} (hi : Inv env s) (op : Op K G) (k : Key) :
    (∃ q, HasKey (call env op s).2 q k) ↔
      (∃ q, HasKey s q k) ∨ Creates env (rootName s) s op k := by
  constructor
  · rintro ⟨q, hq⟩
    cases hsq : s.params[q]? with
    | some Q =>
      left
      obtain ⟨k', hk'⟩ := HasKey.exists hi.tree hsq
      have := hk'.mono (call_pext op hi) (call_rext op hi)
      rw [hq.det this]; exact ⟨q, hk'⟩
    | none =>
      right
      cases hc : callee op with
      | some r =>
        exfalso
        obtain ⟨Q, hQ, _⟩ := hq
        rcases call_frame hi hc with ⟨p, u, h1, h2⟩ | ⟨_, h2⟩
        · obtain ⟨P, hP, _⟩ := viewTarget_param hi h1
          obtain ⟨Q', hQ'⟩ := h2.exists ⟨P, hP⟩ hQ
          rw [hsq] at hQ'; simp at hQ'
        · rw [h2, hsq] at hQ; simp at hQ
      | none =>
        rcases callee_none hc with ⟨⟨name, region⟩, hreq⟩ | hl
        · cases ha : asks op with
          | none =>
            exfalso
            obtain ⟨Q, hQ, _⟩ := hq
            rw [request_unparsed hreq ha, hsq] at hQ; simp at hQ
          | some t =>
            obtain ⟨g, hg, hcall⟩ := request_late (env := env) hreq (by rw [ha]; simp)
            obtain ⟨_, f, hf1, hf2⟩ := request_bind (env := env) hreq ha
            have hsp := reach_spec hi name region
            have hcall := hcall s
            have hf2 := hf2 s
            cases hr : reach name region s with
            | mk r s1 =>
              rw [hr] at hsp
              cases r with
              | error e =>
                exfalso
                rw [M.bind_error hr] at hcall
                obtain ⟨Q, hQ, _⟩ := hq
                rw [hcall] at hQ
                have : s1.params = s.params := by
                  rcases hsp with ⟨_, _, h⟩ | ⟨_, _, ⟨_, h⟩ | ⟨p, h, _⟩⟩
                  · exact h
                  · exact h
                  · simp at h
                simp only at hQ
                rw [this, hsq] at hQ; simp at hQ
              | ok p =>
                rw [M.bind_ok hr] at hcall hf2
                have late : ∀ e, (call env op s).1 = .error e → Late e := by
                  intro e he; rw [hcall] at he; exact hg p s1 e he
                rcases hsp with ⟨_, h, _⟩ | ⟨hroot, hne, ⟨h, _⟩ | ⟨p', h1, h2, h3⟩⟩
                · simp at h
                · simp at h
                · simp only [Except.ok.injEq] at h1; subst h1
                  simp only at h2 h3
                  -- the key of `q` was already there when the names were resolved
                  have hq1 : HasKey s1 q k := by
                    have hi1 : Inv env s1 := by
                      have := (quiet_reach env name region s).inv hi
                      rw [hr] at this; exact this
                    have hs1 : ∃ Q, s1.params[q]? = some Q := by
                      obtain ⟨Q, hQ, _⟩ := id hq
                      rw [hf2] at hQ
                      rw [M.bind_apply] at hQ
                      have hx := Grows.of_eq (env := env) (G := G) (m := (pure () : M K G Unit))
                        (fun _ => rfl)
                      have hlen : ∀ u tps, (attemptRead p t u tps s1).2.params.length
                          = s1.params.length := by
                        intro u tps
                        unfold attemptRead
                        repeat' split
                        all_goals simp [St.setParam]
                      have hl2 : q < s1.params.length := by
                        cases hat : attemptRead p t (asksUnit op) (asksPoints op) s1 with
                        | mk r2 s2 =>
                          have hlen := hlen (asksUnit op) (asksPoints op)
                          rw [hat] at hQ hlen
                          cases r2 with
                          | error e => rw [← hlen]; exact length_of_getElem? hQ
                          | ok u =>
                            simp only at hQ
                            rw [(hf1 p s2).1] at hQ
                            rw [← hlen]; exact length_of_getElem? hQ
                      exact ⟨_, List.getElem?_eq_getElem hl2⟩
                    obtain ⟨Q, hQ⟩ := hs1
                    obtain ⟨k', hk'⟩ := HasKey.exists hi1.tree hQ
                    have hst : Steps env s1 [] (call env op s).2 ∨ True := Or.inr trivial
                    have hfr := hf1
                    -- keys persist from `s1` to the end
                    have hpe : PExt s1 (call env op s).2 ∧ RExt s1 (call env op s).2 := by
                      rw [hf2, M.bind_apply]
                      have hqa : Quiet env (attemptRead p t (asksUnit op) (asksPoints op) : M K G Unit) := by
                        apply quiet_attemptRead
                        cases op <;> simp only [request, reduceCtorEq] at hreq
                        · simp only [asks, Option.some.injEq] at ha; subst ha
                          exact Or.inr ⟨by simp, rfl⟩
                        · refine Or.inr ⟨?_, rfl⟩
                          rintro rfl
                          simp only [asks] at ha
                          split at ha
                          · rename_i ht _ _
                            simp only [Option.some.injEq] at ha; subst ha
                            rcases tyArg_parse ht with h | h <;> cases h
                          · simp at ha
                        · simp only [asks, Option.some.injEq] at ha; subst ha
                          exact Or.inl ⟨rfl, rfl⟩
                      have hqs := hqa s1
                      cases hat : attemptRead p t (asksUnit op) (asksPoints op) s1 with
                      | mk r2 s2 =>
                        rw [hat] at hqs
                        cases r2 with
                        | error e => exact ⟨hqs.pext hi1, hqs.rext⟩
                        | ok u =>
                          simp only
                          refine ⟨(hqs.pext hi1).trans (.of_eq (hf1 p s2).1), hqs.rext.trans
                            (.of_eq (hf1 p s2).2)⟩
                    rw [hq.det (hk'.mono hpe.1 hpe.2)]; exact hk'
                  obtain ⟨g1, g2⟩ := h3 q hsq k hq1
                  refine ⟨name, region, hreq, by rw [ha]; simp, ?_, ?_, hroot, g1.symm, g2, ?_⟩
                  · rw [refusedWith_false]; exact fun h => (late _ h).1 rfl
                  · rw [refusedWith_false]; exact fun h => (late _ h).2 rfl
                  · obtain ⟨_, _, _, h⟩ := hq; exact h.ne_nil
        · exfalso
          obtain ⟨Q, hQ, _⟩ := hq
          rw [looks_state env op hl, hsq] at hQ; simp at hQ
  · rintro (⟨q, hq⟩ | ⟨name, region, hreq, ha, hw, hr, hroot, hreg, hpre, hne⟩)
    · exact ⟨q, hq.mono (call_pext op hi) (call_rext op hi)⟩
    · obtain ⟨g, hg, hcall⟩ := request_late (env := env) hreq ha
      have hcall := hcall s
      rw [refusedWith_false] at hw hr
      unfold result at hw hr
      have hpn : name.parts ≠ [] := by
        rintro h; rw [h] at hpre; exact hne (List.prefix_nil.1 hpre)
      cases hrc : reach name region s with
      | mk r s1 =>
        have hsp := reach_spec hi name region
        rw [hrc] at hsp
        rcases hsp with ⟨h | h, _⟩ | ⟨_, _, ⟨h | h, _⟩ | ⟨p, h1, h2, _⟩⟩
        · exact absurd hroot h
        · exact absurd h hpn
        · exfalso
          simp only at h; subst h
          rw [M.bind_error hrc] at hcall
          exact hw (by rw [hcall])
        · exfalso
          simp only at h; subst h
          rw [M.bind_error hrc] at hcall
          exact hr (by rw [hcall])
        · simp only at h1 h2; subst h1
          have hinv : Inv env s1 := by
            have := (quiet_reach env name region s).inv hi
            rw [hrc] at this; exact this
          obtain ⟨q, hq⟩ := HasKey.prefix hinv.tree h2 hpre hne
          have hi' := call_inv op hi
          -- `s1` is an intermediate state of the call
          obtain ⟨t, ht⟩ := Option.ne_none_iff_exists'.1 ha
          obtain ⟨_, f, hf1, hf2⟩ := request_bind (env := env) hreq ht
          have hf2 := hf2 s
          rw [M.bind_ok hrc] at hf2
          refine ⟨q, ?_⟩
          rw [hreg] at hq
          refine HasKey.mono (s := s1) ?_ ?_ hq
          all_goals
            rw [hf2, M.bind_apply]
            have hqa : Quiet env (attemptRead p t (asksUnit op) (asksPoints op) : M K G Unit) := by
              apply quiet_attemptRead
              cases op <;> simp only [request, reduceCtorEq] at hreq
              · simp only [asks, Option.some.injEq] at ht; subst ht
                exact Or.inr ⟨by simp, rfl⟩
              · refine Or.inr ⟨?_, rfl⟩
                rintro rfl
                simp only [asks] at ht
                split at ht
                · rename_i htt _ _
                  simp only [Option.some.injEq] at ht; subst ht
                  rcases tyArg_parse htt with h | h <;> cases h
                · simp at ht
              · simp only [asks, Option.some.injEq] at ht; subst ht
                exact Or.inl ⟨rfl, rfl⟩
            have hqs := hqa s1
            cases hat : attemptRead p t (asksUnit op) (asksPoints op) s1 with
            | mk r2 s2 =>
              rw [hat] at hqs
              cases r2 with
              | error e => first | exact hqs.pext hinv | exact hqs.rext
              | ok u =>
                first
                  | exact (hqs.pext hinv).trans (.of_eq (hf1 p s2).1)
                  | exact hqs.rext.trans (.of_eq (hf1 p s2).2)

theorem after_snoc (env : Env K) (s : St K G) (ops : List (Op K G)) (op : Op K G) :
    after env s (ops ++ [op]) = (call env op (after env s ops)).2 := by
  rw [after_append, after_one]

theorem rootName_after (env : Env K) (root : String) (ops : List (Op K G)) :
    rootName (after env (St.init root : St K G) ops) = root := by
  rw [rootName_ext (Inv.init env root).tree (after_rext ops (Inv.init env root))]
  rfl

/-- **C16**: `info` finds a parameter exactly when it, or one below it, was requested. -/
theorem C16_found_iff_requested {env : Env K} {root : String} {ops : List (Op K G)} {k : Key} :
    infoAt env (after env (St.init root) ops) k ≠ none ↔
      ∃ pre op post, ops = pre ++ op :: post ∧
        Creates env root (after env (St.init root) pre) op k := by
  have hi := fun ops => after_inv (K := K) (G := G) ops (Inv.init env root)
  rw [Ne, infoAt_none (hi ops).tree, not_not]
  induction ops using List.reverseRecOn with
  | nil =>
    constructor
    · rintro ⟨q, Q, hQ, _⟩
      simp [after, run, St.init] at hQ
    · rintro ⟨pre, op, post, h, _⟩; simp at h
  | append_singleton ops op ih =>
    rw [after_snoc, call_creates (hi ops), rootName_after]
    refine (or_congr ih Iff.rfl).trans ?_
    constructor
    · rintro (⟨pre, op', post, rfl, h⟩ | h)
      · exact ⟨pre, op', post ++ [op], by simp, h⟩
      · exact ⟨ops, op, [], rfl, h⟩
    · rintro ⟨pre, op', post, h1, h2⟩
      rcases List.eq_nil_or_concat post with rfl | ⟨post', x, rfl⟩
      · obtain ⟨rfl, h⟩ := List.append_inj' h1 rfl
        cases h; exact Or.inr h2
      · left
        have : ops ++ [op] = (pre ++ op' :: post') ++ [x] := by rw [h1]; simp
        obtain ⟨rfl, _⟩ := List.append_inj' this rfl
        exact ⟨pre, op', post', rfl, h2⟩

/-- **C16**: what is found has the name and region it was looked up by. -/
theorem C16_reports_key {env : Env K} {s : St K G} (hs : Reachable env s) {k : Key} {I : Info}
    (h : infoAt env s k = some I) : I.name = k.2 ∧ I.region = k.1 := by
  obtain ⟨p, P, _, _, rfl⟩ := (infoAt_some hs.inv.tree).1 h
  exact ⟨rfl, rfl⟩

/-- **C16**: looking up never changes anything. -/
theorem C16_info_changes_nothing (env : Env K) (s : St K G) (name region : HName) :
    after env s [.info name region] = s := by
  rw [after_one]; exact looks_state env _ rfl s

/-- **C16**: what exists once exists for ever. -/
theorem C16_persists {env : Env K} {s : St K G} (hs : Reachable env s) {k : Key}
    (h : infoAt env s k ≠ none) (ops : List (Op K G)) : infoAt env (after env s ops) k ≠ none := by
  have hi := hs.inv
  rw [Ne, infoAt_none hi.tree, not_not] at h
  rw [Ne, infoAt_none (after_inv ops hi).tree, not_not]
  obtain ⟨q, hq⟩ := h
  exact ⟨q, after_key hi ops hq⟩

/-- C16 at work: a parameter and its parents exist; refused requests, other regions and children
do not. -/
example : let ops : List (Op ℚ ℕ) := [.scalar (.seq ["a", "b"]) "K" world, .sSet 0 (.num 1),
      .scalar (.seq ["a", "b", "c"]) "K" world, .generic (.seq ["g"]) (.seq ["Mars"])]
    demo ops = [.ok (.view 0), .ok .done, .error .parameterWritten, .error .valueError] ∧
    (infoAt demoEnv (demoSt ops) (["World"], ["a"])).isSome = true ∧
    (infoAt demoEnv (demoSt ops) (["World"], ["a", "b"])).isSome = true ∧
    infoAt demoEnv (demoSt ops) (["World"], ["a", "b", "c"]) = none ∧
    infoAt demoEnv (demoSt ops) (["World"], ["b"]) = none ∧
    infoAt demoEnv (demoSt ops) (["Mars"], ["g"]) = none := by decide +kernel

end Openscm
