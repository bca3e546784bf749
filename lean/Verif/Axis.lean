import Verif.CoreProps6

/-!
# The time points of a parameter that is not used for anything else

Helper file.
-/

set_option linter.unusedSectionVars false

namespace Openscm
variable {K G : Type} [Field K] [LinearOrder K] [IsStrictOrderedRing K]

/-- If the parameter has been used, its time points are `tps`. -/
def OnAxis (s : St K G) (k : Key) (tps : List K) : Prop :=
  ∀ p P, HasKey s p k → s.params[p]? = some P → P.ptype ≠ none → P.tps = some tps

theorem OnAxis.of_unused {env : Env K} {s : St K G} (hi : Inv env s) {k : Key}
    (h : ∀ I, infoAt env s k = some I → I.ptype = none) (tps : List K) : OnAxis s k tps := by
  intro p P hk hp ht
  exact absurd (h _ (infoAt_of hi.tree hk hp)) ht

/-- A successful request of one parameter gives no other parameter a type. -/
theorem request_others {env : Env K} {s : St K G} (hi : Inv env s) {op : Op K G} {name region : HName}
    {t : PType} (hop : request op = some (name, region)) (ht : asks op = some t) {o : Out K G}
    (hok : (call env op s).1 = .ok o) {q : Nat} {Q : Param K G} {k : Key} (hk : k ≠ (region.parts, name.parts))
    (hq : (call env op s).2.params[q]? = some Q) (hqk : HasKey (call env op s).2 q k) (hQ : Q.ptype ≠ none) :
    ∃ Q0, s.params[q]? = some Q0 ∧ Q0.ptype ≠ none := by
  obtain ⟨_, f, hfp, hf⟩ := request_bind (env := env) hop ht
  have hsteps := quiet_reach env name region s
  have hfr := typeFr_reach name region s
  rw [hf] at hok hq hqk
  cases hr : reach name region s with
  | mk res s1 =>
    rw [hr] at hsteps hfr
    have hi1 := hsteps.inv hi
    cases res with
    | error e => rw [M.bind_error hr] at hok; simp at hok
    | ok p =>
      rw [M.bind_ok hr] at hok hq hqk
      have hkey : HasKey s1 p (region.parts, name.parts) := by
        rcases reach_spec hi name region with ⟨_, h, _⟩ | ⟨_, _, h | ⟨q, h, h', _⟩⟩
        · rw [hr] at h; simp at h
        · rw [hr] at h; simp at h
        · rw [hr] at h h'; simp only [Except.ok.injEq] at h; subst h; exact h'
      obtain ⟨P1, hp1, _⟩ := id hkey
      have hne : q ≠ p := by
        rintro rfl
        have hi' := call_inv (env := env) op hi
        rw [hf, M.bind_ok hr] at hi'
        have hx := call_pext (env := env) op hi
        have hy := call_rext (env := env) op hi
        -- the key of `p` is kept
        have hp' := hkey
        have : HasKey ((attemptRead q t (asksUnit op) (asksPoints op) >>= fun _ => f q) s1).2 q
            (region.parts, name.parts) := by
          have qa := quiet_attemptRead (G := G) env q t (asksUnit op) (asksPoints op)
            (by
              cases op <;> simp only [request, reduceCtorEq] at hop
              · exact Or.inr ⟨by simp only [asks, Option.some.injEq] at ht; subst ht; simp, rfl⟩
              · refine Or.inr ⟨?_, rfl⟩
                have := (request_bind (env := env) (op := Op.timeseries _ _ _ _ _ _ _) rfl ht).1.2 rfl
                rcases this with rfl | rfl <;> simp
              · exact Or.inl ⟨by simp only [asks, Option.some.injEq] at ht; exact ht.symm, rfl⟩) s1
          cases ha : attemptRead q t (asksUnit op) (asksPoints op) s1 with
          | mk r2 s2 =>
            rw [ha] at qa
            cases r2 with
            | error e => rw [M.bind_error ha]; exact qa.key hi1 hkey
            | ok u =>
              rw [M.bind_ok ha]
              exact (qa.key hi1 hkey).mono (.of_eq (hfp q s2).1) (.of_eq (hfp q s2).2)
        exact hk (hqk.det this)
      have hpar : ((attemptRead p t (asksUnit op) (asksPoints op) >>= fun _ => f p) s1).2.params[q]? =
          s1.params[q]? := by
        have h2 : (attemptRead p t (asksUnit op) (asksPoints op) s1).2.params[q]? = s1.params[q]? := by
          unfold attemptRead
          rw [hp1]
          simp only
          split
          · split
            · rfl
            · exact setParam_ne _ _ (Ne.symm hne)
          · split
            · exact setParam_ne _ _ (Ne.symm hne)
            · exact setParam_ne _ _ (Ne.symm hne)
        cases ha : attemptRead p t (asksUnit op) (asksPoints op) s1 with
        | mk r2 s2 =>
          rw [ha] at h2
          cases r2 with
          | error e => rw [M.bind_error ha]; exact h2
          | ok u => rw [M.bind_ok ha, (hfp p s2).1]; exact h2
      rw [hpar] at hq
      rcases hfr q Q hq with h | ⟨Q0, h1, h2⟩
      · exact absurd h hQ
      · exact ⟨Q0, h1, by rw [h2]; exact hQ⟩

/-- Requests on the right time points keep them. -/
theorem OnAxis.request {env : Env K} {s : St K G} (hs : Reachable env s) {op : Op K G} {name region : HName}
    {t : PType} (hop : request op = some (name, region)) (ht : asks op = some t) {i : Nat}
    (hok : (call env op s).1 = .ok (.view i)) {k : Key} {tps : List K} (h : OnAxis s k tps)
    (hsame : k = (region.parts, name.parts) → asksPoints op = some tps) :
    OnAxis (call env op s).2 k tps := by
  have hi := hs.inv
  have hi' := call_inv (env := env) op hi
  have hx := call_pext (env := env) op hi
  have hy := call_rext (env := env) op hi
  intro q Q hk hq hQ
  -- either the parameter was used before
  by_cases hold : ∃ Q0, s.params[q]? = some Q0 ∧ Q0.ptype ≠ none
  · obtain ⟨Q0, h1, h2⟩ := hold
    obtain ⟨k0, hk0⟩ := HasKey.exists hi.tree h1
    have := (hk0.mono hx hy).det hk
    subst this
    obtain ⟨Q', g1, g2⟩ := hx q Q0 h1
    rw [hq] at g1; cases g1
    exact g2.tps _ (h q Q0 hk0 h1 h2)
  · by_cases hkk : k = (region.parts, name.parts)
    · subst hkk
      have hnew : ∀ I, infoAt env s (region.parts, name.parts) = some I → I.ptype = none := by
        intro I hI
        obtain ⟨p, P, h1, h2, h3⟩ := (infoAt_some hi.tree).1 hI
        by_contra hc
        have hpq := (h1.mono hx hy).inj hi'.tree hk
        subst hpq
        refine hold ⟨P, h2, ?_⟩
        intro hn
        apply hc
        rw [h3]
        exact hn
      obtain ⟨p, P, g1, g2, g3, g4, g5⟩ := C04_first_view hs hop ht hnew hok
      rw [after_one] at g1 g2
      have := g1.inj hi'.tree hk
      subst this
      rw [hq] at g2; cases g2
      rw [g5]
      exact hsame rfl
    · obtain ⟨Q0, h1, h2⟩ := request_others hi hop ht hok hkk hq hk hQ
      exact absurd ⟨Q0, h1, h2⟩ hold

/-- The property is kept once the parameter is used. -/
theorem OnAxis.used {s s' : St K G} {k : Key} {tps : List K} (ht : Tree s') {p : Nat} {P : Param K G}
    (h : OnAxis s k tps) (hk : HasKey s p k) (hp : s.params[p]? = some P) (hu : P.ptype ≠ none)
    (hx : PExt s s') (hy : RExt s s') : OnAxis s' k tps := by
  intro q Q hq hQ _
  have := (hk.mono hx hy).inj ht hq
  subst this
  obtain ⟨P', g1, g2⟩ := hx p P hp
  rw [hQ] at g1; cases g1
  exact g2.tps _ (h p P hk hp hu)

end Openscm
