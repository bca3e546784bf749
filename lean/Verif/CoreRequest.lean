import Verif.RoundAdd
import Verif.CoreDemo

/-!
# Views belong to the parameter that was asked for

C15 speaks about the parameters of views. Here: the parameter of a view is the one whose name and region were asked
for, at all later times, so that C15 is about requested names and regions.
-/

set_option linter.unusedSectionVars false

namespace Openscm

variable {K G : Type} [Field K] [LinearOrder K] [IsStrictOrderedRing K]

theorem mkTView_param {env : Env K} {s : St K G} {p : Nat} {u : String} {tps : List K} {ty : PType} {ext : Extrap}
    {v : TView K} (h : mkTView env s p u tps ty ext = .ok v) : v.leaf.param = p := by
  unfold mkTView at h
  split at h
  · simp at h
  · split at h
    · simp at h
    · rename_i l hl
      split at h
      · injection h with h; subst h; exact mkTLeaf_param hl
      · split at h
        · simp at h
        · injection h with h; subst h; exact mkTLeaf_param hl

/-- The views handed out by the three kinds of requests. -/
def handed (op : Op K G) (i : Nat) : Option VRef :=
  match op with
  | .scalar .. => some (.s i)
  | .timeseries .. => some (.t i)
  | .generic .. => some (.g i)
  | _ => none

/-- **C15**: a view belongs for ever to the parameter with the name and the region that were asked for. -/
theorem C15_requested {env : Env K} {s : St K G} (hs : Reachable env s) {op : Op K G} {name region : HName} {i : Nat}
    {r : VRef} (hop : request op = some (name, region)) (hok : result env s op = .ok (.view i))
    (hr : handed op i = some r) (ops : List (Op K G)) :
    viewKey env (after env s (op :: ops)) r = some (region.parts, name.parts) := by
  have hi := hs.inv
  have hi1 := (hs.call op).inv
  rw [after_cons]
  have key : ∃ p u, viewTarget (call env op s).2 r = some (p, u) ∧
      HasKey (call env op s).2 p (region.parts, name.parts) := by
    cases op <;> simp only [Openscm.request, reduceCtorEq, Option.some.injEq, Prod.mk.injEq] at hop <;>
      simp only [handed, Option.some.injEq] at hr <;> obtain ⟨rfl, rfl⟩ := hop <;> subst hr
    · obtain ⟨p, v, h1, h2, h3, _⟩ := scalar_ok hi hok
      exact ⟨v.param, _, by simp only [viewTarget, h2, Option.map_some]; rfl, h3 ▸ h1⟩
    · obtain ⟨p, v, ty, int, ext, h1, h2, h3, h4, h5, h6⟩ := timeseries_ok hi hok
      have : v.leaf.param = p := mkTView_param h6
      exact ⟨v.leaf.param, _, by simp only [viewTarget, h5, Option.map_some]; rfl, this ▸ h4⟩
    · obtain ⟨p, v, h1, h2, h3⟩ := generic_view hi hok
      obtain ⟨P, hP, _⟩ := hi1.good.gviews i v h2
      refine ⟨v.param, P.unit, ?_, h3 ▸ h1⟩
      simp [viewTarget, h2, hP]
  obtain ⟨p, u, h1, h2⟩ := key
  exact (viewKey_some (after_inv ops hi1)).2 ⟨p, u, after_viewTarget hi1 ops h1, after_key hi1 ops h2⟩

/-- **C15**: whatever is done with a view that was requested for one parameter, `info` reports the same as before about
all others. -/
theorem C15_requested_info {env : Env K} {s : St K G} (hs : Reachable env s) {op : Op K G} {name region : HName}
    {i : Nat} {r : VRef} (hop : request op = some (name, region)) (hok : result env s op = .ok (.view i))
    (hr : handed op i = some r) (ops : List (Op K G)) {act : Op K G} (hact : callee act = some r) {k : Key}
    (hk : k ≠ (region.parts, name.parts)) :
    infoAt env (after env s (op :: ops ++ [act])) k = infoAt env (after env s (op :: ops)) k := by
  rw [after_append]
  refine C15_info (hs.after (op :: ops)) hact ?_
  rw [C15_requested hs hop hok hr ops]
  exact fun h => hk (Option.some.inj h).symm

/-- **C15**: a view requested for another parameter, that is not below, changes nothing in what a view reads. -/
theorem C15_requested_values {env : Env K} {s : St K G} (hs : Reachable env s) {op : Op K G} {name region : HName}
    {i : Nat} {r : VRef} (hop : request op = some (name, region)) (hok : result env s op = .ok (.view i))
    (hr : handed op i = some r) {mid : List (Op K G)} {op' : Op K G} {name' region' : HName} {j : Nat} {q : VRef}
    (hop' : request op' = some (name', region')) (hok' : result env (after env s (op :: mid)) op' = .ok (.view j))
    (hq : handed op' j = some q) (ops : List (Op K G)) {act : Op K G} (hact : callee act = some r)
    (hne : ¬ (region'.parts = region.parts ∧ name'.parts <+: name.parts)) :
    let s' := after env s (op :: mid ++ op' :: ops)
    let look : Op K G := match q with | .s j => .sGet j | .t j => .tGet j | .g j => .gGet j
    result env (after env s' [act]) look = result env s' look := by
  intro s' look
  have e1 : s' = after env s (op :: (mid ++ op' :: ops)) := rfl
  have e2 : s' = after env (after env s (op :: mid)) (op' :: ops) := after_append env s (op :: mid) (op' :: ops)
  have k1 := C15_requested hs hop hok hr (mid ++ op' :: ops)
  have k2 := C15_requested (hs.after (op :: mid)) hop' hok' hq ops
  rw [← e1] at k1
  rw [← e2] at k2
  have hs' : Reachable env s' := hs.after _
  cases q with
  | s j => exact C15_scalar_value hs' hact k1 k2 hne
  | t j => exact C15_timeseries_values hs' hact k1 k2 hne
  | g j =>
    refine C15_generic_value hs' hact k1 k2 ?_
    intro h
    simp only [Prod.mk.injEq] at h
    exact hne ⟨h.1, h.2 ▸ List.prefix_rfl⟩

/-- Hypotheses of C15 met: views requested for the same name in a region and in its subregion. -/
example : let sub : HName := .seq ["World", "Sub"]
    let s : St ℚ ℕ := demoSt []
    let op : Op ℚ ℕ := .scalar (.str "a|T") "K" sub
    let op' : Op ℚ ℕ := .scalar (.str "a|T") "K" world
    request op = some (.str "a|T", sub) ∧ result demoEnv s op = .ok (.view 0) ∧ handed op 0 = some (.s 0) ∧
    result demoEnv (after demoEnv s [op]) op' = .ok (.view 1) ∧
    ¬ (world.parts = sub.parts ∧ (HName.str "a|T").parts <+: (HName.str "a|T").parts) ∧
    result demoEnv (after demoEnv s [op, op', .sSet 1 (.num 7)]) (.sSet 0 (.num 1)) = .ok .done ∧
    result demoEnv (after demoEnv s [op, op', .sSet 1 (.num 7), .sSet 0 (.num 1)]) (.sGet 1) = .ok (.num (.num 7)) := by
  decide +kernel

end Openscm
