import Verif.CoreLogInv

/-!
# C02, C14, C21: last write wins, versions count writes, emptiness

`writes env root ops` (`CoreLog.lean`) is the list of successful writes of the history `ops`, worked
out from the calls and their outcomes; `attempts` the list of whole-array assignments that got past
the write check.
-/

set_option linter.unusedSectionVars false

namespace Openscm
variable {K G : Type} [Field K] [LinearOrder K] [IsStrictOrderedRing K]

/-! ## C14 -/

/-- **C14**: the version shown for a parameter is the number of successful writes to it. -/
theorem C14_version_counts_writes {env : Env K} {root : String} {ops : List (Op K G)} {k : Key}
    {I : Info} (h : infoAt env (after env (St.init root) ops) k = some I) :
    I.version = (writes env root ops).countP (fun e => decide (e.1 = k)) := by
  obtain ⟨p, P, hk, hp, rfl⟩ := (infoAt_some (after_inv ops (Inv.init env root)).tree).1 h
  exact (writes_inv env root ops).ver p P k hk hp

/-- **C14**: only parameters that exist are written. -/
theorem C14_written_exists {env : Env K} {root : String} {ops : List (Op K G)}
    {e : Key × Entry K G} (h : e ∈ writes env root ops) :
    infoAt env (after env (St.init root) ops) e.1 ≠ none := by
  obtain ⟨p, hk⟩ := (writes_inv env root ops).key e h
  obtain ⟨P, hp, _⟩ := id hk
  rw [infoAt_of (after_inv ops (Inv.init env root)).tree hk hp]; simp

/-- **C14**: versions never decrease. -/
theorem C14_monotone {env : Env K} {s : St K G} (hs : Reachable env s) {k : Key} {I : Info}
    (hI : infoAt env s k = some I) (ops : List (Op K G)) :
    ∃ J, infoAt env (after env s ops) k = some J ∧ I.version ≤ J.version := by
  have hi := hs.inv
  obtain ⟨p, P, h1, h2, rfl⟩ := (infoAt_some hi.tree).1 hI
  obtain ⟨P', g1, g2⟩ := after_pext ops hi p P h2
  exact ⟨_, infoAt_of (after_inv ops hi).tree (after_key hi ops h1) g1, g2.version⟩

theorem log_append {env : Env K} (a b : List (Op K G)) {s : St K G} {locks : Nat → Bool} :
    ∃ locks', log env s locks (a ++ b) = log env s locks a ++ log env (after env s a) locks' b := by
  induction a generalizing s locks with
  | nil => exact ⟨locks, rfl⟩
  | cons op a ih =>
    obtain ⟨l', h⟩ := ih (s := after env s [op]) (locks := lockStep env s locks op)
    refine ⟨l', ?_⟩
    rw [List.cons_append, log, log, h, List.append_assoc]
    rw [after_one, after_cons]

/-- The log of one more call. -/
theorem writes_snoc (env : Env K) (root : String) (ops : List (Op K G)) (op : Op K G) :
    ∃ locks, writes env root (ops ++ [op])
      = writes env root ops ++ (logged env (after env (St.init root) ops) locks op).toList := by
  obtain ⟨l, h⟩ := log_append (env := env) ops [op] (s := St.init root) (locks := fun _ => false)
  exact ⟨l, by unfold writes; rw [h]; simp [log]⟩

theorem logged_key {env : Env K} {s : St K G} {locks : Nat → Bool} {op : Op K G}
    {e : Key × Entry K G} (h : logged env s locks op = some e) :
    ∃ r, writesView op = some r ∧ viewKey env s r = some e.1 := by
  unfold logged at h
  split at h
  · cases op <;> simp only [assignsT, reduceCtorEq] at h
    case sSet i x _ =>
      refine ⟨.s i, rfl, ?_⟩
      rw [Option.bind_eq_some_iff] at h
      obtain ⟨I, h1, h2⟩ := h
      rw [Option.map_eq_some_iff] at h2
      obtain ⟨u, _, rfl⟩ := h2
      simp [viewKey, h1]
    case gSet i g _ =>
      refine ⟨.g i, rfl, ?_⟩
      rw [Option.map_eq_some_iff] at h
      obtain ⟨k, h1, rfl⟩ := h
      exact h1
    case tUnlock i _ =>
      refine ⟨.t i, rfl, ?_⟩
      rw [Option.map_eq_some_iff] at h
      obtain ⟨k, h1, rfl⟩ := h
      exact h1
    all_goals
      split at h
      · simp at h
      · rw [Option.map_eq_some_iff] at h
        obtain ⟨k, h1, rfl⟩ := h
        exact ⟨_, rfl, h1⟩
  · simp at h

/-- **C14**: a call can only change the version of the parameter whose view it writes through, and
changes it by at most one. -/
theorem C14_one_step {env : Env K} {s : St K G} (hs : Reachable env s) {k : Key} {I J : Info}
    {op : Op K G} (hI : infoAt env s k = some I) (hJ : infoAt env (after env s [op]) k = some J) :
    J.version = I.version ∨
      (J.version = I.version + 1 ∧ ∃ r, writesView op = some r ∧ viewKey env s r = some k) := by
  obtain ⟨root, ops, rfl⟩ := hs
  have h1 := C14_version_counts_writes hI
  rw [← after_append] at hJ
  have h2 := C14_version_counts_writes hJ
  obtain ⟨locks, hw⟩ := writes_snoc env root ops op
  rw [hw, List.countP_append, ← h1] at h2
  cases hl : logged env (after env (St.init root) ops) locks op with
  | none => rw [hl] at h2; left; simpa using h2
  | some e =>
    rw [hl] at h2
    by_cases he : e.1 = k
    · right
      subst he
      exact ⟨by simpa using h2, logged_key hl⟩
    · left; simpa [he] using h2

/-- Hypotheses of C14 met: three writes, one of them refused, one through a locked view. -/
example : let ops : List (Op ℚ ℕ) := [points ["a", "b"] "K" [0, 1, 2], .tSet 0 (nums [1, 2]),
      .tSet 0 (nums [1, 2, 3]), .tSetItem 0 [(0, .num 5)], .tLock 0, .tSet 0 (nums [4, 5, 6]),
      .tUnlock 0]
    (writes demoEnv "World" ops).countP (fun e => decide (e.1 = (["World"], ["a", "b"]))) = 3 ∧
    infoAt demoEnv (demoSt ops) (["World"], ["a", "b"])
      = some ⟨["a", "b"], ["World"], some .point, some "K", false, 3⟩ := by decide +kernel

/-! ## C02 -/

theorem sview_of_info {env : Env K} {s : St K G} (hi : Inv env s) {i : Nat} {I : Info}
    (hI : viewInfo env s (.s i) = some I) : ∃ v P, s.sviews[i]? = some v ∧
      s.params[v.param]? = some P ∧ HasKey s v.param I.key ∧
      I = ⟨I.name, I.region, P.ptype, some v.conv.target, !P.written, P.version⟩ := by
  obtain ⟨p, u, k, P, a1, a2, a3, rfl⟩ := (viewInfo_some hi).1 hI
  cases hv : s.sviews[i]? with
  | none => simp [viewTarget, hv] at a1
  | some v =>
    simp only [viewTarget, hv, Option.map_some, Option.some.injEq, Prod.mk.injEq] at a1
    obtain ⟨rfl, rfl⟩ := a1
    exact ⟨v, P, rfl, a3, a2, rfl⟩

theorem gview_of_info {env : Env K} {s : St K G} (hi : Inv env s) {i : Nat} {I : Info}
    (hI : viewInfo env s (.g i) = some I) : ∃ v P, s.gviews[i]? = some v ∧
      s.params[v.param]? = some P ∧ HasKey s v.param I.key ∧
      I = ⟨I.name, I.region, P.ptype, P.unit, !P.written, P.version⟩ := by
  obtain ⟨p, u, k, P, a1, a2, a3, rfl⟩ := (viewInfo_some hi).1 hI
  cases hv : s.gviews[i]? with
  | none => simp [viewTarget, hv] at a1
  | some v =>
    simp only [viewTarget, hv, Option.map_some, Option.some.injEq, Prod.mk.injEq] at a1
    obtain ⟨rfl, rfl⟩ := a1
    exact ⟨v, P, rfl, a3, a2, by simp [a3]⟩

theorem tview_of_info {env : Env K} {s : St K G} (hi : Inv env s) {i : Nat} {I : Info}
    (hI : viewInfo env s (.t i) = some I) : ∃ v P, s.tviews[i]? = some v ∧
      s.params[v.leaf.param]? = some P ∧ HasKey s v.leaf.param I.key ∧
      I = ⟨I.name, I.region, P.ptype, some v.leaf.conv.target, !P.written, P.version⟩ := by
  obtain ⟨p, u, k, P, a1, a2, a3, rfl⟩ := (viewInfo_some hi).1 hI
  cases hv : s.tviews[i]? with
  | none => simp [viewTarget, hv] at a1
  | some v =>
    simp only [viewTarget, hv, Option.map_some, Option.some.injEq, Prod.mk.injEq] at a1
    obtain ⟨rfl, rfl⟩ := a1
    exact ⟨v, P, rfl, a3, a2, rfl⟩

theorem no_entries {L : List (Key × Entry K G)} {k : Key} (h : writesTo k L = 0) :
    ∀ e ∈ L, e.1 ≠ k := by
  intro e he
  have := List.countP_eq_zero.1 h e he
  simpa using this

/-- What a scalar leaf holds, read in the unit of a converter: the last write converted. -/
theorem leaf_value {env : Env K} {s : St K G} {L : List (Key × Entry K G)}
    (hl : LogV env s L) {p : Nat} {P : Param K G} {k : Key} (hk : HasKey s p k)
    (hp : s.params[p]? = some P) (ht : P.ptype = some .scalar) (hc : P.children = []) {u : String}
    (hu : P.unit = some u) {c : Conv K} (hm : mkConv env.units u c.target = .ok c) :
    (readScalarLeaf s p c = .error .parameterEmpty ∧ ∀ e ∈ L, e.1 ≠ k) ∨
    (∃ L1 x w L2 a b, L = L1 ++ (k, .num x w) :: L2 ∧ (∀ e ∈ L2, e.1 ≠ k) ∧
      env.units w = some a ∧ env.units c.target = some b ∧
      readScalarLeaf s p c = .ok (x.map (pintTo a b))) := by
  have hpl := hl.par p P k hk hp
  have hver := hl.ver p P k hk hp
  unfold PLog at hpl
  rw [ht] at hpl
  rcases hpl with ⟨h1, h2⟩ | ⟨h1, L1, x, w, L2, u', c', h2, h3, h4, h5, h6⟩
  · left
    refine ⟨?_, no_entries (hver ▸ h2)⟩
    unfold readScalarLeaf
    simp [hp, hc, h1]
  · right
    rw [hu] at h4; cases h4
    have htg : c'.target = w := by
      obtain ⟨_, _, _, _, _, _, h, _⟩ := mkConv_ok h5
      exact h
    subst htg
    obtain ⟨a, b, ha, hb, hab⟩ := conv_between h5 hm
    refine ⟨L1, x, _, L2, a, b, h2, h3, ha, hb, ?_⟩
    unfold readScalarLeaf
    simp [hp, hc, h1, h6, Fl.map_map, hab]

/-- **C02** for scalar parameters: a scalar view of a parameter without children shows the most
recent successful write to that parameter, whoever made it, converted as pint does from the unit
it was written in; it raises `ParameterEmptyError` exactly when there was none. -/
theorem C02_scalar {env : Env K} {root : String} {ops : List (Op K G)} {i : Nat} {I : Info}
    (hI : viewInfo env (after env (St.init root) ops) (.s i) = some I)
    (hc : ¬ HasChildren env (after env (St.init root) ops) I.key) :
    (result env (after env (St.init root) ops) (.sGet i) = .error .parameterEmpty ∧
      ∀ e ∈ writes env root ops, e.1 ≠ I.key) ∨
    ∃ earlier x u later w a b, writes env root ops = earlier ++ (I.key, .num x u) :: later ∧
      (∀ e ∈ later, e.1 ≠ I.key) ∧ I.unit = some w ∧ env.units u = some a ∧
      env.units w = some b ∧
      result env (after env (St.init root) ops) (.sGet i) = .ok (.num (x.map (pintTo a b))) := by
  have hi := after_inv (K := K) (G := G) ops (Inv.init env root)
  obtain ⟨v, P, hv, hp, hk, hI'⟩ := sview_of_info hi hI
  rw [not_hasChildren_iff hi.tree hk hp] at hc
  obtain ⟨P1, u, a1, a2, a3, a4, a5, _⟩ := (hi.good.sviews i v hv).ex
  rw [hp] at a1; cases a1
  have hval : scalarValue (after env (St.init root) ops) v
      = readScalarLeaf (after env (St.init root) ops) v.param v.conv := by
    unfold scalarValue; simp [hp, hc]
  have hget := sGet_eq (env := env) hv
  unfold result
  rw [hget, hval]
  rcases leaf_value (writes_inv env root ops) hk hp a2 hc a4 a5 with
    ⟨h1, h2⟩ | ⟨L1, x, w, L2, a, b, h1, h2, h3, h4, h5⟩
  · rw [h1]; exact Or.inl ⟨rfl, h2⟩
  · rw [h5]
    exact Or.inr ⟨L1, x, w, L2, v.conv.target, a, b, h1, h2, by rw [hI'], h3, h4, rfl⟩

/-- **C02** for generic parameters. -/
theorem C02_generic {env : Env K} {root : String} {ops : List (Op K G)} {i : Nat} {I : Info}
    (hI : viewInfo env (after env (St.init root) ops) (.g i) = some I) :
    (result env (after env (St.init root) ops) (.gGet i) = .error .parameterEmpty ∧
      ∀ e ∈ writes env root ops, e.1 ≠ I.key) ∨
    ∃ earlier g later, writes env root ops = earlier ++ (I.key, .gen g) :: later ∧
      (∀ e ∈ later, e.1 ≠ I.key) ∧
      result env (after env (St.init root) ops) (.gGet i) = .ok (.gen (some g)) := by
  have hi := after_inv (K := K) (G := G) ops (Inv.init env root)
  obtain ⟨v, P, hv, hp, hk, hI'⟩ := gview_of_info hi hI
  obtain ⟨P1, a1, a2, a3, _⟩ := hi.good.gviews i v hv
  rw [hp] at a1; cases a1
  have hl := writes_inv env root ops
  have hpl := hl.par _ P _ hk hp
  have hver := hl.ver _ P _ hk hp
  have hget := gGet_eq (env := env) hv
  unfold result
  rw [hget]
  unfold PLog at hpl
  rw [a2] at hpl
  rcases hpl with ⟨h1, h2⟩ | ⟨h1, L1, g, L2, h2, h3, h4⟩
  · left
    refine ⟨?_, no_entries (hver ▸ h2)⟩
    unfold genericValue; simp [hp, h1]; rfl
  · right
    refine ⟨L1, g, L2, h2, h3, ?_⟩
    unfold genericValue; simp [hp, h1, h4]; rfl

/-- Hypotheses of C02 met: two views in different units; the last of three assignments counts. -/
example : let ops : List (Op ℚ ℕ) := [.scalar (.seq ["T"]) "K" world, .scalar (.str "T") "degC" world,
      .generic (.str "g") world, .sSet 0 (.num 1), .sSet 1 (.num (-3)), .sSet 0 (.num 300),
      .gSet 0 1, .gSet 0 2]
    viewInfo demoEnv (demoSt ops) (.s 1)
      = some ⟨["T"], ["World"], some .scalar, some "degC", false, 3⟩ ∧
    viewInfo demoEnv (demoSt ops) (.g 0) = some ⟨["g"], ["World"], some .generic, none, false, 2⟩ ∧
    result demoEnv (demoSt ops) (.sGet 1) = .ok (.num (.num (537 / 20))) ∧
    result demoEnv (demoSt ops) (.gGet 0) = .ok (.gen (some 2)) := by decide +kernel

/-! ## C21 -/

theorem ensure_eq {env : Env K} {s : St K G} (hi : Inv env s) {r : VRef} {I : Info}
    (hI : viewInfo env s r = some I) :
    call env (.ensure r) s = (if I.empty then .error .parameterEmpty else .ok .done, s) := by
  obtain ⟨p, u, k, P, a1, a2, a3, rfl⟩ := (viewInfo_some hi).1 hI
  show (M.look (viewTarget · r) >>= _) s = _
  have e1 : M.look (viewTarget · r) s = (.ok (p, u), s) := look_some a1
  rw [M.bind_ok e1]
  have e2 : getParam p s = (.ok P, s) := look_some a3
  show (getParam p >>= _) s = _
  rw [M.bind_ok e2]
  cases P.written <;> rfl

/-- **C21**: `ensure()` raises `ParameterEmptyError` exactly when the view says it is empty. -/
theorem C21_ensure {env : Env K} {s : St K G} (hs : Reachable env s) {r : VRef} {I : Info}
    (hI : viewInfo env s r = some I) :
    (result env s (.ensure r) = .error .parameterEmpty ↔ I.empty = true) ∧
    (result env s (.ensure r) = .ok .done ↔ I.empty = false) := by
  unfold result
  rw [ensure_eq hs.inv hI]
  cases I.empty <;> simp

/-- **C21** for scalar and generic parameters: empty means that nothing was ever written. -/
theorem C21_scalar_generic {env : Env K} {root : String} {ops : List (Op K G)} {k : Key} {I : Info}
    (hI : infoAt env (after env (St.init root) ops) k = some I)
    (ht : I.ptype = some .scalar ∨ I.ptype = some .generic) :
    I.empty = true ↔ ∀ e ∈ writes env root ops, e.1 ≠ k := by
  have hi := after_inv (K := K) (G := G) ops (Inv.init env root)
  obtain ⟨p, P, hk, hp, rfl⟩ := (infoAt_some hi.tree).1 hI
  have hl := writes_inv env root ops
  have hpl := hl.par _ P _ hk hp
  have hver := hl.ver _ P _ hk hp
  unfold PLog at hpl
  rcases ht with ht | ht <;> simp only at ht <;> rw [ht] at hpl
  · rcases hpl with ⟨h1, h2⟩ | ⟨h1, L1, x, u, L2, w, c, h2, _⟩
    · simp only [h1, Bool.not_false, true_iff]; exact no_entries (hver ▸ h2)
    · simp only [h1, Bool.not_true, Bool.false_eq_true, false_iff, not_forall]
      exact ⟨(k, .num x u), by rw [h2]; simp, fun h => h rfl⟩
  · rcases hpl with ⟨h1, h2⟩ | ⟨h1, L1, g, L2, h2, _⟩
    · simp only [h1, Bool.not_false, true_iff]; exact no_entries (hver ▸ h2)
    · simp only [h1, Bool.not_true, Bool.false_eq_true, false_iff, not_forall]
      exact ⟨(k, .gen g), by rw [h2]; simp, fun h => h rfl⟩

/-- **C21**, partial for timeseries: empty means that no whole-array assignment got past the write
check. The full claim (`accepted` instead of `got past the write check`) is false, see
`C21_refused_assignment_counts` and `C21_element_assignment_does_not_count`. -/
theorem C21_timeseries_partial {env : Env K} {root : String} {ops : List (Op K G)} {k : Key}
    {I : Info} (hI : infoAt env (after env (St.init root) ops) k = some I)
    (ht : I.ptype = some .average ∨ I.ptype = some .point) :
    I.empty = true ↔ k ∉ attempts env (St.init root) ops := by
  have hi := after_inv (K := K) (G := G) ops (Inv.init env root)
  obtain ⟨p, P, hk, hp, rfl⟩ := (infoAt_some hi.tree).1 hI
  have := (attempted_inv env root ops).iff p P k hk hp
  rw [this]
  simp only at ht
  cases P.written <;> simp [ht]

/-- **C21** for timeseries, one direction in full: after an accepted assignment to a view that is
not locked the parameter is not empty any more; after any accepted whole-array assignment either. -/
theorem C21_timeseries_assigned {env : Env K} {s : St K G} (hs : Reachable env s) {i : Nat}
    {a : Arr K} {k : Key} (hk : viewKey env s (.t i) = some k)
    (h : result env s (.tSet i a) = .ok .done) :
    ∃ I, infoAt env (after env s [.tSet i a]) k = some I ∧ I.empty = false := by
  obtain ⟨root, ops, rfl⟩ := hs
  have hi := after_inv (K := K) (G := G) ops (Inv.init env root)
  obtain ⟨p, u, h1, h2⟩ := (viewKey_some hi).1 hk
  cases hv : (after env (St.init root) ops).tviews[i]? with
  | none => simp [viewTarget, hv] at h1
  | some v =>
    simp only [viewTarget, hv, Option.map_some, Option.some.injEq, Prod.mk.injEq] at h1
    obtain ⟨rfl, rfl⟩ := h1
    obtain ⟨P, hp, _⟩ := id h2
    rw [after_one]
    have hk' : HasKey (call env (.tSet i a) (after env (St.init root) ops)).2 v.leaf.param k :=
      h2.mono (call_pext _ hi) (call_rext _ hi)
    rw [tSet_eq] at hk' ⊢
    unfold result at h
    rw [tSet_eq] at h
    rcases setValues_marks (a := a) hi hv hp with ⟨_, hs⟩ | ⟨_, _, _, P', h3, h4⟩
    · rw [hs] at h; simp [Except.map] at h
    · have hinv := call_inv (.tSet i a) hi
      rw [tSet_eq] at hinv
      exact ⟨_, infoAt_of hinv.tree hk' h3, by simp [h4]⟩

/-- A refused assignment (here: of wrong length) makes an empty timeseries parameter non-empty:
the full claim of C21 fails for timeseries. -/
theorem C21_refused_assignment_counts :
    let ops : List (Op ℚ ℕ) := [points ["a"] "K" [0, 1, 2], .tSet 0 (nums [1, 2])]
    demo ops = [.ok (.view 0), .error .pointsValuesMismatch] ∧
    writes demoEnv "World" ops = [] ∧
    viewInfo demoEnv (demoSt ops) (.t 0) = some ⟨["a"], ["World"], some .point, some "K", false, 0⟩ ∧
    result demoEnv (demoSt ops) (.tGet 0) = .ok (.arr (.floats [.nan, .nan, .nan])) := by
  refine ⟨by decide +kernel, ?_, by decide +kernel, by decide +kernel⟩
  exact List.eq_nil_of_length_eq_zero (by decide +kernel)

/-- An accepted element assignment (through a view of a parameter that has children, so it should
have been refused, C08) does not make the parameter non-empty. -/
theorem C21_element_assignment_does_not_count :
    let ops : List (Op ℚ ℕ) := [points ["a", "b"] "K" [0, 1, 2], .tSet 0 (nums [1, 2, 3]),
      points ["a"] "K" [0, 1, 2], .tSetItem 1 [(0, .num 9)]]
    (demo ops).getLast? = some (.ok .done) ∧
    (writes demoEnv "World" ops).countP (fun e => decide (e.1 = (["World"], ["a"]))) = 1 ∧
    viewInfo demoEnv (demoSt ops) (.t 1)
      = some ⟨["a"], ["World"], some .point, some "K", true, 1⟩ := by decide +kernel

/-- **C21**: an empty parameter without children cannot be read. -/
theorem C21_read_empty {env : Env K} {s : St K G} (hs : Reachable env s) {i : Nat} {I : Info}
    (hc : ¬ HasChildren env s I.key) (he : I.empty = true) :
    (viewInfo env s (.s i) = some I → result env s (.sGet i) = .error .parameterEmpty) ∧
    (viewInfo env s (.g i) = some I → result env s (.gGet i) = .error .parameterEmpty) := by
  have hi := hs.inv
  refine ⟨fun hI => ?_, fun hI => ?_⟩
  · obtain ⟨v, P, hv, hp, hk, hI'⟩ := sview_of_info hi hI
    rw [not_hasChildren_iff hi.tree hk hp] at hc
    rw [hI'] at he
    have he : P.written = false := by simpa using he
    unfold result
    rw [sGet_eq hv]
    unfold scalarValue readScalarLeaf
    simp [hp, hc, he]; rfl
  · obtain ⟨v, P, hv, hp, hk, hI'⟩ := gview_of_info hi hI
    rw [hI'] at he
    have he : P.written = false := by simpa using he
    unfold result
    rw [gGet_eq hv]
    unfold genericValue
    simp [hp, he]; rfl

/-- Hypotheses of the C21 theorems met: one written and one empty parameter of each kind. -/
example : let ops : List (Op ℚ ℕ) := [.scalar (.str "T") "K" world, .scalar (.str "U") "K" world,
      .generic (.str "g") world, .generic (.str "h") world, points ["a"] "K" [0, 1],
      points ["b"] "K" [0, 1], .sSet 0 (.num 1), .gSet 0 7, .tSet 0 (nums [1, 2])]
    ([.s 0, .s 1, .g 0, .g 1, .t 0, .t 1] : List VRef).map
        (fun r => (viewInfo demoEnv (demoSt ops) r).map (·.empty))
      = [some false, some true, some false, some true, some false, some true] ∧
    ([.s 0, .s 1, .g 0, .g 1, .t 0, .t 1] : List VRef).map
        (fun r => result demoEnv (demoSt ops) (.ensure r))
      = [.ok .done, .error .parameterEmpty, .ok .done, .error .parameterEmpty, .ok .done,
        .error .parameterEmpty] ∧
    result demoEnv (demoSt ops) (.sGet 1) = .error .parameterEmpty ∧
    result demoEnv (demoSt ops) (.gGet 1) = .error .parameterEmpty ∧
    attempts demoEnv (St.init "World") ops = [(["World"], ["a"])] := by decide +kernel

end Openscm
