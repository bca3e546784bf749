import Verif.CoreRequest
import Verif.NamesProps

/-!
# C11, C17, C20, C21: what was left open

Names as strings or tuples in calls, empty timeseries, aggregated timeseries after the first read.
-/

set_option linter.unusedSectionVars false

namespace Openscm
variable {K G : Type} [Field K] [LinearOrder K] [IsStrictOrderedRing K]

/-! ## C17: calls -/

/-- The same call with another name and another region. -/
def renamed (op : Op K G) (n r : HName) : Op K G :=
  match op with
  | .scalar _ u _ => .scalar n u r
  | .timeseries _ u tps _ ty int ext => .timeseries n u tps r ty int ext
  | .generic _ _ => .generic n r
  | .info _ _ => .info n r
  | op => op

theorem getOrCreateRegion_parts {r r' : HName} (h : r.parts = r'.parts) :
    (getOrCreateRegion r : M K G Nat) = getOrCreateRegion r' := by
  unfold getOrCreateRegion; rw [h]

theorem getOrCreateParam_parts {n n' : HName} (h : n.parts = n'.parts) (r : Nat) :
    (getOrCreateParam n r : M K G Nat) = getOrCreateParam n' r := by
  unfold getOrCreateParam; rw [h]

theorem reach_parts {n n' r r' : HName} (hn : n.parts = n'.parts) (hr : r.parts = r'.parts) :
    (reach n r : M K G Nat) = reach n' r' := by
  unfold reach
  rw [getOrCreateRegion_parts hr]
  have : (fun r => getOrCreateParam n r : Nat → M K G Nat) = fun r => getOrCreateParam n' r := by
    funext r; exact getOrCreateParam_parts hn r
  rw [this]

/-- **C17**: a request of a view does the same, result and state, for a name (or a region) given as string and given
as tuple. -/
theorem C17_requests (env : Env K) (s : St K G) {op : Op K G} {nr : HName × HName} (hop : request op = some nr)
    {name region : List String} (hn : name ≠ []) (hr : region ≠ []) (hn' : ∀ p ∈ name, sepChar ∉ p.toList)
    (hr' : ∀ p ∈ region, sepChar ∉ p.toList) :
    call env (renamed op (.str (joinName name)) (.str (joinName region))) s
      = call env (renamed op (.seq name) (.seq region)) s := by
  have e1 := C17_str_eq_seq name hn hn'
  have e2 := C17_str_eq_seq region hr hr'
  have e : (reach (.str (joinName name)) (.str (joinName region)) : M K G Nat) = reach (.seq name) (.seq region) :=
    reach_parts e1 e2
  cases op <;> simp only [request, reduceCtorEq] at hop <;> simp only [renamed, call]
  · unfold scalarCall; rw [e]
  · unfold timeseriesCall; rw [e]
  · unfold genericCall; rw [e]

/-- **C17**, for `info`: the same, except for the name that is the empty string. -/
theorem C17_info_partial (env : Env K) (s : St K G) {name region : List String} (hn : name ≠ []) (hr : region ≠ [])
    (he : name ≠ [""]) (hn' : ∀ p ∈ name, sepChar ∉ p.toList) (hr' : ∀ p ∈ region, sepChar ∉ p.toList) :
    call env (.info (.str (joinName name)) (.str (joinName region))) s
      = call env (.info (.seq name) (.seq region)) s := by
  have e1 := C17_str_eq_seq name hn hn'
  have e2 := C17_str_eq_seq region hr hr'
  have ht : (HName.str (joinName name)).truthy = true := by
    simp only [HName.truthy, decide_eq_true_eq]
    intro h
    rw [h] at e1
    exact he (by rw [← show (HName.seq name).parts = name from rfl, ← e1]; decide)
  have ht' : (HName.seq name).truthy = true := by simpa [HName.truthy] using hn
  have f1 : findRegion s (.str (joinName region)) = findRegion s (.seq region) := by
    unfold findRegion; rw [e2]
  have f2 : ∀ r, findParam s r (.str (joinName name)) = findParam s r (.seq name) := by
    intro r; unfold findParam; rw [ht, ht', e1]
  have f3 : infoCall s (.str (joinName name)) (.str (joinName region)) = infoCall s (.seq name) (.seq region) := by
    unfold infoCall
    rw [f1]
    cases findRegion s (.seq region) with
    | error e => rfl
    | ok o =>
      cases o with
      | none => rfl
      | some r => simp only [f2]
  show (M.value (fun s => infoCall s (.str (joinName name)) (.str (joinName region))) >>= fun i =>
    (pure (Out.info i) : M K G (Out K G))) s = (M.value (fun s => infoCall s (.seq name) (.seq region)) >>= fun i =>
    (pure (Out.info i) : M K G (Out K G))) s
  rw [M.bind_apply, M.bind_apply, M.value_apply, M.value_apply, f3]

/-- **C17** fails for `info("")`: a parameter can be requested by the empty name, and `info(("",))` finds it, but
`info("")` raises `ValueError`. -/
theorem C17_empty_name :
    demo [.scalar (.str "") "K" world, .info (.seq [""]) world, .info (.str "") world]
      = [.ok (.view 0), .ok (.info (some ⟨[""], ["World"], some .scalar, some "K", true, 0⟩)), .error .valueError] := by
  decide +kernel

/-- Hypotheses of C17 met: three levels, one of them empty, and a subregion. -/
example : let name := ["Emissions", "", "x"]
    let region := ["World", "Sub"]
    name ≠ [] ∧ region ≠ [] ∧ name ≠ [""] ∧ (∀ p ∈ name, sepChar ∉ p.toList) ∧ (∀ p ∈ region, sepChar ∉ p.toList) ∧
    joinName name = "Emissions||x" ∧
    demo [.scalar (.str (joinName name)) "K" (.str (joinName region)), .sSet 0 (.num 3),
      .scalar (.seq name) "K" (.seq region), .sGet 1, .info (.str (joinName name)) (.str (joinName region))]
    = [.ok (.view 0), .ok .done, .ok (.view 1), .ok (.num (.num 3)),
      .ok (.info (some ⟨name, region, some .scalar, some "K", false, 1⟩))] := by
  decide +kernel

/-! ## C20: exactly -/

/-- **C20**, the case that violates it, exactly: once the type is recorded as generic, every request is granted. -/
theorem C20_granted_after {env : Env K} {s : St K G} (hs : Reachable env s) {name region : HName}
    {I : Info} (hI : infoAt env s (region.parts, name.parts) = some I) (ht : I.ptype = some .generic) :
    ∃ i, result env s (.generic name region) = .ok (.view i) := by
  have hi := hs.inv
  obtain ⟨p, P, g1, g2, rfl⟩ := (infoAt_some hi.tree).1 hI
  have hr : reach name region s = (.ok p, s) :=
    reach_existing (ns := []) hi.tree g1 (by simp)
  have e : call env (.generic name region) s = ((attemptRead p .generic none none >>= fun _ =>
      addGView { param := p, writable := false }) >>= fun i => (pure (.view i) : M K G (Out K G))) s := by
    show ((reach name region >>= _) >>= _) s = _
    rw [M.bind_apply, M.bind_ok hr]
    rfl
  unfold result
  rw [e]
  have : attemptRead p .generic none none s = (.ok (), s.setParam p (fun P => { P with readFrom := true })) := by
    unfold attemptRead
    rw [g2]
    simp only at ht
    simp [ht]
  refine ⟨s.gviews.length, ?_⟩
  rw [M.bind_apply, M.bind_ok this]
  rfl

/-! ## C21: empty timeseries -/

/-- What a view of a childless parameter has in its cache was read or written. -/
def CacheFilled (s : St K G) : Prop :=
  ∀ (i : Nat) (v : TView K) (P : Param K G), s.tviews[i]? = some v → v.leaf.data ≠ none →
    s.params[v.leaf.param]? = some P → P.children = [] → P.written = true

theorem mkTLeaf_data {env : Env K} {s : St K G} {u : String} {tps : List K} {ty : PType} {ext : Extrap} {p : Nat}
    {l : TLeaf K} (h : mkTLeaf env s u tps ty ext p = .ok l) : l.data = none := by
  unfold mkTLeaf at h
  repeat' split at h
  all_goals first | cases h; rfl | simp at h

theorem mkTView_data {env : Env K} {s : St K G} {p : Nat} {u : String} {tps : List K} {ty : PType} {ext : Extrap}
    {v : TView K} (h : mkTView env s p u tps ty ext = .ok v) : v.leaf.data = none := by
  unfold mkTView at h
  split at h
  · simp at h
  · split at h
    · simp at h
    · rename_i l hl
      split at h
      · injection h with h; subst h; exact mkTLeaf_data hl
      · split at h
        · simp at h
        · injection h with h; subst h; exact mkTLeaf_data hl

/-- An empty childless parameter cannot be read by a view without cache. -/
theorem readView_empty {s : St K G} {v : TView K} {P : Param K G} (hp : s.params[v.leaf.param]? = some P)
    (hc : P.children = []) (hw : P.written = false) (hd : v.leaf.data = none) :
    readView s v = (v, .error .parameterEmpty) := by
  unfold readView readLeaf leafValues refresh
  simp [hp, hc, hw, hd]

theorem hop_state {s : St K G} {i : Nat} {v : TView K} (hv : s.tviews[i]? = some v)
    (hd : v.leaf.data = none) {β : Type} (f : Arr K → M K G β) : ((handle i >>= f) s).2 = s := by
  have e : handle i s = (.error .badHandle, s) := by rw [handle_some hv, hd]
  rw [M.bind_error e]

/-- A view of an empty parameter stays without cache. -/
theorem empty_call {env : Env K} {s : St K G} (hi : Inv env s) {op : Op K G} {i : Nat} (ho : onT op = some i)
    {v v' : TView K} {P P' : Param K G} (hv : s.tviews[i]? = some v) (hp : s.params[v.leaf.param]? = some P)
    (hc : P.children = []) (hd : v.leaf.data = none) (hv' : (call env op s).2.tviews[i]? = some v')
    (hp' : (call env op s).2.params[v.leaf.param]? = some P') (hw' : P'.written = false) : v'.leaf.data = none := by
  obtain ⟨Q, hQ, hle⟩ := call_pext op hi _ P hp
  rw [hp'] at hQ; cases hQ
  have hw : P.written = false := by
    cases h : P.written with
    | false => rfl
    | true => rw [hle.written h] at hw'; simp at hw'
  have hr : readT i s = (.error .parameterEmpty, s) := by
    rw [readT_state hv, readView_empty hp hc hw hd, setT_id (f := fun _ => v) hv rfl]
  have same : (call env op s).2 = s → v'.leaf.data = none := by
    intro h; rw [h, hv] at hv'; cases hv'; exact hd
  cases op <;> simp only [onT, Option.some.injEq, reduceCtorEq] at ho <;> subst ho
  case tGet i => exact same (by show ((readT i >>= _) s).2 = s; rw [M.bind_error hr])
  case tSet i a =>
    exfalso
    rcases setValues_marks (a := a) hi hv hp with ⟨h, _⟩ | ⟨_, _, _, P2, h2, h3⟩
    · exact h hc
    · rw [tSet_eq] at hp'
      simp only at hp'
      rw [h2] at hp'; cases hp'
      rw [h3] at hw'; simp at hw'
  case tGetItem i j => exact same (by show ((readT i >>= _) s).2 = s; rw [M.bind_error hr])
  case tSetItem i ix => exact same (by show ((readT i >>= _) s).2 = s; rw [M.bind_error hr])
  case hGetItem i j => exact same (hop_state hv hd _)
  case hSetItem i ix =>
    refine same ?_
    show ((setItems env i ix >>= _) s).2 = s
    have : setItems env i ix s = (.error .badHandle, s) := by
      unfold setItems
      have e1 : M.look (fun s : St K G => s.tviews[i]?) s = (.ok v, s) := look_some hv
      rw [M.bind_ok e1, hd]; rfl
    rw [M.bind_error this]
  case hInplace i f => exact same (hop_state hv hd _)
  case tSetOwn i => exact same (hop_state hv hd _)
  case tLock i =>
    rw [tLock_eq env i s hv] at hv'
    simp only [setT_self, hv, Option.map_some, Option.some.injEq] at hv'
    subst hv'; exact hd
  case tUnlock i =>
    rw [tUnlock_eq env i s hv] at hv'
    have hv1 : (s.setT i (fun v => { v with locked := false })).tviews[i]? = some { v with locked := false } := by
      rw [setT_self, hv]; rfl
    rw [M.bind_error (writeT_nodata hv1 rfl hd)] at hv'
    simp only at hv'
    rw [hv1] at hv'; cases hv'; exact hd

theorem cacheFilled_call {env : Env K} {s : St K G} (hi : Inv env s) (h : CacheFilled s) (op : Op K G) :
    CacheFilled (call env op s).2 := by
  intro i v' P' hv' hd hp' hc
  cases hv : s.tviews[i]? with
  | none =>
    exfalso
    rcases op_cases op with ⟨nr, h1⟩ | h1 | ⟨j, x, rfl⟩ | ⟨j, g, rfl⟩ | ⟨j, h1⟩
    · rcases request_tviews env op nr h1 s with h2 | ⟨v, _, h2, _, _, _, h3⟩
      · rw [h2, hv] at hv'; simp at hv'
      · rw [h3] at hv'
        rcases getElem?_snoc_cases hv' with h4 | ⟨_, rfl⟩
        · rw [hv] at h4; simp at h4
        · exact hd h2
    · rw [looks_state env op h1, hv] at hv'; simp at hv'
    · cases hw : s.sviews[j]? with
      | none => rw [sSet_none hw, hv] at hv'; simp at hv'
      | some w =>
        obtain ⟨P, u, hp, _⟩ := (hi.good.sviews j w hw).ex
        by_cases hc : P.children = []
        · rw [sSet_leaf hi hw hp hc] at hv'
          exact absurd hv' (by rw [show (wroteS s j w x).tviews[i]? = s.tviews[i]? from rfl, hv]; simp)
        · rw [sSet_children hi hw hp hc, hv] at hv'; simp at hv'
    · cases hw : s.gviews[j]? with
      | none => rw [gSet_none hw, hv] at hv'; simp at hv'
      | some w =>
        obtain ⟨P, hp, _⟩ := hi.good.gviews j w hw
        by_cases hc : P.children = []
        · rw [gSet_leaf hi hw hp hc] at hv'
          exact absurd hv' (by rw [show (wroteG s j w g).tviews[i]? = s.tviews[i]? from rfl, hv]; simp)
        · rw [gSet_children hi hw hp hc, hv] at hv'; simp at hv'
    · by_cases hij : j = i
      · subst hij; rw [onT_none env op j h1 s hv, hv] at hv'; simp at hv'
      · cases hw : s.tviews[j]? with
        | none => rw [onT_none env op j h1 s hw, hv] at hv'; simp at hv'
        | some w =>
          have := (onT_fr env op j w.leaf.param h1 s (by rw [hw]; rfl)).tviews i (Ne.symm hij)
          rw [this, hv] at hv'; simp at hv'
  | some v =>
    obtain ⟨w, hw, hst⟩ := call_tview hi op hv
    rw [hv'] at hw; cases hw
    have hpar := stat_param hst
    rw [hpar] at hp'
    obtain ⟨P, hp, _, hr, _⟩ := (hi.good.tviews i v hv).ex
    obtain ⟨Q, hQ, hle⟩ := call_pext op hi _ P hp
    rw [hp'] at hQ; cases hQ
    rw [hle.frozen hr] at hc
    cases hd0 : v.leaf.data with
    | some d => exact hle.written (h i v P hv (by rw [hd0]; simp) hp hc)
    | none =>
      by_cases ho : onT op = some i
      · cases hw : P'.written with
        | true => rfl
        | false => exact absurd (empty_call hi ho hv hp hc hd0 hv' hp' hw) hd
      · rw [call_tview_other hi op hv ho] at hv'
        cases hv'
        exact absurd hd0 hd

theorem cacheFilled {env : Env K} {s : St K G} (hs : Reachable env s) : CacheFilled s := by
  obtain ⟨root, ops, rfl⟩ := hs
  have key : ∀ (ops : List (Op K G)) (s : St K G), Inv env s → CacheFilled s → CacheFilled (after env s ops) := by
    intro ops
    induction ops with
    | nil => intro s _ h; exact h
    | cons op ops ih => intro s hi h; rw [after_cons]; exact ih _ (call_inv op hi) (cacheFilled_call hi h op)
  refine key ops _ (Inv.init env root) ?_
  intro i v P hv
  simp [St.init] at hv

/-- **C21**, timeseries: an empty parameter without children cannot be read. -/
theorem C21_read_empty_timeseries {env : Env K} {s : St K G} (hs : Reachable env s) {i : Nat} {I : Info}
    (hI : viewInfo env s (.t i) = some I) (hc : ¬ HasChildren env s I.key) (he : I.empty = true) :
    result env s (.tGet i) = .error .parameterEmpty ∧
    ∀ j, result env s (.tGetItem i j) = .error .parameterEmpty := by
  have hi := hs.inv
  obtain ⟨v, P, hv, hp, hk, hI'⟩ := tview_of_info hi hI
  rw [not_hasChildren_iff hi.tree hk hp] at hc
  rw [hI'] at he
  have he : P.written = false := by simpa using he
  have hd : v.leaf.data = none := by
    cases h : v.leaf.data with
    | none => rfl
    | some d =>
      have := cacheFilled hs i v P hv (by rw [h]; simp) hp hc
      rw [he] at this; simp at this
  have hr : readT i s = (.error .parameterEmpty, s) := by
    rw [readT_state hv, readView_empty hp hc he hd, setT_id (f := fun _ => v) hv rfl]
  refine ⟨?_, fun j => ?_⟩
  · unfold result
    show ((readT i >>= _) s).1 = _
    rw [M.bind_error hr]
  · unfold result
    show ((readT i >>= _) s).1 = _
    rw [M.bind_error hr]

/-- Hypotheses met: views of an empty parameter, after unsuccessful reads and writes. -/
example : let ops : List (Op ℚ ℕ) := [points ["a"] "K" [0, 1, 2], points ["a"] "mK" [0, 1], .tGet 0,
      .tSetItem 1 [(0, .num 1)], .tLock 1, .hInplace 1 (· + 1), .tUnlock 1]
    (demo ops).drop 2 = [.error .parameterEmpty, .error .parameterEmpty, .ok .done, .error .badHandle,
      .error .typeError] ∧
    viewInfo demoEnv (demoSt ops) (.t 1) = some ⟨["a"], ["World"], some .point, some "mK", true, 0⟩ ∧
    result demoEnv (demoSt ops) (.tGet 1) = .error .parameterEmpty ∧
    result demoEnv (demoSt ops) (.tGetItem 1 0) = .error .parameterEmpty := by decide +kernel

/-! ## C11: after the first read -/

theorem tGet_ok_exact {env : Env K} {s : St K G} (hi : Inv env s) {i : Nat} {d : Arr K}
    (h : result env s (.tGet i) = .ok (.arr d)) : Synced (after env s [.tGet i]) i d := by
  obtain ⟨d', hd'⟩ := tGet_ok_synced hi h
  have : d' = d := by
    obtain ⟨v, P, h1, h2, _⟩ := id hd'
    cases hv : s.tviews[i]? with
    | none =>
      unfold result at h
      rw [onT_none env (.tGet i) i rfl s hv] at h; simp at h
    | some w =>
      rw [after_one, tGet_eq hv] at h1
      simp only [setT_self, hv, Option.map_some, Option.some.injEq] at h1
      subst h1
      unfold result at h
      rw [tGet_eq hv] at h
      unfold shown at h
      cases hx : (readView s w).2 with
      | error e => rw [hx] at h; simp at h
      | ok u => rw [hx, h2] at h; simpa using h
  exact this ▸ hd'

/-- No call of the history writes through a view of `k`. -/
def NoWrite (env : Env K) (s : St K G) (k : Key) (ops : List (Op K G)) : Prop :=
  ∀ a op b, ops = a ++ op :: b → ∀ r, writesView op = some r → viewKey env (after env s a) r ≠ some k

theorem noWrite_version {env : Env K} {k : Key} (ops : List (Op K G)) {s : St K G} (hs : Reachable env s)
    {I : Info} (hI : infoAt env s k = some I) (h : NoWrite env s k ops) :
    ∃ J, infoAt env (after env s ops) k = some J ∧ J.version = I.version := by
  induction ops generalizing s I with
  | nil => exact ⟨I, hI, rfl⟩
  | cons op ops ih =>
    obtain ⟨p, P, hk, hp, rfl⟩ := (infoAt_some hs.inv.tree).1 hI
    obtain ⟨P', hp', _⟩ := call_pext op hs.inv _ P hp
    have hJ := infoAt_of (env := env) (call_inv op hs.inv).tree
      (hk.mono (call_pext op hs.inv) (call_rext op hs.inv)) hp'
    have h1 : (⟨k.2, k.1, P'.ptype, P'.unit, !P'.written, P'.version⟩ : Info).version = P.version := by
      rcases C14_one_step (op := op) hs hI (by rw [after_one]; exact hJ) with h1 | ⟨_, r, h2, h3⟩
      · exact h1
      · exact absurd h3 (h [] op ops rfl r h2)
    rw [after_cons]
    obtain ⟨J, h2, h3⟩ := ih (hs.call op) hJ (fun a o b e r hr => by
      have := h (op :: a) o b (by rw [e]; rfl) r hr
      rwa [after_cons] at this)
    exact ⟨J, h2, h3.trans h1⟩

/-- **C11**, the case that violates it, exactly: once read, an aggregated timeseries view (and every other timeseries
view) shows the same numbers for ever, whatever is written to other parameters, in particular to its children, as long
as nothing is written through views of the parameter itself. -/
theorem C11_frozen {env : Env K} {s : St K G} (hs : Reachable env s) {i : Nat} {k : Key} {d : Arr K}
    (hk : viewKey env s (.t i) = some k) (h : result env s (.tGet i) = .ok (.arr d)) {post : List (Op K G)}
    (hpost : NoWrite env s k (.tGet i :: post)) :
    result env (after env s (.tGet i :: post)) (.tGet i) = .ok (.arr d) := by
  have hi := hs.inv
  have h1 := tGet_ok_exact hi h
  have hs1 : Reachable env (after env s [.tGet i]) := hs.after _
  have hk1 := viewKey_call hi (.tGet i) hk
  have hn : NoWrite env (after env s [.tGet i]) k post := fun a o b e r hr => by
    have := hpost (.tGet i :: a) o b (by rw [e]; rfl) r hr
    rw [after_cons] at this
    rwa [after_one]
  have he : after env s (.tGet i :: post) = after env (after env s [.tGet i]) post := by
    rw [after_cons, after_one]
  rw [he]
  obtain ⟨v, hv, hkv⟩ := tview_of_key hs1.inv hk1
  obtain ⟨P, hp, _⟩ := id hkv
  have hI := infoAt_of (env := env) hs1.inv.tree hkv hp
  obtain ⟨J, hJ, hver⟩ := noWrite_version post hs1 hI hn
  unfold result
  rw [tGet_synced (synced_later hs1.inv h1 hk1 (post := post) ?_ ?_)]
  · intro op hop hw
    obtain ⟨a, b, rfl⟩ := List.append_of_mem hop
    refine hn a op b rfl _ hw ?_
    clear hn hJ
    exact after_viewKey hs1.inv a hk1
  · unfold versionAt
    rw [hJ, hI]
    simp [hver]

/-- Hypotheses met, and the claim of C11 violated: the sum stays although both children are written. -/
example : let pre : List (Op ℚ ℕ) := [points ["a", "b"] "K" [0, 1, 2], points ["a", "c"] "K" [0, 1, 2],
      .tSet 0 (nums [1, 1, 1]), .tSet 1 (nums [2, 3, 4]), points ["a"] "K" [0, 1, 2]]
    let post : List (Op ℚ ℕ) := [.tSet 0 (nums [7, 7, 7]), .tSet 1 (nums [8, 8, 8]), .tGet 0]
    viewKey demoEnv (demoSt pre) (.t 2) = some (["World"], ["a"]) ∧
    result demoEnv (demoSt pre) (.tGet 2) = .ok (.arr (nums [3, 4, 5])) ∧
    ((.tGet 2 :: post).filterMap writesView : List VRef) = [.t 0, .t 1] ∧
    ([.t 0, .t 1] : List VRef).map (viewKey demoEnv (demoSt pre))
      = [some (["World"], ["a", "b"]), some (["World"], ["a", "c"])] ∧
    result demoEnv (demoSt (pre ++ .tGet 2 :: post)) (.tGet 2) = .ok (.arr (nums [3, 4, 5])) := by decide +kernel

end Openscm
