import Verif.CoreKids

/-!
# C08, C15, C18, C20: isolation and refusals
-/

set_option linter.unusedSectionVars false

namespace Openscm
variable {K G : Type} [Field K] [LinearOrder K] [IsStrictOrderedRing K]

/-! ## C15 -/

theorem Frame.exists {r : VRef} {p : Nat} {s s' : St K G} (h : Frame r p s s')
    (hp : ∃ P, s.params[p]? = some P) {q : Nat} {Q : Param K G} (hq : s'.params[q]? = some Q) :
    ∃ Q', s.params[q]? = some Q' := by
  by_cases hqp : q = p
  · subst hqp; exact hp
  · rw [h.params q hqp] at hq; exact ⟨Q, hq⟩

/-- Calls on views neither create nor rename parameters. -/
theorem Frame.key {env : Env K} {r : VRef} {p : Nat} {s s' : St K G} (h : Frame r p s s')
    (hi : Inv env s) (hx : PExt s s') (hp : ∃ P, s.params[p]? = some P) {q : Nat} {k : Key} :
    HasKey s' q k ↔ HasKey s q k := by
  constructor
  · intro hk
    obtain ⟨Q, h1, _⟩ := id hk
    obtain ⟨Q', h2⟩ := h.exists hp h1
    obtain ⟨k', h3⟩ := HasKey.exists hi.tree h2
    have := h3.mono hx (.of_eq h.regions)
    rw [hk.det this]; exact h3
  · intro hk; exact hk.mono hx (.of_eq h.regions)

/-- What a call on a view, which is a view of another parameter, leaves alone. -/
theorem call_other {env : Env K} {s : St K G} (hi : Inv env s) {op : Op K G} {r : VRef}
    (hr : callee op = some r) {k' : Key} (hk' : viewKey env s r = some k') :
    ∃ p, HasKey s p k' ∧ Frame r p s (call env op s).2 ∧
      ∀ q k, HasKey s q k → k ≠ k' → (call env op s).2.params[q]? = s.params[q]? := by
  obtain ⟨p, u, h1, h2⟩ := (viewKey_some hi).1 hk'
  rcases call_frame hi hr with ⟨p', u', h3, h4⟩ | ⟨h3, _⟩
  · rw [h1] at h3; cases h3
    refine ⟨p, h2, h4, fun q k hq hne => h4.params q ?_⟩
    rintro rfl
    exact hne (hq.det h2)
  · rw [h1] at h3; simp at h3

/-- **C15**: a call on a view leaves all that `info` reports about every other parameter as it
was. -/
theorem C15_info {env : Env K} {s : St K G} (hs : Reachable env s) {op : Op K G} {r : VRef}
    (hr : callee op = some r) {k : Key} (hk : viewKey env s r ≠ some k) :
    infoAt env (after env s [op]) k = infoAt env s k := by
  have hi := hs.inv
  rw [after_one]
  have hi' := call_inv op hi
  cases hv : viewKey env s r with
  | none =>
    rcases call_frame hi hr with ⟨p, u, h3, _⟩ | ⟨_, h4⟩
    · exfalso
      obtain ⟨P, hP, _⟩ := viewTarget_param hi h3
      obtain ⟨k', hk'⟩ := HasKey.exists hi.tree hP
      rw [(viewKey_some hi).2 ⟨p, u, h3, hk'⟩] at hv; simp at hv
    · rw [h4]
  | some k' =>
    obtain ⟨p, h1, h2, h3⟩ := call_other hi hr hv
    have hne : k ≠ k' := by rintro rfl; exact hk hv
    have hp : ∃ P, s.params[p]? = some P := by obtain ⟨P, h, _⟩ := h1; exact ⟨P, h⟩
    cases hI : infoAt env s k with
    | some I =>
      obtain ⟨q, Q, g1, g2, rfl⟩ := (infoAt_some hi.tree).1 hI
      exact infoAt_of hi'.tree ((h2.key hi (call_pext op hi) hp).2 g1) (by rw [h3 q k g1 hne]; exact g2)
    | none =>
      rw [infoAt_none hi.tree] at hI
      rw [infoAt_none hi'.tree]
      rintro ⟨q, hq⟩
      exact hI ⟨q, (h2.key hi (call_pext op hi) hp).1 hq⟩

theorem sumScalarKids_congr {s s' : St K G} {ks : List (Nat × Conv K)}
    (h : ∀ k ∈ ks, s'.params[k.1]? = s.params[k.1]?) (acc : Fl K) :
    sumScalarKids s' acc ks = sumScalarKids s acc ks := by
  induction ks generalizing acc with
  | nil => rfl
  | cons k ks ih =>
    obtain ⟨p, c⟩ := k
    have e : readScalarLeaf s' p c = readScalarLeaf s p c := by
      unfold readScalarLeaf
      rw [show s'.params[p]? = s.params[p]? from h (p, c) (by simp)]
    simp only [sumScalarKids, e]
    cases readScalarLeaf s p c with
    | error e => rfl
    | ok x => exact ih (fun k hk => h k (by simp [hk])) _

theorem scalarValue_congr {s s' : St K G} {v w : SView K} (hw : w.stat = v.stat)
    (h : s'.params[v.param]? = s.params[v.param]?)
    (hk : ∀ ks, v.kids = some ks → ∀ k ∈ ks, s'.params[k.1]? = s.params[k.1]?) :
    scalarValue s' w = scalarValue s v := by
  simp only [SView.stat, Prod.mk.injEq] at hw
  obtain ⟨e1, e2, e3⟩ := hw
  unfold scalarValue readScalarLeaf
  rw [e1, e2, e3, h]
  cases s.params[v.param]? with
  | none => rfl
  | some P =>
    simp only
    split
    · cases hks : v.kids with
      | none => rfl
      | some ks => exact sumScalarKids_congr (hk ks hks) _
    · rfl

theorem leafValues_congr {s s' : St K G} {v : TLeaf K}
    (h : s'.params[v.param]? = s.params[v.param]?) : leafValues s' v = leafValues s v := by
  unfold leafValues; rw [h]

theorem readLeaf_congr {s s' : St K G} {v : TLeaf K}
    (h : s'.params[v.param]? = s.params[v.param]?) : readLeaf s' v = readLeaf s v := by
  unfold readLeaf; rw [h, leafValues_congr h]

theorem sumKids_congr {s s' : St K G} {ks : List (TLeaf K)}
    (h : ∀ k ∈ ks, s'.params[k.param]? = s.params[k.param]?) (acc : Option (List (Fl K))) :
    sumKids s' acc ks = sumKids s acc ks := by
  induction ks generalizing acc with
  | nil => rfl
  | cons k ks ih =>
    simp only [sumKids, readLeaf_congr (h k (by simp))]
    cases readLeaf s k with
    | error e => rfl
    | ok x => simp only [ih (fun k hk => h k (by simp [hk]))]

theorem readView_congr {s s' : St K G} {v : TView K}
    (h : s'.params[v.leaf.param]? = s.params[v.leaf.param]?)
    (hk : ∀ ks, v.kids = some ks → ∀ k ∈ ks, s'.params[k.param]? = s.params[k.param]?) :
    readView s' v = readView s v := by
  unfold readView
  rw [h, readLeaf_congr h]
  cases s.params[v.leaf.param]? with
  | none => rfl
  | some P =>
    simp only
    split
    · split
      · rfl
      · cases hks : v.kids with
        | none => rfl
        | some ks => simp only [sumKids_congr (hk ks hks)]
    · rfl

/-- The array a timeseries view shows. -/
def shown (x : TView K × Except Err Unit) : Res K G :=
  match x.2 with
  | .error e => .error e
  | .ok _ =>
    match x.1.leaf.data with
    | none => .error .badHandle
    | some d => .ok (.arr d)

theorem tGet_eq {env : Env K} {s : St K G} {i : Nat} {v : TView K} (hv : s.tviews[i]? = some v) :
    call env (.tGet i) s
      = (shown (readView s v), s.setT i (fun _ => (readView s v).1)) := by
  show (readT i >>= fun _ => (handle i >>= fun d => (pure (Out.arr d) : M K G (Out K G)))) s = _
  have h1 := readT_state hv
  unfold shown
  cases hr : (readView s v).2 with
  | error e =>
    rw [hr] at h1
    rw [M.bind_error h1]
  | ok u =>
    rw [hr] at h1
    rw [M.bind_ok h1]
    have h2 : (s.setT i (fun _ => (readView s v).1)).tviews[i]? = some (readView s v).1 := by
      rw [setT_self, hv]; rfl
    have h3 := handle_some h2
    cases hd : (readView s v).1.leaf.data with
    | none => rw [hd] at h3; rw [M.bind_error h3]
    | some d => rw [hd] at h3; rw [M.bind_ok h3]; rfl

theorem sview_of_key {env : Env K} {s : St K G} (hi : Inv env s) {j : Nat} {k : Key}
    (h : viewKey env s (.s j) = some k) : ∃ v, s.sviews[j]? = some v ∧ HasKey s v.param k := by
  obtain ⟨p, u, h1, h2⟩ := (viewKey_some hi).1 h
  cases hv : s.sviews[j]? with
  | none => simp [viewTarget, hv] at h1
  | some v =>
    simp only [viewTarget, hv, Option.map_some, Option.some.injEq, Prod.mk.injEq] at h1
    obtain ⟨rfl, rfl⟩ := h1
    exact ⟨v, rfl, h2⟩

theorem gview_of_key {env : Env K} {s : St K G} (hi : Inv env s) {j : Nat} {k : Key}
    (h : viewKey env s (.g j) = some k) : ∃ v, s.gviews[j]? = some v ∧ HasKey s v.param k := by
  obtain ⟨p, u, h1, h2⟩ := (viewKey_some hi).1 h
  cases hv : s.gviews[j]? with
  | none => simp [viewTarget, hv] at h1
  | some v =>
    simp only [viewTarget, hv, Option.map_some, Option.some.injEq, Prod.mk.injEq] at h1
    obtain ⟨rfl, rfl⟩ := h1
    exact ⟨v, rfl, h2⟩

theorem tview_of_key {env : Env K} {s : St K G} (hi : Inv env s) {j : Nat} {k : Key}
    (h : viewKey env s (.t j) = some k) : ∃ v, s.tviews[j]? = some v ∧ HasKey s v.leaf.param k := by
  obtain ⟨p, u, h1, h2⟩ := (viewKey_some hi).1 h
  cases hv : s.tviews[j]? with
  | none => simp [viewTarget, hv] at h1
  | some v =>
    simp only [viewTarget, hv, Option.map_some, Option.some.injEq, Prod.mk.injEq] at h1
    obtain ⟨rfl, rfl⟩ := h1
    exact ⟨v, rfl, h2⟩

/-- **C15**: what a scalar view reads does not depend on calls on views of other parameters, unless
these lie below its own parameter. -/
theorem C15_scalar_value {env : Env K} {s : St K G} (hs : Reachable env s) {op : Op K G} {r : VRef}
    (hr : callee op = some r) {k k' : Key} {j : Nat} (hk' : viewKey env s r = some k')
    (hk : viewKey env s (.s j) = some k) (hne : ¬ k.Above k') :
    result env (after env s [op]) (.sGet j) = result env s (.sGet j) := by
  have hi := hs.inv
  obtain ⟨p, h1, h2, h3⟩ := call_other hi hr hk'
  obtain ⟨v, hv, hkv⟩ := sview_of_key hi hk
  have hw := h2.sviews j
  rw [hv, Option.map_some, Option.map_eq_some_iff] at hw
  obtain ⟨w, hw1, hw2⟩ := hw
  have ne : ∀ q k1, HasKey s q k1 → k.Above k1 → (call env op s).2.params[q]? = s.params[q]? :=
    fun q k1 hq ha => h3 q k1 hq (by rintro rfl; exact hne ha)
  rw [after_one]
  unfold result
  rw [sGet_eq hv, sGet_eq hw1]
  simp only
  rw [scalarValue_congr hw2 (ne _ k hkv (.refl k)) (fun ks hks kd hkd => ?_)]
  obtain ⟨k1, g1, g2⟩ := (hs.kids.sv j v hv ks hks kd hkd).above hi.tree hkv
  exact ne _ k1 g1 g2

/-- **C15**: what a generic view reads does not depend on calls on views of other parameters. -/
theorem C15_generic_value {env : Env K} {s : St K G} (hs : Reachable env s) {op : Op K G}
    {r : VRef} (hr : callee op = some r) {k k' : Key} {j : Nat} (hk' : viewKey env s r = some k')
    (hk : viewKey env s (.g j) = some k) (hne : k ≠ k') :
    result env (after env s [op]) (.gGet j) = result env s (.gGet j) := by
  have hi := hs.inv
  obtain ⟨p, h1, h2, h3⟩ := call_other hi hr hk'
  obtain ⟨v, hv, hkv⟩ := gview_of_key hi hk
  have hw := h2.gviews j
  rw [hv, Option.map_some, Option.map_eq_some_iff] at hw
  obtain ⟨w, hw1, hw2⟩ := hw
  rw [after_one]
  unfold result
  rw [gGet_eq hv, gGet_eq hw1]
  have : genericValue (call env op s).2 w = genericValue s v := by
    unfold genericValue
    rw [hw2, h3 _ k hkv hne]
  rw [this]

/-- **C15**: what a timeseries view reads does not depend on calls on views of other parameters,
unless these lie below its own parameter. -/
theorem C15_timeseries_values {env : Env K} {s : St K G} (hs : Reachable env s) {op : Op K G}
    {r : VRef} (hr : callee op = some r) {k k' : Key} {j : Nat} (hk' : viewKey env s r = some k')
    (hk : viewKey env s (.t j) = some k) (hne : ¬ k.Above k') :
    result env (after env s [op]) (.tGet j) = result env s (.tGet j) := by
  have hi := hs.inv
  obtain ⟨p, h1, h2, h3⟩ := call_other hi hr hk'
  obtain ⟨v, hv, hkv⟩ := tview_of_key hi hk
  have hrj : r ≠ .t j := by
    rintro rfl
    rw [hk] at hk'; cases hk'
    exact hne (.refl k)
  have hw := h2.tviews j hrj
  rw [hv] at hw
  have ne : ∀ q k1, HasKey s q k1 → k.Above k1 → (call env op s).2.params[q]? = s.params[q]? :=
    fun q k1 hq ha => h3 q k1 hq (by rintro rfl; exact hne ha)
  rw [after_one]
  unfold result
  rw [tGet_eq hv, tGet_eq hw]
  simp only
  rw [readView_congr (ne _ k hkv (.refl k)) (fun ks hks kd hkd => ?_)]
  obtain ⟨k1, g1, g2⟩ := (hs.kids.tv j v hv ks hks kd hkd).above hi.tree hkv
  exact ne _ k1 g1 g2

/-- **C15**: in particular a call on a view in one region never changes what is read in another. -/
theorem C15_regions {env : Env K} {s : St K G} (hs : Reachable env s) {op : Op K G}
    {r : VRef} (hr : callee op = some r) {k k' : Key} (hk' : viewKey env s r = some k')
    (hne : k.1 ≠ k'.1) :
    infoAt env (after env s [op]) k = infoAt env s k ∧ ∀ j,
    (viewKey env s (.s j) = some k →
      result env (after env s [op]) (.sGet j) = result env s (.sGet j)) ∧
    (viewKey env s (.g j) = some k →
      result env (after env s [op]) (.gGet j) = result env s (.gGet j)) ∧
    (viewKey env s (.t j) = some k →
      result env (after env s [op]) (.tGet j) = result env s (.tGet j)) := by
  have hk : k ≠ k' := by rintro rfl; exact hne rfl
  have ha : ¬ k.Above k' := fun h => hne h.1
  refine ⟨C15_info hs hr (by rw [hk']; simpa using hk.symm), fun j => ⟨?_, ?_, ?_⟩⟩
  · exact fun h => C15_scalar_value hs hr hk' h ha
  · exact fun h => C15_generic_value hs hr hk' h hk
  · exact fun h => C15_timeseries_values hs hr hk' h ha

/-- Hypotheses of C15 met: the same name in a region and in its subregion, all kinds. -/
example : let sub : HName := .seq ["World", "Sub"]
    let ops : List (Op ℚ ℕ) := [.scalar (.str "T") "K" world, .scalar (.str "T") "K" sub,
      points ["a"] "K" [0, 1, 2], .timeseries (.str "a") "K" [0, 1, 2] sub (.str "point")
        (.str "linear") (.str "none"), .sSet 0 (.num 1), .tSet 0 (nums [1, 2, 3])]
    viewKey demoEnv (demoSt ops) (.t 1) = some (["World", "Sub"], ["a"]) ∧
    viewKey demoEnv (demoSt ops) (.t 0) = some (["World"], ["a"]) ∧
    ¬ Key.Above (["World"], ["a"]) (["World", "Sub"], ["a"]) ∧
    result demoEnv (demoSt ops) (.tSet 1 (nums [4, 5, 6])) = .ok .done ∧
    result demoEnv (demoSt (ops ++ [.tSet 1 (nums [4, 5, 6])])) (.tGet 0)
      = .ok (.arr (nums [1, 2, 3])) := by decide +kernel

/-! ## C18 -/

/-- **C18** for scalar views: a refused write changes nothing at all. -/
theorem C18_scalar {env : Env K} {s : St K G} (hs : Reachable env s) {i : Nat} {x : Fl K} {e : Err}
    (h : result env s (.sSet i x) = .error e) : after env s [.sSet i x] = s := by
  have hi := hs.inv
  rw [after_one]
  unfold result at h
  cases hv : s.sviews[i]? with
  | none => rw [sSet_none hv]
  | some v =>
    obtain ⟨P, u, hp, _⟩ := (hi.good.sviews i v hv).ex
    by_cases hc : P.children = []
    · rw [sSet_leaf hi hv hp hc] at h; simp at h
    · rw [sSet_children hi hv hp hc]

/-- **C18** for generic views: a refused write changes nothing at all. -/
theorem C18_generic {env : Env K} {s : St K G} (hs : Reachable env s) {i : Nat} {g : G} {e : Err}
    (h : result env s (.gSet i g) = .error e) : after env s [.gSet i g] = s := by
  have hi := hs.inv
  rw [after_one]
  unfold result at h
  cases hv : s.gviews[i]? with
  | none => rw [gSet_none hv]
  | some v =>
    obtain ⟨P, hp, _⟩ := hi.good.gviews i v hv
    by_cases hc : P.children = []
    · rw [gSet_leaf hi hv hp hc] at h; simp at h
    · rw [gSet_children hi hv hp hc]

/-- **C18** for timeseries views, when the parameter has children. -/
theorem C18_readonly {env : Env K} {s : St K G} (hs : Reachable env s) {i : Nat} {a : Arr K}
    (h : result env s (.tSet i a) = .error .parameterReadonly) : after env s [.tSet i a] = s := by
  have hi := hs.inv
  rw [after_one]
  unfold result at h
  rw [tSet_eq] at h ⊢
  cases hv : s.tviews[i]? with
  | none =>
    have : setValues i a s = (.error .badHandle, s) := M.bind_error (checkWrite_none hv)
    rw [this]
  | some v =>
    obtain ⟨P, hp, _⟩ := (hi.good.tviews i v hv).ex
    rcases setValues_marks (a := a) hi hv hp with ⟨_, h1⟩ | ⟨_, h1, _⟩
    · rw [h1]
    · exfalso
      cases hr : (setValues i a s).1 with
      | error e =>
        simp only [hr, Except.map, Except.error.injEq] at h
        subst h; exact h1 hr
      | ok u => simp [hr, Except.map] at h

/-- A refused whole-array assignment: the parameter is marked as written, and the view's cache may
have changed; nothing else. -/
theorem setValues_refused {env : Env K} {s : St K G} (hi : Inv env s) {i : Nat} {a : Arr K}
    {v : TView K} (hv : s.tviews[i]? = some v) {e : Err} (h : (setValues i a s).1 = .error e) :
    (setValues i a s).2 = s ∨ (setValues i a s).2 = marked s i v ∨
      ∃ d, (setValues i a s).2 = cached (marked s i v) i d := by
  obtain ⟨P, hp, _⟩ := (hi.good.tviews i v hv).ex
  by_cases hc : P.children = []
  · by_cases ha : a.length = v.leaf.ts.targetLength
    · cases hd : newCache v.leaf.data a with
      | error e' => right; left; rw [setValues_dtype hi hv hp hc ha hd]
      | ok d =>
        have hw := setValues_write hi hv hp hc ha hd
        rw [hw] at h ⊢
        have h1 := cached_view (d := d) (marked_view hv)
        have h2 : (cached (marked s i v) i d).params[v.leaf.param]? = some { P with written := true } :=
          marked_param (i := i) hp
        have h3 := writeT_cases h1 rfl h2
        generalize writeT i (cached (marked s i v) i d) = x at h h3
        cases h3 with
        | locked _ => simp at h
        | refused _ _ _ => right; right; exact ⟨d, rfl⟩
        | stored _ _ _ => simp at h
    · right; left; rw [setValues_mismatch hi hv hp hc ha]
  · left; rw [setValues_children hi hv hp hc]

/-- **C18**, partial for timeseries: a refused whole-array assignment leaves type, unit and version
of the parameter alone, and if the parameter had been written before, every other view reads what
it read before. Missing from the full claim: the parameter is marked as written
(`C18_refused_marks_written`), and the view itself may show the refused array
(`C18_refused_stays_visible`). -/
theorem C18_timeseries_partial {env : Env K} {s : St K G} (hs : Reachable env s) {i : Nat}
    {a : Arr K} {e : Err} (h : result env s (.tSet i a) = .error e) {k : Key} {I : Info}
    (hk : viewKey env s (.t i) = some k) (hI : infoAt env s k = some I) :
    (∃ b, infoAt env (after env s [.tSet i a]) k = some { I with empty := b }) ∧
    (I.empty = false → infoAt env (after env s [.tSet i a]) k = some I ∧
      ∀ j, j ≠ i → result env (after env s [.tSet i a]) (.tGet j) = result env s (.tGet j)) := by
  have hi := hs.inv
  obtain ⟨v, hv, hkv⟩ := tview_of_key hi hk
  obtain ⟨p, P, g1, g2, rfl⟩ := (infoAt_some hi.tree).1 hI
  obtain rfl := g1.inj hi.tree hkv
  have hi' := call_inv (.tSet i a) hi
  have hk' : HasKey (call env (.tSet i a) s).2 v.leaf.param k :=
    hkv.mono (call_pext _ hi) (call_rext _ hi)
  rw [after_one]
  have h' : (setValues i a s).1 = .error e := by
    unfold result at h
    rw [tSet_eq] at h
    cases hr : (setValues i a s).1 with
    | error e' => simp only [hr, Except.map, Except.error.injEq] at h; rw [h]
    | ok u => simp [hr, Except.map] at h
  rw [tSet_eq] at hi' hk' ⊢
  simp only at hi' hk' ⊢
  -- parameters and other views afterwards
  have key : (∃ w, (setValues i a s).2.params[v.leaf.param]? = some { P with written := w }) ∧
      (P.written = true → ∀ q : Nat, (setValues i a s).2.params[q]? = s.params[q]?) ∧
      ∀ j : Nat, j ≠ i → (setValues i a s).2.tviews[j]? = s.tviews[j]? := by
    have hm : ∀ q : Nat, P.written = true → (marked s i v).params[q]? = s.params[q]? := by
      intro q hw
      show (s.setParam v.leaf.param _).params[q]? = _
      rw [setParam_id g2 (by cases P; simp_all)]
    have hm2 : ∀ j : Nat, j ≠ i → (marked s i v).tviews[j]? = s.tviews[j]? :=
      fun j hj => setT_ne _ _ (Ne.symm hj)
    rcases setValues_refused hi hv h' with h1 | h1 | ⟨d, h1⟩ <;> rw [h1]
    · exact ⟨⟨P.written, g2⟩, fun _ _ => rfl, fun _ _ => rfl⟩
    · exact ⟨⟨true, marked_param (i := i) g2⟩, fun hw q => hm q hw, hm2⟩
    · refine ⟨⟨true, marked_param (i := i) g2⟩, fun hw q => hm q hw, fun j hj => ?_⟩
      rw [← hm2 j hj]
      exact setT_ne _ _ (Ne.symm hj)
  obtain ⟨⟨w, k1⟩, k2, k3⟩ := key
  refine ⟨⟨!w, infoAt_of hi'.tree hk' k1⟩, fun he => ?_⟩
  have hw : P.written = true := by simpa using he
  have k2 := k2 hw
  refine ⟨?_, fun j hj => ?_⟩
  · rw [infoAt_of hi'.tree hk' (by rw [k2]; exact g2)]
  · cases hvj : s.tviews[j]? with
    | none =>
      unfold result
      rw [onT_none env (.tGet j) j rfl s hvj, onT_none env (.tGet j) j rfl _ (by rw [k3 j hj]; exact hvj)]
    | some vj =>
      unfold result
      rw [tGet_eq hvj, tGet_eq (by rw [k3 j hj]; exact hvj), readView_congr (k2 _) (fun _ _ _ _ => k2 _)]

/-- A refused assignment marks an empty parameter as written, and reading it then returns NaN
instead of raising: the full claim of C18 fails. -/
theorem C18_refused_marks_written :
    let pre : List (Op ℚ ℕ) := [points ["a"] "K" [0, 1, 2]]
    let op : Op ℚ ℕ := .tSet 0 (nums [1, 2])
    result demoEnv (demoSt pre) (.tGet 0) = .error .parameterEmpty ∧
    result demoEnv (demoSt pre) op = .error .pointsValuesMismatch ∧
    result demoEnv (demoSt (pre ++ [op])) (.tGet 0)
      = .ok (.arr (.floats [.nan, .nan, .nan])) := by decide +kernel

/-- An assignment that raises because the time points of the view do not cover those of the
parameter is nevertheless shown by the view itself. -/
theorem C18_refused_stays_visible :
    let pre : List (Op ℚ ℕ) := [points ["a"] "K" [0, 1, 2, 3], points ["a"] "K" [1, 2],
      .tSet 0 (nums [0, 10, 20, 30]), .tGet 1]
    let op : Op ℚ ℕ := .tSet 1 (nums [7, 8])
    result demoEnv (demoSt pre) (.tGet 1) = .ok (.arr (nums [10, 20])) ∧
    result demoEnv (demoSt pre) op = .error .insufficientData ∧
    result demoEnv (demoSt (pre ++ [op])) (.tGet 1) = .ok (.arr (nums [7, 8])) ∧
    result demoEnv (demoSt (pre ++ [op])) (.tGet 0) = .ok (.arr (nums [0, 10, 20, 30])) := by
  decide +kernel

/-! ## C08 -/

/-- Element assignment to a parameter with children is accepted, changes the version, and the
view then shows values that are not the sum of the children: the claim of C08 fails. -/
theorem C08_element_assignment_accepted :
    let pre : List (Op ℚ ℕ) := [points ["a", "b"] "K" [0, 1, 2], .tSet 0 (nums [1, 2, 3]),
      points ["a"] "K" [0, 1, 2]]
    let op : Op ℚ ℕ := .tSetItem 1 [(0, .num 9)]
    result demoEnv (demoSt pre) (.tSet 1 (nums [9, 9, 9])) = .error .parameterReadonly ∧
    result demoEnv (demoSt pre) op = .ok .done ∧
    result demoEnv (demoSt (pre ++ [op])) (.tGet 1) = .ok (.arr (nums [9, 2, 3])) ∧
    result demoEnv (demoSt (pre ++ [op])) (.tGet 0) = .ok (.arr (nums [1, 2, 3])) ∧
    (viewInfo demoEnv (demoSt pre) (.t 1)).map (·.version) = some 0 ∧
    (viewInfo demoEnv (demoSt (pre ++ [op])) (.t 1)).map (·.version) = some 1 := by decide +kernel

/-- **C08**, partial: whole-array assignment, also of the view's own handle, to a parameter with
children raises `ParameterReadonlyError` and changes nothing; element assignment and in-place
operations leave every other parameter, in particular the children, as they were. Missing: that
element assignment is refused, which is false (`C08_element_assignment_accepted`). -/
theorem C08_partial {env : Env K} {s : St K G} (hs : Reachable env s) {i : Nat} {k : Key}
    (hk : viewKey env s (.t i) = some k) (hc : HasChildren env s k) :
    (∀ a, result env s (.tSet i a) = .error .parameterReadonly ∧ after env s [.tSet i a] = s) ∧
    (∀ op, callee op = some (.t i) → ∀ k', k' ≠ k →
      infoAt env (after env s [op]) k' = infoAt env s k') := by
  have hi := hs.inv
  obtain ⟨v, hv, hkv⟩ := tview_of_key hi hk
  obtain ⟨P, hp, _⟩ := id hkv
  have hne := (hasChildren_iff hi.tree hkv hp).1 hc
  refine ⟨fun a => ?_, fun op ho k' hk' => C15_info hs ho (by rw [hk]; simpa using hk'.symm)⟩
  rw [after_one]
  unfold result
  rw [tSet_eq, setValues_children hi hv hp hne]
  exact ⟨rfl, rfl⟩

/-! ## C20 -/

/-- Only the first request of a generic view of a parameter with children is refused: the claim of
C20 fails. -/
theorem C20_second_request_accepted :
    let pre : List (Op ℚ ℕ) := [.scalar (.seq ["a", "b"]) "K" world]
    let op : Op ℚ ℕ := .generic (.seq ["a"]) world
    result demoEnv (demoSt pre) op = .error .parameterAggregation ∧
    result demoEnv (demoSt (pre ++ [op])) op = .ok (.view 0) := by decide +kernel

/-- **C20**, partial: the request is refused as long as the parameter has no type or another type;
`ParameterAggregationError` in the first case, `ParameterTypeError` in the second. Missing: later
requests, which succeed (`C20_second_request_accepted`). -/
theorem C20_partial {env : Env K} {s : St K G} (hs : Reachable env s) {name region : HName}
    {I : Info} (hI : infoAt env s (region.parts, name.parts) = some I)
    (hc : HasChildren env s (region.parts, name.parts)) :
    (I.ptype = none → result env s (.generic name region) = .error .parameterAggregation) ∧
    (∀ t, I.ptype = some t → t ≠ .generic →
      result env s (.generic name region) = .error .parameterType) := by
  have hi := hs.inv
  obtain ⟨p, P, g1, g2, rfl⟩ := (infoAt_some hi.tree).1 hI
  have hne := (hasChildren_iff hi.tree g1 g2).1 hc
  have hr : reach name region s = (.ok p, s) :=
    reach_existing (ns := []) hi.tree g1 (by simp)
  have e : call env (.generic name region) s = ((attemptRead p .generic none none >>= fun _ =>
      addGView { param := p, writable := false }) >>= fun i => (pure (.view i) : M K G (Out K G))) s := by
    show ((reach name region >>= _) >>= _) s = _
    rw [M.bind_apply, M.bind_ok hr]
    rfl
  unfold result
  rw [e]
  refine ⟨fun ht => ?_, fun t ht htne => ?_⟩
  · have : attemptRead p .generic none none s = (.error .parameterAggregation,
        s.setParam p (fun _ => { P with unit := none, ptype := some .generic })) := by
      unfold attemptRead
      rw [g2]
      simp only at ht
      simp [ht, firstRead, hne]
    rw [M.bind_error (M.bind_error this)]
  · have : attemptRead p .generic none none s = (.error .parameterType, s) := by
      unfold attemptRead
      rw [g2]
      simp only at ht
      simp [ht, htne]
    rw [M.bind_error (M.bind_error this)]

/-- Hypotheses of the C08 and C20 theorems met. -/
example : let ops : List (Op ℚ ℕ) := [points ["a", "b"] "K" [0, 1, 2], .tSet 0 (nums [1, 2, 3]),
      points ["a"] "K" [0, 1, 2], .scalar (.seq ["c", "d"]) "K" world]
    viewKey demoEnv (demoSt ops) (.t 1) = some (["World"], ["a"]) ∧
    infoAt demoEnv (demoSt ops) (Key.child (["World"], ["a"]) "b") ≠ none ∧
    (infoAt demoEnv (demoSt ops) (["World"], ["a"])).map (·.ptype) = some (some .point) ∧
    infoAt demoEnv (demoSt ops) (Key.child (["World"], ["c"]) "d") ≠ none ∧
    (infoAt demoEnv (demoSt ops) (["World"], ["c"])).map (·.ptype) = some none := by decide +kernel

end Openscm
