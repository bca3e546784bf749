import Verif.CoreSync

/-!
# C12, C13: timeseries views of childless parameters
-/

set_option linter.unusedSectionVars false

namespace Openscm
variable {K G : Type} [Field K] [LinearOrder K] [IsStrictOrderedRing K]

/-! ## Specification -/

/-- The version of `k`, as `info` reports it. -/
def versionAt (env : Env K) (s : St K G) (k : Key) : Option Nat := (infoAt env s k).map Info.version

/-! ## Lemmas -/

theorem versionAt_of {env : Env K} {s : St K G} (t : Tree s) {k : Key} {p : Nat} {P : Param K G}
    (hk : HasKey s p k) (hp : s.params[p]? = some P) : versionAt env s k = some P.version := by
  unfold versionAt; rw [infoAt_of t hk hp]; rfl

/-- Only a call that stored something changed the version. -/
theorem version_changed {env : Env K} {s : St K G} (hi : Inv env s) {i : Nat} {v : TView K}
    {op : Op K G} (hw : writesView op = some (.t i)) (hv : s.tviews[i]? = some v) {P P' : Param K G}
    (hp : s.params[v.leaf.param]? = some P) (hp' : (call env op s).2.params[v.leaf.param]? = some P')
    (hne : P'.version ≠ P.version) :
    ∃ o, (call env op s).1 = .ok o ∧ (v.locked = false ∨ isUnlock op = true) := by
  have ht : TyOK s := fun i v hv => (hi.good.tviews i v hv).leaf.ty
  have quiet : Steps env s [] (call env op s).2 → False := by
    intro h
    obtain ⟨Q, hQ, he, _⟩ := h.eff hi hp
    rw [hp'] at hQ; cases hQ
    exact hne (by simpa [storesTo] using he)
  rcases call_tWrites env op i hw s ht v hv with ⟨_, h⟩ | ⟨h1, v', _, ⟨_, h⟩ | ⟨h2, _⟩⟩
  · exact (quiet h).elim
  · exact (quiet h).elim
  · cases hc : (call env op s).1 with
    | error e => rw [hc] at h1; simp [Except.isOk, Except.toBool] at h1
    | ok o =>
      refine ⟨o, rfl, ?_⟩
      cases hl : v.locked with
      | false => exact Or.inl rfl
      | true =>
        rw [hl] at h2
        right; simpa using h2

theorem stat_param {v w : TView K} (h : v.stat = w.stat) : v.leaf.param = w.leaf.param :=
  congrArg (fun x => x.1.1) h

theorem hPeek_synced {env : Env K} {s : St K G} {i : Nat} {d : Arr K} (h : Synced s i d) :
    call env (.hPeek i) s = (.ok (.arr d), s) := by
  show (handle i >>= fun d => (pure (Out.arr d) : M K G (Out K G))) s = _
  rw [M.bind_ok (handle_synced h)]; rfl

/-- A published write leaves the view in step. -/
theorem wrote_of_version {env : Env K} {s : St K G} (hi : Inv env s) {i : Nat} {k : Key}
    {op : Op K G} (hw : writesView op = some (.t i)) (hk : viewKey env s (.t i) = some k)
    (hne : versionAt env (after env s [op]) k ≠ versionAt env s k) :
    ∃ v d, s.tviews[i]? = some v ∧ HasKey s v.leaf.param k ∧ Wrote (after env s [op]) i d ∧
      (∀ a, op = .tSet i a → d.vals = a.vals) ∧ (isUnlock op = true → v.leaf.data = some d) ∧
      (FloatCache v.leaf.data → (∀ l, op ≠ .tSet i (.ints l)) → ∃ l, d = .floats l) := by
  obtain ⟨v, hv, hkv⟩ := tview_of_key hi hk
  obtain ⟨P, hp, _⟩ := id hkv
  obtain ⟨P', hp', _⟩ := call_pext op hi _ P hp
  have hkv' : HasKey (call env op s).2 v.leaf.param k := hkv.mono (call_pext _ hi) (call_rext _ hi)
  rw [after_one] at hne ⊢
  rw [versionAt_of hi.tree hkv hp, versionAt_of (call_inv op hi).tree hkv' hp'] at hne
  obtain ⟨o, ho, hl⟩ := version_changed hi hw hv hp hp' (by simpa using hne)
  obtain ⟨d, h1, h2, h3, h4⟩ := call_wrote hi hw hv hl (o := o) (s' := (call env op s).2)
    (by rw [← ho])
  exact ⟨v, d, hv, hkv, h1, h2, h3, h4⟩

/-- As long as the version stays and nothing is written through the view itself, it stays in step. -/
theorem synced_later {env : Env K} {s : St K G} (hi : Inv env s) {i : Nat} {k : Key} {d : Arr K}
    (h : Synced s i d) (hk : viewKey env s (.t i) = some k) {post : List (Op K G)}
    (hpost : ∀ op ∈ post, writesView op ≠ some (.t i))
    (hver : versionAt env (after env s post) k = versionAt env s k) :
    Synced (after env s post) i d := by
  obtain ⟨v, hv, hkv⟩ := tview_of_key hi hk
  obtain ⟨P, hp, _⟩ := id hkv
  obtain ⟨P', hp', _⟩ := after_pext post hi _ P hp
  rw [versionAt_of hi.tree hkv hp, versionAt_of (after_inv post hi).tree (after_key hi post hkv) hp']
    at hver
  exact h.after hi hpost hv hp hp' (by simpa using hver)

theorem viewKey_call {env : Env K} {s : St K G} (hi : Inv env s) (op : Op K G) {i : Nat} {k : Key}
    (h : viewKey env s (.t i) = some k) : viewKey env (after env s [op]) (.t i) = some k := by
  obtain ⟨v, hv, hkv⟩ := tview_of_key hi h
  rw [after_one]
  obtain ⟨v', hv', hst⟩ := call_tview hi op hv
  refine (viewKey_some (call_inv op hi)).2 ⟨v'.leaf.param, some v'.leaf.conv.target, ?_, ?_⟩
  · simp [viewTarget, hv']
  · rw [stat_param hst]; exact hkv.mono (call_pext _ hi) (call_rext _ hi)

/-! ## C13 -/

/-- **C13**, what holds: after an assignment `view.values = xs` that was stored (the version of the
parameter changed), `view.values` gives back exactly `xs`, whatever unit and time points the parameter
is stored in, until the version changes again (or something is written through the view itself).

Missing from C13: assignments through a locked view, see `C13_locked_partial`,
`C13_locked_discarded` and `C13_locked_unreadable`. -/
theorem C13_read_back_partial {env : Env K} {s : St K G} (hs : Reachable env s) {i : Nat} {a : Arr K}
    {k : Key} (hk : viewKey env s (.t i) = some k) {post : List (Op K G)}
    (hne : versionAt env (after env s [.tSet i a]) k ≠ versionAt env s k)
    (hpost : ∀ op ∈ post, writesView op ≠ some (.t i))
    (hver : versionAt env (after env s (.tSet i a :: post)) k
      = versionAt env (after env s [.tSet i a]) k) :
    ∃ d, d.vals = a.vals ∧ result env (after env s (.tSet i a :: post)) (.tGet i) = .ok (.arr d) := by
  have hi := hs.inv
  obtain ⟨v, d, hv, hkv, h1, h2, _⟩ := wrote_of_version hi (op := .tSet i a) rfl hk hne
  refine ⟨d, h2 a rfl, ?_⟩
  have happ : after env s (.tSet i a :: post) = after env (after env s [.tSet i a]) post := by
    rw [← after_append]; rfl
  rw [happ] at hver ⊢
  unfold result
  rw [tGet_synced (synced_later (after_inv _ hi) h1.synced (viewKey_call hi _ hk) hpost hver)]

/-- **C13** for the other ways of writing (elements, in place, `unlock`): the view goes on showing
what it shows right after the write. -/
theorem C13_all_writes {env : Env K} {s : St K G} (hs : Reachable env s) {i : Nat} {op : Op K G}
    {k : Key} (hw : writesView op = some (.t i)) (hk : viewKey env s (.t i) = some k)
    {post : List (Op K G)}
    (hne : versionAt env (after env s [op]) k ≠ versionAt env s k)
    (hpost : ∀ op ∈ post, writesView op ≠ some (.t i))
    (hver : versionAt env (after env s (op :: post)) k = versionAt env (after env s [op]) k) :
    ∃ d, result env (after env s [op]) (.hPeek i) = .ok (.arr d) ∧
      result env (after env s (op :: post)) (.tGet i) = .ok (.arr d) := by
  have hi := hs.inv
  obtain ⟨v, d, hv, hkv, h1, _⟩ := wrote_of_version hi hw hk hne
  have happ : after env s (op :: post) = after env (after env s [op]) post := by
    rw [← after_append]; rfl
  refine ⟨d, ?_, ?_⟩
  · unfold result; rw [hPeek_synced h1.synced]
  · rw [happ] at hver ⊢
    unfold result
    rw [tGet_synced (synced_later (after_inv _ hi) h1.synced (viewKey_call hi _ hk) hpost hver)]

theorem refresh_synced {v v' : TLeaf K} {n : Nat} {x : Except Err (List (Fl K))}
    (hr : refresh v n x = .ok v') : (∃ d, v'.data = some d) ∧ v'.version = some n ∧
      v'.param = v.param := by
  unfold refresh at hr
  split at hr
  · split at hr
    · simp at hr
    · injection hr with hr; subst hr; exact ⟨⟨_, rfl⟩, rfl, rfl⟩
  · rename_i d hd
    split at hr
    · simp at hr
    · rename_i m hm
      split at hr
      · rename_i hmn
        injection hr with hr; subst hr
        exact ⟨⟨d, hd⟩, by rw [hm, hmn], rfl⟩
      · split at hr
        · simp at hr
        · split at hr
          · simp at hr
          · injection hr with hr; subst hr; exact ⟨⟨_, rfl⟩, rfl, rfl⟩

theorem readView_ok {s : St K G} {v : TView K} {P : Param K G}
    (hp : s.params[v.leaf.param]? = some P) (h : (readView s v).2 = .ok ()) :
    (∃ d, (readView s v).1.leaf.data = some d) ∧
      (readView s v).1.leaf.version = some P.version := by
  unfold readView readLeaf at h ⊢
  rw [hp] at h ⊢
  simp only at h ⊢
  split at h
  · rename_i hc
    simp only [hc, if_true, ne_eq, not_false_eq_true] at h ⊢
    split at h
    · rename_i hv
      simp only [hv, if_true] at h ⊢
      split at h
      · simp at h
      · rename_i l hl
        obtain ⟨h1, h2, _⟩ := refresh_synced hl
        exact ⟨h1, h2⟩
    · rename_i hv
      simp only [hv] at h ⊢
      split at h
      · simp at h
      · rename_i kids hk
        simp only [hk, Bool.false_eq_true, if_false] at h ⊢
        split at h
        · simp at h
        · rename_i l hl
          obtain ⟨h1, h2, _⟩ := refresh_synced hl
          exact ⟨h1, h2⟩
  · rename_i hc
    simp only [hc, if_false] at h ⊢
    split at h
    · simp at h
    · rename_i l hl
      obtain ⟨h1, h2, _⟩ := refresh_synced hl
      exact ⟨h1, h2⟩

theorem tGet_ok_synced {env : Env K} {s : St K G} (hi : Inv env s) {i : Nat} {o : Out K G}
    (h : result env s (.tGet i) = .ok o) : ∃ d, Synced (after env s [.tGet i]) i d := by
  cases hv : s.tviews[i]? with
  | none =>
    unfold result at h
    have : call env (.tGet i) s = (.error .badHandle, s) := by
      show (readT i >>= fun _ => (handle i >>= fun d => (pure (Out.arr d) : M K G (Out K G)))) s = _
      exact M.bind_error (readT_none hv)
    rw [this] at h; simp at h
  | some v =>
    obtain ⟨P, hp, _⟩ := (hi.good.tviews i v hv).ex
    unfold result at h
    rw [tGet_eq hv] at h
    rw [after_one, tGet_eq hv]
    simp only at h ⊢
    have hr : (readView s v).2 = .ok () := by
      unfold shown at h
      cases hx : (readView s v).2 with
      | error e => rw [hx] at h; simp at h
      | ok u => rfl
    obtain ⟨⟨d, hd⟩, hver⟩ := readView_ok hp hr
    obtain ⟨-, -, e3, -, -⟩ := readView_same s v
    exact ⟨d, (readView s v).1, P, by rw [setT_self, hv]; rfl, hd, by rw [e3]; exact hp, hver⟩

/-- **C13** for locked views (and unlocked ones), what holds: if the view was read after the last
write of somebody else, then an accepted assignment is what it shows, until the version changes. -/
theorem C13_locked_partial {env : Env K} {s : St K G} (hs : Reachable env s) {i : Nat} {a : Arr K}
    {k : Key} {o : Out K G} (hk : viewKey env s (.t i) = some k) {post : List (Op K G)}
    (hread : result env s (.tGet i) = .ok o)
    (hset : result env (after env s [.tGet i]) (.tSet i a) = .ok .done)
    (hpost : ∀ op ∈ post, writesView op ≠ some (.t i))
    (hver : versionAt env (after env s (.tGet i :: .tSet i a :: post)) k
      = versionAt env (after env s [.tGet i, .tSet i a]) k) :
    ∃ d, d.vals = a.vals ∧
      result env (after env s (.tGet i :: .tSet i a :: post)) (.tGet i) = .ok (.arr d) := by
  have hi0 := hs.inv
  obtain ⟨d0, hd0⟩ := tGet_ok_synced hi0 hread
  have hk := viewKey_call hi0 (.tGet i) hk
  have hi := after_inv [.tGet i] hi0
  have happ : after env s (.tGet i :: .tSet i a :: post)
      = after env (after env (after env s [.tGet i]) [.tSet i a]) post := by
    rw [← after_append, ← after_append]; rfl
  have happ' : after env s [.tGet i, .tSet i a] = after env (after env s [.tGet i]) [.tSet i a] := by
    rw [← after_append]; rfl
  rw [happ, happ'] at hver
  rw [happ]
  generalize after env s [.tGet i] = s1 at *
  have key : ∃ d, d.vals = a.vals ∧ Synced (after env s1 [.tSet i a]) i d := by
    obtain ⟨v, P, h1, h2, h3, h4⟩ := hd0
    cases hl : v.locked with
    | false =>
      obtain ⟨d, e1, e2, _⟩ := call_wrote hi (op := .tSet i a) rfl h1 (Or.inl hl)
        (s' := (call env (.tSet i a) s1).2) (o := .done) (by rw [← hset]; rfl)
      exact ⟨d, e2 a rfl, by rw [after_one]; exact e1.synced⟩
    | true =>
      have hset' : (call env (.tSet i a) s1).1 = .ok .done := hset
      rw [after_one]
      rw [tSet_eq] at hset' ⊢
      by_cases hc : P.children = []
      · by_cases ha : a.length = v.leaf.ts.targetLength
        · cases hd : newCache v.leaf.data a with
          | error e => rw [setValues_dtype hi h1 h3 hc ha hd] at hset'; simp [Except.map] at hset'
          | ok d =>
            rw [setValues_write hi h1 h3 hc ha hd] at hset' ⊢
            have hvc := cached_view (d := d) (marked_view h1)
            rw [writeT_locked hvc hl]
            refine ⟨d, newCache_vals hd, ?_⟩
            exact ⟨_, _, hvc, rfl, marked_param (i := i) h3, h4⟩
        · rw [setValues_mismatch hi h1 h3 hc ha] at hset'; simp [Except.map] at hset'
      · rw [setValues_children hi h1 h3 hc] at hset'; simp [Except.map] at hset'
  obtain ⟨d, hda, hsy⟩ := key
  refine ⟨d, hda, ?_⟩
  unfold result
  rw [tGet_synced (synced_later (after_inv _ hi) hsy (viewKey_call hi _ hk) hpost hver)]

/-- **C13**: arrays of the wrong length are refused. -/
theorem C13_wrong_length {env : Env K} {s : St K G} (hs : Reachable env s) {i : Nat} {a : Arr K}
    {k : Key} {n : Nat} (hk : viewKey env s (.t i) = some k) (hc : ¬ HasChildren env s k)
    (hn : result env s (.tLength i) = .ok (.nat n)) (ha : a.length ≠ n) :
    result env s (.tSet i a) = .error .pointsValuesMismatch := by
  have hi := hs.inv
  obtain ⟨v, hv, hkv⟩ := tview_of_key hi hk
  obtain ⟨P, hp, _⟩ := id hkv
  rw [not_hasChildren_iff hi.tree hkv hp] at hc
  have hlen : result env s (.tLength i) = .ok (.nat v.leaf.ts.targetLength) := by
    unfold result
    show ((M.look (fun s : St K G => s.tviews[i]?) >>= fun v =>
      (pure (Out.nat v.leaf.ts.targetLength) : M K G (Out K G))) s).1 = _
    have e1 : M.look (fun s : St K G => s.tviews[i]?) s = (.ok v, s) := look_some hv
    rw [M.bind_ok e1]; rfl
  rw [hlen] at hn
  simp only [Except.ok.injEq, Out.nat.injEq] at hn
  subst hn
  unfold result
  rw [tSet_eq, setValues_mismatch hi hv hp hc ha]; rfl

/-- Hypotheses of C13 met: another unit, a coarser time axis than the stored one, a locked view, and
a write through another view of another parameter in between. -/
example :
    let pre : List (Op ℚ ℕ) := [points ["a"] "K" [0, 1, 2, 3, 4], points ["a"] "mK" [0, 2, 4],
      points ["b"] "K" [0, 1, 2]]
    let post : List (Op ℚ ℕ) := [.tSet 2 (nums [1, 1, 1]), .tGet 0, .tLock 1]
    versionAt demoEnv (demoSt (pre ++ [.tSet 1 (nums [5, 7, 8])])) (["World"], ["a"]) = some 1 ∧
    versionAt demoEnv (demoSt pre) (["World"], ["a"]) = some 0 ∧
    versionAt demoEnv (demoSt (pre ++ .tSet 1 (nums [5, 7, 8]) :: post)) (["World"], ["a"]) = some 1 ∧
    result demoEnv (demoSt (pre ++ .tSet 1 (nums [5, 7, 8]) :: post)) (.tGet 1)
      = .ok (.arr (nums [5, 7, 8])) ∧
    result demoEnv (demoSt (pre ++ .tSet 1 (nums [5, 7, 8]) :: post)) (.tGet 0) ≠ .error .parameterEmpty ∧
    result demoEnv (demoSt (pre ++ .tSet 1 (nums [5, 7, 8]) :: post)) (.tLength 1) = .ok (.nat 3) ∧
    result demoEnv (demoSt (pre ++ .tSet 1 (nums [5, 7, 8]) :: post ++ [.tSet 1 (nums [6, 6, 6])]))
      (.tGet 1) = .ok (.arr (nums [6, 6, 6])) := by
  decide +kernel

/-- **C13** is violated by locked views: if another view wrote before the assignment, reading
discards what was assigned. -/
theorem C13_locked_discarded :
    demo [points ["a"] "K" [0, 1, 2], points ["a"] "K" [0, 1, 2], .tSet 0 (nums [1, 1, 1]),
      .tGet 1, .tLock 1, .tSet 0 (nums [2, 2, 2]), .tSet 1 (nums [3, 3, 3]), .tGet 1]
    = [.ok (.view 0), .ok (.view 1), .ok .done, .ok (.arr (nums [1, 1, 1])), .ok .done, .ok .done,
      .ok .done, .ok (.arr (nums [2, 2, 2]))] := by decide +kernel

/-- **C13** is violated by locked views: an assignment that is the first use of the view is accepted
and makes the view unreadable. -/
theorem C13_locked_unreadable :
    demo [points ["a"] "K" [0, 1, 2], .tLock 0, .tSet 0 (nums [3, 3, 3]), .tGet 0]
    = [.ok (.view 0), .ok .done, .ok .done, .error .attributeError] := by decide +kernel

end Openscm
