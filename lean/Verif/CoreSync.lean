import Verif.CoreProps6

/-!
# Caches of timeseries views

Helper file: when the cache of a timeseries view is in step with its parameter, and what assignments
through the view leave behind.
-/

set_option linter.unusedSectionVars false

namespace Openscm
variable {K G : Type} [Field K] [LinearOrder K] [IsStrictOrderedRing K]

theorem M.bind_inv {α β : Type} {m : M K G α} {f : α → M K G β} {s s' : St K G} {b : β}
    (h : (m >>= f) s = (.ok b, s')) : ∃ a s1, m s = (.ok a, s1) ∧ f a s1 = (.ok b, s') := by
  rw [M.bind_apply] at h
  cases hm : m s with
  | mk r s1 =>
    rw [hm] at h
    cases r with
    | error e => simp at h
    | ok a => exact ⟨a, s1, rfl, h⟩

theorem M.ofExcept_inv {α : Type} {x : Except Err α} {s s' : St K G} {a : α}
    (h : (M.ofExcept x : M K G α) s = (.ok a, s')) : x = .ok a ∧ s' = s := by
  cases x with
  | error e => simp [M.ofExcept] at h
  | ok b =>
    have h : ((Except.ok b : Except Err α), s) = (.ok a, s') := h
    simp only [Prod.mk.injEq, Except.ok.injEq] at h
    exact ⟨by rw [h.1], h.2.symm⟩

theorem handle_inv {i : Nat} {s s' : St K G} {d : Arr K} (h : handle i s = (.ok d, s')) :
    s' = s ∧ ∃ v, s.tviews[i]? = some v ∧ v.leaf.data = some d := by
  rcases handle_cases i s with h1 | ⟨v, d', h1, h2, h3⟩
  · rw [h1] at h; simp at h
  · rw [h3] at h
    simp only [Prod.mk.injEq, Except.ok.injEq] at h
    exact ⟨h.2.symm, v, h1, by rw [h2, h.1]⟩

/-- The cache of view `i` is `d` and in step with the parameter. -/
def Synced (s : St K G) (i : Nat) (d : Arr K) : Prop :=
  ∃ v P, s.tviews[i]? = some v ∧ v.leaf.data = some d ∧ s.params[v.leaf.param]? = some P ∧
    v.leaf.version = some P.version

theorem readView_synced {s : St K G} {v : TView K} {P : Param K G} {d : Arr K}
    (hd : v.leaf.data = some d) (hp : s.params[v.leaf.param]? = some P)
    (hv : v.leaf.version = some P.version) : readView s v = (v, .ok ()) := by
  unfold readView readLeaf
  rw [hp]
  have hr : ∀ x, refresh v.leaf P.version x = .ok v.leaf := by
    intro x; unfold refresh; rw [hd, hv]; simp
  simp only [hr, hd, hv]
  split <;> simp

theorem readT_synced {s : St K G} {i : Nat} {d : Arr K} (h : Synced s i d) :
    readT i s = (.ok (), s) := by
  obtain ⟨v, P, h1, h2, h3, h4⟩ := h
  rw [readT_state h1, readView_synced h2 h3 h4]
  rw [setT_id (f := fun _ => v) h1 rfl]

theorem handle_synced {s : St K G} {i : Nat} {d : Arr K} (h : Synced s i d) :
    handle i s = (.ok d, s) := by
  obtain ⟨v, P, h1, h2, h3, h4⟩ := h
  rw [handle_some h1, h2]

theorem tGet_synced {env : Env K} {s : St K G} {i : Nat} {d : Arr K} (h : Synced s i d) :
    call env (.tGet i) s = (.ok (.arr d), s) := by
  show (readT i >>= fun _ => (handle i >>= fun d => (pure (Out.arr d) : M K G (Out K G)))) s = _
  rw [M.bind_ok (readT_synced h), M.bind_ok (handle_synced h)]; rfl

/-- Calls that do not write through view `i` and leave the version of its parameter as it is keep
the view in step. -/
theorem Synced.step {env : Env K} {s : St K G} (hi : Inv env s) {i : Nat} {d : Arr K}
    (h : Synced s i d) {op : Op K G} (hw : writesView op ≠ some (.t i)) {v : TView K} {P P' : Param K G}
    (hv : s.tviews[i]? = some v) (hp : s.params[v.leaf.param]? = some P)
    (hp' : (call env op s).2.params[v.leaf.param]? = some P') (he : P'.version = P.version) :
    Synced (call env op s).2 i d := by
  obtain ⟨v1, P1, h1, h2, h3, h4⟩ := id h
  rw [hv] at h1; cases h1
  rw [hp] at h3; cases h3
  by_cases ho : onT op = some i
  · have same : (call env op s).2 = s ∨ op = .tLock i := by
      cases op <;> simp only [onT, Option.some.injEq, reduceCtorEq] at ho <;> subst ho
      case tGet => left; rw [tGet_synced h]
      case tGetItem i j =>
        left
        show ((readT i >>= fun _ => (handle i >>= fun d => (M.ofExcept (d.getItem j) >>= fun x =>
          (pure (Out.num x) : M K G (Out K G))))) s).2 = s
        rw [M.bind_ok (readT_synced h), M.bind_ok (handle_synced h), M.bind_apply]
        cases d.getItem j <;> rfl
      case hGetItem i j =>
        left
        show ((handle i >>= fun _ => (readT i >>= fun _ => (handle i >>= fun d =>
          (M.ofExcept (d.getItem j) >>= fun x => (pure (Out.num x) : M K G (Out K G)))))) s).2 = s
        rw [M.bind_ok (handle_synced h), M.bind_ok (readT_synced h), M.bind_ok (handle_synced h),
          M.bind_apply]
        cases d.getItem j <;> rfl
      case tLock => right; rfl
      all_goals exact absurd rfl hw
    rcases same with same | rfl
    · rw [same]; exact h
    · have : (call env (.tLock i) s).2 = s.setT i (fun v => { v with locked := true }) := by
        show ((M.look (fun s : St K G => s.tviews[i]?) >>= fun _ =>
          (updTView i (fun v => { v with locked := true }) >>= fun _ =>
          (pure Out.done : M K G (Out K G)))) s).2 = _
        have e1 : M.look (fun s : St K G => s.tviews[i]?) s = (.ok v, s) := look_some hv
        rw [M.bind_ok e1]; rfl
      rw [this]
      exact ⟨{ v with locked := true }, P, by rw [setT_self, hv]; rfl, h2, hp, h4⟩
  · have := call_tview_other hi op hv ho
    exact ⟨v, P', this, h2, hp', by rw [h4, he]⟩

/-- The same over a history. -/
theorem Synced.after {env : Env K} {s : St K G} (hi : Inv env s) {i : Nat} {d : Arr K}
    (h : Synced s i d) {post : List (Op K G)} (hw : ∀ op ∈ post, writesView op ≠ some (.t i))
    {v : TView K} {P P' : Param K G} (hv : s.tviews[i]? = some v)
    (hp : s.params[v.leaf.param]? = some P)
    (hp' : (after env s post).params[v.leaf.param]? = some P') (he : P'.version = P.version) :
    Synced (after env s post) i d := by
  induction post generalizing s v P with
  | nil => exact h
  | cons op post ih =>
    rw [after_cons] at hp' ⊢
    obtain ⟨Q, hQ, hle⟩ := call_pext op hi _ P hp
    obtain ⟨Q', hQ', hle'⟩ := after_pext post (call_inv op hi) _ Q hQ
    rw [hp'] at hQ'; cases hQ'
    have e1 := hle.version
    have e2 := hle'.version
    have hv1 : Q.version = P.version := by omega
    have hs := h.step hi (hw op (by simp)) hv hp hQ hv1
    obtain ⟨v', hv', hst⟩ := call_tview hi op hv
    have hpar : v'.leaf.param = v.leaf.param := by
      have := congrArg (fun x => x.1.1) hst; exact this
    exact ih (call_inv op hi) hs (fun o ho => hw o (by simp [ho])) hv' (by rw [hpar]; exact hQ)
      (by rw [hpar]; exact hp') (by omega)

/-! ## What a successful assignment leaves behind -/

/-- View `i` is in step, and what is stored is what it shows, converted. -/
def Wrote (s : St K G) (i : Nat) (d : Arr K) : Prop :=
  ∃ v P l, s.tviews[i]? = some v ∧ v.leaf.data = some d ∧ s.params[v.leaf.param]? = some P ∧
    v.leaf.version = some P.version ∧ P.data = .series l ∧ published v d = .ok l

theorem Wrote.synced {s : St K G} {i : Nat} {d : Arr K} (h : Wrote s i d) : Synced s i d := by
  obtain ⟨v, P, _, h1, h2, h3, h4, _⟩ := h
  exact ⟨v, P, h1, h2, h3, h4⟩

theorem writeT_wrote {s s' : St K G} {i : Nat} {v : TView K} {P : Param K G} {d : Arr K}
    (hv : s.tviews[i]? = some v) (hd : v.leaf.data = some d) (hl : v.locked = false)
    (hp : s.params[v.leaf.param]? = some P) (h : writeT i s = (.ok (), s')) : Wrote s' i d := by
  have := writeT_cases hv hd hp
  rw [h] at this
  generalize hx : ((Except.ok () : Except Err Unit), s') = x at this
  cases this with
  | locked h' => rw [hl] at h'; simp at h'
  | refused _ e he => simp at hx
  | stored _ l he =>
    simp only [Prod.mk.injEq, true_and] at hx
    subst hx
    refine ⟨{ v with leaf := { v.leaf with version := some (P.version + 1) } },
      { P with data := .series l, version := P.version + 1 }, l, ?_, hd, ?_, rfl, rfl, he⟩
    · unfold storedT
      rw [setT_self]
      show (s.tviews[i]?).map _ = _
      rw [hv]; rfl
    · show (s.setParam v.leaf.param _).params[v.leaf.param]? = _
      rw [setParam_self, hp]; rfl

/-- Whole-array assignment through an unlocked view. -/
theorem setValues_wrote {env : Env K} {s s' : St K G} (hi : Inv env s) {i : Nat} {v : TView K}
    {a : Arr K} (hv : s.tviews[i]? = some v) (hl : v.locked = false)
    (h : setValues i a s = (.ok (), s')) :
    ∃ d, newCache v.leaf.data a = .ok d ∧ Wrote s' i d := by
  obtain ⟨P, hp, _⟩ := (hi.good.tviews i v hv).ex
  by_cases hc : P.children = []
  · by_cases ha : a.length = v.leaf.ts.targetLength
    · cases hd : newCache v.leaf.data a with
      | error e => rw [setValues_dtype hi hv hp hc ha hd] at h; simp at h
      | ok d =>
        rw [setValues_write hi hv hp hc ha hd] at h
        refine ⟨d, rfl, ?_⟩
        exact writeT_wrote (cached_view (marked_view hv)) rfl hl (marked_param (i := i) hp) h
    · rw [setValues_mismatch hi hv hp hc ha] at h; simp at h
  · rw [setValues_children hi hv hp hc] at h; simp at h

/-- Floating point cache, or none yet. -/
def FloatCache (x : Option (Arr K)) : Prop := ∀ d, x = some d → ∃ l, d = .floats l

theorem newCache_float {x : Option (Arr K)} (h : FloatCache x) {l : List (Fl K)} {d : Arr K}
    (hd : newCache x (.floats l) = .ok d) : d = .floats l := by
  cases x with
  | none => simp only [newCache, Except.ok.injEq] at hd; exact hd.symm
  | some d0 =>
    obtain ⟨l0, rfl⟩ := h d0 rfl
    simp only [newCache, Arr.copyTo, Except.ok.injEq] at hd
    exact hd.symm

theorem newCache_vals {x : Option (Arr K)} {a d : Arr K} (hd : newCache x a = .ok d) :
    d.vals = a.vals := by
  cases x with
  | none => simp only [newCache, Except.ok.injEq] at hd; rw [hd]
  | some d0 =>
    cases d0 <;> cases a <;> simp only [newCache, Arr.copyTo, Except.ok.injEq, reduceCtorEq] at hd
    all_goals subst hd; rfl

theorem refresh_float {v v' : TLeaf K} {n : Nat} {x : Except Err (List (Fl K))}
    (h : FloatCache v.data) (hr : refresh v n x = .ok v') : FloatCache v'.data := by
  unfold refresh at hr
  split at hr
  · split at hr
    · simp at hr
    · rename_i a
      injection hr with hr; subst hr
      intro d hd; simp only [Option.some.injEq] at hd; exact ⟨a, hd.symm⟩
  · rename_i d hd
    split at hr
    · simp at hr
    · split at hr
      · injection hr with hr; subst hr; exact h
      · split at hr
        · simp at hr
        · rename_i a
          split at hr
          · simp at hr
          · rename_i d' hd'
            injection hr with hr; subst hr
            obtain ⟨l, rfl⟩ := h d hd
            simp only [Arr.copyTo, Except.ok.injEq] at hd'
            subst hd'
            intro d hd; simp only [Option.some.injEq] at hd; exact ⟨_, hd.symm⟩

theorem readView_float {s : St K G} {v : TView K} (h : FloatCache v.leaf.data) :
    FloatCache (readView s v).1.leaf.data := by
  unfold readView readLeaf
  split
  · exact h
  · split
    · split
      · split
        · exact h
        · rename_i hr; exact refresh_float h hr
      · split
        · exact h
        · simp only
          split
          · exact h
          · rename_i hr; exact refresh_float h hr
    · split
      · exact h
      · rename_i hr; exact refresh_float h hr

/-- Changing the cache of an unlocked view and publishing it. -/
theorem put_wrote {s s' : St K G} {i : Nat} {v : TView K} {P : Param K G} {d : Arr K}
    (hv : s.tviews[i]? = some v) (hl : v.locked = false) (hp : s.params[v.leaf.param]? = some P)
    (h : (updTView i (fun v => { v with leaf := { v.leaf with data := some d } }) >>= fun _ =>
      writeT i) s = (.ok (), s')) : Wrote s' i d := by
  obtain ⟨_, s1, h1, h2⟩ := M.bind_inv h
  have h1 : ((Except.ok () : Except Err Unit),
      s.setT i (fun v => { v with leaf := { v.leaf with data := some d } })) = (.ok (), s1) := h1
  simp only [Prod.mk.injEq, true_and] at h1
  subst h1
  have hv' : (s.setT i (fun v => { v with leaf := { v.leaf with data := some d } })).tviews[i]?
      = some { v with leaf := { v.leaf with data := some d } } := by rw [setT_self, hv]; rfl
  exact writeT_wrote hv' rfl hl hp h2

theorem setItems_wrote {env : Env K} {s s' : St K G} {i : Nat} {v : TView K} {P : Param K G}
    {ix : List (Int × Fl K)}
    (hv : s.tviews[i]? = some v) (hl : v.locked = false) (hp : s.params[v.leaf.param]? = some P)
    (h : setItems env i ix s = (.ok (), s')) :
    ∃ d, Wrote s' i d ∧ (FloatCache v.leaf.data → ∃ l, d = .floats l) := by
  unfold setItems at h
  obtain ⟨v1, s1, h1, h2⟩ := M.bind_inv h
  obtain ⟨rfl, h1⟩ := look_ok h1
  rw [hv] at h1; cases h1
  cases hd : v.leaf.data with
  | none => rw [hd] at h2; simp [M.throw] at h2
  | some d0 =>
    rw [hd] at h2
    obtain ⟨d, s2, h3, h4⟩ := M.bind_inv h2
    obtain ⟨h5, rfl⟩ := M.ofExcept_inv h3
    refine ⟨d, put_wrote hv hl hp h4, ?_⟩
    intro hf
    obtain ⟨l, rfl⟩ := hf d0 rfl
    unfold Arr.setItems at h5
    split at h5
    · simp at h5
    · simp only [Except.ok.injEq] at h5
      exact ⟨_, h5.symm⟩

theorem readT_inv {s s' : St K G} {i : Nat} {v : TView K} (hv : s.tviews[i]? = some v)
    (h : readT i s = (.ok (), s')) :
    s'.params = s.params ∧ s'.tviews[i]? = some (readView s v).1 := by
  rw [readT_state hv] at h
  simp only [Prod.mk.injEq] at h
  obtain ⟨_, rfl⟩ := h
  exact ⟨rfl, by rw [setT_self, hv]; rfl⟩

/-- A successful call that writes through the unlocked view `i` (or unlocks it) leaves it in step
with what is stored; arrays of floats stay arrays of floats. -/
theorem call_wrote {env : Env K} {s s' : St K G} (hi : Inv env s) {i : Nat} {v : TView K}
    {op : Op K G} {o : Out K G} (hw : writesView op = some (.t i)) (hv : s.tviews[i]? = some v)
    (hl : v.locked = false ∨ isUnlock op = true) (h : call env op s = (.ok o, s')) :
    ∃ d, Wrote s' i d ∧ (∀ a, op = .tSet i a → d.vals = a.vals) ∧
      (isUnlock op = true → v.leaf.data = some d) ∧
      (FloatCache v.leaf.data → (∀ l, op ≠ .tSet i (.ints l)) → ∃ l, d = .floats l) := by
  obtain ⟨P, hp, _⟩ := (hi.good.tviews i v hv).ex
  cases op <;> simp only [writesView, Option.some.injEq, VRef.t.injEq, reduceCtorEq] at hw
  case tSet j a =>
    subst hw
    have hl : v.locked = false := by simpa [isUnlock] using hl
    obtain ⟨_, s1, h1, h2⟩ := M.bind_inv h
    have h2 : ((Except.ok Out.done : Res K G), s1) = (.ok o, s') := h2
    simp only [Prod.mk.injEq] at h2
    obtain ⟨_, rfl⟩ := h2
    obtain ⟨d, hd, hwr⟩ := setValues_wrote hi hv hl h1
    refine ⟨d, hwr, ?_, by simp [isUnlock], ?_⟩
    · intro a' ha; simp only [Op.tSet.injEq, true_and] at ha; subst ha; exact newCache_vals hd
    · intro hf hn
      cases a with
      | floats l => exact ⟨l, newCache_float hf hd⟩
      | ints l => exact absurd rfl (hn l)
  case tSetOwn j =>
    subst hw
    have hl : v.locked = false := by simpa [isUnlock] using hl
    obtain ⟨a, s1, h1, h2⟩ := M.bind_inv h
    obtain ⟨rfl, v1, hv1, hd1⟩ := handle_inv h1
    rw [hv] at hv1; cases hv1
    obtain ⟨_, s2, h3, h4⟩ := M.bind_inv h2
    have h4 : ((Except.ok Out.done : Res K G), s2) = (.ok o, s') := h4
    simp only [Prod.mk.injEq] at h4
    obtain ⟨_, rfl⟩ := h4
    obtain ⟨d, hd, hwr⟩ := setValues_wrote hi hv hl h3
    refine ⟨d, hwr, by simp, by simp [isUnlock], ?_⟩
    intro hf _
    obtain ⟨l, rfl⟩ := hf a hd1
    exact ⟨l, newCache_float hf hd⟩
  case tUnlock j =>
    subst hw
    obtain ⟨v1, s1, h1, h2⟩ := M.bind_inv h
    obtain ⟨rfl, -⟩ : s1 = s ∧ True := ⟨by have := look_ok h1; exact this.1, trivial⟩
    obtain ⟨_, s2, h3, h4⟩ := M.bind_inv h2
    have h3 : ((Except.ok () : Except Err Unit), s1.setT j (fun v => { v with locked := false }))
      = (.ok (), s2) := by rw [← h3]; rfl
    simp only [Prod.mk.injEq, true_and] at h3
    subst h3
    obtain ⟨_, s3, h5, h6⟩ := M.bind_inv h4
    have h6 : ((Except.ok Out.done : Res K G), s3) = (.ok o, s') := h6
    simp only [Prod.mk.injEq] at h6
    obtain ⟨_, rfl⟩ := h6
    have hv' : (s1.setT j (fun v => { v with locked := false })).tviews[j]?
        = some { v with locked := false } := by rw [setT_self, hv]; rfl
    cases hd : v.leaf.data with
    | none =>
      rw [writeT_nodata hv' rfl hd] at h5; simp at h5
    | some d =>
      refine ⟨d, writeT_wrote hv' hd rfl hp h5, by simp, fun _ => rfl, ?_⟩
      intro hf _; exact hf d rfl
  case tSetItem j ix =>
    subst hw
    have hl : v.locked = false := by simpa [isUnlock] using hl
    obtain ⟨_, s1, h1, h2⟩ := M.bind_inv h
    obtain ⟨hps, hv1⟩ := readT_inv hv h1
    obtain ⟨e1, -, e3, -, -⟩ := readView_same s v
    obtain ⟨_, s2, h3, h4⟩ := M.bind_inv h2
    have h4 : ((Except.ok Out.done : Res K G), s2) = (.ok o, s') := h4
    simp only [Prod.mk.injEq] at h4
    obtain ⟨_, rfl⟩ := h4
    obtain ⟨d, hd, hf⟩ := setItems_wrote hv1 (by rw [e1, hl]) (by rw [e3, hps]; exact hp) h3
    exact ⟨d, hd, by simp, by simp [isUnlock], fun hf' _ => hf (readView_float hf')⟩
  case hSetItem j ix =>
    subst hw
    have hl : v.locked = false := by simpa [isUnlock] using hl
    obtain ⟨_, s2, h3, h4⟩ := M.bind_inv h
    have h4 : ((Except.ok Out.done : Res K G), s2) = (.ok o, s') := h4
    simp only [Prod.mk.injEq] at h4
    obtain ⟨_, rfl⟩ := h4
    obtain ⟨d, hd, hf⟩ := setItems_wrote hv hl hp h3
    exact ⟨d, hd, by simp, by simp [isUnlock], fun hf' _ => hf hf'⟩
  case hInplace j f =>
    subst hw
    have hl : v.locked = false := by simpa [isUnlock] using hl
    obtain ⟨_, s0, h0, hh⟩ := M.bind_inv h
    obtain ⟨rfl, -⟩ := handle_inv h0
    obtain ⟨_, s1, h1, h2⟩ := M.bind_inv hh
    obtain ⟨hps, hv1⟩ := readT_inv hv h1
    obtain ⟨e1, -, e3, -, -⟩ := readView_same s0 v
    obtain ⟨d0, s2, h3, h4⟩ := M.bind_inv h2
    obtain ⟨rfl, v2, hv2, hd0⟩ := handle_inv h3
    rw [hv1] at hv2; cases hv2
    obtain ⟨d, s3, h5, h6⟩ := M.bind_inv h4
    obtain ⟨h11, rfl⟩ := M.ofExcept_inv h5
    obtain ⟨_, s4, h7, h8⟩ := M.bind_inv h6
    obtain ⟨_, s5, h9, h10⟩ := M.bind_inv h8
    have h10 : ((Except.ok Out.done : Res K G), s5) = (.ok o, s') := h10
    simp only [Prod.mk.injEq] at h10
    obtain ⟨_, rfl⟩ := h10
    refine ⟨d, put_wrote hv1 (by rw [e1, hl]) (by rw [e3, hps]; exact hp)
      (by rw [M.bind_ok h7]; exact h9), by simp, by simp [isUnlock], ?_⟩
    intro hf _
    obtain ⟨l, rfl⟩ := readView_float hf d0 hd0
    simp only [Arr.inplace, Except.ok.injEq] at h11
    exact ⟨_, h11.symm⟩

end Openscm
