import Verif.CoreProps7

/-!
# C12: timeseries views of childless parameters are never stale
-/

set_option linter.unusedSectionVars false

namespace Openscm
variable {K G : Type} [Field K] [LinearOrder K] [IsStrictOrderedRing K]

/-! ## Specification -/

/-- `d` is what view `i` showed right after the last write made through it in the history `mid`, and
the version of `k` has not changed since. -/
def LastOwn (env : Env K) (s : St K G) (i : Nat) (k : Key) (mid : List (Op K G)) (d : Arr K) : Prop :=
  ∃ a op b, mid = a ++ op :: b ∧ writesView op = some (.t i) ∧
    (∀ o ∈ b, writesView o ≠ some (.t i)) ∧
    versionAt env (after env s mid) k = versionAt env (after env s (a ++ [op])) k ∧
    result env (after env s (a ++ [op])) (.hPeek i) = .ok (.arr d) ∧
    ∀ x, op = .tSet i x → d.vals = x.vals

/-- Every write made through view `i` in the history `mid` was stored (the view was not locked and
the write not refused), and none of them handed over an array of integers. -/
def OwnStored (env : Env K) (s : St K G) (i : Nat) (k : Key) (mid : List (Op K G)) : Prop :=
  ∀ a op b, mid = a ++ op :: b → writesView op = some (.t i) →
    versionAt env (after env s (a ++ [op])) k ≠ versionAt env (after env s a) k ∧
    ∀ l, op ≠ .tSet i (.ints l)

/-! ## Lemmas -/

theorem leafValues_stat {s : St K G} {v w : TLeaf K} (h : v.stat = w.stat) :
    leafValues s v = leafValues s w := by
  simp only [TLeaf.stat, Prod.mk.injEq] at h
  obtain ⟨h1, h2, h3⟩ := h
  unfold leafValues
  rw [h1, h2, h3]

/-- A view of a parameter without children that is in order: no cache, or a cache of floats that is
outdated, or what the parameter holds, or what `own` says. -/
def Cache (s : St K G) (i : Nat) (own : List (Fl K) → Prop) : Prop :=
  ∃ v P, s.tviews[i]? = some v ∧ s.params[v.leaf.param]? = some P ∧
    (v.leaf.data = none ∨ ∃ l n, v.leaf.data = some (.floats l) ∧ v.leaf.version = some n ∧
      (n = P.version → leafValues s v.leaf = .ok l ∨ own l))

/-- The three outcomes of reading a view that is in order. -/
theorem Cache.read {s : St K G} {i : Nat} {own : List (Fl K) → Prop} (h : Cache s i own)
    {v : TView K} {P : Param K G} (hv : s.tviews[i]? = some v)
    (hp : s.params[v.leaf.param]? = some P) (hc : P.children = []) :
    (∃ l v', leafValues s v.leaf = .ok l ∧ readView s v = (v', .ok ()) ∧
      v'.leaf.data = some (.floats l) ∧ v'.leaf.version = some P.version ∧
      v'.leaf.stat = v.leaf.stat) ∨
    (∃ l, own l ∧ readView s v = (v, .ok ()) ∧ v.leaf.data = some (.floats l)) ∨
    ∃ e, leafValues s v.leaf = .error e ∧ readView s v = (v, .error e) := by
  obtain ⟨v1, P1, h1, h2, h3⟩ := h
  rw [hv] at h1; cases h1
  rw [hp] at h2; cases h2
  have hr : readView s v = match refresh v.leaf P.version (leafValues s v.leaf) with
      | .error e => (v, .error e)
      | .ok l => ({ v with leaf := l }, .ok ()) := by
    unfold readView readLeaf
    rw [hp]
    simp only [hc, ne_eq, not_true_eq_false, if_false]
    cases refresh v.leaf P.version (leafValues s v.leaf) <;> rfl
  rw [hr]
  rcases h3 with h3 | ⟨l, n, h3, h4, h5⟩
  · unfold refresh
    rw [h3]
    cases hl : leafValues s v.leaf with
    | error e => exact Or.inr (Or.inr ⟨e, rfl, rfl⟩)
    | ok l => exact Or.inl ⟨l, _, rfl, rfl, rfl, rfl, rfl⟩
  · by_cases hn : n = P.version
    · have hre : ∀ x, refresh v.leaf P.version x = .ok v.leaf := by
        intro x; unfold refresh; rw [h3, h4]; simp [hn]
      rw [hre]
      rcases h5 hn with h | h
      · exact Or.inl ⟨l, v, h, rfl, h3, by rw [h4, hn], rfl⟩
      · exact Or.inr (Or.inl ⟨l, h, rfl, h3⟩)
    · unfold refresh
      rw [h3, h4]
      simp only [if_neg hn]
      cases hl : leafValues s v.leaf with
      | error e => exact Or.inr (Or.inr ⟨e, rfl, rfl⟩)
      | ok l' =>
        simp only [Arr.copyTo]
        exact Or.inl ⟨l', _, rfl, rfl, rfl, rfl, rfl⟩

theorem Cache.put {s : St K G} {i : Nat} {own : List (Fl K) → Prop} (h : Cache s i own)
    {v : TView K} {P : Param K G} (hv : s.tviews[i]? = some v)
    (hp : s.params[v.leaf.param]? = some P) (hc : P.children = []) :
    Cache (s.setT i (fun _ => (readView s v).1)) i own := by
  rcases h.read hv hp hc with ⟨l, v', h1, h2, h3, h4, h5⟩ | ⟨l, h1, h2, h3⟩ | ⟨e, h1, h2⟩
  · rw [h2]
    refine ⟨v', P, by rw [setT_self, hv]; rfl, ?_, Or.inr ⟨l, P.version, h3, h4, fun _ => Or.inl ?_⟩⟩
    · simp only [TLeaf.stat, Prod.mk.injEq] at h5
      rw [h5.1]; exact hp
    · have : leafValues (s.setT i (fun _ => v')) v'.leaf = leafValues s v'.leaf := rfl
      rw [this, leafValues_stat h5, h1]
  · rw [h2]; simp only; rw [setT_id (f := fun _ => v) hv rfl]; exact h
  · rw [h2]; simp only; rw [setT_id (f := fun _ => v) hv rfl]; exact h

theorem Cache.mono {s : St K G} {i : Nat} {own own' : List (Fl K) → Prop} (h : Cache s i own)
    (ho : ∀ l, own l → own' l) : Cache s i own' := by
  obtain ⟨v, P, h1, h2, h3⟩ := h
  exact ⟨v, P, h1, h2, h3.imp_right fun ⟨l, n, a, b, c⟩ => ⟨l, n, a, b, fun e => (c e).imp_right (ho l)⟩⟩

/-- Calls that do not write through the view keep it in order. -/
theorem Cache.step {env : Env K} {s : St K G} (hi : Inv env s) {i : Nat} {own : List (Fl K) → Prop}
    (h : Cache s i own) {op : Op K G} (hw : writesView op ≠ some (.t i)) {v : TView K}
    {P P' : Param K G} (hv : s.tviews[i]? = some v) (hp : s.params[v.leaf.param]? = some P)
    (hc : P.children = []) (hp' : (call env op s).2.params[v.leaf.param]? = some P') :
    Cache (call env op s).2 i (fun l => own l ∧ P'.version = P.version) := by
  by_cases ho : onT op = some i
  · -- a read or a lock: the parameters stay as they are
    have same : (call env op s).2 = s ∨ (call env op s).2 = s.setT i (fun _ => (readView s v).1) ∨
        (call env op s).2 = s.setT i (fun v => { v with locked := true }) := by
      have rd : ∀ {α : Type} (m : M K G α), (∀ s', (m s').2 = s') →
          ((readT i >>= fun _ => m) s).2 = s.setT i (fun _ => (readView s v).1) := by
        intro α m hm
        have hr := readT_state hv
        cases hres : (readView s v).2 with
        | error e => rw [hres] at hr; rw [M.bind_error hr]
        | ok u => rw [hres] at hr; rw [M.bind_ok hr, hm]
      have hd : ∀ {α : Type} (f : Arr K → M K G α), (∀ d s', (f d s').2 = s') →
          ∀ s', ((handle i >>= f) s').2 = s' := by
        intro α f hf s'
        rcases handle_cases i s' with h | ⟨w, d, _, _, h⟩
        · rw [M.bind_error h]
        · rw [M.bind_ok h, hf]
      have it : ∀ (j : Int) (d : Arr K) (s' : St K G), ((M.ofExcept (d.getItem j) >>= fun x =>
          (pure (Out.num x) : M K G (Out K G))) s').2 = s' := by
        intro j d s'
        rw [M.bind_apply]
        cases d.getItem j <;> rfl
      cases op <;> simp only [onT, Option.some.injEq, reduceCtorEq] at ho <;> subst ho
      case tGet i => right; left; rw [tGet_eq hv]
      case tGetItem i j => exact Or.inr (Or.inl (rd _ (hd _ (it j))))
      case hGetItem i j =>
        show ((handle i >>= fun _ => _) s).2 = s ∨ ((handle i >>= fun _ => _) s).2 = _ ∨ _
        rcases handle_cases i s with h | ⟨w, d, _, _, h⟩
        · left; exact congrArg Prod.snd (M.bind_error h)
        · right; left
          exact (congrArg Prod.snd (M.bind_ok h)).trans (rd _ (hd _ (it j)))
      case tLock i =>
        right; right
        show ((M.look (fun s : St K G => s.tviews[i]?) >>= fun _ =>
          (updTView i (fun v => { v with locked := true }) >>= fun _ =>
          (pure Out.done : M K G (Out K G)))) s).2 = _
        have e1 : M.look (fun s : St K G => s.tviews[i]?) s = (.ok v, s) := look_some hv
        rw [M.bind_ok e1]; rfl
      all_goals exact absurd rfl hw
    have hpp : P' = P := by
      have : (call env op s).2.params = s.params := by
        rcases same with h | h | h <;> rw [h] <;> rfl
      rw [this, hp] at hp'; cases hp'; rfl
    subst hpp
    have : Cache (call env op s).2 i own := by
      rcases same with h' | h' | h' <;> rw [h']
      · exact h
      · exact h.put hv hp hc
      · obtain ⟨v1, P1, h1, h2, h3⟩ := h
        rw [hv] at h1; cases h1
        refine ⟨{ v with locked := true }, P1, by rw [setT_self, hv]; rfl, h2, ?_⟩
        exact h3
    exact this.mono fun l hl => ⟨hl, rfl⟩
  · have hv' := call_tview_other hi op hv ho
    obtain ⟨v1, P1, h1, h2, h3⟩ := h
    rw [hv] at h1; cases h1
    rw [hp] at h2; cases h2
    refine ⟨v, P', hv', hp', h3.imp_right ?_⟩
    rintro ⟨l, n, a, b, c⟩
    refine ⟨l, n, a, b, fun hn => ?_⟩
    obtain ⟨P2, u, t, e1, e2, _, _, _, _, _, e3⟩ := (hi.good.tviews i v hv).leaf.ex
    rw [hp] at e1; cases e1
    have hle := e3 n b
    obtain ⟨Q, hQ, hx⟩ := call_pext op hi _ P hp
    rw [hp'] at hQ; cases hQ
    have hver := hx.version
    have hnP : n = P.version := by omega
    rcases c hnP with c | c
    · left
      -- nothing was stored
      obtain ⟨ls, hst⟩ := call_steps env op s (fun i v hv => (hi.good.tviews i v hv).leaf.ty)
      obtain ⟨Q, hQ, f1, f2⟩ := hst.eff hi hp
      rw [hp'] at hQ; cases hQ
      have hno : ∀ e ∈ ls, e.1 ≠ v.leaf.param := by
        intro e he heq
        have : 0 < storesTo v.leaf.param ls := by
          unfold storesTo; rw [List.countP_pos_iff]; exact ⟨e, he, by simpa using heq⟩
        omega
      have hdata := f2 e2 hno
      obtain ⟨P3, g1, g2, g3, _⟩ := (hi.good.tviews i v hv).ex
      rw [hp] at g1; cases g1
      unfold leafValues at c ⊢
      rw [hp] at c
      rw [hp']
      simp only [hc, hx.frozen g3, hdata, ne_eq, not_true_eq_false, if_false] at c ⊢
      cases hwr : P.written with
      | false => rw [hwr] at c; simp at c
      | true => rw [hwr] at c; rw [hx.written hwr]; exact c
    · exact Or.inr ⟨c, by omega⟩

theorem Cache.float {s : St K G} {i : Nat} {own : List (Fl K) → Prop} (h : Cache s i own)
    {v : TView K} (hv : s.tviews[i]? = some v) : FloatCache v.leaf.data := by
  obtain ⟨v1, P, h1, h2, h3⟩ := h
  rw [hv] at h1; cases h1
  intro d hd
  rcases h3 with h3 | ⟨l, _, h3, _⟩
  · rw [hd] at h3; simp at h3
  · rw [hd] at h3; simp only [Option.some.injEq] at h3; exact ⟨l, h3⟩

theorem mkTLeaf_ty {env : Env K} {s : St K G} {u : String} {tps : List K} {ty : PType}
    {ext : Extrap} {p : Nat} {l : TLeaf K} (h : mkTLeaf env s u tps ty ext p = .ok l) :
    l.ts.ty = ty := by
  unfold mkTLeaf at h
  split at h
  · simp at h
  · split at h
    · simp at h
    · split at h
      · simp at h
      · split at h
        · simp at h
        · rename_i ts hts
          injection h with h; subst h
          exact (mkTSConv_ok hts).2.2.1

/-- The last element with a property splits a list in one way. -/
theorem last_split {α : Type} {f : α → Prop} {a a' b b' : List α} {x x' : α}
    (h : a ++ x :: b = a' ++ x' :: b') (hx : f x) (hb : ∀ y ∈ b, ¬ f y) (hx' : f x')
    (hb' : ∀ y ∈ b', ¬ f y) : a = a' ∧ x = x' ∧ b = b' := by
  rw [List.append_eq_append_iff] at h
  rcases h with ⟨c, h1, h2⟩ | ⟨c, h1, h2⟩
  · cases c with
    | nil => simp at h1 h2; exact ⟨h1.symm, h2.1, h2.2⟩
    | cons y c =>
      simp only [List.cons_append, List.cons.injEq] at h2
      exact absurd hx' (hb x' (by rw [h2.2]; simp))
  · cases c with
    | nil => simp at h1 h2; exact ⟨h1, h2.1.symm, h2.2.symm⟩
    | cons y c =>
      simp only [List.cons_append, List.cons.injEq] at h2
      exact absurd hx (hb' x (by rw [h2.2]; simp))

theorem cache_history {env : Env K} {s : St K G} (hi : Inv env s) {i : Nat} {k : Key} {v : TView K}
    {P : Param K G} (hv : s.tviews[i]? = some v) (hp : s.params[v.leaf.param]? = some P)
    (hkv : HasKey s v.leaf.param k) (hc : P.children = []) (hd : v.leaf.data = none)
    {mid : List (Op K G)} (hmid : OwnStored env s i k mid) :
    Cache (after env s mid) i (fun l => LastOwn env s i k mid (.floats l)) := by
  induction mid using List.reverseRecOn with
  | nil => exact ⟨v, P, hv, hp, Or.inl hd⟩
  | append_singleton mid op ih =>
    have ih := ih (fun a o b h => hmid a o (b ++ [op]) (by rw [h]; simp))
    have hi1 := after_inv mid hi
    obtain ⟨v1, hv1, hst⟩ := after_tview hi mid hv
    have hpar := stat_param hst
    obtain ⟨P1, hp1, hle⟩ := after_pext mid hi _ P hp
    have hread : P.readFrom = true := by
      obtain ⟨P0, g1, _, g3, _⟩ := (hi.good.tviews i v hv).ex
      rw [hp] at g1; cases g1; exact g3
    have hc1 : P1.children = [] := by rw [hle.frozen hread, hc]
    have hk1 := after_key hi mid hkv
    rw [after_append]
    by_cases hw : writesView op = some (.t i)
    · obtain ⟨h1, h2⟩ := hmid mid op [] rfl hw
      rw [after_append] at h1
      have hvk : viewKey env (after env s mid) (.t i) = some k :=
        (viewKey_some hi1).2 ⟨v1.leaf.param, some v1.leaf.conv.target, by simp [viewTarget, hv1],
          by rw [hpar]; exact hk1⟩
      obtain ⟨w, d, e1, _, e2, e3, _, e4⟩ := wrote_of_version hi1 hw hvk h1
      rw [hv1] at e1; cases e1
      obtain ⟨l, rfl⟩ := e4 (ih.float hv1) h2
      obtain ⟨v2, P2, f1, f2, f3, f4⟩ := e2.synced
      refine ⟨v2, P2, f1, f3, Or.inr ⟨l, P2.version, f2, f4, fun _ => Or.inr ?_⟩⟩
      refine ⟨mid, op, [], rfl, hw, by simp, rfl, ?_, e3⟩
      rw [after_append]
      unfold result
      rw [hPeek_synced e2.synced]
    · obtain ⟨P2, hp2, _⟩ := call_pext op hi1 _ P1 hp1
      have := ih.step hi1 hw hv1 (by rw [hpar]; exact hp1) hc1 (by rw [hpar]; exact hp2)
      rw [after_one]
      refine this.mono ?_
      rintro l ⟨⟨a, o, b, g1, g2, g3, g4, g5, g6⟩, hver⟩
      refine ⟨a, o, b ++ [op], by rw [g1]; simp, g2, ?_, ?_, g5, g6⟩
      · intro x hx
        rcases List.mem_append.1 hx with hx | hx
        · exact g3 x hx
        · simp only [List.mem_singleton] at hx; subst hx; exact hw
      · rw [← g4, versionAt_of hi1.tree hk1 hp1, after_append, after_one,
          versionAt_of (call_inv op hi1).tree (hk1.mono (call_pext _ hi1) (call_rext _ hi1)) hp2, hver]

/-- **C12**, what holds: reading `view.values` of a timeseries view on a childless parameter shows
either what a new view with the same unit, time points and conversion options would show, or exactly
what this view showed right after the last write made through it, and then nobody wrote after that.

Missing from C12: histories in which a write through this view was refused or made while the view was
locked, and integer arrays; see `C12_refused_write_visible`, `C12_integer_cache`,
`C13_locked_discarded` and `C13_locked_unreadable`. -/
theorem C12_current_partial {env : Env K} {root : String} {pre mid : List (Op K G)}
    {name region : HName} {w : String} {tps : List K} {ty : TyArg} {int : IntArg} {ext : ExtArg}
    {i : Nat}
    (hok : result env (after env (St.init root) pre) (.timeseries name w tps region ty int ext)
      = .ok (.view i))
    (hch : ¬ HasChildren env
      (after env (St.init root) (pre ++ [.timeseries name w tps region ty int ext]))
      (region.parts, name.parts))
    (hmid : OwnStored env
      (after env (St.init root) (pre ++ [.timeseries name w tps region ty int ext])) i
      (region.parts, name.parts) mid) :
    let s := after env (St.init root) (pre ++ .timeseries name w tps region ty int ext :: mid)
    result env s (.tGet i) = freshRead env s (region.parts, name.parts) w tps ty int ext ∨
    ∃ d, LastOwn env (after env (St.init root) (pre ++ [.timeseries name w tps region ty int ext])) i
        (region.parts, name.parts) mid d ∧
      result env s (.tGet i) = .ok (.arr d) := by
  set op : Op K G := .timeseries name w tps region ty int ext with hop
  have hi0 := after_inv (K := K) (G := G) pre (Inv.init env root)
  obtain ⟨p, v, ty', int', ext', h1, h2, h3, hk, hv, hmk⟩ := timeseries_ok hi0 hok
  rw [← hop, ← after_snoc] at hk hv hmk
  have hi1 := after_inv (K := K) (G := G) (pre ++ [op]) (Inv.init env root)
  have happ : after env (St.init root : St K G) (pre ++ op :: mid)
      = after env (after env (St.init root) (pre ++ [op])) mid := by
    rw [← after_append]; simp
  rw [happ]
  generalize after env (St.init root : St K G) (pre ++ [op]) = s0 at *
  clear happ hok
  intro s
  obtain ⟨P, hP, _⟩ := id hk
  have hch := (not_hasChildren_iff hi1.tree hk hP).1 hch
  obtain ⟨l, hvl, rfl⟩ : ∃ l, mkTLeaf env s0 w tps ty' ext' p = .ok l ∧
      v = { leaf := l, locked := false, writable := false, kids := none } := by
    unfold mkTView at hmk
    rw [hP] at hmk
    simp only [hch, if_true] at hmk
    split at hmk
    · simp at hmk
    · rename_i l hl
      injection hmk with hmk
      exact ⟨l, hl, hmk.symm⟩
  obtain ⟨hlp, hld, hlv, _⟩ := mkTLeaf_tps hvl
  obtain ⟨P0, g1, gt, g3, _⟩ := (hi1.good.tviews i _ hv).ex
  simp only at g1 gt
  rw [hlp] at g1
  rw [hP] at g1; cases g1
  have hty : l.ts.ty = ty' := mkTLeaf_ty hvl
  have hcache := cache_history hi1 hv (by rw [hlp]; exact hP) (by rw [hlp]; exact hk) hch hld hmid
  have hi := after_inv mid hi1
  obtain ⟨v1, hv1, hst⟩ := after_tview hi1 mid hv
  have hpar : v1.leaf.param = p := by rw [stat_param hst]; exact hlp
  obtain ⟨P1, hp1, hle⟩ := after_pext mid hi1 _ P hP
  have hc1 : P1.children = [] := by rw [hle.frozen g3, hch]
  have hlv1 : leafValues s v1.leaf = leafValues s l :=
    leafValues_stat (congrArg Prod.fst hst)
  have hfresh := fresh_leaf hi (w := w) (tps := tps) (int := int) h1 h2 h3 (after_key hi1 mid hk) hp1
    (by rw [← hty]; exact hle.ptype _ gt) hc1
    (mkTLeaf_mono (after_pext mid hi1) hP (by rw [gt]; simp) hvl)
  unfold result
  rw [hfresh, tGet_eq hv1]
  rcases hcache.read hv1 (by rw [hpar]; exact hp1) hc1 with
    ⟨x, v', e1, e2, e3, _⟩ | ⟨x, e1, e2, e3⟩ | ⟨e, e1, e2⟩
  · left
    rw [← hlv1, e1]
    simp only [shown, e2, e3]
  · right
    refine ⟨_, e1, ?_⟩
    simp only [shown, e2, e3]
  · left
    rw [← hlv1, e1]
    simp only [shown, e2]

/-- **C12**, "in particular": once the version has changed after the last write made through the
view, the view shows what a new view would show. -/
theorem C12_others_seen_partial {env : Env K} {root : String} {pre a b : List (Op K G)} {own : Op K G}
    {name region : HName} {w : String} {tps : List K} {ty : TyArg} {int : IntArg} {ext : ExtArg}
    {i : Nat}
    (hok : result env (after env (St.init root) pre) (.timeseries name w tps region ty int ext)
      = .ok (.view i))
    (hch : ¬ HasChildren env
      (after env (St.init root) (pre ++ [.timeseries name w tps region ty int ext]))
      (region.parts, name.parts))
    (hmid : OwnStored env
      (after env (St.init root) (pre ++ [.timeseries name w tps region ty int ext])) i
      (region.parts, name.parts) (a ++ own :: b))
    (hown : writesView own = some (.t i)) (hb : ∀ o ∈ b, writesView o ≠ some (.t i))
    (hne : versionAt env (after env (St.init root)
        (pre ++ .timeseries name w tps region ty int ext :: (a ++ own :: b))) (region.parts, name.parts)
      ≠ versionAt env (after env (St.init root)
        (pre ++ .timeseries name w tps region ty int ext :: (a ++ [own]))) (region.parts, name.parts)) :
    let s := after env (St.init root)
      (pre ++ .timeseries name w tps region ty int ext :: (a ++ own :: b))
    result env s (.tGet i) = freshRead env s (region.parts, name.parts) w tps ty int ext := by
  rcases C12_current_partial hok hch hmid with h | ⟨d, ⟨a', o', b', h1, h2, h3, h4, _⟩, _⟩
  · exact h
  · exfalso
    obtain ⟨rfl, rfl, rfl⟩ := last_split h1 hown hb h2 h3
    apply hne
    have e : ∀ m : List (Op K G), after env (St.init root : St K G)
        (pre ++ .timeseries name w tps region ty int ext :: m)
        = after env (after env (St.init root) (pre ++ [.timeseries name w tps region ty int ext])) m := by
      intro m; rw [← after_append]; simp
    rw [e (a ++ own :: b), e (a ++ [own])]; exact h4

/-- Hypotheses of C12 met: two views with different units and time points, writes through both; the
first shows its own array, then what the other one wrote. -/
example :
    let req : Op ℚ ℕ := points ["a"] "K" [0, 1, 2, 3, 4]
    let mid : List (Op ℚ ℕ) := [points ["a"] "mK" [0, 2, 4], .tSet 0 (nums [1, 2, 3, 4, 5]), .tGet 1,
      .tGet 0]
    demo (req :: mid ++ [.tGet 0]) = [.ok (.view 0), .ok (.view 1), .ok .done,
      .ok (.arr (nums [1000, 3000, 5000])), .ok (.arr (nums [1, 2, 3, 4, 5])),
      .ok (.arr (nums [1, 2, 3, 4, 5]))] ∧
    versionAt demoEnv (demoSt [req, points ["a"] "mK" [0, 2, 4]]) (["World"], ["a"]) = some 0 ∧
    versionAt demoEnv (demoSt (req :: mid)) (["World"], ["a"]) = some 1 ∧
    versionAt demoEnv (demoSt (req :: mid ++ [.tSet 1 (nums [3000, 2000, 1000])])) (["World"], ["a"])
      = some 2 ∧
    result demoEnv (demoSt (req :: mid ++ [.tSet 1 (nums [3000, 2000, 1000])])) (.tGet 0)
      = .ok (.arr (nums [3, 5/2, 2, 3/2, 1])) ∧
    freshRead demoEnv (demoSt (req :: mid ++ [.tSet 1 (nums [3000, 2000, 1000])])) (["World"], ["a"])
      "K" [0, 1, 2, 3, 4] (.enum .point) (.enum .linear) (.enum .linear)
      = .ok (.arr (nums [3, 5/2, 2, 3/2, 1])) := by
  decide +kernel

/-- **C12** is violated by refused writes: view 1 shows what was refused, although the parameter
never held it. -/
theorem C12_refused_write_visible :
    demo [points ["a"] "K" [0, 1, 2, 3], points ["a"] "K" [1, 2], .tSet 0 (nums [0, 10, 20, 30]),
      .tGet 1, .tSet 1 (nums [7, 8]), .tGet 1, points ["a"] "K" [1, 2], .tGet 2]
    = [.ok (.view 0), .ok (.view 1), .ok .done, .ok (.arr (nums [10, 20])), .error .insufficientData,
      .ok (.arr (nums [7, 8])), .ok (.view 2), .ok (.arr (nums [10, 20]))] := by decide +kernel

/-- **C12** is violated by integer arrays: a view whose first use was the assignment of integers
cannot read what another view writes. -/
theorem C12_integer_cache :
    demo [points ["a"] "K" [0, 1, 2], points ["a"] "K" [0, 1, 2], .tSet 0 (.ints [1, 2, 3]),
      .tSet 1 (nums [1/2, 1/2, 1/2]), .tGet 0]
    = [.ok (.view 0), .ok (.view 1), .ok .done, .ok .done, .error .typeError] := by decide +kernel

end Openscm
