import Verif.CoreProps5

/-!
# C11: aggregated timeseries views
-/

set_option linter.unusedSectionVars false

namespace Openscm
variable {K G : Type} [Field K] [LinearOrder K] [IsStrictOrderedRing K]

/-! ## Specification -/

/-- What somebody sees who asks for a timeseries view of `k` now and reads it. -/
def freshRead (env : Env K) (s : St K G) (k : Key) (w : String) (tps : List K) (ty : TyArg)
    (int : IntArg) (ext : ExtArg) : Res K G :=
  let op : Op K G := .timeseries (.seq k.2) w tps (.seq k.1) ty int ext
  match result env s op with
  | .ok (.view j) => result env (after env s [op]) (.tGet j)
  | r => r

/-- The arrays that were read, or the first exception. -/
def arrays : List (Res K G) → Except Err (List (List (Fl K)))
  | [] => .ok []
  | .error e :: _ => .error e
  | .ok (.arr d) :: r => (arrays r).map (d.vals :: ·)
  | .ok _ :: _ => .error .unmodelled

/-- Element-wise sum. -/
def sumArrays : List (List (Fl K)) → List (Fl K)
  | [] => []
  | l :: ls => ls.foldl (List.zipWith Fl.add) l

/-- Element-wise sum of what was read. -/
def sumReads (rs : List (Res K G)) : Res K G :=
  (arrays rs).map (fun ls => .arr (.floats (sumArrays ls)))

/-! ## Lemmas -/

/-- Timeseries requests that succeed hand out a view made for the parameter asked for. -/
theorem timeseries_ok {env : Env K} {s : St K G} (hi : Inv env s) {name region : HName} {w : String}
    {tps : List K} {ty : TyArg} {int : IntArg} {ext : ExtArg} {i : Nat}
    (h : result env s (.timeseries name w tps region ty int ext) = .ok (.view i)) :
    ∃ p v ty' int' ext', ty.parse = .ok ty' ∧ int.parse = .ok int' ∧ ext.parse = .ok ext' ∧
      HasKey (call env (.timeseries name w tps region ty int ext) s).2 p
        (region.parts, name.parts) ∧
      (call env (.timeseries name w tps region ty int ext) s).2.tviews[i]? = some v ∧
      mkTView env (call env (.timeseries name w tps region ty int ext) s).2 p w tps ty' ext'
        = .ok v := by
  have hc : call env (.timeseries name w tps region ty int ext) s
      = (timeseriesCall env name w tps region ty int ext >>= fun i => pure (Out.view i : Out K G)) s :=
    rfl
  unfold result at h
  unfold timeseriesCall at hc
  cases h1 : ty.parse with
  | error e =>
    rw [h1] at hc
    have : call env (.timeseries name w tps region ty int ext) s = (.error e, s) := hc
    rw [this] at h; simp at h
  | ok ty' =>
    cases h2 : int.parse with
    | error e =>
      rw [h1, h2] at hc
      have : call env (.timeseries name w tps region ty int ext) s = (.error e, s) := hc
      rw [this] at h; simp at h
    | ok int' =>
      cases h3 : ext.parse with
      | error e =>
        rw [h1, h2, h3] at hc
        have : call env (.timeseries name w tps region ty int ext) s = (.error e, s) := hc
        rw [this] at h; simp at h
      | ok ext' =>
        rw [h1, h2, h3] at hc
        have hc : call env (.timeseries name w tps region ty int ext) s
            = ((reach name region >>= fun p => attemptRead p ty' (some w) (some tps) >>= fun _ =>
              M.value (fun s => mkTView env s p w tps ty' ext') >>= addTView) >>=
              fun i => pure (Out.view i : Out K G)) s := hc
        have hsp := reach_spec hi name region
        have hq1 := (quiet_reach env name region s).inv hi
        cases hr : reach name region s with
        | mk r s1 =>
          rw [hr] at hsp hq1
          cases r with
          | error e =>
            rw [M.bind_error (M.bind_error hr)] at hc
            rw [hc] at h; simp at h
          | ok p =>
            rcases hsp with ⟨_, h', _⟩ | ⟨_, _, ⟨h', _⟩ | ⟨p', h1', h2', _⟩⟩
            · simp at h'
            · simp at h'
            · simp only [Except.ok.injEq] at h1'; subst h1'
              simp only at h2' hq1
              have hqs := quiet_attemptRead env p ty' (some w) (some tps)
                (Or.inr ⟨fun hg => by rw [hg] at h1; rcases tyArg_parse h1 with h | h <;> simp at h, rfl⟩) s1
              cases ha : attemptRead p ty' (some w) (some tps) s1 with
              | mk r2 s2 =>
                rw [ha] at hqs
                cases r2 with
                | error e =>
                  have : (reach name region >>= fun p => attemptRead p ty' (some w) (some tps) >>=
                      fun _ => M.value (fun s => mkTView env s p w tps ty' ext') >>= addTView) s
                      = (.error e, s2) := by
                    rw [M.bind_ok hr, M.bind_error ha]
                  rw [M.bind_error this] at hc
                  rw [hc] at h; simp at h
                | ok u =>
                  cases hv : mkTView env s2 p w tps ty' ext' with
                  | error e =>
                    have : (reach name region >>= fun p => attemptRead p ty' (some w) (some tps) >>=
                        fun _ => M.value (fun s => mkTView env s p w tps ty' ext') >>= addTView) s
                        = (.error e, s2) := by
                      rw [M.bind_ok hr, M.bind_ok ha, M.bind_apply, M.value_apply, hv]
                    rw [M.bind_error this] at hc
                    rw [hc] at h; simp at h
                  | ok v =>
                    have : (reach name region >>= fun p => attemptRead p ty' (some w) (some tps) >>=
                        fun _ => M.value (fun s => mkTView env s p w tps ty' ext') >>= addTView) s
                        = (.ok s2.tviews.length, { s2 with tviews := s2.tviews ++ [v] }) := by
                      rw [M.bind_ok hr, M.bind_ok ha, M.bind_apply, M.value_apply, hv]; rfl
                    rw [M.bind_ok this] at hc
                    rw [hc] at h ⊢
                    have h : s2.tviews.length = i := by
                      have h : (Except.ok (Out.view s2.tviews.length) : Res K G) = .ok (.view i) := h
                      simpa using h
                    subst h
                    have hk2 : HasKey s2 p (region.parts, name.parts) :=
                      h2'.mono (hqs.pext hq1) hqs.rext
                    refine ⟨p, v, ty', int', ext', rfl, rfl, rfl, ?_, ?_, hv⟩
                    · show HasKey { s2 with tviews := s2.tviews ++ [v] } p _
                      have hx : PExt s2 { s2 with tviews := s2.tviews ++ [v] } := .of_eq rfl
                      have hy : RExt s2 { s2 with tviews := s2.tviews ++ [v] } := .of_eq rfl
                      exact hk2.mono hx hy
                    · show (s2.tviews ++ [v])[s2.tviews.length]? = some v
                      simp


theorem mkTLeaf_mono {env : Env K} {s s' : St K G} {u : String} {tps : List K} {ty : PType}
    {ext : Extrap} {p : Nat} {l : TLeaf K} {P : Param K G} (hx : PExt s s')
    (hp : s.params[p]? = some P) (ht : P.ptype ≠ none) (h : mkTLeaf env s u tps ty ext p = .ok l) :
    mkTLeaf env s' u tps ty ext p = .ok l := by
  obtain ⟨P', hp', hle⟩ := hx p P hp
  unfold mkTLeaf at h ⊢
  rw [hp] at h
  rw [hp']
  simp only at h ⊢
  rw [hle.unit ht]
  cases hc : mkConvOpt env.units P.unit u with
  | error e => simp [hc] at h
  | ok c =>
    simp only [hc] at h ⊢
    cases hs : P.tps with
    | none => simp [hs] at h
    | some src => rw [hle.tps src hs]; simpa [hs] using h

theorem mkTLeaf_tps {env : Env K} {s : St K G} {u : String} {tps : List K} {ty : PType}
    {ext : Extrap} {p : Nat} {l : TLeaf K} (h : mkTLeaf env s u tps ty ext p = .ok l) :
    l.param = p ∧ l.data = none ∧ l.version = none ∧
      ∃ P src, s.params[p]? = some P ∧ P.tps = some src := by
  unfold mkTLeaf at h
  split at h
  · simp at h
  · rename_i P hP
    split at h
    · simp at h
    · split at h
      · simp at h
      · rename_i src hs
        split at h
        · simp at h
        · injection h with h; subst h; exact ⟨rfl, rfl, rfl, P, src, hP, hs⟩

theorem PGood.series_read {P : Param K G} (h : PGood P) {ty : PType} (ht : P.ptype = some ty)
    (hty : ty = .average ∨ ty = .point) {src : List K} (hs : P.tps = some src) :
    P.readFrom = true := by
  have := h.2
  rw [ht] at this
  rcases hty with rfl | rfl
  all_goals
    rcases this.2 with ⟨h1, _⟩ | ⟨_, _, _, _, _, h⟩
    · rw [hs] at h1; simp at h1
    · exact h

/-- What a new view of an existing timeseries leaf shows. -/
theorem fresh_leaf {env : Env K} {s : St K G} (hi : Inv env s) {q : Nat} {k : Key} {Q : Param K G}
    {w : String} {tps : List K} {ty : TyArg} {int : IntArg} {ext : ExtArg} {ty' : PType}
    {int' : Interp} {ext' : Extrap} {l : TLeaf K}
    (h1 : ty.parse = .ok ty') (h2 : int.parse = .ok int') (h3 : ext.parse = .ok ext')
    (hk : HasKey s q k) (hQ : s.params[q]? = some Q) (ht : Q.ptype = some ty')
    (hc : Q.children = []) (hl : mkTLeaf env s w tps ty' ext' q = .ok l) :
    freshRead env s k w tps ty int ext = match leafValues s l with
      | .ok a => .ok (.arr (.floats a))
      | .error e => .error e := by
  obtain ⟨hlp, hld, hlv, Q', src, hQ', hsrc⟩ := mkTLeaf_tps hl
  rw [hQ] at hQ'; cases hQ'
  have hread := (hi.good.params q Q hQ).series_read ht (tyArg_parse h1) hsrc
  have hr : reach (.seq k.2) (.seq k.1) s = (.ok q, s) :=
    reach_existing (ns := []) hi.tree hk (by simp [HName.parts])
  have ha : attemptRead q ty' (some w) (some tps) s = (.ok (), s) := by
    unfold attemptRead
    rw [hQ]
    simp only [ht, ne_eq, not_true_eq_false, if_false]
    rw [setParam_id hQ (by cases Q; simp_all)]
  set v : TView K := { leaf := l, locked := false, writable := false, kids := none } with hv
  have hm : mkTView env s q w tps ty' ext' = .ok v := by
    unfold mkTView
    rw [hQ]
    simp only [hl, hc, if_true]
    rfl
  have hcall : call env (.timeseries (.seq k.2) w tps (.seq k.1) ty int ext) s
      = (.ok (.view s.tviews.length), { s with tviews := s.tviews ++ [v] }) := by
    show (timeseriesCall env (.seq k.2) w tps (.seq k.1) ty int ext >>=
      fun i => pure (Out.view i : Out K G)) s = _
    unfold timeseriesCall
    rw [h1, h2, h3]
    show ((reach (.seq k.2) (.seq k.1) >>= fun p => attemptRead p ty' (some w) (some tps) >>= fun _ =>
              M.value (fun s => mkTView env s p w tps ty' ext') >>= addTView) >>=
              fun i => pure (Out.view i : Out K G)) s = _
    have : (reach (.seq k.2) (.seq k.1) >>= fun p => attemptRead p ty' (some w) (some tps) >>=
        fun _ => M.value (fun s => mkTView env s p w tps ty' ext') >>= addTView) s
        = (.ok s.tviews.length, { s with tviews := s.tviews ++ [v] }) := by
      rw [M.bind_ok hr, M.bind_ok ha, M.bind_apply, M.value_apply, hm]; rfl
    rw [M.bind_ok this]; rfl
  unfold freshRead
  simp only [result, after_one]
  rw [hcall]
  simp only
  have hvi : (({ s with tviews := s.tviews ++ [v] } : St K G)).tviews[s.tviews.length]? = some v := by
    show (s.tviews ++ [v])[s.tviews.length]? = some v
    simp
  rw [tGet_eq hvi]
  simp only
  have hQ2 : (({ s with tviews := s.tviews ++ [v] } : St K G)).params[v.leaf.param]? = some Q := by
    show s.params[l.param]? = some Q
    rw [hlp]; exact hQ
  have hlv2 : leafValues ({ s with tviews := s.tviews ++ [v] } : St K G) v.leaf = leafValues s l :=
    rfl
  unfold readView readLeaf
  rw [hQ2]
  simp only [hc, ne_eq, not_true_eq_false, if_false]
  rw [hlv2]
  have hvd : v.leaf.data = none := hld
  unfold refresh
  rw [hvd]
  cases leafValues s l with
  | error e => rfl
  | ok a => rfl

theorem sumKids_reads {s : St K G} {kids : List (TLeaf K)} {rs : List (Res K G)}
    (h : List.Forall₂ (fun l r => l.data = none ∧ (∃ P, s.params[l.param]? = some P) ∧
      r = match leafValues s l with
        | .ok a => .ok (.arr (.floats a))
        | .error e => .error e) kids rs) (acc : Option (List (Fl K))) :
    (sumKids s acc kids).2 = match arrays rs with
      | .ok ls => .ok (match acc with
        | none => sumArrays ls
        | some a => ls.foldl (List.zipWith Fl.add) a)
      | .error e => .error e := by
  induction h generalizing acc with
  | nil => cases acc <;> rfl
  | @cons l r kids rs hlr _ ih =>
    obtain ⟨h1, ⟨P, h2⟩, rfl⟩ := hlr
    unfold sumKids readLeaf
    rw [h2]
    unfold refresh
    rw [h1]
    cases hv : leafValues s l with
    | error e => simp only [arrays]
    | ok a =>
      simp only
      rw [ih]
      simp only [arrays, TLeaf.cache, Arr.vals]
      cases ha : arrays rs with
      | error e => simp [Except.map]
      | ok ls => cases acc <;> simp [Except.map, addAcc, sumArrays]

/-- Calls on other views leave a timeseries view alone. -/
theorem after_tview_other {env : Env K} {s : St K G} (hi : Inv env s) {post : List (Op K G)} {i : Nat}
    {v : TView K} (hv : s.tviews[i]? = some v) (h : ∀ op ∈ post, callee op ≠ some (.t i)) :
    (after env s post).tviews[i]? = some v := by
  induction post generalizing s with
  | nil => exact hv
  | cons o post ih =>
    rw [after_cons]
    refine ih (call_inv o hi) (call_tview_other hi o hv ?_) (fun op ho => h op (by simp [ho]))
    intro ho
    have := h o (by simp)
    cases o <;> simp only [onT, Option.some.injEq, reduceCtorEq] at ho <;> subst ho <;> exact this rfl

/-- **C11**, what holds: an aggregated timeseries view that has not been used yet shows, when first
read, the element-wise sum over the leaves there were when it was obtained; each leaf contributes,
once, what a new view of it (same unit, time points and conversion options) shows now. -/
theorem C11_first_read_partial {env : Env K} {root : String} {pre post : List (Op K G)}
    {name region : HName} {w : String} {tps : List K} {ty : TyArg} {int : IntArg} {ext : ExtArg}
    {i : Nat}
    (hok : result env (after env (St.init root) pre) (.timeseries name w tps region ty int ext)
      = .ok (.view i))
    (hch : HasChildren env
      (after env (St.init root) (pre ++ [.timeseries name w tps region ty int ext]))
      (region.parts, name.parts))
    (hty : ∀ k', IsLeaf env
        (after env (St.init root) (pre ++ [.timeseries name w tps region ty int ext]))
        (region.parts, name.parts) k' →
      (infoAt env (after env (St.init root) (pre ++ [.timeseries name w tps region ty int ext]))
        k').bind Info.ptype = asks (.timeseries name w tps region ty int ext : Op K G))
    (hpost : ∀ op ∈ post, callee op ≠ some (.t i)) :
    ∃ ks, LeafList env
        (after env (St.init root) (pre ++ [.timeseries name w tps region ty int ext]))
        (region.parts, name.parts) ks ∧
      result env (after env (St.init root)
          (pre ++ .timeseries name w tps region ty int ext :: post)) (.tGet i) =
        sumReads (ks.map fun k' => freshRead env (after env (St.init root)
          (pre ++ .timeseries name w tps region ty int ext :: post)) k' w tps ty int ext) := by
  set op : Op K G := .timeseries name w tps region ty int ext with hop
  have hi0 := after_inv (K := K) (G := G) pre (Inv.init env root)
  obtain ⟨p, v, ty', int', ext', h1, h2, h3, hk, hv, hmk⟩ := timeseries_ok hi0 hok
  rw [← hop, ← after_snoc] at hk hv hmk
  have hask : asks op = some ty' := by rw [hop]; simp only [asks, h1, h2, h3]
  rw [hask] at hty
  have hi1 := after_inv (K := K) (G := G) (pre ++ [op]) (Inv.init env root)
  have happ : after env (St.init root : St K G) (pre ++ op :: post)
      = after env (after env (St.init root) (pre ++ [op])) post := by
    rw [← after_append]; simp
  rw [happ]
  generalize after env (St.init root : St K G) (pre ++ [op]) = s0 at *
  clear happ hok
  have hll := leaves_list (env := env) hi1.tree hk
  refine ⟨_, hll, ?_⟩
  -- the view now
  have hi := after_inv post hi1
  have hv' := after_tview_other hi1 hv hpost
  have hx := after_pext post hi1
  obtain ⟨P, hP, hPk⟩ := id hk
  have hch := (hasChildren_iff hi1.tree hk hP).1 hch
  obtain ⟨hvp, hkk⟩ := mkTView_kids hi1.tree hmk
  -- shape of the view
  obtain ⟨l, kids, hvl, hmap, rfl⟩ : ∃ l kids, mkTLeaf env s0 w tps ty' ext' p = .ok l ∧
      mapLeaves (mkTLeaf env s0 w tps ty' ext') (leaves s0 p) = .ok kids ∧
      v = { leaf := l, locked := false, writable := false, kids := some kids } := by
    unfold mkTView at hmk
    rw [hP] at hmk
    simp only [hch, if_false] at hmk
    split at hmk
    · simp at hmk
    · rename_i l hl
      split at hmk
      · simp at hmk
      · rename_i kids hm
        injection hmk with hmk
        exact ⟨l, kids, hl, hm, hmk.symm⟩
  obtain ⟨hlp, hld, hlv, _⟩ := mkTLeaf_tps hvl
  obtain ⟨P', hP', hle⟩ := hx p P hP
  have hch' : P'.children ≠ [] := by
    obtain ⟨c, hc⟩ := List.exists_mem_of_ne_nil _ hch
    exact List.ne_nil_of_mem (hle.children c hc)
  unfold result
  rw [tGet_eq hv']
  simp only
  have key : List.Forall₂ (fun l r => l.data = none ∧
      (∃ P, (after env s0 post).params[l.param]? = some P) ∧
      r = match leafValues (after env s0 post) l with
        | .ok a => .ok (.arr (.floats a))
        | .error e => .error e) kids
      (((leaves s0 p).map (keyOf s0)).map fun k' =>
        freshRead env (after env s0 post) k' w tps ty int ext) := by
    rw [List.map_map, List.forall₂_map_right_iff]
    have hfa := (mapLeaves_forall₂ hmap).flip
    have hmem : ∀ l ∈ kids, ∃ x ∈ leaves s0 p, mkTLeaf env s0 w tps ty' ext' x = .ok l :=
      mapLeaves_mem hmap
    refine List.Forall₂.imp ?_ ((List.forall₂_and_left _ _).2 ⟨fun x hx => hx, hfa⟩)
    rintro l' q ⟨hl', hq⟩
    have hq : mkTLeaf env s0 w tps ty' ext' q = .ok l' := hq
    obtain ⟨e1, e2, e3, Q, src, hQ, hsrc⟩ := mkTLeaf_tps hq
    obtain ⟨x, hxl, hxm⟩ := hmem l' hl'
    have hxq : x = q := by rw [← (mkTLeaf_tps hxm).1, e1]
    subst hxq
    obtain ⟨hd, Q', hQ', hc⟩ := ((leaves_spec hi1.tree p).2 x).1 hxl
    rw [hQ] at hQ'; cases hQ'
    obtain ⟨k', hk', _⟩ := hd.above hi1.tree hk
    have hleaf : IsLeaf env s0 (region.parts, name.parts) k' := by
      rw [← keyOf_spec hk', ← hll.2]; exact List.mem_map_of_mem hxl
    have ht := hty k' hleaf
    rw [infoAt_of hi1.tree hk' hQ] at ht
    simp only [Option.bind_some] at ht
    have hread := (hi1.good.params x Q hQ).series_read ht (tyArg_parse h1) hsrc
    obtain ⟨Q2, hQ2, hle2⟩ := hx x Q hQ
    refine ⟨e2, by rw [e1]; exact ⟨Q2, hQ2⟩, ?_⟩
    simp only [Function.comp]
    rw [keyOf_spec hk']
    exact fresh_leaf hi h1 h2 h3 (after_key hi1 post hk') hQ2 (hle2.ptype _ ht)
      (by rw [hle2.frozen hread]; exact hc)
      (mkTLeaf_mono hx hQ (by rw [ht]; simp) hq)
  have hsum := sumKids_reads key none
  unfold readView
  simp only [hlp, hP', hld]
  rw [if_pos hch']
  simp only [Option.isSome_none, Bool.false_and]
  generalize sumKids (after env s0 post) none kids = sk at hsum
  obtain ⟨kids', vals⟩ := sk
  simp only at hsum
  subst hsum
  unfold sumReads shown
  generalize (List.map _ (List.map (keyOf s0) (leaves s0 p)) : List (Res K G)) = rs
  cases arrays rs with
  | error e => simp [refresh, hld, Except.map]
  | ok ls => simp [refresh, hld, Except.map]

/-- C11 at work: leaves at two depths on two time axes. -/
example : demo [points ["a", "x"] "K" [0, 1, 2], .tSet 0 (nums [1, 2, 3]),
      points ["a", "y", "z"] "K" [0, 2, 4], .tSet 1 (nums [10, 20, 30]),
      points ["a"] "K" [0, 1, 2], .tGet 2]
    = [.ok (.view 0), .ok .done, .ok (.view 1), .ok .done, .ok (.view 2),
      .ok (.arr (nums [11, 17, 23]))] := by decide +kernel

/-- **C11** is violated: after a child is rewritten the aggregated view keeps showing the old sum,
while a new view shows the new one. -/
theorem C11_stale_after_child_write :
    demo [points ["a", "x"] "K" [0, 1, 2], .tSet 0 (nums [1, 2, 3]),
      points ["a"] "K" [0, 1, 2], .tGet 1, .tSet 0 (nums [4, 5, 6]), .tGet 1,
      points ["a"] "K" [0, 1, 2], .tGet 2]
    = [.ok (.view 0), .ok .done, .ok (.view 1), .ok (.arr (nums [1, 2, 3])), .ok .done,
      .ok (.arr (nums [1, 2, 3])), .ok (.view 2), .ok (.arr (nums [4, 5, 6]))] := by decide +kernel

end Openscm
