import Verif.FrameLoad2

/-!
# What `convert_openscm_to_scmdataframe` gathers from any parameter set

Helper file: as in `RoundGather` and `RoundProps`, but for parameter sets that need not come from a frame, and with
missing values.
-/

set_option linter.unusedSectionVars false

namespace Openscm
variable {K : Type} [Field K] [LinearOrder K] [IsStrictOrderedRing K]

/-! ## What has been gathered -/

/-- A timeseries found: key, type, unit and values. -/
structure FoundV (K : Type) where
  key : Key
  ty : PType
  unit : String
  vals : List (Fl K)

structure GathV (c : Gathered K) (S : List (FoundV K)) : Prop where
  data : c.data = S.map fun z => z.vals
  keys : (c.meta.map (·.1)).Nodup
  vars : ("variable", S.map fun z => PyVal.str (joinName z.key.2)) ∈ c.meta
  region : ("region", S.map fun z => PyVal.str (joinName z.key.1)) ∈ c.meta
  unit : ("unit", S.map fun z => PyVal.str z.unit) ∈ c.meta
  ptype : ("parameter_type", S.map fun z => PyVal.str (typeText z.ty)) ∈ c.meta
  model : "model" ∈ c.meta.map (·.1)
  scenario : "scenario" ∈ c.meta.map (·.1)
  single : ∀ x ∈ c.meta, x.1 ∉ seriesCols → ∃ v, x.2 = [v]

theorem GathV.start (a b c : String) : GathV (gatherStart a b c : Gathered K) [] := by
  refine ⟨rfl, ?_, ?_, ?_, ?_, ?_, ?_, ?_, ?_⟩
  · show ["climate_model", "scenario", "model", "variable", "region", "unit", "parameter_type"].Nodup
    decide
  all_goals simp [gatherStart, seriesCols]

theorem GathV.add {c : Gathered K} {S : List (FoundV K)} (h : GathV c S) (z : FoundV K) :
    GathV (c.add z.key.2 z.key.1 z.unit (typeText z.ty) (z.vals)) (S ++ [z]) := by
  have hkeys : (c.add z.key.2 z.key.1 z.unit (typeText z.ty) (z.vals)).meta.map (·.1) = c.meta.map (·.1) := by
    simp only [Gathered.add, dictAppend_keys]
  refine ⟨?_, by rw [hkeys]; exact h.keys, ?_, ?_, ?_, ?_, by rw [hkeys]; exact h.model,
    by rw [hkeys]; exact h.scenario, ?_⟩
  · simp [Gathered.add, h.data]
  · rw [List.map_append]
    exact dictAppend_other _ (dictAppend_other _ (dictAppend_other _ (dictAppend_self _ h.vars) (by simp))
      (by simp)) (by simp)
  · rw [List.map_append]
    exact dictAppend_other _ (dictAppend_other _ (dictAppend_self _ (dictAppend_other _ h.region (by simp)))
      (by simp)) (by simp)
  · rw [List.map_append]
    exact dictAppend_other _ (dictAppend_self _ (dictAppend_other _ (dictAppend_other _ h.unit (by simp))
      (by simp))) (by simp)
  · rw [List.map_append]
    exact dictAppend_self _ (dictAppend_other _ (dictAppend_other _ (dictAppend_other _ h.ptype (by simp))
      (by simp)) (by simp))
  · intro x hx hn
    simp only [seriesCols, List.mem_cons, List.not_mem_nil, or_false, not_or] at hn
    refine h.single x ?_ (by simp [seriesCols, hn])
    exact of_dictAppend (of_dictAppend (of_dictAppend (of_dictAppend hx hn.2.2.2) hn.2.2.1) hn.2.1) hn.1

theorem GathV.set {c : Gathered K} {S : List (FoundV K)} (h : GathV c S) {n : String} (hn : n ∉ seriesCols)
    (v : PyVal K) : GathV { c with «meta» := dictSet c.meta n [v] } S := by
  have hne := hn
  simp only [seriesCols, List.mem_cons, List.not_mem_nil, or_false, not_or] at hne
  refine ⟨h.data, ?_, dictSet_other _ h.vars (Ne.symm hne.1), dictSet_other _ h.region (Ne.symm hne.2.1),
    dictSet_other _ h.unit (Ne.symm hne.2.2.1), dictSet_other _ h.ptype (Ne.symm hne.2.2.2), ?_, ?_, ?_⟩
  · rw [dictSet_keys]
    split
    · exact h.keys
    · rename_i hnk
      rw [List.nodup_append]
      refine ⟨h.keys, by simp, fun a ha b hb => ?_⟩
      simp only [List.mem_singleton] at hb
      subst hb
      rintro rfl
      exact hnk ha
  · rw [dictSet_keys]
    split
    · exact h.model
    · exact List.mem_append_left _ h.model
  · rw [dictSet_keys]
    split
    · exact h.scenario
    · exact List.mem_append_left _ h.scenario
  · intro x hx hxn
    rcases of_dictSet hx with h' | rfl
    · exact h.single x h' hxn
    · exact ⟨v, rfl⟩


/-- The conversion back from what has been found. -/
theorem gathered_values {c : Gathered K} {S : List (FoundV K)} {times : List Int} (h : GathV c S)
    (hlen : ∀ z ∈ S, z.vals.length = times.length) :
    ∃ F', fromTs c.data.length (transposed times.length c.data) times (c.meta.map fun x => (x.1, .list x.2)) = .ok F' ∧
      F'.Ok ∧ F'.times = times ∧ F'.data.length = S.length ∧
      (∀ (i : Nat) (z : FoundV K), S[i]? = some z →
        F'.IsRow i (joinName z.key.2) (joinName z.key.1) z.unit (z.vals) ∧
        F'.HasMeta i "parameter_type" (.str (typeText z.ty))) ∧
      (∀ (n : String) (v : PyVal K), (n, [v]) ∈ c.meta → n ∉ seriesCols → ∀ i < F'.data.length, F'.HasMeta i n v) ∧
      ∀ n, n ∈ F'.cols ↔ n ∈ c.meta.map (·.1) := by
  have hn : c.data.length = S.length := by rw [h.data, List.length_map]
  have hkeys : (c.meta.map fun x => (x.1, ColArg.list x.2)).map (·.1) = c.meta.map (·.1) := by
    rw [List.map_map]; rfl
  have hcol : ∀ {k : String} {l : List (PyVal K)}, (k, l) ∈ c.meta →
      (k, ColArg.list l) ∈ c.meta.map fun x => (x.1, ColArg.list x.2) :=
    fun {k l} hk => List.mem_map.2 ⟨(k, l), hk, rfl⟩
  have hkey : ∀ {k : String} {l : List (PyVal K)}, (k, l) ∈ c.meta → k ∈ c.meta.map (·.1) :=
    fun {k l} hk => List.mem_map.2 ⟨(k, l), hk, rfl⟩
  have huniq : ∀ {k : String} {l l' : List (PyVal K)}, (k, l) ∈ c.meta → (k, l') ∈ c.meta → l = l' := by
    intro k l l' h1 h2
    have := List.inj_on_of_nodup_map h.keys h1 h2 rfl
    simpa using this
  have hb : ∀ x ∈ c.meta.map (fun x => (x.1, ColArg.list x.2)), ∃ l, broadcast c.data.length x.2 = .ok l := by
    intro x hx
    obtain ⟨y, hy, rfl⟩ := List.mem_map.1 hx
    obtain ⟨k, l⟩ := y
    simp only [broadcast]
    have hcase : l.length = c.data.length ∨ l.length = 1 := by
      by_cases hk : k ∈ seriesCols
      · left
        simp only [seriesCols, List.mem_cons, List.not_mem_nil, or_false] at hk
        rw [hn]
        rcases hk with rfl | rfl | rfl | rfl
        · rw [huniq hy h.vars, List.length_map]
        · rw [huniq hy h.region, List.length_map]
        · rw [huniq hy h.unit, List.length_map]
        · rw [huniq hy h.ptype, List.length_map]
      · right
        obtain ⟨v, hv⟩ := h.single _ hy hk
        simp only at hv
        rw [hv]; rfl
    split
    · exact ⟨_, rfl⟩
    · rename_i hne
      rcases hcase with h' | h'
      · exact absurd h' hne
      · rw [if_neg (by simp [h'])]; exact ⟨_, rfl⟩
  obtain ⟨cs, hcs⟩ := broadcastAll_succeeds hb
  have hreq : ∀ k ∈ requiredCols, k ∈ c.meta.map (·.1) := by
    intro k hk
    simp only [requiredCols, List.mem_cons, List.not_mem_nil, or_false] at hk
    rcases hk with rfl | rfl | rfl | rfl | rfl
    · exact h.model
    · exact h.scenario
    · exact hkey h.region
    · exact hkey h.vars
    · exact hkey h.unit
  obtain ⟨F', hF'⟩ : ∃ F', fromTs c.data.length (transposed times.length c.data) times
      (c.meta.map fun x => (x.1, .list x.2)) = .ok F' := by
    unfold fromTs
    rw [if_neg (by simp [transposed]), if_neg (by rw [hkeys]; simpa using hreq), hcs]
    exact ⟨_, rfl⟩
  obtain ⟨f1, f2, f3, f4, f5, f6, f7⟩ := C59_frame (by rw [hkeys]; exact h.keys) hF'
  refine ⟨F', hF', f1, f2, f4.trans hn, ?_, ?_, ?_⟩
  rotate_left
  · intro k v hk hks i hi
    rw [f4] at hi
    obtain ⟨w, hw⟩ := f6 i k hi ⟨_, hcol hk⟩
    have := f7 i k _ w (hcol hk) hw
    cases this with
    | one => exact hw
    | each hl h' =>
      simp only [List.length_singleton] at hl
      have hi0 : i = 0 := by omega
      subst hi0
      simp only [List.getElem?_cons_zero, Option.some.injEq] at h'
      rw [h']; exact hw
  · intro k
    rw [(C59_columns (by rw [hkeys]; exact h.keys) hF').2.2 k]
    simp only [List.mem_map, Prod.mk.injEq]
    constructor
    · rintro ⟨a, x, hx, rfl, _⟩
      exact ⟨x, hx, rfl⟩
    · rintro ⟨x, hx, rfl⟩
      exact ⟨_, x, hx, rfl, rfl⟩
  intro i z hz
  have hi : i < c.data.length := by rw [hn]; exact (List.getElem?_eq_some_iff.1 hz).1
  have hmeta : ∀ {k : String} {f : FoundV K → PyVal K}, (k, S.map f) ∈ c.meta → F'.HasMeta i k (f z) := by
    intro k f hk
    obtain ⟨v, hv⟩ := f6 i k hi ⟨_, hcol hk⟩
    have := lists_at (by rw [List.length_map, hn]) hi (f7 i k _ v (hcol hk) hv)
    rw [List.getElem?_map, hz] at this
    simp only [Option.map_some, Option.some.injEq] at this
    rw [this]; exact hv
  refine ⟨⟨hmeta h.vars, hmeta h.region, hmeta h.unit, ?_⟩, hmeta h.ptype⟩
  have hd : i < F'.data.length := by rw [f4]; exact hi
  refine ⟨F'.data[i], List.getElem?_eq_getElem hd, ?_⟩
  have hzl := hlen z (List.mem_of_getElem? hz)
  have hl := f1.data_len _ (List.getElem_mem hd)
  rw [f2] at hl
  refine List.ext_getElem? fun k => ?_
  by_cases hk : k < times.length
  · have hrow : (transposed times.length c.data)[k]? = some (c.data.map fun l => l.getD k .nan) := by
      simp [transposed, hk]
    have hx : (c.data.map fun l => l.getD k Fl.nan)[i]? = (z.vals)[k]? := by
      rw [h.data, List.getElem?_map, List.getElem?_map, hz]
      have : k < (z.vals).length := by rw [hzl]; exact hk
      simp only [Option.map_some, List.getD_eq_getElem?_getD, List.getElem?_eq_getElem this, Option.getD_some]
    have hx' : ∃ x, (z.vals)[k]? = some x :=
      ⟨_, List.getElem?_eq_getElem (by rw [hzl]; exact hk)⟩
    obtain ⟨x, hx'⟩ := hx'
    obtain ⟨d, d1, d2⟩ := f5 i k _ x hi hrow (hx.trans hx')
    rw [List.getElem?_eq_getElem hd] at d1; cases d1
    rw [d2, hx']
  · rw [List.getElem?_eq_none (by omega), List.getElem?_eq_none (by omega)]

/-! ## One round -/

theorem freshOf_written {G : Type} {env : Env K} {P : Param K G} {w : String} {tps : List K} {ty : TyArg} {int : IntArg}
    {ext : ExtArg} {o : Out K G} (h : freshOf env P w tps ty int ext = .ok o) : P.written = true := by
  unfold freshOf at h
  simp only [bind, Except.bind, Except.map] at h
  by_contra hw
  have hw : P.written = false := by simpa using hw
  rw [hw] at h
  repeat' split at h
  all_goals first
    | (cases h; done)
    | simp_all

/-- A written timeseries, as far as it can be read on the times. -/
def ReadV (env : Env K) (times avg : List Int) (P : Param K (PyVal K)) (t : PType) (u : String) (vals : List (Fl K)) :
    Prop :=
  P.ptype = some t ∧ (t = .average ∨ t = .point) ∧ P.unit = some u ∧
    freshOf env P u (toK (if t = .point then times else avg)) (.enum t) (.enum .linear) (.enum .none)
      = .ok (.arr (.floats vals))

/-- A scalar or generic value of `World` that can be read. -/
def ReadM (env : Env K) (k : Key) (P : Param K (PyVal K)) : Prop :=
  k.1 = worldName ∧ P.written = true ∧
    (P.ptype = some .generic ∨ P.ptype = some .scalar ∧ ∃ u c, P.unit = some u ∧ mkConv env.units u u = .ok c)

/-- Name and value of the column of a value. -/
def ColP (env : Env K) (k : Key) (P : Param K (PyVal K)) (n : String) (v : PyVal K) : Prop :=
  (P.ptype = some .generic ∧ n = joinName k.2 ∧ ∃ g, P.data = .generic g ∧ v = g.getD .none) ∨
    (P.ptype = some .scalar ∧ ∃ u c y, P.unit = some u ∧ mkConv env.units u u = .ok c ∧ P.data = .scalar y ∧
      n = joinName k.2 ++ " (" ++ u ++ ")" ∧ v = .flt (y.map c.convertFrom))

theorem gatherOne_meta {env : Env K} {s : St K (PyVal K)} (hi : Inv env s) {p : Nat} {k : Key} {P : Param K (PyVal K)}
    {times avg : List Int} (hk : HasKey s p k) (hP : s.params[p]? = some P) (hc : P.children = []) (c : Gathered K)
    (h : ReadM env k P) : ∃ n v s', gatherOne env times avg (k.2, k.1, p) c s =
      (.ok { c with «meta» := dictSet c.meta n [v] }, s') ∧ Same s s' ∧ Inv env s' ∧
      (n ∉ seriesCols ∨ P.ptype = some .generic ∧ n = joinName k.2) ∧ ColP env k P n v := by
  obtain ⟨hw, hwr, hcase⟩ := h
  have hg : getParam p s = (.ok P, s) := look_some hP
  have hgood := (hi.good.params p P hP)
  unfold PGood at hgood
  obtain ⟨hg1, hg2⟩ := hgood
  obtain ⟨-, hrd⟩ := hg1 hwr
  unfold gatherOne
  rw [M.bind_ok hg]
  rcases hcase with h1 | ⟨h1, u, cv, h2, h3⟩
  · rw [h1] at hg2
    obtain ⟨_, g, hgd⟩ := hg2.2 hc
    rw [h1]
    simp only [ne_eq, hw, not_true_eq_false, if_false]
    have hcall := generic_reread (env := env) hi hk hP h1 hrd
    rw [hw] at hcall
    rw [M.bind_ok hcall]
    simp only
    have hv : ({ s with gviews := s.gviews ++ [{ param := p, writable := false }] } :
        St K (PyVal K)).gviews[s.gviews.length]? = some { param := p, writable := false } := by
      show (s.gviews ++ [_])[s.gviews.length]? = _
      simp
    have hval : genericValue ({ s with gviews := s.gviews ++ [{ param := p, writable := false }] } :
        St K (PyVal K)) { param := p, writable := false } = .ok g := by
      unfold genericValue
      have : ({ s with gviews := s.gviews ++ [{ param := p, writable := false }] } :
        St K (PyVal K)).params[p]? = some P := hP
      simp only [this, hwr, hgd, Bool.not_true, Bool.false_eq_true, if_false]
    have hget := gGet_eq (env := env) hv
    rw [hval] at hget
    rw [M.bind_ok hget]
    have hinv := call_inv (env := env) (.generic (.seq k.2) (.seq worldName)) hi
    rw [hcall] at hinv
    exact ⟨_, _, _, rfl, ⟨rfl, rfl⟩, hinv, .inr ⟨trivial, rfl⟩, .inl ⟨h1, rfl, g, hgd, rfl⟩⟩
  · rw [h1] at hg2
    obtain ⟨_, _, y, hy⟩ := hg2
    rw [h1, h2]
    simp only [ne_eq, hw, not_true_eq_false, if_false]
    have hcall := scalar_reread hi hk hP h1 hrd hc h2 h3
    rw [hw] at hcall
    rw [M.bind_ok hcall]
    simp only
    have hv : ({ s with sviews := s.sviews ++ [{ param := p, conv := cv, writable := false, kids := none }] } :
        St K (PyVal K)).sviews[s.sviews.length]? = some { param := p, conv := cv, writable := false, kids := none } := by
      show (s.sviews ++ [_])[s.sviews.length]? = _
      simp
    have hval : scalarValue
        ({ s with sviews := s.sviews ++ [{ param := p, conv := cv, writable := false, kids := none }] } :
        St K (PyVal K)) { param := p, conv := cv, writable := false, kids := none }
        = .ok (y.map cv.convertFrom) := by
      unfold scalarValue readScalarLeaf
      have : ({ s with sviews := s.sviews ++ [{ param := p, conv := cv, writable := false, kids := none }] } :
        St K (PyVal K)).params[p]? = some P := hP
      simp only [this, hc, hwr, hy, ne_eq, not_true_eq_false, if_false, Bool.not_true, Bool.false_eq_true]
    have hget := sGet_eq (env := env) hv
    rw [hval] at hget
    rw [M.bind_ok hget]
    have hinv := call_inv (.scalar (.seq k.2) u (.seq worldName)) hi
    rw [hcall] at hinv
    exact ⟨_, _, _, rfl, ⟨rfl, rfl⟩, hinv, .inl (scalar_text _ _), .inr ⟨h1, u, cv, y, h2, h3, hy, rfl, rfl⟩⟩

/-- If a round ends, then the parameter is a timeseries or a value of `World` and could be read. -/
theorem gatherOne_inv {env : Env K} {s s' : St K (PyVal K)} (hi : Inv env s) {p : Nat} {k : Key} {P : Param K (PyVal K)}
    {times avg : List Int} (hk : HasKey s p k) (hP : s.params[p]? = some P) (hc : P.children = []) {c c' : Gathered K}
    (h : gatherOne env times avg (k.2, k.1, p) c s = (.ok c', s')) :
    (∃ t u vals, ReadV env times avg P t u vals) ∨ ReadM env k P := by
  have hg : getParam p s = (.ok P, s) := look_some hP
  have hgood := (hi.good.params p P hP)
  unfold PGood at hgood
  obtain ⟨hg1, hg2⟩ := hgood
  unfold gatherOne at h
  rw [M.bind_ok hg] at h
  have hseries : ∀ t u, P.ptype = some t → (t = .average ∨ t = .point) → P.unit = some u →
      (∃ o, freshRead env s k u (toK (if t = .point then times else avg)) (.enum t) (.enum .linear) (.enum .none)
        = .ok o) → ∃ t u vals, ReadV env times avg P t u vals := by
    rintro t u h1 h2 h3 ⟨o, ho⟩
    rw [freshRead_eq hi hk hP (by rw [h1]; simp) hc] at ho
    obtain ⟨out, rfl⟩ := freshOf_floats ho
    exact ⟨t, u, out, h1, h2, h3, ho⟩
  cases ht : P.ptype with
  | none => rw [ht] at h; cases h
  | some t =>
    rw [ht] at h hg2
    cases t with
    | generic =>
      simp only at h hg2
      obtain ⟨hrd, g, hgd⟩ := hg2.2 hc
      split at h
      · cases h
      · rename_i hw
        have hw : k.1 = worldName := not_not.1 hw
        refine .inr ⟨hw, ?_, .inl ht⟩
        rw [M.bind_ok (generic_reread (env := env) hi hk hP ht hrd)] at h
        simp only at h
        rw [M.bind_apply, gGet_eq (v := { param := p, writable := false }) (by
          show (s.gviews ++ [_])[s.gviews.length]? = _
          simp)] at h
        by_contra hn
        have hn : P.written = false := by simpa using hn
        simp only [genericValue, hP, hn, Bool.not_false, if_true, Except.map] at h
        cases h
    | scalar =>
      obtain ⟨hu, hrd, y, hy⟩ := hg2
      obtain ⟨u, hu⟩ := Option.isSome_iff_exists.1 hu
      rw [hu] at h
      simp only at h
      split at h
      · cases h
      · rename_i hw
        have hw : k.1 = worldName := not_not.1 hw
        rw [← hw] at h
        cases hcv : mkConv env.units u u with
        | error e =>
          exfalso
          have hre : reach (.seq k.2) (.seq k.1) s = (.ok p, s) :=
            reach_existing (ns := []) hi.tree hk (by simp [HName.parts])
          have : scalarCall env (.seq k.2) u (.seq k.1) s = (.error e, s) := by
            unfold scalarCall
            rw [M.bind_ok hre, M.bind_ok (attemptRead_again hP ht hrd), M.bind_apply, M.value_apply]
            unfold mkSView
            rw [hP]
            simp only [hu, mkConvOpt, hcv]
          have hcall : call env (.scalar (.seq k.2) u (.seq k.1)) s = (.error e, s) := by
            show (scalarCall env (.seq k.2) u (.seq k.1) >>= fun i => pure (Out.view i : Out K (PyVal K))) s = _
            rw [M.bind_apply, this]
          rw [M.bind_apply, hcall] at h
          cases h
        | ok cv =>
          refine .inr ⟨hw, ?_, .inr ⟨ht, u, cv, hu, hcv⟩⟩
          rw [M.bind_ok (scalar_reread hi hk hP ht hrd hc hu hcv)] at h
          simp only at h
          rw [M.bind_apply, sGet_eq (v := { param := p, conv := cv, writable := false, kids := none }) (by
            show (s.sviews ++ [_])[s.sviews.length]? = _
            simp)] at h
          by_contra hn
          have hn : P.written = false := by simpa using hn
          simp only [scalarValue, readScalarLeaf, hP, hc, hn, ne_eq, not_true_eq_false, if_false, Bool.not_false,
            if_true, Except.map] at h
          cases h
    | average =>
      obtain ⟨u, hu⟩ := Option.isSome_iff_exists.1 hg2.1
      refine .inl (hseries _ u ht (.inl rfl) hu ?_)
      rw [hu] at h
      unfold freshRead
      simp only [result, after_one]
      dsimp only at h
      generalize hop : (Op.timeseries (.seq k.2) u _ (.seq k.1) _ (.enum .linear) (.enum .none) : Op K (PyVal K)) = op
        at h ⊢
      obtain ⟨o, s1, g1, g2⟩ := M.bind_inv h
      rw [g1]
      simp only
      cases o with
      | view j =>
        simp only at g2 ⊢
        obtain ⟨a, s2, k1, _⟩ := M.bind_inv g2
        rw [k1]
        exact ⟨_, rfl⟩
      | _ => exact ⟨_, rfl⟩
    | point =>
      obtain ⟨u, hu⟩ := Option.isSome_iff_exists.1 hg2.1
      refine .inl (hseries _ u ht (.inr rfl) hu ?_)
      rw [hu] at h
      unfold freshRead
      simp only [result, after_one, if_true]
      dsimp only at h
      rw [if_pos rfl] at h
      generalize hop : (Op.timeseries (.seq k.2) u _ (.seq k.1) _ (.enum .linear) (.enum .none) : Op K (PyVal K)) = op
        at h ⊢
      obtain ⟨o, s1, g1, g2⟩ := M.bind_inv h
      rw [g1]
      simp only
      cases o with
      | view j =>
        simp only at g2 ⊢
        obtain ⟨a, s2, k1, _⟩ := M.bind_inv g2
        rw [k1]
        exact ⟨_, rfl⟩
      | _ => exact ⟨_, rfl⟩

/-! ## All rounds -/

/-- What has been found is in the parameter set. -/
def FoundV.InSet (env : Env K) (s : St K (PyVal K)) (times avg : List Int) (z : FoundV K) : Prop :=
  ∃ p P, HasKey s p z.key ∧ s.params[p]? = some P ∧ ReadV env times avg P z.ty z.unit z.vals

theorem FoundV.InSet.same {env : Env K} {s s' : St K (PyVal K)} {times avg : List Int} {z : FoundV K} (h : Same s s') :
    z.InSet env s' times avg ↔ z.InSet env s times avg := by
  unfold FoundV.InSet
  simp only [h.key, h.1]

/-- Each parameter can be read. -/
def AllRead (env : Env K) (s : St K (PyVal K)) (times avg : List Int) (l : List (List String × List String × Nat)) :
    Prop :=
  ∀ x ∈ l, ∃ P, s.params[x.2.2]? = some P ∧
    ((∃ t u vals, ReadV env times avg P t u vals) ∨ ReadM env (x.2.1, x.1) P)

theorem gatherAll_read {env : Env K} {times avg : List Int} : ∀ (l : List (List String × List String × Nat))
    {s s' : St K (PyVal K)} (_ : Inv env s) (_ : ∀ x ∈ l, HasKey s x.2.2 (x.2.1, x.1) ∧ Childless s x.2.2)
    {c c' : Gathered K} (_ : gatherAll env times avg l c s = (.ok c', s')), AllRead env s times avg l := by
  intro l
  induction l with
  | nil => intro s s' _ _ c c' _ x hx; simp at hx
  | cons x l ih =>
    intro s s' hi hl c c' h
    obtain ⟨hk, P, hP, hPc⟩ := hl x List.mem_cons_self
    simp only [gatherAll] at h
    obtain ⟨c1, s1, g1, g2⟩ := M.bind_inv h
    have hx := gatherOne_inv (k := (x.2.1, x.1)) hi hk hP hPc g1
    have hsame : Same s s1 ∧ Inv env s1 := by
      rcases hx with ⟨t, u, vals, a1, a2, a3, a4⟩ | hm
      · obtain ⟨s2, k1, k2, k3⟩ := gather_read hi hk hP (freshOf_written a4) a2 a1 a3 a4 c
        have e := g1.symm.trans k1
        simp only [Prod.mk.injEq] at e
        obtain ⟨_, rfl⟩ := e
        exact ⟨k2, k3⟩
      · obtain ⟨n, v, s2, k1, k2, k3, _⟩ := gatherOne_meta (times := times) (avg := avg) hi hk hP hPc c hm
        have e := g1.symm.trans k1
        simp only [Prod.mk.injEq] at e
        obtain ⟨_, rfl⟩ := e
        exact ⟨k2, k3⟩
    intro y hy
    rcases List.mem_cons.1 hy with rfl | hy
    · exact ⟨P, hP, hx⟩
    · obtain ⟨Q, q1, q2⟩ := ih hsame.2 (fun y hy => ⟨hsame.1.key.2 (hl y (List.mem_cons_of_mem _ hy)).1, by
          obtain ⟨Q, q1, q2⟩ := (hl y (List.mem_cons_of_mem _ hy)).2
          exact ⟨Q, by rw [hsame.1.1]; exact q1, q2⟩⟩) g2 y hy
      exact ⟨Q, by rw [← hsame.1.1]; exact q1, q2⟩

theorem gatherAll_works {env : Env K} {times avg : List Int} : ∀ (l : List (List String × List String × Nat))
    {s : St K (PyVal K)} (_ : Inv env s) (_ : ∀ x ∈ l, HasKey s x.2.2 (x.2.1, x.1) ∧ Childless s x.2.2)
    (_ : AllRead env s times avg l) (c : Gathered K),
    ∃ c' s', gatherAll env times avg l c s = (.ok c', s') ∧ Same s s' ∧ Inv env s' ∧
      ∃ S' : List (FoundV K), (S'.map (·.key)).Sublist (l.map fun x => (x.2.1, x.1)) ∧
        (∀ z, z ∈ S' ↔ z.key ∈ l.map (fun x => (x.2.1, x.1)) ∧ z.InSet env s times avg) ∧
        c'.data = c.data ++ S'.map (·.vals) ∧
        ∀ S, GathV c S → (∀ x ∈ l, ∀ P, s.params[x.2.2]? = some P → P.ptype = some .generic →
          joinName x.1 ∉ seriesCols) → GathV c' (S ++ S') := by
  intro l
  induction l with
  | nil =>
    intro s hi _ _ c
    exact ⟨c, s, rfl, ⟨rfl, rfl⟩, hi, [], by simp, by simp, by simp, fun S hS _ => by simpa using hS⟩
  | cons x l ih =>
    intro s hi hl hr c
    obtain ⟨hk, P, hP, hPc⟩ := hl x List.mem_cons_self
    obtain ⟨P', hP', hx⟩ := hr x List.mem_cons_self
    rw [hP] at hP'; cases hP'
    simp only [gatherAll]
    have hnext : ∀ {s1 : St K (PyVal K)}, Same s s1 →
        (∀ y ∈ l, HasKey s1 y.2.2 (y.2.1, y.1) ∧ Childless s1 y.2.2) ∧ AllRead env s1 times avg l := by
      intro s1 hs
      refine ⟨fun y hy => ⟨hs.key.2 (hl y (List.mem_cons_of_mem _ hy)).1, ?_⟩, fun y hy => ?_⟩
      · obtain ⟨Q, q1, q2⟩ := (hl y (List.mem_cons_of_mem _ hy)).2
        exact ⟨Q, by rw [hs.1]; exact q1, q2⟩
      · obtain ⟨Q, q1, q2⟩ := hr y (List.mem_cons_of_mem _ hy)
        exact ⟨Q, by rw [hs.1]; exact q1, q2⟩
    rcases hx with ⟨t, u, vals, a1, a2, a3, a4⟩ | hm
    · obtain ⟨s1, g1, g2, g3⟩ := gather_read hi hk hP (freshOf_written a4) a2 a1 a3 a4 c
      obtain ⟨c', s', b1, b2, b3, S', b4, b5, b6, b7⟩ := ih g3 (hnext g2).1 (hnext g2).2
        (c.add x.1 x.2.1 u (typeText t) vals)
      refine ⟨c', s', by rw [M.bind_ok g1]; exact b1, g2.trans b2, b3, ⟨(x.2.1, x.1), t, u, vals⟩ :: S',
        by simpa using b4.cons_cons (x.2.1, x.1), fun z => ?_, by rw [b6]; simp [Gathered.add], fun S hS hn => ?_⟩
      · rw [List.mem_cons, b5, List.map_cons, List.mem_cons, FoundV.InSet.same g2]
        constructor
        · rintro (rfl | ⟨h1, h2⟩)
          · exact ⟨Or.inl rfl, x.2.2, P, hk, hP, a1, a2, a3, a4⟩
          · exact ⟨Or.inr h1, h2⟩
        · rintro ⟨h1 | h1, h2⟩
          · left
            obtain ⟨zk, zt, zu, zx⟩ := z
            simp only at h1
            subst h1
            obtain ⟨p', P', d1, d2, e1, e2, e3, e4⟩ := h2
            simp only at d1 e1 e2 e3 e4
            obtain rfl := d1.inj hi.tree hk
            rw [hP] at d2; cases d2
            rw [a1] at e1; cases e1
            rw [a3] at e3; cases e3
            rw [a4] at e4; cases e4
            rfl
          · exact Or.inr ⟨h1, h2⟩
      · have := b7 _ (hS.add ⟨(x.2.1, x.1), t, u, vals⟩) (fun y hy Q hQ => by
          rw [g2.1] at hQ
          exact hn y (List.mem_cons_of_mem _ hy) Q hQ)
        simpa using this
    · obtain ⟨n, v, s1, g1, g2, g3, g4, _⟩ := gatherOne_meta (times := times) (avg := avg) hi hk hP hPc c hm
      obtain ⟨c', s', b1, b2, b3, S', b4, b5, b6, b7⟩ := ih g3 (hnext g2).1 (hnext g2).2
        { c with «meta» := dictSet c.meta n [v] }
      refine ⟨c', s', by rw [M.bind_ok g1]; exact b1, g2.trans b2, b3, S', b4.cons _, fun z => ?_, b6, fun S hS hn => ?_⟩
      · rw [b5, List.map_cons, List.mem_cons, FoundV.InSet.same g2]
        constructor
        · rintro ⟨h1, h2⟩; exact ⟨Or.inr h1, h2⟩
        · rintro ⟨h1 | h1, h2⟩
          · exfalso
            obtain ⟨p', P', d1, d2, e1, e2, _⟩ := h2
            rw [h1] at d1
            obtain rfl := d1.inj hi.tree hk
            rw [hP] at d2; cases d2
            obtain ⟨_, _, h'⟩ := hm
            rw [e1] at h'
            rcases e2 with e2 | e2 <;> rw [e2] at h' <;> simp at h'
          · exact ⟨h1, h2⟩
      · refine b7 _ (hS.set ?_ v) (fun y hy Q hQ => by
          rw [g2.1] at hQ
          exact hn y (List.mem_cons_of_mem _ hy) Q hQ)
        rcases g4 with g4 | ⟨g4, rfl⟩
        · exact g4
        · exact hn x List.mem_cons_self P hP g4

/-! ## Columns of values -/

theorem of_dictSet_ne {α : Type} {d : List (String × α)} {k : String} {v : α} {x : String × α}
    (h : x ∈ dictSet d k v) : (x ∈ d ∧ x.1 ≠ k) ∨ x = (k, v) := by
  unfold dictSet at h
  split at h
  · obtain ⟨y, hy, rfl⟩ := List.mem_map.1 h
    split
    · exact .inr rfl
    · rename_i hne
      exact .inl ⟨hy, hne⟩
  · rename_i hne
    rcases List.mem_append.1 h with h' | h'
    · refine .inl ⟨h', ?_⟩
      rintro rfl
      exact hne (List.mem_map.2 ⟨x, h', rfl⟩)
    · exact .inr (by simpa using h')

theorem of_add {c : Gathered K} {a b : List String} {u t : String} {l : List (Fl K)} {x : String × List (PyVal K)}
    (h : x ∈ (c.add a b u t l).meta) (hx : x.1 ∉ seriesCols) : x ∈ c.meta := by
  have hd : ∀ {d : List (String × List (PyVal K))} {k : String} {v : PyVal K}, k ∈ seriesCols →
      x ∈ dictAppend d k v → x ∈ d := by
    intro d k v hk h
    unfold dictAppend at h
    obtain ⟨y, hy, rfl⟩ := List.mem_map.1 h
    split
    · rename_i hyk
      rw [if_pos hyk] at hx
      exact absurd hk hx
    · exact hy
  simp only [Gathered.add] at h
  exact hd (by decide) (hd (by decide) (hd (by decide) (hd (by decide) h)))

/-- One of the parameters is a value with this column. -/
def InCol (env : Env K) (s : St K (PyVal K)) (l : List (List String × List String × Nat)) (n : String) (v : PyVal K) :
    Prop :=
  ∃ x ∈ l, ∃ P, s.params[x.2.2]? = some P ∧ ReadM env (x.2.1, x.1) P ∧ ColP env (x.2.1, x.1) P n v

theorem InCol.same {env : Env K} {s s' : St K (PyVal K)} {l : List (List String × List String × Nat)} {n : String}
    {v : PyVal K} (h : Same s s') : InCol env s' l n v ↔ InCol env s l n v := by
  unfold InCol
  rw [h.1]

theorem ColP.unique {env : Env K} {k : Key} {P : Param K (PyVal K)} {n n' : String} {v v' : PyVal K}
    (h : ColP env k P n v) (h' : ColP env k P n' v') : n = n' ∧ v = v' := by
  rcases h with ⟨a1, a2, g, a3, a4⟩ | ⟨a1, u, c, y, a2, a3, a4, a5, a6⟩ <;>
    rcases h' with ⟨b1, b2, g', b3, b4⟩ | ⟨b1, u', c', y', b2, b3, b4, b5, b6⟩
  · rw [a3] at b3
    cases b3
    exact ⟨a2.trans b2.symm, a4.trans b4.symm⟩
  · rw [a1] at b1; cases b1
  · rw [a1] at b1; cases b1
  · rw [a2] at b2; cases b2
    rw [a3] at b3; cases b3
    rw [a4] at b4; cases b4
    exact ⟨a5.trans b5.symm, a6.trans b6.symm⟩

theorem ReadM.not_series {env : Env K} {k : Key} {P : Param K (PyVal K)} (h : ReadM env k P) {t : PType}
    (ht : P.ptype = some t) : ¬ (t = .average ∨ t = .point) := by
  obtain ⟨_, _, h'⟩ := h
  rw [ht] at h'
  rintro (e | e) <;> rw [e] at h' <;> simp at h'

theorem gatherAll_cols {env : Env K} {times avg : List Int} : ∀ (l : List (List String × List String × Nat))
    {s s' : St K (PyVal K)} (_ : Inv env s) (_ : ∀ x ∈ l, HasKey s x.2.2 (x.2.1, x.1) ∧ Childless s x.2.2)
    (_ : AllRead env s times avg l) {c c' : Gathered K} (_ : gatherAll env times avg l c s = (.ok c', s')),
    (∀ y ∈ c'.meta, y.1 ∉ seriesCols →
      (y ∈ c.meta ∧ ¬ ∃ v, InCol env s l y.1 v) ∨ ∃ v, y.2 = [v] ∧ InCol env s l y.1 v) ∧
    (∀ n ∈ c.meta.map (·.1), n ∈ c'.meta.map (·.1)) ∧
    ∀ n v, InCol env s l n v → n ∈ c'.meta.map (·.1) := by
  intro l
  induction l with
  | nil =>
    intro s s' _ _ _ c c' h
    cases h
    refine ⟨fun y hy _ => .inl ⟨hy, ?_⟩, fun n hn => hn, ?_⟩
    · rintro ⟨v, x, hx, _⟩; simp at hx
    · rintro n v ⟨x, hx, _⟩; simp at hx
  | cons x l ih =>
    intro s s' hi hl hr c c' h
    obtain ⟨hk, P, hP, hPc⟩ := hl x List.mem_cons_self
    obtain ⟨P', hP', hx⟩ := hr x List.mem_cons_self
    rw [hP] at hP'; cases hP'
    simp only [gatherAll] at h
    have hnext : ∀ {s1 : St K (PyVal K)}, Same s s1 →
        (∀ y ∈ l, HasKey s1 y.2.2 (y.2.1, y.1) ∧ Childless s1 y.2.2) ∧ AllRead env s1 times avg l := by
      intro s1 hs
      refine ⟨fun y hy => ⟨hs.key.2 (hl y (List.mem_cons_of_mem _ hy)).1, ?_⟩, fun y hy => ?_⟩
      · obtain ⟨Q, q1, q2⟩ := (hl y (List.mem_cons_of_mem _ hy)).2
        exact ⟨Q, by rw [hs.1]; exact q1, q2⟩
      · obtain ⟨Q, q1, q2⟩ := hr y (List.mem_cons_of_mem _ hy)
        exact ⟨Q, by rw [hs.1]; exact q1, q2⟩
    rcases hx with ⟨t, u, vals, a1, a2, a3, a4⟩ | hm
    · obtain ⟨s1, g1, g2, g3⟩ := gather_read hi hk hP (freshOf_written a4) a2 a1 a3 a4 c
      rw [M.bind_ok g1] at h
      obtain ⟨b1, b2, b3⟩ := ih g3 (hnext g2).1 (hnext g2).2 h
      have hcol : ∀ n v, InCol env s1 l n v ↔ InCol env s (x :: l) n v := by
        intro n v
        rw [InCol.same g2]
        constructor
        · rintro ⟨y, hy, h'⟩
          exact ⟨y, List.mem_cons_of_mem _ hy, h'⟩
        · rintro ⟨y, hy, Q, hQ, hQm, h'⟩
          rcases List.mem_cons.1 hy with rfl | hy
          · rw [hP] at hQ; cases hQ
            exact absurd a2 (hQm.not_series a1)
          · exact ⟨y, hy, Q, hQ, hQm, h'⟩
      simp only [hcol] at b1 b3
      refine ⟨fun y hy hyn => ?_, fun n hn => b2 n (by simpa only [Gathered.add, dictAppend_keys] using hn), b3⟩
      rcases b1 y hy hyn with ⟨h1, h2⟩ | h1
      · exact .inl ⟨of_add h1 hyn, h2⟩
      · exact .inr h1
    · obtain ⟨n, v, s1, g1, g2, g3, g4, g5⟩ := gatherOne_meta (times := times) (avg := avg) hi hk hP hPc c hm
      rw [M.bind_ok g1] at h
      obtain ⟨b1, b2, b3⟩ := ih g3 (hnext g2).1 (hnext g2).2 h
      have hcol : ∀ m w, InCol env s (x :: l) m w ↔ InCol env s l m w ∨ (m = n ∧ w = v) := by
        intro m w
        constructor
        · rintro ⟨y, hy, Q, hQ, hQm, h'⟩
          rcases List.mem_cons.1 hy with rfl | hy
          · rw [hP] at hQ; cases hQ
            exact .inr (h'.unique g5)
          · exact .inl ⟨y, hy, Q, hQ, hQm, h'⟩
        · rintro (⟨y, hy, h'⟩ | ⟨rfl, rfl⟩)
          · exact ⟨y, List.mem_cons_of_mem _ hy, h'⟩
          · exact ⟨x, List.mem_cons_self, P, hP, hm, g5⟩
      simp only [InCol.same g2] at b1 b3
      have hin : n ∈ (dictSet c.meta n [v]).map (·.1) := by
        rw [dictSet_keys]
        split
        · assumption
        · simp
      refine ⟨fun y hy hyn => ?_, fun m hm' => b2 m ?_, fun m w hmw => ?_⟩
      · rcases b1 y hy hyn with ⟨h1, h2⟩ | ⟨w, h1, h2⟩
        · rcases of_dictSet_ne h1 with ⟨h3, h4⟩ | rfl
          · refine .inl ⟨h3, ?_⟩
            rintro ⟨w, hw⟩
            rcases (hcol _ _).1 hw with h5 | ⟨h5, _⟩
            · exact h2 ⟨w, h5⟩
            · exact h4 h5
          · exact .inr ⟨v, rfl, (hcol _ _).2 (.inr ⟨rfl, rfl⟩)⟩
        · exact .inr ⟨w, h1, (hcol _ _).2 (.inl h2)⟩
      · show m ∈ (dictSet c.meta n [v]).map (·.1)
        rw [dictSet_keys]
        split
        · exact hm'
        · exact List.mem_append_left _ hm'
      · rcases (hcol _ _).1 hmw with h5 | ⟨rfl, rfl⟩
        · exact b3 m w h5
        · exact b2 _ hin

end Openscm
