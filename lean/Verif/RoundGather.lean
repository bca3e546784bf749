import Verif.RoundFill

/-!
# What `convert_openscm_to_scmdataframe` gathers

Helper file.
-/

set_option linter.unusedSectionVars false

namespace Openscm

variable {K : Type} [Field K] [LinearOrder K] [IsStrictOrderedRing K]

/-! ## The hierarchies stay as they are -/

/-- Same parameters and regions. -/
def Same {G : Type} (s s' : St K G) : Prop := s'.params = s.params ∧ s'.regions = s.regions

theorem Same.trans {G : Type} {a b c : St K G} (h : Same a b) (h' : Same b c) : Same a c :=
  ⟨h'.1.trans h.1, h'.2.trans h.2⟩

theorem Same.key {G : Type} {s s' : St K G} (h : Same s s') {p : Nat} {k : Key} : HasKey s' p k ↔ HasKey s p k :=
  ⟨fun hk => hk.mono (.of_eq h.1.symm) (.of_eq h.2.symm), fun hk => hk.mono (.of_eq h.1) (.of_eq h.2)⟩

theorem Holds.same {G : Type} {env : Env K} {s s' : St K G} {L : List (Key × Item K G)} {X : Key → PType → Prop}
    (h : Holds env s L X) (hs : Same s s') : Holds env s' L X := by
  refine ⟨fun e he => ?_, fun p P k t hk hP ht => ?_, fun p P hP hc => ?_⟩
  · obtain ⟨p, P, h1, h2, h3⟩ := h.items e he
    exact ⟨p, P, hs.key.2 h1, by rw [hs.1]; exact h2, h3⟩
  · rw [hs.1] at hP
    exact h.typed p P k t (hs.key.1 hk) hP ht
  · rw [hs.1] at hP
    exact h.leaf p P hP hc

/-! ## Requests of existing parameters -/

theorem timeseries_same {G : Type} {env : Env K} {s : St K G} (hi : Inv env s) {p : Nat} {k : Key} {P : Param K G}
    {t : PType} (hk : HasKey s p k) (hP : s.params[p]? = some P) (ht : P.ptype = some t) (hr : P.readFrom = true)
    (u : String) (tps : List K) (int : IntArg) (ext : ExtArg) :
    Same s (call env (.timeseries (.seq k.2) u tps (.seq k.1) (.enum t) int ext) s).2 := by
  show Same s ((timeseriesCall env (.seq k.2) u tps (.seq k.1) (.enum t) int ext >>=
    fun i => pure (Out.view i : Out K G)) s).2
  have hre : reach (.seq k.2) (.seq k.1) s = (.ok p, s) :=
    reach_existing (ns := []) hi.tree hk (by simp [HName.parts])
  unfold timeseriesCall
  cases h1 : (TyArg.enum t).parse with
  | error e => exact ⟨rfl, rfl⟩
  | ok t' =>
    have ht' : t' = t := by
      cases t <;> simp only [TyArg.parse] at h1 <;> cases h1 <;> rfl
    subst ht'
    cases h2 : int.parse with
    | error e => exact ⟨rfl, rfl⟩
    | ok i' =>
      cases h3 : ext.parse with
      | error e => exact ⟨rfl, rfl⟩
      | ok x' =>
        show Same s (((reach (.seq k.2) (.seq k.1) >>= fun p => attemptRead p t' (some u) (some tps) >>= fun _ =>
              M.value (fun s => mkTView env s p u tps t' x') >>= addTView) >>=
              fun i => pure (Out.view i : Out K G)) s).2
        have : ∃ o s1, (reach (.seq k.2) (.seq k.1) >>= fun p => attemptRead p t' (some u) (some tps) >>=
            fun _ => M.value (fun s => mkTView env s p u tps t' x') >>= addTView) s = (o, s1) ∧ Same s s1 := by
          rw [M.bind_ok hre, M.bind_ok (attemptRead_again hP ht hr), M.bind_apply, M.value_apply]
          cases mkTView env s p u tps t' x' with
          | error e => exact ⟨_, _, rfl, rfl, rfl⟩
          | ok v => exact ⟨_, _, rfl, rfl, rfl⟩
        obtain ⟨o, s1, h4, h5⟩ := this
        rw [M.bind_apply, h4]
        cases o with
        | error e => exact h5
        | ok i => exact h5

theorem scalar_reread {G : Type} {env : Env K} {s : St K G} (hi : Inv env s) {p : Nat} {k : Key} {P : Param K G}
    (hk : HasKey s p k) (hP : s.params[p]? = some P) (ht : P.ptype = some .scalar) (hr : P.readFrom = true)
    (hc : P.children = []) {u : String} (hu : P.unit = some u) {c : Conv K} (hcv : mkConv env.units u u = .ok c) :
    call env (.scalar (.seq k.2) u (.seq k.1)) s = (.ok (.view s.sviews.length),
      { s with sviews := s.sviews ++ [{ param := p, conv := c, writable := false, kids := none }] }) := by
  show (scalarCall env (.seq k.2) u (.seq k.1) >>= fun i => pure (Out.view i : Out K G)) s = _
  have hre : reach (.seq k.2) (.seq k.1) s = (.ok p, s) :=
    reach_existing (ns := []) hi.tree hk (by simp [HName.parts])
  have : scalarCall env (.seq k.2) u (.seq k.1) s = (.ok s.sviews.length,
      { s with sviews := s.sviews ++ [{ param := p, conv := c, writable := false, kids := none }] }) := by
    unfold scalarCall
    rw [M.bind_ok hre, M.bind_ok (attemptRead_again hP ht hr), M.bind_apply, M.value_apply]
    unfold mkSView
    rw [hP]
    simp only [hu, mkConvOpt, hcv, hc, if_true]
    rfl
  rw [M.bind_ok this]; rfl

theorem generic_reread {G : Type} {env : Env K} {s : St K G} (hi : Inv env s) {p : Nat} {k : Key} {P : Param K G}
    (hk : HasKey s p k) (hP : s.params[p]? = some P) (ht : P.ptype = some .generic) (hr : P.readFrom = true) :
    call env (.generic (.seq k.2) (.seq k.1)) s = (.ok (.view s.gviews.length),
      { s with gviews := s.gviews ++ [{ param := p, writable := false }] }) := by
  show (genericCall (.seq k.2) (.seq k.1) >>= fun i => pure (Out.view i : Out K G)) s = _
  have hre : reach (.seq k.2) (.seq k.1) s = (.ok p, s) :=
    reach_existing (ns := []) hi.tree hk (by simp [HName.parts])
  have : genericCall (.seq k.2) (.seq k.1) s = (.ok s.gviews.length,
      { s with gviews := s.gviews ++ [{ param := p, writable := false }] }) := by
    unfold genericCall
    rw [M.bind_ok hre, M.bind_ok (attemptRead_again hP ht hr)]
    rfl
  rw [M.bind_ok this]; rfl

/-! ## One round -/

theorem gather_read {env : Env K} {s : St K (PyVal K)} (hi : Inv env s) {p : Nat} {k : Key} {P : Param K (PyVal K)}
    {t : PType} {u : String} {xs : List (Fl K)} {times avg : List Int} (hk : HasKey s p k) (hP : s.params[p]? = some P)
    (hw : P.written = true) (htt : t = .average ∨ t = .point) (h1 : P.ptype = some t) (h2 : P.unit = some u)
    (h4 : freshOf env P u (toK (if t = .point then times else avg)) (.enum t) (.enum .linear) (.enum .none)
      = .ok (.arr (.floats xs))) (c : Gathered K) :
    ∃ s', gatherOne env times avg (k.2, k.1, p) c s = (.ok (c.add k.2 k.1 u (typeText t) xs), s') ∧
      Same s s' ∧ Inv env s' := by
  obtain ⟨hch, hrd⟩ := (hi.good.params p P hP).1 hw
  have hfr := freshRead_eq hi hk hP (by rw [h1]; simp) hch u (toK (if t = .point then times else avg)) (.enum t)
    (.enum .linear) (.enum .none)
  rw [h4] at hfr
  have hsame := timeseries_same hi hk hP h1 hrd u (toK (if t = .point then times else avg)) (.enum .linear)
    (.enum .none)
  have hg : getParam p s = (.ok P, s) := look_some hP
  have hinv := call_inv (.timeseries (.seq k.2) u (toK (if t = .point then times else avg)) (.seq k.1) (.enum t)
    (.enum .linear) (.enum .none)) hi
  unfold freshRead at hfr
  simp only [result, after_one] at hfr
  have hview : ∀ o, (call env (.timeseries (.seq k.2) u (toK (if t = .point then times else avg)) (.seq k.1) (.enum t)
      (.enum .linear) (.enum .none)) s).1 = .ok o → ∃ j, o = .view j := by
    intro o ho
    have : (timeseriesCall env (.seq k.2) u (toK (if t = .point then times else avg)) (.seq k.1) (.enum t)
      (.enum .linear) (.enum .none) >>= fun i => pure (Out.view i : Out K (PyVal K))) s = (.ok o, (call env
      (.timeseries (.seq k.2) u (toK (if t = .point then times else avg)) (.seq k.1) (.enum t)
      (.enum .linear) (.enum .none)) s).2) := Prod.ext ho rfl
    obtain ⟨j, s2, _, h⟩ := M.bind_inv this
    exact ⟨j, (Except.ok.inj (Prod.mk.inj h).1).symm⟩
  unfold gatherOne
  rw [M.bind_ok hg, h1, h2]
  rcases htt with rfl | rfl
  all_goals
    dsimp only
    generalize hop : (Op.timeseries (.seq k.2) u _ (.seq k.1) _ (.enum .linear) (.enum .none) : Op K (PyVal K)) = op
      at hfr hsame hview hinv ⊢
    cases hc : call env op s with
    | mk r s1 =>
      rw [hc] at hfr hsame hview hinv
      simp only at hfr hsame hview hinv
      cases r with
      | error e => simp at hfr
      | ok o =>
        obtain ⟨j, rfl⟩ := hview o rfl
        simp only at hfr
        rw [M.bind_ok hc]
        simp only
        cases hc2 : call env (.tGet j) s1 with
        | mk r2 s2 =>
          rw [hc2] at hfr
          simp only at hfr
          subst hfr
          rw [M.bind_ok hc2]
          have : s2 = (call env (.tGet j) s1).2 := by rw [hc2]
          subst this
          refine ⟨_, rfl, hsame.trans ?_, call_inv _ hinv⟩
          cases hv : s1.tviews[j]? with
          | none =>
            have : call env (.tGet j) s1 = (.error .badHandle, s1) := by
              show (readT j >>= fun _ => (handle j >>= fun d => (pure (Out.arr d) : M K (PyVal K) (Out K (PyVal K))))) s1 = _
              exact M.bind_error (readT_none hv)
            rw [this]; exact ⟨rfl, rfl⟩
          | some v => rw [tGet_eq hv]; exact ⟨rfl, rfl⟩

theorem gather_series {env : Env K} {s : St K (PyVal K)} (hi : Inv env s) {p : Nat} {k : Key} {P : Param K (PyVal K)}
    {t : PType} {u : String} {xs : List K} {times avg : List Int} (hk : HasKey s p k) (hP : s.params[p]? = some P)
    (hw : P.written = true) (htt : t = .average ∨ t = .point)
    (hit : (Item.series t u (toK (if t = .point then times else avg)) xs).In env P) (c : Gathered K) :
    ∃ s', gatherOne env times avg (k.2, k.1, p) c s = (.ok (c.add k.2 k.1 u (typeText t) (xs.map .num)), s') ∧
      Same s s' ∧ Inv env s' := by
  obtain ⟨h1, h2, h3, h4, -⟩ := hit
  exact gather_read hi hk hP hw htt h1 h2 h4 c

theorem scalar_text (n u : String) : n ++ " (" ++ u ++ ")" ∉ seriesCols := by
  intro h
  have hm : '(' ∈ (n ++ " (" ++ u ++ ")").toList := by simp
  simp only [seriesCols, List.mem_cons, List.not_mem_nil, or_false] at h
  rcases h with h | h | h | h <;> rw [h] at hm <;> revert hm <;> decide

/-- The column of metadata made from a scalar or generic parameter. -/
def asMeta : Key × Item K (PyVal K) → String × PyVal K
  | (k, .generic g) => (joinName k.2, g)
  | (k, .scalar u x) => (joinName k.2 ++ " (" ++ u ++ ")", .flt x)
  | (_, .series ..) => ("", .none)

theorem gather_meta {env : Env K} {s : St K (PyVal K)} (hi : Inv env s) {p : Nat} {k : Key} {P : Param K (PyVal K)}
    {it : Item K (PyVal K)} {times avg : List Int} (hk : HasKey s p k) (hP : s.params[p]? = some P)
    (hw : P.written = true) (hm : MetaEntry (k, it)) (hit : it.In env P) (c : Gathered K) :
    ∃ s' n v, gatherOne env times avg (k.2, k.1, p) c s = (.ok { c with «meta» := dictSet c.meta n [v] }, s') ∧
      n ∉ seriesCols ∧ Same s s' ∧ Inv env s' ∧ asMeta (k, it) = (n, v) := by
  obtain ⟨hch, hrd⟩ := (hi.good.params p P hP).1 hw
  have hg : getParam p s = (.ok P, s) := look_some hP
  obtain ⟨hkw, hm⟩ := hm
  simp only at hkw hm
  unfold gatherOne
  rw [M.bind_ok hg]
  rcases hm with ⟨u, x, rfl⟩ | ⟨g, c', rfl, hc, hns⟩
  · obtain ⟨h1, h2, cv, y, h3, h4, h5⟩ := hit
    rw [h1, h2]
    simp only [ne_eq, hkw, not_true_eq_false, if_false]
    have hcall := scalar_reread hi hk hP h1 hrd hch h2 h3
    rw [hkw] at hcall
    rw [M.bind_ok hcall]
    simp only
    have hv : ({ s with sviews := s.sviews ++ [{ param := p, conv := cv, writable := false, kids := none }] } :
        St K (PyVal K)).sviews[s.sviews.length]? = some { param := p, conv := cv, writable := false, kids := none } := by
      show (s.sviews ++ [_])[s.sviews.length]? = _
      simp
    have hval : scalarValue
        ({ s with sviews := s.sviews ++ [{ param := p, conv := cv, writable := false, kids := none }] } :
        St K (PyVal K)) { param := p, conv := cv, writable := false, kids := none }
        = .ok (y.map cv.convertFrom) := by
      unfold scalarValue readScalarLeaf
      have : ({ s with sviews := s.sviews ++ [{ param := p, conv := cv, writable := false, kids := none }] } :
        St K (PyVal K)).params[p]? = some P := hP
      simp only [this, hch, hw, h4, ne_eq, not_true_eq_false, if_false, Bool.not_true, Bool.false_eq_true]
    have hget := sGet_eq (env := env) hv
    rw [hval] at hget
    rw [M.bind_ok hget]
    have hinv := call_inv (.scalar (.seq k.2) u (.seq worldName)) hi
    rw [hcall] at hinv
    exact ⟨_, _, _, rfl, scalar_text _ _, ⟨rfl, rfl⟩, hinv, by rw [h5]; rfl⟩
  · obtain ⟨h1, h2⟩ := hit
    rw [h1]
    simp only [ne_eq, hkw, not_true_eq_false, if_false]
    have hcall := generic_reread (env := env) hi hk hP h1 hrd
    rw [hkw] at hcall
    rw [M.bind_ok hcall]
    simp only
    have hv : ({ s with gviews := s.gviews ++ [{ param := p, writable := false }] } :
        St K (PyVal K)).gviews[s.gviews.length]? = some { param := p, writable := false } := by
      show (s.gviews ++ [_])[s.gviews.length]? = _
      simp
    have hval : genericValue ({ s with gviews := s.gviews ++ [{ param := p, writable := false }] } :
        St K (PyVal K)) { param := p, writable := false } = .ok (some g) := by
      unfold genericValue
      have : ({ s with gviews := s.gviews ++ [{ param := p, writable := false }] } :
        St K (PyVal K)).params[p]? = some P := hP
      simp only [this, hw, h2, Bool.not_true, Bool.false_eq_true, if_false]
    have hget := gGet_eq (env := env) hv
    rw [hval] at hget
    rw [M.bind_ok hget]
    have hinv := call_inv (env := env) (.generic (.seq k.2) (.seq worldName)) hi
    rw [hcall] at hinv
    refine ⟨_, _, _, rfl, ?_, ⟨rfl, rfl⟩, hinv, rfl⟩
    rw [hc, C17_join_split]; exact hns

/-! ## Dictionaries -/

theorem dictAppend_keys {α : Type} (d : List (String × List α)) (k : String) (v : α) :
    (dictAppend d k v).map (·.1) = d.map (·.1) := by
  unfold dictAppend
  rw [List.map_map]
  refine List.map_congr_left fun x _ => ?_
  simp only [Function.comp_apply]
  split
  · rename_i h; exact h.symm
  · rfl

theorem dictAppend_self {α : Type} {d : List (String × List α)} {k : String} (v : α) {l : List α} (h : (k, l) ∈ d) :
    (k, l ++ [v]) ∈ dictAppend d k v := by
  unfold dictAppend
  exact List.mem_map.2 ⟨(k, l), h, by simp⟩

theorem dictAppend_other {α : Type} {d : List (String × List α)} {k : String} (v : α) {x : String × List α}
    (h : x ∈ d) (hk : x.1 ≠ k) : x ∈ dictAppend d k v := by
  unfold dictAppend
  exact List.mem_map.2 ⟨x, h, by simp [hk]⟩

theorem of_dictAppend {α : Type} {d : List (String × List α)} {k : String} {v : α} {x : String × List α}
    (h : x ∈ dictAppend d k v) (hk : x.1 ≠ k) : x ∈ d := by
  unfold dictAppend at h
  obtain ⟨y, hy, rfl⟩ := List.mem_map.1 h
  split at hk
  · exact absurd rfl hk
  · rename_i h'; rw [if_neg h']; exact hy

theorem dictSet_keys {α : Type} (d : List (String × α)) (k : String) (v : α) :
    (dictSet d k v).map (·.1) = if k ∈ d.map (·.1) then d.map (·.1) else d.map (·.1) ++ [k] := by
  unfold dictSet
  split
  · rw [List.map_map]
    refine List.map_congr_left fun x _ => ?_
    simp only [Function.comp_apply]
    split
    · rename_i h; exact h.symm
    · rfl
  · simp

theorem dictSet_other {α : Type} {d : List (String × α)} {k : String} (v : α) {x : String × α}
    (h : x ∈ d) (hk : x.1 ≠ k) : x ∈ dictSet d k v := by
  unfold dictSet
  split
  · exact List.mem_map.2 ⟨x, h, by simp [hk]⟩
  · exact List.mem_append_left _ h

theorem of_dictSet {α : Type} {d : List (String × α)} {k : String} {v : α} {x : String × α}
    (h : x ∈ dictSet d k v) : x ∈ d ∨ x = (k, v) := by
  unfold dictSet at h
  split at h
  · obtain ⟨y, hy, rfl⟩ := List.mem_map.1 h
    split
    · exact Or.inr rfl
    · exact Or.inl hy
  · simpa using h

/-! ## All rounds -/

/-- A timeseries found: key, type, unit and values. -/
structure Found (K : Type) where
  key : Key
  ty : PType
  unit : String
  xs : List K

structure Gath (c : Gathered K) (S : List (Found K)) : Prop where
  data : c.data = S.map fun z => z.xs.map Fl.num
  keys : (c.meta.map (·.1)).Nodup
  vars : ("variable", S.map fun z => PyVal.str (joinName z.key.2)) ∈ c.meta
  region : ("region", S.map fun z => PyVal.str (joinName z.key.1)) ∈ c.meta
  unit : ("unit", S.map fun z => PyVal.str z.unit) ∈ c.meta
  ptype : ("parameter_type", S.map fun z => PyVal.str (typeText z.ty)) ∈ c.meta
  model : "model" ∈ c.meta.map (·.1)
  scenario : "scenario" ∈ c.meta.map (·.1)
  single : ∀ x ∈ c.meta, x.1 ∉ seriesCols → ∃ v, x.2 = [v]

theorem Gath.start (a b c : String) : Gath (gatherStart a b c : Gathered K) [] := by
  refine ⟨rfl, ?_, ?_, ?_, ?_, ?_, ?_, ?_, ?_⟩
  · show ["climate_model", "scenario", "model", "variable", "region", "unit", "parameter_type"].Nodup
    decide
  all_goals simp [gatherStart, seriesCols]

theorem Gath.add {c : Gathered K} {S : List (Found K)} (h : Gath c S) (z : Found K) :
    Gath (c.add z.key.2 z.key.1 z.unit (typeText z.ty) (z.xs.map .num)) (S ++ [z]) := by
  have hkeys : (c.add z.key.2 z.key.1 z.unit (typeText z.ty) (z.xs.map .num)).meta.map (·.1) = c.meta.map (·.1) := by
    simp only [Gathered.add, dictAppend_keys]
  refine ⟨?_, by rw [hkeys]; exact h.keys, ?_, ?_, ?_, ?_, by rw [hkeys]; exact h.model,
    by rw [hkeys]; exact h.scenario, ?_⟩
  · simp [Gathered.add, h.data]
  · rw [List.map_append]
    exact dictAppend_other _ (dictAppend_other _ (dictAppend_other _ (dictAppend_self _ h.vars) (by simp))
      (by simp)) (by simp)
  · rw [List.map_append]
    exact dictAppend_other _ (dictAppend_other _ (dictAppend_self _ (dictAppend_other _ h.region (by simp)))
      (by simp)) (by simp)
  · rw [List.map_append]
    exact dictAppend_other _ (dictAppend_self _ (dictAppend_other _ (dictAppend_other _ h.unit (by simp))
      (by simp))) (by simp)
  · rw [List.map_append]
    exact dictAppend_self _ (dictAppend_other _ (dictAppend_other _ (dictAppend_other _ h.ptype (by simp))
      (by simp)) (by simp))
  · intro x hx hn
    simp only [seriesCols, List.mem_cons, List.not_mem_nil, or_false, not_or] at hn
    refine h.single x ?_ (by simp [seriesCols, hn])
    exact of_dictAppend (of_dictAppend (of_dictAppend (of_dictAppend hx hn.2.2.2) hn.2.2.1) hn.2.1) hn.1

theorem Gath.set {c : Gathered K} {S : List (Found K)} (h : Gath c S) {n : String} (hn : n ∉ seriesCols)
    (v : PyVal K) : Gath { c with «meta» := dictSet c.meta n [v] } S := by
  have hne := hn
  simp only [seriesCols, List.mem_cons, List.not_mem_nil, or_false, not_or] at hne
  refine ⟨h.data, ?_, dictSet_other _ h.vars (Ne.symm hne.1), dictSet_other _ h.region (Ne.symm hne.2.1),
    dictSet_other _ h.unit (Ne.symm hne.2.2.1), dictSet_other _ h.ptype (Ne.symm hne.2.2.2), ?_, ?_, ?_⟩
  · rw [dictSet_keys]
    split
    · exact h.keys
    · rename_i hnk
      rw [List.nodup_append]
      refine ⟨h.keys, by simp, fun a ha b hb => ?_⟩
      simp only [List.mem_singleton] at hb
      subst hb
      rintro rfl
      exact hnk ha
  · rw [dictSet_keys]
    split
    · exact h.model
    · exact List.mem_append_left _ h.model
  · rw [dictSet_keys]
    split
    · exact h.scenario
    · exact List.mem_append_left _ h.scenario
  · intro x hx hxn
    rcases of_dictSet hx with h' | rfl
    · exact h.single x h' hxn
    · exact ⟨v, rfl⟩

theorem gatherAll_ok {env : Env K} {s : St K (PyVal K)} (hi : Inv env s) {L : List (Key × Item K (PyVal K))}
    (hL : Holds env s L (fun _ _ => False)) {times avg : List Int}
    (hser : ∀ k t u tps xs, (k, Item.series t u tps xs) ∈ L →
      (t = .average ∨ t = .point) ∧ tps = toK (if t = .point then times else avg))
    (hmeta : ∀ e ∈ L, ¬ e.2.isSeries → MetaEntry e) (l : List (List String × List String × Nat))
    (hl : ∀ x ∈ l, HasKey s x.2.2 (x.2.1, x.1) ∧ Childless s x.2.2) {c : Gathered K} {S : List (Found K)}
    (hc : Gath c S) :
    ∃ c' s' S', gatherAll env times avg l c s = (.ok c', s') ∧ Gath c' (S ++ S') ∧
      (S'.map (·.key)).Sublist (l.map fun x => (x.2.1, x.1)) ∧
      ∀ z, z ∈ S' ↔ z.key ∈ l.map (fun x => (x.2.1, x.1)) ∧
        (z.key, Item.series z.ty z.unit (toK (if z.ty = .point then times else avg)) z.xs) ∈ L := by
  induction l generalizing s c S with
  | nil => exact ⟨c, s, [], rfl, by simpa using hc, by simp, by simp⟩
  | cons x l ih =>
    obtain ⟨hk, hch⟩ := hl x List.mem_cons_self
    obtain ⟨P, hP, hPc⟩ := hch
    obtain ⟨t0, ht0⟩ := Option.ne_none_iff_exists'.1 (hL.leaf _ P hP hPc)
    obtain ⟨it, hit⟩ : ∃ it, ((x.2.1, x.1), it) ∈ L := by
      rcases hL.typed _ P _ t0 hk hP ht0 with h | h
      · exact h
      · exact h.elim
    have hin : ∀ it, ((x.2.1, x.1), it) ∈ L → P.written = true ∧ it.In env P := by
      intro it hit
      obtain ⟨p', P', a1, a2, a3, a4⟩ := hL.items _ hit
      obtain rfl := a1.inj hi.tree hk
      rw [hP] at a2; cases a2
      exact ⟨a3, a4⟩
    obtain ⟨hw, hI⟩ := hin it hit
    simp only [gatherAll]
    by_cases hse : it.isSeries
    · cases it with
      | series t u tps xs =>
        obtain ⟨htt, rfl⟩ := hser _ _ _ _ _ hit
        obtain ⟨s1, g1, g2, g3⟩ := gather_series hi hk hP hw htt hI c
        obtain ⟨c', s', S', b1, b2, b3, b4⟩ := ih g3 (hL.same g2)
          (fun y hy => ⟨g2.key.2 (hl y (List.mem_cons_of_mem _ hy)).1, by
            obtain ⟨Q, q1, q2⟩ := (hl y (List.mem_cons_of_mem _ hy)).2
            exact ⟨Q, by rw [g2.1]; exact q1, q2⟩⟩) (hc.add ⟨(x.2.1, x.1), t, u, xs⟩)
        refine ⟨c', s', ⟨(x.2.1, x.1), t, u, xs⟩ :: S', ?_, by simpa using b2, ?_, ?_⟩
        · rw [M.bind_ok g1]; exact b1
        · simpa using b3.cons_cons (x.2.1, x.1)
        · intro z
          rw [List.mem_cons, b4, List.map_cons, List.mem_cons]
          constructor
          · rintro (rfl | ⟨h1, h2⟩)
            · exact ⟨Or.inl rfl, hit⟩
            · exact ⟨Or.inr h1, h2⟩
          · rintro ⟨h1 | h1, h2⟩
            · left
              obtain ⟨zk, zt, zu, zx⟩ := z
              simp only at h1 h2
              subst h1
              have hz := (hin _ h2).2
              obtain ⟨e1, e2, e3, e4, -⟩ := hz
              obtain ⟨f1, f2, f3, f4, -⟩ := hI
              rw [e1] at f1; cases f1
              rw [e2] at f2; cases f2
              rw [e4] at f4
              have : zx.map Fl.num = xs.map Fl.num := by simpa using f4
              have : zx = xs := List.map_injective_iff.2 (fun a b hab => by cases hab; rfl) this
              rw [this]
            · exact Or.inr ⟨h1, h2⟩
      | _ => exact hse.elim
    · obtain ⟨s1, n, v, g1, hn, g2, g3, _⟩ := gather_meta (times := times) (avg := avg) hi hk hP hw
        (hmeta _ hit hse) hI c
      obtain ⟨c', s', S', b1, b2, b3, b4⟩ := ih g3 (hL.same g2)
        (fun y hy => ⟨g2.key.2 (hl y (List.mem_cons_of_mem _ hy)).1, by
          obtain ⟨Q, q1, q2⟩ := (hl y (List.mem_cons_of_mem _ hy)).2
          exact ⟨Q, by rw [g2.1]; exact q1, q2⟩⟩) (hc.set hn v)
      refine ⟨c', s', S', ?_, b2, ?_, ?_⟩
      · rw [M.bind_ok g1]; exact b1
      · exact b3.cons _
      · intro z
        rw [b4, List.map_cons, List.mem_cons]
        constructor
        · rintro ⟨h1, h2⟩; exact ⟨Or.inr h1, h2⟩
        · rintro ⟨h1 | h1, h2⟩
          · exfalso
            rw [h1] at h2
            obtain ⟨e1, _⟩ := (hin _ h2).2
            rcases (hmeta _ hit hse).2 with ⟨u, y, h'⟩ | ⟨g, c', h', _⟩ <;> simp only at h' <;> subst h' <;>
              have f1 := hI.1 <;> rw [e1, Option.some.injEq] at f1 <;>
              rcases (hser _ _ _ _ _ h2).1 with h'' | h'' <;> rw [h''] at f1 <;> cases f1
          · exact ⟨h1, h2⟩

end Openscm
