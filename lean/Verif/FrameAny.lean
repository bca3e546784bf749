import Verif.RoundAny

/-!
# Frames made of any parameter set (C99)

`convert_openscm_to_scmdataframe` on a parameter set after any calls of it, whether or not these came from a frame.
-/

set_option linter.unusedSectionVars false

namespace Openscm
variable {K : Type} [Field K] [LinearOrder K] [IsStrictOrderedRing K]

/-! ## Specification -/

/-- `I` is reported for the parameter of key `k`, nothing is below it, and its region is the root or directly below. -/
def ShallowLeaf (env : Env K) (s : St K (PyVal K)) (k : Key) (I : Info) : Prop :=
  infoAt env s k = some I ∧ ¬ HasChildren env s k ∧ k.1.length ≤ 2

/-- The parameter of key `k` is a timeseries of type `p` and unit `u`, and whoever asks for it on the times, in that
unit and without extrapolation, is shown `vals`. -/
def SeriesOn (env : Env K) (s : St K (PyVal K)) (times : List Int) (k : Key) (p : PType) (u : String)
    (vals : List (Fl K)) : Prop :=
  ∃ I pts, ShallowLeaf env s k I ∧ I.ptype = some p ∧ I.unit = some u ∧ Axis times p pts ∧
    freshRead env s k u pts (.enum p) (.enum .linear) (.enum .none) = .ok (.arr (.floats vals))

/-- A scalar in a known unit or a generic value, with a value, of the region "World". -/
def WorldValue (env : Env K) (k : Key) (I : Info) : Prop :=
  k.1 = ["World"] ∧ I.empty = false ∧
    (I.ptype = some .generic ∨ I.ptype = some .scalar ∧ ∃ u a, I.unit = some u ∧ env.units u = some a)

/-- Whoever asks for the generic value of key `k` is shown `g`. -/
def ShowsGeneric (env : Env K) (s : St K (PyVal K)) (k : Key) (g : Option (PyVal K)) : Prop :=
  ∃ j, result env s (.generic (.seq k.2) (.seq k.1)) = .ok (.view j) ∧
    result env (after env s [.generic (.seq k.2) (.seq k.1)]) (.gGet j) = .ok (.gen g)

/-- Whoever asks for the scalar of key `k` in the unit `u` is shown `x`. -/
def ShowsScalar (env : Env K) (s : St K (PyVal K)) (k : Key) (u : String) (x : Fl K) : Prop :=
  ∃ j, result env s (.scalar (.seq k.2) u (.seq k.1)) = .ok (.view j) ∧
    result env (after env s [.scalar (.seq k.2) u (.seq k.1)]) (.sGet j) = .ok (.num x)

/-- A value of the parameter set that belongs to column `n` as `v`: generic ones by their name, scalars by name and
unit. -/
def ValueColumn (env : Env K) (s : St K (PyVal K)) (n : String) (v : PyVal K) : Prop :=
  ∃ k I, ShallowLeaf env s k I ∧ WorldValue env k I ∧
    ((I.ptype = some .generic ∧ n = joinName k.2 ∧ ∃ g, ShowsGeneric env s k g ∧ v = g.getD .none) ∨
     (I.ptype = some .scalar ∧ ∃ u x, I.unit = some u ∧ n = joinName k.2 ++ " (" ++ u ++ ")" ∧
        ShowsScalar env s k u x ∧ v = .flt x))

/-- No generic value is called like a column of timeseries. -/
def NamesFree (env : Env K) (s : St K (PyVal K)) : Prop :=
  ∀ k I, ShallowLeaf env s k I → I.ptype = some .generic →
    joinName k.2 ∉ ["variable", "region", "unit", "parameter_type"]

/-! ## Helpers -/

theorem freshOf_length {env : Env K} {P : Param K (PyVal K)} {w : String} {tps : List K} {t : PType} {int : IntArg}
    {ext : ExtArg} {out : List (Fl K)} (h : freshOf env P w tps (.enum t) int ext = .ok (.arr (.floats out))) :
    out.length = pointsLength t tps := by
  unfold freshOf at h
  have hp : (TyArg.enum t).parse = .ok t ∨ ∃ e, (TyArg.enum t).parse = .error e := by
    by_cases ht : t = .average ∨ t = .point
    · exact .inl (if_pos ht)
    · exact .inr ⟨_, if_neg ht⟩
  rcases hp with hp | ⟨e, hp⟩
  · rw [hp] at h
    simp only [bind, Except.bind, Except.map] at h
    repeat' split at h
    all_goals first
      | (cases h; done)
      | skip
    rename_i ts hts _ _ _ _ _ a ha
    cases h
    rw [(C27_converter_length _ _ _).1 ha]
    obtain ⟨c1, c2, c3, c4⟩ := mkTSConv_ok hts
    unfold TSConv.targetLength
    rw [c2, c3]
  · rw [hp] at h
    cases h

theorem mkConv_known {reg : Registry K} {u : String} : (∃ c, mkConv reg u u = .ok c) ↔ ∃ a, reg u = some a := by
  unfold mkConv
  constructor
  · rintro ⟨c, h⟩
    cases hr : reg u with
    | none => rw [hr] at h; cases h
    | some a => exact ⟨a, rfl⟩
  · rintro ⟨a, h⟩
    rw [h]
    simp

theorem shallowLeaf_iff {env : Env K} {s : St K (PyVal K)} (hi : Inv env s) {k : Key} {I : Info} :
    ShallowLeaf env s k I ↔ ∃ p P, (k.2, k.1, p) ∈ rootParams s ∧ HasKey s p k ∧ s.params[p]? = some P ∧ P.children = [] ∧
      I = ⟨k.2, k.1, P.ptype, P.unit, !P.written, P.version⟩ := by
  constructor
  · rintro ⟨h1, h2, h3⟩
    obtain ⟨p, P, hk, hP, hI⟩ := (infoAt_some hi.tree).1 h1
    have hc := (not_hasChildren_iff hi.tree hk hP).1 h2
    exact ⟨p, P, (rootParams_mem hi.tree _).2 ⟨hk, ⟨P, hP, hc⟩, h3⟩, hk, hP, hc, hI⟩
  · rintro ⟨p, P, hm, hk, hP, hc, hI⟩
    exact ⟨(infoAt_some hi.tree).2 ⟨p, P, hk, hP, hI⟩, (not_hasChildren_iff hi.tree hk hP).2 hc,
      ((rootParams_mem hi.tree _).1 hm).2.2⟩

theorem rootKeys_nodup {env : Env K} {s : St K (PyVal K)} (hi : Inv env s) :
    ((rootParams s).map fun x => (x.2.1, x.1)).Nodup := by
  have h := rootParams_nodup hi.tree
  refine List.Nodup.map_on ?_ (List.Nodup.of_map _ h)
  intro x hx y hy hxy
  have h1 := ((rootParams_mem hi.tree x).1 hx).1
  have h2 := ((rootParams_mem hi.tree y).1 hy).1
  rw [hxy] at h1
  have h3 := h1.inj hi.tree h2
  obtain ⟨a, b, c⟩ := x
  obtain ⟨a', b', c'⟩ := y
  simp only [Prod.mk.injEq] at hxy h3 ⊢
  exact ⟨hxy.2, hxy.1, h3⟩

theorem seriesOn_iff {env : Env K} {s : St K (PyVal K)} (hi : Inv env s) {times avg : List Int}
    (havg : extendPoints times = .ok avg) {z : FoundV K} :
    SeriesOn env s times z.key z.ty z.unit z.vals ↔
      z.key ∈ (rootParams s).map (fun x => (x.2.1, x.1)) ∧ z.InSet env s times avg := by
  constructor
  · rintro ⟨I, pts, hl, hp, hu, hax, hr⟩
    obtain ⟨p, P, hm, hk, hP, hc, rfl⟩ := (shallowLeaf_iff hi).1 hl
    simp only at hp hu
    have hkind := axis_kind hax
    rw [axis_points havg hkind] at hax
    subst hax
    rw [freshRead_eq hi hk hP (by rw [hp]; simp) hc] at hr
    exact ⟨List.mem_map.2 ⟨_, hm, rfl⟩, p, P, hk, hP, hp, hkind, hu, hr⟩
  · rintro ⟨hm, p, P, hk, hP, hp, hkind, hu, hr⟩
    obtain ⟨x, hx, hxk⟩ := List.mem_map.1 hm
    obtain ⟨x1, ⟨Q, hQ, hQc⟩, x3⟩ := (rootParams_mem hi.tree x).1 hx
    rw [hxk] at x1
    have hxp := x1.inj hi.tree hk
    rw [hxp, hP] at hQ
    cases hQ
    rw [← freshRead_eq hi hk hP (by rw [hp]; simp) hQc] at hr
    refine ⟨_, _, (shallowLeaf_iff hi).2 ⟨p, P, ?_, hk, hP, hQc, rfl⟩, hp, hu, (axis_points havg hkind).2 rfl, hr⟩
    rw [← hxk, ← hxp]
    exact hx

/-- What each parameter has to be for `gatherAll` to work. -/
theorem allRead_iff {env : Env K} {s : St K (PyVal K)} (hi : Inv env s) {times avg : List Int}
    (havg : extendPoints times = .ok avg) :
    AllRead env s times avg (rootParams s) ↔
      ∀ k I, ShallowLeaf env s k I → (∃ p u vals, SeriesOn env s times k p u vals) ∨ WorldValue env k I := by
  constructor
  · intro h k I hl
    obtain ⟨p, P, hm, hk, hP, hc, rfl⟩ := (shallowLeaf_iff hi).1 hl
    obtain ⟨Q, hQ, hcase⟩ := h _ hm
    simp only at hQ
    rw [hP] at hQ
    cases hQ
    rcases hcase with ⟨t, u, vals, hr⟩ | ⟨h1, h2, h3⟩
    · exact .inl ⟨t, u, vals, (seriesOn_iff (z := ⟨k, t, u, vals⟩) hi havg).2
        ⟨List.mem_map.2 ⟨_, hm, rfl⟩, p, P, hk, hP, hr⟩⟩
    · refine .inr ⟨h1, by simp [h2], ?_⟩
      rcases h3 with h3 | ⟨h3, u, c, h4, h5⟩
      · exact .inl h3
      · obtain ⟨a, ha⟩ := mkConv_known.1 ⟨c, h5⟩
        exact .inr ⟨h3, u, a, h4, ha⟩
  · intro h x hx
    obtain ⟨x1, ⟨P, hP, hc⟩, x3⟩ := (rootParams_mem hi.tree x).1 hx
    refine ⟨P, hP, ?_⟩
    rcases h (x.2.1, x.1) _ ((shallowLeaf_iff hi).2 ⟨x.2.2, P, hx, x1, hP, hc, rfl⟩) with
      ⟨p, u, vals, hs⟩ | ⟨h1, h2, h3⟩
    · obtain ⟨_, q, Q, hk, hQ, hr⟩ := (seriesOn_iff (z := ⟨_, p, u, vals⟩) hi havg).1 hs
      have := hk.inj hi.tree x1
      subst this
      rw [hP] at hQ
      cases hQ
      exact .inl ⟨p, u, vals, hr⟩
    · refine .inr ⟨h1, by simpa using h2, ?_⟩
      rcases h3 with h3 | ⟨h3, u, a, h4, h5⟩
      · exact .inl h3
      · obtain ⟨c, hc'⟩ := mkConv_known.2 ⟨a, h5⟩
        exact .inr ⟨h3, u, c, h4, hc'⟩

theorem showsGeneric_iff {env : Env K} {s : St K (PyVal K)} (hi : Inv env s) {p : Nat} {k : Key} {P : Param K (PyVal K)}
    (hk : HasKey s p k) (hP : s.params[p]? = some P) (hw : P.written = true) (ht : P.ptype = some .generic)
    {g : Option (PyVal K)} : ShowsGeneric env s k g ↔ P.data = .generic g := by
  have hgood := (hi.good.params p P hP)
  unfold PGood at hgood
  obtain ⟨hg1, hg2⟩ := hgood
  obtain ⟨hc, hrd⟩ := hg1 hw
  rw [ht] at hg2
  obtain ⟨_, g0, hgd⟩ := hg2.2 hc
  have hcall := generic_reread (env := env) hi hk hP ht hrd
  have hv : ({ s with gviews := s.gviews ++ [{ param := p, writable := false }] } :
      St K (PyVal K)).gviews[s.gviews.length]? = some { param := p, writable := false } := by
    show (s.gviews ++ [_])[s.gviews.length]? = _
    simp
  have hval : genericValue ({ s with gviews := s.gviews ++ [{ param := p, writable := false }] } :
      St K (PyVal K)) { param := p, writable := false } = .ok g0 := by
    unfold genericValue
    have : ({ s with gviews := s.gviews ++ [{ param := p, writable := false }] } :
      St K (PyVal K)).params[p]? = some P := hP
    simp only [this, hw, hgd, Bool.not_true, Bool.false_eq_true, if_false]
  have hget := gGet_eq (env := env) hv
  rw [hval] at hget
  unfold ShowsGeneric result
  rw [after_cons, hcall]
  simp only [show ∀ s : St K (PyVal K), after env s [] = s from fun _ => rfl]
  simp only [Except.ok.injEq, Out.view.injEq]
  constructor
  · rintro ⟨j, rfl, h⟩
    rw [hget] at h
    cases h
    exact hgd
  · intro h
    rw [hgd] at h
    cases h
    exact ⟨_, rfl, by rw [hget]; rfl⟩

theorem showsScalar_iff {env : Env K} {s : St K (PyVal K)} (hi : Inv env s) {p : Nat} {k : Key} {P : Param K (PyVal K)}
    (hk : HasKey s p k) (hP : s.params[p]? = some P) (hw : P.written = true) (ht : P.ptype = some .scalar) {u : String}
    (hu : P.unit = some u) {c : Conv K} (hcv : mkConv env.units u u = .ok c) {x : Fl K} :
    ShowsScalar env s k u x ↔ ∃ y, P.data = .scalar y ∧ x = y.map c.convertFrom := by
  have hgood := (hi.good.params p P hP)
  unfold PGood at hgood
  obtain ⟨hg1, hg2⟩ := hgood
  obtain ⟨hc, hrd⟩ := hg1 hw
  rw [ht] at hg2
  obtain ⟨_, _, y, hy⟩ := hg2
  have hcall := scalar_reread hi hk hP ht hrd hc hu hcv
  have hv : ({ s with sviews := s.sviews ++ [{ param := p, conv := c, writable := false, kids := none }] } :
      St K (PyVal K)).sviews[s.sviews.length]? = some { param := p, conv := c, writable := false, kids := none } := by
    show (s.sviews ++ [_])[s.sviews.length]? = _
    simp
  have hval : scalarValue
      ({ s with sviews := s.sviews ++ [{ param := p, conv := c, writable := false, kids := none }] } :
      St K (PyVal K)) { param := p, conv := c, writable := false, kids := none }
      = .ok (y.map c.convertFrom) := by
    unfold scalarValue readScalarLeaf
    have : ({ s with sviews := s.sviews ++ [{ param := p, conv := c, writable := false, kids := none }] } :
      St K (PyVal K)).params[p]? = some P := hP
    simp only [this, hc, hw, hy, ne_eq, not_true_eq_false, if_false, Bool.not_true, Bool.false_eq_true]
  have hget := sGet_eq (env := env) hv
  rw [hval] at hget
  unfold ShowsScalar result
  rw [after_cons, hcall]
  simp only [show ∀ s : St K (PyVal K), after env s [] = s from fun _ => rfl]
  simp only [Except.ok.injEq, Out.view.injEq]
  constructor
  · rintro ⟨j, rfl, h⟩
    rw [hget] at h
    cases h
    exact ⟨y, hy, rfl⟩
  · rintro ⟨y', h, rfl⟩
    rw [hy] at h
    cases h
    exact ⟨_, rfl, by rw [hget]; rfl⟩

theorem inCol_iff {env : Env K} {s : St K (PyVal K)} (hi : Inv env s) {n : String} {v : PyVal K} :
    InCol env s (rootParams s) n v ↔ ValueColumn env s n v := by
  constructor
  · rintro ⟨x, hx, P, hP, ⟨h1, h2, h3⟩, h4⟩
    obtain ⟨x1, ⟨Q, hQ, hc⟩, x3⟩ := (rootParams_mem hi.tree x).1 hx
    rw [hP] at hQ
    cases hQ
    refine ⟨(x.2.1, x.1), _, (shallowLeaf_iff hi).2 ⟨x.2.2, P, hx, x1, hP, hc, rfl⟩, ⟨h1, by simp [h2], ?_⟩, ?_⟩
    · rcases h3 with h3 | ⟨h3, u, c, h5, h6⟩
      · exact .inl h3
      · obtain ⟨a, ha⟩ := mkConv_known.1 ⟨c, h6⟩
        exact .inr ⟨h3, u, a, h5, ha⟩
    · rcases h4 with ⟨a1, a2, g, a3, a4⟩ | ⟨a1, u, c, y, a2, a3, a4, a5, a6⟩
      · exact .inl ⟨a1, a2, g, (showsGeneric_iff hi x1 hP h2 a1).2 a3, a4⟩
      · exact .inr ⟨a1, u, _, a2, a5, (showsScalar_iff hi x1 hP h2 a1 a2 a3).2 ⟨y, a4, rfl⟩, a6⟩
  · rintro ⟨k, I, hl, ⟨h1, h2, h3⟩, h4⟩
    obtain ⟨p, P, hm, hk, hP, hc, rfl⟩ := (shallowLeaf_iff hi).1 hl
    simp only at h2 h3 h4
    have hw : P.written = true := by simpa using h2
    refine ⟨_, hm, P, hP, ⟨h1, hw, ?_⟩, ?_⟩
    · rcases h3 with h3 | ⟨h3, u, a, h5, h6⟩
      · exact .inl h3
      · obtain ⟨c, hc'⟩ := mkConv_known.2 ⟨a, h6⟩
        exact .inr ⟨h3, u, c, h5, hc'⟩
    · rcases h4 with ⟨a1, a2, g, a3, a4⟩ | ⟨a1, u, x, a2, a3, a4, a5⟩
      · exact .inl ⟨a1, a2, g, (showsGeneric_iff hi hk hP hw a1).1 a3, a4⟩
      · rcases h3 with h3 | ⟨h3, u', a, h5, h6⟩
        · rw [a1] at h3; cases h3
        · rw [a2] at h5; cases h5
          obtain ⟨c, hc'⟩ := mkConv_known.2 ⟨a, h6⟩
          obtain ⟨y, hy, rfl⟩ := (showsScalar_iff hi hk hP hw a1 a2 hc').1 a4
          exact .inr ⟨a1, u, c, y, a2, hc', hy, a3, a5⟩

/-- The conversion, in terms of what has been found. -/
theorem convert_any {env : Env K} {s : St K (PyVal K)} (hi : Inv env s) (hn : NamesFree env s) {times avg : List Int}
    (havg : extendPoints times = .ok avg) (hall : AllRead env s times avg (rootParams s))
    (model scenario climate : String) :
    ∃ S : List (FoundV K), (S.map (·.key)).Nodup ∧
      (∀ z, z ∈ S ↔ SeriesOn env s times z.key z.ty z.unit z.vals) ∧
      ∃ s', Same s s' ∧ Inv env s' ∧
        (S = [] → convertToFrame env times model scenario climate s = (.error .valueError, s')) ∧
        (S ≠ [] → ∃ F' : DFrame K, convertToFrame env times model scenario climate s = (.ok F', s') ∧ F'.Ok ∧
          F'.times = times ∧ F'.data.length = S.length ∧
          ∀ (i : Nat) (z : FoundV K), S[i]? = some z →
            F'.IsRow i (joinName z.key.2) (joinName z.key.1) z.unit z.vals ∧
            F'.HasMeta i "parameter_type" (.str (typeText z.ty))) ∧
        (S ≠ [] → ∀ F' s2, convertToFrame env times model scenario climate s = (.ok F', s2) →
          (∀ n, n ∈ F'.cols ↔ n ∈ ["climate_model", "scenario", "model", "variable", "region", "unit",
            "parameter_type"] ∨ ∃ v, ValueColumn env s n v) ∧
          ∀ n ∈ F'.cols, n ∉ seriesCols → ∃ v, (∀ i < F'.data.length, F'.HasMeta i n v) ∧
            (ValueColumn env s n v ∨ (¬ ∃ v', ValueColumn env s n v') ∧
              (n, v) ∈ [("climate_model", .str climate), ("scenario", .str scenario), ("model", .str model)])) := by
  have hl : ∀ x ∈ rootParams s, HasKey s x.2.2 (x.2.1, x.1) ∧ Childless s x.2.2 := fun x hx =>
    ⟨((rootParams_mem hi.tree x).1 hx).1, ((rootParams_mem hi.tree x).1 hx).2.1⟩
  obtain ⟨c, s', g1, g2, g3, S, b1, b2, b3, b4⟩ :=
    gatherAll_works (rootParams s) hi hl hall (gatherStart model scenario climate)
  have hG := b4 [] (GathV.start _ _ _) (by
    intro x hx P hP ht
    obtain ⟨x1, ⟨Q, hQ, hc⟩, x3⟩ := (rootParams_mem hi.tree x).1 hx
    rw [hP] at hQ
    cases hQ
    exact hn (x.2.1, x.1) _ ((shallowLeaf_iff hi).2 ⟨x.2.2, P, hx, x1, hP, hc, rfl⟩) ht)
  rw [List.nil_append] at hG
  have hmem : ∀ z, z ∈ S ↔ SeriesOn env s times z.key z.ty z.unit z.vals := fun z => by
    rw [b2, seriesOn_iff hi havg]
  have hlen : ∀ z ∈ S, z.vals.length = times.length := by
    intro z hz
    obtain ⟨_, p, P, _, _, _, hkind, _, hr⟩ := (b2 z).1 hz
    rw [freshOf_length hr]
    rcases hkind with h | h
    · rw [h, if_neg (by simp)]
      obtain ⟨l', a, b, e1, e2⟩ := extendPoints_ok havg
      simp [pointsLength, toK, e1, e2]
    · rw [h, if_pos rfl]
      simp [pointsLength, toK]
  have hconv : S ≠ [] → convertToFrame env times model scenario climate s =
      (fromTs c.data.length (transposed times.length c.data) times (c.meta.map fun x => (x.1, .list x.2)), s') := by
    intro h0
    unfold convertToFrame
    rw [havg]
    simp only
    rw [M.bind_ok (show M.gets rootParams s = (.ok (rootParams s), s) from rfl), M.bind_ok g1]
    rw [if_neg (by rw [hG.data]; simpa using h0), if_neg]
    · cases fromTs c.data.length (transposed times.length c.data) times (c.meta.map fun x => (x.1, .list x.2)) <;> rfl
    · rw [not_not, hG.data]
      intro l hl
      obtain ⟨z, hz, rfl⟩ := List.mem_map.1 hl
      exact hlen z hz
  refine ⟨S, (rootKeys_nodup hi).sublist b1, hmem, s', g2, g3, ?_, ?_, ?_⟩
  · intro h0
    unfold convertToFrame
    rw [havg]
    simp only
    rw [M.bind_ok (show M.gets rootParams s = (.ok (rootParams s), s) from rfl), M.bind_ok g1]
    rw [if_pos (by rw [hG.data, h0]; rfl)]
    rfl
  · intro h0
    obtain ⟨F', e1, e2, e3, e4, e5, _, _⟩ := gathered_values hG hlen
    exact ⟨F', by rw [hconv h0, e1], e2, e3, e4, e5⟩
  · intro h0 F' s2 hF
    obtain ⟨F1, e1, e2, e3, e4, e5, e6, e7⟩ := gathered_values hG hlen
    rw [hconv h0, e1] at hF
    cases hF
    obtain ⟨m1, m2, m3⟩ := gatherAll_cols (rootParams s) hi hl hall g1
    simp only [inCol_iff hi] at m1 m3
    have hstart : ∀ {y : String × List (PyVal K)}, y ∈ (gatherStart model scenario climate : Gathered K).meta →
        y.1 ∉ seriesCols → ∃ v, y.2 = [v] ∧
          (y.1, v) ∈ [("climate_model", PyVal.str climate), ("scenario", .str scenario), ("model", .str model)] := by
      intro y hy hyn
      simp only [gatherStart, List.mem_cons, List.not_mem_nil, or_false] at hy
      rcases hy with rfl | rfl | rfl | rfl | rfl | rfl | rfl
      · exact ⟨_, rfl, by simp⟩
      · exact ⟨_, rfl, by simp⟩
      · exact ⟨_, rfl, by simp⟩
      all_goals exact absurd (by simp [seriesCols]) hyn
    refine ⟨fun n => ?_, fun n hn hns => ?_⟩
    · rw [e7]
      constructor
      · intro hn
        obtain ⟨y, hy, rfl⟩ := List.mem_map.1 hn
        by_cases hs : y.1 ∈ seriesCols
        · left
          simp only [seriesCols, List.mem_cons, List.not_mem_nil, or_false] at hs
          rcases hs with h | h | h | h <;> rw [h] <;> decide
        · rcases m1 y hy hs with ⟨h1, _⟩ | ⟨v, _, h1⟩
          · left
            exact List.mem_map.2 ⟨y, h1, rfl⟩
          · exact .inr ⟨v, h1⟩
      · rintro (hn | ⟨v, hv⟩)
        · exact m2 n hn
        · exact m3 n v hv
    · obtain ⟨y, hy, rfl⟩ := List.mem_map.1 ((e7 n).1 hn)
      obtain ⟨yn, yl⟩ := y
      simp only at hns hn ⊢
      rcases m1 _ hy hns with ⟨h1, h2⟩ | ⟨v, h1, h2⟩
      · obtain ⟨v, h3, h4⟩ := hstart h1 hns
        simp only at h2 h3 h4
        subst h3
        exact ⟨v, e6 yn v hy hns, .inr ⟨h2, h4⟩⟩
      · simp only at h1 h2
        subst h1
        exact ⟨v, e6 yn v hy hns, .inl h2⟩

theorem convert_inv {env : Env K} {s s' : St K (PyVal K)} (hi : Inv env s) {times : List Int}
    {model scenario climate : String} {F' : DFrame K}
    (h : convertToFrame env times model scenario climate s = (.ok F', s')) :
    ∃ avg, extendPoints times = .ok avg ∧ AllRead env s times avg (rootParams s) := by
  have hl : ∀ x ∈ rootParams s, HasKey s x.2.2 (x.2.1, x.1) ∧ Childless s x.2.2 := fun x hx =>
    ⟨((rootParams_mem hi.tree x).1 hx).1, ((rootParams_mem hi.tree x).1 hx).2.1⟩
  unfold convertToFrame at h
  cases havg : extendPoints times with
  | error e => rw [havg] at h; cases h
  | ok avg =>
    rw [havg] at h
    simp only at h
    obtain ⟨l, s1, g1, g2⟩ := M.bind_inv h
    have g1 : (Except.ok (rootParams s), s) = (Except.ok l, s1) := g1
    cases g1
    obtain ⟨c, s2, g3, _⟩ := M.bind_inv g2
    exact ⟨avg, rfl, gatherAll_read _ hi hl g3⟩

/-! ## C99 -/

/-- **C99**. The rows of the frame made of a parameter set are its timeseries in the root region and the regions
directly below, each exactly once, as somebody who asks for them on these times is shown them. -/
theorem C99_rows_partial {env : Env K} {s s' : St K (PyVal K)} (hs : Reachable env s) (hn : NamesFree env s)
    {times : List Int} {model scenario climate : String} {F' : DFrame K}
    (h : convertToFrame env times model scenario climate s = (.ok F', s')) :
    F'.times = times ∧ ∃ key : Nat → Key,
      (∀ i j, i < F'.data.length → j < F'.data.length → key i = key j → i = j) ∧
      (∀ i < F'.data.length, ∃ p u vals, SeriesOn env s times (key i) p u vals ∧
        F'.IsRow i (joinName (key i).2) (joinName (key i).1) u vals ∧
        F'.HasMeta i "parameter_type" (.str (typeText p))) ∧
      ∀ k p u vals, SeriesOn env s times k p u vals → ∃ i < F'.data.length, key i = k := by
  have hi := hs.inv
  obtain ⟨avg, havg, hall⟩ := convert_inv hi h
  obtain ⟨S, h1, h2, s1, _, _, h3, h4, h5⟩ := convert_any hi hn havg hall model scenario climate
  have hne : S ≠ [] := fun h0 => by
    have := h3 h0
    rw [h] at this
    cases this
  obtain ⟨F1, e1, e2, e3, e4, e5⟩ := h4 hne
  rw [h] at e1
  cases e1
  have hkey : ∀ {i : Nat} {z : FoundV K}, S[i]? = some z → (S.map (·.key)).getD i ([], []) = z.key := by
    intro i z hz
    rw [List.getD_eq_getElem?_getD, List.getElem?_map, hz]
    rfl
  refine ⟨e3, fun i => (S.map (·.key)).getD i ([], []), ?_, ?_, ?_⟩
  · intro i j hi' hj' hij
    rw [e4] at hi' hj'
    simp only [List.getD_eq_getElem?_getD, List.getElem?_map, List.getElem?_eq_getElem hi',
      List.getElem?_eq_getElem hj', Option.map_some, Option.getD_some] at hij
    have := (List.Nodup.getElem_inj_iff h1 (i := i) (j := j) (hi := by simpa using hi') (hj := by simpa using hj')).1
      (by simpa using hij)
    exact this
  · intro i hi'
    rw [e4] at hi'
    have hz : S[i]? = some S[i] := List.getElem?_eq_getElem hi'
    have hk := hkey hz
    simp only at hk ⊢
    rw [hk]
    exact ⟨_, _, _, (h2 _).1 (List.getElem_mem hi'), e5 i _ hz⟩
  · intro k p u vals hso
    obtain ⟨i, hz⟩ := List.getElem?_of_mem ((h2 ⟨k, p, u, vals⟩).2 hso)
    refine ⟨i, ?_, hkey hz⟩
    rw [e4]
    exact (List.getElem?_eq_some_iff.1 hz).1

/-- **C99**. The other columns: the scalars and generic values of the region "World", and model, scenario and climate
model, as given if the parameter set does not say otherwise. -/
theorem C99_columns_partial {env : Env K} {s s' : St K (PyVal K)} (hs : Reachable env s) (hn : NamesFree env s)
    {times : List Int} {model scenario climate : String} {F' : DFrame K}
    (h : convertToFrame env times model scenario climate s = (.ok F', s')) :
    (∀ n, n ∈ F'.cols ↔ n ∈ ["climate_model", "scenario", "model", "variable", "region", "unit", "parameter_type"] ∨
      ∃ v, ValueColumn env s n v) ∧
    ∀ n ∈ F'.cols, n ∉ ["variable", "region", "unit", "parameter_type"] →
      ∃ v, (∀ i < F'.data.length, F'.HasMeta i n v) ∧
        (ValueColumn env s n v ∨ (¬ ∃ v', ValueColumn env s n v') ∧
          (n, v) ∈ [("climate_model", .str climate), ("scenario", .str scenario), ("model", .str model)]) := by
  have hi := hs.inv
  obtain ⟨avg, havg, hall⟩ := convert_inv hi h
  obtain ⟨S, h1, h2, s1, _, _, h3, h4, h5⟩ := convert_any hi hn havg hall model scenario climate
  have hne : S ≠ [] := fun h0 => by
    have := h3 h0
    rw [h] at this
    cases this
  exact h5 hne F' s' h

/-- **C99**. When the conversion succeeds: two times, some timeseries, and no parameter of the regions it looks at that
cannot be read. -/
theorem C99_succeeds_partial {env : Env K} {s : St K (PyVal K)} (hs : Reachable env s) (hn : NamesFree env s)
    (times : List Int) (model scenario climate : String) :
    (∃ F' s', convertToFrame env times model scenario climate s = (.ok F', s')) ↔
      2 ≤ times.length ∧ (∃ k p u vals, SeriesOn env s times k p u vals) ∧
      ∀ k I, ShallowLeaf env s k I → (∃ p u vals, SeriesOn env s times k p u vals) ∨ WorldValue env k I := by
  have hi := hs.inv
  constructor
  · rintro ⟨F', s', h⟩
    obtain ⟨avg, havg, hall⟩ := convert_inv hi h
    obtain ⟨S, h1, h2, s1, _, _, h3, h4, h5⟩ := convert_any hi hn havg hall model scenario climate
    have hne : S ≠ [] := fun h0 => by
      have := h3 h0
      rw [h] at this
      cases this
    obtain ⟨z, hz⟩ := List.exists_mem_of_ne_nil S hne
    obtain ⟨l', a, b, hl', _⟩ := extendPoints_ok havg
    exact ⟨by rw [hl']; simp, ⟨_, _, _, _, (h2 z).1 hz⟩, (allRead_iff hi havg).1 hall⟩
  · rintro ⟨htwo, ⟨k, p, u, vals, hk⟩, hall⟩
    obtain ⟨avg, havg⟩ := extendPoints_two htwo
    obtain ⟨S, h1, h2, s1, _, _, h3, h4, _⟩ :=
      convert_any hi hn havg ((allRead_iff hi havg).2 hall) model scenario climate
    obtain ⟨F', e1, _⟩ := h4 (List.ne_nil_of_mem ((h2 ⟨k, p, u, vals⟩).2 hk))
    exact ⟨F', s1, e1⟩

/-- **C99**. Converting leaves the parameter set as it was. -/
theorem C99_unchanged_partial {env : Env K} {s s' : St K (PyVal K)} (hs : Reachable env s) (hn : NamesFree env s)
    {times : List Int} {model scenario climate : String} {F' : DFrame K}
    (h : convertToFrame env times model scenario climate s = (.ok F', s')) (k : Key) :
    infoAt env s' k = infoAt env s k ∧ (HasChildren env s' k ↔ HasChildren env s k) ∧
      ∀ I, infoAt env s k = some I → I.ptype ≠ none → ¬ HasChildren env s k → ∀ w tps ty int ext,
        freshRead env s' k w tps ty int ext = freshRead env s k w tps ty int ext := by
  have hi := hs.inv
  obtain ⟨avg, havg, hall⟩ := convert_inv hi h
  obtain ⟨S, h1, h2, s1, hsame, hi', h3, h4, h5⟩ := convert_any hi hn havg hall model scenario climate
  have hs1 : s1 = s' := by
    by_cases h0 : S = []
    · have := h3 h0
      rw [h] at this
      cases this
    · obtain ⟨F1, e1, _⟩ := h4 h0
      rw [h] at e1
      cases e1
      rfl
  subst hs1
  have hinfo : ∀ k, infoAt env s1 k = infoAt env s k := by
    intro k
    refine Option.ext fun I => ?_
    rw [infoAt_some hi'.tree, infoAt_some hi.tree]
    simp only [hsame.key, hsame.1]
  have hch : ∀ k, HasChildren env s1 k ↔ HasChildren env s k := by
    intro k
    unfold HasChildren
    simp only [hinfo]
  refine ⟨hinfo k, hch k, ?_⟩
  intro I hI ht hc w tps ty int ext
  obtain ⟨p, P, hk, hP, rfl⟩ := (infoAt_some hi.tree).1 hI
  have hPc := (not_hasChildren_iff hi.tree hk hP).1 hc
  rw [freshRead_eq hi hk hP ht hPc, freshRead_eq hi' (hsame.key.2 hk) (by rw [hsame.1]; exact hP) ht hPc]

theorem shallow_of_root {env : Env K} {s : St K (PyVal K)} (hi : Inv env s) {x : List String × List String × Nat}
    (hx : x ∈ rootParams s) {I : Info} (hI : infoAt env s (x.2.1, x.1) = some I) :
    ShallowLeaf env s (x.2.1, x.1) I := by
  obtain ⟨x1, ⟨P, hP, hc⟩, x3⟩ := (rootParams_mem hi.tree x).1 hx
  exact ⟨hI, (not_hasChildren_iff hi.tree x1 hP).2 hc, x3⟩

theorem namesFree_of_root {env : Env K} {s : St K (PyVal K)} (hi : Inv env s)
    (h : ∀ x ∈ rootParams s, joinName x.1 ∉ ["variable", "region", "unit", "parameter_type"]) : NamesFree env s := by
  intro k I hl _
  obtain ⟨p, P, hm, _⟩ := (shallowLeaf_iff hi).1 hl
  exact h _ hm

/-! ## Examples -/

/-- A parameter set made by hand: a point timeseries, an average one in a region directly below,
one two regions down, a scalar and a generic value named `n`. -/
def handOps (n : String) : List (Op ℚ (PyVal ℚ)) :=
  [.timeseries (.str "a|T") "K" [0, 10, 20] (.str "World") (.enum .point) (.enum .linear) (.enum .none),
   .tSet 0 (.floats [.num 1, .num 2, .num 4]),
   .timeseries (.str "a|E") "m" [0, 10, 20, 30] (.str "World|x") (.enum .average) (.enum .linear) (.enum .none),
   .tSet 1 (.floats [.num 5, .num 7, .num 9]),
   .timeseries (.str "a|E") "m" [0, 10, 20, 30] (.str "World|x|y") (.enum .average) (.enum .linear) (.enum .none),
   .tSet 2 (.floats [.num 5, .num 7, .num 9]),
   .scalar (.str "b") "K" (.str "World"), .sSet 0 (.num 4),
   .generic (.str n) (.str "World"), .gSet 0 (.str "m")]

def handSt (n : String) : St ℚ (PyVal ℚ) := after demoEnv (St.init "World") (handOps n)

theorem handSt_reachable (n : String) : Reachable demoEnv (handSt n) := ⟨"World", handOps n, rfl⟩

/-- Rows and two columns of the frame made of it. -/
def handFrame (n : String) (times : List Int) : Option (List (List (Fl ℚ)) × List String × List (List (PyVal ℚ))) :=
  match (convertToFrame demoEnv times "m" "s" "unspecified" (handSt n)).1 with
  | .ok F => some (F.data.map (·.2), F.cols, F.meta.map (·.2))
  | .error _ => none

/-- Hypotheses and effect of `C99_rows_partial`, `C99_columns_partial`, `C99_succeeds_partial` and `C99_unchanged_partial`. -/
example : Reachable demoEnv (handSt "note") ∧ NamesFree demoEnv (handSt "note") ∧
    (handFrame "note" [10, 20]).map (·.1) = some [[.num 2, .num 4], [.num 7, .num 9]] ∧
    (handFrame "note" [10, 40]).map (·.1) = none ∧
    (handFrame "note" [10, 20]).map (fun x => x.2.2.map fun r => r.drop 2) =
      some [[.str "World", .str "a|T", .str "K", .flt (.num 4), .str "unspecified", .str "m", .str "point"],
        [.str "World|x", .str "a|E", .str "m", .flt (.num 4), .str "unspecified", .str "m", .str "average"]] :=
  ⟨handSt_reachable _, namesFree_of_root (handSt_reachable _).inv (by decide +kernel), by decide +kernel,
    by decide +kernel, by decide +kernel⟩

/-- A timeseries of the set above. -/
theorem hand_series : SeriesOn demoEnv (handSt "unit") [0, 10, 20] (["World"], ["a", "T"]) .point "K"
    [.num 1, .num 2, .num 4] :=
  ⟨⟨["a", "T"], ["World"], some .point, some "K", false, 1⟩, _,
    shallow_of_root (x := (["a", "T"], ["World"], 1)) (handSt_reachable _).inv (by decide +kernel) (by decide +kernel),
    rfl, rfl, .point, by decide +kernel⟩

/-- **C99, violation**. Without the hypothesis on names the rows are not those of the parameter set: a generic value
called "unit" takes the place of the units. -/
theorem C99_names_matter : ¬ ∀ (s : St ℚ (PyVal ℚ)), Reachable demoEnv s → ∀ (times : List Int) (F' : DFrame ℚ) s',
    convertToFrame demoEnv times "m" "s" "c" s = (.ok F', s') →
    ∀ k p u vals, SeriesOn demoEnv s times k p u vals → ∃ i, F'.IsRow i (joinName k.2) (joinName k.1) u vals := by
  intro hall
  have hok : ∃ F' s', convertToFrame demoEnv [0, 10, 20] "m" "s" "c" (handSt "unit") = (.ok F', s') ∧
      ∀ r ∈ F'.meta, PyVal.str "K" ∉ r.2 := by
    have h : (match (convertToFrame demoEnv [0, 10, 20] "m" "s" "c" (handSt "unit")).1 with
      | .ok F => decide (∀ r ∈ F.meta, PyVal.str "K" ∉ r.2)
      | .error _ => false) = true := by decide +kernel
    generalize hc : convertToFrame demoEnv [0, 10, 20] "m" "s" "c" (handSt "unit") = x at h
    obtain ⟨r, s'⟩ := x
    cases r with
    | error e => simp at h
    | ok F => exact ⟨F, s', rfl, by simpa using h⟩
  obtain ⟨F', s', hF, hno⟩ := hok
  obtain ⟨i, _, _, ⟨j, r, _, hr, hv⟩, _⟩ := hall _ (handSt_reachable _) _ F' s' hF _ _ _ _ hand_series
  exact hno r (List.mem_of_getElem? hr) (List.mem_of_getElem? hv)

end Openscm
