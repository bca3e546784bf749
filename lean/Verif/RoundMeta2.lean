import Verif.RoundMeta

/-!
# C78: metadata of frames in parameter sets, and back (theorems)

A frame is put into a parameter set only if all timeseries share all metadata other than `variable`, `region`, `unit`
and `parameter_type` and no climate model is given. All shared metadata is then in the set, can be read from it, and is
in a frame made from the set; `model`, `scenario` and `climate_model` given when the frame is made only count if the set
does not hold them.
-/

set_option linter.unusedSectionVars false

namespace Openscm

variable {K : Type} [Field K] [LinearOrder K] [IsStrictOrderedRing K]

/-- The columns in which timeseries of a parameter set may differ. -/
def ofSeries : List String := ["variable", "region", "unit", "parameter_type"]

theorem ofSeries_eq : ofSeries = seriesCols := rfl

theorem commonMeta_refused {F : DFrame K} (hF : F.Ok) {i j : Nat} {c : String} {v w : PyVal K} (hc : c ∉ ofSeries)
    (hi : F.HasMeta i c v) (hj : F.HasMeta j c w) (hne : ¬ SameValue v w) : F.commonMeta = .error .valueError := by
  obtain ⟨i1, i2, i3⟩ := (metaAt_iff hF).1 hi
  obtain ⟨j1, -, j3⟩ := (metaAt_iff hF).1 hj
  unfold DFrame.commonMeta
  simp only
  cases hm : F.meta with
  | nil => rw [hm] at i1; simp at i1
  | cons r rs =>
    have h0 : F.meta[0]? = some r := by rw [hm]; rfl
    have hsel : ∀ {k : Nat} {r : Nat × List (PyVal K)} {gc : List String}, F.meta[k]? = some r →
        selectCols F.cols gc r.2 = gc.map (F.metaAt k) := by
      intro k r gc hk; rw [metaAt_eq hk]; rfl
    rw [List.map_cons]
    simp only
    rw [if_pos]
    intro hall
    have hsame : ∀ k < F.meta.length, SameValue (F.metaAt 0 c) (F.metaAt k c) := by
      intro k hk
      cases k with
      | zero =>
        have : sameRow [F.metaAt 0 c] [F.metaAt 0 c] = true := sameRow_refl _
        have := (sameRow_map (cols := [c]) (f := F.metaAt 0) (g := F.metaAt 0)).1 this
        simpa using this
      | succ k =>
        have hk' := List.getElem?_eq_getElem hk
        have hk2 : rs[k]? = some F.meta[k + 1] := by rw [← hk', hm]; rfl
        have := hall _ (List.mem_map.2 ⟨_, List.mem_of_getElem? hk2, rfl⟩)
        rw [hsel h0, hsel hk', sameRow_map] at this
        exact this c (List.mem_filter.2 ⟨i2, by simpa [ofSeries_eq] using hc⟩)
    rw [← i3, ← j3] at hne
    exact hne ((hsame i i1).symm.trans (hsame j j1))

/-- C78: timeseries that do not share their metadata are refused, and the parameter set stays as it is. -/
theorem C78_refused {env : Env K} {F : DFrame K} (hF : F.Ok) {i j : Nat} {c : String} {v w : PyVal K}
    (hc : c ∉ ofSeries) (hi : F.HasMeta i c v) (hj : F.HasMeta j c w) (hne : ¬ SameValue v w) (s : St K (PyVal K)) :
    toParameterset env F s = (.error .valueError, s) := by
  unfold toParameterset
  rw [commonMeta_refused hF hc hi hj hne]
  rfl

/-- C78: output of a climate model is refused, and the parameter set stays as it is. -/
theorem C78_climate_model {env : Env K} {F : DFrame K} (hF : F.Ok) {i : Nat} {v : PyVal K} (hm : "model" ∈ F.cols)
    (hi : F.HasMeta i "climate_model" v) (hne : v ≠ .str "unspecified") (s : St K (PyVal K)) :
    toParameterset env F s = (.error .valueError, s) := by
  obtain ⟨i1, i2, i3⟩ := (metaAt_iff hF).1 hi
  have hpos : 0 < F.meta.length := by omega
  have h0' : F.HasMeta 0 "climate_model" (F.metaAt 0 "climate_model") := (metaAt_iff hF).2 ⟨hpos, i2, rfl⟩
  by_cases hsame : SameValue v (F.metaAt 0 "climate_model")
  · have heq : (F.metaAt 0 "climate_model").eq (.str "unspecified") = false := by
      generalize F.metaAt 0 "climate_model" = w at hsame
      cases hsame with
      | missing _ hb => rcases hb with rfl | rfl <;> rfl
      | equal =>
        cases v with
        | str t =>
          simp only [PyVal.eq, decide_eq_false_iff_not]
          rintro rfl
          exact hne rfl
        | flt x => cases x <;> rfl
        | _ => rfl
      | intFloat => rfl
      | floatInt => rfl
    unfold toParameterset
    have : F.commonMeta = .error .valueError := by
      unfold DFrame.commonMeta
      simp only
      cases hmm : F.meta with
      | nil => rw [hmm] at hpos; simp at hpos
      | cons r rs =>
        have h0 : F.meta[0]? = some r := by rw [hmm]; rfl
        have hsel : ∀ gc, selectCols F.cols gc r.2 = gc.map (F.metaAt 0) := by
          intro gc; rw [metaAt_eq h0]; rfl
        rw [List.map_cons]
        simp only
        split
        · rfl
        · have hcm : "climate_model" ∈ F.cols.filter fun c => decide (c ∉ seriesCols) :=
            List.mem_filter.2 ⟨i2, by decide⟩
          have hmo : "model" ∈ F.cols.filter fun c => decide (c ∉ seriesCols) :=
            List.mem_filter.2 ⟨hm, by decide⟩
          rw [if_neg, if_pos]
          · refine ⟨hcm, ?_⟩
            rw [hsel]
            rw [rowVal_map hcm]
            exact heq
          · intro hlt
            generalize F.cols.filter (fun c => decide (c ∉ seriesCols)) = l at hlt hcm hmo
            match l, hlt with
            | [], _ => simp at hcm
            | [a], _ =>
              rw [List.mem_singleton] at hcm hmo
              exact absurd (hcm.trans hmo.symm) (by decide)
    rw [this]
    rfl
  · unfold toParameterset
    rw [commonMeta_refused hF (by decide) hi h0' hsame]
    rfl

/-! ## Metadata that is kept -/

/-- What is stored for a column. -/
theorem generic_kept {env : Env K} {F : DFrame K} (hF : F.Ok) {ms : List (String × PyVal K)}
    (hms : F.commonMeta = .ok ms) {L : List (Key × Item K (PyVal K))}
    (hfind : ∀ ms1 c ms2, ms = ms1 ++ c :: ms2 → (∀ c' ∈ ms2, ∀ e e', MetaFor env c e → MetaFor env c' e' →
      e'.1 = e.1 → e'.2.kind ≠ e.2.kind) → ∃ e ∈ L, MetaFor env c e)
    {c : String} {v : PyVal K} (hp : '(' ∉ c.toList) (hc : c ∉ ofSeries) (hv : F.HasMeta 0 c v) :
    ((worldName, splitName c), Item.generic v) ∈ L := by
  have hmem : (c, v) ∈ ms := (commonMeta_mem hF hms).2 ⟨hv, hc⟩
  obtain ⟨ms1, ms2, hsp, hlater⟩ := commonMeta_split hF hms hmem
  obtain ⟨e, he, hfor⟩ := hfind ms1 _ ms2 hsp (by
    intro c' hc' e e' h1 h2 hk
    rcases h1 with ⟨_, rfl⟩ | ⟨n, u, x, u', x', h1, _⟩
    · rcases h2 with ⟨_, rfl⟩ | ⟨n, u, x, u', x', _, _, rfl, _⟩
      · exact absurd (split_inj (Prod.mk.inj hk).2) (hlater c' hc')
      · simp [Item.kind]
    · rw [scalarKey_none hp] at h1; simp at h1)
  rcases hfor with ⟨_, rfl⟩ | ⟨n, u, x, u', x', h1, _⟩
  · exact he
  · rw [scalarKey_none hp] at h1; simp at h1

/-- The number that metadata is. -/
def NumberOf (v : PyVal K) (x : Fl K) : Prop := (∃ z : Int, v = .int z ∧ x = .num (z : K)) ∨ v = .flt x

/-- The column is `n (u)`, and no other column stands for a scalar called `n`. -/
structure ScalarColumn (F : DFrame K) (n u : String) : Prop where
  name : ∀ x ∈ n.toList, x ≠ '(' ∧ x ≠ '\n'
  unit : ∀ x ∈ u.toList, x ≠ '(' ∧ x ≠ ')' ∧ x ≠ '\n'
  trimmed : Trimmed n ∧ Trimmed u
  only : ∀ c ∈ F.cols, Labelled c n → c = n ++ " (" ++ u ++ ")"

theorem not_series_of_open {c : String} (h : '(' ∈ c.toList) : c ∉ seriesCols := by
  intro hc
  simp only [seriesCols, List.mem_cons, List.not_mem_nil, or_false] at hc
  rcases hc with rfl | rfl | rfl | rfl <;> revert h <;> decide

theorem scalar_kept {env : Env K} {F : DFrame K} (hF : F.Ok) {ms : List (String × PyVal K)}
    (hms : F.commonMeta = .ok ms) {L : List (Key × Item K (PyVal K))}
    (hfind : ∀ ms1 c ms2, ms = ms1 ++ c :: ms2 → (∀ c' ∈ ms2, ∀ e e', MetaFor env c e → MetaFor env c' e' →
      e'.1 = e.1 → e'.2.kind ≠ e.2.kind) → ∃ e ∈ L, MetaFor env c e)
    (hunit : ∀ k u x, (k, .scalar u x) ∈ L → ∃ c ∈ ms, ∃ n, scalarKey c.1 = some (n, u) ∧ k = (worldName, splitName n))
    {n u : String} (hs : ScalarColumn F n u) {v : PyVal K} {x : Fl K} (hx : NumberOf v x)
    (hv : F.HasMeta 0 (n ++ " (" ++ u ++ ")") v) : ((worldName, splitName n), Item.scalar u x) ∈ L := by
  have hopen : '(' ∈ (n ++ " (" ++ u ++ ")").toList := by simp
  have hmem : (n ++ " (" ++ u ++ ")", v) ∈ ms := (commonMeta_mem hF hms).2 ⟨hv, not_series_of_open hopen⟩
  have hkey := scalarKey_exact hs.name hs.unit hs.trimmed.1 hs.trimmed.2
  obtain ⟨ms1, ms2, hsp, hlater⟩ := commonMeta_split hF hms hmem
  have hcol : ∀ c' ∈ ms, ∀ u', scalarKey c'.1 = some (n, u') → c'.1 = n ++ " (" ++ u ++ ")" := by
    intro c' hc' u' hk
    have := (commonMeta_mem hF hms (c := c'.1) (v := c'.2)).1 hc'
    exact hs.only _ ((metaAt_iff hF).1 this.1).2.1 (scalarKey_labelled hk)
  obtain ⟨e, he, hfor⟩ := hfind ms1 _ ms2 hsp (by
    intro c' hc' e e' h1 h2 hk
    rcases h1 with ⟨h1, _⟩ | ⟨n1, u1, x1, u1', x1', h1, _, rfl, _⟩
    · rw [hkey] at h1; simp at h1
    · rcases h2 with ⟨_, rfl⟩ | ⟨n2, u2, x2, u2', x2', h2, _, rfl, _⟩
      · simp [Item.kind]
      · rw [hkey] at h1
        simp only [Option.some.injEq, Prod.mk.injEq] at h1
        have hn := split_inj (Prod.mk.inj hk).2
        rw [hn, ← h1.1] at h2
        exact absurd (hcol c' (by rw [hsp]; simp [hc']) u2 h2) (hlater c' hc'))
  rcases hfor with ⟨h1, _⟩ | ⟨n1, u1, x1, u', x', h1, hnum, rfl, cv, hcv, hval⟩
  · rw [hkey] at h1; simp at h1
  · rw [hkey] at h1
    simp only [Option.some.injEq, Prod.mk.injEq] at h1
    obtain ⟨rfl, rfl⟩ := h1
    obtain ⟨c2, hc2, n2, k2, hk⟩ := hunit _ _ _ he
    have hn : n = n2 := split_inj (Prod.mk.inj hk).2
    rw [← hn] at k2
    rw [hcol c2 hc2 u' k2, hkey] at k2
    simp only [Option.some.injEq, Prod.mk.injEq, true_and] at k2
    rw [← k2] at hcv he
    have hid : x' = x := by
      have hx1 : x1 = x := by
        rcases hx with ⟨z, rfl, rfl⟩ | rfl
        · exact (Except.ok.inj hnum).symm
        · exact (Except.ok.inj hnum).symm
      rw [← hx1, ← hval]
      cases x' with
      | nan => rfl
      | num y => simp only [Fl.map]; rw [(C32_same_unit hcv y).1]
    rw [← hid]
    exact he

/-- C78: metadata without brackets in its name is in every timeseries of the frame made from the set. -/
theorem C78_generic {env : Env K} {F : DFrame K} (h : F.Tidy) {s : St K (PyVal K)}
    (hto : toParameterset env F (St.init "World") = (.ok (), s)) {model scenario climate : String} {F' : DFrame K}
    {s' : St K (PyVal K)} (hback : convertToFrame env F.times model scenario climate s = (.ok F', s'))
    {c : String} {v : PyVal K} (hp : '(' ∉ c.toList) (hc : c ∉ ofSeries) (hv : F.HasMeta 0 c v) :
    ∀ j < F'.data.length, F'.HasMeta j c v := by
  obtain ⟨ms, L, hms, _, _, _, hfind, _, hkept, _⟩ := round_meta h hto hback
  have := hkept _ (generic_kept h.ok hms hfind hp hc hv) (by simp [Item.isSeries])
  simp only [asMeta, C17_join_split] at this
  exact this hc

/-- C78: scalar metadata is in every timeseries of the frame made from the set, as a float. -/
theorem C78_scalar {env : Env K} {F : DFrame K} (h : F.Tidy) {s : St K (PyVal K)}
    (hto : toParameterset env F (St.init "World") = (.ok (), s)) {model scenario climate : String} {F' : DFrame K}
    {s' : St K (PyVal K)} (hback : convertToFrame env F.times model scenario climate s = (.ok F', s'))
    {n u : String} (hs : ScalarColumn F n u) {v : PyVal K} {x : Fl K} (hx : NumberOf v x)
    (hv : F.HasMeta 0 (n ++ " (" ++ u ++ ")") v) :
    ∀ j < F'.data.length, F'.HasMeta j (n ++ " (" ++ u ++ ")") (.flt x) := by
  obtain ⟨ms, L, hms, _, _, _, hfind, hunit, hkept, _⟩ := round_meta h hto hback
  have := hkept _ (scalar_kept h.ok hms hfind hunit hs hx hv) (by simp [Item.isSeries])
  simp only [asMeta, C17_join_split] at this
  exact this (not_series_of_open (by simp))

/-- C78: model, scenario and climate model given when the frame is made are used if the set does not hold them. -/
theorem C78_argument {env : Env K} {F : DFrame K} (h : F.Tidy) {s : St K (PyVal K)}
    (hto : toParameterset env F (St.init "World") = (.ok (), s)) {model scenario climate : String} {F' : DFrame K}
    {s' : St K (PyVal K)} (hback : convertToFrame env F.times model scenario climate s = (.ok F', s')) {n v : String}
    (hn : (n, v) ∈ [("climate_model", climate), ("scenario", scenario), ("model", model)]) (hno : n ∉ F.cols) :
    ∀ j < F'.data.length, F'.HasMeta j n (.str v) := by
  obtain ⟨ms, L, hms, _, _, hfor, _, _, _, harg, _⟩ := round_meta h hto hback
  refine harg n v hn fun e he hns hname => ?_
  obtain ⟨c, hc, ⟨_, rfl⟩ | ⟨n', u, x, u', x', _, _, rfl, _⟩⟩ := hfor e he hns <;>
    simp only [asMeta, C17_join_split] at hname
  · rw [← hname] at hno
    exact hno ((metaAt_iff h.ok).1 ((commonMeta_mem h.ok hms (c := c.1) (v := c.2)).1 hc).1).2.1
  · have hopen : '(' ∈ n.toList := by rw [← hname]; simp
    simp only [List.mem_cons, Prod.mk.injEq, List.not_mem_nil, or_false] at hn
    rcases hn with ⟨rfl, _⟩ | ⟨rfl, _⟩ | ⟨rfl, _⟩ <;> revert hopen <;> decide

/-- C78: the frame made from the set has the columns of the frame that was put in, apart from those of scalars. -/
theorem C78_columns {env : Env K} {F : DFrame K} (h : F.Tidy) {s : St K (PyVal K)}
    (hto : toParameterset env F (St.init "World") = (.ok (), s)) {model scenario climate : String} {F' : DFrame K}
    {s' : St K (PyVal K)} (hback : convertToFrame env F.times model scenario climate s = (.ok F', s')) {n : String}
    (hp : '(' ∉ n.toList) :
    n ∈ F'.cols ↔ n ∈ F.cols ∨
      n ∈ ["variable", "region", "unit", "parameter_type", "climate_model", "scenario", "model"] := by
  obtain ⟨ms, L, hms, _, _, hfor, hfind, _, _, _, hcols⟩ := round_meta h hto hback
  rw [hcols]
  constructor
  · rintro (hn | hn | ⟨e, he, hns, rfl⟩)
    · right
      simp only [seriesCols, List.mem_cons, List.not_mem_nil, or_false] at hn ⊢
      tauto
    · right
      simp only [List.mem_cons, List.not_mem_nil, or_false] at hn ⊢
      tauto
    · left
      obtain ⟨c, hc, ⟨_, rfl⟩ | ⟨n', u, x, u', x', _, _, rfl, _⟩⟩ := hfor e he hns <;>
        simp only [asMeta, C17_join_split] at hp ⊢
      · exact ((metaAt_iff h.ok).1 ((commonMeta_mem h.ok hms (c := c.1) (v := c.2)).1 hc).1).2.1
      · exact absurd (by simp) hp
  · rintro (hn | hn)
    · by_cases hs : n ∈ seriesCols
      · exact Or.inl hs
      · right; right
        have hne : F.meta ≠ [] := by
          intro hm
          unfold DFrame.commonMeta at hms
          rw [hm] at hms
          simp at hms
        have hv : F.HasMeta 0 n (F.metaAt 0 n) :=
          (metaAt_iff h.ok).2 ⟨List.length_pos_iff.2 hne, hn, rfl⟩
        exact ⟨_, generic_kept h.ok hms hfind hp hs hv, by simp [Item.isSeries], by simp [asMeta, C17_join_split]⟩
    · simp only [seriesCols, List.mem_cons, List.not_mem_nil, or_false] at hn ⊢
      tauto

/-! ## Reading it from the set -/

theorem scalar_read {env : Env K} {s : St K (PyVal K)} (hi : Inv env s) {L : List (Key × Item K (PyVal K))}
    {X : Key → PType → Prop} (hL : Holds env s L X) {name region : HName} {u : String} {x : Fl K}
    (hin : ((region.parts, name.parts), Item.scalar u x) ∈ L) :
    ∃ i s1, call env (.scalar name u region) s = (.ok (.view i), s1) ∧ result env s1 (.sGet i) = .ok (.num x) := by
  obtain ⟨p, P, hk, hP, hw, ht, hu, cv, y, hcv, hd, hval⟩ := hL.items _ hin
  obtain ⟨hch, hrd⟩ := (hi.good.params p P hP).1 hw
  have hre : reach name region s = (.ok p, s) := reach_existing (ns := []) hi.tree hk (by simp)
  have hcall : scalarCall env name u region s = (.ok s.sviews.length,
      { s with sviews := s.sviews ++ [{ param := p, conv := cv, writable := false, kids := none }] }) := by
    unfold scalarCall
    rw [M.bind_ok hre, M.bind_ok (attemptRead_again hP ht hrd), M.bind_apply, M.value_apply]
    unfold mkSView
    rw [hP]
    simp only [hu, mkConvOpt, hcv, hch, if_true]
    rfl
  refine ⟨s.sviews.length,
    { s with sviews := s.sviews ++ [{ param := p, conv := cv, writable := false, kids := none }] }, ?_, ?_⟩
  · show (scalarCall env name u region >>= fun i => pure (Out.view i : Out K (PyVal K))) s = _
    rw [M.bind_ok hcall]; rfl
  · have hv : ({ s with sviews := s.sviews ++ [{ param := p, conv := cv, writable := false, kids := none }] } :
        St K (PyVal K)).sviews[s.sviews.length]? = some { param := p, conv := cv, writable := false, kids := none } := by
      show (s.sviews ++ [_])[s.sviews.length]? = _
      simp
    have hval' : scalarValue
        ({ s with sviews := s.sviews ++ [{ param := p, conv := cv, writable := false, kids := none }] } :
        St K (PyVal K)) { param := p, conv := cv, writable := false, kids := none }
        = .ok (y.map cv.convertFrom) := by
      unfold scalarValue readScalarLeaf
      have : ({ s with sviews := s.sviews ++ [{ param := p, conv := cv, writable := false, kids := none }] } :
        St K (PyVal K)).params[p]? = some P := hP
      simp only [this, hch, hw, hd, ne_eq, not_true_eq_false, if_false, Bool.not_true, Bool.false_eq_true]
    have hget := sGet_eq (env := env) hv
    rw [hval', hval] at hget
    unfold result
    rw [hget]
    rfl

theorem generic_read {env : Env K} {s : St K (PyVal K)} (hi : Inv env s) {L : List (Key × Item K (PyVal K))}
    {X : Key → PType → Prop} (hL : Holds env s L X) {name region : HName} {g : PyVal K}
    (hin : ((region.parts, name.parts), Item.generic g) ∈ L) :
    ∃ i s1, call env (.generic name region) s = (.ok (.view i), s1) ∧
      result env s1 (.gGet i) = .ok (.gen (some g)) := by
  obtain ⟨p, P, hk, hP, hw, ht, hd⟩ := hL.items _ hin
  obtain ⟨hch, hrd⟩ := (hi.good.params p P hP).1 hw
  have hre : reach name region s = (.ok p, s) := reach_existing (ns := []) hi.tree hk (by simp)
  have hcall : genericCall name region s = (.ok s.gviews.length,
      { s with gviews := s.gviews ++ [{ param := p, writable := false }] }) := by
    unfold genericCall
    rw [M.bind_ok hre, M.bind_ok (attemptRead_again hP ht hrd)]
    rfl
  refine ⟨s.gviews.length, { s with gviews := s.gviews ++ [{ param := p, writable := false }] }, ?_, ?_⟩
  · show (genericCall name region >>= fun i => pure (Out.view i : Out K (PyVal K))) s = _
    rw [M.bind_ok hcall]; rfl
  · have hv : ({ s with gviews := s.gviews ++ [{ param := p, writable := false }] } :
        St K (PyVal K)).gviews[s.gviews.length]? = some { param := p, writable := false } := by
      show (s.gviews ++ [_])[s.gviews.length]? = _
      simp
    have hval : genericValue ({ s with gviews := s.gviews ++ [{ param := p, writable := false }] } :
        St K (PyVal K)) { param := p, writable := false } = .ok (some g) := by
      unfold genericValue
      have : ({ s with gviews := s.gviews ++ [{ param := p, writable := false }] } :
        St K (PyVal K)).params[p]? = some P := hP
      simp only [this, hw, hd, Bool.not_true, Bool.false_eq_true, if_false]
    have hget := gGet_eq (env := env) hv
    rw [hval] at hget
    unfold result
    rw [hget]
    rfl

/-- C78: metadata without brackets in its name is a generic parameter of the root region. -/
theorem C78_read_generic {env : Env K} {F : DFrame K} (h : F.Tidy) {s : St K (PyVal K)}
    (hto : toParameterset env F (St.init "World") = (.ok (), s)) {c : String} {v : PyVal K} (hp : '(' ∉ c.toList)
    (hc : c ∉ ofSeries) (hv : F.HasMeta 0 c v) :
    ∃ i s1, call env (.generic (.str c) (.seq ["World"])) s = (.ok (.view i), s1) ∧
      result env s1 (.gGet i) = .ok (.gen (some v)) := by
  have hd : ∀ d ∈ F.data, ∃ xs : List K, d.2 = xs.map .num := fun d hd => nums_of (h.nums d hd)
  obtain ⟨hs, L, hL, _, _, _, ms, hms, _, hfind, _⟩ := toParameterset_holds h.sorted hd h.distinct hto
  exact generic_read hs.inv hL (generic_kept h.ok hms hfind hp hc hv)

/-- C78: metadata whose name ends in a unit in brackets is a scalar parameter of the root region. -/
theorem C78_read_scalar {env : Env K} {F : DFrame K} (h : F.Tidy) {s : St K (PyVal K)}
    (hto : toParameterset env F (St.init "World") = (.ok (), s)) {n u : String} (hs : ScalarColumn F n u)
    {v : PyVal K} {x : Fl K} (hx : NumberOf v x) (hv : F.HasMeta 0 (n ++ " (" ++ u ++ ")") v) :
    ∃ i s1, call env (.scalar (.str n) u (.seq ["World"])) s = (.ok (.view i), s1) ∧
      result env s1 (.sGet i) = .ok (.num x) := by
  have hd : ∀ d ∈ F.data, ∃ xs : List K, d.2 = xs.map .num := fun d hd => nums_of (h.nums d hd)
  obtain ⟨hs', L, hL, _, _, _, ms, hms, _, hfind, hunit⟩ := toParameterset_holds h.sorted hd h.distinct hto
  exact scalar_read hs'.inv hL (scalar_kept h.ok hms hfind hunit hs hx hv)

/-- C78: only numbers are accepted as scalar metadata, whatever is in the parameter set. -/
theorem C78_number {env : Env K} {F : DFrame K} (hF : F.Ok) {s s' : St K (PyVal K)}
    (hto : toParameterset env F s = (.ok (), s')) {n u : String} (hs : ScalarColumn F n u) {v : PyVal K}
    (hv : F.HasMeta 0 (n ++ " (" ++ u ++ ")") v) : ∃ x, NumberOf v x := by
  unfold toParameterset at hto
  cases hm : F.commonMeta with
  | error e => rw [hm] at hto; simp [M.throw] at hto
  | ok ms =>
    simp only [hm] at hto
    obtain ⟨_, s1, h1, h2⟩ := M.bind_inv hto
    have hmem : (n ++ " (" ++ u ++ ")", v) ∈ ms := (commonMeta_mem hF hm).2 ⟨hv, not_series_of_open (by simp)⟩
    have hkey := scalarKey_exact hs.name hs.unit hs.trimmed.1 hs.trimmed.2
    clear hm hto h1
    induction ms generalizing s1 with
    | nil => simp at hmem
    | cons c ms ih =>
      simp only [addAllMeta] at h2
      obtain ⟨_, s2, h3, h4⟩ := M.bind_inv h2
      rcases List.mem_cons.1 hmem with rfl | hmem
      · simp only [addMeta, hkey] at h3
        obtain ⟨o, s3, _, h5⟩ := M.bind_inv h3
        cases o with
        | view i =>
          cases v with
          | int z => exact ⟨_, .inl ⟨z, rfl, rfl⟩⟩
          | flt x => exact ⟨x, .inr rfl⟩
          | _ => simp [PyVal.number, M.throw] at h5
        | _ => simp [M.throw] at h5
      · exact ih s2 h4 hmem

/-! ## A frame -/

/-- The frame of C57 has scalar metadata `S (K)`, generic metadata and a value that is missing; models given when the
frame is made do not count, because the set holds one. -/
theorem rtF_scalar (r : String) : ScalarColumn (rtF r) "S" "K" := by
  refine ⟨by decide, by decide, ⟨?_, ?_⟩, ?_⟩
  · rintro x (h | h) <;> cases h <;> decide
  · rintro x (h | h) <;> cases h <;> decide
  · intro c hc hl
    have hopen : '(' ∈ c.toList := by
      obtain ⟨a, b, rest, -, h⟩ := hl
      rw [h]; simp
    have : ∀ c ∈ (rtF "").cols, '(' ∈ c.toList → c = "S" ++ " (" ++ "K" ++ ")" := by decide +kernel
    exact this c hc hopen

example : (rtF "World|x").Tidy ∧ (toParameterset demoEnv (rtF "World|x") (St.init "World")).1 = .ok () ∧
    ScalarColumn (rtF "World|x") "S" "K" ∧ (rtF "World|x").HasMeta 0 ("S" ++ " (" ++ "K" ++ ")") (.int 3) ∧
    (rtF "World|x").HasMeta 0 "note" .none ∧ (rtF "World|x").HasMeta 0 "model" (.str "m") :=
  ⟨rtF_plain.toTidy, by decide +kernel, rtF_scalar _, ⟨5, _, rfl, rfl, rfl⟩, ⟨7, _, rfl, rfl, rfl⟩,
    ⟨0, _, rfl, rfl, rfl⟩⟩

/-- There and back with another model. -/
def otherModel (F : DFrame ℚ) : Except Err (DFrame ℚ) :=
  ((do toParameterset demoEnv F; convertToFrame demoEnv F.times "other" "s" "c") (St.init "World")).1

example : (otherModel (rtF "World|x")).map (fun F => (F.metaAt 0 "model", F.metaAt 1 "climate_model",
    F.metaAt 1 "S (K)")) = .ok (.str "m", .str "unspecified", .flt (.num 3)) := by decide +kernel

/-- Another note for the second timeseries; output of a model; no climate model. -/
def rtOther : DFrame ℚ :=
  { rtF "World|x" with «meta» := (rtF "World|x").meta.map fun r => if r.1 = 1 then (r.1, r.2.set 7 (.int 1)) else r }
def rtOutput : DFrame ℚ :=
  { rtF "World|x" with «meta» := (rtF "World|x").meta.map fun r => (r.1, r.2.set 6 (.str "DICE")) }
def rtNone : DFrame ℚ :=
  { rtF "World|x" with
    cols := (rtF "World|x").cols.eraseIdx 6
    «meta» := (rtF "World|x").meta.map fun r => (r.1, r.2.eraseIdx 6) }

example : rtOther.Ok ∧ rtOther.HasMeta 0 "note" .none ∧ rtOther.HasMeta 1 "note" (.int 1) ∧
    ¬ SameValue (.none : PyVal ℚ) (.int 1) :=
  ⟨⟨by decide +kernel, by decide +kernel, by decide +kernel, by decide +kernel, by decide +kernel⟩,
    ⟨7, _, rfl, rfl, rfl⟩, ⟨7, _, rfl, rfl, rfl⟩, by intro h; cases h with | missing _ h => simp at h⟩

example : rtOutput.Ok ∧ "model" ∈ rtOutput.cols ∧ rtOutput.HasMeta 1 "climate_model" (.str "DICE") :=
  ⟨⟨by decide +kernel, by decide +kernel, by decide +kernel, by decide +kernel, by decide +kernel⟩,
    by decide +kernel, ⟨6, _, rfl, rfl, rfl⟩⟩

example : (otherModel rtNone).map (fun F => (F.metaAt 0 "climate_model", F.metaAt 1 "climate_model")) =
    .ok (.str "c", .str "c") ∧ "climate_model" ∉ rtNone.cols := by decide +kernel

/-- Text instead of a number. -/
example : (toParameterset demoEnv { rtF "World|x" with
    «meta» := (rtF "World|x").meta.map fun r => (r.1, r.2.set 5 (.str "x")) } (St.init "World")).1 = .error .typeError := by
  decide +kernel

end Openscm
