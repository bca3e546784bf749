import Verif.RoundMeta2
import Verif.RoundDeep
import Verif.CoreOptions

/-!
# C105: which frames can become parameter sets

What `to_parameterset` (`openscm/scmdataframe/base.py:453-534`) needs. Totals and their parts cannot be in one frame,
regions have to be in `World`, units have to be defined, types have to be known, and metadata may not have the name of a
variable. Frames that are not like this are refused; no frame is loaded in part.
-/

set_option linter.unusedSectionVars false

namespace Openscm

variable {K : Type} [Field K] [LinearOrder K] [IsStrictOrderedRing K]

/-! ## Specification -/

/-- `w` is a part of `v`: `Emissions|CO2|AFOLU` is below `Emissions|CO2` and below `Emissions`. -/
def NameBelow (v w : String) : Prop := ∃ t, w = v ++ "|" ++ t

/-! ## Facts -/

theorem splitChars_append (a b : List Char) : splitChars (a ++ sepChar :: b) = splitChars a ++ splitChars b := by
  induction a with
  | nil => simp [splitChars]
  | cons c l ih =>
    rw [List.cons_append, splitChars, splitChars, ih]
    split
    · rfl
    · cases h : splitChars l with
      | nil => exact absurd h (splitChars_ne_nil l)
      | cons x t => rfl

theorem splitName_below (v t : String) : splitName (v ++ "|" ++ t) = splitName v ++ splitName t := by
  unfold splitName
  rw [String.toList_append, String.toList_append, List.append_assoc,
    show "|".toList ++ t.toList = sepChar :: t.toList from rfl, splitChars_append, List.map_append]

theorem splitName_ne (t : String) : splitName t ≠ [] := by
  unfold splitName
  simpa using splitChars_ne_nil t.toList

/-- Nothing that is stored is above something else that is stored. -/
theorem Holds.leaves {G : Type} {env : Env K} {s : St K G} (hs : Reachable env s) {L : List (Key × Item K G)} {X : Key → PType → Prop}
    (h : Holds env s L X) {e e' : Key × Item K G} (he : e ∈ L) (he' : e' ∈ L) {n : String} {ns : List String}
    (hr : e'.1.1 = e.1.1) (hk : e'.1.2 = e.1.2 ++ n :: ns) : False := by
  have hi := hs.inv
  obtain ⟨p, P, h1, h2, h3, -⟩ := h.items e he
  obtain ⟨q, Q, g1, -, -, -⟩ := h.items e' he'
  have g1' : HasKey s q (e.1.1, e.1.2 ++ n :: ns) := by rw [← hr, ← hk]; exact g1
  obtain ⟨c, hc⟩ := g1'.prefix hi.tree (b' := e.1.2 ++ [n]) ⟨ns, by simp⟩ (by simp)
  have := (child_key hi.tree h1 h2 n c).1 hc
  rw [((hi.good.params p P h2).1 h3).1] at this
  simp at this

/-- Two things that are stored under one name are of one type. -/
theorem Holds.one {G : Type} {env : Env K} {s : St K G} (hs : Reachable env s) {L : List (Key × Item K G)} {X : Key → PType → Prop}
    (h : Holds env s L X) {e e' : Key × Item K G} (he : e ∈ L) (he' : e' ∈ L) (hk : e'.1 = e.1) :
    ∃ P : Param K G, e.2.In env P ∧ e'.2.In env P := by
  have hi := hs.inv
  obtain ⟨p, P, h1, h2, -, h4⟩ := h.items e he
  obtain ⟨q, Q, g1, g2, -, g4⟩ := h.items e' he'
  rw [hk] at g1
  have := h1.inj hi.tree g1
  subst this
  rw [h2] at g2
  cases g2
  exact ⟨P, h4, g4⟩

theorem RName.head {G : Type} {s : St K G} (t : Tree s) {q : Nat} {ks : List String} {R : Region} (h0 : s.regions[0]? = some R)
    (h : RName s q ks) : ks.head? = some R.name := by
  induction h with
  | @root q Q hr hp =>
    have := t.rorphan q Q hr hp
    subst this
    rw [h0] at hr
    cases hr
    rfl
  | @sub q q' Q ks hr hp hk ih =>
    cases ks with
    | nil => simp at ih
    | cons k ks => simpa using ih

/-- All regions are in the same one. -/
theorem Holds.root {G : Type} {env : Env K} {s : St K G} (hs : Reachable env s) {L : List (Key × Item K G)} {X : Key → PType → Prop}
    (h : Holds env s L X) {e e' : Key × Item K G} (he : e ∈ L) (he' : e' ∈ L) : e.1.1.head? = e'.1.1.head? := by
  have hi := hs.inv
  obtain ⟨R, h0, -⟩ := hi.tree.root
  obtain ⟨p, P, ⟨_, _, h1, _⟩, -⟩ := h.items e he
  obtain ⟨q, Q, ⟨_, _, g1, _⟩, -⟩ := h.items e' he'
  rw [h1.head hi.tree h0, g1.head hi.tree h0]

theorem Item.In.unit {G : Type} {env : Env K} {P : Param K G} {t : PType} {u : String} {tps xs : List K}
    (h : (Item.series (G := G) t u tps xs).In env P) : ∃ a, env.units u = some a := by
  obtain ⟨-, h2, -, h4, -⟩ := h
  cases hu : env.units u with
  | some a => exact ⟨a, rfl⟩
  | none =>
    exfalso
    have hc : mkConvOpt env.units P.unit u = .error .undefinedUnit := by
      rw [h2]
      simp only [mkConvOpt, mkConv, hu]
    unfold freshOf at h4
    rw [hc] at h4
    cases ht : (TyArg.enum t).parse with
    | error e => rw [ht] at h4; simp [bind, Except.bind] at h4
    | ok t' =>
      rw [ht] at h4
      simp only [bind, Except.bind, IntArg.parse, ExtArg.parse] at h4
      split at h4
      · cases h4
      · cases h4

/-! ## C105 -/

/-- C105: what a frame is like that was made into a parameter set. (That its timeseries are there as well is C97.) -/
theorem C105_needs_partial {env : Env K} {F : DFrame K} (hT : F.Tidy) {s : St K (PyVal K)}
    (hto : toParameterset env F (St.init "World") = (.ok (), s)) :
    (∀ i j v w g, F.HasMeta i "variable" (.str v) → F.HasMeta j "variable" (.str w) → F.HasMeta i "region" (.str g) →
      F.HasMeta j "region" (.str g) → ¬ NameBelow v w) ∧
    (∀ i < F.data.length, ∃ v g u a, F.HasMeta i "variable" (.str v) ∧ F.HasMeta i "region" (.str g) ∧
      F.HasMeta i "unit" (.str u) ∧ (g = "World" ∨ NameBelow "World" g) ∧ env.units u = some a ∧
      ("parameter_type" ∈ F.cols → ∃ t p, F.HasMeta i "parameter_type" (.str t) ∧ MeansType (.str t) p)) ∧
    (∀ i j c x y, c ∉ ofSeries → F.HasMeta i c x → F.HasMeta j c y → SameValue x y) ∧
    ∀ i v c x, F.HasMeta i "variable" (.str v) → F.HasMeta i "region" (.str "World") → c ∉ ofSeries → '(' ∉ c.toList →
      F.HasMeta i c x → v ≠ c ∧ ¬ NameBelow v c ∧ ¬ NameBelow c v := by
  have hd : ∀ d ∈ F.data, ∃ xs : List K, d.2 = xs.map .num := fun d hd => nums_of (hT.nums d hd)
  obtain ⟨hs, L, hL, ha, hb, hex, ms, hms, hfor, hfind, -⟩ := toParameterset_holds hT.sorted hd hT.distinct hto
  have hrow : ∀ i < F.data.length, ∃ (r : Nat × List (PyVal K)) (v g u : String) (t : PType) (tps xs : List K),
      F.meta[i]? = some r ∧ F.HasMeta i "variable" (.str v) ∧ F.HasMeta i "region" (.str g) ∧ F.HasMeta i "unit" (.str u) ∧
      seriesType env.units F.cols r.2 v u = .ok t ∧ ((splitName g, splitName v), Item.series t u tps xs) ∈ L := by
    intro i hi
    have hg := List.getElem?_eq_getElem hi
    obtain ⟨e, he⟩ := hex _ (List.mem_of_getElem? hg)
    obtain ⟨r, v, g, u, t, tps, xs, h1, ⟨m1, m2, m3, -⟩, h3, -, rfl⟩ := rowItem_at hT.ok hg he
    exact ⟨r, v, g, u, t, _, xs, h1, m1, m2, m3, h3, (ha ((splitName g, splitName v), Item.series t u _ xs) trivial).2 ⟨_, List.mem_of_getElem? hg, he⟩⟩
  have hlen : F.data.length = F.meta.length := by simpa using congrArg List.length hT.ok.labels
  have hitem : ∀ {i : Nat} {v g : String}, F.HasMeta i "variable" (.str v) → F.HasMeta i "region" (.str g) →
      ∃ t u tps xs, ((splitName g, splitName v), Item.series t u tps xs) ∈ L := by
    intro i v g hv hg
    have hi : i < F.data.length := by
      obtain ⟨_, r, -, h2, -⟩ := id hv
      rw [hlen]
      exact (List.getElem?_eq_some_iff.1 h2).1
    obtain ⟨r, v', g', u, t, tps, xs, -, m1, m2, -, -, hm⟩ := hrow i hi
    have e1 := HasMeta.unique hT.ok hv m1
    have e2 := HasMeta.unique hT.ok hg m2
    cases e1
    cases e2
    exact ⟨t, u, tps, xs, hm⟩
  refine ⟨?_, ?_, ?_, ?_⟩
  · rintro i j v w g hv hw hg hg' ⟨n, rfl⟩
    obtain ⟨t, u, tps, xs, h1⟩ := hitem hv hg
    obtain ⟨t', u', tps', xs', h2⟩ := hitem hw hg'
    obtain ⟨a, l, hal⟩ := List.exists_cons_of_ne_nil (splitName_ne n)
    exact hL.leaves hs h1 h2 (n := a) (ns := l) rfl (by simp only [splitName_below, hal])
  · intro i hi
    obtain ⟨r, v, g, u, t, tps, xs, h0, m1, m2, m3, hty, hm⟩ := hrow i hi
    obtain ⟨_, P, -, -, -, hin⟩ := hL.items _ hm
    obtain ⟨a, hu⟩ := Item.In.unit hin
    refine ⟨v, g, u, a, m1, m2, m3, ?_, hu, fun hc => ?_⟩
    · have hne : ms ≠ [] := by
        rintro rfl
        unfold DFrame.commonMeta at hms
        simp only at hms
        split at hms
        · cases hms
        rename_i row rows hrows
        split at hms
        · cases hms
        split at hms
        · cases hms
        rename_i h2
        split at hms
        · cases hms
        simp only [Except.ok.injEq] at hms
        have hl : row.length = (F.cols.filter fun c => c ∉ seriesCols).length := by
          have : row ∈ F.meta.map fun r => selectCols F.cols (F.cols.filter fun c => c ∉ seriesCols) r.2 := by
            rw [hrows]
            exact List.mem_cons_self
          obtain ⟨r, -, rfl⟩ := List.mem_map.1 this
          simp [selectCols]
        have := congrArg List.length hms
        rw [List.length_zip, hl, Nat.min_self] at this
        simp only [List.length_nil] at this
        omega
      obtain ⟨e, he, hmf⟩ := hfind ms.dropLast (ms.getLast hne) [] (List.dropLast_append_getLast hne).symm (by simp)
      have hw : e.1.1 = worldName := by
        rcases hmf with ⟨-, rfl⟩ | ⟨n, u, x, u', x', -, -, rfl, -⟩ <;> rfl
      have hh := hL.root hs hm he
      simp only [hw, worldName, List.head?_cons] at hh
      by_cases hg : g = "World"
      · exact .inl hg
      right
      cases hsp : splitName g with
      | nil => exact absurd hsp (splitName_ne g)
      | cons a l =>
        rw [hsp, List.head?_cons, Option.some.injEq] at hh
        subst hh
        have hj := C17_join_split g
        rw [hsp] at hj
        cases l with
        | nil => exact absurd hj.symm (by simpa [joinName] using hg)
        | cons b l =>
          refine ⟨joinName (b :: l), ?_⟩
          rw [← hj]
          apply String.toList_inj.1
          simp only [joinName, String.toList_append, String.toList_ofList, List.map_cons, List.intercalate_cons_cons]
          rw [show "|".toList = [sepChar] from rfl]
    · unfold seriesType at hty
      rw [if_pos hc] at hty
      split at hty
      · rename_i t' ht'
        exact ⟨t', t, rowVal_some hT.ok h0 ht', parse_type.1 hty⟩
      · cases hty
  · intro i j c x y hc hx hy
    by_contra hne
    rw [commonMeta_refused hT.ok hc hx hy hne] at hms
    cases hms
  · intro i v c x hv hg hc hp hx
    obtain ⟨t, u, tps, xs, h1⟩ := hitem hv hg
    have h0 : F.HasMeta 0 c (F.metaAt 0 c) := by
      obtain ⟨i1, i2, -⟩ := (metaAt_iff hT.ok).1 hx
      exact (metaAt_iff hT.ok).2 ⟨by omega, i2, rfl⟩
    have h2 := generic_kept hT.ok hms hfind hp hc h0
    have hw : splitName "World" = worldName := by decide +kernel
    rw [hw] at h1
    refine ⟨?_, ?_, ?_⟩
    · rintro rfl
      obtain ⟨P, p1, p2⟩ := hL.one hs h1 h2 rfl
      obtain ⟨q, Q, -, -, -, -⟩ := hL.items _ h1
      have e1 : P.data = .series (xs.map .num) := p1.2.2.2.2
      have e2 := p2.2
      rw [e1] at e2
      cases e2
    · rintro ⟨n, rfl⟩
      obtain ⟨a, l, hal⟩ := List.exists_cons_of_ne_nil (splitName_ne n)
      exact hL.leaves hs h1 h2 (n := a) (ns := l) rfl (by simp only [splitName_below, hal])
    · rintro ⟨n, rfl⟩
      obtain ⟨a, l, hal⟩ := List.exists_cons_of_ne_nil (splitName_ne n)
      exact hL.leaves hs h2 h1 (n := a) (ns := l) rfl (by simp only [splitName_below, hal])

/-- C105: a frame with a total and one of its parts is refused, in whatever order they come. -/
theorem C105_total (env : Env K) {F : DFrame K} (hT : F.Tidy) {i j : Nat} {v w g : String}
    (hv : F.HasMeta i "variable" (.str v)) (hw : F.HasMeta j "variable" (.str w)) (hg : F.HasMeta i "region" (.str g))
    (hg' : F.HasMeta j "region" (.str g)) (hvw : NameBelow v w) :
    ∃ e, (toParameterset env F (St.init "World")).1 = .error e := by
  cases h : toParameterset env F (St.init "World") with
  | mk r s =>
    cases r with
    | error e => exact ⟨e, rfl⟩
    | ok x => exact absurd hvw ((C105_needs_partial hT h).1 i j v w g hv hw hg hg')

/-! ## Examples -/

/-- Two timeseries in the world. -/
def pairF (v w u : String) : DFrame ℚ :=
  { times := [0, 10, 20]
    cols := ["model", "scenario", "region", "variable", "unit", "parameter_type"]
    data := [(0, [.num 1, .num 2, .num 4]), (1, [.num 5, .num 6, .num 8])]
    «meta» := [(0, [.str "m", .str "s", .str "World", .str v, .str "K", .str "point"]),
               (1, [.str "m", .str "s", .str "World", .str w, .str u, .str "point"])] }

theorem pairF_ok (v w u : String) : (pairF v w u).Ok where
  labels := rfl
  nodup := by
    show [0, 1].Nodup
    decide
  cols_nodup := by
    show ["model", "scenario", "region", "variable", "unit", "parameter_type"].Nodup
    decide +kernel
  data_len := by
    show ∀ d ∈ ([(0, [.num 1, .num 2, .num 4]), (1, [.num 5, .num 6, .num 8])] : List (Nat × List (Fl ℚ))), d.2.length = 3
    decide +kernel
  meta_len := by simp [pairF]

theorem pairF_variable {v w u : String} {i : Nat} {x : PyVal ℚ} (h : (pairF v w u).HasMeta i "variable" x) :
    i = 0 ∧ x = .str v ∨ i = 1 ∧ x = .str w := by
  obtain ⟨r, hr, -, hx⟩ := (hasMeta_iff (pairF_ok v w u)).1 h
  match i, hr with
  | 0, hr => left; cases hr; exact ⟨rfl, hx.symm⟩
  | 1, hr => right; cases hr; exact ⟨rfl, hx.symm⟩
  | i + 2, hr => simp [pairF] at hr

theorem pairF_tidy {v w : String} (u : String) (h : v ≠ w) : (pairF v w u).Tidy where
  ok := pairF_ok v w u
  sorted := by
    show ([0, 10, 20] : List Int).Pairwise (· < ·)
    decide
  two := by simp [pairF]
  nums := by
    show ∀ d ∈ ([(0, [.num 1, .num 2, .num 4]), (1, [.num 5, .num 6, .num 8])] : List (Nat × List (Fl ℚ))), ∀ x ∈ d.2, x ≠ .nan
    decide +kernel
  unique i j x g h1 _ h2 _ := by
    rcases pairF_variable h1 with ⟨rfl, rfl⟩ | ⟨rfl, rfl⟩ <;> rcases pairF_variable h2 with ⟨rfl, e⟩ | ⟨rfl, e⟩
    · rfl
    · exact absurd (PyVal.str.inj e) h
    · exact absurd (PyVal.str.inj e).symm h
    · rfl

/-- A frame that can be loaded, so that the hypotheses of `C105_needs_partial` can be met. -/
example : (pairF "a|x" "a|y" "mK").Tidy ∧ (toParameterset demoEnv (pairF "a|x" "a|y" "mK") (St.init "World")).1 = .ok () :=
  ⟨pairF_tidy _ (by decide), by decide +kernel⟩

/-- A frame with a total and a part, in both orders. -/
example : (pairF "a" "a|x" "K").Tidy ∧ NameBelow "a" "a|x" ∧
    (toParameterset demoEnv (pairF "a" "a|x" "K") (St.init "World")).1 = .error .parameterWritten ∧
    (toParameterset demoEnv (pairF "a|x" "a" "K") (St.init "World")).1 = .error .parameterReadonly :=
  ⟨pairF_tidy _ (by decide), ⟨"x", by decide +kernel⟩, by decide +kernel, by decide +kernel⟩

/-- C105 is violated: a frame with two timeseries for one variable and region (in different units) is not refused. The
second replaces the first, which is lost. -/
theorem C105_replaced : (pairF "a" "a" "mK").Ok ∧
    (backAgain (pairF "a" "a" "mK")).map (fun F => F.data.map (·.2)) =
      .ok [[.num (1 / 200), .num (3 / 500), .num (1 / 125)]] :=
  ⟨pairF_ok _ _ _, by decide +kernel⟩

end Openscm
