import Verif.FrameLoads

/-!
# C107: frames with numbers among their metadata

C106 says which frames can be made into parameter sets, if no name of metadata has brackets. Columns such as `ecs (K)`
become scalars: here they are allowed. In addition to what C106 asks for, their units must be known and their values be
numbers, and it is the name before the bracket that must not clash with other names.
-/

set_option linter.unusedSectionVars false

namespace Openscm

variable {K : Type} [Field K] [LinearOrder K] [IsStrictOrderedRing K]
variable {G : Type}

/-! ## Specification -/

/-- Every column is plain, or is written as `n (u)` and is the only one for `n`. -/
def DFrame.Written (F : DFrame K) : Prop :=
  ∀ c ∈ F.cols, c ∉ ofSeries → '(' ∉ c.toList ∨ ∃ n u, c = n ++ " (" ++ u ++ ")" ∧ ScalarColumn F n u

/-- The name under which a column is stored. -/
def ColumnName (c n : String) : Prop := '(' ∉ n.toList ∧ (c = n ∨ ∃ u, c = n ++ " (" ++ u ++ ")")

/-- What a frame must be like for `to_parameterset`. -/
structure LoadableAll (env : Env K) (F : DFrame K) : Prop where
  nonempty : F.data ≠ []
  three : 3 ≤ F.times.length
  row : ∀ i < F.data.length, ∃ v g u a, F.HasMeta i "variable" (.str v) ∧ F.HasMeta i "region" (.str g) ∧
    F.HasMeta i "unit" (.str u) ∧ (g = "World" ∨ NameBelow "World" g) ∧ env.units u = some a ∧
    ("parameter_type" ∈ F.cols → ∃ t p, F.HasMeta i "parameter_type" (.str t) ∧ MeansType (.str t) p)
  parts : ∀ i j v w g, F.HasMeta i "variable" (.str v) → F.HasMeta j "variable" (.str w) → F.HasMeta i "region" (.str g) →
    F.HasMeta j "region" (.str g) → ¬ NameBelow v w
  shared : ∀ i j c x y, c ∉ ofSeries → F.HasMeta i c x → F.HasMeta j c y → SameValue x y
  climate : ∀ i x, F.HasMeta i "climate_model" x → x = .str "unspecified"
  /-- Scalars are numbers in known units; what is missing differently in other timeseries does not count. -/
  scalars : ∀ n u v, ScalarColumn F n u → F.HasMeta 0 (n ++ " (" ++ u ++ ")") v →
    (∃ a, env.units u = some a) ∧ ∃ x, NumberOf v x
  /-- Names of metadata do not clash with variables. -/
  names : ∀ i v c n, F.HasMeta i "variable" (.str v) → F.HasMeta i "region" (.str "World") → c ∈ F.cols → c ∉ ofSeries →
    ColumnName c n → v ≠ n ∧ ¬ NameBelow v n ∧ ¬ NameBelow n v
  /-- Nor with each other. -/
  metas : ∀ c ∈ F.cols, ∀ c' ∈ F.cols, c ∉ ofSeries → c' ∉ ofSeries → ∀ n n', ColumnName c n → ColumnName c' n' →
    ¬ NameBelow n n' ∧ (n = n' → c = c')

/-! ## Facts -/

/-- A scalar of which the name does not clash can be added. -/
theorem scalar_free {env : Env K} {s : St K G} (hs : Reachable env s) {L : List (Key × Item K G)}
    (h : Holds env s L (fun _ _ => False)) {name region : HName} (hroot : region.parts.head? = some (rootName s))
    (hn : name.parts ≠ [])
    (hfree : ∀ k it, ((region.parts, k), it) ∈ L → ¬ k <+: name.parts ∧ ¬ name.parts <+: k)
    {u : String} {a : UDef K} (hu : env.units u = some a) (x : Fl K) :
    ∃ i s1 s2, call env (.scalar name u region) s = (.ok (.view i), s1) ∧ call env (.sSet i x) s1 = (.ok .done, s2) := by
  obtain ⟨p, s1, P, e1, -, hP, hty, hc⟩ := reach_free hs h hroot hn hfree
  set P' : Param K G := { P with unit := some u, ptype := some .scalar, data := .scalar .nan, readFrom := true } with hP'
  have e2 : attemptRead p .scalar (some u) none s1 = (.ok (), s1.setParam p fun _ => P') := by
    unfold attemptRead firstRead
    simp only [hP, hty]
    rfl
  have hp2 : (s1.setParam p fun _ => P').params[p]? = some P' := by
    rw [setParam_self, hP]; rfl
  set s2 := s1.setParam p fun _ => P' with hs2
  obtain ⟨c, hcv⟩ : ∃ c, mkConv env.units u u = .ok c := mkConv_iff.2 ⟨a, a, hu, hu, rfl⟩
  set v : SView K := { param := p, conv := c, writable := false, kids := none } with hv
  have e3 : mkSView env s2 p u = .ok v := by
    have hcv : mkConvOpt env.units (some u) u = .ok c := hcv
    unfold mkSView
    simp only [hp2]
    show (match mkConvOpt env.units (some u) u with | .error e => _ | .ok c => _) = _
    rw [hcv]
    simp only
    rw [if_pos (show P'.children = [] from hc)]
  have hcall : call env (.scalar name u region) s =
      (.ok (.view s2.sviews.length), { s2 with sviews := s2.sviews ++ [v] }) := by
    show (scalarCall env name u region >>= fun i => pure (Out.view i)) s = _
    have : scalarCall env name u region s = (.ok s2.sviews.length, { s2 with sviews := s2.sviews ++ [v] }) := by
      unfold scalarCall
      rw [M.bind_ok e1, M.bind_ok e2]
      have e4 : (M.value fun s => mkSView env s p u) s2 = (.ok v, s2) := by
        show (mkSView env s2 p u, s2) = _
        rw [e3]
      show ((M.value fun s => mkSView env s p u) >>= _) s2 = _
      rw [M.bind_ok e4]
      rfl
    rw [M.bind_ok this]
    rfl
  have hi4 := (hs.call (.scalar name u region)).inv
  rw [hcall] at hi4
  simp only at hi4
  set s4 : St K G := { s2 with sviews := s2.sviews ++ [v] } with hs4
  have hvi : s4.sviews[s2.sviews.length]? = some v := by
    show (s2.sviews ++ [_])[s2.sviews.length]? = _
    simp
  exact ⟨_, s4, _, hcall, sSet_leaf hi4 hvi hp2 hc⟩

/-- What metadata must be like to be stored under a name. -/
def FitsMeta (env : Env K) (c : String × PyVal K) (n : String) : Prop :=
  (scalarKey c.1 = none ∧ n = c.1) ∨ ∃ u a x, scalarKey c.1 = some (n, u) ∧ env.units u = some a ∧ c.2.number = .ok x

theorem addMeta_fits {env : Env K} {c : String × PyVal K} {n : String} {s : St K (PyVal K)}
    (hs : Reachable env s) (hw : rootName s = "World") {L : List (Key × Item K (PyVal K))}
    (hL : Holds env s L (fun _ _ => False)) (hc : FitsMeta env c n)
    (hnew : ∀ e' ∈ L, KeysApart e'.1 (worldName, splitName n)) :
    ∃ s', addMeta env c s = (.ok (), s') ∧ rootName s' = "World" := by
  rcases hc with ⟨hc, rfl⟩ | ⟨u, a, x, hc, hu, hx⟩
  · exact addMeta_free hs hw hL hc hnew
  obtain ⟨i, s1, s2, c1, c2⟩ := scalar_free hs hL (name := .str n) (region := .seq worldName) (by rw [hw]; rfl)
    (splitName_ne n) (fun k it hk => hnew _ hk rfl) hu x
  refine ⟨s2, ?_, ?_⟩
  · unfold addMeta
    simp only [hc]
    rw [M.bind_ok c1]
    simp only [hx]
    rw [M.bind_ok c2]
    rfl
  · have e1 : s1 = (call env (.scalar (.str n) u (.seq worldName)) s).2 := by rw [c1]
    have e2 : s2 = (call env (.sSet i x) s1).2 := by rw [c2]
    have hs1 : Reachable env s1 := by rw [e1]; exact hs.call _
    rw [e2, rootName_ext hs1.inv.tree (call_rext _ hs1.inv), e1, rootName_ext hs.inv.tree (call_rext _ hs.inv), hw]

theorem addAllMeta_fits {env : Env K} {cs : List (String × PyVal K)} {s : St K (PyVal K)}
    (hs : Reachable env s) (hw : rootName s = "World") {L : List (Key × Item K (PyVal K))}
    (hL : Holds env s L (fun _ _ => False)) (hcol : ∀ c ∈ cs, c.1 ∉ seriesCols)
    (hser : ∀ e ∈ L, ∀ t u tps xs, e.2 = .series t u tps xs → t = .average ∨ t = .point)
    (hc : ∀ c ∈ cs, ∃ n, FitsMeta env c n)
    (hu : cs.Pairwise fun c c' => ∀ n n', FitsMeta env c n → FitsMeta env c' n' →
      KeysApart (worldName, splitName n) (worldName, splitName n'))
    (hnew : ∀ c ∈ cs, ∀ n, FitsMeta env c n → ∀ e' ∈ L, KeysApart e'.1 (worldName, splitName n)) :
    ∃ s', addAllMeta env cs s = (.ok (), s') := by
  induction cs generalizing s L with
  | nil => exact ⟨s, rfl⟩
  | cons c cs ih =>
    obtain ⟨n, hn⟩ := hc c (by simp)
    obtain ⟨s1, h1, hw1⟩ := addMeta_fits hs hw hL hn (hnew c (by simp) n hn)
    obtain ⟨hs1, e, -, hL1, -, hfor, -⟩ := addMeta_ok hs hL (hcol c (by simp)) hser h1
    obtain ⟨hu1, hu2⟩ := List.pairwise_cons.1 hu
    have he : e.1 = (worldName, splitName n) ∧ ¬ ∃ t u tps xs, e.2 = .series t u tps xs := by
      rcases hfor with ⟨h, rfl⟩ | ⟨n', u, x, u', x', h, -, rfl, -⟩
      · rcases hn with ⟨-, rfl⟩ | ⟨_, _, _, h', -⟩
        · exact ⟨rfl, by rintro ⟨_, _, _, _, h⟩; cases h⟩
        · rw [h] at h'; cases h'
      · rcases hn with ⟨h', -⟩ | ⟨_, _, _, h', -⟩
        · rw [h] at h'; cases h'
        · rw [h] at h'; cases h'
          exact ⟨rfl, by rintro ⟨_, _, _, _, h⟩; cases h⟩
    obtain ⟨s2, h2⟩ := ih hs1 hw1 hL1 (fun c hc => hcol c (by simp [hc])) (by
      intro e' he' t u tps xs het
      rcases List.mem_cons.1 he' with rfl | he'
      · exact absurd ⟨t, u, tps, xs, het⟩ he.2
      · exact hser e' (List.mem_filter.1 he').1 t u tps xs het) (fun c' hc' => hc c' (by simp [hc'])) hu2 (by
      intro c' hc' n' hn' e' he'
      rcases List.mem_cons.1 he' with rfl | he'
      · show KeysApart e.1 _
        rw [he.1]
        exact hu1 c' hc' n n' hn hn'
      · exact hnew c' (by simp [hc']) n' hn' e' (List.mem_filter.1 he').1)
    refine ⟨s2, ?_⟩
    show (addMeta env c >>= fun _ => addAllMeta env cs) s = _
    rw [M.bind_ok h1, h2]

theorem ScalarColumn.free {F : DFrame K} {n u : String} (h : ScalarColumn F n u) : '(' ∉ n.toList :=
  fun hx => (h.name _ hx).1 rfl

/-- A column has one name. -/
theorem ColumnName.scalar {F : DFrame K} {n u m : String} (h : ScalarColumn F n u) (hm : ColumnName (n ++ " (" ++ u ++ ")") m) :
    m = n := by
  obtain ⟨h1, rfl | ⟨w, h2⟩⟩ := hm
  · exact absurd (by simp) h1
  · exact (written_name (fun x hx => (h.name x hx).1) (fun x hx => by rintro rfl; exact h1 hx) h2).symm

theorem ColumnName.plain {c m : String} (h : '(' ∉ c.toList) (hm : ColumnName c m) : m = c := by
  obtain ⟨-, rfl | ⟨w, rfl⟩⟩ := hm
  · rfl
  · exact absurd (by simp) h

theorem NumberOf.number {v : PyVal K} {x : Fl K} (h : NumberOf v x) : v.number = .ok x := by
  rcases h with ⟨z, rfl, rfl⟩ | rfl <;> rfl

theorem FitsMeta.name {env : Env K} {F : DFrame K} (hW : F.Written) {c : String × PyVal K} (hc : c.1 ∈ F.cols)
    (hs : c.1 ∉ ofSeries) {n : String} (h : FitsMeta env c n) : ColumnName c.1 n := by
  rcases hW c.1 hc hs with hp | ⟨m, u, he, hm⟩
  · rcases h with ⟨-, rfl⟩ | ⟨_, _, _, h, -⟩
    · exact ⟨hp, .inl rfl⟩
    · rw [scalarKey_none hp] at h; cases h
  · have hk := scalarKey_exact hm.name hm.unit hm.trimmed.1 hm.trimmed.2
    rw [← he] at hk
    rcases h with ⟨h, -⟩ | ⟨_, _, _, h, -⟩
    · rw [hk] at h; cases h
    · rw [hk] at h; cases h
      exact ⟨hm.free, .inr ⟨_, he⟩⟩

/-! ## C107 -/

/-- C107: such frames can be made into parameter sets. -/
theorem C107_loads {env : Env K} {F : DFrame K} (hT : F.Tidy) (hm : "model" ∈ F.cols)
    (hsc : "scenario" ∈ F.cols) (hW : F.Written) (hl : LoadableAll env F) :
    ∃ s, toParameterset env F (St.init "World") = (.ok (), s) := by
  obtain ⟨ms, hms⟩ := commonMeta_shared hT.ok hl.nonempty hm hsc hl.shared hl.climate
  obtain ⟨s1, L, h1, hw1, hs1, H, hmem, hser⟩ := series_loads hT hl.three hl.row hl.parts
  have hcol : ∀ c ∈ ms, F.HasMeta 0 c.1 c.2 ∧ c.1 ∉ seriesCols := fun c hc => (commonMeta_mem hT.ok hms).1 hc
  have hin : ∀ c ∈ ms, c.1 ∈ F.cols := fun c hc => ((metaAt_iff hT.ok).1 (hcol c hc).1).2.1
  obtain ⟨s2, h2⟩ := addAllMeta_fits (cs := ms) hs1 hw1 H (fun c hc => (hcol c hc).2) hser (by
      intro c hc
      obtain ⟨m1, m2⟩ := hcol c hc
      rcases hW c.1 (hin c hc) m2 with hp | ⟨n, u, he, hsn⟩
      · exact ⟨c.1, .inl ⟨scalarKey_none hp, rfl⟩⟩
      · rw [he] at m1
        obtain ⟨⟨a, hu⟩, x, hx⟩ := hl.scalars n u c.2 hsn m1
        refine ⟨n, .inr ⟨u, a, x, ?_, hu, hx.number⟩⟩
        rw [he]
        exact scalarKey_exact hsn.name hsn.unit hsn.trimmed.1 hsn.trimmed.2) (by
      have hnd : ms.Pairwise fun c c' => c.1 ≠ c'.1 := List.pairwise_map.1 (commonMeta_nodup hT.ok hms)
      refine hnd.imp_of_mem fun {c c'} hc hc' hne n n' hn hn' _ => ?_
      have k := hn.name hW (hin c hc) (hcol c hc).2
      have k' := hn'.name hW (hin c' hc') (hcol c' hc').2
      obtain ⟨q1, q2⟩ := hl.metas _ (hin c hc) _ (hin c' hc') (hcol c hc).2 (hcol c' hc').2 n n' k k'
      obtain ⟨q3, -⟩ := hl.metas _ (hin c' hc') _ (hin c hc) (hcol c' hc').2 (hcol c hc).2 n' n k' k
      refine ⟨fun hp => ?_, fun hp => ?_⟩
      · rcases splitName_prefix.1 hp with h | h
        · exact hne (q2 h)
        · exact q1 h
      · rcases splitName_prefix.1 hp with h | h
        · exact hne (q2 h.symm)
        · exact q3 h) (by
      intro c hc n hn e he hreg
      obtain ⟨d, hd, hr⟩ := hmem e he
      obtain ⟨i, hi⟩ := List.mem_iff_getElem?.1 hd
      obtain ⟨r, v, g, u, t, tps, xs, g1, ⟨a1, a2, _⟩, _, _, rfl⟩ := rowItem_at hT.ok hi hr
      have hw : splitName "World" = worldName := by decide +kernel
      have := splitName_inj (hreg.trans hw.symm)
      subst this
      obtain ⟨q1, q2, q3⟩ := hl.names i v c.1 n a1 a2 (hin c hc) (hcol c hc).2 (hn.name hW (hin c hc) (hcol c hc).2)
      refine ⟨fun hp => ?_, fun hp => ?_⟩
      · rcases splitName_prefix.1 hp with h | h
        · exact q1 h
        · exact q2 h
      · rcases splitName_prefix.1 hp with h | h
        · exact q1 h.symm
        · exact q3 h)
  refine ⟨s2, ?_⟩
  unfold toParameterset
  rw [hms]
  show (addAllSeries env F F.data >>= fun _ => addAllMeta env ms) (St.init "World") = _
  rw [M.bind_ok h1, h2]

/-- C107: and no others. -/
theorem C107_iff {env : Env K} {F : DFrame K} (hT : F.Tidy) (hm : "model" ∈ F.cols)
    (hsc : "scenario" ∈ F.cols) (hW : F.Written) :
    (∃ s, toParameterset env F (St.init "World") = (.ok (), s)) ↔ LoadableAll env F := by
  refine ⟨?_, C107_loads hT hm hsc hW⟩
  rintro ⟨s, hto⟩
  obtain ⟨n1, n2, n3, -⟩ := C105_needs_partial hT hto
  have hd : ∀ d ∈ F.data, ∃ xs : List K, d.2 = xs.map .num := fun d hd => nums_of (hT.nums d hd)
  obtain ⟨hs, L, hL, ha, -, hex, ms, hms, -, hfind, hunit⟩ := toParameterset_holds hT.sorted hd hT.distinct hto
  have hlen : F.data.length = F.meta.length := by simpa using congrArg List.length hT.ok.labels
  have hne : 0 < F.meta.length := by
    unfold DFrame.commonMeta at hms
    cases hmm : F.meta with
    | nil => rw [hmm] at hms; simp at hms
    | cons r rs => simp
  have hne' : F.data ≠ [] := by
    intro h
    rw [h] at hlen
    simp only [List.length_nil] at hlen
    omega
  have hnum : ∀ {n u : String} {v : PyVal K}, ScalarColumn F n u → F.HasMeta 0 (n ++ " (" ++ u ++ ")") v →
      ∃ x, NumberOf v x ∧ ((worldName, splitName n), Item.scalar u x) ∈ L := by
    intro n u v hsn hv
    obtain ⟨x, hx⟩ := C78_number hT.ok hto hsn hv
    exact ⟨x, hx, scalar_kept hT.ok hms hfind hunit hsn hx hv⟩
  -- every column is stored
  have hkept : ∀ c ∈ F.cols, c ∉ ofSeries → ∀ n, ColumnName c n →
      (c = n ∧ ∃ g, ((worldName, splitName n), Item.generic g) ∈ L) ∨
      ∃ u x, c = n ++ " (" ++ u ++ ")" ∧ ScalarColumn F n u ∧ ((worldName, splitName n), Item.scalar u x) ∈ L := by
    intro c hc hcs n hn
    have h0 : F.HasMeta 0 c (F.metaAt 0 c) := (metaAt_iff hT.ok).2 ⟨hne, hc, rfl⟩
    rcases hW c hc hcs with hp | ⟨m, u, rfl, hsn⟩
    · have := hn.plain hp
      subst this
      exact .inl ⟨rfl, _, generic_kept hT.ok hms hfind hp hcs h0⟩
    · have := ColumnName.scalar hsn hn
      subst this
      obtain ⟨x, -, hx⟩ := hnum hsn h0
      exact .inr ⟨u, x, rfl, hsn, hx⟩
  have hitem : ∀ c ∈ F.cols, c ∉ ofSeries → ∀ n, ColumnName c n → ∃ it, ((worldName, splitName n), it) ∈ L ∧
      ∀ t u tps xs, it ≠ Item.series t u tps xs := by
    intro c hc hcs n hn
    rcases hkept c hc hcs n hn with ⟨-, g, hg⟩ | ⟨u, x, -, -, hx⟩
    · exact ⟨_, hg, by simp⟩
    · exact ⟨_, hx, by simp⟩
  have hser : ∀ {i : Nat} {v g : String}, F.HasMeta i "variable" (.str v) → F.HasMeta i "region" (.str g) →
      ∃ t u tps xs, ((splitName g, splitName v), Item.series t u tps xs) ∈ L := by
    intro i v g hv hg
    have hi : i < F.data.length := by
      rw [hlen]; exact ((metaAt_iff hT.ok).1 hv).1
    have hgi := List.getElem?_eq_getElem hi
    obtain ⟨e, he⟩ := hex _ (List.mem_of_getElem? hgi)
    obtain ⟨r, v', g', u, t, tps, xs, h1, ⟨m1, m2, m3, -⟩, h3, -, rfl⟩ := rowItem_at hT.ok hgi he
    have e1 := HasMeta.unique hT.ok hv m1
    have e2 := HasMeta.unique hT.ok hg m2
    cases e1
    cases e2
    exact ⟨t, u, _, xs, (ha (_, Item.series t u _ xs) trivial).2 ⟨_, List.mem_of_getElem? hgi, he⟩⟩
  have hbelow : ∀ {k : List String} {v w : String} {it it' : Item K (PyVal K)}, ((k, splitName v), it) ∈ L →
      ((k, splitName w), it') ∈ L → ¬ NameBelow v w := by
    rintro k v w it it' h1 h2 ⟨n, rfl⟩
    obtain ⟨a, l, hal⟩ := List.exists_cons_of_ne_nil (splitName_ne n)
    exact hL.leaves hs h1 h2 (n := a) (ns := l) rfl (by simp only [splitName_below, hal])
  refine ⟨hne', ?_, n2, n1, n3, fun i x hx => commonMeta_climate hT.ok hms hx, ?_, ?_, ?_⟩
  · obtain ⟨d, hmem⟩ := List.exists_mem_of_ne_nil _ hne'
    obtain ⟨e, he⟩ := hex d hmem
    obtain ⟨r, v, g, u, t, tps, xs, -, -, -, -, hx, rfl⟩ := id he
    obtain ⟨_, P, -, -, -, hin⟩ := hL.items _ ((ha ((splitName g, splitName v), Item.series t u (toK tps) xs) trivial).2 ⟨d, hmem, he⟩)
    rw [← hT.ok.data_len d hmem, hx, List.length_map]
    exact Item.In.three hin
  · intro n u v hsn hv
    obtain ⟨x, hx, hmemL⟩ := hnum hsn hv
    obtain ⟨_, P, -, -, -, -, -, c, y, hc, -⟩ := hL.items _ hmemL
    obtain ⟨a, -, ha, -⟩ := mkConv_iff.1 ⟨c, hc⟩
    exact ⟨⟨a, ha⟩, x, hx⟩
  · intro i v c n hv hg hc hcs hn
    obtain ⟨t, u, tps, xs, h1⟩ := hser hv hg
    obtain ⟨it, h2, hit⟩ := hitem c hc hcs n hn
    have hw : splitName "World" = worldName := by decide +kernel
    rw [hw] at h1
    refine ⟨?_, hbelow h1 h2, hbelow h2 h1⟩
    rintro rfl
    obtain ⟨P, p1, p2⟩ := hL.one hs h1 h2 rfl
    have e1 : P.data = .series (xs.map .num) := p1.2.2.2.2
    cases it with
    | series t u tps xs => exact hit t u tps xs rfl
    | scalar u x =>
      obtain ⟨-, -, c, y, -, hy, -⟩ := p2
      rw [e1] at hy; cases hy
    | generic g =>
      have hy := p2.2
      rw [e1] at hy; cases hy
  · intro c hc c' hc' hcs hcs' n n' hn hn'
    obtain ⟨it, h1, -⟩ := hitem c hc hcs n hn
    obtain ⟨it', h2, -⟩ := hitem c' hc' hcs' n' hn'
    refine ⟨hbelow h1 h2, ?_⟩
    rintro rfl
    have hmix : ∀ {g : PyVal K} {u : String} {x : Fl K}, ((worldName, splitName n), Item.generic g) ∈ L →
        ((worldName, splitName n), Item.scalar u x) ∈ L → False := by
      intro g u x g1 g2
      obtain ⟨P, p1, p2⟩ := hL.one hs g1 g2 rfl
      have e1 := p1.1
      have e2 := p2.1
      rw [e1] at e2; cases e2
    rcases hkept c hc hcs n hn with ⟨rfl, g, hg⟩ | ⟨u, x, rfl, hsn, hx⟩ <;>
      rcases hkept c' hc' hcs' _ hn' with ⟨rfl, g', hg'⟩ | ⟨u', x', rfl, hsn', hx'⟩
    · rfl
    · exact (hmix hg hx').elim
    · exact (hmix hg' hx).elim
    · refine (hsn'.only _ hc ⟨[], [' '], u.toList ++ [')'], ?_, ?_⟩)
      · intro y hy
        simp only [List.nil_append, List.mem_singleton] at hy
        subst hy
        decide
      · simp

/-- C107: such a frame can be taken there and back; nothing is lost, gained or changed, and all metadata is there again,
scalars as floats. -/
theorem C107_round {env : Env K} {F : DFrame K} (hT : F.Plain) (hm : "model" ∈ F.cols)
    (hsc : "scenario" ∈ F.cols) (hW : F.Written) (hl : LoadableAll env F) (model scenario climate : String) :
    ∃ s F' s', toParameterset env F (St.init "World") = (.ok (), s) ∧
      convertToFrame env F.times model scenario climate s = (.ok F', s') ∧ F'.times = F.times ∧
      (∀ v g u vals, (∃ i, F'.IsRow i v g u vals) ↔ ∃ i, F.IsRow i v g u vals) ∧
      (∀ c v, '(' ∉ c.toList → c ∉ ofSeries → F.HasMeta 0 c v → ∀ j < F'.data.length, F'.HasMeta j c v) ∧
      ∀ n u v, ScalarColumn F n u → F.HasMeta 0 (n ++ " (" ++ u ++ ")") v → ∃ x, NumberOf v x ∧
        ∀ j < F'.data.length, F'.HasMeta j (n ++ " (" ++ u ++ ")") (.flt x) := by
  obtain ⟨s, hto⟩ := C107_loads hT.toTidy hm hsc hW hl
  obtain ⟨d, hmem⟩ := List.exists_mem_of_ne_nil _ hl.nonempty
  obtain ⟨i, hi⟩ := List.mem_iff_getElem?.1 hmem
  obtain ⟨v, g, u, a, n1, n2, n3, -⟩ := hl.row i (List.getElem?_eq_some_iff.1 hi).1
  obtain ⟨F', s', h1, h2, h3, -⟩ := (C57_exact_partial hT.toTidy hto model scenario climate).1
    ⟨i, v, g, u, _, ⟨n1, n2, n3, d, hi, rfl⟩, hT.shallow i g n2⟩
  refine ⟨s, F', s', hto, h1, h2, fun v g u vals => (h3 v g u vals).trans ⟨And.left, fun h => ⟨h, ?_⟩⟩,
    fun c v hp hc hv => C78_generic hT.toTidy hto h1 hp hc hv, fun n u v hs hv => ?_⟩
  · obtain ⟨j, -, hg, -⟩ := h
    exact hT.shallow j g hg
  · obtain ⟨-, x, hx⟩ := hl.scalars n u v hs hv
    exact ⟨x, hx, C78_scalar hT.toTidy hto h1 hs hx hv⟩

/-! ## Examples -/

theorem rtF_written (r : String) : (rtF r).Written := by
  intro c hc hcs
  by_cases h : '(' ∈ c.toList
  · right
    have : ∀ c ∈ (rtF "").cols, '(' ∈ c.toList → c = "S" ++ " (" ++ "K" ++ ")" := by decide +kernel
    exact ⟨"S", "K", this c hc h, rtF_scalar r⟩
  · exact .inl h

/-- The frame of C57 meets the hypotheses of `C107_loads`, `C107_iff` and `C107_round`. -/
example : (rtF "World|x").Plain ∧ "model" ∈ (rtF "World|x").cols ∧ "scenario" ∈ (rtF "World|x").cols ∧
    (rtF "World|x").Written ∧ LoadableAll demoEnv (rtF "World|x") ∧ ScalarColumn (rtF "World|x") "S" "K" :=
  ⟨rtF_plain, by decide +kernel, by decide +kernel, rtF_written _,
    (C107_iff rtF_plain.toTidy (by decide +kernel) (by decide +kernel) (rtF_written _)).1
      ⟨_, Prod.ext (by decide +kernel : (toParameterset demoEnv (rtF "World|x") (St.init "World")).1 = .ok ()) rfl⟩,
    rtF_scalar _⟩

/-- The same frame with another name for the column of the scalar. -/
def rtNamed (c : String) : DFrame ℚ :=
  { rtF "World|x" with cols := (rtF "World|x").cols.map fun d => if d = "S (K)" then c else d }

/-- A unit that nothing defines; a scalar with the name of other metadata, above it, and with that of a variable. -/
example : (toParameterset demoEnv (rtNamed "S (furlong)") (St.init "World")).1 = .error .undefinedUnit ∧
    (toParameterset demoEnv (rtNamed "note (K)") (St.init "World")).1 = .error .parameterType ∧
    (toParameterset demoEnv (rtNamed "note|x (K)") (St.init "World")).1 ≠ .ok () ∧
    (toParameterset demoEnv (rtNamed "S2 (mK)") (St.init "World")).1 = .ok () := by
  decide +kernel

/-- Two columns for one scalar, `S (K)` and `S (mK)`, are not refused: the last one counts, and only the unit of the
first is in the frame. (This is outside of `Written`.) -/
theorem C107_twice : (backAgain
    { rtF "World|x" with
      cols := (rtF "World|x").cols.map fun d => if d = "note" then "S (mK)" else d
      «meta» := (rtF "World|x").meta.map fun r => (r.1, r.2.set 7 (.int 5)) }).map
    (fun F => (F.metaAt 0 "S (K)", decide ("S (mK)" ∈ F.cols))) = .ok (.flt (.num (1 / 200)), false) := by
  decide +kernel

end Openscm
