import Verif.FrameNeeds
import Verif.CoreKinds

/-!
# C106: which frames do become parameter sets

The other direction of C105, for `to_parameterset` (`openscm/scmdataframe/base.py:453-534`): frames of which the names
do not clash are loaded.
-/

set_option linter.unusedSectionVars false

namespace Openscm

variable {K : Type} [Field K] [LinearOrder K] [IsStrictOrderedRing K] {G : Type}

/-! ## Specification -/

/-- What a frame has to be like, if the names of its metadata have no parentheses. -/
structure Loadable (env : Env K) (F : DFrame K) : Prop where
  nonempty : F.data ≠ []
  three : 3 ≤ F.times.length
  /-- Variables, regions, units and types are known. -/
  row : ∀ i < F.data.length, ∃ v g u a, F.HasMeta i "variable" (.str v) ∧ F.HasMeta i "region" (.str g) ∧
    F.HasMeta i "unit" (.str u) ∧ (g = "World" ∨ NameBelow "World" g) ∧ env.units u = some a ∧
    ("parameter_type" ∈ F.cols → ∃ t p, F.HasMeta i "parameter_type" (.str t) ∧ MeansType (.str t) p)
  /-- There are no totals of something that is there as well. -/
  parts : ∀ i j v w g, F.HasMeta i "variable" (.str v) → F.HasMeta j "variable" (.str w) → F.HasMeta i "region" (.str g) →
    F.HasMeta j "region" (.str g) → ¬ NameBelow v w
  /-- All other metadata is shared. -/
  shared : ∀ i j c x y, c ∉ ofSeries → F.HasMeta i c x → F.HasMeta j c y → SameValue x y
  /-- It is not the output of a model. -/
  climate : ∀ i x, F.HasMeta i "climate_model" x → x = .str "unspecified"
  /-- Names of metadata do not clash with variables. -/
  names : ∀ i v c x, F.HasMeta i "variable" (.str v) → F.HasMeta i "region" (.str "World") → c ∉ ofSeries →
    F.HasMeta i c x → v ≠ c ∧ ¬ NameBelow v c ∧ ¬ NameBelow c v
  /-- Nor with each other. -/
  metas : ∀ c ∈ F.cols, ∀ c' ∈ F.cols, c ∉ ofSeries → c' ∉ ofSeries → ¬ NameBelow c c'

/-! ## Facts -/

/-- A walk is not refused where nothing on its way was read from. -/
theorem walkParams_free {env : Env K} {s : St K G} (hi : Inv env s) {a m ns : List String} {p : Nat}
    (hk : HasKey s p (a, m))
    (H : ∀ q Q k, HasKey s q (a, k) → s.params[q]? = some Q → k <+: m ++ ns → k ≠ m ++ ns → Q.readFrom = false) :
    ∃ c, (walkParams p ns s).1 = .ok c := by
  induction ns generalizing p m with
  | nil => exact ⟨p, rfl⟩
  | cons n ns ih =>
    obtain ⟨P, hp, -⟩ := id hk
    have hr : P.readFrom = false := H p P m hk hp ⟨n :: ns, rfl⟩ (by simp)
    rw [walkParams]
    rcases childParam_cases p n s with ⟨e, _⟩ | ⟨P', e, h⟩
    · rw [hp] at e; cases e
    · rw [hp] at e; cases e
      rcases h with ⟨c, e, h⟩ | ⟨_, e, _⟩ | ⟨_, _, e, _⟩ | ⟨_, _, _, s', e, _, _, hf, _⟩
      · rw [M.bind_ok h]
        have hc : HasKey s c (a, m ++ [n]) := (child_key hi.tree hk hp n c).2 (lookup_mem e)
        exact ih hc fun q Q k h1 h2 h3 h4 => H q Q k h1 h2 (by simpa using h3) (by simpa using h4)
      · rw [((hi.good.params p P hp).1 e).2] at hr; cases hr
      · rw [hr] at e; cases e
      · rw [M.bind_ok e]; exact walkParams_fresh _ _ _ hf

/-- Everything that is known is above something that is stored. -/
theorem Holds.below {env : Env K} {s : St K G} (hs : Reachable env s) {L : List (Key × Item K G)}
    (h : Holds env s L (fun _ _ => False)) {p : Nat} {k : Key} (hk : HasKey s p k) :
    ∃ it ks, ((k.1, k.2 ++ ks), it) ∈ L := by
  have t := hs.inv.tree
  have : ∀ (n p : Nat) (k : Key), s.params.length - p ≤ n → HasKey s p k → ∃ it ks, ((k.1, k.2 ++ ks), it) ∈ L := by
    intro n
    induction n with
    | zero =>
      intro p k hn hk
      obtain ⟨P, hp, -⟩ := id hk
      have := (List.getElem?_eq_some_iff.1 hp).1
      omega
    | succ n ih =>
      intro p k hn hk
      obtain ⟨P, hp, -⟩ := id hk
      by_cases hc : P.children = []
      · obtain ⟨ty, hty⟩ := Option.ne_none_iff_exists'.1 (h.leaf p P hp hc)
        rcases h.typed p P k ty hk hp hty with ⟨it, hit⟩ | hf
        · exact ⟨it, [], by simpa using hit⟩
        · exact hf.elim
      · obtain ⟨⟨m, c⟩, hm⟩ := List.exists_mem_of_ne_nil _ hc
        have hlt := (t.pchild p P m c hp hm).1
        have hpl := (List.getElem?_eq_some_iff.1 hp).1
        obtain ⟨it, ks, hit⟩ := ih c (Key.child k m) (by omega) ((child_key t hk hp m c).2 hm)
        exact ⟨it, m :: ks, by simpa [Key.child] using hit⟩
  exact this _ p k le_rfl hk

/-- Names that do not clash with anything that is stored can be requested, and are new. -/
theorem reach_free {env : Env K} {s : St K G} (hs : Reachable env s) {L : List (Key × Item K G)}
    (h : Holds env s L (fun _ _ => False)) {name region : HName} (hroot : region.parts.head? = some (rootName s))
    (hn : name.parts ≠ [])
    (hfree : ∀ k it, ((region.parts, k), it) ∈ L → ¬ k <+: name.parts ∧ ¬ name.parts <+: k) :
    ∃ p s1 P, reach name region s = (.ok p, s1) ∧ Inv env s1 ∧ s1.params[p]? = some P ∧ P.ptype = none ∧
      P.children = [] := by
  have hi := hs.inv
  have hq := quiet_reach (K := K) (G := G) env name region s
  have hi2 := hq.inv hi
  have hread : ∀ (q : Nat) (Q : Param K G), s.params[q]? = some Q → Q.readFrom = true → ∃ k it, HasKey s q k ∧ (k, it) ∈ L := by
    intro q Q hQ hr
    obtain ⟨k, hk⟩ := HasKey.exists hi.tree hQ
    cases ht : Q.ptype with
    | none =>
      have := (hi.good.params q Q hQ).2
      rw [ht] at this
      rw [this.1] at hr; cases hr
    | some t =>
      rcases h.typed q Q k t hk hQ ht with ⟨it, hit⟩ | hf
      · exact ⟨k, it, hk, hit⟩
      · exact hf.elim
  have hok : ∃ c, (reach name region s).1 = .ok c := by
    rcases reach_spec hi name region with ⟨h1 | h1, -⟩ | ⟨-, -, h1⟩
    · exact absurd hroot h1
    · exact absurd h1 hn
    obtain ⟨r, s1, h1, h2, h3⟩ := getOrCreateRegion_good hi hroot
    have hq1 := quiet_getOrCreateRegion (K := K) (G := G) env region s
    rw [h1] at hq1
    have hi1 := hq1.inv hi
    have e : reach name region s = getOrCreateParam name r s1 := by
      show (getOrCreateRegion region >>= fun r => getOrCreateParam name r) s = _
      rw [M.bind_ok h1]
    rw [e]
    cases hnp : name.parts with
    | nil => exact absurd hnp hn
    | cons n ns =>
      have e2 : getOrCreateParam name r s1 = (rootParam r n >>= fun p => walkParams p ns) s1 := by
        unfold getOrCreateParam; simp only [hnp]
      rw [e2]
      obtain ⟨R, hR⟩ := h2.valid
      cases hl : R.params.lookup n with
      | some p =>
        have e3 : rootParam r n s1 = (.ok p, s1) := by unfold rootParam; simp only [hR, hl]
        rw [M.bind_ok e3]
        have hf : findParam s1 r (.seq [n]) = .ok (some p) := by
          simp [findParam, HName.truthy, HName.parts, hR, hl, findSubparam]
        have hk := (findParam_name hi1.tree h2 (.seq [n]) (by simp [HName.truthy])
          (by simp [HName.parts]) p).1 hf
        refine walkParams_free hi1 hk fun q Q k g1 g2 g3 _ => ?_
        by_contra hr
        have hr : Q.readFrom = true := by simpa using hr
        rw [h3] at g2
        obtain ⟨k', it, hk', hit⟩ := hread q Q g2 hr
        have := (hq1.key hi hk').det g1
        subst this
        exact (hfree k it hit).1 (by rw [hnp]; simpa [HName.parts] using g3)
      | none =>
        have e3 : ∃ s2, rootParam r n s1 = (.ok s1.params.length, s2) ∧ s2 = { s1 with
            regions := s1.regions.modify r
              (fun R => { R with params := R.params ++ [(n, s1.params.length)] })
            params := s1.params ++ [newParam n r none] } := by
          refine ⟨_, ?_, rfl⟩
          unfold rootParam; simp only [hR, hl]
        obtain ⟨s2, e3, e4⟩ := e3
        rw [M.bind_ok e3]
        have hx : s2.params[s1.params.length]? = some (newParam n r none) := by subst e4; simp
        exact walkParams_fresh s1.params.length ns s2 ⟨_, hx, rfl, rfl, rfl⟩
  obtain ⟨p, hp⟩ := hok
  rcases reach_spec hi name region with ⟨h1 | h1, -⟩ | ⟨-, -, ⟨h1, -⟩ | ⟨p', h1, hk, hnew⟩⟩
  · exact absurd hroot h1
  · exact absurd h1 hn
  · rw [hp] at h1; simp at h1
  rw [hp] at h1; cases h1
  have hold : ∀ q, HasKey (reach name region s).2 q (region.parts, name.parts) → s.params[q]? = none := by
    intro q hq'
    cases hQ : s.params[q]? with
    | none => rfl
    | some Q =>
      obtain ⟨k, hk'⟩ := HasKey.exists hi.tree hQ
      have := (hq.key hi hk').det hq'
      subst this
      obtain ⟨it, ks, hit⟩ := h.below hs hk'
      exact absurd ⟨ks, rfl⟩ (hfree _ it hit).2
  obtain ⟨P, hP, -⟩ := id hk
  refine ⟨p, (reach name region s).2, P, Prod.ext hp rfl, hi2, hP, ?_, ?_⟩
  · rcases typeFr_reach name region s p P hP with h | ⟨Q, hQ, -⟩
    · exact h
    · rw [hold p hk] at hQ; cases hQ
  · by_contra hc
    obtain ⟨⟨m, c⟩, hm⟩ := List.exists_mem_of_ne_nil _ hc
    have hck := (child_key hi2.tree hk hP m c).2 hm
    cases hC : s.params[c]? with
    | none =>
      have := (hnew c hC _ hck).2.length_le
      simp [Key.child] at this
    | some C =>
      obtain ⟨k, hk'⟩ := HasKey.exists hi.tree hC
      have e := (hq.key hi hk').det hck
      subst e
      obtain ⟨it, ks, hit⟩ := h.below hs hk'
      exact absurd ⟨m :: ks, by simp⟩ (hfree (name.parts ++ [m] ++ ks) it hit).2

/-- A timeseries of which the name does not clash can be added. -/
theorem timeseries_free {env : Env K} {s : St K G} (hs : Reachable env s) {L : List (Key × Item K G)}
    (h : Holds env s L (fun _ _ => False)) {name region : HName} (hroot : region.parts.head? = some (rootName s))
    (hn : name.parts ≠ [])
    (hfree : ∀ k it, ((region.parts, k), it) ∈ L → ¬ k <+: name.parts ∧ ¬ name.parts <+: k)
    {u : String} {a : UDef K} (hu : env.units u = some a) {t : PType} (ht : t = .average ∨ t = .point)
    {tps : List K} (htps : tps.Pairwise (· < ·)) {xs : List K} (h3 : 3 ≤ xs.length) (hl : pointsLength t tps = xs.length) :
    ∃ i s1 s2, call env (.timeseries name u tps region (.enum t) (.enum .linear) (.enum .none)) s = (.ok (.view i), s1) ∧
      call env (.tSet i (.floats (xs.map .num))) s1 = (.ok .done, s2) := by
  obtain ⟨p, s1, P, e1, -, hP, hty, hc⟩ := reach_free hs h hroot hn hfree
  have h2 : ∃ t0 t1 tr, tps = t0 :: t1 :: tr := by
    match tps, hl with
    | [], hl => rcases ht with rfl | rfl <;> simp [pointsLength] at hl <;> omega
    | [_], hl => rcases ht with rfl | rfl <;> simp [pointsLength] at hl <;> omega
    | t0 :: t1 :: tr, _ => exact ⟨t0, t1, tr, rfl⟩
  obtain ⟨t0, t1, tr, rfl⟩ := h2
  have hlt : t0 < t1 := (List.pairwise_cons.1 htps).1 t1 (by simp)
  set tps := t0 :: t1 :: tr with htp
  obtain ⟨d, hd⟩ : ∃ d, firstRead P t (some u) (some tps) =
      ({ P with unit := some u, ptype := some t, data := d, tps := some tps }, none) := by
    rcases ht with rfl | rfl
    · exact ⟨_, rfl⟩
    · exact ⟨_, rfl⟩
  set P' : Param K G := { P with unit := some u, ptype := some t, data := d, tps := some tps, readFrom := true } with hP'
  have e2 : attemptRead p t (some u) (some tps) s1 = (.ok (), s1.setParam p fun _ => P') := by
    unfold attemptRead
    simp only [hP, hty, hd]
    rfl
  have hp2 : (s1.setParam p fun _ => P').params[p]? = some P' := by
    rw [setParam_self, hP]; rfl
  obtain ⟨c, hcv⟩ : ∃ c, mkConv env.units u u = .ok c := mkConv_iff.2 ⟨a, a, hu, hu, rfl⟩
  set l : TLeaf K := { param := p, conv := c, ts := ⟨tps, tps, t, .none⟩, data := none, version := none } with hl'
  set v : TView K := { leaf := l, «locked» := false, writable := false, kids := none } with hv
  have e3 : mkTView env (s1.setParam p fun _ => P') p u tps t .none = .ok v := by
    have hcv : mkConvOpt env.units (some u) u = .ok c := hcv
    have hts : mkTSConv tps tps t .none = .ok ⟨tps, tps, t, .none⟩ := by
      rw [htp]; unfold mkTSConv; simp only; rw [if_neg (not_lt.2 hlt.le)]
    have hlf : mkTLeaf env (s1.setParam p fun _ => P') u tps t .none p = .ok v.leaf := by
      unfold mkTLeaf
      simp only [hp2]
      show (match mkConvOpt env.units (some u) u with | .error e => _ | .ok c => _) = _
      rw [hcv]
      show (match mkTSConv tps tps t .none with | .error e => _ | .ok c => _) = _
      rw [hts]
    unfold mkTView
    simp only [hp2, hlf]
    rw [if_pos (show P'.children = [] from hc)]
  set s2 := s1.setParam p fun _ => P' with hs2
  have hcall : call env (.timeseries name u tps region (.enum t) (.enum .linear) (.enum .none)) s =
      (.ok (.view s2.tviews.length), { s2 with tviews := s2.tviews ++ [v] }) := by
    have hpt : (TyArg.enum t).parse = .ok t := by rcases ht with rfl | rfl <;> rfl
    show (timeseriesCall env name u tps region (.enum t) (.enum .linear) (.enum .none) >>= fun i => pure (Out.view i)) s = _
    have : timeseriesCall env name u tps region (.enum t) (.enum .linear) (.enum .none) s =
        (.ok s2.tviews.length, { s2 with tviews := s2.tviews ++ [v] }) := by
      unfold timeseriesCall
      rw [hpt]
      show (reach name region >>= _) s = _
      rw [M.bind_ok e1, M.bind_ok e2]
      have e4 : (M.value fun s => mkTView env s p u tps t .none) s2 = (.ok v, s2) := by
        show (mkTView env s2 p u tps t .none, s2) = _
        rw [e3]
      show ((M.value fun s => mkTView env s p u tps t .none) >>= _) s2 = _
      rw [M.bind_ok e4]
      rfl
    rw [M.bind_ok this]
    rfl
  have hi4 := (hs.call (.timeseries name u tps region (.enum t) (.enum .linear) (.enum .none))).inv
  rw [hcall] at hi4
  simp only at hi4
  set s4 : St K G := { s2 with tviews := s2.tviews ++ [v] } with hs4
  have hvi : s4.tviews[s2.tviews.length]? = some v := by
    show (s2.tviews ++ [v])[s2.tviews.length]? = some v
    simp
  have hp4 : s4.params[v.leaf.param]? = some P' := hp2
  refine ⟨_, s4, (setValues s2.tviews.length (.floats (xs.map .num)) s4).2, hcall, ?_⟩
  rw [tSet_eq, setValues_write hi4 hvi hp4 hc (d := .floats (xs.map .num)) (by
    show (xs.map Fl.num).length = pointsLength t tps
    rw [hl, List.length_map]) rfl]
  have hm := marked_param (s := s4) (i := s2.tviews.length) hp4
  have hw := writeT_cases (i := s2.tviews.length) (cached_view (d := .floats (xs.map .num)) (marked_view hvi)) rfl
    (P := { P' with written := true }) hm
  cases hw' : writeT s2.tviews.length (cached (marked s4 s2.tviews.length v) s2.tviews.length (.floats (xs.map .num))) with
  | mk res s' =>
    rw [hw'] at hw
    cases hw with
    | locked h => cases h
    | refused h e he =>
      exfalso
      unfold published at he
      have hmap : (Arr.floats (xs.map Fl.num)).vals.map (Fl.map c.convertTo) =
          (xs.map c.convertTo).map Fl.num := by
        simp [Arr.vals, Fl.map]
      have := (C22_converter_identity (⟨tps, tps, t, .none⟩ : TSConv K) (xs.map c.convertTo) (by simpa using h3) rfl
        ht.symm (by rw [List.length_map]; exact hl) htps).2
      rw [hmap] at he
      have he' : TSConv.convertTo ⟨tps, tps, t, .none⟩ ((xs.map c.convertTo).map Fl.num) = .error e := he
      rw [this] at he'
      cases he'
    | stored h l he => rfl

/-- And so can metadata. -/
theorem generic_free {env : Env K} {s : St K G} (hs : Reachable env s) {L : List (Key × Item K G)}
    (h : Holds env s L (fun _ _ => False)) {name region : HName} (hroot : region.parts.head? = some (rootName s))
    (hn : name.parts ≠ [])
    (hfree : ∀ k it, ((region.parts, k), it) ∈ L → ¬ k <+: name.parts ∧ ¬ name.parts <+: k) (g : G) :
    ∃ i s1 s2, call env (.generic name region) s = (.ok (.view i), s1) ∧ call env (.gSet i g) s1 = (.ok .done, s2) := by
  obtain ⟨p, s1, P, e1, -, hP, hty, hc⟩ := reach_free hs h hroot hn hfree
  set P' : Param K G := { P with unit := none, ptype := some .generic, data := .generic none, readFrom := true } with hP'
  have e2 : attemptRead p .generic none none s1 = (.ok (), s1.setParam p fun _ => P') := by
    unfold attemptRead firstRead
    simp only [hP, hty, if_pos hc]
    rfl
  have hp2 : (s1.setParam p fun _ => P').params[p]? = some P' := by
    rw [setParam_self, hP]; rfl
  set s2 := s1.setParam p fun _ => P' with hs2
  have hcall : call env (.generic name region) s =
      (.ok (.view s2.gviews.length), { s2 with gviews := s2.gviews ++ [⟨p, false⟩] }) := by
    show (genericCall name region >>= fun i => pure (Out.view i)) s = _
    have : genericCall name region s = (.ok s2.gviews.length, { s2 with gviews := s2.gviews ++ [⟨p, false⟩] }) := by
      unfold genericCall
      rw [M.bind_ok e1, M.bind_ok e2]
      rfl
    rw [M.bind_ok this]
    rfl
  have hi4 := (hs.call (.generic name region)).inv
  rw [hcall] at hi4
  simp only at hi4
  set s4 : St K G := { s2 with gviews := s2.gviews ++ [⟨p, false⟩] } with hs4
  have hvi : s4.gviews[s2.gviews.length]? = some ⟨p, false⟩ := by
    show (s2.gviews ++ [_])[s2.gviews.length]? = _
    simp
  exact ⟨_, s4, _, hcall, gSet_leaf hi4 hvi hp2 hc⟩

/-- The hierarchies of two names do not clash. -/
def KeysApart (k k' : Key) : Prop := k.1 = k'.1 → ¬ k.2 <+: k'.2 ∧ ¬ k'.2 <+: k.2

theorem KeysApart.ne {k k' : Key} (h : KeysApart k k') : k ≠ k' := by
  rintro rfl
  exact (h rfl).1 List.prefix_rfl

theorem KeysApart.symm {k k' : Key} (h : KeysApart k k') : KeysApart k' k := fun e => (h e.symm).symm

theorem joinName_append {a b : List String} (ha : a ≠ []) (hb : b ≠ []) :
    joinName (a ++ b) = joinName a ++ "|" ++ joinName b := by
  apply String.toList_inj.1
  simp only [joinName, String.toList_append, String.toList_ofList, List.map_append]
  rw [show "|".toList = [sepChar] from rfl]
  induction a with
  | nil => exact absurd rfl ha
  | cons x a ih =>
    cases a with
    | nil =>
      cases b with
      | nil => exact absurd rfl hb
      | cons y b => simp [List.intercalate_cons_cons]
    | cons z a =>
      have := ih (by simp)
      simp only [List.map_cons, List.cons_append, List.intercalate_cons_cons, List.append_assoc] at this ⊢
      rw [this]

theorem splitName_prefix {v w : String} : splitName v <+: splitName w ↔ v = w ∨ NameBelow v w := by
  constructor
  · rintro ⟨ks, h⟩
    have hw := C17_join_split w
    rw [← h] at hw
    by_cases hk : ks = []
    · subst hk
      rw [List.append_nil, C17_join_split] at hw
      exact .inl hw
    · rw [joinName_append (splitName_ne v) hk, C17_join_split] at hw
      exact .inr ⟨_, hw.symm⟩
  · rintro (rfl | ⟨t, rfl⟩)
    · exact List.prefix_rfl
    · rw [splitName_below]
      exact ⟨_, rfl⟩

/-- What a timeseries must be like to be stored. -/
def FitsSeries (env : Env K) (e : Key × Item K (PyVal K)) : Prop :=
  e.1.1.head? = some "World" ∧ ∃ t u tps xs a, e.2 = .series t u tps xs ∧ (t = .average ∨ t = .point) ∧
    env.units u = some a ∧ 3 ≤ xs.length ∧ pointsLength t tps = xs.length

theorem addSeries_free {env : Env K} {F : DFrame K} {d : Nat × List (Fl K)} {s : St K (PyVal K)}
    (hs : Reachable env s) (hw : rootName s = "World") {L : List (Key × Item K (PyVal K))}
    (hL : Holds env s L (fun _ _ => False)) (hT : F.times.Pairwise (· < ·)) {e : Key × Item K (PyVal K)}
    (hrow : RowItem env F d e) (hfit : FitsSeries env e) (hnew : ∀ e' ∈ L, KeysApart e'.1 e.1) :
    ∃ s', addSeries env F d s = (.ok (), s') ∧ rootName s' = "World" := by
  obtain ⟨r, v, g, u, t, tps, xs, h1, h2, h3, h4, h5, rfl⟩ := hrow
  obtain ⟨f1, t', u', tps', xs', a, f2, f3, f4, f5, f6⟩ := hfit
  cases f2
  obtain ⟨i, s1, s2, c1, c2⟩ := timeseries_free hs hL (name := .str v) (region := .str g) (by rw [hw]; exact f1)
    (splitName_ne v) (fun k it hk => hnew _ hk rfl) f4 f3 (toK_sorted (seriesPoints_sorted hT h4)) f5 f6
  refine ⟨s2, ?_, ?_⟩
  · unfold addSeries
    simp only [h1, h2, h3, h4]
    rw [M.bind_ok c1]
    simp only
    rw [h5, M.bind_ok c2]
    rfl
  · have e1 : s1 = (call env (.timeseries (.str v) u (toK tps) (.str g) (.enum t) (.enum .linear) (.enum .none)) s).2 := by
      rw [c1]
    have e2 : s2 = (call env (.tSet i (.floats (xs.map .num))) s1).2 := by rw [c2]
    have hs1 : Reachable env s1 := by rw [e1]; exact hs.call _
    rw [e2, rootName_ext hs1.inv.tree (call_rext _ hs1.inv), e1, rootName_ext hs.inv.tree (call_rext _ hs.inv), hw]

theorem addAllSeries_free {env : Env K} {F : DFrame K} {ds : List (Nat × List (Fl K))} {s : St K (PyVal K)}
    (hs : Reachable env s) (hw : rootName s = "World") {L : List (Key × Item K (PyVal K))}
    (hL : Holds env s L (fun _ _ => False)) (hT : F.times.Pairwise (· < ·))
    (hex : ∀ d ∈ ds, ∃ e, RowItem env F d e) (hfit : ∀ d ∈ ds, ∀ e, RowItem env F d e → FitsSeries env e)
    (hu : ds.Pairwise fun d d' => ∀ e e', RowItem env F d e → RowItem env F d' e' → KeysApart e.1 e'.1)
    (hnew : ∀ d ∈ ds, ∀ e, RowItem env F d e → ∀ e' ∈ L, KeysApart e'.1 e.1) :
    ∃ s', addAllSeries env F ds s = (.ok (), s') ∧ rootName s' = "World" := by
  induction ds generalizing s L with
  | nil => exact ⟨s, rfl, hw⟩
  | cons d ds ih =>
    obtain ⟨e, he⟩ := hex d (by simp)
    obtain ⟨s1, h1, hw1⟩ := addSeries_free hs hw hL hT he (hfit d (by simp) e he) (hnew d (by simp) e he)
    obtain ⟨_, _, _, _, _, _, xs, _, _, _, _, hxs, -⟩ := id he
    obtain ⟨hs1, e', he', hL1⟩ := addSeries_ok hs hL hT ⟨xs, hxs⟩ (fun e he e' he' => (hnew d (by simp) e he e' he').ne) h1
    obtain ⟨hu1, hu2⟩ := List.pairwise_cons.1 hu
    obtain ⟨s2, h2, hw2⟩ := ih hs1 hw1 hL1 (fun d hd => hex d (by simp [hd])) (fun d hd => hfit d (by simp [hd])) hu2 (by
      intro d' hd' e1 he1 e2 he2
      rcases List.mem_cons.1 he2 with rfl | he2
      · exact hu1 d' hd' _ _ he' he1
      · exact hnew d' (by simp [hd']) e1 he1 e2 he2)
    refine ⟨s2, ?_, hw2⟩
    show (addSeries env F d >>= fun _ => addAllSeries env F ds) s = _
    rw [M.bind_ok h1, h2]

theorem addMeta_free {env : Env K} {c : String × PyVal K} {s : St K (PyVal K)}
    (hs : Reachable env s) (hw : rootName s = "World") {L : List (Key × Item K (PyVal K))}
    (hL : Holds env s L (fun _ _ => False)) (hc : scalarKey c.1 = none)
    (hnew : ∀ e' ∈ L, KeysApart e'.1 (worldName, splitName c.1)) :
    ∃ s', addMeta env c s = (.ok (), s') ∧ rootName s' = "World" := by
  obtain ⟨i, s1, s2, c1, c2⟩ := generic_free hs hL (name := .str c.1) (region := .seq worldName) (by rw [hw]; rfl)
    (splitName_ne c.1) (fun k it hk => hnew _ hk rfl) c.2
  refine ⟨s2, ?_, ?_⟩
  · unfold addMeta
    simp only [hc]
    rw [M.bind_ok c1]
    simp only
    rw [M.bind_ok c2]
    rfl
  · have e1 : s1 = (call env (.generic (.str c.1) (.seq worldName)) s).2 := by rw [c1]
    have e2 : s2 = (call env (.gSet i c.2) s1).2 := by rw [c2]
    have hs1 : Reachable env s1 := by rw [e1]; exact hs.call _
    rw [e2, rootName_ext hs1.inv.tree (call_rext _ hs1.inv), e1, rootName_ext hs.inv.tree (call_rext _ hs.inv), hw]

theorem addAllMeta_free {env : Env K} {cs : List (String × PyVal K)} {s : St K (PyVal K)}
    (hs : Reachable env s) (hw : rootName s = "World") {L : List (Key × Item K (PyVal K))}
    (hL : Holds env s L (fun _ _ => False)) (hcol : ∀ c ∈ cs, c.1 ∉ seriesCols)
    (hser : ∀ e ∈ L, ∀ t u tps xs, e.2 = .series t u tps xs → t = .average ∨ t = .point)
    (hc : ∀ c ∈ cs, scalarKey c.1 = none)
    (hu : cs.Pairwise fun c c' => KeysApart (worldName, splitName c.1) (worldName, splitName c'.1))
    (hnew : ∀ c ∈ cs, ∀ e' ∈ L, KeysApart e'.1 (worldName, splitName c.1)) :
    ∃ s', addAllMeta env cs s = (.ok (), s') := by
  induction cs generalizing s L with
  | nil => exact ⟨s, rfl⟩
  | cons c cs ih =>
    obtain ⟨s1, h1, hw1⟩ := addMeta_free hs hw hL (hc c (by simp)) (hnew c (by simp))
    obtain ⟨hs1, e, -, hL1, -, hfor, -⟩ := addMeta_ok hs hL (hcol c (by simp)) hser h1
    obtain ⟨hu1, hu2⟩ := List.pairwise_cons.1 hu
    have he : e = ((worldName, splitName c.1), .generic c.2) := by
      rcases hfor with ⟨-, rfl⟩ | ⟨n, u, x, u', x', h, -⟩
      · rfl
      · rw [hc c (by simp)] at h; cases h
    subst he
    obtain ⟨s2, h2⟩ := ih hs1 hw1 hL1 (fun c hc => hcol c (by simp [hc])) (by
      intro e he t u tps xs het
      rcases List.mem_cons.1 he with rfl | he
      · cases het
      · exact hser e (List.mem_filter.1 he).1 t u tps xs het) (fun c' hc' => hc c' (by simp [hc'])) hu2 (by
      intro c' hc' e he
      rcases List.mem_cons.1 he with rfl | he
      · exact hu1 c' hc'
      · exact hnew c' (by simp [hc']) e (List.mem_filter.1 he).1)
    refine ⟨s2, ?_⟩
    show (addMeta env c >>= fun _ => addAllMeta env cs) s = _
    rw [M.bind_ok h1, h2]

theorem seriesType_some {env : Env K} {F : DFrame K} (hF : F.Ok) {i : Nat} {r : Nat × List (PyVal K)}
    (hr : F.meta[i]? = some r) (v u : String)
    (h : "parameter_type" ∈ F.cols → ∃ t p, F.HasMeta i "parameter_type" (.str t) ∧ MeansType (.str t) p) :
    ∃ t, seriesType env.units F.cols r.2 v u = .ok t := by
  unfold seriesType
  by_cases hc : "parameter_type" ∈ F.cols
  · obtain ⟨t, p, h1, h2⟩ := h hc
    obtain ⟨r', hr', -, hv⟩ := (hasMeta_iff hF).1 h1
    rw [hr] at hr'; cases hr'
    rw [if_pos hc, hv]
    exact ⟨p, parse_type.2 h2⟩
  · rw [if_neg hc]
    exact ⟨_, rfl⟩

theorem rowVal_selectCols {cols gc : List String} {row : List (PyVal K)} {c : String} (hc : c ∈ gc) :
    rowVal gc (selectCols cols gc row) c = rowVal cols row c := by
  show (gc.map (rowVal cols row)).getD (gc.idxOf c) .none = _
  rw [List.getD_eq_getElem?_getD, List.getElem?_map, List.getElem?_idxOf hc]
  rfl

theorem commonMeta_shared {F : DFrame K} (hF : F.Ok) (hne : F.data ≠ []) (hm : "model" ∈ F.cols) (hs : "scenario" ∈ F.cols)
    (hsh : ∀ i j c x y, c ∉ ofSeries → F.HasMeta i c x → F.HasMeta j c y → SameValue x y)
    (hcl : ∀ i x, F.HasMeta i "climate_model" x → x = .str "unspecified") : ∃ ms, F.commonMeta = .ok ms := by
  have hlen : F.data.length = F.meta.length := by simpa using congrArg List.length hF.labels
  unfold DFrame.commonMeta
  simp only
  cases hmm : F.meta with
  | nil =>
    rw [hmm] at hlen
    exact absurd (List.length_eq_zero_iff.1 hlen) hne
  | cons r rs =>
    have h0 : F.meta[0]? = some r := by rw [hmm]; rfl
    have hsel : ∀ {k : Nat} {r : Nat × List (PyVal K)} {gc : List String}, F.meta[k]? = some r →
        selectCols F.cols gc r.2 = gc.map (F.metaAt k) := by
      intro k r gc hk; rw [metaAt_eq hk]; rfl
    rw [List.map_cons]
    simp only
    rw [if_neg, if_neg, if_neg]
    · exact ⟨_, rfl⟩
    · rintro ⟨c1, c2⟩
      have hc := (List.mem_filter.1 c1).1
      have hx := hcl 0 _ ((metaAt_iff hF).2 ⟨by rw [hmm]; simp, hc, rfl⟩)
      have : rowVal (F.cols.filter fun c => c ∉ seriesCols) (selectCols F.cols (F.cols.filter fun c => c ∉ seriesCols) r.2)
          "climate_model" = .str "unspecified" := by
        rw [rowVal_selectCols c1, ← metaAt_eq h0, hx]
      rw [this] at c2
      simp [PyVal.eq] at c2
    · intro h2
      have a1 : "model" ∈ F.cols.filter fun c => c ∉ seriesCols := List.mem_filter.2 ⟨hm, by decide⟩
      have a2 : "scenario" ∈ F.cols.filter fun c => c ∉ seriesCols := List.mem_filter.2 ⟨hs, by decide⟩
      generalize F.cols.filter (fun c => decide (c ∉ seriesCols)) = l at *
      match l, h2, a1, a2 with
      | [], _, a1, _ => simp at a1
      | [x], _, a1, a2 =>
        simp only [List.mem_singleton] at a1 a2
        rw [← a1] at a2
        exact absurd a2 (by decide)
      | _ :: _ :: _, h2, _, _ => simp only [List.length_cons] at h2; omega
    · rw [not_not]
      intro q hq
      obtain ⟨r', hr', rfl⟩ := List.mem_map.1 hq
      obtain ⟨k, hk⟩ := List.mem_iff_getElem?.1 hr'
      have hk' : F.meta[k + 1]? = some r' := by rw [hmm]; exact hk
      rw [hsel h0, hsel hk', sameRow_map]
      intro c hc
      obtain ⟨c1, c2⟩ := List.mem_filter.1 hc
      exact hsh 0 (k + 1) c _ _ (by simpa [ofSeries_eq] using c2)
        ((metaAt_iff hF).2 ⟨by rw [hmm]; simp, c1, rfl⟩)
        ((metaAt_iff hF).2 ⟨(List.getElem?_eq_some_iff.1 hk').1, c1, rfl⟩)

theorem commonMeta_climate {F : DFrame K} (hF : F.Ok) {ms : List (String × PyVal K)} (h : F.commonMeta = .ok ms) {i : Nat}
    {x : PyVal K} (hx : F.HasMeta i "climate_model" x) : x = .str "unspecified" := by
  obtain ⟨i1, i2, -⟩ := (metaAt_iff hF).1 hx
  have h0 : F.HasMeta 0 "climate_model" (F.metaAt 0 "climate_model") := (metaAt_iff hF).2 ⟨by omega, i2, rfl⟩
  have hsame : SameValue (F.metaAt 0 "climate_model") x := by
    by_contra hne
    rw [commonMeta_refused hF (by decide) h0 hx hne] at h
    cases h
  unfold DFrame.commonMeta at h
  simp only at h
  cases hmm : F.meta with
  | nil => rw [hmm] at i1; simp at i1
  | cons r rs =>
    have hr : F.meta[0]? = some r := by rw [hmm]; rfl
    rw [hmm, List.map_cons] at h
    simp only at h
    split at h
    · cases h
    split at h
    · cases h
    split at h
    · cases h
    rename_i hn
    have hc : "climate_model" ∈ F.cols.filter fun c => c ∉ seriesCols := List.mem_filter.2 ⟨i2, by decide⟩
    have he : ¬ (rowVal (F.cols.filter fun c => c ∉ seriesCols)
        (selectCols F.cols (F.cols.filter fun c => c ∉ seriesCols) r.2) "climate_model").eq (.str "unspecified") = false :=
      fun h => hn ⟨hc, h⟩
    rw [rowVal_selectCols hc, ← metaAt_eq hr] at he
    have : F.metaAt 0 "climate_model" = .str "unspecified" := by
      generalize F.metaAt 0 "climate_model" = y at he
      cases y <;> simp_all [PyVal.eq]
    rw [this] at hsame
    cases hsame with
    | missing h _ => simp at h
    | equal => rfl

theorem Item.In.three {env : Env K} {P : Param K G} {t : PType} {u : String} {tps xs : List K}
    (h : (Item.series (G := G) t u tps xs).In env P) : 3 ≤ xs.length := by
  obtain ⟨-, -, -, h4, h5⟩ := h
  by_contra hlt
  have hc : ∀ (c : TSConv K) (f : K → K), c.convertFrom ((xs.map Fl.num).map (Fl.map f)) = .error .insufficientData :=
    fun c f => C27_short _ _ _ _ _ (by simp; omega)
  unfold freshOf at h4
  simp only [bind, Except.bind, Except.map, h5, hc] at h4
  repeat' split at h4
  all_goals cases h4

theorem world_head {g : String} (h : g = "World" ∨ NameBelow "World" g) : (splitName g).head? = some "World" := by
  have hw : splitName "World" = ["World"] := by decide +kernel
  rcases h with rfl | ⟨t, rfl⟩
  · rw [hw]; rfl
  · rw [splitName_below, hw]; rfl

theorem splitName_inj {v w : String} (h : splitName v = splitName w) : v = w := by
  rw [← C17_join_split v, h, C17_join_split]

/-- The timeseries of a frame can be added to a new parameter set. -/
theorem series_loads {env : Env K} {F : DFrame K} (hT : F.Tidy) (h3 : 3 ≤ F.times.length)
    (hrow : ∀ i < F.data.length, ∃ v g u a, F.HasMeta i "variable" (.str v) ∧ F.HasMeta i "region" (.str g) ∧
      F.HasMeta i "unit" (.str u) ∧ (g = "World" ∨ NameBelow "World" g) ∧ env.units u = some a ∧
      ("parameter_type" ∈ F.cols → ∃ t p, F.HasMeta i "parameter_type" (.str t) ∧ MeansType (.str t) p))
    (hparts : ∀ i j v w g, F.HasMeta i "variable" (.str v) → F.HasMeta j "variable" (.str w) →
      F.HasMeta i "region" (.str g) → F.HasMeta j "region" (.str g) → ¬ NameBelow v w) :
    ∃ (s : St K (PyVal K)) (L : List (Key × Item K (PyVal K))), addAllSeries env F F.data (St.init "World") = (.ok (), s) ∧
      rootName s = "World" ∧ Reachable env s ∧ Holds env s L (fun _ _ => False) ∧
      (∀ e ∈ L, ∃ d ∈ F.data, RowItem env F d e) ∧
      ∀ e ∈ L, ∀ t u tps xs, e.2 = .series t u tps xs → t = .average ∨ t = .point := by
  have hlen : F.data.length = F.meta.length := by simpa using congrArg List.length hT.ok.labels
  have hd : ∀ d ∈ F.data, ∃ xs : List K, d.2 = xs.map .num := fun d hd => nums_of (hT.nums d hd)
  have hs : Reachable env (St.init "World" : St K (PyVal K)) := ⟨"World", [], rfl⟩
  have hfit : ∀ d ∈ F.data, ∀ e, RowItem env F d e → FitsSeries env e := by
    intro d hmem e he
    obtain ⟨i, hi⟩ := List.mem_iff_getElem?.1 hmem
    obtain ⟨r, v, g, u, t, tps, xs, h1, ⟨m1, m2, m3, d', hd', hx⟩, h4, h5, rfl⟩ := rowItem_at hT.ok hi he
    rw [hi] at hd'; cases hd'
    obtain ⟨v', g', u', a, n1, n2, n3, n4, n5, -⟩ := hrow i (List.getElem?_eq_some_iff.1 hi).1
    have e2 := HasMeta.unique hT.ok m2 n2
    have e3 := HasMeta.unique hT.ok m3 n3
    cases e2
    cases e3
    have hxl : xs.length = F.times.length := by
      rw [← hT.ok.data_len d hmem, hx, List.length_map]
    refine ⟨world_head n4, t, u, _, xs, a, rfl, seriesType_two h4, n5, by omega, ?_⟩
    rw [hxl]
    unfold seriesPoints at h5
    rcases seriesType_two h4 with rfl | rfl
    · rw [if_pos rfl] at h5
      obtain ⟨l, x, y, e1, e2⟩ := extendPoints_ok h5
      simp [pointsLength, toK, e1, e2]
    · rw [if_neg (by decide)] at h5
      cases h5
      simp [pointsLength, toK]
  have hex : ∀ d ∈ F.data, ∃ e, RowItem env F d e := by
    intro d hmem
    obtain ⟨i, hi⟩ := List.mem_iff_getElem?.1 hmem
    obtain ⟨v, g, u, a, n1, n2, n3, n4, n5, n6⟩ := hrow i (List.getElem?_eq_some_iff.1 hi).1
    obtain ⟨r, hr, hf⟩ := find_at hT.ok hi
    obtain ⟨t, ht⟩ := seriesType_some (env := env) hT.ok hr v u n6
    obtain ⟨tps, htps⟩ : ∃ tps, seriesPoints F.times t = .ok tps := by
      unfold seriesPoints
      split
      · exact extendPoints_two hT.two
      · exact ⟨_, rfl⟩
    obtain ⟨xs, hxs⟩ := hd d hmem
    have hval : ∀ {c : String} {x : PyVal K}, F.HasMeta i c x → rowVal F.cols r.2 c = x := by
      intro c x h
      obtain ⟨r', hr', -, hx⟩ := (hasMeta_iff hT.ok).1 h
      rw [hr] at hr'; cases hr'
      exact hx
    exact ⟨_, r, v, g, u, t, tps, xs, hf, seriesNames_ok.2 ⟨hval n1, hval n2, hval n3⟩, ht, htps, hxs, rfl⟩
  have hpair : F.data.Pairwise fun d d' => ∀ e e', RowItem env F d e → RowItem env F d' e' → KeysApart e.1 e'.1 := by
    rw [List.pairwise_iff_getElem]
    intro i j hi hj hij e e' he he' hee
    obtain ⟨r, v, g, u, t, tps, xs, _, ⟨a1, a2, _⟩, _, _, rfl⟩ := rowItem_at hT.ok (List.getElem?_eq_getElem hi) he
    obtain ⟨r', v', g', u', t', tps', xs', _, ⟨b1, b2, _⟩, _, _, rfl⟩ :=
      rowItem_at hT.ok (List.getElem?_eq_getElem hj) he'
    have := splitName_inj hee
    subst this
    refine ⟨fun hp => ?_, fun hp => ?_⟩
    · rcases splitName_prefix.1 hp with rfl | hb
      · exact hij.ne (hT.unique i j _ _ a1 a2 b1 b2)
      · exact hparts i j v v' g a1 b1 a2 b2 hb
    · rcases splitName_prefix.1 hp with rfl | hb
      · exact hij.ne (hT.unique i j _ _ a1 a2 b1 b2)
      · exact hparts j i v' v g b1 a1 b2 a2 hb
  obtain ⟨s1, h1, hw1⟩ := addAllSeries_free hs rfl (Holds.init env "World") hT.sorted hex hfit hpair (by simp)
  obtain ⟨hs1, L, H, ha, -⟩ := addAllSeries_ok hs (Holds.init env "World") hT.sorted hd
    (hpair.imp fun h e e' he he' => (h e e' he he').ne) (by simp) h1
  have hmem : ∀ e ∈ L, ∃ d ∈ F.data, RowItem env F d e := fun e he => ((ha e).1 he).resolve_left (by simp)
  refine ⟨s1, L, h1, hw1, hs1, H, hmem, ?_⟩
  intro e he t u tps xs het
  obtain ⟨d, hd, hr⟩ := hmem e he
  obtain ⟨-, t', u', tps', xs', a, f1, f2, -⟩ := hfit d hd e hr
  rw [het] at f1
  cases f1
  exact f2

/-! ## C106 -/

/-- C106: such frames can be made into parameter sets. -/
theorem C106_loads {env : Env K} {F : DFrame K} (hT : F.Tidy) (hm : "model" ∈ F.cols)
    (hsc : "scenario" ∈ F.cols) (hpar : ∀ c ∈ F.cols, c ∉ ofSeries → '(' ∉ c.toList) (hl : Loadable env F) :
    ∃ s, toParameterset env F (St.init "World") = (.ok (), s) := by
  obtain ⟨ms, hms⟩ := commonMeta_shared hT.ok hl.nonempty hm hsc hl.shared hl.climate
  obtain ⟨s1, L, h1, hw1, hs1, H, hmem, hser⟩ := series_loads hT hl.three hl.row hl.parts
  have hcol : ∀ c ∈ ms, F.HasMeta 0 c.1 c.2 ∧ c.1 ∉ seriesCols := fun c hc => (commonMeta_mem hT.ok hms).1 hc
  obtain ⟨s2, h2⟩ := addAllMeta_free (cs := ms) hs1 hw1 H (fun c hc => (hcol c hc).2) hser (by
      intro c hc
      obtain ⟨m1, m2⟩ := hcol c hc
      exact scalarKey_none (hpar c.1 ((metaAt_iff hT.ok).1 m1).2.1 m2)) (by
      have hnd : ms.Pairwise fun c c' => c.1 ≠ c'.1 := List.pairwise_map.1 (commonMeta_nodup hT.ok hms)
      refine hnd.imp_of_mem fun {c c'} hc hc' hne _ => ?_
      obtain ⟨m1, m2⟩ := hcol c hc
      obtain ⟨m1', m2'⟩ := hcol c' hc'
      have k1 := ((metaAt_iff hT.ok).1 m1).2.1
      have k2 := ((metaAt_iff hT.ok).1 m1').2.1
      refine ⟨fun hp => ?_, fun hp => ?_⟩
      · rcases splitName_prefix.1 hp with h | h
        · exact hne h
        · exact hl.metas _ k1 _ k2 m2 m2' h
      · rcases splitName_prefix.1 hp with h | h
        · exact hne h.symm
        · exact hl.metas _ k2 _ k1 m2' m2 h) (by
      intro c hc e he hreg
      obtain ⟨m1, m2⟩ := hcol c hc
      obtain ⟨d, hd, hr⟩ := hmem e he
      obtain ⟨i, hi⟩ := List.mem_iff_getElem?.1 hd
      obtain ⟨r, v, g, u, t, tps, xs, g1, ⟨a1, a2, _⟩, _, _, rfl⟩ := rowItem_at hT.ok hi hr
      have hw : splitName "World" = worldName := by decide +kernel
      have := splitName_inj (hreg.trans hw.symm)
      subst this
      have hx : F.HasMeta i c.1 (F.metaAt i c.1) :=
        (metaAt_iff hT.ok).2 ⟨(List.getElem?_eq_some_iff.1 g1).1, ((metaAt_iff hT.ok).1 m1).2.1, rfl⟩
      obtain ⟨q1, q2, q3⟩ := hl.names i v c.1 _ a1 a2 m2 hx
      refine ⟨fun hp => ?_, fun hp => ?_⟩
      · rcases splitName_prefix.1 hp with h | h
        · exact q1 h
        · exact q2 h
      · rcases splitName_prefix.1 hp with h | h
        · exact q1 h.symm
        · exact q3 h)
  refine ⟨s2, ?_⟩
  unfold toParameterset
  rw [hms]
  show (addAllSeries env F F.data >>= fun _ => addAllMeta env ms) (St.init "World") = _
  rw [M.bind_ok h1, h2]

/-- C106: and no others. -/
theorem C106_iff {env : Env K} {F : DFrame K} (hT : F.Tidy) (hm : "model" ∈ F.cols)
    (hsc : "scenario" ∈ F.cols) (hpar : ∀ c ∈ F.cols, c ∉ ofSeries → '(' ∉ c.toList) :
    (∃ s, toParameterset env F (St.init "World") = (.ok (), s)) ↔ Loadable env F := by
  constructor
  · rintro ⟨s, hto⟩
    obtain ⟨n1, n2, n3, n4⟩ := C105_needs_partial hT hto
    have hd : ∀ d ∈ F.data, ∃ xs : List K, d.2 = xs.map .num := fun d hd => nums_of (hT.nums d hd)
    obtain ⟨hs, L, hL, ha, -, hex, ms, hms, -, hfind, -⟩ := toParameterset_holds hT.sorted hd hT.distinct hto
    have hlen : F.data.length = F.meta.length := by simpa using congrArg List.length hT.ok.labels
    have hne : 0 < F.meta.length := by
      unfold DFrame.commonMeta at hms
      cases hmm : F.meta with
      | nil => rw [hmm] at hms; simp at hms
      | cons r rs => simp
    have hne' : F.data ≠ [] := by
      intro h
      rw [h] at hlen
      simp only [List.length_nil] at hlen
      omega
    refine ⟨hne', ?_, n2, n1, n3, fun i x hx => commonMeta_climate hT.ok hms hx, ?_, ?_⟩
    · obtain ⟨d, hmem⟩ := List.exists_mem_of_ne_nil _ hne'
      obtain ⟨e, he⟩ := hex d hmem
      obtain ⟨r, v, g, u, t, tps, xs, -, -, -, -, hx, rfl⟩ := id he
      obtain ⟨_, P, -, -, -, hin⟩ := hL.items _ ((ha ((splitName g, splitName v), Item.series t u (toK tps) xs) trivial).2 ⟨d, hmem, he⟩)
      rw [← hT.ok.data_len d hmem, hx, List.length_map]
      exact Item.In.three hin
    · intro i v c x hv hg hc hx
      exact n4 i v c x hv hg hc (hpar c ((metaAt_iff hT.ok).1 hx).2.1 hc) hx
    · rintro c hc c' hc' h1 h2 ⟨n, rfl⟩
      have g1 := generic_kept hT.ok hms hfind (hpar c hc h1) h1 ((metaAt_iff hT.ok).2 ⟨hne, hc, rfl⟩)
      have g2 := generic_kept hT.ok hms hfind (hpar _ hc' h2) h2 ((metaAt_iff hT.ok).2 ⟨hne, hc', rfl⟩)
      obtain ⟨a, l, hal⟩ := List.exists_cons_of_ne_nil (splitName_ne n)
      exact hL.leaves hs g1 g2 (n := a) (ns := l) rfl (by simp only [splitName_below, hal])
  · exact C106_loads hT hm hsc hpar

/-- C106: such a frame can be taken there and back, and nothing is lost, gained or changed. -/
theorem C106_round {env : Env K} {F : DFrame K} (hT : F.Plain) (hm : "model" ∈ F.cols)
    (hsc : "scenario" ∈ F.cols) (hpar : ∀ c ∈ F.cols, c ∉ ofSeries → '(' ∉ c.toList) (hl : Loadable env F)
    (model scenario climate : String) :
    ∃ s F' s', toParameterset env F (St.init "World") = (.ok (), s) ∧
      convertToFrame env F.times model scenario climate s = (.ok F', s') ∧ F'.times = F.times ∧
      ∀ v g u vals, (∃ i, F'.IsRow i v g u vals) ↔ ∃ i, F.IsRow i v g u vals := by
  obtain ⟨s, hto⟩ := C106_loads hT.toTidy hm hsc hpar hl
  obtain ⟨d, hmem⟩ := List.exists_mem_of_ne_nil _ hl.nonempty
  obtain ⟨i, hi⟩ := List.mem_iff_getElem?.1 hmem
  obtain ⟨v, g, u, a, n1, n2, n3, -⟩ := hl.row i (List.getElem?_eq_some_iff.1 hi).1
  obtain ⟨F', s', h1, h2, h3, -⟩ := (C57_exact_partial hT.toTidy hto model scenario climate).1
    ⟨i, v, g, u, _, ⟨n1, n2, n3, d, hi, rfl⟩, hT.shallow i g n2⟩
  refine ⟨s, F', s', hto, h1, h2, fun v g u vals => (h3 v g u vals).trans ⟨And.left, fun h => ⟨h, ?_⟩⟩⟩
  obtain ⟨j, -, hg, -⟩ := h
  exact hT.shallow j g hg

/-! ## Examples -/

theorem pairF_plain {v w : String} (u : String) (h : v ≠ w) : (pairF v w u).Plain where
  toTidy := pairF_tidy u h
  shallow i g hg := by
    obtain ⟨r, hr, -, hx⟩ := (hasMeta_iff (pairF_ok v w u)).1 hg
    have : PyVal.str g = (.str "World" : PyVal ℚ) := by
      match i, hr with
      | 0, hr => cases hr; exact hx.symm
      | 1, hr => cases hr; exact hx.symm
      | i + 2, hr => simp [pairF] at hr
    cases this
    decide +kernel

/-- A frame that meets the hypotheses of `C106_loads` and `C106_round`. -/
example : Loadable demoEnv (pairF "a|x" "a|y" "mK") ∧ (pairF "a|x" "a|y" "mK").Plain :=
  ⟨(C106_iff (pairF_tidy _ (by decide)) (by decide +kernel) (by decide +kernel) (by decide +kernel)).1
    ⟨_, Prod.ext (by decide +kernel : (toParameterset demoEnv (pairF "a|x" "a|y" "mK") (St.init "World")).1 = .ok ()) rfl⟩,
    pairF_plain _ (by decide)⟩

/-- The hypotheses of `C106_iff` can be met, and both sides can be true. -/
example : (pairF "a|x" "a|y" "mK").Tidy ∧
    "model" ∈ (pairF "a|x" "a|y" "mK").cols ∧ "scenario" ∈ (pairF "a|x" "a|y" "mK").cols ∧
    (∀ c ∈ (pairF "a|x" "a|y" "mK").cols, c ∉ ofSeries → '(' ∉ c.toList) ∧
    (toParameterset demoEnv (pairF "a|x" "a|y" "mK") (St.init "World")).1 = .ok () :=
  ⟨pairF_tidy _ (by decide), by decide +kernel, by decide +kernel, by decide +kernel, by decide +kernel⟩

/-- A unit that nothing defines, and a variable with the name of metadata. -/
example : (toParameterset demoEnv (pairF "a" "b" "furlong") (St.init "World")).1 = .error .undefinedUnit ∧
    (toParameterset demoEnv (pairF "a" "model" "K") (St.init "World")).1 = .error .parameterType ∧
    (toParameterset demoEnv (pairF "a" "model|x" "K") (St.init "World")).1 = .error .parameterAggregation := by
  decide +kernel

end Openscm
