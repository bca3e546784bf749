import Verif.RoundGather
import Verif.FrameInterp2
import Verif.CoreDemo

/-!
# C57: from frames to parameter sets and back
-/

set_option linter.unusedSectionVars false

namespace Openscm

variable {K : Type} [Field K] [LinearOrder K] [IsStrictOrderedRing K]

/-! ## Specification -/

/-- The timeseries at position `i` is for this variable, region and unit and has these values. -/
def DFrame.IsRow (F : DFrame K) (i : Nat) (v g u : String) (vals : List (Fl K)) : Prop :=
  F.HasMeta i "variable" (.str v) ∧ F.HasMeta i "region" (.str g) ∧ F.HasMeta i "unit" (.str u) ∧
  ∃ d, F.data[i]? = some d ∧ d.2 = vals

/-- What is asked of frames: at least two times in order, numbers, and one timeseries for each variable and region. -/
structure DFrame.Tidy (F : DFrame K) : Prop where
  ok : F.Ok
  sorted : F.times.Pairwise (· < ·)
  two : 2 ≤ F.times.length
  nums : ∀ d ∈ F.data, ∀ x ∈ d.2, x ≠ .nan
  unique : ∀ (i j : Nat) (v g : PyVal K), F.HasMeta i "variable" v → F.HasMeta i "region" g →
    F.HasMeta j "variable" v → F.HasMeta j "region" g → i = j

/-- And regions at most one level below the root. -/
structure DFrame.Plain (F : DFrame K) : Prop extends F.Tidy where
  shallow : ∀ (i : Nat) (g : String), F.HasMeta i "region" (.str g) → (g.toList.filter (· = '|')).length ≤ 1

/-! ## Rows and items -/

theorem find_at {F : DFrame K} (hF : F.Ok) {i : Nat} {d : Nat × List (Fl K)} (hd : F.data[i]? = some d) :
    ∃ r, F.meta[i]? = some r ∧ (F.meta.find? fun r => r.1 = d.1) = some r := by
  have h1 : (F.data.map (·.1))[i]? = some d.1 := by simp [hd]
  rw [hF.labels, List.getElem?_map, Option.map_eq_some_iff] at h1
  obtain ⟨r, h2, h3⟩ := h1
  refine ⟨r, h2, ?_⟩
  have hnd := hF.nodup
  rw [hF.labels] at hnd
  cases hf : F.meta.find? fun r => r.1 = d.1 with
  | none =>
    have := List.find?_eq_none.1 hf r (List.mem_of_getElem? h2)
    simp [h3] at this
  | some r' =>
    have hm := List.mem_of_find?_eq_some hf
    have hp : r'.1 = d.1 := by simpa using List.find?_some hf
    have := List.inj_on_of_nodup_map hnd hm (List.mem_of_getElem? h2) (hp.trans h3.symm)
    rw [this]

theorem rowVal_some {F : DFrame K} (hF : F.Ok) {i : Nat} {r : Nat × List (PyVal K)} (hr : F.meta[i]? = some r)
    {c : String} {v : String} (h : rowVal F.cols r.2 c = .str v) : F.HasMeta i c (.str v) := by
  refine (hasMeta_iff hF).2 ⟨r, hr, ?_, h⟩
  by_contra hc
  rw [rowVal, List.idxOf_eq_length hc, ← hF.meta_len r (List.mem_of_getElem? hr)] at h
  simp at h

theorem seriesNames_ok {cols : List String} {row : List (PyVal K)} {v g u : String} :
    seriesNames cols row = .ok (v, g, u) ↔ rowVal cols row "variable" = .str v ∧ rowVal cols row "region" = .str g ∧
      rowVal cols row "unit" = .str u := by
  unfold seriesNames
  constructor
  · intro h
    split at h
    · rename_i h1 h2 h3
      simp only [Except.ok.injEq, Prod.mk.injEq] at h
      obtain ⟨rfl, rfl, rfl⟩ := h
      exact ⟨h1, h2, h3⟩
    · simp at h
  · rintro ⟨h1, h2, h3⟩
    rw [h1, h2, h3]

theorem rowItem_at {env : Env K} {F : DFrame K} (hF : F.Ok) {i : Nat} {d : Nat × List (Fl K)}
    (hd : F.data[i]? = some d) {e : Key × Item K (PyVal K)} (h : RowItem env F d e) :
    ∃ (r : Nat × List (PyVal K)) (v g u : String) (t : PType) (tps : List Int) (xs : List K),
      F.meta[i]? = some r ∧ F.IsRow i v g u (xs.map .num) ∧ seriesType env.units F.cols r.2 v u = .ok t ∧
      seriesPoints F.times t = .ok tps ∧ e = ((splitName g, splitName v), .series t u (toK tps) xs) := by
  obtain ⟨r, v, g, u, t, tps, xs, h1, h2, h3, h4, h5, rfl⟩ := h
  obtain ⟨r', h6, h7⟩ := find_at hF hd
  rw [h1] at h7; cases h7
  obtain ⟨n1, n2, n3⟩ := seriesNames_ok.1 h2
  exact ⟨r, v, g, u, t, tps, xs, h6, ⟨rowVal_some hF h6 n1, rowVal_some hF h6 n2, rowVal_some hF h6 n3, d, hd, h5⟩,
    h3, h4, rfl⟩

theorem IsRow.unique {F : DFrame K} (hF : F.Ok) {i : Nat} {v g u v' g' u' : String} {x x' : List (Fl K)}
    (h : F.IsRow i v g u x) (h' : F.IsRow i v' g' u' x') : v = v' ∧ g = g' ∧ u = u' ∧ x = x' := by
  obtain ⟨a1, a2, a3, d, a4, a5⟩ := h
  obtain ⟨b1, b2, b3, d', b4, b5⟩ := h'
  rw [a4] at b4; cases b4
  have e1 := HasMeta.unique hF a1 b1
  have e2 := HasMeta.unique hF a2 b2
  have e3 := HasMeta.unique hF a3 b3
  cases e1; cases e2; cases e3
  exact ⟨rfl, rfl, rfl, a5.symm.trans b5⟩

theorem nums_of {l : List (Fl K)} (h : ∀ x ∈ l, x ≠ .nan) : ∃ xs : List K, l = xs.map .num := by
  induction l with
  | nil => exact ⟨[], rfl⟩
  | cons a l ih =>
    obtain ⟨xs, rfl⟩ := ih fun x hx => h x (List.mem_cons_of_mem _ hx)
    cases a with
    | nan => exact absurd rfl (h _ List.mem_cons_self)
    | num a => exact ⟨a :: xs, rfl⟩

theorem DFrame.Tidy.distinct {env : Env K} {F : DFrame K} (h : F.Tidy) :
    F.data.Pairwise fun d d' => ∀ e e', RowItem env F d e → RowItem env F d' e' → e.1 ≠ e'.1 := by
  rw [List.pairwise_iff_getElem]
  intro i j hi hj hij e e' he he' hee
  obtain ⟨r, v, g, u, t, tps, xs, _, ⟨a1, a2, _⟩, _, _, rfl⟩ := rowItem_at h.ok (List.getElem?_eq_getElem hi) he
  obtain ⟨r', v', g', u', t', tps', xs', _, ⟨b1, b2, _⟩, _, _, rfl⟩ :=
    rowItem_at h.ok (List.getElem?_eq_getElem hj) he'
  simp only [Prod.mk.injEq] at hee
  have e1 := C17_split_injective hee.1
  have e2 := C17_split_injective hee.2
  subst e1 e2
  exact absurd (h.unique i j _ _ a1 a2 b1 b2) (by omega)

theorem extendPoints_two {l : List Int} (h : 2 ≤ l.length) : ∃ e, extendPoints l = .ok e := by
  unfold extendPoints
  split
  · exact ⟨_, rfl⟩
  · rename_i hn
    exfalso
    have hl : l.reverse.length = l.length := List.length_reverse
    cases h1 : l.reverse with
    | nil => rw [h1] at hl; simp at hl; omega
    | cons a t =>
      cases t with
      | nil => rw [h1] at hl; simp at hl; omega
      | cons b t => exact hn _ _ _ h1

theorem broadcastAll_succeeds {n : Nat} {cols : List (String × ColArg K)}
    (h : ∀ x ∈ cols, ∃ l, broadcast n x.2 = .ok l) : ∃ cs, broadcastAll n cols = .ok cs := by
  induction cols with
  | nil => exact ⟨[], rfl⟩
  | cons x r ih =>
    obtain ⟨c, a⟩ := x
    obtain ⟨l, hl⟩ := h (c, a) List.mem_cons_self
    obtain ⟨ls, hls⟩ := ih fun y hy => h y (List.mem_cons_of_mem _ hy)
    simp only at hl
    exact ⟨(c, l) :: ls, by simp only [broadcastAll, hl, hls]⟩

theorem lists_at {n i : Nat} {l : List (PyVal K)} {v : PyVal K} (hl : l.length = n) (hi : i < n)
    (h : Lists n i (.list l) v) : l[i]? = some v := by
  cases h with
  | one =>
    simp only [List.length_cons, List.length_nil] at hl
    have : i = 0 := by omega
    subst this; rfl
  | each _ h => exact h

/-- The conversion back from what has been found. -/
theorem gathered_frame {c : Gathered K} {S : List (Found K)} {times : List Int} (h : Gath c S)
    (hlen : ∀ z ∈ S, z.xs.length = times.length) :
    ∃ F', fromTs c.data.length (transposed times.length c.data) times (c.meta.map fun x => (x.1, .list x.2)) = .ok F' ∧
      F'.Ok ∧ F'.times = times ∧ F'.data.length = S.length ∧
      (∀ (i : Nat) (z : Found K), S[i]? = some z →
        F'.IsRow i (joinName z.key.2) (joinName z.key.1) z.unit (z.xs.map .num) ∧
        F'.HasMeta i "parameter_type" (.str (typeText z.ty))) ∧
      (∀ (n : String) (v : PyVal K), (n, [v]) ∈ c.meta → n ∉ seriesCols → ∀ i < F'.data.length, F'.HasMeta i n v) ∧
      ∀ n, n ∈ F'.cols ↔ n ∈ c.meta.map (·.1) := by
  have hn : c.data.length = S.length := by rw [h.data, List.length_map]
  have hkeys : (c.meta.map fun x => (x.1, ColArg.list x.2)).map (·.1) = c.meta.map (·.1) := by
    rw [List.map_map]; rfl
  have hcol : ∀ {k : String} {l : List (PyVal K)}, (k, l) ∈ c.meta →
      (k, ColArg.list l) ∈ c.meta.map fun x => (x.1, ColArg.list x.2) :=
    fun {k l} hk => List.mem_map.2 ⟨(k, l), hk, rfl⟩
  have hkey : ∀ {k : String} {l : List (PyVal K)}, (k, l) ∈ c.meta → k ∈ c.meta.map (·.1) :=
    fun {k l} hk => List.mem_map.2 ⟨(k, l), hk, rfl⟩
  have huniq : ∀ {k : String} {l l' : List (PyVal K)}, (k, l) ∈ c.meta → (k, l') ∈ c.meta → l = l' := by
    intro k l l' h1 h2
    have := List.inj_on_of_nodup_map h.keys h1 h2 rfl
    simpa using this
  have hb : ∀ x ∈ c.meta.map (fun x => (x.1, ColArg.list x.2)), ∃ l, broadcast c.data.length x.2 = .ok l := by
    intro x hx
    obtain ⟨y, hy, rfl⟩ := List.mem_map.1 hx
    obtain ⟨k, l⟩ := y
    simp only [broadcast]
    have hcase : l.length = c.data.length ∨ l.length = 1 := by
      by_cases hk : k ∈ seriesCols
      · left
        simp only [seriesCols, List.mem_cons, List.not_mem_nil, or_false] at hk
        rw [hn]
        rcases hk with rfl | rfl | rfl | rfl
        · rw [huniq hy h.vars, List.length_map]
        · rw [huniq hy h.region, List.length_map]
        · rw [huniq hy h.unit, List.length_map]
        · rw [huniq hy h.ptype, List.length_map]
      · right
        obtain ⟨v, hv⟩ := h.single _ hy hk
        simp only at hv
        rw [hv]; rfl
    split
    · exact ⟨_, rfl⟩
    · rename_i hne
      rcases hcase with h' | h'
      · exact absurd h' hne
      · rw [if_neg (by simp [h'])]; exact ⟨_, rfl⟩
  obtain ⟨cs, hcs⟩ := broadcastAll_succeeds hb
  have hreq : ∀ k ∈ requiredCols, k ∈ c.meta.map (·.1) := by
    intro k hk
    simp only [requiredCols, List.mem_cons, List.not_mem_nil, or_false] at hk
    rcases hk with rfl | rfl | rfl | rfl | rfl
    · exact h.model
    · exact h.scenario
    · exact hkey h.region
    · exact hkey h.vars
    · exact hkey h.unit
  obtain ⟨F', hF'⟩ : ∃ F', fromTs c.data.length (transposed times.length c.data) times
      (c.meta.map fun x => (x.1, .list x.2)) = .ok F' := by
    unfold fromTs
    rw [if_neg (by simp [transposed]), if_neg (by rw [hkeys]; simpa using hreq), hcs]
    exact ⟨_, rfl⟩
  obtain ⟨f1, f2, f3, f4, f5, f6, f7⟩ := C59_frame (by rw [hkeys]; exact h.keys) hF'
  refine ⟨F', hF', f1, f2, f4.trans hn, ?_, ?_, ?_⟩
  rotate_left
  · intro k v hk hks i hi
    rw [f4] at hi
    obtain ⟨w, hw⟩ := f6 i k hi ⟨_, hcol hk⟩
    have := f7 i k _ w (hcol hk) hw
    cases this with
    | one => exact hw
    | each hl h' =>
      simp only [List.length_singleton] at hl
      have hi0 : i = 0 := by omega
      subst hi0
      simp only [List.getElem?_cons_zero, Option.some.injEq] at h'
      rw [h']; exact hw
  · intro k
    rw [(C59_columns (by rw [hkeys]; exact h.keys) hF').2.2 k]
    simp only [List.mem_map, Prod.mk.injEq]
    constructor
    · rintro ⟨a, x, hx, rfl, _⟩
      exact ⟨x, hx, rfl⟩
    · rintro ⟨x, hx, rfl⟩
      exact ⟨_, x, hx, rfl, rfl⟩
  intro i z hz
  have hi : i < c.data.length := by rw [hn]; exact (List.getElem?_eq_some_iff.1 hz).1
  have hmeta : ∀ {k : String} {f : Found K → PyVal K}, (k, S.map f) ∈ c.meta → F'.HasMeta i k (f z) := by
    intro k f hk
    obtain ⟨v, hv⟩ := f6 i k hi ⟨_, hcol hk⟩
    have := lists_at (by rw [List.length_map, hn]) hi (f7 i k _ v (hcol hk) hv)
    rw [List.getElem?_map, hz] at this
    simp only [Option.map_some, Option.some.injEq] at this
    rw [this]; exact hv
  refine ⟨⟨hmeta h.vars, hmeta h.region, hmeta h.unit, ?_⟩, hmeta h.ptype⟩
  have hd : i < F'.data.length := by rw [f4]; exact hi
  refine ⟨F'.data[i], List.getElem?_eq_getElem hd, ?_⟩
  have hzl := hlen z (List.mem_of_getElem? hz)
  have hl := f1.data_len _ (List.getElem_mem hd)
  rw [f2] at hl
  refine List.ext_getElem? fun k => ?_
  by_cases hk : k < times.length
  · have hrow : (transposed times.length c.data)[k]? = some (c.data.map fun l => l.getD k .nan) := by
      simp [transposed, hk]
    have hx : (c.data.map fun l => l.getD k Fl.nan)[i]? = (z.xs.map Fl.num)[k]? := by
      rw [h.data, List.getElem?_map, List.getElem?_map, hz]
      have : k < (z.xs.map (Fl.num : K → Fl K)).length := by rw [List.length_map, hzl]; exact hk
      simp only [Option.map_some, List.getD_eq_getElem?_getD, List.getElem?_eq_getElem this, Option.getD_some]
    have hx' : ∃ x, (z.xs.map (Fl.num : K → Fl K))[k]? = some x :=
      ⟨_, List.getElem?_eq_getElem (by rw [List.length_map, hzl]; exact hk)⟩
    obtain ⟨x, hx'⟩ := hx'
    obtain ⟨d, d1, d2⟩ := f5 i k _ x hi hrow (hx.trans hx')
    rw [List.getElem?_eq_getElem hd] at d1; cases d1
    rw [d2, hx']
  · rw [List.getElem?_eq_none (by omega), List.getElem?_eq_none (by rw [List.length_map]; omega)]

/-- A region at most one level below the root. -/
def Shallow (g : String) : Prop := (g.toList.filter (· = '|')).length ≤ 1

theorem shallow_levels {g : String} : Shallow g ↔ (splitName g).length ≤ 2 := by
  rw [C17_levels]
  unfold Shallow
  constructor
  · intro h; exact Nat.succ_le_succ (by convert h; rfl)
  · intro h; exact Nat.le_of_succ_le_succ (by convert h; rfl)

/-- Everything about the way there and back. -/
theorem round_all {env : Env K} {F : DFrame K} (h : F.Tidy) {s : St K (PyVal K)}
    (hto : toParameterset env F (St.init "World") = (.ok (), s)) (model scenario climate : String) :
    ∃ S : List (Found K), (S.map (·.key)).Nodup ∧
      (∀ z ∈ S, ∃ (i : Nat) (r : Nat × List (PyVal K)), F.meta[i]? = some r ∧
        F.IsRow i (joinName z.key.2) (joinName z.key.1) z.unit (z.xs.map .num) ∧
        seriesType env.units F.cols r.2 (joinName z.key.2) z.unit = .ok z.ty ∧ Shallow (joinName z.key.1) ∧
        (splitName (joinName z.key.1), splitName (joinName z.key.2)) = z.key) ∧
      (∀ (i : Nat) (v g u : String) (vals : List (Fl K)), F.IsRow i v g u vals → Shallow g → ∃ z ∈ S, ∃ r,
        F.meta[i]? = some r ∧ z.key = (splitName g, splitName v) ∧ z.unit = u ∧ z.xs.map .num = vals ∧
        seriesType env.units F.cols r.2 v u = .ok z.ty) ∧
      (S = [] → ∃ s', convertToFrame env F.times model scenario climate s = (.error .valueError, s')) ∧
      (S ≠ [] → ∃ (F' : DFrame K) (s' : St K (PyVal K)),
        convertToFrame env F.times model scenario climate s = (.ok F', s') ∧ F'.Ok ∧ F'.times = F.times ∧
        F'.data.length = S.length ∧
        ∀ (i : Nat) (z : Found K), S[i]? = some z →
          F'.IsRow i (joinName z.key.2) (joinName z.key.1) z.unit (z.xs.map .num) ∧
          F'.HasMeta i "parameter_type" (.str (typeText z.ty))) := by
  have hd : ∀ d ∈ F.data, ∃ xs : List K, d.2 = xs.map .num := fun d hd => nums_of (h.nums d hd)
  obtain ⟨hs, L, hL, ha, hb, hex, _⟩ := toParameterset_holds h.sorted hd h.distinct hto
  replace ha : ∀ k t u tps xs, (k, Item.series t u tps xs) ∈ L ↔ ∃ d ∈ F.data,
      RowItem env F d (k, Item.series t u tps xs) := fun k t u tps xs => ha (k, Item.series t u tps xs) trivial
  obtain ⟨avg, havg⟩ := extendPoints_two h.two
  have hi := hs.inv
  have hpts : ∀ {t : PType} {tps : List Int}, t = .average ∨ t = .point → seriesPoints F.times t = .ok tps →
      tps = if t = .point then F.times else avg := by
    intro t tps ht hp
    unfold seriesPoints at hp
    rcases ht with rfl | rfl
    · rw [if_pos rfl, havg] at hp
      simpa using (Except.ok.inj hp).symm
    · rw [if_neg (by simp)] at hp
      simpa using (Except.ok.inj hp).symm
  have hser : ∀ k t u tps xs, (k, Item.series t u tps xs) ∈ L →
      (t = .average ∨ t = .point) ∧ tps = toK (if t = .point then F.times else avg) := by
    intro k t u tps xs he
    obtain ⟨d, _, r, v, g, u', t', tps', xs', _, _, h3, h4, _, h6⟩ := (ha _ _ _ _ _).1 he
    simp only [Prod.mk.injEq, Item.series.injEq] at h6
    obtain ⟨_, rfl, _, rfl, _⟩ := h6
    have htt := seriesType_two h3
    exact ⟨htt, by rw [hpts htt h4]⟩
  obtain ⟨c, s', S, g1, g2, g3, g4⟩ := gatherAll_ok hi hL hser hb (rootParams s)
    (fun x hx => ⟨((rootParams_mem hi.tree x).1 hx).1, ((rootParams_mem hi.tree x).1 hx).2.1⟩)
    (Gath.start model scenario climate)
  rw [List.nil_append] at g2
  -- from what was found to rows
  have hfrom : ∀ z ∈ S, ∃ (i : Nat) (r : Nat × List (PyVal K)), F.meta[i]? = some r ∧
      F.IsRow i (joinName z.key.2) (joinName z.key.1) z.unit (z.xs.map .num) ∧
      seriesType env.units F.cols r.2 (joinName z.key.2) z.unit = .ok z.ty ∧ z.xs.length = F.times.length ∧
      Shallow (joinName z.key.1) ∧ (splitName (joinName z.key.1), splitName (joinName z.key.2)) = z.key := by
    intro z hz
    obtain ⟨x, hx, hxz⟩ := List.mem_map.1 ((g4 z).1 hz).1
    have hsh : z.key.1.length ≤ 2 := by rw [← hxz]; exact ((rootParams_mem hi.tree x).1 hx).2.2
    obtain ⟨d, hdm, hrow⟩ := (ha _ _ _ _ _).1 ((g4 z).1 hz).2
    obtain ⟨i, hi'⟩ := List.getElem?_of_mem hdm
    obtain ⟨r, v, g, u, t, tps, xs, m1, m2, m3, m4, m5⟩ := rowItem_at h.ok hi' hrow
    simp only [Prod.mk.injEq, Item.series.injEq] at m5
    obtain ⟨hk, rfl, rfl, _, rfl⟩ := m5
    rw [hk] at hsh ⊢
    simp only [C17_join_split]
    refine ⟨i, r, m1, m2, m3, ?_, shallow_levels.2 hsh, trivial⟩
    obtain ⟨_, _, _, d', d1, d2⟩ := m2
    rw [hi'] at d1; cases d1
    have := h.ok.data_len d hdm
    rw [d2, List.length_map] at this
    exact this
  -- from rows to what was found
  have hto' : ∀ (i : Nat) (v g u : String) (vals : List (Fl K)), F.IsRow i v g u vals → Shallow g → ∃ z ∈ S, ∃ r,
      F.meta[i]? = some r ∧ z.key = (splitName g, splitName v) ∧ z.unit = u ∧ z.xs.map .num = vals ∧
      seriesType env.units F.cols r.2 v u = .ok z.ty := by
    intro i v g u vals hrow hsh
    obtain ⟨_, hg, _, d, d1, _⟩ := id hrow
    obtain ⟨e, he⟩ := hex d (List.mem_of_getElem? d1)
    obtain ⟨r, v', g', u', t, tps, xs, m1, m2, m3, m4, rfl⟩ := rowItem_at h.ok d1 he
    obtain ⟨rfl, rfl, rfl, rfl⟩ := IsRow.unique h.ok hrow m2
    have hin := (ha _ _ _ _ _).2 ⟨d, List.mem_of_getElem? d1, he⟩
    obtain ⟨p, P, p1, p2, p3, _⟩ := hL.items _ hin
    have hch := ((hi.good.params p P p2).1 p3).1
    have hlen : (splitName g).length ≤ 2 := shallow_levels.1 hsh
    have hroot : (splitName v, splitName g, p) ∈ rootParams s :=
      (rootParams_mem hi.tree _).2 ⟨p1, ⟨P, p2, hch⟩, hlen⟩
    refine ⟨⟨(splitName g, splitName v), t, u, xs⟩, (g4 _).2 ⟨?_, ?_⟩, r, m1, rfl, rfl, rfl, m3⟩
    · exact List.mem_map.2 ⟨_, hroot, rfl⟩
    · simp only
      rw [← hpts (seriesType_two m3) m4]
      exact hin
  -- as many
  have hkeysS : (S.map (·.key)).Nodup := by
    refine g3.nodup ?_
    refine List.Nodup.map_on ?_ (List.Nodup.of_map _ (rootParams_nodup hi.tree))
    intro x hx y hy hxy
    have kx := ((rootParams_mem hi.tree x).1 hx).1
    have ky := ((rootParams_mem hi.tree y).1 hy).1
    rw [hxy] at kx
    have := kx.inj hi.tree ky
    obtain ⟨x1, x2, x3⟩ := x
    obtain ⟨y1, y2, y3⟩ := y
    simp only [Prod.mk.injEq] at hxy this ⊢
    exact ⟨hxy.2, hxy.1, this⟩
  have hgets : (M.gets rootParams : M K (PyVal K) _) s = (.ok (rootParams s), s) := rfl
  refine ⟨S, hkeysS, ?_, hto', ?_, ?_⟩
  · intro z hz
    obtain ⟨i, r, z1, z2, z3, _, z4⟩ := hfrom z hz
    exact ⟨i, r, z1, z2, z3, z4⟩
  · rintro rfl
    refine ⟨s', ?_⟩
    unfold convertToFrame
    rw [havg]
    simp only
    rw [M.bind_ok hgets, M.bind_ok g1, if_pos (by rw [g2.data]; rfl)]
    rfl
  · intro hS
    obtain ⟨F', f1, f2, f3, f4, f5, _⟩ := gathered_frame (times := F.times) g2 fun z hz => by
      obtain ⟨_, _, _, _, _, hz', _⟩ := hfrom z hz
      exact hz'
    have hne : c.data ≠ [] := by
      rw [g2.data]
      simpa using hS
    have hall : ∀ l ∈ c.data, l.length = F.times.length := by
      rw [g2.data]
      intro l hl
      obtain ⟨z, hz, rfl⟩ := List.mem_map.1 hl
      obtain ⟨_, _, _, _, _, hz', _⟩ := hfrom z hz
      rw [List.length_map]; exact hz'
    refine ⟨F', s', ?_, f2, f3, f4, f5⟩
    unfold convertToFrame
    rw [havg]
    simp only
    rw [M.bind_ok hgets, M.bind_ok g1, if_neg hne, if_neg (by simpa using hall), f1]
    rfl

/-- The same for regions at most one level below the root: nothing is lost. -/
theorem round_core {env : Env K} {F : DFrame K} (h : F.Plain) {s : St K (PyVal K)}
    (hto : toParameterset env F (St.init "World") = (.ok (), s)) (model scenario climate : String) :
    ∃ (F' : DFrame K) (s' : St K (PyVal K)) (S : List (Found K)), convertToFrame env F.times model scenario climate s = (.ok F', s') ∧ F'.Ok ∧ F'.times = F.times ∧
      F'.data.length = F.data.length ∧ F'.data.length = S.length ∧
      (∀ (i : Nat) (z : Found K), S[i]? = some z →
        F'.IsRow i (joinName z.key.2) (joinName z.key.1) z.unit (z.xs.map .num) ∧
        F'.HasMeta i "parameter_type" (.str (typeText z.ty))) ∧
      (∀ z ∈ S, ∃ (i : Nat) (r : Nat × List (PyVal K)), F.meta[i]? = some r ∧
        F.IsRow i (joinName z.key.2) (joinName z.key.1) z.unit (z.xs.map .num) ∧
        seriesType env.units F.cols r.2 (joinName z.key.2) z.unit = .ok z.ty) ∧
      ∀ (i : Nat) (v g u : String) (vals : List (Fl K)), F.IsRow i v g u vals → ∃ z ∈ S, ∃ r, F.meta[i]? = some r ∧
        joinName z.key.2 = v ∧ joinName z.key.1 = g ∧ z.unit = u ∧ z.xs.map .num = vals ∧
        seriesType env.units F.cols r.2 v u = .ok z.ty := by
  have hd : ∀ d ∈ F.data, ∃ xs : List K, d.2 = xs.map .num := fun d hd => nums_of (h.nums d hd)
  obtain ⟨_, L, _, _, _, hex, _⟩ := toParameterset_holds h.sorted hd h.distinct hto
  obtain ⟨S, hkeysS, c2, c3, c4, c5⟩ := round_all h.toTidy hto model scenario climate
  have hsh : ∀ {i : Nat} {v g u : String} {vals : List (Fl K)}, F.IsRow i v g u vals → Shallow g :=
    fun {i v g u vals} hr => h.shallow i g hr.2.1
  have hkeyF : ∃ f : Nat × List (Fl K) → Key, ∀ d ∈ F.data, ∃ e, RowItem env F d e ∧ e.1 = f d := by
    classical
    refine ⟨fun d => if hd : ∃ e, RowItem env F d e then hd.choose.1 else ([], []), fun d hd => ?_⟩
    have := hex d hd
    exact ⟨this.choose, this.choose_spec, by simp only [dif_pos this]⟩
  obtain ⟨f, hf⟩ := hkeyF
  have hnodF : (F.data.map f).Nodup := by
    rw [List.Nodup, List.pairwise_map]
    refine List.Pairwise.imp_of_mem ?_ (h.distinct (env := env))
    intro d d' hd hd' hne hfd
    obtain ⟨e, e1, e2⟩ := hf d hd
    obtain ⟨e', e1', e2'⟩ := hf d' hd'
    exact hne e e' e1 e1' (by rw [e2, e2', hfd])
  have hperm : (S.map (·.key)).Perm (F.data.map f) := by
    refine (List.perm_ext_iff_of_nodup hkeysS hnodF).2 fun k => ?_
    constructor
    · intro hk
      obtain ⟨z, hz, rfl⟩ := List.mem_map.1 hk
      obtain ⟨i, _, _, hrow, _, _, hkey⟩ := c2 z hz
      obtain ⟨_, _, _, d, d1, _⟩ := id hrow
      have hdm := List.mem_of_getElem? d1
      obtain ⟨e, e1, e2⟩ := hf d hdm
      refine List.mem_map.2 ⟨d, hdm, ?_⟩
      rw [← e2]
      obtain ⟨_, v, g, u, t, tps, xs, _, hrow', _, _, rfl⟩ := rowItem_at h.ok d1 e1
      obtain ⟨rfl, rfl, _, _⟩ := IsRow.unique h.ok hrow' hrow
      exact hkey
    · intro hk
      obtain ⟨d, hdm, rfl⟩ := List.mem_map.1 hk
      obtain ⟨e, e1, e2⟩ := hf d hdm
      rw [← e2]
      obtain ⟨i, hi'⟩ := List.getElem?_of_mem hdm
      obtain ⟨r, v, g, u, t, tps, xs, m1, m2, m3, m4, rfl⟩ := rowItem_at h.ok hi' e1
      obtain ⟨z, hz, _, _, hzk, _⟩ := c3 i v g u _ m2 (hsh m2)
      exact List.mem_map.2 ⟨z, hz, hzk⟩
  have hlen := hperm.length_eq
  rw [List.length_map, List.length_map] at hlen
  have hne : S ≠ [] := by
    rintro rfl
    have hmeta : F.meta = [] := by
      have := congrArg List.length h.ok.labels
      rw [List.length_map, List.length_map] at this
      exact List.length_eq_zero_iff.1 (by simp at hlen; omega)
    unfold toParameterset at hto
    have : F.commonMeta = .error .unmodelled := by unfold DFrame.commonMeta; rw [hmeta]; rfl
    rw [this] at hto
    simp [M.throw] at hto
  obtain ⟨F', s', e1, e2, e3, e4, e5⟩ := c5 hne
  refine ⟨F', s', S, e1, e2, e3, e4.trans hlen, e4, e5, ?_, ?_⟩
  · intro z hz
    obtain ⟨i, r, z1, z2, z3, _⟩ := c2 z hz
    exact ⟨i, r, z1, z2, z3⟩
  · intro i v g u vals hrow
    obtain ⟨z, hz, r, r1, r2, r3, r4, r5⟩ := c3 i v g u vals hrow (hsh hrow)
    exact ⟨z, hz, r, r1, by rw [r2, C17_join_split], by rw [r2, C17_join_split], r3, r4, r5⟩

/-! ## C57 -/

/-- C57: if the frame can be converted to a fresh parameter set, then the conversion back succeeds and returns, at the
same times, exactly the timeseries of the frame with their values, variables, regions and units. -/
theorem C57_round_trip_partial {env : Env K} {F : DFrame K} (h : F.Plain) {s : St K (PyVal K)}
    (hto : toParameterset env F (St.init "World") = (.ok (), s)) (model scenario climate : String) :
    ∃ F' s', convertToFrame env F.times model scenario climate s = (.ok F', s') ∧ F'.times = F.times ∧
      F'.data.length = F.data.length ∧
      ∀ v g u vals, (∃ i, F.IsRow i v g u vals) ↔ ∃ i, F'.IsRow i v g u vals := by
  obtain ⟨F', s', S, h1, h2, h3, h4, h5, h6, h7, h8⟩ := round_core h hto model scenario climate
  refine ⟨F', s', h1, h3, h4, fun v g u vals => ⟨?_, ?_⟩⟩
  · rintro ⟨i, hi⟩
    obtain ⟨z, hz, r, _, rfl, rfl, rfl, rfl, _⟩ := h8 i v g u vals hi
    obtain ⟨j, hj⟩ := List.getElem?_of_mem hz
    exact ⟨j, (h6 j z hj).1⟩
  · rintro ⟨i, hi⟩
    obtain ⟨_, _, _, d, hd, _⟩ := id hi
    have hl : i < S.length := by rw [← h5]; exact (List.getElem?_eq_some_iff.1 hd).1
    have hz := List.getElem?_eq_getElem hl
    obtain ⟨rfl, rfl, rfl, rfl⟩ := IsRow.unique h2 hi (h6 i _ hz).1
    obtain ⟨j, _, _, hj, _⟩ := h7 _ (List.mem_of_getElem? hz)
    exact ⟨j, hj⟩

/-- C57: timeseries keep their types. -/
theorem C57_type_partial {env : Env K} {F : DFrame K} (h : F.Plain) {s s' : St K (PyVal K)} {F' : DFrame K}
    (hto : toParameterset env F (St.init "World") = (.ok (), s)) {model scenario climate : String}
    (hback : convertToFrame env F.times model scenario climate s = (.ok F', s')) {i j : Nat} {v g t : String}
    (ht : t = "average" ∨ t = "point") (hi : F.HasMeta i "parameter_type" (.str t))
    (hv : F.HasMeta i "variable" (.str v)) (hg : F.HasMeta i "region" (.str g))
    (hv' : F'.HasMeta j "variable" (.str v)) (hg' : F'.HasMeta j "region" (.str g)) :
    F'.HasMeta j "parameter_type" (.str t) := by
  obtain ⟨F2, s2, S, h1, h2, h3, h4, h5, h6, h7, h8⟩ := round_core h hto model scenario climate
  rw [hback] at h1
  simp only [Prod.mk.injEq, Except.ok.injEq] at h1
  obtain ⟨rfl, rfl⟩ := h1
  have hl : j < S.length := by
    rw [← h5]
    obtain ⟨_, r, _, hr, _⟩ := hv'
    have := congrArg List.length h2.labels
    rw [List.length_map, List.length_map] at this
    rw [this]
    exact (List.getElem?_eq_some_iff.1 hr).1
  have hz := List.getElem?_eq_getElem hl
  obtain ⟨⟨z1, z2, _⟩, z3⟩ := h6 j _ hz
  have e1 := HasMeta.unique h2 hv' z1
  have e2 := HasMeta.unique h2 hg' z2
  simp only [PyVal.str.injEq] at e1 e2
  obtain ⟨k, r, k1, ⟨k2, k3, _⟩, k4⟩ := h7 _ (List.mem_of_getElem? hz)
  rw [← e1] at k2 k4
  rw [← e2] at k3
  obtain rfl := h.unique i k _ _ hv hg k2 k3
  obtain ⟨r', r1, r2, r3⟩ := (hasMeta_iff h.ok).1 hi
  rw [k1] at r1; cases r1
  unfold seriesType at k4
  rw [if_pos r2, r3] at k4
  simp only at k4
  convert z3 using 2
  rcases ht with rfl | rfl
  · have : (TyArg.str "average").parse = .ok .average := by decide +kernel
    rw [this] at k4
    rw [← Except.ok.inj k4]; rfl
  · have : (TyArg.str "point").parse = .ok .point := by decide +kernel
    rw [this] at k4
    rw [← Except.ok.inj k4]; rfl

/-! ## A frame -/

deriving instance DecidableEq for DFrame

/-- Two timeseries, one of averages. -/
def rtF (r : String) : DFrame ℚ :=
  { times := [0, 10, 20, 30]
    cols := ["model", "scenario", "region", "variable", "unit", "S (K)", "climate_model", "note", "parameter_type"]
    data := [(0, [.num 1, .num 2, .num 3, .num 4]), (1, [.num 5, .num 6, .num 8, .num 7])]
    «meta» := [(0, [.str "m", .str "s", .str "World", .str "a|T", .str "K", .int 3, .str "unspecified", .none,
                 .str "point"]),
               (1, [.str "m", .str "s", .str r, .str "a|T", .str "mK", .int 3, .str "unspecified", .none,
                 .str "average"])] }

/-- There and back. -/
def backAgain (F : DFrame ℚ) : Except Err (DFrame ℚ) :=
  ((do toParameterset demoEnv F; convertToFrame demoEnv F.times "m" "s" "unspecified") (St.init "World")).1

theorem rtF_region {r : String} {i : Nat} {v : PyVal ℚ} (h : (rtF r).HasMeta i "region" v) :
    i = 0 ∧ v = .str "World" ∨ i = 1 ∧ v = .str r := by
  obtain ⟨k, row, hk, hrow, hv⟩ := h
  have hk2 : k = 2 := by
    have hl := (List.getElem?_eq_some_iff.1 hk).1
    have : (rtF r).cols = (rtF "").cols := rfl
    rw [this] at hk hl
    have hall : ∀ k < (rtF "").cols.length, (rtF "").cols[k]? = some "region" → k = 2 := by decide +kernel
    exact hall k hl hk
  subst hk2
  match i, hrow with
  | 0, hrow => left; cases hrow; cases hv; exact ⟨rfl, rfl⟩
  | 1, hrow => right; cases hrow; cases hv; exact ⟨rfl, rfl⟩
  | i + 2, hrow => simp [rtF] at hrow

theorem rtF_tidy {r : String} (hr : r ≠ "World") : (rtF r).Tidy := by
  have ok0 : (rtF "").Ok := ⟨by decide +kernel, by decide +kernel, by decide +kernel, by decide +kernel,
    by decide +kernel⟩
  have hsorted : (rtF "").times.Pairwise (· < ·) := by decide +kernel
  have hnums : ∀ d ∈ (rtF "").data, ∀ x ∈ d.2, x ≠ .nan := by decide +kernel
  refine ⟨⟨ok0.labels, ok0.nodup, ok0.cols_nodup, ok0.data_len, ?_⟩, hsorted, by simp [rtF], hnums, ?_⟩
  · simp [rtF]
  · intro i j v g _ h1 _ h2
    rcases rtF_region h1 with ⟨rfl, rfl⟩ | ⟨rfl, rfl⟩ <;> rcases rtF_region h2 with ⟨rfl, h⟩ | ⟨rfl, h⟩ <;>
      first | rfl | exact absurd (by simpa using h) hr | exact absurd (by simpa using h.symm) hr

theorem rtF_plain : (rtF "World|x").Plain := by
  refine ⟨rtF_tidy (by decide), ?_⟩
  intro i g h
  rcases rtF_region h with ⟨_, h⟩ | ⟨_, h⟩ <;> cases h <;> decide

example : (rtF "World|x").Plain ∧ (toParameterset demoEnv (rtF "World|x") (St.init "World")).1 = .ok () ∧
    (rtF "World|x").HasMeta 1 "parameter_type" (.str "average") :=
  ⟨rtF_plain, by decide +kernel, 8, _, rfl, rfl, rfl⟩

/-- C57 fails for regions two levels below the root: their timeseries are dropped without notice. -/
theorem C57_deep : (backAgain (rtF "World|x|y")).map (fun F => F.data.map (·.2)) =
    .ok [[.num 1, .num 2, .num 3, .num 4]] := by
  decide +kernel

/-- C57 does not cover frames with one time: `to_parameterset` raises `IndexError` for them. -/
theorem C57_single : (toParameterset demoEnv
    { times := [0]
      cols := ["model", "scenario", "region", "variable", "unit"]
      data := [(0, [.num 1])]
      «meta» := [(0, [.str "m", .str "s", .str "World", .str "T", .str "K"])] } (St.init "World")).1 =
      .error .indexError := by
  decide +kernel

end Openscm
