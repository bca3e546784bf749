import Verif.FrameResample
import Verif.FrameStats
import Verif.TimeProps2

/-!
# C102: means and interpolation

Means over timeseries may be taken before or after interpolation: the result is the same, if timeseries of which a mean
is taken are of the same type and have all their values.  This is not so for medians.
-/

set_option linter.unusedSectionVars false

namespace Openscm

variable {K : Type} [Field K] [LinearOrder K] [IsStrictOrderedRing K]

/-! ## Sums of arrays -/

theorem zipWith_combFl (a b : K) (ys zs : List K) :
    List.zipWith (combFl a b) (ys.map Fl.num) (zs.map Fl.num) = (combList a b ys zs).map Fl.num := by
  unfold combList
  rw [List.zipWith_map, List.map_zipWith]
  rfl

theorem Placed.comb {ext : Extrap} {src tgt : List Int} {ys zs r s : List K} {p : PType} (a b : K)
    (hs : src.Pairwise (· < ·)) (hl : ys.length = zs.length) (h1 : Placed ext src tgt (ys.map .num) (r.map .num) p)
    (h2 : Placed ext src tgt (zs.map .num) (s.map .num) p) :
    Placed ext src tgt ((combList a b ys zs).map .num) ((combList a b r s).map .num) p := by
  have cast : ∀ {l : List Int}, l.Pairwise (· < ·) → (l.map fun i : Int => (i : K)).Pairwise (· < ·) := by
    intro l hl
    exact List.pairwise_map.2 (hl.imp fun h => by exact_mod_cast h)
  have key : ∀ {c : TSConv K} {u t : List K} {q : PType}, q = .point ∨ q = .average → u.Pairwise (· < ·) →
      mkTSConv u t q ext = .ok c → c.convertFrom (ys.map .num) = .ok (r.map .num) →
      c.convertFrom (zs.map .num) = .ok (s.map .num) →
      c.convertFrom ((combList a b ys zs).map .num) = .ok ((combList a b r s).map .num) := by
    intro c u t q hq hu hc e1 e2
    have hcf := mkTSConv_fields hc
    subst hcf
    unfold TSConv.convertFrom convert at e1 e2 ⊢
    simp only [Fl.allNum_map_num] at e1 e2 ⊢
    rw [← zipWith_combFl]
    exact C28_linear q hq ext u t ys zs a b _ _ hu hl e1 e2
  cases h1 with
  | point h1 e1 =>
    cases h2 with
    | point h2 e2 =>
      rw [h1] at h2; cases h2
      exact .point h1 (key (.inl rfl) (cast hs) h1 e1 e2)
  | average m1 m2 h1 e1 =>
    cases h2 with
    | average n1 n2 h2 e2 =>
      have u1 := m1.unique n1
      have u2 := m2.unique n2
      subst u1 u2
      rw [h1] at h2; cases h2
      exact .average m1 m2 h1 (key (.inr rfl) (cast (m1.increasing hs)) h1 e1 e2)

/-- The sums of `n` numbers of several arrays. -/
def sumLists {α : Type*} (n : Nat) (I : List α) (xs : α → List K) : List K :=
  (List.range n).map fun k => (I.map fun i => (xs i).getD k 0).sum

theorem sumLists_one {α : Type*} {n : Nat} {i : α} {xs : α → List K} (h : (xs i).length = n) : sumLists n [i] xs = xs i := by
  subst h
  refine List.ext_getElem (by simp [sumLists]) fun k h1 h2 => ?_
  simp [sumLists, h2]

theorem sumLists_cons {α : Type*} {n : Nat} {i : α} {I : List α} {xs : α → List K} (h : (xs i).length = n) :
    sumLists n (i :: I) xs = combList 1 1 (xs i) (sumLists n I xs) := by
  subst h
  refine List.ext_getElem (by simp [sumLists, combList]) fun k h1 h2 => ?_
  have hk : k < (xs i).length := by simpa [sumLists] using h1
  simp [sumLists, combList, hk]

theorem placed_sums {α : Type*} {ext : Extrap} {src tgt : List Int} {p : PType} (hs : src.Pairwise (· < ·))
    {xs ys : α → List K} {I : List α} (hne : I ≠ []) (hx : ∀ i ∈ I, (xs i).length = src.length) (hy : ∀ i ∈ I, (ys i).length = tgt.length)
    (h : ∀ i ∈ I, Placed ext src tgt ((xs i).map .num) ((ys i).map .num) p) :
    Placed ext src tgt ((sumLists src.length I xs).map .num) ((sumLists tgt.length I ys).map .num) p := by
  induction I with
  | nil => exact absurd rfl hne
  | cons i I ih =>
    rcases I with _ | ⟨j, I⟩
    · rw [sumLists_one (hx i (by simp)), sumLists_one (hy i (by simp))]
      exact h i (by simp)
    · rw [sumLists_cons (hx i (by simp)), sumLists_cons (hy i (by simp))]
      refine (h i (by simp)).comb 1 1 hs ?_ (ih (by simp) (fun k hk => hx k (List.mem_cons_of_mem _ hk))
        (fun k hk => hy k (List.mem_cons_of_mem _ hk)) fun k hk => h k (List.mem_cons_of_mem _ hk))
      rw [hx i (by simp)]
      simp [sumLists]

/-! ## A frame and the frame at other times -/

/-- `G` is `F` at other times: timeseries `i` is of the type `kind i` and has the values `xs i` in `F`, `ys i` in `G`. -/
structure Moved (F G : DFrame K) (ext : Extrap) (kind : Nat → PType) (xs ys : Nat → List K) : Prop where
  okF : F.Ok
  okG : G.Ok
  increasing : F.times.Pairwise (· < ·)
  length : G.data.length = F.data.length
  cols : ∀ i, i < F.data.length → ∀ c, c ∈ G.cols ↔ c ∈ F.cols ∨ c = "parameter_type"
  others : ∀ i c, i < F.data.length → c ≠ "parameter_type" → G.metaAt i c = F.metaAt i c
  type : ∀ i, i < F.data.length → G.metaAt i "parameter_type" = .str (typeText (kind i))
  kinds : ∀ i, i < F.data.length → kind i = .average ∨ kind i = .point
  before : ∀ i, i < F.data.length → ∃ l, F.data[i]? = some (l, (xs i).map .num)
  after : ∀ i, i < F.data.length → ∃ l, G.data[i]? = some (l, (ys i).map .num)
  placed : ∀ i, i < F.data.length → Placed ext F.times G.times ((xs i).map .num) ((ys i).map .num) (kind i)

/-- Moreover, timeseries that differ in the columns of `drop` only are of one type. -/
structure AtTimes (F G : DFrame K) (ext : Extrap) (kind : Nat → PType) (word : PType → String) (drop : List String)
    (xs ys : Nat → List K) : Prop extends Moved F G ext kind xs ys where
  spelled : "parameter_type" ∈ drop ∨ "parameter_type" ∉ F.cols ∨
    ∀ i, i < F.data.length → F.metaAt i "parameter_type" = .str (word (kind i))
  same : ∀ i j, i < F.data.length → j < F.data.length → F.InGroup drop (F.metaAt j) i → kind i = kind j

theorem typeText_inj {p q : PType} (hp : p = .average ∨ p = .point) (hq : q = .average ∨ q = .point)
    (h : typeText p = typeText q) : p = q := by
  rcases hp with rfl | rfl <;> rcases hq with rfl | rfl <;> first | rfl | exact absurd h (by decide)

theorem sameValue_str {s t : String} (h : SameValue (PyVal.str (K := K) s) (.str t)) : s = t := by
  cases h with
  | missing h1 _ => rcases h1 with h1 | h1 <;> cases h1
  | equal => rfl

section
variable {F G : DFrame K} {ext : Extrap} {kind : Nat → PType} {word : PType → String} {drop : List String}
  {xs ys : Nat → List K}

theorem AtTimes.complete (h : AtTimes F G ext kind word drop xs ys) {i : Nat} (hi : i < F.data.length) :
    G.Complete drop i ↔ F.Complete drop i := by
  constructor
  · intro hc c hcm hcd
    by_cases h1 : c = "parameter_type"
    · subst h1
      rcases h.spelled with hs | hs | hs
      · exact absurd hs hcd
      · exact absurd hcm hs
      · rw [hs i hi]; exact ⟨by simp, by simp⟩
    · rw [← h.others i c hi h1]
      exact hc c ((h.cols i hi c).2 (.inl hcm)) hcd
  · intro hc c hcm hcd
    by_cases h1 : c = "parameter_type"
    · subst h1
      rw [h.type i hi]; exact ⟨by simp, by simp⟩
    · rw [h.others i c hi h1]
      exact hc c (((h.cols i hi c).1 hcm).resolve_right h1) hcd

theorem AtTimes.inGroup (h : AtTimes F G ext kind word drop xs ys) {i j : Nat} (hi : i < F.data.length)
    (hj : j < F.data.length) : G.InGroup drop (G.metaAt j) i ↔ F.InGroup drop (F.metaAt j) i := by
  constructor
  · intro hg c hcm hcd
    by_cases h1 : c = "parameter_type"
    · subst h1
      rcases h.spelled with hs | hs | hs
      · exact absurd hs hcd
      · exact absurd hcm hs
      · have := hg _ ((h.cols i hi _).2 (.inl hcm)) hcd
        rw [h.type i hi, h.type j hj] at this
        have e := typeText_inj (h.kinds j hj) (h.kinds i hi) (sameValue_str this)
        rw [hs i hi, hs j hj, e]
        exact .equal _
    · rw [← h.others i c hi h1, ← h.others j c hj h1]
      exact hg c ((h.cols i hi c).2 (.inl hcm)) hcd
  · intro hg c hcm hcd
    by_cases h1 : c = "parameter_type"
    · subst h1
      rw [h.type i hi, h.type j hj, h.same i j hi hj hg]
      exact .equal _
    · rw [h.others i c hi h1, h.others j c hj h1]
      exact hg c (((h.cols i hi c).1 hcm).resolve_right h1) hcd

variable [FloorSemiring K]

open Classical in
/-- The timeseries in the group of timeseries `j`. -/
noncomputable def membersOf (F : DFrame K) (drop : List String) (j : Nat) : List Nat :=
  (List.range F.data.length).filter fun i => decide (F.InGroup drop (F.metaAt j) i)

theorem mem_membersOf {i j : Nat} : i ∈ membersOf F drop j ↔ i < F.data.length ∧ F.InGroup drop (F.metaAt j) i := by
  unfold membersOf
  simp

theorem AtTimes.members (h : AtTimes F G ext kind word drop xs ys) {j : Nat} (hj : j < F.data.length) :
    membersOf G drop j = membersOf F drop j := by
  classical
  unfold membersOf
  rw [h.length]
  refine List.filter_congr fun i hi => ?_
  rw [List.mem_range] at hi
  simp only [h.inGroup hi hj]

theorem groupNums_members {F : DFrame K} {xs : Nat → List K} {j k n : Nat}
    (hx : ∀ i, i < F.data.length → ∃ l, F.data[i]? = some (l, (xs i).map .num))
    (hl : ∀ i, i < F.data.length → (xs i).length = n) (hk : k < n) :
    F.groupNums drop (F.metaAt j) k = (membersOf F drop j).map fun i => (xs i).getD k 0 := by
  classical
  unfold DFrame.groupNums membersOf
  rw [← List.filterMap_eq_map, List.filterMap_filter]
  refine List.filterMap_congr fun i hi => ?_
  rw [List.mem_range] at hi
  by_cases hg : F.InGroup drop (F.metaAt j) i
  · obtain ⟨l, e⟩ := hx i hi
    have hk' : k < (xs i).length := by rw [hl i hi]; exact hk
    rw [if_pos hg]
    simp [DFrame.cellAt, e, hg, hk', numOf]
  · rw [if_neg hg]
    simp [hg]

/-- The row of means of a group. -/
theorem mean_row {F : DFrame K} {xs : Nat → List K} (hF : F.Ok) {T : GroupTable K}
    (hx : ∀ i, i < F.data.length → ∃ l, F.data[i]? = some (l, (xs i).map .num))
    (h : F.processOver drop .mean = .ok T) {row : List (PyVal K) × List (Fl K)} (hr : row ∈ T.rows) {j : Nat}
    (hj : j < F.data.length) (hg : ∀ c ∈ F.cols, c ∉ drop → SameValue (T.metaOf row c) (F.metaAt j c)) :
    row.2 = ((sumLists F.times.length (membersOf F drop j) xs).map .num).map
      (Fl.map (affine (((membersOf F drop j).length : K)⁻¹) 0)) := by
  have hl : ∀ i, i < F.data.length → (xs i).length = F.times.length := by
    intro i hi
    obtain ⟨l, e⟩ := hx i hi
    have := hF.data_len _ (List.mem_of_getElem? e)
    simpa using this
  have hlen := C62_length hF h hr
  have hjm : j ∈ membersOf F drop j := mem_membersOf.2 ⟨hj, fun c _ _ => .equal _⟩
  refine List.ext_getElem (by simp [sumLists, hlen]) fun k h1 h2 => ?_
  have hk : k < F.times.length := by omega
  have hv := List.getElem?_eq_getElem h1
  have hn := (groupNums_congr (F := F) hg k).trans (groupNums_members (drop := drop) (j := j) hx hl hk)
  have hne : membersOf F drop j ≠ [] := List.ne_nil_of_mem hjm
  have hm := C62_missing hF h hr hv
  cases e : row.2[k] with
  | nan =>
    rw [hn] at hm
    exact absurd (List.map_eq_nil_iff.1 (hm.1 e)) hne
  | num x =>
    rw [e] at hv
    have hx := C62_mean hF h hr hv
    rw [hn, List.length_map] at hx
    have hl0 : ((membersOf F drop j).length : K) ≠ 0 := by
      rw [Nat.cast_ne_zero, Ne, List.length_eq_zero_iff]
      exact hne
    simp only [sumLists, List.getElem_map, List.getElem_range, Fl.map, affine, Fl.num.injEq]
    rw [← hx]
    field_simp
    ring

/-- Rows of both tables say the same: the values of the second are those of the first at other times. -/
def SameAtTimes (F G : DFrame K) (T T' : GroupTable K) (ext : Extrap) (row row' : List (PyVal K) × List (Fl K)) : Prop :=
  (∀ c ∈ T.cols, c ≠ "parameter_type" → SameValue (T'.metaOf row' c) (T.metaOf row c)) ∧
  ∃ p, ("parameter_type" ∈ T'.cols → T'.metaOf row' "parameter_type" = .str (typeText p)) ∧
    Placed ext F.times G.times row.2 row'.2 p

theorem AtTimes.row (h : AtTimes F G ext kind word drop xs ys) {T T' : GroupTable K}
    (h1 : F.processOver drop .mean = .ok T) (h2 : G.processOver drop .mean = .ok T')
    {row row' : List (PyVal K) × List (Fl K)} (hr : row ∈ T.rows) (hr' : row' ∈ T'.rows) {i j : Nat}
    (hi : i < F.data.length) (hj : j < F.data.length) (ei : row.1 = T.cols.map (F.metaAt i))
    (ej : row'.1 = T'.cols.map (G.metaAt j)) (hg : G.InGroup drop (G.metaAt j) i) : SameAtTimes F G T T' ext row row' := by
  have hT : ∀ c ∈ F.cols, c ∉ drop → T.metaOf row c = F.metaAt i c := fun c hc hcd =>
    metaOf_row ei ((C62_columns h1 c).2 ⟨hc, hcd⟩)
  have hT' : ∀ c ∈ G.cols, c ∉ drop → T'.metaOf row' c = G.metaAt j c := fun c hc hcd =>
    metaOf_row ej ((C62_columns h2 c).2 ⟨hc, hcd⟩)
  have hgF := (h.inGroup hi hj).1 hg
  refine ⟨fun c hc c1 => ?_, kind i, fun hc => ?_, ?_⟩
  · obtain ⟨hcF, hcd⟩ := (C62_columns h1 c).1 hc
    have hcG := (h.cols i hi c).2 (.inl hcF)
    rw [hT c hcF hcd, hT' c hcG hcd, ← h.others i c hi c1]
    exact hg c hcG hcd
  · obtain ⟨hcG, hcd⟩ := (C62_columns h2 _).1 hc
    rw [hT' _ hcG hcd, h.type j hj, h.same i j hi hj hgF]
  · have r1 := mean_row h.okF h.before h1 hr hi fun c hc hcd => by rw [hT c hc hcd]; exact .equal _
    have r2 := mean_row h.okG (fun i hi => h.after i (h.length ▸ hi)) h2 hr' (h.length.symm ▸ hi)
      fun c hc hcd => by rw [hT' c hc hcd]; exact hg c hc hcd
    rw [h.members hi] at r2
    rw [r1, r2]
    refine Placed.map _ _ (placed_sums h.increasing (List.ne_nil_of_mem (mem_membersOf.2 ⟨hi, fun c _ _ => .equal _⟩))
      ?_ ?_ ?_)
    · intro k hk
      obtain ⟨l, e⟩ := h.before k (mem_membersOf.1 hk).1
      simpa using h.okF.data_len _ (List.mem_of_getElem? e)
    · intro k hk
      obtain ⟨l, e⟩ := h.after k (mem_membersOf.1 hk).1
      simpa using h.okG.data_len _ (List.mem_of_getElem? e)
    · intro k hk
      obtain ⟨hk, hkg⟩ := mem_membersOf.1 hk
      rw [← h.same k i hk hi hkg]
      exact h.placed k hk

theorem AtTimes.means (h : AtTimes F G ext kind word drop xs ys) {T T' : GroupTable K}
    (h1 : F.processOver drop .mean = .ok T) (h2 : G.processOver drop .mean = .ok T') :
    (∀ row ∈ T.rows, ∃ row' ∈ T'.rows, SameAtTimes F G T T' ext row row') ∧
    (∀ row' ∈ T'.rows, ∃ row ∈ T.rows, SameAtTimes F G T T' ext row row') := by
  constructor
  · intro row hr
    obtain ⟨i, hi, hc, ei⟩ := C62_row h1 hr
    obtain ⟨row', hr', hin⟩ := C62_covered_partial h.okG h2 (i := i) (h.length.symm ▸ hi) ((h.complete hi).2 hc)
    obtain ⟨j, hj, _, ej⟩ := C62_row h2 hr'
    rw [h.length] at hj
    refine ⟨row', hr', h.row h1 h2 hr hr' hi hj ei ej fun c hcG hcd => ?_⟩
    have := hin c hcG hcd
    rwa [metaOf_row ej ((C62_columns h2 c).2 ⟨hcG, hcd⟩)] at this
  · intro row' hr'
    obtain ⟨j, hj, hc, ej⟩ := C62_row h2 hr'
    rw [h.length] at hj
    obtain ⟨row, hr, hin⟩ := C62_covered_partial h.okF h1 hj ((h.complete hj).1 hc)
    obtain ⟨i, hi, _, ei⟩ := C62_row h1 hr
    refine ⟨row, hr, h.row h1 h2 hr hr' hi hj ei ej ?_⟩
    have : F.InGroup drop (F.metaAt j) i := fun c hcF hcd => by
      have := hin c hcF hcd
      rw [metaOf_row ei ((C62_columns h1 c).2 ⟨hcF, hcd⟩)] at this
      exact this.symm
    exact (h.inGroup hi hj).2 this

end

/-! ## Interpolation -/

theorem hasMeta_col {F : DFrame K} {i : Nat} {c : String} {v : PyVal K} (h : F.HasMeta i c v) : c ∈ F.cols := by
  obtain ⟨j, r, h1, -, -⟩ := h
  exact List.mem_of_getElem? h1

theorem hasMeta_at {F : DFrame K} (hF : F.Ok) {i : Nat} {c : String} {v : PyVal K} (h : F.HasMeta i c v) :
    F.metaAt i c = v := by
  obtain ⟨j, r, h1, h2, h3⟩ := h
  rw [metaAt_eq h2]
  unfold rowVal
  rw [idxOf_of_getElem? hF.cols_nodup h1, List.getD_eq_getElem?_getD, h3]
  rfl

/-- Timeseries `i` is of the type `kind i`. -/
def Kinds (reg : Registry K) (views : Bool) (F : DFrame K) (kind : Nat → PType) : Prop :=
  ∀ i, i < F.data.length → ∃ w, TypeIs reg views F i (.str w) ∧ KindWord w (kind i)

/-- Timeseries that differ in the columns of `drop` only are of the same type. -/
def OneKind (F : DFrame K) (drop : List String) (kind : Nat → PType) : Prop :=
  ∀ i j, i < F.data.length → j < F.data.length → F.InGroup drop (F.metaAt j) i → kind i = kind j

/-- Types are not told apart by how they are written. -/
def OneSpelling (F : DFrame K) (drop : List String) (kind : Nat → PType) : Prop :=
  "parameter_type" ∈ drop ∨ "parameter_type" ∉ F.cols ∨
    ∃ word : PType → String, ∀ i, i < F.data.length → F.metaAt i "parameter_type" = .str (word (kind i))

theorem interpolate_moved {reg : Registry K} {views : Bool} {F G : DFrame K} {target : List Int} {ext : Extrap}
    (hF : F.Ok) (hr : ∀ c ∈ requiredCols, c ∈ F.cols) (hc : Complete F) (hi : F.times.Pairwise (· < ·))
    (ht : target.Pairwise (· < ·)) {kind : Nat → PType} (hk : Kinds reg views F kind)
    (h : F.interpolate reg views target ext = .ok G) : ∃ xs ys, Moved F G ext kind xs ys := by
  obtain ⟨b1, b2, b3, b4, b5⟩ := C56_placed_partial hF hr h
  have hlen : G.data.length = F.data.length := by
    have := congrArg List.length b3
    simpa using this
  have each : ∀ i, i < F.data.length → ∃ (l : Nat) (x : List K) (l' : Nat) (y : List K), F.data[i]? = some (l, x.map .num) ∧
      G.data[i]? = some (l', y.map .num) ∧ G.HasMeta i "parameter_type" (.str (typeText (kind i))) ∧
      Placed ext F.times target (x.map .num) (y.map .num) (kind i) := by
    intro i hl
    have hold := List.getElem?_eq_getElem hl
    obtain ⟨vs, hvs⟩ := hc _ (List.mem_of_getElem? hold)
    obtain ⟨w, w1, w2⟩ := hk i hl
    obtain ⟨new, e, hb⟩ := b5 i _ hold
    rcases hb with ⟨w', p, g1, g2, g3, g4⟩ | ⟨v, g1, g2, -⟩
    · have := g1.unique hF w1
      cases this
      have hp : p = kind i := by
        rw [kindWord_iff] at g2 w2
        rw [g2] at w2
        exact Except.ok.inj w2
      subst hp
      rw [hvs] at g4
      obtain ⟨y, hy⟩ := g4.nums hi ht
      refine ⟨F.data[i].1, vs, new.1, y, ?_, ?_, g3, hy ▸ g4⟩
      · rw [hold, ← hvs]
      · rw [e, ← hy]
    · have := g1.unique hF w1
      subst this
      cases g2
  choose! lf xs lg ys e1 e2 e3 e4 using each
  have lm : F.meta.length = F.data.length := Ok.lengths hF
  have lmG : G.meta.length = F.data.length := (Ok.lengths b1).trans hlen
  have cols : ∀ i, i < F.data.length → ∀ c, c ∈ G.cols ↔ c ∈ F.cols ∨ c = "parameter_type" := by
    intro i zero c
    constructor
    · intro hcG
      by_cases h0 : c = "parameter_type"
      · exact .inr h0
      · exact .inl (hasMeta_col ((b4 i c _ h0).1 (metaAt_hasMeta b1 hcG (by omega))))
    · rintro (hcF | rfl)
      · by_cases h0 : c = "parameter_type"
        · subst h0
          exact hasMeta_col (e3 i zero)
        · exact hasMeta_col ((b4 i c _ h0).2 (metaAt_hasMeta hF hcF (by omega)))
      · exact hasMeta_col (e3 i zero)
  refine ⟨xs, ys, hF, b1, hi, hlen, cols, fun i c hl h0 => ?_, fun i hl => hasMeta_at b1 (e3 i hl),
    fun i hl => (e4 i hl).kind, fun i hl => ⟨_, e1 i hl⟩, fun i hl => ⟨_, e2 i hl⟩, fun i hl => b2.symm ▸ e4 i hl⟩
  by_cases hcF : c ∈ F.cols
  · exact hasMeta_at b1 ((b4 i c _ h0).2 (metaAt_hasMeta hF hcF (by omega)))
  · have hcG : c ∉ G.cols := fun hcG => hcF (((cols i hl c).1 hcG).resolve_right h0)
    have none : ∀ {H : DFrame K}, H.Ok → c ∉ H.cols → H.metaAt i c = .none := by
      intro H hH hcH
      unfold DFrame.metaAt
      split
      · rename_i r hrr
        unfold rowVal
        rw [List.idxOf_eq_length hcH, List.getD_eq_getElem?_getD, List.getElem?_eq_none]
        · rfl
        · exact (hH.meta_len r (List.mem_of_getElem? hrr)).le
      · rfl
    rw [none hF hcF, none b1 hcG]

variable [FloorSemiring K]

/-- **C102**: the means of interpolated timeseries are the interpolated means. -/
theorem C102_means {reg : Registry K} {views : Bool} {F G : DFrame K} {target : List Int} {ext : Extrap}
    (hF : F.Ok) (hr : ∀ c ∈ requiredCols, c ∈ F.cols) (hc : Complete F) (hi : F.times.Pairwise (· < ·))
    (ht : target.Pairwise (· < ·)) {kind : Nat → PType} {drop : List String} (hk : Kinds reg views F kind)
    (h1 : OneKind F drop kind) (h2 : OneSpelling F drop kind) (h : F.interpolate reg views target ext = .ok G)
    {T T' : GroupTable K} (hT : F.processOver drop .mean = .ok T) (hT' : G.processOver drop .mean = .ok T') :
    (∀ row ∈ T.rows, ∃ row' ∈ T'.rows, SameAtTimes F G T T' ext row row') ∧
    (∀ row' ∈ T'.rows, ∃ row ∈ T.rows, SameAtTimes F G T T' ext row row') := by
  obtain ⟨xs, ys, hM⟩ := interpolate_moved hF hr hc hi ht hk h
  have spelled : ∃ word : PType → String, "parameter_type" ∈ drop ∨ "parameter_type" ∉ F.cols ∨
      ∀ i, i < F.data.length → F.metaAt i "parameter_type" = .str (word (kind i)) := by
    rcases h2 with h2 | h2 | ⟨word, h2⟩
    · exact ⟨typeText, .inl h2⟩
    · exact ⟨typeText, .inr (.inl h2)⟩
    · exact ⟨word, .inr (.inr h2)⟩
  obtain ⟨word, hw⟩ := spelled
  exact AtTimes.means ⟨hM, hw, h1⟩ hT hT'

/-! ## Medians -/

/-- Three scenarios of two models. -/
def spreadF : DFrame ℚ :=
  { times := [0, 10, 20], cols := ["model", "scenario", "region", "variable", "unit", "parameter_type"]
    data := [(0, [.num 0, .num 10, .num 10]), (1, [.num 1, .num 1, .num 1]), (2, [.num 5, .num 0, .num 0]),
      (3, [.num 1, .num 3, .num 7])]
    «meta» := [(0, [.str "m", .str "a", .str "World", .str "T", .str "K", .str "Point"]),
      (1, [.str "m", .str "b", .str "World", .str "T", .str "K", .str "Point"]),
      (2, [.str "m", .str "c", .str "World", .str "T", .str "K", .str "Point"]),
      (3, [.str "n", .str "a", .str "World", .str "T", .str "K", .str "Point"])] }

def spreadG : DFrame ℚ := thenFrame (spreadF.interpolate (fun _ => none) true [0, 5, 10] .linear)

theorem spreadF_ok : spreadF.Ok :=
  ⟨by decide +kernel, by decide +kernel, by decide +kernel, by decide +kernel, by decide +kernel⟩

theorem spreadF_complete : Complete spreadF := by
  intro d hd
  simp only [spreadF, List.mem_cons, List.not_mem_nil, or_false] at hd
  rcases hd with rfl | rfl | rfl | rfl
  · exact ⟨[0, 10, 10], rfl⟩
  · exact ⟨[1, 1, 1], rfl⟩
  · exact ⟨[5, 0, 0], rfl⟩
  · exact ⟨[1, 3, 7], rfl⟩

theorem spreadF_kinds : Kinds (fun _ => none) true spreadF fun _ => .point := by
  intro i hi
  refine ⟨"Point", .given ?_ (by simp), kindWord_iff.2 (show (TyArg.str "Point").parse = .ok .point by decide +kernel)⟩
  match i, hi with
  | 0, _ | 1, _ | 2, _ | 3, _ => exact ⟨5, _, rfl, rfl, rfl⟩

/-- Hypotheses of `C102_means`, and what it says. -/
example : spreadF.Ok ∧ (∀ c ∈ requiredCols, c ∈ spreadF.cols) ∧ Complete spreadF ∧ spreadF.times.Pairwise (· < ·) ∧
    Kinds (fun _ => none) true spreadF (fun _ => .point) ∧ OneKind spreadF ["scenario"] (fun _ => .point) ∧
    OneSpelling spreadF ["scenario"] (fun _ => .point) ∧
    spreadF.interpolate (fun _ => none) true [0, 5, 10] .linear = .ok spreadG ∧
    spreadF.processOver ["scenario"] .mean = .ok ⟨["model", "region", "variable", "unit", "parameter_type"],
      [([.str "m", .str "World", .str "T", .str "K", .str "Point"], [.num 2, .num (11 / 3), .num (11 / 3)]),
        ([.str "n", .str "World", .str "T", .str "K", .str "Point"], [.num 1, .num 3, .num 7])]⟩ ∧
    spreadG.processOver ["scenario"] .mean = .ok ⟨["model", "region", "variable", "unit", "parameter_type"],
      [([.str "m", .str "World", .str "T", .str "K", .str "point"], [.num 2, .num (17 / 6), .num (11 / 3)]),
        ([.str "n", .str "World", .str "T", .str "K", .str "point"], [.num 1, .num 2, .num 3])]⟩ := by
  refine ⟨spreadF_ok, by decide +kernel, spreadF_complete, by decide +kernel, spreadF_kinds, fun _ _ _ _ _ => rfl,
    .inr (.inr ⟨fun _ => "Point", ?_⟩), by decide +kernel, by decide +kernel, by decide +kernel⟩
  decide +kernel

/-- **C102**: medians of interpolated timeseries are not the interpolated medians. -/
theorem C102_median : ∃ (F G : DFrame ℚ) (T T' : GroupTable ℚ) (drop : List String),
    F.Ok ∧ (∀ c ∈ requiredCols, c ∈ F.cols) ∧ Complete F ∧ F.times.Pairwise (· < ·) ∧ G.times.Pairwise (· < ·) ∧
    Kinds (fun _ => none) true F (fun _ => .point) ∧ OneKind F drop (fun _ => .point) ∧
    OneSpelling F drop (fun _ => .point) ∧ F.interpolate (fun _ => none) true G.times .linear = .ok G ∧
    F.processOver drop .median = .ok T ∧ G.processOver drop .median = .ok T' ∧
    ∃ row ∈ T.rows, ∀ row' ∈ T'.rows, ¬ SameAtTimes F G T T' .linear row row' := by
  refine ⟨spreadF, spreadG, ⟨["model", "region", "variable", "unit", "parameter_type"],
      [([.str "m", .str "World", .str "T", .str "K", .str "Point"], [.num 1, .num 1, .num 1]),
        ([.str "n", .str "World", .str "T", .str "K", .str "Point"], [.num 1, .num 3, .num 7])]⟩,
      ⟨["model", "region", "variable", "unit", "parameter_type"],
      [([.str "m", .str "World", .str "T", .str "K", .str "point"], [.num 1, .num (5 / 2), .num 1]),
        ([.str "n", .str "World", .str "T", .str "K", .str "point"], [.num 1, .num 2, .num 3])]⟩, ["scenario"],
    spreadF_ok, by decide +kernel, spreadF_complete, by decide +kernel, by decide +kernel, spreadF_kinds,
    fun _ _ _ _ _ => rfl, .inr (.inr ⟨fun _ => "Point", by decide +kernel⟩), by decide +kernel, by decide +kernel,
    by decide +kernel, _, List.mem_cons_self, ?_⟩
  rintro row' hrow ⟨hm, p, hp, hpl⟩
  have hG : spreadG.times = [0, 5, 10] := by decide +kernel
  rw [hG] at hpl
  have hpp : p = .point := by
    refine typeText_inj hpl.kind (.inr rfl) ?_
    have := hp (by decide +kernel)
    simp only [List.mem_cons, List.not_mem_nil, or_false] at hrow
    rcases hrow with rfl | rfl
    · refine (PyVal.str.inj (K := ℚ) (Eq.trans ?_ this)).symm
      decide +kernel
    · refine (PyVal.str.inj (K := ℚ) (Eq.trans ?_ this)).symm
      decide +kernel
  subst hpp
  have flat : Placed (K := ℚ) .linear [0, 10, 20] [0, 5, 10] [.num 1, .num 1, .num 1] [.num 1, .num 1, .num 1] .point :=
    .point (c := ⟨[0, 10, 20], [0, 5, 10], .point, .linear⟩) (by simp [mkTSConv]) (by decide +kernel)
  have := hpl.same flat
  simp only [List.mem_cons, List.not_mem_nil, or_false] at hrow
  rcases hrow with rfl | rfl
  · exact absurd this (by decide +kernel)
  · exact absurd this (by decide +kernel)

end Openscm
