import Verif.FrameAppend5
import Verif.FrameMean

/-!
# C103: appending and interpolating

Frames on the same times may be interpolated before or after they are appended, if all of them say of what type their
timeseries are or none does.  Otherwise the values of frames that do not say so are lost.
-/

set_option linter.unusedSectionVars false

namespace Openscm

variable {K : Type} [Field K] [LinearOrder K] [IsStrictOrderedRing K]

/-! ## Means of arrays -/

/-- The means of `n` numbers of several arrays. -/
def meanLists {α : Type*} (n : Nat) (I : List α) (xs : α → List K) : List K :=
  (sumLists n I xs).map (affine ((I.length : K)⁻¹) 0)

theorem meanLists_length {α : Type*} {n : Nat} {I : List α} {xs : α → List K} : (meanLists n I xs).length = n := by
  simp [meanLists, sumLists]

theorem placed_means {α : Type*} {ext : Extrap} {src tgt : List Int} {p : PType} (hs : src.Pairwise (· < ·))
    {xs ys : α → List K} {I : List α} (hne : I ≠ []) (hx : ∀ i ∈ I, (xs i).length = src.length)
    (hy : ∀ i ∈ I, (ys i).length = tgt.length) (h : ∀ i ∈ I, Placed ext src tgt ((xs i).map .num) ((ys i).map .num) p) :
    Placed ext src tgt ((meanLists src.length I xs).map .num) ((meanLists tgt.length I ys).map .num) p := by
  have := (placed_sums hs hne hx hy h).map ((I.length : K)⁻¹) 0
  rw [List.map_map, List.map_map] at this
  rw [meanLists, meanLists, List.map_map, List.map_map]
  exact this

theorem average_means {α : Type*} {n k : Nat} {I : List α} {xs : α → List K} (hne : I ≠ []) (hk : k < n) :
    average (I.map fun a => (xs a).getD k 0) = some ((meanLists n I xs).getD k 0) := by
  have h1 : (meanLists n I xs).getD k 0 = affine ((I.length : K)⁻¹) 0 ((I.map fun a => (xs a).getD k 0).sum) := by
    rw [List.getD_eq_getElem?_getD, List.getElem?_eq_getElem (by rw [meanLists_length]; exact hk)]
    simp [meanLists, sumLists]
  rw [h1]
  unfold average affine
  rw [if_neg (by simpa using hne), List.length_map, div_eq_inv_mul, add_zero]

/-! ## Values at times -/

theorem idxOf_nodup_time {l : List Int} (hn : l.Nodup) {k : Nat} {t : Int} (h : l[k]? = some t) : l.idxOf t = k := by
  obtain ⟨hk, rfl⟩ := List.getElem?_eq_some_iff.1 h
  exact hn.idxOf_getElem k hk

theorem valueAt_of {F : DFrame K} (hF : F.Ok) (hn : F.times.Nodup) {i l k : Nat} {xs : List K}
    (h : F.data[i]? = some (l, xs.map .num)) {t : Int} (hk : F.times[k]? = some t) : F.valueAt i t = some (xs.getD k 0) := by
  have hl := hF.data_len _ (List.mem_of_getElem? h)
  rw [List.length_map] at hl
  have hkl := (List.getElem?_eq_some_iff.1 hk).1
  unfold DFrame.valueAt
  rw [h]
  simp only
  rw [idxOf_nodup_time hn hk, List.getD_eq_getElem?_getD, List.getElem?_map, List.getD_eq_getElem?_getD,
    List.getElem?_eq_getElem (by omega)]
  rfl

theorem valueAt_other {F : DFrame K} (hF : F.Ok) {i : Nat} {t : Int} (ht : t ∉ F.times) : F.valueAt i t = none := by
  unfold DFrame.valueAt
  split
  · rename_i s hs
    have hl := hF.data_len _ (List.mem_of_getElem? hs)
    rw [List.idxOf_eq_length ht, List.getD_eq_getElem?_getD, List.getElem?_eq_none (by omega)]
    rfl
  · rfl

/-- Values of a timeseries from what it has at each time. -/
theorem values_of {F : DFrame K} (hF : F.Ok) (hn : F.times.Nodup) {j : Nat} (hj : j < F.data.length) {ms : List K}
    (hl : ms.length = F.times.length) (h : ∀ k t, F.times[k]? = some t → F.valueAt j t = some (ms.getD k 0)) :
    ∃ l, F.data[j]? = some (l, ms.map .num) := by
  have hd := List.getElem?_eq_getElem hj
  refine ⟨F.data[j].1, ?_⟩
  have hlen := hF.data_len _ (List.mem_of_getElem? hd)
  have : F.data[j].2 = ms.map .num := by
    refine List.ext_getElem (by rw [hlen, List.length_map, hl]) fun k h1 h2 => ?_
    have hk : k < F.times.length := by omega
    have ht := List.getElem?_eq_getElem hk
    have hv := h k _ ht
    unfold DFrame.valueAt at hv
    rw [hd] at hv
    simp only at hv
    rw [idxOf_nodup_time hn ht, List.getD_eq_getElem?_getD, List.getElem?_eq_getElem h1, Option.getD_some,
      List.getD_eq_getElem?_getD, List.getElem?_eq_getElem (by omega), Option.getD_some] at hv
    rw [List.getElem_map]
    split at hv
    · rename_i x hx
      rw [hx, Option.some.inj hv]
    · cases hv
  rw [hd, ← this]

/-! ## All timeseries of several frames -/

/-- The timeseries of several frames. -/
def items {β : Type*} (P : List β) (n : β → Nat) : List (β × Nat) := P.flatMap fun p => (List.range (n p)).map fun i => (p, i)

theorem mem_items {β : Type*} {P : List β} {n : β → Nat} {a : β × Nat} : a ∈ items P n ↔ a.1 ∈ P ∧ a.2 < n a.1 := by
  obtain ⟨p, i⟩ := a
  simp only [items, List.mem_flatMap, List.mem_map, List.mem_range, Prod.mk.injEq]
  constructor
  · rintro ⟨q, hq, j, hj, rfl, rfl⟩
    exact ⟨hq, hj⟩
  · rintro ⟨hp, hi⟩
    exact ⟨p, hp, i, hi, rfl, rfl⟩

open Classical in
/-- The timeseries with the metadata `m`. -/
noncomputable def alike {β : Type*} (P : List β) (n : β → Nat) (g : β → DFrame K) (m : String → PyVal K) : List (β × Nat) :=
  (items P n).filter fun a => decide (SameMeta m ((g a.1).metaAt a.2))

theorem mem_alike {β : Type*} {P : List β} {n : β → Nat} {g : β → DFrame K} {m : String → PyVal K} {a : β × Nat} :
    a ∈ alike P n g m ↔ (a.1 ∈ P ∧ a.2 < n a.1) ∧ SameMeta m ((g a.1).metaAt a.2) := by
  classical
  unfold alike
  rw [List.mem_filter, mem_items, decide_eq_true_iff]

theorem valuesFor_alike {β : Type*} {P : List β} {n : β → Nat} {g : β → DFrame K} {m : String → PyVal K} {t : Int}
    (hn : ∀ p ∈ P, (g p).data.length = n p) :
    valuesFor (P.map g) m t = (alike P n g m).filterMap fun a => (g a.1).valueAt a.2 t := by
  classical
  unfold valuesFor alike items
  induction P with
  | nil => rfl
  | cons p P ih =>
    rw [List.map_cons, List.flatMap_cons, List.flatMap_cons, List.filter_append, List.filterMap_append,
      ih fun q hq => hn q (List.mem_cons_of_mem _ hq), hn p (by simp)]
    congr 1
    rw [List.filterMap_filter, List.filterMap_map]
    refine List.filterMap_congr fun i _ => ?_
    simp [Function.comp]

/-! ## Types -/

theorem sameValue_str_iff {s : String} {v : PyVal K} : SameValue v (.str s) ↔ v = .str s := by
  constructor
  · intro h
    cases h with
    | missing _ h => rcases h with h | h <;> cases h
    | equal => rfl
  · rintro rfl
    exact .equal _

/-- Frames that all say of what type their timeseries are, each type in one way, or that all leave it open. -/
def TypesAlike (dfs : List (DFrame K)) : Prop :=
  (∀ F ∈ dfs, "parameter_type" ∉ F.cols) ∨
  ∃ word : PType → String, ∀ F ∈ dfs, ∀ i, i < F.data.length → ∃ p, KindWord (word p) p ∧
    F.metaAt i "parameter_type" = .str (word p)

/-- Both say the type in the same way, or none does. -/
def TypeSaid (F G : DFrame K) (i j : Nat) : Prop :=
  ("parameter_type" ∉ F.cols ∧ "parameter_type" ∉ G.cols) ∨
  ∃ w, F.metaAt i "parameter_type" = .str w ∧ G.metaAt j "parameter_type" = .str w

theorem type_agree {reg : Registry K} {views : Bool} {F G : DFrame K} (hF : F.Ok) (hG : G.Ok) {i j : Nat} {v : PyVal K}
    {w : String} (hs : SameMeta (F.metaAt i) (G.metaAt j)) (hc : TypeSaid F G i j) (h : TypeIs reg views F i v)
    (h' : TypeIs reg views G j (.str w)) : v = .str w := by
  rcases hc with ⟨c1, c2⟩ | ⟨u, c1, c2⟩
  · have hv := hs "variable"
    have hu := hs "unit"
    cases h with
    | given h => exact absurd (hasMeta_col h) c1
    | unknown h1 =>
      cases h' with
      | given h' => exact absurd (hasMeta_col h') c2
      | guessed h2 => rw [h1] at h2; cases h2
      | guessedNoUnit h2 => rw [h1] at h2; cases h2
    | guessed _ _ h3 h4 =>
      rw [hasMeta_at hF h3] at hv
      rw [hasMeta_at hF h4] at hu
      generalize hw : PyVal.str (K := K) w = w' at h' ⊢
      cases h' with
      | given h' => exact absurd (hasMeta_col h') c2
      | unknown => cases hw
      | guessed _ _ g3 g4 =>
        rw [hasMeta_at hG g3] at hv
        rw [hasMeta_at hG g4] at hu
        rw [sameValue_str hv, sameValue_str hu]
      | guessedNoUnit _ _ g3 g4 =>
        rw [hasMeta_at hG g4] at hu
        have := sameValue_str_iff.1 hu.symm
        cases this
    | guessedNoUnit _ _ h3 h4 =>
      rw [hasMeta_at hF h3] at hv
      rw [hasMeta_at hF h4] at hu
      generalize hw : PyVal.str (K := K) w = w' at h' ⊢
      cases h' with
      | given h' => exact absurd (hasMeta_col h') c2
      | unknown => cases hw
      | guessed _ _ g3 g4 =>
        rw [hasMeta_at hG g4] at hu
        have := sameValue_str_iff.1 hu
        cases this
      | guessedNoUnit _ _ g3 g4 =>
        rw [hasMeta_at hG g3] at hv
        rw [sameValue_str hv]
  · have key : ∀ {H : DFrame K} {k : Nat} {x : PyVal K}, H.Ok → H.metaAt k "parameter_type" = .str u →
        TypeIs reg views H k x → x = .str u := by
      intro H k x hH hm hx
      have no : ¬ ("parameter_type" ∉ H.cols ∨ H.HasMeta k "parameter_type" .none) := by
        rintro (hn | hn)
        · rw [metaAt_absent hH hn] at hm; cases hm
        · rw [hasMeta_at hH hn] at hm; cases hm
      cases hx with
      | given h => rw [← hm, hasMeta_at hH h]
      | guessed _ h => exact absurd h no
      | guessedNoUnit _ h => exact absurd h no
      | unknown _ h => exact absurd h no
    rw [key hF c1 h, ← key hG c2 h']

/-! ## Appending and interpolating -/

theorem SameMeta.sym {m m' : String → PyVal K} (h : SameMeta m m') : SameMeta m' m := fun c => (h c).symm

theorem SameMeta.comp {m m' m'' : String → PyVal K} (h : SameMeta m m') (h' : SameMeta m' m'') : SameMeta m m'' :=
  fun c => (h c).trans (h' c)

theorem kindWord_unique {w : String} {p q : PType} (h : KindWord w p) (h' : KindWord w q) : p = q := by
  rw [kindWord_iff] at h h'
  rw [h] at h'
  exact Except.ok.inj h'

theorem increasing_eq {l m : List Int} (hl : l.Pairwise (· < ·)) (hm : m.Pairwise (· < ·)) (h : ∀ t, t ∈ l ↔ t ∈ m) : l = m := by
  refine List.Perm.eq_of_pairwise (le := (· < ·)) (fun a b _ _ h1 h2 => absurd h1 (not_lt_of_gt h2)) hl hm ?_
  exact (List.perm_ext_iff_of_nodup (hl.imp fun h => ne_of_lt h) (hm.imp fun h => ne_of_lt h)).2 h

/-- A row of what was appended, as the means of the rows that are in it. -/
theorem append_row {β : Type*} {P : List β} {g : β → DFrame K} {n : β → Nat} {xs : β × Nat → List K} {ts : List Int}
    {msg : DupMsg} {R : DFrame K} (hg : ∀ p ∈ P, (g p).Ok) (hr : ∀ p ∈ P, ∀ c ∈ requiredCols, c ∈ (g p).cols)
    (hs : ∀ p ∈ P, NoSentinel (g p)) (hn : ∀ p ∈ P, (g p).data.length = n p) (ht : ∀ p ∈ P, (g p).times = ts)
    (hi : ts.Pairwise (· < ·)) (hx : ∀ a ∈ items P n, ∃ l, (g a.1).data[a.2]? = some (l, (xs a).map .num))
    (h : dfAppend (P.map g) msg = .ok (.frame R)) :
    R.Ok ∧ R.times = ts ∧ (∀ c, c ∈ R.cols ↔ ∃ p ∈ P, c ∈ (g p).cols) ∧
    (∀ a ∈ items P n, ∃ j < R.data.length, SameMeta (R.metaAt j) ((g a.1).metaAt a.2)) ∧
    (∀ j < R.data.length, ∃ a ∈ items P n, SameMeta (R.metaAt j) ((g a.1).metaAt a.2)) ∧
    ∀ j < R.data.length, ∃ l, R.data[j]? = some (l, (meanLists ts.length (alike P n g (R.metaAt j)) xs).map .num) := by
  have hg' : ∀ F ∈ P.map g, F.Ok := by
    intro F hF; obtain ⟨p, hp, rfl⟩ := List.mem_map.1 hF; exact hg p hp
  have hr' : ∀ F ∈ P.map g, ∀ c ∈ requiredCols, c ∈ F.cols := by
    intro F hF; obtain ⟨p, hp, rfl⟩ := List.mem_map.1 hF; exact hr p hp
  have hs' : ∀ F ∈ P.map g, NoSentinel F := by
    intro F hF; obtain ⟨p, hp, rfl⟩ := List.mem_map.1 hF; exact hs p hp
  obtain ⟨a1, a2, a3, a4, a5, -, a7⟩ := C52_average_partial hg' hr' hs' h
  have hne := dfAppend_ne h
  have htimes : R.times = ts := by
    refine increasing_eq a3 hi fun t => ?_
    rw [a2]
    constructor
    · rintro ⟨F, hF, htF⟩
      obtain ⟨p, hp, rfl⟩ := List.mem_map.1 hF
      rwa [ht p hp] at htF
    · intro htt
      obtain ⟨F, hF⟩ := List.exists_mem_of_ne_nil _ hne
      obtain ⟨p, hp, rfl⟩ := List.mem_map.1 hF
      exact ⟨g p, hF, by rwa [ht p hp]⟩
  have rows : ∀ j < R.data.length, ∃ a ∈ items P n, SameMeta (R.metaAt j) ((g a.1).metaAt a.2) := by
    intro j hj
    obtain ⟨F, hF, i, hil, hsm⟩ := a5 j hj
    obtain ⟨p, hp, rfl⟩ := List.mem_map.1 hF
    exact ⟨(p, i), mem_items.2 ⟨hp, by rw [← hn p hp]; exact hil⟩, hsm⟩
  refine ⟨a1, htimes, fun c => ?_, ?_, rows, ?_⟩
  · rw [append_cols hg' hr' h]
    simp
  · intro a ha
    obtain ⟨hp, hil⟩ := mem_items.1 ha
    exact a4 _ (List.mem_map_of_mem hp) a.2 (by rw [hn _ hp]; exact hil)
  · intro j hj
    refine values_of a1 (a3.imp fun h => ne_of_lt h) hj (by rw [meanLists_length, htimes]) fun k t hk => ?_
    obtain ⟨a, ha, hsa⟩ := rows j hj
    have hal : alike P n g (R.metaAt j) ≠ [] := List.ne_nil_of_mem (mem_alike.2 ⟨mem_items.1 ha, hsa⟩)
    rw [htimes] at hk
    rw [a7 j hj, valuesFor_alike hn, ← average_means (xs := xs) hal (List.getElem?_eq_some_iff.1 hk).1]
    congr 1
    rw [← List.filterMap_eq_map]
    refine List.filterMap_congr fun b hb => ?_
    obtain ⟨hb1, -⟩ := mem_alike.1 hb
    obtain ⟨l, e⟩ := hx b (mem_items.2 hb1)
    rw [valueAt_of (hg _ hb1.1) (by rw [ht _ hb1.1]; exact hi.imp fun h => ne_of_lt h) e (by rw [ht _ hb1.1]; exact hk)]
    rfl

theorem interpolate_required {reg : Registry K} {views : Bool} {F G : DFrame K} {target : List Int} {ext : Extrap}
    (hr : ∀ c ∈ requiredCols, c ∈ F.cols) (h : F.interpolate reg views target ext = .ok G) : ∀ c ∈ requiredCols, c ∈ G.cols := by
  obtain ⟨rows, ks, new, h1, h2, h3, rfl⟩ := interpolate_parts h
  exact fun c hc => (withType_cols hr).2 (.inl (hr c hc))

/-- **C103**, for frames on the same times that all say of what type their timeseries are or all do not: values of what
is interpolated after appending, and of what is appended after interpolation. -/
theorem C103_commute_partial {reg : Registry K} {views : Bool} {dfs dfs' : List (DFrame K)} {msg msg' : DupMsg}
    {R R' S : DFrame K} {ts target : List Int} {ext : Extrap} (hF : ∀ F ∈ dfs, F.Ok)
    (hr : ∀ F ∈ dfs, ∀ c ∈ requiredCols, c ∈ F.cols) (hs : ∀ F ∈ dfs, NoSentinel F) (hc : ∀ F ∈ dfs, Complete F)
    (hty : ∀ F ∈ dfs, Typed reg views F) (hal : TypesAlike dfs) (hts : ∀ F ∈ dfs, F.times = ts)
    (hi : ts.Pairwise (· < ·)) (ht : target.Pairwise (· < ·)) (ha : dfAppend dfs msg = .ok (.frame R))
    (hR' : R.interpolate reg views target ext = .ok R')
    (hd : List.Forall₂ (fun F G => F.interpolate reg views target ext = .ok G) dfs dfs')
    (hS : dfAppend dfs' msg' = .ok (.frame S)) (m : String → PyVal K) (t : Int) (x : K) :
    R'.Has m t x ↔ S.Has m t x := by
  classical
  have hPT : Nonempty PType := ⟨.point⟩
  -- pairs of frames
  obtain ⟨P, rfl, rfl, hP⟩ : ∃ P : List (DFrame K × DFrame K), dfs = P.map Prod.fst ∧ dfs' = P.map Prod.snd ∧
      ∀ p ∈ P, p.1.interpolate reg views target ext = .ok p.2 := by
    clear hF hr hs hc hty hal hts ha hS
    induction hd with
    | nil => exact ⟨[], rfl, rfl, by simp⟩
    | @cons F G l l' h _ ih =>
      obtain ⟨P, rfl, rfl, h3⟩ := ih
      exact ⟨(F, G) :: P, rfl, rfl, List.forall_mem_cons.2 ⟨h, h3⟩⟩
  clear hd
  have mem1 : ∀ p ∈ P, p.1 ∈ P.map Prod.fst := fun p hp => List.mem_map_of_mem hp
  have each : ∀ p ∈ P, ∃ kind xs ys, Moved p.1 p.2 ext kind xs ys ∧ Kinds reg views p.1 kind := by
    intro p hp
    obtain ⟨-, -, -, -, b5⟩ := C56_placed_partial (hF _ (mem1 p hp)) (hr _ (mem1 p hp)) (hP p hp)
    have : ∀ i, i < p.1.data.length → ∃ q w, TypeIs reg views p.1 i (.str w) ∧ KindWord w q := by
      intro i hil
      obtain ⟨new, -, hb⟩ := b5 i _ (List.getElem?_eq_getElem hil)
      obtain ⟨w, hw⟩ := hty _ (mem1 p hp) i hil
      rcases hb with ⟨w', q, g1, g2, -⟩ | ⟨v, g1, g2, -⟩
      · exact ⟨q, w', g1, g2⟩
      · have := g1.unique (hF _ (mem1 p hp)) hw
        subst this
        cases g2
    choose! kind hk using this
    obtain ⟨xs, ys, hM⟩ := interpolate_moved (hF _ (mem1 p hp)) (hr _ (mem1 p hp)) (hc _ (mem1 p hp))
      (by rw [hts _ (mem1 p hp)]; exact hi) ht hk (hP p hp)
    exact ⟨kind, xs, ys, hM, hk⟩
  choose! kind xs ys hM hK using each
  let n : DFrame K × DFrame K → Nat := fun p => p.1.data.length
  let X : (DFrame K × DFrame K) × Nat → List K := fun a => xs a.1 a.2
  let Y : (DFrame K × DFrame K) × Nat → List K := fun a => ys a.1 a.2
  have t1 : ∀ p ∈ P, p.1.times = ts := fun p hp => hts _ (mem1 p hp)
  have t2 : ∀ p ∈ P, p.2.times = target := fun p hp =>
    (C56_placed_partial (hF _ (mem1 p hp)) (hr _ (mem1 p hp)) (hP p hp)).2.1
  obtain ⟨r1, r2, r3, r4, r5, r6⟩ := append_row (P := P) (g := Prod.fst) (n := n) (xs := X) (ts := ts)
    (fun p hp => hF _ (mem1 p hp)) (fun p hp => hr _ (mem1 p hp)) (fun p hp => hs _ (mem1 p hp)) (fun _ _ => rfl) t1 hi
    (fun a hm => (hM _ (mem_items.1 hm).1).before _ (mem_items.1 hm).2) ha
  have reqG : ∀ p ∈ P, ∀ c ∈ requiredCols, c ∈ p.2.cols := by
    intro p hp
    exact interpolate_required (hr _ (mem1 p hp)) (hP p hp)
  have noG : ∀ p ∈ P, NoSentinel p.2 := by
    intro p hp i c
    by_cases hil : i < p.1.data.length
    · by_cases h0 : c = "parameter_type"
      · subst h0
        rw [(hM p hp).type i hil]
        intro h
        cases h with
        | missing h1 _ => rcases h1 with h1 | h1 <;> cases h1
      · rw [(hM p hp).others i c hil h0]
        exact hs _ (mem1 p hp) i c
    · unfold DFrame.metaAt
      rw [List.getElem?_eq_none]
      · intro h
        cases h with
        | missing _ h1 => rcases h1 with h1 | h1 <;> cases h1
      · rw [Ok.lengths (hM p hp).okG, (hM p hp).length]
        omega
  obtain ⟨s1, s2, s3, s4, s5, s6⟩ := append_row (P := P) (g := Prod.snd) (n := n) (xs := Y) (ts := target)
    (fun p hp => (hM p hp).okG) reqG noG (fun p hp => (hM p hp).length) t2 ht
    (fun a hm => (hM _ (mem_items.1 hm).1).after _ (mem_items.1 hm).2) hS
  -- types of timeseries with the same metadata
  have said : ∀ a ∈ items P n, ∀ b ∈ items P n, SameMeta (a.1.1.metaAt a.2) (b.1.1.metaAt b.2) →
      TypeSaid a.1.1 b.1.1 a.2 b.2 := by
    intro a ma b mb hab
    obtain ⟨pa, ia⟩ := mem_items.1 ma
    obtain ⟨pb, ib⟩ := mem_items.1 mb
    rcases hal with hal | ⟨word, hal⟩
    · exact .inl ⟨hal _ (mem1 _ pa), hal _ (mem1 _ pb)⟩
    · obtain ⟨q, -, e⟩ := hal _ (mem1 _ pb) b.2 ib
      have := hab "parameter_type"
      rw [e] at this
      exact .inr ⟨word q, sameValue_str_iff.1 this, e⟩
  have kinds : ∀ a ∈ items P n, ∀ b ∈ items P n, SameMeta (a.1.1.metaAt a.2) (b.1.1.metaAt b.2) →
      kind a.1 a.2 = kind b.1 b.2 := by
    intro a ma b mb hab
    obtain ⟨pa, ia⟩ := mem_items.1 ma
    obtain ⟨pb, ib⟩ := mem_items.1 mb
    obtain ⟨w, w1, w2⟩ := hK _ pa a.2 ia
    obtain ⟨u, u1, u2⟩ := hK _ pb b.2 ib
    have := type_agree (hF _ (mem1 _ pa)) (hF _ (mem1 _ pb)) hab (said a ma b mb hab) w1 u1
    cases this
    exact kindWord_unique w2 u2
  have same : ∀ a ∈ items P n, ∀ b ∈ items P n,
      (SameMeta (a.1.2.metaAt a.2) (b.1.2.metaAt b.2) ↔ SameMeta (a.1.1.metaAt a.2) (b.1.1.metaAt b.2)) := by
    intro a ma b mb
    obtain ⟨pa, ia⟩ := mem_items.1 ma
    obtain ⟨pb, ib⟩ := mem_items.1 mb
    constructor
    · intro h c
      by_cases h0 : c = "parameter_type"
      · subst h0
        have := h "parameter_type"
        rw [(hM _ pa).type _ ia, (hM _ pb).type _ ib] at this
        have e := typeText_inj ((hM _ pa).kinds _ ia) ((hM _ pb).kinds _ ib) (sameValue_str this)
        rcases hal with hal | ⟨word, hal⟩
        · rw [metaAt_absent (hF _ (mem1 _ pa)) (hal _ (mem1 _ pa)), metaAt_absent (hF _ (mem1 _ pb)) (hal _ (mem1 _ pb))]
          exact .equal _
        · have word_of : ∀ d ∈ items P n, d.1.1.metaAt d.2 "parameter_type" = .str (word (kind d.1 d.2)) := by
            intro d md
            obtain ⟨pd, id⟩ := mem_items.1 md
            obtain ⟨q, q1, q2⟩ := hal _ (mem1 _ pd) d.2 id
            obtain ⟨w, w1, w2⟩ := hK _ pd d.2 id
            have hcol : "parameter_type" ∈ d.1.1.cols := by
              by_contra hn
              rw [metaAt_absent (hF _ (mem1 _ pd)) hn] at q2
              cases q2
            have hm := metaAt_hasMeta (hF _ (mem1 _ pd)) hcol (i := d.2) (by rw [Ok.lengths (hF _ (mem1 _ pd))]; exact id)
            rw [q2] at hm
            have := (TypeIs.given (reg := reg) (views := views) hm (by simp)).unique (hF _ (mem1 _ pd)) w1
            cases this
            rw [q2, kindWord_unique q1 w2]
          rw [word_of a ma, word_of b mb, e]
          exact .equal _
      · have := h c
        rwa [(hM _ pa).others _ c ia h0, (hM _ pb).others _ c ib h0] at this
    · intro h c
      by_cases h0 : c = "parameter_type"
      · subst h0
        rw [(hM _ pa).type _ ia, (hM _ pb).type _ ib, kinds a ma b mb h]
        exact .equal _
      · rw [(hM _ pa).others _ c ia h0, (hM _ pb).others _ c ib h0]
        exact h c
  have saidR : ∀ j, ∀ a ∈ items P n, SameMeta (R.metaAt j) (a.1.1.metaAt a.2) → TypeSaid R a.1.1 j a.2 := by
    intro j a ma hab
    obtain ⟨pa, ia⟩ := mem_items.1 ma
    rcases hal with hal | ⟨word, hal⟩
    · refine .inl ⟨fun hR => ?_, hal _ (mem1 _ pa)⟩
      obtain ⟨p, hp, hc⟩ := (r3 _).1 hR
      exact hal _ (mem1 _ hp) hc
    · obtain ⟨q, -, e⟩ := hal _ (mem1 _ pa) a.2 ia
      have := hab "parameter_type"
      rw [e] at this
      exact .inr ⟨word q, sameValue_str_iff.1 this, e⟩
  -- what was appended, interpolated
  have reqR : ∀ c ∈ requiredCols, c ∈ R.cols := by
    intro c hcr
    obtain ⟨F, hFm⟩ := List.exists_mem_of_ne_nil _ (dfAppend_ne ha)
    obtain ⟨p, hp, rfl⟩ := List.mem_map.1 hFm
    exact (r3 c).2 ⟨p, hp, hr _ hFm c hcr⟩
  obtain ⟨-, R't, -, -, R5⟩ := C56_placed_partial r1 reqR hR'
  have kR : ∀ j, j < R.data.length → ∃ q w, TypeIs reg views R j (.str w) ∧ KindWord w q := by
    intro j hj
    obtain ⟨new, -, hb⟩ := R5 j _ (List.getElem?_eq_getElem hj)
    obtain ⟨a, ma, hsa⟩ := r5 j hj
    obtain ⟨pa, ia⟩ := mem_items.1 ma
    obtain ⟨w, w1, w2⟩ := hK _ pa a.2 ia
    rcases hb with ⟨w', q, g1, g2, -⟩ | ⟨v, g1, g2, -⟩
    · exact ⟨q, w', g1, g2⟩
    · have := type_agree r1 (hF _ (mem1 _ pa)) hsa (saidR j a ma hsa) g1 w1
      subst this
      cases g2
  choose! kindR hkR using kR
  have cR : Complete R := by
    intro d hd
    obtain ⟨j, hj, e⟩ := List.getElem_of_mem hd
    obtain ⟨l, e'⟩ := r6 j hj
    rw [List.getElem?_eq_getElem hj, e] at e'
    rw [Option.some.inj e']
    exact ⟨_, rfl⟩
  obtain ⟨xR, yR, hMR⟩ := interpolate_moved r1 reqR cR (by rw [r2]; exact hi) ht hkR hR'
  have pair : ∀ j < R.data.length, ∀ j' < S.data.length, ∀ a ∈ items P n, SameMeta (R.metaAt j) (a.1.1.metaAt a.2) →
      SameMeta (S.metaAt j') (a.1.2.metaAt a.2) →
      SameMeta (R'.metaAt j) (S.metaAt j') ∧ ∀ t, R'.valueAt j t = S.valueAt j' t := by
    intro j hj j' hj' a ma h1 h2
    obtain ⟨pa, ia⟩ := mem_items.1 ma
    have hkind : kindR j = kind a.1 a.2 := by
      obtain ⟨w, w1, w2⟩ := hkR j hj
      obtain ⟨u, u1, u2⟩ := hK _ pa a.2 ia
      have := type_agree r1 (hF _ (mem1 _ pa)) h1 (saidR j a ma h1) w1 u1
      cases this
      exact kindWord_unique w2 u2
    refine ⟨fun c => ?_, fun t => ?_⟩
    · refine SameValue.trans ?_ (h2 c).symm
      by_cases h0 : c = "parameter_type"
      · subst h0
        rw [hMR.type j hj, (hM _ pa).type _ ia, hkind]
        exact .equal _
      · rw [hMR.others j c hj h0, (hM _ pa).others _ c ia h0]
        exact h1 c
    · have hmem : alike P n Prod.snd (S.metaAt j') = alike P n Prod.fst (R.metaAt j) := by
        unfold alike
        refine List.filter_congr fun b mb => ?_
        rw [decide_eq_decide]
        constructor
        · intro h
          exact h1.comp ((same a ma b mb).1 (h2.sym.comp h))
        · intro h
          exact h2.comp ((same a ma b mb).2 (h1.sym.comp h))
      obtain ⟨l1, e1⟩ := hMR.before j hj
      obtain ⟨l2, e2⟩ := hMR.after j hj
      obtain ⟨l3, e3⟩ := r6 j hj
      obtain ⟨l4, e4⟩ := s6 j' hj'
      rw [e1] at e3
      have ex := congrArg Prod.snd (Option.some.inj e3)
      simp only at ex
      have p1 := hMR.placed j hj
      rw [ex, r2, R't] at p1
      have p2 : Placed ext ts target ((meanLists ts.length (alike P n Prod.fst (R.metaAt j)) X).map .num)
          ((meanLists target.length (alike P n Prod.fst (R.metaAt j)) Y).map .num) (kindR j) := by
        refine placed_means hi (List.ne_nil_of_mem (mem_alike.2 ⟨mem_items.1 ma, h1⟩)) ?_ ?_ ?_
        · intro b hb
          obtain ⟨⟨pb, ib⟩, -⟩ := mem_alike.1 hb
          obtain ⟨l, e⟩ := (hM _ pb).before _ ib
          have := (hM _ pb).okF.data_len _ (List.mem_of_getElem? e)
          rw [t1 _ pb] at this
          simpa using this
        · intro b hb
          obtain ⟨⟨pb, ib⟩, -⟩ := mem_alike.1 hb
          obtain ⟨l, e⟩ := (hM _ pb).after _ ib
          have := (hM _ pb).okG.data_len _ (List.mem_of_getElem? e)
          rw [t2 _ pb] at this
          simpa using this
        · intro b hb
          obtain ⟨mb, hb⟩ := mem_alike.1 hb
          obtain ⟨pb, ib⟩ := mb
          have := (hM _ pb).placed _ ib
          rw [t1 _ pb, t2 _ pb] at this
          rw [hkind, kinds a ma b (mem_items.2 ⟨pb, ib⟩) (h1.sym.comp hb)]
          exact this
      have ey := p1.same p2
      rw [hmem] at e4
      unfold DFrame.valueAt
      rw [e2, e4, ey, R't, s2]
  constructor
  · rintro ⟨j, hj, hm, hv⟩
    rw [hMR.length] at hj
    obtain ⟨a, ma, h1⟩ := r5 j hj
    obtain ⟨j', hj', h2⟩ := s4 a ma
    obtain ⟨k1, k2⟩ := pair j hj j' hj' a ma h1 h2
    exact ⟨j', hj', hm.comp k1, by rw [← k2]; exact hv⟩
  · rintro ⟨j', hj', hm, hv⟩
    obtain ⟨a, ma, h2⟩ := s5 j' hj'
    obtain ⟨j, hj, h1⟩ := r4 a ma
    obtain ⟨k1, k2⟩ := pair j hj j' hj' a ma h1 h2
    exact ⟨j, by rw [hMR.length]; exact hj, hm.comp k1.sym, by rw [k2]; exact hv⟩

/-! ## Examples and what fails -/

/-- One timeseries of surface temperatures. -/
def warmIn (scenario : String) (vals : List ℚ) (types : List String) : DFrame ℚ :=
  { times := [0, 10, 20], cols := ["model", "scenario", "region", "variable", "unit"] ++ types.map fun _ => "parameter_type"
    data := [(0, vals.map .num)]
    «meta» := [(0, [.str "m", .str scenario, .str "World", .str "Surface Temperature", .str "K"] ++ types.map .str)] }

theorem warmIn_kind {vals : List ℚ} {sc : String} {types : List String} (h : types = [] ∨ types = ["point"]) :
    Typed (fun _ => none) true (warmIn sc vals types) := by
  intro i hi
  match i, hi with
  | 0, _ =>
    rcases h with rfl | rfl
    · exact ⟨_, .guessed rfl (.inl (show "parameter_type" ∉ ["model", "scenario", "region", "variable", "unit"] by decide)) ⟨3, _, rfl, rfl, rfl⟩ ⟨4, _, rfl, rfl, rfl⟩⟩
    · exact ⟨"point", .given ⟨5, _, rfl, rfl, rfl⟩ (by simp)⟩

theorem warmIn_complete {vals : List ℚ} {sc : String} {types : List String} : Complete (warmIn sc vals types) := by
  intro d hd
  simp only [warmIn, List.mem_singleton] at hd
  exact ⟨vals, by rw [hd]⟩

/-- What is put together first, and what is interpolated first. -/
def joinR (dfs : List (DFrame ℚ)) : DFrame ℚ := appendFrame (dfAppend dfs .warn)
def joinR' (dfs : List (DFrame ℚ)) : DFrame ℚ := thenFrame ((joinR dfs).interpolate (fun _ => none) true [0, 5, 30] .linear)
def joinG (F : DFrame ℚ) : DFrame ℚ := thenFrame (F.interpolate (fun _ => none) true [0, 5, 30] .linear)
def joinS (dfs : List (DFrame ℚ)) : DFrame ℚ := joinR (dfs.map joinG)

/-- Two timeseries with the same metadata and one with other metadata. -/
def threeF : List (DFrame ℚ) := [warmIn "a" [1, 3, 5] [], warmIn "b" [1, 2, 4] [], warmIn "a" [3, 3, 1] []]

/-- Hypotheses of `C103_commute_partial`, and what it says. -/
example : (∀ F ∈ threeF, F.Ok) ∧ (∀ F ∈ threeF, ∀ c ∈ requiredCols, c ∈ F.cols) ∧ (∀ F ∈ threeF, NoSentinel F) ∧
    (∀ F ∈ threeF, Complete F) ∧ (∀ F ∈ threeF, Typed (fun _ => none) true F) ∧ TypesAlike threeF ∧
    (∀ F ∈ threeF, F.times = [0, 10, 20]) ∧ dfAppend threeF .warn = .ok (.frame (joinR threeF)) ∧
    (joinR threeF).interpolate (fun _ => none) true [0, 5, 30] .linear = .ok (joinR' threeF) ∧
    List.Forall₂ (fun F G => F.interpolate (fun _ => none) true [0, 5, 30] .linear = .ok G) threeF (threeF.map joinG) ∧
    dfAppend (threeF.map joinG) .warn = .ok (.frame (joinS threeF)) ∧
    (joinR' threeF).data.map (·.2) = [[.num 2, .num (5 / 2), .num 3], [.num 1, .num (3 / 2), .num 6]] ∧
    (joinS threeF).data.map (·.2) = [[.num 2, .num (5 / 2), .num 3], [.num 1, .num (3 / 2), .num 6]] := by
  refine ⟨?_, by decide +kernel, ?_, ?_, ?_, .inl (by decide +kernel), by decide +kernel, appendFrame_ok (by decide +kernel),
    by decide +kernel, .cons (by decide +kernel) (.cons (by decide +kernel) (.cons (by decide +kernel) .nil)),
    appendFrame_ok (by decide +kernel), by decide +kernel, by decide +kernel⟩
  · intro F hF
    simp only [threeF, List.mem_cons, List.not_mem_nil, or_false] at hF
    rcases hF with rfl | rfl | rfl <;>
      exact ⟨by decide +kernel, by decide +kernel, by decide +kernel, by decide +kernel, by decide +kernel⟩
  · intro F hF
    simp only [threeF, List.mem_cons, List.not_mem_nil, or_false] at hF
    rcases hF with rfl | rfl | rfl <;> exact noSentinel_of (by decide +kernel)
  · intro F hF
    simp only [threeF, List.mem_cons, List.not_mem_nil, or_false] at hF
    rcases hF with rfl | rfl | rfl <;> exact warmIn_complete
  · intro F hF
    simp only [threeF, List.mem_cons, List.not_mem_nil, or_false] at hF
    rcases hF with rfl | rfl | rfl <;> exact warmIn_kind (.inl rfl)

/-- **C103**: a frame that does not say of what type its timeseries are loses its values if it is appended to one that
does and the result is interpolated. -/
theorem C103_untyped : ∃ (F G F' G' R R' S : DFrame ℚ) (m : String → PyVal ℚ) (x : ℚ), F.Ok ∧ G.Ok ∧
    NoSentinel F ∧ NoSentinel G ∧ Complete F ∧ Complete G ∧ Typed (fun _ => none) true F ∧ Typed (fun _ => none) true G ∧
    F.times = [0, 10, 20] ∧ G.times = [0, 10, 20] ∧ dfAppend [F, G] .warn = .ok (.frame R) ∧
    R.interpolate (fun _ => none) true [0, 5, 30] .linear = .ok R' ∧
    F.interpolate (fun _ => none) true [0, 5, 30] .linear = .ok F' ∧
    G.interpolate (fun _ => none) true [0, 5, 30] .linear = .ok G' ∧ dfAppend [F', G'] .warn = .ok (.frame S) ∧
    S.Has m 5 x ∧ ∀ y, ¬ R'.Has m 5 y := by
  refine ⟨warmIn "a" [1, 3, 5] ["point"], warmIn "b" [1, 2, 4] [], joinG (warmIn "a" [1, 3, 5] ["point"]),
    joinG (warmIn "b" [1, 2, 4] []), joinR [warmIn "a" [1, 3, 5] ["point"], warmIn "b" [1, 2, 4] []],
    joinR' [warmIn "a" [1, 3, 5] ["point"], warmIn "b" [1, 2, 4] []],
    joinS [warmIn "a" [1, 3, 5] ["point"], warmIn "b" [1, 2, 4] []],
    (joinS [warmIn "a" [1, 3, 5] ["point"], warmIn "b" [1, 2, 4] []]).metaAt 1, 3 / 2,
    ⟨by decide +kernel, by decide +kernel, by decide +kernel, by decide +kernel, by decide +kernel⟩,
    ⟨by decide +kernel, by decide +kernel, by decide +kernel, by decide +kernel, by decide +kernel⟩,
    noSentinel_of (by decide +kernel), noSentinel_of (by decide +kernel), warmIn_complete, warmIn_complete,
    warmIn_kind (.inr rfl), warmIn_kind (.inl rfl), rfl, rfl, appendFrame_ok (by decide +kernel), by decide +kernel,
    by decide +kernel, by decide +kernel, appendFrame_ok (by decide +kernel),
    ⟨1, by decide +kernel, fun c => .equal _, by decide +kernel⟩, ?_⟩
  rintro y ⟨j, hj, hm, hv⟩
  have hlen : (joinR' [warmIn "a" [1, 3, 5] ["point"], warmIn "b" [1, 2, 4] []]).data.length = 2 := by decide +kernel
  rw [hlen] at hj
  match j, hj with
  | 0, _ =>
    have := hm "scenario"
    rw [show (joinS [warmIn "a" [1, 3, 5] ["point"], warmIn "b" [1, 2, 4] []]).metaAt 1 "scenario" = .str "b" by decide +kernel,
      show (joinR' [warmIn "a" [1, 3, 5] ["point"], warmIn "b" [1, 2, 4] []]).metaAt 0 "scenario" = .str "a" by decide +kernel]
      at this
    exact absurd (sameValue_str this) (by decide)
  | 1, _ =>
    rw [show (joinR' [warmIn "a" [1, 3, 5] ["point"], warmIn "b" [1, 2, 4] []]).valueAt 1 5 = none by decide +kernel] at hv
    cases hv

end Openscm
