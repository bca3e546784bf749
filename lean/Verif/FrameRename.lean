import Verif.FrameProps1

/-!
# Renaming metadata (model)

`ScmDataFrameBase.rename`, `openscm/scmdataframe/base.py:823-869`.
-/

set_option linter.unusedSectionVars false

namespace Openscm

variable {K : Type} [Field K] [DecidableEq K]

/-- `pd.isnull`. -/
def PyVal.isNull : PyVal K → Bool
  | .none => true
  | .flt .nan => true
  | _ => false

/-- Values that `DataFrame.duplicated` takes for the same; missing values are the same. -/
def PyVal.same (a b : PyVal K) : Bool := (a.isNull && b.isNull) || a.eq b

def sameRow : List (PyVal K) → List (PyVal K) → Bool
  | [], [] => true
  | a :: r, b :: s => a.same b && sameRow r s
  | _, _ => false

/-- `duplicated().any()`. -/
def hasDuplicates : List (List (PyVal K)) → Bool
  | [] => false
  | r :: l => l.any (sameRow r) || hasDuplicates l

/-- `Series.replace(mapping)` for one value: all replacements at once. -/
def replaceVal (m : List (String × String)) (v : PyVal K) : PyVal K :=
  match v with
  | .str s =>
    match m.find? fun st => st.1 = s with
    | some st => .str st.2
    | none => .str s
  | v => v

/-- `ret._meta[col] = ret._meta[col].replace(_mapping)`. -/
def DFrame.replaceCol (F : DFrame K) (i : Nat) (m : List (String × String)) : DFrame K :=
  { F with «meta» := F.meta.map fun r => (r.1, r.2.modify i (replaceVal m)) }

/-- The loop of `rename`: the error, if any, and the frame it leaves. -/
def DFrame.renameLoop : List (String × List (String × String)) → DFrame K → Except Err Unit × DFrame K
  | [], F => (.ok (), F)
  | (c, m) :: r, F =>
    match F.cols.findIdx? (· = c) with
    | none => (.error .valueError, F)
    | some i =>
      let F' := F.replaceCol i m
      if hasDuplicates (F'.meta.map (·.2)) then (.error .valueError, F') else DFrame.renameLoop r F'

/-- `rename`, `openscm/scmdataframe/base.py:823-869`: what is returned, and the frame afterwards. -/
def DFrame.rename (F : DFrame K) (mapping : List (String × List (String × String))) (inplace : Bool) :
    Except Err (Option (DFrame K)) × DFrame K :=
  match F.renameLoop mapping with
  | (.error e, G) => (.error e, if inplace then G else F)
  | (.ok _, G) => if inplace then (.ok none, G) else (.ok (some G), F)

/-! ## C51: specification -/

/-- Both missing, or equal. -/
inductive SameValue : PyVal K → PyVal K → Prop
  | missing {a b : PyVal K} : (a = .none ∨ a = .flt .nan) → (b = .none ∨ b = .flt .nan) → SameValue a b
  | equal (a : PyVal K) : SameValue a a
  | intFloat (z : Int) : SameValue (.int z) (.flt (.num (z : K)))
  | floatInt (z : Int) : SameValue (.flt (.num (z : K))) (.int z)

/-- No two timeseries have the same metadata. -/
def DistinctMeta (F : DFrame K) : Prop :=
  F.meta.Pairwise fun r s => ¬ List.Forall₂ SameValue r.2 s.2

/-- What becomes of a value of column `c`. -/
inductive ValueRenamed (mapping : List (String × List (String × String))) (c : String) : PyVal K → PyVal K → Prop
  | mapped {m : List (String × String)} {s t : String} : (c, m) ∈ mapping → (s, t) ∈ m →
      ValueRenamed mapping c (.str s) (.str t)
  | kept {v : PyVal K} : (∀ m s t, (c, m) ∈ mapping → (s, t) ∈ m → v ≠ .str s) → ValueRenamed mapping c v v

/-- `G` is `F` with renamed metadata: the same data, times, columns, labels and order. -/
structure Renamed (mapping : List (String × List (String × String))) (F G : DFrame K) : Prop where
  times : G.times = F.times
  cols : G.cols = F.cols
  data : G.data = F.data
  rows : List.Forall₂ (fun r s : Nat × List (PyVal K) => s.1 = r.1 ∧ s.2.length = r.2.length ∧
    ∀ (i : Nat) (c : String) (v v' : PyVal K), F.cols[i]? = some c → r.2[i]? = some v → s.2[i]? = some v' →
      ValueRenamed mapping c v v') F.meta G.meta

/-- A mapping of columns to mappings, as dictionaries are. -/
def DictKeys (mapping : List (String × List (String × String))) : Prop :=
  (mapping.map (·.1)).Nodup ∧ ∀ cm ∈ mapping, (cm.2.map (·.1)).Nodup

/-! ## Facts -/

theorem same_iff {a b : PyVal K} : a.same b = true ↔ SameValue a b := by
  constructor
  · intro h
    simp only [PyVal.same, Bool.or_eq_true, Bool.and_eq_true] at h
    rcases h with ⟨h1, h2⟩ | h
    · refine .missing ?_ ?_
      · revert h1; cases a <;> simp [PyVal.isNull]
        rename_i x; cases x <;> simp
      · revert h2; cases b <;> simp [PyVal.isNull]
        rename_i x; cases x <;> simp
    · revert h
      cases a with
      | str s => cases b <;> simp [PyVal.eq]; rintro rfl; exact .equal _
      | int z =>
        cases b with
        | int y => simp [PyVal.eq]; rintro rfl; exact .equal _
        | flt y =>
          cases y with
          | nan => simp [PyVal.eq]
          | num y => simp [PyVal.eq]; rintro rfl; exact .intFloat _
        | _ => simp [PyVal.eq]
      | flt x =>
        cases x with
        | nan => simp [PyVal.eq]
        | num x =>
          cases b with
          | int y => simp [PyVal.eq]; rintro rfl; exact .floatInt _
          | flt y =>
            cases y with
            | nan => simp [PyVal.eq]
            | num y => simp [PyVal.eq]; rintro rfl; exact .equal _
          | _ => simp [PyVal.eq]
      | none => cases b <;> simp [PyVal.eq]; exact .equal _
      | time t => cases b <;> simp [PyVal.eq]; rintro rfl; exact .equal _
  · intro h
    cases h with
    | missing h1 h2 => rcases h1 with rfl | rfl <;> rcases h2 with rfl | rfl <;> rfl
    | equal =>
      cases a with
      | flt x => cases x <;> simp [PyVal.same, PyVal.isNull, PyVal.eq]
      | _ => simp [PyVal.same, PyVal.isNull, PyVal.eq]
    | intFloat => simp [PyVal.same, PyVal.eq]
    | floatInt => simp [PyVal.same, PyVal.eq]

theorem sameRow_iff {r s : List (PyVal K)} : sameRow r s = true ↔ List.Forall₂ SameValue r s := by
  induction r generalizing s with
  | nil => cases s <;> simp [sameRow]
  | cons a r ih => cases s <;> simp [sameRow, same_iff, ih]

theorem hasDuplicates_iff {F : DFrame K} : hasDuplicates (F.meta.map (·.2)) = false ↔ DistinctMeta F := by
  unfold DistinctMeta
  induction F.meta with
  | nil => simp [hasDuplicates]
  | cons r l ih =>
    simp only [List.map_cons, hasDuplicates, Bool.or_eq_false_iff, ih, List.pairwise_cons, List.any_map,
      List.any_eq_false, Function.comp]
    refine and_congr_left fun _ => forall_congr' fun s => forall_congr' fun _ => ?_
    rw [sameRow_iff]

theorem replaceVal_renamed {mapping : List (String × List (String × String))} (hd : DictKeys mapping) {c : String}
    {m : List (String × String)} (hm : (c, m) ∈ mapping) (v : PyVal K) :
    ValueRenamed mapping c v (replaceVal m v) := by
  have huniq : ∀ m', (c, m') ∈ mapping → m' = m := by
    intro m' h'
    have := List.inj_on_of_nodup_map hd.1 h' hm rfl
    exact congrArg Prod.snd this
  unfold replaceVal
  split
  · rename_i s
    cases hf : m.find? (fun st => decide (st.1 = s)) with
    | none =>
      simp only
      refine .kept fun m' s' t' h1 h2 he => ?_
      cases he
      rw [huniq m' h1] at h2
      rw [List.find?_eq_none] at hf
      simpa using hf _ h2
    | some st =>
      simp only
      have h1 := List.mem_of_find?_eq_some hf
      have h2 : st.1 = s := by simpa using List.find?_some hf
      obtain ⟨a, b⟩ := st
      cases h2
      exact .mapped hm h1
  · rename_i v hv
    exact .kept fun _ s _ _ _ he => hv s he

theorem ValueRenamed.unique {mapping : List (String × List (String × String))} (hd : DictKeys mapping) {c : String}
    {v a b : PyVal K} (h1 : ValueRenamed mapping c v a) (h2 : ValueRenamed mapping c v b) : a = b := by
  cases h1 with
  | mapped hm hs =>
    generalize hv : PyVal.str _ = v at h2
    cases h2 with
    | mapped hm' hs' =>
      cases hv
      have e := congrArg Prod.snd (List.inj_on_of_nodup_map hd.1 hm hm' rfl)
      simp only at e
      subst e
      have := List.inj_on_of_nodup_map (hd.2 _ hm) hs hs' rfl
      cases this
      rfl
    | kept hk => exact absurd hv.symm (hk _ _ _ hm hs)
  | kept hk =>
    cases h2 with
    | mapped hm' hs' => exact absurd rfl (hk _ _ _ hm' hs')
    | kept _ => rfl

theorem Renamed.unique {mapping : List (String × List (String × String))} (hd : DictKeys mapping) {F G H : DFrame K}
    (hF : F.Ok) (h1 : Renamed mapping F G) (h2 : Renamed mapping F H) : G = H := by
  have hm : G.meta = H.meta := by
    have a := h1.rows
    have b := h2.rows
    have hl := hF.meta_len
    generalize F.meta = l at a b hl
    generalize G.meta = g at a
    generalize H.meta = h at b
    induction a generalizing h with
    | nil => cases b; rfl
    | @cons r s l g hrs _ ih =>
      cases b with
      | @cons _ s' _ h hrs' b =>
        rw [ih (fun r hr => hl r (by simp [hr])) h b]
        congr 1
        obtain ⟨e1, e2, e3⟩ := hrs
        obtain ⟨f1, f2, f3⟩ := hrs'
        refine Prod.ext (e1.trans f1.symm) (List.ext_getElem (e2.trans f2.symm) fun i hi hi' => ?_)
        have hir : i < r.2.length := by omega
        have hic : i < F.cols.length := by rw [← hl r (by simp)]; exact hir
        exact (e3 i F.cols[i] r.2[i] s.2[i] (by simp [hic]) (by simp [hir]) (by simp [hi])).unique hd
          (f3 i F.cols[i] r.2[i] s'.2[i] (by simp [hic]) (by simp [hir]) (by simp [hi']))
  obtain ⟨a1, a2, a3, -⟩ := h1
  obtain ⟨b1, b2, b3, -⟩ := h2
  cases G; cases H
  simp_all

theorem Renamed.refl (F : DFrame K) : Renamed [] F F := by
  refine ⟨rfl, rfl, rfl, ?_⟩
  refine List.forall₂_same.2 fun r _ => ⟨rfl, rfl, fun i c v v' _ h1 h2 => ?_⟩
  rw [h1] at h2
  cases h2
  exact .kept (by simp)

theorem getElem?_modify' {α : Type} (f : α → α) (i j : Nat) (l : List α) :
    (l.modify i f)[j]? = if i = j then l[j]?.map f else l[j]? := by
  rw [List.getElem?_modify]
  split
  · cases l[j]? <;> rfl
  · cases l[j]? <;> rfl

/-- The first column, then the others. -/
theorem Renamed.cons {mapping : List (String × List (String × String))} {c : String} {m : List (String × String)}
    (hd : DictKeys ((c, m) :: mapping)) {F G : DFrame K} (hF : F.Ok) {i : Nat} (hi : F.cols[i]? = some c)
    (h : Renamed mapping (F.replaceCol i m) G) : Renamed ((c, m) :: mapping) F G := by
  obtain ⟨h1, h2, h3, h4⟩ := h
  refine ⟨h1, h2, h3, ?_⟩
  simp only [DFrame.replaceCol, List.forall₂_map_left_iff] at h4
  refine h4.imp fun r s hrs => ?_
  obtain ⟨a, b, e⟩ := hrs
  refine ⟨a, by simpa using b, fun j c' v v' hj hv hv' => ?_⟩
  have hnot : ∀ m', (c, m') ∉ mapping := by
    intro m' hm'
    have := hd.1
    simp only [List.map_cons, List.nodup_cons] at this
    exact this.1 (List.mem_map_of_mem (f := (·.1)) hm')
  by_cases hij : i = j
  · subst hij
    rw [hi] at hj
    cases hj
    have hv2 := e i c (replaceVal m v) v' hi (by rw [getElem?_modify', if_pos rfl, hv]; rfl) hv'
    have hrv := replaceVal_renamed hd (K := K) (List.mem_cons_self) v
    generalize replaceVal m v = w at hv2 hrv
    cases hv2 with
    | mapped hm _ => exact absurd hm (hnot _)
    | kept _ => exact hrv
  · have hv2 := e j c' v v' hj (by rw [getElem?_modify', if_neg hij]; exact hv) hv'
    have hcc : c' ≠ c := by
      rintro rfl
      exact hij ((List.getElem?_inj (List.getElem?_eq_some_iff.1 hi).1 hF.cols_nodup).1 (hi.trans hj.symm))
    cases hv2 with
    | mapped hm hs => exact .mapped (List.mem_cons_of_mem _ hm) hs
    | kept hk =>
      refine .kept fun m' s' t' hm' hs' => ?_
      rcases List.mem_cons.1 hm' with he | hm'
      · cases he; exact absurd rfl hcc
      · exact hk m' s' t' hm' hs'

theorem DFrame.Ok.replaceCol {F : DFrame K} (hF : F.Ok) (i : Nat) (m : List (String × String)) : (F.replaceCol i m).Ok := by
  obtain ⟨h1, h2, h3, h4, h5⟩ := hF
  refine ⟨?_, h2, h3, h4, ?_⟩
  · simp only [DFrame.replaceCol, List.map_map]; exact h1
  · intro r hr
    obtain ⟨x, hx, rfl⟩ := List.mem_map.1 hr
    simpa [DFrame.replaceCol] using h5 x hx

theorem DictKeys.tail {mapping : List (String × List (String × String))} {x : String × List (String × String)}
    (h : DictKeys (x :: mapping)) : DictKeys mapping :=
  ⟨(List.nodup_cons.1 h.1).2, fun cm hm => h.2 cm (List.mem_cons_of_mem _ hm)⟩

theorem renameLoop_ok {mapping : List (String × List (String × String))} (hd : DictKeys mapping) {F G : DFrame K}
    (hF : F.Ok) (h : F.renameLoop mapping = (.ok (), G)) :
    Renamed mapping F G ∧ (∀ cm ∈ mapping, cm.1 ∈ F.cols) ∧ (mapping ≠ [] → DistinctMeta G) ∧ G.Ok := by
  induction mapping generalizing F with
  | nil =>
    simp only [DFrame.renameLoop, Prod.mk.injEq, true_and] at h
    subst h
    exact ⟨.refl F, by simp, fun h => absurd rfl h, hF⟩
  | cons x mapping ih =>
    obtain ⟨c, m⟩ := x
    unfold DFrame.renameLoop at h
    cases hi : F.cols.findIdx? (· = c) with
    | none => rw [hi] at h; simp at h
    | some i =>
      rw [hi] at h
      simp only at h
      split at h
      · simp at h
      · rename_i hdup
        obtain ⟨h1, h2, h3, h4⟩ := ih hd.tail (hF.replaceCol i m) h
        refine ⟨h1.cons hd hF (findIdx_col hi), ?_, fun _ => ?_, h4⟩
        · rw [List.forall_mem_cons]
          exact ⟨List.mem_of_getElem? (findIdx_col hi), h2⟩
        · cases mapping with
          | nil =>
            simp only [DFrame.renameLoop, Prod.mk.injEq, true_and] at h
            subst h
            exact hasDuplicates_iff.1 (by simpa using hdup)
          | cons y l => exact h3 (by simp)

theorem renameLoop_error {mapping : List (String × List (String × String))} {F : DFrame K} :
    (F.renameLoop mapping).1 = .ok () ∨ (F.renameLoop mapping).1 = .error .valueError := by
  induction mapping generalizing F with
  | nil => exact .inl rfl
  | cons x l ih =>
    obtain ⟨c, m⟩ := x
    unfold DFrame.renameLoop
    cases F.cols.findIdx? (· = c) with
    | none => exact .inr rfl
    | some i =>
      simp only
      split
      · exact .inr rfl
      · exact ih

/-! ## C51 -/

/-- C51: a renaming that works replaces exactly the mapped values of the given columns and keeps the rest; the
given columns exist and the new metadata are distinct. Not in place, the frame itself is unchanged. -/
theorem C51_renamed {mapping : List (String × List (String × String))} (hd : DictKeys mapping) {F F' : DFrame K}
    (hF : F.Ok) {inplace : Bool} {out : Option (DFrame K)} (h : F.rename mapping inplace = (.ok out, F')) :
    ∃ G, (if inplace then out = none ∧ F' = G else out = some G ∧ F' = F) ∧ Renamed mapping F G ∧
      (∀ cm ∈ mapping, cm.1 ∈ F.cols) ∧ (mapping ≠ [] → DistinctMeta G) := by
  unfold DFrame.rename at h
  cases hl : F.renameLoop mapping with
  | mk r G =>
    rw [hl] at h
    cases r with
    | error e => simp at h
    | ok u =>
      obtain ⟨h1, h2, h3, -⟩ := renameLoop_ok hd hF hl
      refine ⟨G, ?_, h1, h2, h3⟩
      cases inplace <;> simp_all

/-- C51: unless it is done in place, renaming leaves the frame unchanged, whether it works or not. -/
theorem C51_unchanged (F : DFrame K) (mapping : List (String × List (String × String))) :
    (F.rename mapping false).2 = F := by
  unfold DFrame.rename
  cases F.renameLoop mapping with
  | mk r G => cases r <;> rfl

/-- C51: a column that the frame does not have is refused. -/
theorem C51_unknown {mapping : List (String × List (String × String))} (hd : DictKeys mapping) {F : DFrame K}
    (hF : F.Ok) {cm : String × List (String × String)} (hm : cm ∈ mapping) (hc : cm.1 ∉ F.cols) (inplace : Bool) :
    (F.rename mapping inplace).1 = .error .valueError := by
  unfold DFrame.rename
  cases hl : F.renameLoop mapping with
  | mk r G =>
    have he := renameLoop_error (mapping := mapping) (F := F)
    rw [hl] at he
    rcases he with he | he
    · simp only at he
      subst he
      exact absurd ((renameLoop_ok hd hF hl).2.1 cm hm) hc
    · simp only at he
      subst he
      rfl

/-- C51: a result in which two timeseries have the same metadata is refused. -/
theorem C51_clash {mapping : List (String × List (String × String))} (hd : DictKeys mapping) {F G : DFrame K}
    (hF : F.Ok) (hne : mapping ≠ []) (hG : Renamed mapping F G) (hG' : ¬ DistinctMeta G) (inplace : Bool) :
    (F.rename mapping inplace).1 = .error .valueError := by
  unfold DFrame.rename
  cases hl : F.renameLoop mapping with
  | mk r H =>
    have he := renameLoop_error (mapping := mapping) (F := F)
    rw [hl] at he
    rcases he with he | he
    · simp only at he
      subst he
      obtain ⟨h1, -, h3, -⟩ := renameLoop_ok hd hF hl
      rw [h1.unique hd hF hG] at h3
      exact absurd (h3 hne) hG'
    · simp only at he
      subst he
      rfl

theorem replaceVal_same (m : List (String × String)) {a b : PyVal K} (h : SameValue a b) :
    SameValue (replaceVal m a) (replaceVal m b) := by
  cases h with
  | missing h1 h2 => rcases h1 with rfl | rfl <;> rcases h2 with rfl | rfl <;> exact .missing (by simp [replaceVal]) (by simp [replaceVal])
  | equal => exact .equal _
  | intFloat => exact .intFloat _
  | floatInt => exact .floatInt _

theorem modify_same (i : Nat) (m : List (String × String)) {r s : List (PyVal K)} (h : List.Forall₂ SameValue r s) :
    List.Forall₂ SameValue (r.modify i (replaceVal m)) (s.modify i (replaceVal m)) := by
  induction h generalizing i with
  | nil => simp
  | cons h1 h2 ih =>
    cases i with
    | zero => exact .cons (replaceVal_same m h1) h2
    | succ i => exact .cons h1 (ih i)

theorem DistinctMeta.of_replaceCol {F : DFrame K} {i : Nat} {m : List (String × String)}
    (h : DistinctMeta (F.replaceCol i m)) : DistinctMeta F := by
  unfold DistinctMeta DFrame.replaceCol at h
  simp only [List.pairwise_map] at h
  exact h.imp fun hrs hs => hrs (modify_same i m hs)

/-- The frame that renaming without checks gives. -/
theorem exists_renamed {mapping : List (String × List (String × String))} (hd : DictKeys mapping) {F : DFrame K}
    (hF : F.Ok) (hc : ∀ cm ∈ mapping, cm.1 ∈ F.cols) :
    ∃ G, Renamed mapping F G ∧ (DistinctMeta G → DistinctMeta F) := by
  induction mapping generalizing F with
  | nil => exact ⟨F, .refl F, id⟩
  | cons x mapping ih =>
    obtain ⟨c, m⟩ := x
    cases hi : F.cols.findIdx? (· = c) with
    | none =>
      rw [List.findIdx?_eq_none_iff] at hi
      exact absurd (hi c (hc (c, m) (by simp))) (by simp)
    | some i =>
      obtain ⟨G, hG, hD⟩ := ih hd.tail (hF.replaceCol i m) (fun cm h => hc cm (List.mem_cons_of_mem _ h))
      exact ⟨G, hG.cons hd hF (findIdx_col hi), fun h => (hD h).of_replaceCol⟩

/-- C51: renaming works whenever the columns exist and the result is distinct. -/
theorem C51_works {mapping : List (String × List (String × String))} (hd : DictKeys mapping) {F G : DFrame K}
    (hF : F.Ok) (hc : ∀ cm ∈ mapping, cm.1 ∈ F.cols) (hG : Renamed mapping F G) (hD : DistinctMeta G) :
    F.rename mapping false = (.ok (some G), F) ∧ F.rename mapping true = (.ok none, G) := by
  suffices h : F.renameLoop mapping = (.ok (), G) by simp [DFrame.rename, h]
  induction mapping generalizing F with
  | nil => rw [hG.unique hd hF (.refl F)]; rfl
  | cons x mapping ih =>
    obtain ⟨c, m⟩ := x
    unfold DFrame.renameLoop
    cases hi : F.cols.findIdx? (· = c) with
    | none =>
      rw [List.findIdx?_eq_none_iff] at hi
      exact absurd (hi c (hc (c, m) (by simp))) (by simp)
    | some i =>
      simp only
      obtain ⟨H, hH, hHD⟩ := exists_renamed hd.tail (hF.replaceCol i m) (fun cm h => hc cm (List.mem_cons_of_mem _ h))
      have e : G = H := hG.unique hd hF (hH.cons hd hF (findIdx_col hi))
      subst e
      rw [if_neg (by rw [hasDuplicates_iff.2 (hHD hD)]; simp)]
      exact ih hd.tail (hF.replaceCol i m) (fun cm h => hc cm (List.mem_cons_of_mem _ h)) hH

/-- Swapping two names works at once. -/
example : (demoF.rename [("scenario", [("a", "b"), ("b", "a")])] false).1 =
    .ok (some { demoF with «meta» := [(0, [.str "World", .str "b", .str "Emissions|CO2"]),
      (1, [.str "World", .str "a", .str "Emissions|CH4"]), (2, [.str "World|Asia", .str "b", .str "Emissions|CO2|Land"])] }) := by
  decide +kernel

/-- A clash: both variables become the same while region and scenario agree. -/
example : (demoF.rename [("scenario", [("b", "a")]), ("variable", [("Emissions|CO2", "E"), ("Emissions|CH4", "E")])] false).1 =
    .error .valueError := by decide +kernel

example : DictKeys [("scenario", [("b", "a")]), ("variable", [("Emissions|CO2", "E"), ("Emissions|CH4", "E")])] := by
  unfold DictKeys; decide

/-- Two timeseries that differ in scenario only. -/
def twoF : DFrame ℚ :=
  { times := [0], cols := ["model", "scenario"], data := [(0, [.num 1]), (1, [.num 2])],
    «meta» := [(0, [.str "m", .str "a"]), (1, [.str "n", .str "b"])] }

/-- In place, a refused renaming leaves a frame that is half renamed. -/
theorem C51_inplace : ∃ G, twoF.rename [("model", [("n", "k")]), ("region", [])] true = (.error .valueError, G) ∧ G ≠ twoF := by
  refine ⟨{ twoF with «meta» := [(0, [.str "m", .str "a"]), (1, [.str "k", .str "b"])] }, ?_, ?_⟩ <;> decide +kernel

end Openscm
