import Verif.RoundDeep
import Verif.FrameAppend2
import Mathlib.Data.List.TakeWhile

/-!
# C78: metadata of frames in parameter sets, and back
-/

set_option linter.unusedSectionVars false

namespace Openscm

variable {K : Type} [Field K] [LinearOrder K] [IsStrictOrderedRing K]

/-! ## Columns that stand for scalars -/

theorem takeWhile_prefix_of {α : Type} {p : α → Bool} {a b : List α} (h : ∃ x ∈ a, p x = false) :
    (a ++ b).takeWhile p = a.takeWhile p := by
  induction a with
  | nil => simp at h
  | cons x a ih =>
    rw [List.cons_append, List.takeWhile_cons, List.takeWhile_cons]
    by_cases hx : p x = true
    · rw [if_pos hx, if_pos hx]
      obtain ⟨y, hy, hp⟩ := h
      rcases List.mem_cons.1 hy with rfl | hy
      · rw [hx] at hp; simp at hp
      · rw [ih ⟨y, hy, hp⟩]
    · rw [if_neg hx, if_neg hx]

theorem dropWhile_prefix_of {α : Type} {p : α → Bool} {a b : List α} (h : ∃ x ∈ a, p x = false) :
    (a ++ b).dropWhile p = a.dropWhile p ++ b := by
  induction a with
  | nil => simp at h
  | cons x a ih =>
    rw [List.cons_append, List.dropWhile_cons, List.dropWhile_cons]
    by_cases hx : p x = true
    · rw [if_pos hx, if_pos hx]
      obtain ⟨y, hy, hp⟩ := h
      rcases List.mem_cons.1 hy with rfl | hy
      · rw [hx] at hp; simp at hp
      · rw [ih ⟨y, hy, hp⟩]
    · rw [if_neg hx, if_neg hx]; rfl

theorem stripChars_mem {l : List Char} {x : Char} (h : x ∈ stripChars l) : x ∈ l := by
  unfold stripChars at h
  have h := (List.dropWhile_suffix _).subset (List.mem_reverse.1 h)
  exact (List.dropWhile_suffix _).subset (List.mem_reverse.1 h)

theorem takeWhile_all {α : Type} {p : α → Bool} {l : List α} {x : α} (h : x ∈ l.takeWhile p) : p x = true ∧ x ∈ l := by
  induction l with
  | nil => simp at h
  | cons y l ih =>
    rw [List.takeWhile_cons] at h
    split at h
    · rename_i hy
      rcases List.mem_cons.1 h with rfl | h
      · exact ⟨hy, List.mem_cons_self⟩
      · exact ⟨(ih h).1, List.mem_cons_of_mem _ (ih h).2⟩
    · simp at h

/-- Names and units taken from columns have no brackets in the name, and neither has line breaks. -/
theorem scalarKey_chars {k n u : String} (h : scalarKey k = some (n, u)) :
    (∀ x ∈ n.toList, x ≠ '(' ∧ x ≠ '\n') ∧ ∀ x ∈ u.toList, x ≠ '\n' := by
  unfold scalarKey at h
  simp only at h
  split at h
  · rename_i hp
    simp only [Option.some.injEq, Prod.mk.injEq] at h
    obtain ⟨rfl, rfl⟩ := h
    obtain ⟨rest, hsplit⟩ : ∃ rest, k.toList = k.toList.takeWhile (fun x => decide (x ≠ '\n')) ++ rest :=
      ⟨_, (List.takeWhile_append_dropWhile ..).symm⟩
    generalize hP : k.toList.takeWhile (fun x => decide (x ≠ '\n')) = P at hp hsplit
    have hnl : ∀ x ∈ P, x ≠ '\n' := by
      intro x hx
      rw [← hP] at hx
      simpa using (takeWhile_all hx).1
    have hopen : ∃ x ∈ P, decide (x ≠ '(') = false := by
      by_contra hc
      push Not at hc
      have : P.dropWhile (fun x => decide (x ≠ '(')) = [] := by
        rw [List.dropWhile_eq_nil_iff]
        intro x hx
        simpa using hc x hx
      rw [this] at hp
      simp at hp
    simp only [String.toList_ofList]
    constructor
    · intro x hx
      have hx := stripChars_mem hx
      rw [hsplit, takeWhile_prefix_of hopen] at hx
      exact ⟨by simpa using (takeWhile_all hx).1, hnl x (takeWhile_all hx).2⟩
    · intro x hx
      have hx := stripChars_mem hx
      rw [hsplit, dropWhile_prefix_of hopen] at hx
      have hsuf : P.dropWhile (fun x => decide (x ≠ '(')) <:+ P := List.dropWhile_suffix _
      have hhead := List.head?_dropWhile_not (fun x => decide (x ≠ '(')) P
      generalize P.dropWhile (fun x => decide (x ≠ '(')) = D at hp hx hsuf hhead
      cases D with
      | nil => simp at hp
      | cons d T =>
        have hd : d = '(' := by simpa using hhead
        subst hd
        have hT : ')' ∈ T := by simpa using hp
        rw [List.cons_append, List.tail_cons] at hx
        by_cases ho : '(' ∈ T
        · rw [takeWhile_prefix_of (a := T) ⟨'(', ho, by simp⟩] at hx
          exact hnl x (hsuf.subset (List.mem_cons_of_mem _ (takeWhile_all (takeWhile_all hx).2).2))
        · have : (T ++ rest).takeWhile (fun x => decide (x ≠ '(')) =
              T ++ rest.takeWhile (fun x => decide (x ≠ '(')) := by
            rw [List.takeWhile_append_of_pos]
            intro y hy
            simp only [ne_eq, decide_not, Bool.not_eq_eq_eq_not, Bool.not_true, decide_eq_false_iff_not]
            rintro rfl; exact ho hy
          rw [this, takeWhile_prefix_of (a := T) ⟨')', hT, by simp⟩] at hx
          exact hnl x (hsuf.subset (List.mem_cons_of_mem _ (takeWhile_all hx).2))
  · simp at h

/-- A name written back with its unit is again taken for a scalar. -/
theorem scalarKey_written {n u : String} (hn : ∀ x ∈ n.toList, x ≠ '(' ∧ x ≠ '\n') (hu : ∀ x ∈ u.toList, x ≠ '\n') :
    scalarKey (n ++ " (" ++ u ++ ")") ≠ none := by
  have hl : (n ++ " (" ++ u ++ ")").toList = (n.toList ++ [' ']) ++ ('(' :: (u.toList ++ [')'])) := by
    simp
  unfold scalarKey
  simp only
  rw [if_pos]
  · simp
  · rw [hl]
    have h1 : ((n.toList ++ [' ']) ++ ('(' :: (u.toList ++ [')']))).takeWhile (fun x => decide (x ≠ '\n')) =
        (n.toList ++ [' ']) ++ ('(' :: (u.toList ++ [')'])) := by
      rw [List.takeWhile_eq_self_iff]
      intro x hx
      simp only [List.mem_append, List.mem_cons, List.not_mem_nil, or_false] at hx
      rcases hx with (hx | rfl) | rfl | hx | rfl
      · simpa using (hn x hx).2
      · decide
      · decide
      · simpa using hu x hx
      · decide
    have h2 : ((n.toList ++ [' ']) ++ ('(' :: (u.toList ++ [')']))).dropWhile (fun x => decide (x ≠ '(')) =
        '(' :: (u.toList ++ [')']) := by
      rw [List.dropWhile_append_of_pos]
      · rw [List.dropWhile_cons_of_neg (by simp)]
      · intro x hx
        simp only [List.mem_append, List.mem_cons, List.not_mem_nil, or_false] at hx
        rcases hx with hx | rfl
        · simpa using (hn x hx).1
        · decide
    rw [h1, h2]
    simp

/-- The name before the first bracket. -/
theorem written_name {n n' u u' : String} (hn : ∀ x ∈ n.toList, x ≠ '(') (hn' : ∀ x ∈ n'.toList, x ≠ '(')
    (h : n ++ " (" ++ u ++ ")" = n' ++ " (" ++ u' ++ ")") : n = n' := by
  have key : ∀ {n u : String}, (∀ x ∈ n.toList, x ≠ '(') →
      (n ++ " (" ++ u ++ ")").toList.takeWhile (fun x => decide (x ≠ '(')) = n.toList ++ [' '] := by
    intro n u hn
    have hl : (n ++ " (" ++ u ++ ")").toList = (n.toList ++ [' ']) ++ ('(' :: (u.toList ++ [')'])) := by simp
    rw [hl, List.takeWhile_append_of_pos]
    · simp
    · intro x hx
      simp only [List.mem_append, List.mem_cons, List.not_mem_nil, or_false] at hx
      rcases hx with hx | rfl
      · simpa using hn x hx
      · decide
  have := key hn (u := u)
  rw [h, key hn' (u := u')] at this
  have := List.append_cancel_right this
  exact (String.toList_inj.1 this).symm

/-! ## What is gathered -/

theorem mem_dictSet {α : Type} {d : List (String × α)} {k : String} {v : α} {x : String × α} :
    x ∈ dictSet d k v ↔ x = (k, v) ∨ x ∈ d ∧ x.1 ≠ k := by
  unfold dictSet
  split
  · rename_i hk
    rw [List.mem_map]
    constructor
    · rintro ⟨y, hy, rfl⟩
      split
      · exact Or.inl rfl
      · rename_i h; exact Or.inr ⟨hy, h⟩
    · rintro (rfl | ⟨h, hne⟩)
      · obtain ⟨y, hy, hyk⟩ := List.mem_map.1 hk
        exact ⟨y, hy, by rw [if_pos hyk]⟩
      · exact ⟨x, h, by rw [if_neg hne]⟩
  · rename_i hk
    rw [List.mem_append, List.mem_singleton]
    constructor
    · rintro (h | h)
      · exact Or.inr ⟨h, fun he => hk (List.mem_map.2 ⟨x, h, he⟩)⟩
      · exact Or.inl h
    · rintro (h | h)
      · exact Or.inr h
      · exact Or.inl h.1

theorem mem_add {c : Gathered K} {name region : List String} {unit type : String} {vals : List (Fl K)}
    {x : String × List (PyVal K)} (hx : x.1 ∉ seriesCols) : x ∈ (c.add name region unit type vals).meta ↔ x ∈ c.meta := by
  simp only [seriesCols, List.mem_cons, List.not_mem_nil, or_false, not_or] at hx
  constructor
  · intro h
    exact of_dictAppend (of_dictAppend (of_dictAppend (of_dictAppend h hx.2.2.2) hx.2.2.1) hx.2.1) hx.1
  · intro h
    exact dictAppend_other _ (dictAppend_other _ (dictAppend_other _ (dictAppend_other _ h hx.1) hx.2.1) hx.2.2.1)
      hx.2.2.2

/-- There is one item for each key. -/
theorem Holds.one_item {env : Env K} {s : St K (PyVal K)} (hi : Inv env s) {L : List (Key × Item K (PyVal K))}
    {X : Key → PType → Prop} (hL : Holds env s L X)
    (hser : ∀ k t u tps xs, (k, Item.series t u tps xs) ∈ L → t = .average ∨ t = .point)
    {k : Key} {it it' : Item K (PyVal K)} (h : (k, it) ∈ L) (h' : (k, it') ∈ L) (hn : ¬ it.isSeries) : it = it' := by
  obtain ⟨p, P, a1, a2, _, a4⟩ := hL.items _ h
  obtain ⟨p', P', b1, b2, _, b4⟩ := hL.items _ h'
  obtain rfl := a1.inj hi.tree b1
  rw [a2] at b2; cases b2
  cases it with
  | series t u tps xs => exact absurd trivial hn
  | scalar u x =>
    obtain ⟨e1, e2, c, y, e3, e4, e5⟩ := a4
    cases it' with
    | series t u tps xs =>
      have f1 := b4.1
      rw [e1, Option.some.injEq] at f1
      rcases hser _ _ _ _ _ h' with h'' | h'' <;> rw [h''] at f1 <;> cases f1
    | scalar u' x' =>
      obtain ⟨f1, f2, c', y', f3, f4, f5⟩ := b4
      rw [e2] at f2; cases f2
      rw [e3] at f3; cases f3
      rw [e4] at f4; cases f4
      rw [← e5, ← f5]
    | generic g => have f1 := b4.1; rw [e1] at f1; cases f1
  | generic g =>
    obtain ⟨e1, e2⟩ := a4
    cases it' with
    | series t u tps xs =>
      have f1 := b4.1
      rw [e1, Option.some.injEq] at f1
      rcases hser _ _ _ _ _ h' with h'' | h'' <;> rw [h''] at f1 <;> cases f1
    | scalar u' x' => have f1 := b4.1; rw [e1] at f1; cases f1
    | generic g' =>
      obtain ⟨f1, f2⟩ := b4
      rw [e2] at f2
      cases f2; rfl

theorem gatherAll_meta {env : Env K} {s : St K (PyVal K)} (hi : Inv env s) {L : List (Key × Item K (PyVal K))}
    (hL : Holds env s L (fun _ _ => False)) {times avg : List Int}
    (hser : ∀ k t u tps xs, (k, Item.series t u tps xs) ∈ L →
      (t = .average ∨ t = .point) ∧ tps = toK (if t = .point then times else avg))
    (hmeta : ∀ e ∈ L, ¬ e.2.isSeries → MetaEntry e)
    (hinj : ∀ e ∈ L, ∀ e' ∈ L, ¬ e.2.isSeries → ¬ e'.2.isSeries → (asMeta e).1 = (asMeta e').1 → e.1 = e'.1)
    (l : List (List String × List String × Nat)) (hl : ∀ x ∈ l, HasKey s x.2.2 (x.2.1, x.1) ∧ Childless s x.2.2)
    {c c' : Gathered K} {s' : St K (PyVal K)} (h : gatherAll env times avg l c s = (.ok c', s')) (n : String)
    (vs : List (PyVal K)) (hn : n ∉ seriesCols) :
    (n, vs) ∈ c'.meta ↔ (∃ e ∈ L, ¬ e.2.isSeries ∧ e.1 ∈ l.map (fun x => (x.2.1, x.1)) ∧
        (n, vs) = ((asMeta e).1, [(asMeta e).2])) ∨
      ((n, vs) ∈ c.meta ∧ ∀ e ∈ L, ¬ e.2.isSeries → e.1 ∈ l.map (fun x => (x.2.1, x.1)) → (asMeta e).1 ≠ n) := by
  have hser' : ∀ k t u tps xs, (k, Item.series t u tps xs) ∈ L → t = .average ∨ t = .point :=
    fun k t u tps xs h => (hser k t u tps xs h).1
  have hone : ∀ e ∈ L, ∀ e' ∈ L, ¬ e.2.isSeries → e.1 = e'.1 → e = e' := by
    rintro ⟨k, it⟩ h ⟨k', it'⟩ h' hns hk
    simp only at hk
    subst hk
    rw [hL.one_item hi hser' h h' hns]
  induction l generalizing s c with
  | nil =>
    have : c = c' := by
      have := (Prod.mk.inj h).1
      exact Except.ok.inj this
    subst this
    simp
  | cons x l ih =>
    obtain ⟨hk, hch⟩ := hl x List.mem_cons_self
    obtain ⟨P, hP, hPc⟩ := hch
    obtain ⟨t0, ht0⟩ := Option.ne_none_iff_exists'.1 (hL.leaf _ P hP hPc)
    obtain ⟨it, hit⟩ : ∃ it, ((x.2.1, x.1), it) ∈ L := by
      rcases hL.typed _ P _ t0 hk hP ht0 with h | h
      · exact h
      · exact h.elim
    have hin : P.written = true ∧ it.In env P := by
      obtain ⟨p', P', a1, a2, a3, a4⟩ := hL.items _ hit
      obtain rfl := a1.inj hi.tree hk
      rw [hP] at a2; cases a2
      exact ⟨a3, a4⟩
    obtain ⟨hw, hI⟩ := hin
    simp only [gatherAll] at h
    by_cases hse : it.isSeries
    · cases it with
      | series t u tps xs =>
        obtain ⟨htt, rfl⟩ := hser _ _ _ _ _ hit
        obtain ⟨s1, g1, g2, g3⟩ := gather_series hi hk hP hw htt hI c
        rw [M.bind_ok g1] at h
        have IH := ih g3 (hL.same g2) (fun y hy => ⟨g2.key.2 (hl y (List.mem_cons_of_mem _ hy)).1, by
            obtain ⟨Q, q1, q2⟩ := (hl y (List.mem_cons_of_mem _ hy)).2
            exact ⟨Q, by rw [g2.1]; exact q1, q2⟩⟩) h
        refine IH.trans ?_
        rw [mem_add (x := (n, vs)) hn]
        have hsame : ∀ e ∈ L, ¬ e.2.isSeries → (e.1 ∈ (x :: l).map (fun x => (x.2.1, x.1)) ↔
            e.1 ∈ l.map (fun x => (x.2.1, x.1))) := by
          intro e he hns
          rw [List.map_cons, List.mem_cons]
          refine ⟨fun h => h.resolve_left fun heq => ?_, Or.inr⟩
          have := hone e he _ hit hns heq
          rw [this] at hns
          exact hns trivial
        refine or_congr ?_ (and_congr_right fun _ => ?_)
        · constructor
          · rintro ⟨e, h1, h2, h3, h4⟩; exact ⟨e, h1, h2, (hsame e h1 h2).2 h3, h4⟩
          · rintro ⟨e, h1, h2, h3, h4⟩; exact ⟨e, h1, h2, (hsame e h1 h2).1 h3, h4⟩
        · constructor
          · intro h e h1 h2 h3; exact h e h1 h2 ((hsame e h1 h2).1 h3)
          · intro h e h1 h2 h3; exact h e h1 h2 ((hsame e h1 h2).2 h3)
      | _ => exact hse.elim
    · obtain ⟨s1, n0, v0, g1, hn0, g2, g3, g4⟩ := gather_meta (times := times) (avg := avg) hi hk hP hw
        (hmeta _ hit hse) hI c
      rw [M.bind_ok g1] at h
      have IH := ih g3 (hL.same g2) (fun y hy => ⟨g2.key.2 (hl y (List.mem_cons_of_mem _ hy)).1, by
            obtain ⟨Q, q1, q2⟩ := (hl y (List.mem_cons_of_mem _ hy)).2
            exact ⟨Q, by rw [g2.1]; exact q1, q2⟩⟩) h
      refine IH.trans ?_
      simp only [mem_dictSet]
      have hself : ∀ e ∈ L, ¬ e.2.isSeries → e.1 = (x.2.1, x.1) → asMeta e = (n0, v0) := by
        intro e he hns heq
        rw [hone e he _ hit hns heq, g4]
      constructor
      · rintro (⟨e, h1, h2, h3, h4⟩ | ⟨h1 | ⟨h1, h1'⟩, h2⟩)
        · exact Or.inl ⟨e, h1, h2, List.mem_cons_of_mem _ h3, h4⟩
        · exact Or.inl ⟨_, hit, hse, List.mem_cons_self, by rw [g4]; exact h1⟩
        · refine Or.inr ⟨h1, fun e he hns hmem => ?_⟩
          rcases List.mem_cons.1 hmem with heq | hmem
          · rw [hself e he hns heq]; exact Ne.symm h1'
          · exact h2 e he hns hmem
      · rintro (⟨e, h1, h2, h3, h4⟩ | ⟨h1, h2⟩)
        · by_cases hmem : e.1 ∈ l.map (fun x => (x.2.1, x.1))
          · exact Or.inl ⟨e, h1, h2, hmem, h4⟩
          · have heq : e.1 = (x.2.1, x.1) := (List.mem_cons.1 h3).resolve_right hmem
            have he := hself e h1 h2 heq
            rw [he] at h4
            refine Or.inr ⟨Or.inl h4, fun e' he' hns' hmem' hname => ?_⟩
            have hnn : n = n0 := (Prod.mk.inj h4).1
            have := hinj e' he' e h1 hns' h2 (by rw [hname, he, hnn])
            exact hmem (this ▸ hmem')
        · refine Or.inr ⟨Or.inr ⟨h1, ?_⟩, fun e he hns hmem => h2 e he hns (List.mem_cons_of_mem _ hmem)⟩
          have := h2 _ hit hse List.mem_cons_self
          rw [g4] at this
          exact Ne.symm this

/-! ## What is common to all timeseries -/

theorem commonMeta_ok {F : DFrame K} {ms : List (String × PyVal K)} (h : F.commonMeta = .ok ms) :
    ms = (F.cols.filter fun c => c ∉ seriesCols).map fun c => (c, F.metaAt 0 c) := by
  unfold DFrame.commonMeta at h
  simp only at h
  cases hm : F.meta with
  | nil => rw [hm] at h; simp at h
  | cons r rs =>
    have h0 : F.meta[0]? = some r := by rw [hm]; rfl
    rw [hm, List.map_cons] at h
    simp only at h
    split at h
    · simp at h
    · split at h
      · simp at h
      · split at h
        · simp at h
        · simp only [Except.ok.injEq] at h
          have hsel : ∀ gc, selectCols F.cols gc r.2 = gc.map (F.metaAt 0) := by
            intro gc; rw [metaAt_eq h0]; rfl
          rw [← h, hsel]
          rw [List.zip_map_right]
          generalize F.cols.filter (fun c => decide (c ∉ seriesCols)) = l
          induction l with
          | nil => rfl
          | cons a l ih => simp [ih]

theorem metaAt_iff {F : DFrame K} (hF : F.Ok) {i : Nat} {c : String} {v : PyVal K} :
    F.HasMeta i c v ↔ i < F.meta.length ∧ c ∈ F.cols ∧ F.metaAt i c = v := by
  rw [hasMeta_iff hF]
  constructor
  · rintro ⟨r, h1, h2, h3⟩
    exact ⟨(List.getElem?_eq_some_iff.1 h1).1, h2, by rw [metaAt_eq h1]; exact h3⟩
  · rintro ⟨h1, h2, h3⟩
    have := List.getElem?_eq_getElem h1
    exact ⟨_, this, h2, by rw [← h3, metaAt_eq this]⟩

theorem commonMeta_mem {F : DFrame K} (hF : F.Ok) {ms : List (String × PyVal K)} (h : F.commonMeta = .ok ms)
    {c : String} {v : PyVal K} : (c, v) ∈ ms ↔ F.HasMeta 0 c v ∧ c ∉ seriesCols := by
  have hne : 0 < F.meta.length := by
    unfold DFrame.commonMeta at h
    cases hm : F.meta with
    | nil => rw [hm] at h; simp at h
    | cons r rs => simp
  rw [commonMeta_ok h, metaAt_iff hF]
  simp only [List.mem_map, List.mem_filter, decide_eq_true_eq, Prod.mk.injEq]
  constructor
  · rintro ⟨a, ⟨h1, h2⟩, rfl, rfl⟩; exact ⟨⟨hne, h1, rfl⟩, h2⟩
  · rintro ⟨⟨_, h1, h2⟩, h3⟩; exact ⟨c, ⟨h1, h3⟩, rfl, h2⟩

theorem commonMeta_nodup {F : DFrame K} (hF : F.Ok) {ms : List (String × PyVal K)} (h : F.commonMeta = .ok ms) :
    (ms.map (·.1)).Nodup := by
  rw [commonMeta_ok h, List.map_map]
  have : ((fun x : String × PyVal K => x.1) ∘ fun c => (c, F.metaAt 0 c)) = id := rfl
  rw [this, List.map_id]
  exact hF.cols_nodup.filter _

/-- No column comes twice. -/
theorem commonMeta_split {F : DFrame K} (hF : F.Ok) {ms : List (String × PyVal K)} (h : F.commonMeta = .ok ms)
    {c : String × PyVal K} (hc : c ∈ ms) : ∃ ms1 ms2, ms = ms1 ++ c :: ms2 ∧ ∀ c' ∈ ms2, c'.1 ≠ c.1 := by
  obtain ⟨a, b, rfl⟩ := List.append_of_mem hc
  refine ⟨a, b, rfl, fun c' hc' he => ?_⟩
  have := commonMeta_nodup hF h
  rw [List.map_append, List.map_cons] at this
  have := (List.nodup_cons.1 (List.nodup_append.1 this).2.1).1
  exact this (List.mem_map.2 ⟨c', hc', he⟩)

/-! ## Metadata of the new frame -/

theorem split_inj {a b : String} (h : splitName a = splitName b) : a = b := by
  rw [← C17_join_split a, h, C17_join_split]

theorem round_meta {env : Env K} {F : DFrame K} (h : F.Tidy) {s : St K (PyVal K)}
    (hto : toParameterset env F (St.init "World") = (.ok (), s)) {model scenario climate : String} {F' : DFrame K}
    {s' : St K (PyVal K)} (hback : convertToFrame env F.times model scenario climate s = (.ok F', s')) :
    ∃ (ms : List (String × PyVal K)) (L : List (Key × Item K (PyVal K))), F.commonMeta = .ok ms ∧ Holds env s L (fun _ _ => False) ∧ Inv env s ∧
      (∀ e ∈ L, ¬ e.2.isSeries → ∃ c ∈ ms, MetaFor env c e) ∧
      (∀ ms1 c ms2, ms = ms1 ++ c :: ms2 → (∀ c' ∈ ms2, ∀ e e', MetaFor env c e → MetaFor env c' e' →
          e'.1 = e.1 → e'.2.kind ≠ e.2.kind) → ∃ e ∈ L, MetaFor env c e) ∧
      (∀ k u x, (k, .scalar u x) ∈ L → ∃ c ∈ ms, ∃ n, scalarKey c.1 = some (n, u) ∧ k = (worldName, splitName n)) ∧
      (∀ e ∈ L, ¬ e.2.isSeries → (asMeta e).1 ∉ seriesCols → ∀ i < F'.data.length,
        F'.HasMeta i (asMeta e).1 (asMeta e).2) ∧
      (∀ n v, (n, v) ∈ [("climate_model", climate), ("scenario", scenario), ("model", model)] →
        (∀ e ∈ L, ¬ e.2.isSeries → (asMeta e).1 ≠ n) → ∀ i < F'.data.length, F'.HasMeta i n (.str v)) ∧
      ∀ n, n ∈ F'.cols ↔ n ∈ seriesCols ∨ n ∈ ["climate_model", "scenario", "model"] ∨
        ∃ e ∈ L, ¬ e.2.isSeries ∧ (asMeta e).1 = n := by
  have hd : ∀ d ∈ F.data, ∃ xs : List K, d.2 = xs.map .num := fun d hd => nums_of (h.nums d hd)
  obtain ⟨hs, L, hL, ha, hb, hex, ms, hms, hfor, hfind, hunit⟩ := toParameterset_holds h.sorted hd h.distinct hto
  replace ha : ∀ k t u tps xs, (k, Item.series t u tps xs) ∈ L ↔ ∃ d ∈ F.data,
      RowItem env F d (k, Item.series t u tps xs) := fun k t u tps xs => ha (k, Item.series t u tps xs) trivial
  obtain ⟨avg, havg⟩ := extendPoints_two h.two
  have hi := hs.inv
  have hser : ∀ k t u tps xs, (k, Item.series t u tps xs) ∈ L →
      (t = .average ∨ t = .point) ∧ tps = toK (if t = .point then F.times else avg) := by
    intro k t u tps xs he
    obtain ⟨d, _, r, v, g, u', t', tps', xs', _, _, h3, h4, _, h6⟩ := (ha _ _ _ _ _).1 he
    simp only [Prod.mk.injEq, Item.series.injEq] at h6
    obtain ⟨_, rfl, _, rfl, _⟩ := h6
    have htt := seriesType_two h3
    refine ⟨htt, ?_⟩
    unfold seriesPoints at h4
    rcases htt with rfl | rfl
    · rw [if_pos rfl, havg] at h4
      rw [← Except.ok.inj h4]; simp
    · rw [if_neg (by simp)] at h4
      rw [← Except.ok.inj h4]; simp
  have hlen : ∀ k t u tps xs, (k, Item.series t u tps xs) ∈ L → xs.length = F.times.length := by
    intro k t u tps xs he
    obtain ⟨d, hdm, hrow⟩ := (ha _ _ _ _ _).1 he
    obtain ⟨i, hi'⟩ := List.getElem?_of_mem hdm
    obtain ⟨r, v, g, u', t', tps', xs', m1, m2, m3, m4, m5⟩ := rowItem_at h.ok hi' hrow
    simp only [Prod.mk.injEq, Item.series.injEq] at m5
    obtain ⟨_, _, _, _, rfl⟩ := m5
    obtain ⟨_, _, _, d', d1, d2⟩ := m2
    rw [hi'] at d1; cases d1
    have := h.ok.data_len d hdm
    rw [d2, List.length_map] at this
    exact this
  have hroot : ∀ x ∈ rootParams s, HasKey s x.2.2 (x.2.1, x.1) ∧ Childless s x.2.2 := fun x hx =>
    ⟨((rootParams_mem hi.tree x).1 hx).1, ((rootParams_mem hi.tree x).1 hx).2.1⟩
  obtain ⟨c, s1, S, g1, g2, g3, g4⟩ := gatherAll_ok hi hL hser hb (rootParams s) hroot
    (Gath.start model scenario climate)
  rw [List.nil_append] at g2
  -- names of metadata are not used twice
  have hinj : ∀ e ∈ L, ∀ e' ∈ L, ¬ e.2.isSeries → ¬ e'.2.isSeries → (asMeta e).1 = (asMeta e').1 → e.1 = e'.1 := by
    have hmix : ∀ {c : String} {n u : String} {x : Fl K}, scalarKey c = none →
        ((worldName, splitName n), Item.scalar u x) ∈ L → c ≠ n ++ " (" ++ u ++ ")" := by
      intro c n u x hc hin he
      obtain ⟨c2, _, n2, h1, h2⟩ := hunit _ _ _ hin
      have hn : n = n2 := split_inj (Prod.mk.inj h2).2
      obtain ⟨q1, q2⟩ := scalarKey_chars h1
      rw [← hn] at q1
      rw [he] at hc
      exact scalarKey_written q1 q2 hc
    intro e he e' he' hns hns' hname
    obtain ⟨c1, _, ⟨k1, rfl⟩ | ⟨n, u, x, u1, x1, k1, _, rfl, _⟩⟩ := hfor e he hns <;>
      obtain ⟨c2, _, ⟨k2, rfl⟩ | ⟨n', u', x', u2, x2, k2, _, rfl, _⟩⟩ := hfor e' he' hns' <;>
      simp only [asMeta, C17_join_split] at hname ⊢
    · rw [hname]
    · exact absurd hname (hmix k1 he')
    · exact absurd hname.symm (hmix k2 he)
    · rw [written_name (fun x hx => ((scalarKey_chars k1).1 x hx).1) (fun x hx => ((scalarKey_chars k2).1 x hx).1) hname]
  have hreach : ∀ e ∈ L, ¬ e.2.isSeries → e.1 ∈ (rootParams s).map (fun x => (x.2.1, x.1)) := by
    intro e he hns
    obtain ⟨p, P, p1, p2, p3, _⟩ := hL.items e he
    have hch := ((hi.good.params p P p2).1 p3).1
    refine List.mem_map.2 ⟨(e.1.2, e.1.1, p), (rootParams_mem hi.tree _).2 ⟨p1, ⟨P, p2, hch⟩, ?_⟩, rfl⟩
    rw [(hb e he hns).1]; decide
  have hmeta := gatherAll_meta hi hL hser hb hinj (rootParams s) hroot g1
  have hgets : (M.gets rootParams : M K (PyVal K) _) s = (.ok (rootParams s), s) := rfl
  unfold convertToFrame at hback
  rw [havg] at hback
  simp only at hback
  rw [M.bind_ok hgets, M.bind_ok g1] at hback
  obtain ⟨F'', f1, f2, f3, f4, f5, f6, f7⟩ := gathered_frame (times := F.times) g2 fun z hz =>
    hlen _ _ _ _ _ ((g4 z).1 hz).2
  have hF : F'' = F' := by
    split at hback
    · simp [M.throw] at hback
    · split at hback
      · simp [M.throw] at hback
      · rw [f1] at hback
        have := (Prod.mk.inj hback).1
        simpa using this
  subst hF
  refine ⟨ms, L, hms, hL, hi, hfor, hfind, hunit, ?_, ?_, ?_⟩
  · intro e he hns hn
    exact f6 _ _ ((hmeta _ _ hn).2 (Or.inl ⟨e, he, hns, hreach e he hns, rfl⟩)) hn
  · intro n v hnv hno
    have hn : n ∉ seriesCols := by
      simp only [List.mem_cons, Prod.mk.injEq, List.not_mem_nil, or_false] at hnv
      rcases hnv with ⟨rfl, _⟩ | ⟨rfl, _⟩ | ⟨rfl, _⟩ <;> decide
    refine f6 _ _ ((hmeta n _ hn).2 (Or.inr ⟨?_, fun e he hns _ => hno e he hns⟩)) hn
    simp only [List.mem_cons, Prod.mk.injEq, List.not_mem_nil, or_false] at hnv
    rcases hnv with ⟨rfl, rfl⟩ | ⟨rfl, rfl⟩ | ⟨rfl, rfl⟩ <;> simp [gatherStart]
  · intro n
    rw [f7]
    by_cases hn : n ∈ seriesCols
    · refine iff_of_true ?_ (Or.inl hn)
      simp only [seriesCols, List.mem_cons, List.not_mem_nil, or_false] at hn
      rcases hn with rfl | rfl | rfl | rfl
      · exact List.mem_map.2 ⟨_, g2.vars, rfl⟩
      · exact List.mem_map.2 ⟨_, g2.region, rfl⟩
      · exact List.mem_map.2 ⟨_, g2.unit, rfl⟩
      · exact List.mem_map.2 ⟨_, g2.ptype, rfl⟩
    · constructor
      · intro hx
        obtain ⟨⟨n', vs⟩, hy, rfl⟩ := List.mem_map.1 hx
        right
        rcases (hmeta _ _ hn).1 hy with ⟨e, he, hns, _, hq⟩ | ⟨hq, _⟩
        · exact Or.inr ⟨e, he, hns, (Prod.mk.inj hq).1.symm⟩
        · left
          simp only [seriesCols, List.mem_cons, List.not_mem_nil, or_false] at hn
          simp only [gatherStart, List.mem_cons, Prod.mk.injEq, List.not_mem_nil, or_false] at hq ⊢
          tauto
      · rintro (hx | hx | ⟨e, he, hns, rfl⟩)
        · exact absurd hx hn
        · by_cases hex' : ∃ e ∈ L, ¬ e.2.isSeries ∧ (asMeta e).1 = n
          · obtain ⟨e, he, hns, rfl⟩ := hex'
            exact List.mem_map.2 ⟨_, (hmeta _ _ hn).2 (Or.inl ⟨e, he, hns, hreach e he hns, rfl⟩), rfl⟩
          · have hno : ∀ e ∈ L, ¬ e.2.isSeries → e.1 ∈ (rootParams s).map (fun x => (x.2.1, x.1)) →
                (asMeta e).1 ≠ n := fun e he hns _ hh => hex' ⟨e, he, hns, hh⟩
            simp only [List.mem_cons, List.not_mem_nil, or_false] at hx
            rcases hx with rfl | rfl | rfl
            · exact List.mem_map.2 ⟨("climate_model", [.str climate]), (hmeta _ _ hn).2 (Or.inr ⟨by simp [gatherStart], hno⟩), rfl⟩
            · exact List.mem_map.2 ⟨("scenario", [.str scenario]), (hmeta _ _ hn).2 (Or.inr ⟨by simp [gatherStart], hno⟩), rfl⟩
            · exact List.mem_map.2 ⟨("model", [.str model]), (hmeta _ _ hn).2 (Or.inr ⟨by simp [gatherStart], hno⟩), rfl⟩
        · exact List.mem_map.2 ⟨_, (hmeta _ _ hn).2 (Or.inl ⟨e, he, hns, hreach e he hns, rfl⟩), rfl⟩

/-! ## Names of columns -/

/-- No white space at either end. -/
def Trimmed (t : String) : Prop :=
  ∀ x, t.toList.head? = some x ∨ t.toList.getLast? = some x → x.isWhitespace = false

/-- The column stands for a scalar called `n`: that is what comes before the first bracket, apart from white space. -/
def Labelled (c n : String) : Prop :=
  ∃ a b rest : List Char, (∀ x ∈ a ++ b, x.isWhitespace = true) ∧ c.toList = a ++ n.toList ++ b ++ '(' :: rest

theorem stripChars_split (l : List Char) :
    ∃ a b, (∀ x ∈ a ++ b, Char.isWhitespace x = true) ∧ l = a ++ stripChars l ++ b := by
  refine ⟨l.takeWhile Char.isWhitespace,
    ((l.dropWhile Char.isWhitespace).reverse.takeWhile Char.isWhitespace).reverse, ?_, ?_⟩
  · intro x hx
    rcases List.mem_append.1 hx with hx | hx
    · exact (takeWhile_all hx).1
    · exact (takeWhile_all (List.mem_reverse.1 hx)).1
  · unfold stripChars
    rw [List.append_assoc, ← List.reverse_append, List.takeWhile_append_dropWhile, List.reverse_reverse,
      List.takeWhile_append_dropWhile]

theorem scalarKey_labelled {c n u : String} (h : scalarKey c = some (n, u)) : Labelled c n := by
  unfold scalarKey at h
  simp only at h
  split at h
  · rename_i hp
    simp only [Option.some.injEq, Prod.mk.injEq] at h
    obtain ⟨rfl, -⟩ := h
    obtain ⟨a, b, hw, hl⟩ := stripChars_split (c.toList.takeWhile (fun x => decide (x ≠ '(')))
    refine ⟨a, b, (c.toList.dropWhile (fun x => decide (x ≠ '('))).tail, hw, ?_⟩
    rw [String.toList_ofList, ← hl]
    have hopen : '(' ∈ c.toList := by
      by_contra hno
      have : (c.toList.takeWhile (fun x => decide (x ≠ '\n'))).dropWhile (fun x => decide (x ≠ '(')) = [] := by
        rw [List.dropWhile_eq_nil_iff]
        intro x hx
        simp only [ne_eq, decide_not, Bool.not_eq_eq_eq_not, Bool.not_true, decide_eq_false_iff_not]
        rintro rfl
        exact hno (takeWhile_all hx).2
      rw [this] at hp
      simp at hp
    have hne : c.toList.dropWhile (fun x => decide (x ≠ '(')) ≠ [] := by
      rw [ne_eq, List.dropWhile_eq_nil_iff]
      intro hall
      have := hall _ hopen
      simp at this
    have hhead := List.head?_dropWhile_not (fun x => decide (x ≠ '(')) c.toList
    have hsp := (List.takeWhile_append_dropWhile (p := fun x => decide (x ≠ '(')) (l := c.toList)).symm
    generalize c.toList.dropWhile (fun x => decide (x ≠ '(')) = D at hne hhead hsp ⊢
    cases D with
    | nil => exact absurd rfl hne
    | cons d D =>
      have hd : d = '(' := by simpa using hhead
      rw [hd] at hsp
      exact hsp
  · simp at h

theorem scalarKey_none {c : String} (h : '(' ∉ c.toList) : scalarKey c = none := by
  unfold scalarKey
  simp only
  rw [if_neg]
  have : (c.toList.takeWhile (fun x => decide (x ≠ '\n'))).dropWhile (fun x => decide (x ≠ '(')) = [] := by
    rw [List.dropWhile_eq_nil_iff]
    intro x hx
    simp only [ne_eq, decide_not, Bool.not_eq_eq_eq_not, Bool.not_true, decide_eq_false_iff_not]
    rintro rfl
    exact h (takeWhile_all hx).2
  rw [this]
  simp

theorem stripChars_trimmed {t : String} (h : Trimmed t) {b : List Char} (hb : ∀ x ∈ b, Char.isWhitespace x = true) :
    stripChars (t.toList ++ b) = t.toList := by
  unfold Trimmed at h
  unfold stripChars
  generalize t.toList = l at h ⊢
  cases l with
  | nil =>
    rw [List.nil_append, List.dropWhile_eq_nil_iff.2 hb]; rfl
  | cons x l =>
    rw [List.cons_append, List.dropWhile_cons_of_neg (by rw [h x (Or.inl rfl)]; simp), ← List.cons_append,
      List.reverse_append, List.dropWhile_append_of_pos (by intro y hy; exact hb y (List.mem_reverse.1 hy))]
    rw [List.getLast?_eq_head?_reverse] at h
    have hr : (x :: l).reverse.dropWhile Char.isWhitespace = (x :: l).reverse := by
      generalize (x :: l).reverse = r at h
      cases r with
      | nil => rfl
      | cons y r => rw [List.dropWhile_cons_of_neg (by rw [h y (Or.inr rfl)]; simp)]
    rw [hr, List.reverse_reverse]

/-- Name and unit of a column written as `name (unit)`. -/
theorem scalarKey_exact {n u : String} (hn : ∀ x ∈ n.toList, x ≠ '(' ∧ x ≠ '\n')
    (hu : ∀ x ∈ u.toList, x ≠ '(' ∧ x ≠ ')' ∧ x ≠ '\n') (tn : Trimmed n) (tu : Trimmed u) :
    scalarKey (n ++ " (" ++ u ++ ")") = some (n, u) := by
  have hl : (n ++ " (" ++ u ++ ")").toList = (n.toList ++ [' ']) ++ ('(' :: (u.toList ++ [')'])) := by
    simp
  have hne := scalarKey_written hn (fun x hx => (hu x hx).2.2)
  unfold scalarKey at hne ⊢
  simp only at hne ⊢
  split
  · have hn' : ∀ x ∈ n.toList ++ [' '], decide (x ≠ '(') = true := by
      intro x hx
      rcases List.mem_append.1 hx with hx | hx
      · simpa using (hn x hx).1
      · rw [List.mem_singleton.1 hx]; decide
    have h1 : (n ++ " (" ++ u ++ ")").toList.takeWhile (fun x => decide (x ≠ '(')) = n.toList ++ [' '] := by
      rw [hl, List.takeWhile_append_of_pos hn']
      simp
    have h2 : (n ++ " (" ++ u ++ ")").toList.dropWhile (fun x => decide (x ≠ '(')) = '(' :: (u.toList ++ [')']) := by
      rw [hl, List.dropWhile_append_of_pos hn', List.dropWhile_cons_of_neg (by simp)]
    have h3 : (u.toList ++ [')']).takeWhile (fun x => decide (x ≠ '(')) = u.toList ++ [')'] := by
      rw [List.takeWhile_eq_self_iff]
      intro x hx
      rcases List.mem_append.1 hx with hx | hx
      · simpa using (hu x hx).1
      · rw [List.mem_singleton.1 hx]; decide
    have h4 : (u.toList ++ [')']).takeWhile (fun x => decide (x ≠ ')')) = u.toList := by
      rw [List.takeWhile_append_of_pos (by intro x hx; simpa using (hu x hx).2.1)]
      simp
    have h5 := stripChars_trimmed tu (b := []) (by simp)
    rw [List.append_nil] at h5
    rw [h1, h2, List.tail_cons, h3, h4, h5, stripChars_trimmed tn (by simp), String.ofList_toList,
      String.ofList_toList]
  · rename_i hh
    rw [if_neg hh] at hne
    exact absurd rfl hne

end Openscm
