import Verif.TimeLemmas

/-!
# Timeseries conversion: whether it succeeds does not depend on the values

Helper file.
-/

set_option linter.unusedSectionVars false

namespace Openscm
variable {K : Type} [Field K] [LinearOrder K] [IsStrictOrderedRing K]

theorem insertKnot_fst (a : K × K) (l : List (K × K)) :
    (l.orderedInsert (fun a b => a.1 ≤ b.1) a).map Prod.fst
      = (l.map Prod.fst).orderedInsert (· ≤ ·) a.1 := by
  induction l with
  | nil => rfl
  | cons b l ih =>
    simp only [List.orderedInsert, List.map_cons]
    by_cases h : a.1 ≤ b.1
    · rw [if_pos h, if_pos h]; rfl
    · rw [if_neg h, if_neg h, List.map_cons, ih]

theorem sortKnots_fst (l : List (K × K)) :
    (sortKnots l).map Prod.fst = (l.map Prod.fst).insertionSort (· ≤ ·) := by
  unfold sortKnots
  induction l with
  | nil => rfl
  | cons a l ih =>
    rw [List.insertionSort_cons, List.map_cons, List.insertionSort_cons, insertKnot_fst, ih]

/-- Same outcome as far as exceptions are concerned. -/
def SameErr {α β : Type} (x : Except Err α) (y : Except Err β) : Prop :=
  ∀ e, x = .error e ↔ y = .error e

theorem SameErr.ok {α β : Type} {x : Except Err α} {y : Except Err β} (h : SameErr x y) {a : α}
    (hx : x = .ok a) : ∃ b, y = .ok b := by
  cases y with
  | ok b => exact ⟨b, rfl⟩
  | error e => rw [(h e).2 rfl] at hx; simp at hx

theorem SameErr.refl_ok {α β : Type} (a : α) (b : β) :
    SameErr (.ok a : Except Err α) (.ok b : Except Err β) := fun e => by simp

theorem SameErr.refl_error {α β : Type} (e : Err) :
    SameErr (.error e : Except Err α) (.error e : Except Err β) := fun e' => by simp

theorem evalAt_err {ext : Extrap} {lo hi lo' hi' : K} {k k' : List (K × K)}
    (h : k.map Prod.fst = k'.map Prod.fst) (x : K) :
    SameErr (evalAt ext lo hi k x) (evalAt ext lo' hi' k' x) := by
  have h1 : firstX k = firstX k' := by unfold firstX; rw [h]
  have h2 : lastX k = lastX k' := by unfold lastX; rw [h]
  unfold evalAt
  cases ext <;> simp only [h1, h2] <;> (repeat' split) <;>
    first | exact .refl_ok _ _ | exact .refl_error _

theorem primAt_err {ext : Extrap} {lo hi lo' hi' : K} {k k' : List (K × K)}
    (h : k.map Prod.fst = k'.map Prod.fst) (x : K) :
    SameErr (primAt ext lo hi k x) (primAt ext lo' hi' k' x) := by
  have h1 : firstX k = firstX k' := by unfold firstX; rw [h]
  have h2 : lastX k = lastX k' := by unfold lastX; rw [h]
  unfold primAt
  cases ext <;> simp only [h1, h2] <;> (repeat' split) <;>
    first | exact .refl_ok _ _ | exact .refl_error _

theorem SameErr.bind {α β γ δ : Type} {x : Except Err α} {y : Except Err β} (h : SameErr x y)
    {f : α → Except Err γ} {g : β → Except Err δ} (hfg : ∀ a b, SameErr (f a) (g b)) :
    SameErr (match x with | .error e => .error e | .ok a => f a)
      (match y with | .error e => .error e | .ok b => g b) := by
  cases x with
  | error e =>
    have := (h e).1 rfl
    subst this
    exact .refl_error _
  | ok a =>
    obtain ⟨b, rfl⟩ := h.ok rfl
    exact hfg a b

theorem quad_err {ext : Extrap} {lo hi lo' hi' : K} {k k' : List (K × K)}
    (h : k.map Prod.fst = k'.map Prod.fst) (l u : K) :
    SameErr (quad ext lo hi k l u) (quad ext lo' hi' k' l u) := by
  unfold quad
  exact (primAt_err h l).bind (fun _ _ => (primAt_err h u).bind (fun _ _ => .refl_ok _ _))

theorem intervalAverages_err {ext : Extrap} {lo hi lo' hi' : K} {k k' : List (K × K)}
    (h : k.map Prod.fst = k'.map Prod.fst) (ts : List K) :
    SameErr (intervalAverages ext lo hi k ts) (intervalAverages ext lo' hi' k' ts) := by
  induction ts with
  | nil => exact .refl_ok _ _
  | cons a ts ih =>
    cases ts with
    | nil => exact .refl_ok _ _
    | cons b r =>
      have h1 : SameErr (intervalAverage ext lo hi k a b) (intervalAverage ext lo' hi' k' a b) := by
        unfold intervalAverage
        exact (quad_err h a b).bind (fun _ _ => .refl_ok _ _)
      unfold intervalAverages
      cases hx : intervalAverage ext lo hi k a b with
      | error e => rw [(h1 e).1 hx]; exact .refl_error _
      | ok y =>
        obtain ⟨y', hy⟩ := h1.ok hx
        rw [hy]
        cases hz : intervalAverages ext lo hi k (b :: r) with
        | error e => rw [(ih e).1 hz]; exact .refl_error _
        | ok ys => obtain ⟨ys', hys⟩ := ih.ok hz; rw [hys]; exact .refl_ok _ _

theorem evalAll_err {ext : Extrap} {lo hi lo' hi' : K} {k k' : List (K × K)}
    (h : k.map Prod.fst = k'.map Prod.fst) (ts : List K) :
    SameErr (evalAll ext lo hi k ts) (evalAll ext lo' hi' k' ts) := by
  induction ts with
  | nil => exact .refl_ok _ _
  | cons a ts ih =>
    have h1 := evalAt_err (ext := ext) (lo := lo) (hi := hi) (lo' := lo') (hi' := hi') h a
    unfold evalAll
    cases hx : evalAt ext lo hi k a with
    | error e => rw [(h1 e).1 hx]; exact .refl_error _
    | ok y =>
      obtain ⟨y', hy⟩ := h1.ok hx
      rw [hy]
      cases hz : evalAll ext lo hi k ts with
      | error e => rw [(ih e).1 hz]; exact .refl_error _
      | ok ys => obtain ⟨ys', hys⟩ := ih.ok hz; rw [hys]; exact .refl_ok _ _

theorem toInsufficient_err {α β : Type} {x : Except Err α} {y : Except Err β} (h : SameErr x y) :
    SameErr (toInsufficient x) (toInsufficient y) := by
  cases x with
  | error e => have := (h e).1 rfl; subst this; exact .refl_error _
  | ok a => obtain ⟨b, rfl⟩ := h.ok rfl; exact .refl_ok _ _

theorem map_fst_zip_same {a b c : List K} (h : b.length = c.length) :
    (a.zip b).map Prod.fst = (a.zip c).map Prod.fst := by
  induction a generalizing b c with
  | nil => simp
  | cons x a ih =>
    cases b with
    | nil => cases c with
      | nil => rfl
      | cons _ _ => simp at h
    | cons y b =>
      cases c with
      | nil => simp at h
      | cons z c =>
        simp only [List.zip_cons_cons, List.map_cons, List.cons.injEq, true_and]
        exact ih (by simpa using h)

theorem interleave_length_same {a b a' b' : List K} (h : a.length = a'.length)
    (h' : b.length = b'.length) : (interleave a b).length = (interleave a' b').length := by
  induction a generalizing b a' b' with
  | nil => cases a' with
    | nil => simp [interleave]
    | cons _ _ => simp at h
  | cons x a ih =>
    cases a' with
    | nil => simp at h
    | cons x' a' =>
      cases b with
      | nil => cases b' with
        | nil => simp [interleave]
        | cons _ _ => simp at h'
      | cons y b =>
        cases b' with
        | nil => simp at h'
        | cons y' b' =>
          simp only [interleave, List.length_cons]
          rw [ih (by simpa using h) (by simpa using h')]

theorem linValues_length_same {a b : List K} (h : a.length = b.length) :
    (linValues a).length = (linValues b).length := by
  have he : (edgeValues a).length = (edgeValues b).length := by
    simp only [edgeValues, List.length_zipWith, List.length_tail, List.length_dropLast, h]
  have hm : (middleValues a).length = (middleValues b).length := by
    simp only [middleValues, List.length_zipWith, List.length_zip, List.length_tail,
      List.length_dropLast, h, he]
  unfold linValues
  simp only [List.length_append, List.length_singleton]
  rw [interleave_length_same (a' := (2 * b.headD 0 - (edgeValues b).headD 0) :: edgeValues b)
    (b' := b.headD 0 :: (middleValues b ++ [b.getLastD 0]))]
  · simp [he]
  · simp [hm]

theorem convertNum_err {ty : PType} {ext : Extrap} {src tgt vs ws : List K}
    (h : vs.length = ws.length) :
    SameErr (convertNum ty ext src tgt vs) (convertNum ty ext src tgt ws) := by
  unfold convertNum
  rw [h]
  split
  · exact .refl_error _
  · cases ty with
    | average =>
      simp only
      split
      · exact .refl_error _
      · have hk : (sortKnots ((linPoints src).zip (linValues vs))).map Prod.fst
            = (sortKnots ((linPoints src).zip (linValues ws))).map Prod.fst := by
          rw [sortKnots_fst, sortKnots_fst, map_fst_zip_same (linValues_length_same h)]
        rw [hk]
        split
        · exact toInsufficient_err (intervalAverages_err hk tgt)
        · exact .refl_error _
    | point =>
      simp only
      split
      · exact .refl_error _
      · have hk : (sortKnots (src.zip vs)).map Prod.fst = (sortKnots (src.zip ws)).map Prod.fst := by
          rw [sortKnots_fst, sortKnots_fst, map_fst_zip_same h]
        rw [hk]
        split
        · exact toInsufficient_err (evalAll_err hk tgt)
        · exact .refl_error _
    | _ => exact .refl_error _

theorem allNum_length {l : List (Fl K)} {vs : List K} (h : Fl.allNum l = some vs) :
    vs.length = l.length := by
  induction l generalizing vs with
  | nil => simp only [Fl.allNum, Option.some.injEq] at h; subst h; rfl
  | cons x l ih =>
    cases x with
    | nan => simp [Fl.allNum] at h
    | num a =>
      simp only [Fl.allNum, Option.map_eq_some_iff] at h
      obtain ⟨w, hw, rfl⟩ := h
      simp [ih hw]

theorem convert_err_zero {ty : PType} {ext : Extrap} {src tgt : List K} (l : List (Fl K)) :
    SameErr (convert ty ext src tgt l)
      (convertNum ty ext src tgt (List.replicate l.length (0 : K))) := by
  unfold convert
  cases h : Fl.allNum l with
  | some vs => exact convertNum_err (by rw [allNum_length h, List.length_replicate])
  | none =>
    simp only
    have hz : SameErr (convertNum ty ext src tgt (l.map Fl.orZero))
        (convertNum ty ext src tgt (List.replicate l.length (0 : K))) := convertNum_err (by simp)
    intro e
    rw [← hz e]
    cases convertNum ty ext src tgt (l.map Fl.orZero) with
    | error e => rfl
    | ok r => simp

/-- Whether a conversion raises, and what, depends only on the number of values. -/
theorem convert_err {ty : PType} {ext : Extrap} {src tgt : List K} {l m : List (Fl K)}
    (h : l.length = m.length) :
    SameErr (convert ty ext src tgt l) (convert ty ext src tgt m) := by
  intro e
  have h1 := convert_err_zero (ty := ty) (ext := ext) (src := src) (tgt := tgt) l e
  have h2 := convert_err_zero (ty := ty) (ext := ext) (src := src) (tgt := tgt) m e
  rw [h] at h1
  exact h1.trans h2.symm

end Openscm
