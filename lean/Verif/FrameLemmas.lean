import Verif.Frame
import Verif.FilterLemmas
import Verif.FilterProps2

/-!
# Filtering a frame restricts it to the cells that satisfy a condition
-/

set_option linter.unusedSectionVars false

namespace Openscm

variable {K : Type} [Field K] [DecidableEq K]

/-- Metadata and values of a timeseries, with their labels. -/
abbrev SRow (K : Type) := (Nat × List (PyVal K)) × (Nat × List (Fl K))

def DFrame.rows (F : DFrame K) : List (SRow K) := F.meta.zip F.data

def frameOf (times : List Int) (cols : List String) (R : List (SRow K)) : DFrame K :=
  { times := times, cols := cols, data := R.map (·.2), «meta» := R.map (·.1) }

/-- Values where a condition holds, NaN elsewhere. -/
def maskVals (P : Int → Bool) (times : List Int) (vals : List (Fl K)) : List (Fl K) :=
  List.zipWith (fun t v => if P t then v else .nan) times vals

def maskRows (P : List (PyVal K) → Int → Bool) (times : List Int) (R : List (SRow K)) : List (SRow K) :=
  R.map fun rd => (rd.1, (rd.2.1, maskVals (P rd.1.2) times rd.2.2))

/-- Without timeseries and times that have no value. -/
def dropRows (times : List Int) (cols : List String) (R : List (SRow K)) : DFrame K :=
  let k := presentTimes times (R.map (·.2))
  frameOf (pick k times) cols ((R.filter fun rd => rd.2.2.any Fl.isNum).map fun rd => (rd.1, (rd.2.1, pick k rd.2.2)))

/-- The frame with the values for which a condition on metadata and time holds. -/
def DFrame.restrict (F : DFrame K) (P : List (PyVal K) → Int → Bool) : DFrame K :=
  dropRows F.times F.cols (maskRows P F.times F.rows)

theorem map_fst_zip' {α β : Type} {a : List α} {b : List β} (h : a.length = b.length) : (a.zip b).map (·.1) = a :=
  List.map_fst_zip (by omega)

theorem map_snd_zip' {α β : Type} {a : List α} {b : List β} (h : a.length = b.length) : (a.zip b).map (·.2) = b :=
  List.map_snd_zip (by omega)

theorem DFrame.Ok.length_eq {F : DFrame K} (h : F.Ok) : F.meta.length = F.data.length := by
  have := congrArg List.length h.labels
  simpa using this.symm

theorem DFrame.Ok.meta_eq {F : DFrame K} (h : F.Ok) : F.meta = F.rows.map (·.1) := (map_fst_zip' h.length_eq).symm
theorem DFrame.Ok.data_eq {F : DFrame K} (h : F.Ok) : F.data = F.rows.map (·.2) := (map_snd_zip' h.length_eq).symm

theorem DFrame.Ok.frameOf_eq {F : DFrame K} (h : F.Ok) : F = frameOf F.times F.cols F.rows := by
  unfold frameOf
  rw [← h.meta_eq, ← h.data_eq]

theorem zip_map_fst_snd {α β : Type} (R : List (α × β)) : (R.map (·.1)).zip (R.map (·.2)) = R := by
  induction R with
  | nil => rfl
  | cons a l ih => simp [ih]

@[simp] theorem frameOf_rows (times : List Int) (cols : List String) (R : List (SRow K)) :
    (frameOf times cols R).rows = R := zip_map_fst_snd R

/-- The rows of a good frame: both labels agree and are not repeated. -/
theorem frame_ok_iff {times : List Int} {cols : List String} {R : List (SRow K)} :
    (frameOf times cols R).Ok ↔ (∀ rd ∈ R, rd.1.1 = rd.2.1) ∧ (R.map (·.2.1)).Nodup ∧ cols.Nodup ∧
      (∀ rd ∈ R, rd.2.2.length = times.length) ∧ (∀ rd ∈ R, rd.1.2.length = cols.length) := by
  constructor
  · rintro ⟨h1, h2, h3, h4, h5⟩
    simp only [frameOf, List.map_map, List.mem_map, forall_exists_index, and_imp, forall_apply_eq_imp_iff₂] at h1 h2 h3 h4 h5
    refine ⟨?_, h2, h3, h4, h5⟩
    intro rd hrd
    exact (List.map_inj_left.1 h1 rd hrd).symm
  · rintro ⟨h1, h2, h3, h4, h5⟩
    constructor
    · simp only [frameOf, List.map_map]
      exact List.map_congr_left fun rd hrd => (h1 rd hrd).symm
    · rw [frameOf, List.map_map]; exact h2
    · exact h3
    · intro d hd; obtain ⟨x, hx, rfl⟩ := List.mem_map.1 hd; exact h4 x hx
    · intro d hd; obtain ⟨x, hx, rfl⟩ := List.mem_map.1 hd; exact h5 x hx

theorem DFrame.Ok.rows_ok {F : DFrame K} (h : F.Ok) : (∀ rd ∈ F.rows, rd.1.1 = rd.2.1) ∧ (F.rows.map (·.2.1)).Nodup ∧
    F.cols.Nodup ∧ (∀ rd ∈ F.rows, rd.2.2.length = F.times.length) ∧
    (∀ rd ∈ F.rows, rd.1.2.length = F.cols.length) := by
  have := h
  rw [h.frameOf_eq] at this
  exact frame_ok_iff.1 this

/-! ## Picking -/

theorem pick_length_le {α : Type} (bs : List Bool) (l : List α) : (pick bs l).length ≤ l.length := by
  induction bs generalizing l with
  | nil => simp [pick]
  | cons b bs ih =>
    cases l with
    | nil => simp [pick]
    | cons a l =>
      have := ih l
      cases b <;> simp [pick] <;> omega

theorem pick_length_eq {α β : Type} (bs : List Bool) {l : List α} {m : List β} (h : l.length = m.length) :
    (pick bs l).length = (pick bs m).length := by
  induction bs generalizing l m with
  | nil => simp [pick]
  | cons b bs ih =>
    cases l with
    | nil => cases m with
      | nil => simp [pick]
      | cons _ _ => simp at h
    | cons a l =>
      cases m with
      | nil => simp at h
      | cons c m =>
        simp only [List.length_cons, Nat.add_right_cancel_iff] at h
        have := ih h
        cases b <;> simp [pick, this]

theorem pick_map {α β : Type} (f : α → β) (bs : List Bool) (l : List α) : pick bs (l.map f) = (pick bs l).map f := by
  induction bs generalizing l with
  | nil => simp [pick]
  | cons b bs ih =>
    cases l with
    | nil => simp [pick]
    | cons a l => cases b <;> simp [pick, ih]

theorem pick_zipWith {α β γ : Type} (f : α → β → γ) (bs : List Bool) (l : List α) (m : List β) :
    pick bs (List.zipWith f l m) = List.zipWith f (pick bs l) (pick bs m) := by
  induction bs generalizing l m with
  | nil => simp [pick]
  | cons b bs ih =>
    cases l with
    | nil => simp [pick]
    | cons a l =>
      cases m with
      | nil => cases b <;> simp [pick]
      | cons c m => cases b <;> simp [pick, ih]

/-- Picking in two steps. -/
theorem pick_pick {α : Type} (bs cs : List Bool) (l : List α) (h : List.Forall₂ (fun c b => c = true → b = true) cs bs) :
    pick (pick bs cs) (pick bs l) = pick cs l := by
  induction h generalizing l with
  | nil => cases l <;> simp [pick]
  | @cons c b cs bs h1 _ ih =>
    cases l with
    | nil => cases b <;> cases c <;> simp [pick] at h1 ⊢
    | cons a l => cases b <;> cases c <;> simp [pick, ih] at h1 ⊢

theorem pick_mem {α : Type} {bs : List Bool} {l : List α} {x : α} (h : x ∈ pick bs l) : x ∈ l := by
  induction bs generalizing l with
  | nil => simp [pick] at h
  | cons b bs ih =>
    cases l with
    | nil => simp [pick] at h
    | cons a l =>
      cases b with
      | true =>
        simp only [pick, if_true, List.mem_cons] at h
        rcases h with rfl | h
        · simp
        · simp [ih h]
      | false =>
        simp only [pick, Bool.false_eq_true, if_false] at h
        simp [ih h]

/-! ## Times that are present -/

theorem presentTimes_length (times : List Int) (data : List (Nat × List (Fl K)))
    (h : ∀ d ∈ data, d.2.length = times.length) : (presentTimes times data).length = times.length := by
  induction data with
  | nil => simp [presentTimes]
  | cons d l ih =>
    have h1 : (presentTimes times l).length = times.length := ih fun d hd => h d (by simp [hd])
    unfold presentTimes at h1 ⊢
    simp only [List.foldr_cons, List.length_zipWith, List.length_map, h1, h d (by simp), Nat.min_self]

theorem presentTimes_cons (times : List Int) (d : Nat × List (Fl K)) (l : List (Nat × List (Fl K))) :
    presentTimes times (d :: l) = List.zipWith (· || ·) (d.2.map Fl.isNum) (presentTimes times l) := rfl

theorem presentTimes_pick (bs : List Bool) (times : List Int) (data : List (Nat × List (Fl K))) :
    presentTimes (pick bs times) (data.map fun d => (d.1, pick bs d.2)) = pick bs (presentTimes times data) := by
  induction data with
  | nil => exact (pick_map _ bs times).symm
  | cons d l ih =>
    rw [List.map_cons, presentTimes_cons, ih, presentTimes_cons, pick_zipWith, pick_map]

theorem forall₂_or_left {a b : List Bool} (h : a.length = b.length) :
    List.Forall₂ (fun c b => c = true → b = true) a (List.zipWith (· || ·) a b) := by
  induction a generalizing b with
  | nil => cases b <;> simp at h ⊢
  | cons x a ih =>
    cases b with
    | nil => simp at h
    | cons y b =>
      simp only [List.length_cons, Nat.add_right_cancel_iff] at h
      simp only [List.zipWith_cons_cons, List.forall₂_cons]
      exact ⟨by intro hx; simp [hx], ih h⟩

theorem forall₂_or_right {a b : List Bool} (h : a.length = b.length) :
    List.Forall₂ (fun c b => c = true → b = true) b (List.zipWith (· || ·) a b) := by
  induction a generalizing b with
  | nil => cases b <;> simp at h ⊢
  | cons x a ih =>
    cases b with
    | nil => simp at h
    | cons y b =>
      simp only [List.length_cons, Nat.add_right_cancel_iff] at h
      simp only [List.zipWith_cons_cons, List.forall₂_cons]
      exact ⟨by intro hx; simp [hx], ih h⟩

theorem forall₂_imp_trans {a b c : List Bool} (h1 : List.Forall₂ (fun c b => c = true → b = true) a b)
    (h2 : List.Forall₂ (fun c b => c = true → b = true) b c) : List.Forall₂ (fun c b => c = true → b = true) a c := by
  induction h1 generalizing c with
  | nil => exact h2
  | cons p _ ih =>
    cases h2 with
    | cons q h2 => exact .cons (fun h => q (p h)) (ih h2)

/-- Every series lies within the present times. -/
theorem presentTimes_covers {times : List Int} {data : List (Nat × List (Fl K))}
    (h : ∀ d ∈ data, d.2.length = times.length) {d : Nat × List (Fl K)} (hd : d ∈ data) :
    List.Forall₂ (fun c b => c = true → b = true) (d.2.map Fl.isNum) (presentTimes times data) := by
  induction data with
  | nil => simp at hd
  | cons e l ih =>
    rw [presentTimes_cons]
    have hl : (e.2.map Fl.isNum).length = (presentTimes times l).length := by
      rw [presentTimes_length times l fun d hd => h d (by simp [hd]), List.length_map, h e (by simp)]
    rcases List.mem_cons.1 hd with rfl | hd
    · exact forall₂_or_left hl
    · exact forall₂_imp_trans (ih (fun d hd => h d (by simp [hd])) hd) (forall₂_or_right hl)

/-- Fewer values, fewer times. -/
theorem presentTimes_mono {times : List Int} {R S : List (Nat × List (Fl K))}
    (hS : ∀ d ∈ S, d.2.length = times.length)
    (h : List.Forall₂ (fun a b : Nat × List (Fl K) => List.Forall₂ (fun c b => c = true → b = true)
      (a.2.map Fl.isNum) (b.2.map Fl.isNum)) R S) :
    List.Forall₂ (fun c b => c = true → b = true) (presentTimes times R) (presentTimes times S) := by
  induction h with
  | nil => simp [presentTimes]
  | @cons a b R S h1 _ ih =>
    rw [presentTimes_cons, presentTimes_cons]
    have h2 := ih fun d hd => hS d (by simp [hd])
    clear ih
    generalize a.2.map Fl.isNum = u at h1
    generalize b.2.map Fl.isNum = v at h1
    generalize presentTimes times R = w at h2
    generalize presentTimes times S = z at h2
    induction h1 generalizing w z with
    | nil => simp
    | cons p _ ih2 =>
      cases h2 with
      | nil => simp
      | cons q h2 =>
        simp only [List.zipWith_cons_cons, List.forall₂_cons]
        refine ⟨?_, ih2 _ _ h2⟩
        intro h
        rcases Bool.or_eq_true _ _ ▸ h with h | h
        · simp [p h]
        · simp [q h]

/-- Series without values do not make times present. -/
theorem presentTimes_filter {times : List Int} {data : List (Nat × List (Fl K))}
    (h : ∀ d ∈ data, d.2.length = times.length) (p : Nat × List (Fl K) → Bool)
    (hp : ∀ d ∈ data, p d = false → d.2.any Fl.isNum = false) :
    presentTimes times (data.filter p) = presentTimes times data := by
  induction data with
  | nil => rfl
  | cons d l ih =>
    have ih := ih (fun d hd => h d (by simp [hd])) (fun d hd => hp d (by simp [hd]))
    cases hd : p d with
    | true => rw [List.filter_cons_of_pos (by simpa using hd), presentTimes_cons, presentTimes_cons, ih]
    | false =>
      rw [List.filter_cons_of_neg (by simpa using hd), presentTimes_cons, ih]
      have h1 := hp d (by simp) hd
      have h2 : (d.2.map Fl.isNum).length = (presentTimes times l).length := by
        rw [presentTimes_length times l fun d hd => h d (by simp [hd]), List.length_map, h d (by simp)]
      have h3 : ∀ x ∈ d.2.map Fl.isNum, x = false := by
        intro x hx
        obtain ⟨v, hv, rfl⟩ := List.mem_map.1 hx
        rw [List.any_eq_false] at h1
        simpa using h1 v hv
      generalize d.2.map Fl.isNum = u at h2 h3
      generalize presentTimes times l = w at h2
      clear * - h2 h3
      induction u generalizing w with
      | nil => cases w <;> simp at h2 ⊢
      | cons x u ih =>
        cases w with
        | nil => simp at h2
        | cons y w =>
          simp only [List.length_cons, Nat.add_right_cancel_iff] at h2
          rw [List.zipWith_cons_cons, ← ih (fun x hx => h3 x (by simp [hx])) w h2, h3 x (by simp)]
          simp

/-! ## Restricting -/

theorem maskVals_length {P : Int → Bool} {times : List Int} {vals : List (Fl K)} (h : vals.length = times.length) :
    (maskVals P times vals).length = times.length := by
  simp [maskVals, h]

theorem maskVals_and (P Q : Int → Bool) (times : List Int) (vals : List (Fl K)) :
    maskVals Q times (maskVals P times vals) = maskVals (fun t => P t && Q t) times vals := by
  unfold maskVals
  induction times generalizing vals with
  | nil => simp
  | cons t l ih =>
    cases vals with
    | nil => simp
    | cons v r =>
      simp only [List.zipWith_cons_cons, ih, List.cons.injEq, and_true]
      by_cases h1 : P t = true <;> by_cases h2 : Q t = true <;> simp [h1, h2]

theorem maskVals_pick (P : Int → Bool) (bs : List Bool) (times : List Int) (vals : List (Fl K)) :
    maskVals P (pick bs times) (pick bs vals) = pick bs (maskVals P times vals) := (pick_zipWith _ bs times vals).symm

theorem maskVals_isNum (P : Int → Bool) {times : List Int} {vals : List (Fl K)} (h : vals.length = times.length) :
    List.Forall₂ (fun c b => c = true → b = true) ((maskVals P times vals).map Fl.isNum) (vals.map Fl.isNum) := by
  unfold maskVals
  induction times generalizing vals with
  | nil => cases vals <;> simp at h ⊢
  | cons t l ih =>
    cases vals with
    | nil => simp at h
    | cons v r =>
      simp only [List.length_cons, Nat.add_right_cancel_iff] at h
      simp only [List.zipWith_cons_cons, List.map_cons, List.forall₂_cons]
      refine ⟨?_, ih h⟩
      cases P t <;> simp [Fl.isNum]

theorem any_of_forall₂ {a b : List (Fl K)} (h : List.Forall₂ (fun c b => c = true → b = true) (a.map Fl.isNum) (b.map Fl.isNum))
    (ha : a.any Fl.isNum = true) : b.any Fl.isNum = true := by
  have e : ∀ l : List (Fl K), l.any Fl.isNum = (l.map Fl.isNum).any id := by intro l; simp [List.any_map]
  rw [e] at ha ⊢
  generalize a.map Fl.isNum = u at h ha
  generalize b.map Fl.isNum = v at h
  induction h with
  | nil => simp at ha
  | cons p _ ih =>
    simp only [List.any_cons, Bool.or_eq_true, id] at ha ⊢
    rcases ha with ha | ha
    · exact Or.inl (p ha)
    · exact Or.inr (ih ha)

/-- Picking times that cover a series loses none of its values. -/
theorem any_pick {bs : List Bool} {a : List (Fl K)}
    (h : List.Forall₂ (fun c b => c = true → b = true) (a.map Fl.isNum) bs) :
    (pick bs a).any Fl.isNum = a.any Fl.isNum := by
  induction a generalizing bs with
  | nil => cases bs <;> simp [pick]
  | cons v r ih =>
    cases h with
    | @cons _ b _ bs h1 h2 =>
      cases b with
      | true => simp [pick, ih h2]
      | false =>
        have : v.isNum = false := by cases hv : v.isNum <;> simp [hv] at h1 ⊢
        simp [pick, ih h2, this]

/-- Dropping what is empty before restricting changes nothing. -/
theorem dropRows_restrict {times : List Int} {cols : List String} {R : List (SRow K)}
    (hR : ∀ rd ∈ R, rd.2.2.length = times.length) (Q : List (PyVal K) → Int → Bool) :
    (dropRows times cols R).restrict Q = dropRows times cols (maskRows Q times R) := by
  have hM : ∀ rd ∈ maskRows Q times R, rd.2.2.length = times.length := by
    intro rd hrd
    obtain ⟨x, hx, rfl⟩ := List.mem_map.1 hrd
    exact maskVals_length (hR x hx)
  set k := presentTimes times (R.map (·.2)) with hk
  set k' := presentTimes times ((maskRows Q times R).map (·.2)) with hk'
  have hR2 : ∀ d ∈ R.map (·.2), d.2.length = times.length := by
    intro d hd; obtain ⟨x, hx, rfl⟩ := List.mem_map.1 hd; exact hR x hx
  have hM2 : ∀ d ∈ (maskRows Q times R).map (·.2), d.2.length = times.length := by
    intro d hd; obtain ⟨x, hx, rfl⟩ := List.mem_map.1 hd; exact hM x hx
  have hle : List.Forall₂ (fun c b => c = true → b = true) k' k := by
    refine presentTimes_mono hR2 ?_
    rw [maskRows, List.map_map, List.forall₂_map_left_iff, List.forall₂_map_right_iff, List.forall₂_same]
    intro rd hrd
    exact maskVals_isNum _ (hR rd hrd)
  -- the rows of the smaller frame after masking
  have hrows : maskRows Q (pick k times) ((R.filter fun rd => rd.2.2.any Fl.isNum).map fun rd =>
      (rd.1, (rd.2.1, pick k rd.2.2))) = (maskRows Q times (R.filter fun rd => rd.2.2.any Fl.isNum)).map fun rd =>
      (rd.1, (rd.2.1, pick k rd.2.2)) := by
    unfold maskRows
    rw [List.map_map, List.map_map]
    refine List.map_congr_left fun rd _ => ?_
    simp only [Function.comp, maskVals_pick]
  have hmem : ∀ rd ∈ maskRows Q times (R.filter fun rd => rd.2.2.any Fl.isNum), rd ∈ maskRows Q times R := by
    intro rd hrd
    obtain ⟨x, hx, rfl⟩ := List.mem_map.1 hrd
    exact List.mem_map.2 ⟨x, (List.mem_filter.1 hx).1, rfl⟩
  have hpresent : presentTimes times ((maskRows Q times (R.filter fun rd => rd.2.2.any Fl.isNum)).map (·.2)) = k' := by
    rw [hk']
    have e : ∀ S : List (SRow K), (∀ rd ∈ S, rd.2.2.length = times.length) →
        presentTimes times ((maskRows Q times (S.filter fun rd => rd.2.2.any Fl.isNum)).map (·.2))
          = presentTimes times ((maskRows Q times S).map (·.2)) := by
      intro S hS
      induction S with
      | nil => rfl
      | cons s l ih =>
        have ih := ih fun rd hrd => hS rd (by simp [hrd])
        cases hs : s.2.2.any Fl.isNum with
        | true =>
          rw [List.filter_cons_of_pos (by simpa using hs)]
          simp only [maskRows, List.map_cons, presentTimes_cons] at ih ⊢
          rw [ih]
        | false =>
          rw [List.filter_cons_of_neg (by simp [hs])]
          rw [ih]
          have h1 : presentTimes times ([((maskRows Q times (s :: l)).map (·.2)).head (by simp [maskRows])] ++
              (maskRows Q times l).map (·.2)) = presentTimes times ((maskRows Q times l).map (·.2)) := by
            have := presentTimes_filter (times := times) (data := (maskRows Q times (s :: l)).map (·.2))
              (by
                intro d hd
                obtain ⟨x, hx, rfl⟩ := List.mem_map.1 hd
                obtain ⟨y, hy, rfl⟩ := List.mem_map.1 hx
                exact maskVals_length (hS y hy)) (fun d => d.2.any Fl.isNum) (fun d _ h => h)
            have h2 := presentTimes_filter (times := times) (data := (maskRows Q times l).map (·.2))
              (by
                intro d hd
                obtain ⟨x, hx, rfl⟩ := List.mem_map.1 hd
                obtain ⟨y, hy, rfl⟩ := List.mem_map.1 hx
                exact maskVals_length (hS y (by simp [hy]))) (fun d => d.2.any Fl.isNum) (fun d _ h => h)
            have hz : (maskVals (Q s.1.2) times s.2.2).any Fl.isNum = false := by
              by_contra hc
              have := any_of_forall₂ (maskVals_isNum (Q s.1.2) (hS s (by simp))) (by simpa using hc)
              rw [hs] at this
              cases this
            have e : ((maskRows Q times (s :: l)).map (·.2)).filter (fun d => d.2.any Fl.isNum)
                = ((maskRows Q times l).map (·.2)).filter (fun d => d.2.any Fl.isNum) := by
              simp only [maskRows, List.map_cons]
              rw [List.filter_cons_of_neg]
              simpa using hz
            rw [e, h2] at this
            rw [this]
            rfl
          exact h1.symm
    exact e R hR
  have hp2 : presentTimes (pick k times) (((maskRows Q times (R.filter fun rd => rd.2.2.any Fl.isNum)).map fun rd =>
      (rd.1, (rd.2.1, pick k rd.2.2))).map (·.2)) = pick k k' := by
    rw [List.map_map]
    have : ((maskRows Q times (R.filter fun rd => rd.2.2.any Fl.isNum)).map
        ((fun x : SRow K => x.2) ∘ fun rd => (rd.1, (rd.2.1, pick k rd.2.2))))
        = ((maskRows Q times (R.filter fun rd => rd.2.2.any Fl.isNum)).map (·.2)).map fun d => (d.1, pick k d.2) := by
      rw [List.map_map]; rfl
    rw [this, presentTimes_pick, hpresent]
  unfold DFrame.restrict
  simp only [dropRows, frameOf_rows, ← hk]
  simp only [frameOf]
  rw [hrows, hp2, ← hk', pick_pick k k' times hle]
  have hfinal : (((maskRows Q times (R.filter fun rd => rd.2.2.any Fl.isNum)).map fun rd =>
        (rd.1, (rd.2.1, pick k rd.2.2))).filter fun rd => rd.2.2.any Fl.isNum).map
          (fun rd => (rd.1, (rd.2.1, pick (pick k k') rd.2.2)))
      = ((maskRows Q times R).filter fun rd => rd.2.2.any Fl.isNum).map fun rd => (rd.1, (rd.2.1, pick k' rd.2.2)) := by
    have hcov : ∀ rd ∈ maskRows Q times R, List.Forall₂ (fun c b => c = true → b = true) (rd.2.2.map Fl.isNum) k :=
      fun rd hrd => forall₂_imp_trans (presentTimes_covers hM2 (List.mem_map.2 ⟨rd, hrd, rfl⟩)) hle
    clear hpresent hp2 hrows hmem
    have e : ∀ S : List (SRow K), (∀ rd ∈ S, rd.2.2.length = times.length) →
        (∀ rd ∈ maskRows Q times S, List.Forall₂ (fun c b => c = true → b = true) (rd.2.2.map Fl.isNum) k) →
        (((maskRows Q times (S.filter fun rd => rd.2.2.any Fl.isNum)).map fun rd =>
          (rd.1, (rd.2.1, pick k rd.2.2))).filter fun rd => rd.2.2.any Fl.isNum).map
            (fun rd => (rd.1, (rd.2.1, pick (pick k k') rd.2.2)))
        = ((maskRows Q times S).filter fun rd => rd.2.2.any Fl.isNum).map fun rd => (rd.1, (rd.2.1, pick k' rd.2.2)) := by
      intro S hS hc
      induction S with
      | nil => rfl
      | cons s l ih =>
        have ih := ih (fun rd hrd => hS rd (by simp [hrd])) (fun rd hrd => hc rd (by
          simp only [maskRows, List.map_cons, List.mem_cons] at hrd ⊢; exact Or.inr hrd))
        have hc1 := hc (s.1, (s.2.1, maskVals (Q s.1.2) times s.2.2)) (by simp [maskRows])
        have hany := any_pick hc1
        cases hs : s.2.2.any Fl.isNum with
        | true =>
          rw [List.filter_cons_of_pos (by simpa using hs)]
          simp only [maskRows, List.map_cons] at ih ⊢
          cases hm : (maskVals (Q s.1.2) times s.2.2).any Fl.isNum with
          | true =>
            rw [List.filter_cons_of_pos (by simpa [hm] using hany), List.filter_cons_of_pos (by simpa using hm),
              List.map_cons, List.map_cons, ih]
            simp only [List.cons.injEq, Prod.mk.injEq, true_and, and_true]
            exact pick_pick k k' _ hle
          | false =>
            rw [List.filter_cons_of_neg (by simp only [hany]; simp [hm]), List.filter_cons_of_neg (by simp [hm]), ih]
        | false =>
          rw [List.filter_cons_of_neg (by simp [hs]), ih]
          have hm : (maskVals (Q s.1.2) times s.2.2).any Fl.isNum = false := by
            by_contra hcc
            have := any_of_forall₂ (maskVals_isNum (Q s.1.2) (hS s (by simp))) (by simpa using hcc)
            rw [hs] at this
            cases this
          simp only [maskRows, List.map_cons]
          rw [List.filter_cons_of_neg (by simp [hm])]
    exact e R hR hcov
  congr 1
  · have := congrArg (List.map (fun x : SRow K => x.2)) hfinal
    exact this
  · have := congrArg (List.map (fun x : SRow K => x.1)) hfinal
    exact this

theorem maskRows_and (P Q : List (PyVal K) → Int → Bool) (times : List Int) (R : List (SRow K)) :
    maskRows Q times (maskRows P times R) = maskRows (fun r t => P r t && Q r t) times R := by
  unfold maskRows
  rw [List.map_map]
  refine List.map_congr_left fun rd _ => ?_
  simp only [Function.comp, maskVals_and]

/-- Restricting twice. -/
theorem DFrame.Ok.restrict_restrict {F : DFrame K} (hF : F.Ok) (P Q : List (PyVal K) → Int → Bool) :
    (F.restrict P).restrict Q = F.restrict fun r t => P r t && Q r t := by
  have hR := hF.rows_ok.2.2.2.1
  have := dropRows_restrict (cols := F.cols) (R := maskRows P F.times F.rows) (times := F.times)
    (by
      intro rd hrd
      obtain ⟨x, hx, rfl⟩ := List.mem_map.1 hrd
      exact maskVals_length (hR x hx)) Q
  rw [maskRows_and] at this
  exact this

/-- Restricting keeps frames good. -/
theorem DFrame.Ok.restrict {F : DFrame K} (hF : F.Ok) (P : List (PyVal K) → Int → Bool) : (F.restrict P).Ok := by
  obtain ⟨h1, h2, h3, h4, h5⟩ := hF.rows_ok
  unfold DFrame.restrict dropRows
  refine frame_ok_iff.2 ⟨?_, ?_, h3, ?_, ?_⟩
  · intro rd hrd
    obtain ⟨x, hx, rfl⟩ := List.mem_map.1 hrd
    obtain ⟨y, hy, rfl⟩ := List.mem_map.1 (List.mem_filter.1 hx).1
    exact h1 y hy
  · have hsub : List.Sublist ((((maskRows P F.times F.rows).filter fun rd => rd.2.2.any Fl.isNum).map fun rd =>
        (rd.1, (rd.2.1, pick (presentTimes F.times ((maskRows P F.times F.rows).map (·.2))) rd.2.2))).map
          fun x : SRow K => x.2.1) (F.rows.map fun x : SRow K => x.2.1) := by
      rw [List.map_map]
      have : F.rows.map (fun x : SRow K => x.2.1) = (maskRows P F.times F.rows).map fun x => x.2.1 := by
        unfold maskRows; rw [List.map_map]; rfl
      rw [this]
      exact List.filter_sublist.map _
    exact List.Sublist.nodup hsub h2
  · intro rd hrd
    obtain ⟨x, hx, rfl⟩ := List.mem_map.1 hrd
    obtain ⟨y, hy, rfl⟩ := List.mem_map.1 (List.mem_filter.1 hx).1
    exact pick_length_eq _ (maskVals_length (h4 y hy))
  · intro rd hrd
    obtain ⟨x, hx, rfl⟩ := List.mem_map.1 hrd
    obtain ⟨y, hy, rfl⟩ := List.mem_map.1 (List.mem_filter.1 hx).1
    exact h5 y hy

end Openscm
