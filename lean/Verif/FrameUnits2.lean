import Verif.FrameUnits

/-!
# C53: there and back, and cases
-/

set_option linter.unusedSectionVars false

namespace Openscm

variable {K : Type} [Field K] [DecidableEq K]

/-- Two rows of metadata that agree but for the unit and its context. -/
def AgreeButUnit (cols : List String) (row row' : List (PyVal K)) : Prop :=
  ∀ (i : Nat) (c : String), cols[i]? = some c → c ≠ "unit" → c ≠ "unit_context" → row'[i]? = row[i]?

/-- Filters that do not name the unit or its context. -/
def NotAboutUnits (filters : List (String × PyArg K)) : Prop := ∀ f ∈ filters, f.1 ≠ "unit" ∧ f.1 ≠ "unit_context"

theorem metaFits_agree {o : FilterOpts K} {level : Option (PyArg K)} {cols : List String} {row row' : List (PyVal K)}
    (h : AgreeButUnit cols row row') {c : String} (h1 : c ≠ "unit") (h2 : c ≠ "unit_context") {arg : PyArg K} :
    MetaFits o level cols row' c arg ↔ MetaFits o level cols row c arg := by
  unfold MetaFits
  refine exists_congr fun i => exists_congr fun v => exists_congr fun w => ?_
  constructor
  · rintro ⟨a, b, c'⟩
    rw [h i c a h1 h2] at b
    exact ⟨a, b, c'⟩
  · rintro ⟨a, b, c'⟩
    rw [← h i c a h1 h2] at b
    exact ⟨a, b, c'⟩

theorem matches_agree {o : FilterOpts K} {filters : List (String × PyArg K)} (hf : NotAboutUnits filters) {cols : List String}
    {row row' : List (PyVal K)} (h : AgreeButUnit cols row row') {t : Int} :
    Matches o filters cols row' t ↔ Matches o filters cols row t := by
  unfold Matches
  refine forall_congr' fun f => forall_congr' fun hfm => ?_
  obtain ⟨h1, h2⟩ := hf f hfm
  unfold Wants
  split
  · exact metaFits_agree h (by decide) (by decide)
  · split
    · exact metaFits_agree h h1 h2
    · split
      · exact or_congr_right (metaFits_agree h (by decide) (by decide))
      · exact Iff.rfl

/-- Converting with `conv₂` from `w` undoes converting with `conv₁` from `u`, and numbers stay numbers. -/
structure Undoes (conv₁ conv₂ : String → Except Err (Fl K → Fl K)) (u w : String) : Prop where
  num : ∀ f, conv₁ u = .ok f → ∀ x : K, ∃ y, f (.num x) = .num y
  undo : ∀ f g, conv₁ u = .ok f → conv₂ w = .ok g → ∀ x, g (f x) = x

/-- Converting there and back, for one timeseries. -/
theorem row_back {conv₁ conv₂ : String → Except Err (Fl K → Fl K)} {u w : String} (hback : Undoes conv₁ conv₂ u w)
    {ctx ctx' : PyVal K} {cols : List String} (hn : cols.Nodup)
    (hu : "unit" ∈ cols) {o : FilterOpts K} {keep : Bool} {filters : List (String × PyArg K)} (hf : NotAboutUnits filters)
    {times : List Int} {a b c : SRow K} (ha : a.1.2.length = cols.length)
    (hsel : Selected o keep filters times cols a → ∀ u', unitIn cols a.1.2 = .str u' → u' = u)
    (h1 : RowConverted conv₁ w ctx cols (Selected o keep filters times cols) a b)
    (h2 : RowConverted conv₂ u ctx' cols (Selected o keep filters times cols) b c) :
    c.2 = a.2 ∧ c.1.1 = a.1.1 ∧ c.1.2.length = a.1.2.length ∧
      ∀ (i : Nat) (n : String), cols[i]? = some n → n ≠ "unit_context" → c.1.2[i]? = a.1.2[i]? := by
  have hui := getElem?_idxOf' hu
  have huni : ∀ j, cols[j]? = some "unit" → j = cols.idxOf "unit" := fun j hj => (idxOf_of_getElem? hn hj).symm
  cases h1 with
  | @converted l l' row row' vals j u' f hs hj hrow hcf hlen p1 p2 p3 =>
    have hj' := huni j hj
    subst hj'
    have hu' : u' = u := by
      refine hsel hs u' ?_
      have := getElem?_idxOf_unit hu ha
      simp only at this
      rw [hrow] at this
      exact (Option.some.inj this).symm
    subst hu'
    simp only at ha
    -- still selected
    have hagree : AgreeButUnit cols row row' := p3
    have hsel2 : Selected o keep filters times cols ((l, row'), (l', vals.map f)) := by
      obtain ⟨k, t, x, q1, q2, q3⟩ := hs
      obtain ⟨y, hy⟩ := hback.num f hcf x
      refine ⟨k, t, y, q1, ?_, ?_⟩
      · simp only at q2 ⊢
        rw [List.getElem?_map, q2, Option.map_some, hy]
      · rw [matches_agree hf hagree]
        exact q3
    have hrow' : row'[cols.idxOf "unit"]? = some (.str w) := by
      have hlt : cols.idxOf "unit" < row'.length := by
        have := List.idxOf_lt_length_of_mem hu
        omega
      have he := List.getElem?_eq_getElem hlt
      rw [he, p1 _ _ hui he]
    generalize hb : (((l, row'), (l', vals.map f)) : SRow K) = b' at h2 hsel2
    cases h2 with
    | @converted m m' row2 row'' vals2 j2 u2 f2 hs2 hj2 hrow2 hcf2 hlen2 p1' p2' p3' =>
      cases hb
      have hj2' := huni j2 hj2
      subst hj2'
      rw [hrow'] at hrow2
      have hu2 := PyVal.str.inj (Option.some.inj hrow2)
      subst hu2
      refine ⟨?_, rfl, by simp only; omega, ?_⟩
      · simp only [List.map_map]
        congr 1
        conv_rhs => rw [← List.map_id vals]
        exact List.map_congr_left fun x _ => hback.undo f f2 hcf hcf2 x
      · intro i n hi hnc
        simp only
        by_cases hnu : n = "unit"
        · subst hnu
          have := huni i hi
          subst this
          have hlt : cols.idxOf "unit" < row''.length := by
            have := List.idxOf_lt_length_of_mem hu
            omega
          have he := List.getElem?_eq_getElem hlt
          rw [he, p1' _ _ hui he, hrow]
        · rw [p3' i n hi hnu hnc, p3 i n hi hnu hnc]
    | unselected hns => exact absurd (hb ▸ hsel2) hns
    | @noUnit _ j2 v hj2 hv hvn =>
      have hj2' := huni j2 hj2
      subst hj2'
      rw [← hb] at hv
      simp only at hv
      rw [hrow'] at hv
      exact absurd (Option.some.inj hv).symm (hvn w)
  | unselected hns =>
    cases h2 with
    | converted hs2 => exact absurd hs2 hns
    | unselected => exact ⟨rfl, rfl, rfl, fun _ _ _ _ => rfl⟩
    | noUnit => exact ⟨rfl, rfl, rfl, fun _ _ _ _ => rfl⟩
  | @noUnit _ j v hj hv hvn =>
    have hj' := huni j hj
    subst hj'
    cases h2 with
    | @converted m m' row2 row'' vals2 j2 u2 f2 hs2 hj2 hrow2 =>
      have hj2' := huni j2 hj2
      subst hj2'
      simp only at hv
      rw [hrow2] at hv
      exact absurd (Option.some.inj hv).symm (hvn u2)
    | unselected => exact ⟨rfl, rfl, rfl, fun _ _ _ _ => rfl⟩
    | noUnit => exact ⟨rfl, rfl, rfl, fun _ _ _ _ => rfl⟩

theorem forall₂_trans_mem {α : Type} {R S T : α → α → Prop} {a b c : List α} (h1 : List.Forall₂ R a b) (h2 : List.Forall₂ S b c)
    (h : ∀ x ∈ a, ∀ y z, R x y → S y z → T x z) : List.Forall₂ T a c := by
  induction h1 generalizing c with
  | nil => cases h2; exact .nil
  | @cons x y l m hxy _ ih =>
    cases h2 with
    | @cons _ z _ n hyz hr =>
      exact .cons (h x (by simp) y z hxy hyz) (ih hr fun x' hx' => h x' (by simp [hx']))

/-- Converting the selected timeseries there and back. -/
theorem convert_back {conv₁ conv₂ : String → Except Err (Fl K → Fl K)} {ctx ctx' : PyVal K} {F G H F' G' : DFrame K} (hF : F.Ok) (hr : ∀ c ∈ requiredCols, c ∈ F.cols)
    {o : FilterOpts K} {keep : Bool} {filters : List (String × PyArg K)} (hf : NotAboutUnits filters) {u w : String}
    (hsel : ∀ rd ∈ F.withContext.rows, Selected o keep filters F.times F.withContext.cols rd →
      ∀ u', unitIn F.withContext.cols rd.1.2 = .str u' → u' = u)
    (hback : Undoes conv₁ conv₂ u w)
    (h1 : F.convertUnit conv₁ o keep filters w ctx false = (.ok (some G), F'))
    (h2 : G.convertUnit conv₂ o keep filters u ctx' false = (.ok (some H), G')) :
    H.times = F.times ∧ H.data = F.data ∧ H.cols = F.withContext.cols ∧
    ∀ i c v, c ≠ "unit_context" → (H.HasMeta i c v ↔ F.HasMeta i c v) := by
  obtain ⟨G1, e1, -, g1, g2, g3, g4⟩ := C53_converted hF hr h1
  simp only [Bool.false_eq_true, if_false, Option.some.injEq] at e1
  subst e1
  obtain ⟨hu, hc⟩ := unit_mem_withContext hF hr
  have hGc : G.withContext = G := by
    unfold DFrame.withContext
    rw [if_pos (g3 ▸ hc)]
  have hrG : ∀ c ∈ requiredCols, c ∈ G.cols := by
    intro c hcr
    rw [g3]
    exact ((withContext_spec hF hr).2.2.2.1 c).2 (.inl (hr c hcr))
  obtain ⟨H1, e2, -, k1, k2, k3, k4⟩ := C53_converted g1 hrG h2
  simp only [Bool.false_eq_true, if_false, Option.some.injEq] at e2
  subst e2
  rw [hGc, g3] at k3 k4
  rw [g2] at k2 k4
  have h0 := hF.withContext
  obtain ⟨r1, r2, r3, r4, r5⟩ := h0.rows_ok
  have hall := forall₂_trans_mem g4 k4 (T := fun a c : SRow K => c.2 = a.2 ∧ c.1.1 = a.1.1 ∧ c.1.2.length = a.1.2.length ∧
      ∀ (i : Nat) (n : String), F.withContext.cols[i]? = some n → n ≠ "unit_context" → c.1.2[i]? = a.1.2[i]?)
    fun a ha b c q1 q2 => row_back hback r3 hu hf (r5 a ha) (hsel a ha) q1 q2
  obtain ⟨s1, s2, -, -, s5, -⟩ := withContext_spec hF hr
  refine ⟨k2, ?_, k3, ?_⟩
  · rw [k1.data_eq, ← s2, h0.data_eq]
    have : ∀ {l m : List (SRow K)}, List.Forall₂ (fun a c : SRow K => c.2 = a.2 ∧ c.1.1 = a.1.1 ∧ c.1.2.length = a.1.2.length ∧
      ∀ (i : Nat) (n : String), F.withContext.cols[i]? = some n → n ≠ "unit_context" → c.1.2[i]? = a.1.2[i]?) l m →
        m.map (·.2) = l.map (·.2) := by
      intro l m h
      induction h with
      | nil => rfl
      | cons h _ ih => simp [h.1, ih]
    exact this hall
  · intro i c v hcne
    rw [← s5 i c v hcne]
    unfold DFrame.HasMeta
    rw [k3]
    have hlenr : H.rows.length = F.withContext.rows.length := hall.length_eq.symm
    have hmeta : ∀ (i : Nat), (∃ x, H.meta[i]? = some x) ∨ (∃ x, F.withContext.meta[i]? = some x) →
        ∃ x y, H.meta[i]? = some x ∧ F.withContext.meta[i]? = some y ∧
        ∀ (j : Nat) (n : String), F.withContext.cols[j]? = some n → n ≠ "unit_context" → x.2[j]? = y.2[j]? := by
      intro i hi
      have hlt : i < F.withContext.rows.length := by
        rcases hi with ⟨x, hx⟩ | ⟨x, hx⟩
        · rw [k1.meta_eq] at hx
          have := (List.getElem?_eq_some_iff.1 hx).1
          simpa [hlenr] using this
        · rw [h0.meta_eq] at hx
          have := (List.getElem?_eq_some_iff.1 hx).1
          simpa using this
      have hrel := hall.get hlt (hlenr ▸ hlt)
      refine ⟨(H.rows[i]'(hlenr ▸ hlt)).1, (F.withContext.rows[i]).1, ?_, ?_, hrel.2.2.2⟩
      · rw [k1.meta_eq, List.getElem?_map, List.getElem?_eq_getElem (hlenr ▸ hlt)]; rfl
      · rw [h0.meta_eq, List.getElem?_map, List.getElem?_eq_getElem hlt]; rfl
    constructor
    · rintro ⟨j, r, q1, q2, q3⟩
      obtain ⟨x, y, a1, a2, a3⟩ := hmeta i (.inl ⟨r, q2⟩)
      rw [q2] at a1
      cases a1
      exact ⟨j, y, q1, a2, by rw [← a3 j c q1 hcne]; exact q3⟩
    · rintro ⟨j, r, q1, q2, q3⟩
      obtain ⟨x, y, a1, a2, a3⟩ := hmeta i (.inr ⟨r, q2⟩)
      rw [q2] at a2
      cases a2
      exact ⟨j, x, q1, a1, by rw [a3 j c q1 hcne]; exact q3⟩

theorem unitConv_undoes [CharZero K] (reg : Registry K) (u w : String) : Undoes (unitConv reg w) (unitConv reg u) u w where
  num := by
    intro f hf x
    unfold unitConv at hf
    cases hm : mkConv reg u w with
    | error e => rw [hm] at hf; cases hf
    | ok c =>
      rw [hm] at hf
      rw [← Except.ok.inj hf]
      exact ⟨_, rfl⟩
  undo := by
    intro f g hf hg x
    unfold unitConv at hf hg
    cases hm : mkConv reg u w with
    | error e => rw [hm] at hf; cases hf
    | ok c1 =>
      cases hm2 : mkConv reg w u with
      | error e => rw [hm2] at hg; cases hg
      | ok c2 =>
        rw [hm] at hf
        rw [hm2] at hg
        rw [← Except.ok.inj hf, ← Except.ok.inj hg]
        cases x with
        | nan => rfl
        | num v =>
          dsimp only
          rw [C33_reverse hm hm2, C32_to_from hm]

/-- C53: converting the selected timeseries, which have the unit `u` (or none), to another unit and back restores
all values and units, without contexts and for filters that do not look at units. -/
theorem C53_back [CharZero K] {reg : Registry K} {F G H F' G' : DFrame K} (hF : F.Ok) (hr : ∀ c ∈ requiredCols, c ∈ F.cols)
    {o : FilterOpts K} {keep : Bool} {filters : List (String × PyArg K)} (hf : NotAboutUnits filters) {u w : String}
    (hsel : ∀ rd ∈ F.withContext.rows, Selected o keep filters F.times F.withContext.cols rd →
      ∀ u', unitIn F.withContext.cols rd.1.2 = .str u' → u' = u)
    (h1 : F.convertUnit (unitConv reg w) o keep filters w .none false = (.ok (some G), F'))
    (h2 : G.convertUnit (unitConv reg u) o keep filters u .none false = (.ok (some H), G')) :
    H.times = F.times ∧ H.data = F.data ∧ H.cols = F.withContext.cols ∧
    ∀ i c v, c ≠ "unit_context" → (H.HasMeta i c v ↔ F.HasMeta i c v) :=
  convert_back hF hr hf hsel (unitConv_undoes reg u w) h1 h2

/-! ### Cases -/

def tempReg : Registry ℚ := fun s =>
  if s = "K" then some { dim := [("[temperature]", 1)], scale := 1, offset := 0, scale_ne := by norm_num }
  else if s = "mK" then some { dim := [("[temperature]", 1)], scale := 1 / 1000, offset := 0, scale_ne := by norm_num }
  else if s = "degC" then some { dim := [("[temperature]", 1)], scale := 1, offset := 27315 / 100, scale_ne := by norm_num }
  else if s = "m" then some { dim := [("[length]", 1)], scale := 1, offset := 0, scale_ne := by norm_num }
  else none

/-- Temperatures in K and mK, a length and a timeseries without values. -/
def tempF : DFrame ℚ :=
  { times := [0, 100]
    cols := ["model", "scenario", "region", "variable", "unit"]
    data := [(0, [.num 300, .nan]), (1, [.num 1000, .num 2000]), (2, [.num 1, .num 2]), (3, [.nan, .nan])]
    «meta» := [(0, [.str "m", .str "a", .str "World", .str "T", .str "K"]), (1, [.str "m", .str "b", .str "World", .str "T", .str "mK"]),
      (2, [.str "m", .str "a", .str "World", .str "L", .str "m"]), (3, [.str "m", .str "c", .str "World", .str "T", .str "K"])] }

theorem tempF_ok : tempF.Ok where
  labels := by decide +kernel
  nodup := by decide +kernel
  cols_nodup := by decide +kernel
  data_len := by decide +kernel
  meta_len := by decide +kernel

/-- Temperatures are converted, the length and the timeseries without values are not. -/
example : tempF.convertUnit (unitConv tempReg "degC") demoO true [("variable", .val (.str "T"))] "degC" .none false =
    (.ok (some { times := [0, 100], cols := ["model", "scenario", "region", "variable", "unit", "unit_context"]
                 data := [(0, [.num (2685 / 100), .nan]), (1, [.num (-27215 / 100), .num (-27115 / 100)]), (2, [.num 1, .num 2]), (3, [.nan, .nan])]
                 «meta» := [(0, [.str "m", .str "a", .str "World", .str "T", .str "degC", .none]),
                   (1, [.str "m", .str "b", .str "World", .str "T", .str "degC", .none]),
                   (2, [.str "m", .str "a", .str "World", .str "L", .str "m", .none]),
                   (3, [.str "m", .str "c", .str "World", .str "T", .str "K", .none])] }), tempF) := by
  decide +kernel

/-- Hypotheses of C53_back: one scenario, there and back. -/
example : NotAboutUnits (K := ℚ) [("scenario", .val (.str "a")), ("variable", .val (.str "T"))] ∧
    ∃ G H, tempF.convertUnit (unitConv tempReg "degC") demoO true [("scenario", .val (.str "a")), ("variable", .val (.str "T"))] "degC" .none false =
      (.ok (some G), tempF) ∧ G.data ≠ tempF.data ∧
    G.convertUnit (unitConv tempReg "K") demoO true [("scenario", .val (.str "a")), ("variable", .val (.str "T"))] "K" .none false = (.ok (some H), G) ∧
    H.data = tempF.data := by
  refine ⟨by unfold NotAboutUnits; decide +kernel,
    { times := [0, 100]
      cols := ["model", "scenario", "region", "variable", "unit", "unit_context"]
      data := [(0, [.num (2685 / 100), .nan]), (1, [.num 1000, .num 2000]), (2, [.num 1, .num 2]), (3, [.nan, .nan])]
      «meta» := [(0, [.str "m", .str "a", .str "World", .str "T", .str "degC", .none]),
                   (1, [.str "m", .str "b", .str "World", .str "T", .str "mK", .none]),
                   (2, [.str "m", .str "a", .str "World", .str "L", .str "m", .none]),
                   (3, [.str "m", .str "c", .str "World", .str "T", .str "K", .none])] },
    { times := [0, 100], cols := ["model", "scenario", "region", "variable", "unit", "unit_context"]
      data := [(0, [.num 300, .nan]), (1, [.num 1000, .num 2000]), (2, [.num 1, .num 2]), (3, [.nan, .nan])]
      «meta» := [(0, [.str "m", .str "a", .str "World", .str "T", .str "K", .none]),
                   (1, [.str "m", .str "b", .str "World", .str "T", .str "mK", .none]),
                   (2, [.str "m", .str "a", .str "World", .str "L", .str "m", .none]),
                   (3, [.str "m", .str "c", .str "World", .str "T", .str "K", .none])] }, ?_, ?_, ?_, ?_⟩ <;> decide +kernel

/-- Timeseries without values keep their unit even if nothing is filtered: here "c", among temperatures only. -/
theorem C53_no_values : ∃ G, tempF.convertUnit (unitConv tempReg "mK") demoO true [("variable", .val (.str "T"))] "mK" .none false =
      (.ok (some G), tempF) ∧ G.HasMeta 0 "unit" (.str "mK") ∧ G.HasMeta 3 "unit" (.str "K") := by
  refine ⟨{ times := [0, 100], cols := ["model", "scenario", "region", "variable", "unit", "unit_context"]
            data := [(0, [.num 300000, .nan]), (1, [.num 1000, .num 2000]), (2, [.num 1, .num 2]), (3, [.nan, .nan])]
            «meta» := [(0, [.str "m", .str "a", .str "World", .str "T", .str "mK", .none]),
                   (1, [.str "m", .str "b", .str "World", .str "T", .str "mK", .none]),
                   (2, [.str "m", .str "a", .str "World", .str "L", .str "m", .none]),
                   (3, [.str "m", .str "c", .str "World", .str "T", .str "K", .none])] }, by decide +kernel, ⟨4, _, rfl, rfl, rfl⟩, ⟨4, _, rfl, rfl, rfl⟩⟩

/-- In place, a refused conversion leaves a frame that is half converted: K (first in order) is, m is not. -/
theorem C53_inplace : ∃ G, tempF.convertUnit (unitConv tempReg "degC") demoO true [] "degC" .none true = (.error .dimensionality, G) ∧
    G.HasMeta 0 "unit" (.str "degC") ∧ tempF.HasMeta 0 "unit" (.str "K") := by
  refine ⟨{ times := [0, 100], cols := ["model", "scenario", "region", "variable", "unit", "unit_context"]
            data := [(0, [.num (2685 / 100), .nan]), (1, [.num 1000, .num 2000]), (2, [.num 1, .num 2]), (3, [.nan, .nan])]
            «meta» := [(0, [.str "m", .str "a", .str "World", .str "T", .str "degC", .none]),
                   (1, [.str "m", .str "b", .str "World", .str "T", .str "mK", .none]),
                   (2, [.str "m", .str "a", .str "World", .str "L", .str "m", .none]),
                   (3, [.str "m", .str "c", .str "World", .str "T", .str "K", .none])] }, by decide +kernel, ⟨4, _, rfl, rfl, rfl⟩, ⟨4, _, rfl, rfl, rfl⟩⟩

end Openscm
