import Verif.FrameCommute
import Verif.FrameContext
import Verif.FrameRef

/-!
# C83: Anomalies and units

Values relative to a reference period, `relative_to_ref_period_mean` (`openscm/scmdataframe/base.py:1274-1316`), after
`convert_unit` (`openscm/scmdataframe/base.py:1216-1272`): the offset of the units does not matter and the scaling is
that of the values, for each timeseries, whichever timeseries were converted.
-/

set_option linter.unusedSectionVars false

namespace Openscm

variable {K : Type} [Field K] [LinearOrder K] [IsStrictOrderedRing K]

/-! ## Values relative to their mean -/

theorem valuesAt_map (P : Int → Prop) (times : List Int) (vals : List (Fl K)) (g : K → K) :
    valuesAt P times (vals.map (Fl.map g)) = (valuesAt P times vals).map g := by
  unfold valuesAt
  induction times generalizing vals with
  | nil => rfl
  | cons t l ih =>
    cases vals with
    | nil => rfl
    | cons v r =>
      rw [List.map_cons, List.zip_cons_cons, List.zip_cons_cons, List.filterMap_cons, List.filterMap_cons, ih r]
      cases v with
      | nan => rfl
      | num x =>
        by_cases hp : P t
        · simp [hp, Fl.map]
        · simp [hp, Fl.map]

theorem sum_map_affine (l : List K) (a b : K) : (l.map fun x => a + x * b).sum = (l.length : K) * a + l.sum * b := by
  induction l with
  | nil => simp
  | cons x l ih =>
    rw [List.map_cons, List.sum_cons, List.sum_cons, ih, List.length_cons]
    push_cast
    ring

/-- What is subtracted is the mean. -/
theorem RelativeTo.shift {P : Int → Prop} {times : List Int} {vals vals' : List (Fl K)}
    (h : RelativeTo P times vals vals') (hne : valuesAt P times vals ≠ []) :
    vals' = vals.map (Fl.map (· - (valuesAt P times vals).sum / ((valuesAt P times vals).length : K))) := by
  obtain ⟨⟨m, hm⟩, h0, -⟩ := h.1 hne
  have hn : ((valuesAt P times vals).length : K) ≠ 0 := by
    rw [Nat.cast_ne_zero]
    exact fun hh => hne (List.length_eq_zero_iff.1 hh)
  have e : vals' = vals.map (Fl.map (· - m)) := by
    rw [hm]
    refine List.map_congr_left fun x _ => ?_
    cases x <;> rfl
  have : m = (valuesAt P times vals).sum / ((valuesAt P times vals).length : K) := by
    rw [e, valuesAt_map, sum_map_sub, List.length_map, div_eq_zero_iff] at h0
    rcases h0 with h0 | h0
    · rw [eq_div_iff hn, mul_comm]
      exact (sub_eq_zero.1 h0).symm
    · exact absurd h0 hn
  rw [e, this]

theorem RelativeTo.affine {P : Int → Prop} {times : List Int} {vals v v' : List (Fl K)} {a b : K}
    (h : RelativeTo P times vals v) (h' : RelativeTo P times (vals.map (Fl.map fun x => a + x * b)) v') :
    v' = v.map (Fl.map (· * b)) := by
  by_cases hne : valuesAt P times vals = []
  · rw [h.2 hne, h'.2 (by rw [valuesAt_map, hne]; rfl), List.map_map, List.map_map]
    rfl
  · have hn : ((valuesAt P times vals).length : K) ≠ 0 := by
      rw [Nat.cast_ne_zero]
      exact fun hh => hne (List.length_eq_zero_iff.1 hh)
    rw [h.shift hne, h'.shift (by rw [valuesAt_map]; simpa using hne), valuesAt_map, sum_map_affine, List.length_map,
      List.map_map, List.map_map]
    refine List.map_congr_left fun x _ => ?_
    cases x with
    | nan => rfl
    | num x =>
      refine congrArg Fl.num ?_
      field_simp
      ring

theorem RelativeTo.unique {P : Int → Prop} {times : List Int} {vals v v' : List (Fl K)}
    (h : RelativeTo P times vals v) (h' : RelativeTo P times vals v') : v' = v := by
  by_cases hne : valuesAt P times vals = []
  · rw [h.2 hne, h'.2 hne]
  · rw [h.shift hne, h'.shift hne]

/-! ## Frames -/

/-- Filters that do not name units or contexts do not notice whether there is a column for contexts. -/
theorem matches_context {o : FilterOpts K} {filters : List (String × PyArg K)} (hf : NotAboutUnits filters)
    {cols cols' : List String} {row row' : List (PyVal K)} (hc : ∀ c, c ≠ "unit_context" → (c ∈ cols ↔ c ∈ cols'))
    (h : ∀ c v, c ≠ "unit" → c ≠ "unit_context" →
      ((∃ i : Nat, cols[i]? = some c ∧ row[i]? = some v) ↔ ∃ i : Nat, cols'[i]? = some c ∧ row'[i]? = some v))
    (t : Int) : Matches o filters cols row t ↔ Matches o filters cols' row' t := by
  have hfit : ∀ (level : Option (PyArg K)) (c : String) (arg : PyArg K), c ≠ "unit" → c ≠ "unit_context" →
      (MetaFits o level cols row c arg ↔ MetaFits o level cols' row' c arg) := by
    intro level c arg h1 h2
    unfold MetaFits
    constructor
    · rintro ⟨i, v, w, a, b, d⟩
      obtain ⟨j, a', b'⟩ := (h c v h1 h2).1 ⟨i, a, b⟩
      exact ⟨j, v, w, a', b', d⟩
    · rintro ⟨i, v, w, a, b, d⟩
      obtain ⟨j, a', b'⟩ := (h c v h1 h2).2 ⟨i, a, b⟩
      exact ⟨j, v, w, a', b', d⟩
  unfold Matches
  refine forall_congr' fun f => forall_congr' fun hfm => ?_
  obtain ⟨h1, h2⟩ := hf f hfm
  unfold Wants
  by_cases hv : f.1 = "variable"
  · rw [if_pos hv, if_pos hv]
    exact hfit _ _ _ (by decide) (by decide)
  · rw [if_neg hv, if_neg hv]
    by_cases hm : f.1 ∈ cols
    · rw [if_pos hm, if_pos ((hc _ h2).1 hm)]
      exact hfit _ _ _ h1 h2
    · rw [if_neg hm, if_neg (fun h => hm ((hc _ h2).2 h))]
      by_cases hl : f.1 = "level"
      · rw [if_pos hl, if_pos hl]
        exact or_congr Iff.rfl (hfit _ _ _ (by decide) (by decide))
      · rw [if_neg hl, if_neg hl]

/-- The metadata of rows of results agree except for the unit and its context. -/
def AgreeMeta (cols cols' : List String) (row row' : List (PyVal K)) : Prop :=
  ∀ c v, c ≠ "unit" → c ≠ "unit_context" →
    ((∃ j : Nat, cols[j]? = some c ∧ row[j]? = some v) ↔ ∃ j : Nat, cols'[j]? = some c ∧ row'[j]? = some v)

theorem named_agree {cols cols' : List String} (hn : cols.Nodup) (hn' : cols'.Nodup)
    {name : String} {row row' : List (PyVal K)} (h : AgreeMeta cols cols' row row') :
    AgreeMeta cols cols' (nameVariable cols name row) (nameVariable cols' name row') := by
  intro c v h1 h2
  have hkey : ∀ {cols : List String} (_ : cols.Nodup) (row : List (PyVal K)) (c : String) (v : PyVal K),
      (∃ j : Nat, cols[j]? = some c ∧ (nameVariable cols name row)[j]? = some v) ↔
        ∃ w, (∃ j : Nat, cols[j]? = some c ∧ row[j]? = some w) ∧
          v = if c = "variable" then (match w with | .str s => .str (s ++ " " ++ name) | w => w) else w := by
    intro cols hn row c v
    constructor
    · rintro ⟨j, e1, e2⟩
      by_cases hc : c = "variable"
      · subst hc
        have := idxOf_of_getElem? hn e1
        subst this
        rw [nameVariable, List.getElem?_modify_eq] at e2
        obtain ⟨w, hw, e3⟩ := Option.map_eq_some_iff.1 e2
        exact ⟨w, ⟨_, e1, hw⟩, by rw [if_pos rfl]; exact e3.symm⟩
      · rw [nameVariable, List.getElem?_modify_ne] at e2
        · exact ⟨v, ⟨j, e1, e2⟩, by rw [if_neg hc]⟩
        · rintro hj
          have hmem : "variable" ∈ cols := by
            rw [← List.idxOf_lt_length_iff, hj]
            exact (List.getElem?_eq_some_iff.1 e1).1
          rw [← hj, getElem?_idxOf' hmem] at e1
          exact hc (Option.some.inj e1).symm
    · rintro ⟨w, ⟨j, e1, e2⟩, rfl⟩
      refine ⟨j, e1, ?_⟩
      by_cases hc : c = "variable"
      · subst hc
        have := idxOf_of_getElem? hn e1
        subst this
        rw [nameVariable, List.getElem?_modify_eq, e2, if_pos rfl]
        rfl
      · rw [nameVariable, List.getElem?_modify_ne, if_neg hc, e2]
        rintro hj
        have hmem : "variable" ∈ cols := by
          rw [← List.idxOf_lt_length_iff, hj]
          exact (List.getElem?_eq_some_iff.1 e1).1
        rw [← hj, getElem?_idxOf' hmem] at e1
        exact hc (Option.some.inj e1).symm
  rw [hkey hn, hkey hn']
  exact exists_congr fun w => and_congr_left' (h c w h1 h2)

/-- C83 for any converters: after converting, values relative to a reference period are those before times the scaling of the units,
for the timeseries that were converted, and the same for the others. The metadata agree except for units and contexts. -/
theorem relative_converted {conv : String → Except Err (Fl K → Fl K)} {F G X : DFrame K} (hF : F.Ok)
    (hr : ∀ c ∈ requiredCols, c ∈ F.cols) {o : FilterOpts K} {keep : Bool} {which : List (String × PyArg K)} {w : String}
    {ctx : PyVal K} (h : F.convertUnit conv o keep which w ctx false = (.ok (some G), X))
    {fmt : PyVal K → String} {o' : FilterOpts K} {name : Option String} {period : List (String × PyArg K)}
    (hp : NotAboutUnits period) {res res' : List (List (PyVal K) × List (Fl K))}
    (h1 : F.relativeToRef fmt o' name period = .ok res) (h2 : G.relativeToRef fmt o' name period = .ok res')
    {i : Nat} {rd : SRow K} (hi : F.withContext.rows[i]? = some rd) :
    ∃ rv rv', res[i]? = some rv ∧ res'[i]? = some rv' ∧ AgreeMeta F.cols G.cols rv.1 rv'.1 ∧
      (∀ u f a b, Selected o keep which F.times F.withContext.cols rd → F.HasMeta i "unit" (.str u) → conv u = .ok f →
        (∀ x, f x = x.map fun x => a + x * b) → rv'.2 = rv.2.map (Fl.map (· * b))) ∧
      (¬ Selected o keep which F.times F.withContext.cols rd ∨ (∀ u, ¬ F.HasMeta i "unit" (.str u)) → rv'.2 = rv.2) := by
  obtain ⟨G1, e1, -, g1, g2, g3, g4⟩ := C53_converted hF hr h
  simp only [Bool.false_eq_true, if_false, Option.some.injEq] at e1
  subst e1
  obtain ⟨s1, s2, s3, s4, s5, s6, s7⟩ := withContext_spec hF hr
  have h0 := hF.withContext
  obtain ⟨r1, r2, r3, r4, r5⟩ := h0.rows_ok
  have hvF : "variable" ∈ F.cols := hr _ (by decide)
  have hvG : "variable" ∈ G.cols := by rw [g3, s4]; exact .inl hvF
  have hlt : i < F.withContext.rows.length := (List.getElem?_eq_some_iff.1 hi).1
  have hltG : i < G.rows.length := g4.length_eq ▸ hlt
  have hrel := g4.get hlt hltG
  simp only [List.get_eq_getElem] at hrel
  have ea : F.withContext.rows[i] = rd := (List.getElem?_eq_some_iff.1 hi).2
  rw [ea] at hrel
  have hb : G.rows[i]? = some G.rows[i] := List.getElem?_eq_getElem hltG
  generalize G.rows[i] = b at hb hrel
  have hdata : F.data[i]? = some rd.2 := by rw [← s2, h0.data_eq, List.getElem?_map, hi]; rfl
  have hltF : i < F.rows.length := by
    have := (List.getElem?_eq_some_iff.1 hdata).1
    rw [hF.data_eq, List.length_map] at this
    exact this
  have hc : F.rows[i]? = some F.rows[i] := List.getElem?_eq_getElem hltF
  generalize F.rows[i] = c at hc
  have hcd : c.2 = rd.2 := by
    have : F.data[i]? = some c.2 := by rw [hF.data_eq, List.getElem?_map, hc]; rfl
    rw [hdata] at this
    exact (Option.some.inj this).symm
  have hcmeta : F.meta[i]? = some c.1 := by rw [hF.meta_eq, List.getElem?_map, hc]; rfl
  have hameta : F.withContext.meta[i]? = some rd.1 := by rw [h0.meta_eq, List.getElem?_map, hi]; rfl
  have hbmeta : G.meta[i]? = some b.1 := by rw [g1.meta_eq, List.getElem?_map, hb]; rfl
  have hM : ∀ {H : DFrame K} {r : Nat × List (PyVal K)} (_ : H.meta[i]? = some r) (x : String) (v : PyVal K),
      H.HasMeta i x v ↔ ∃ j : Nat, H.cols[j]? = some x ∧ r.2[j]? = some v := by
    intro H r hr x v
    constructor
    · rintro ⟨j, y, q1, q2, q3⟩
      rw [hr] at q2
      cases q2
      exact ⟨j, q1, q3⟩
    · rintro ⟨j, q1, q3⟩
      exact ⟨j, r, q1, hr, q3⟩
  have hagree : AgreeMeta F.cols G.cols c.1.2 b.1.2 := by
    intro x v x1 x2
    rw [← hM hcmeta, ← s5 i x v x2, hM hameta, g3]
    cases hrel with
    | converted q1 q2 q3 q4 q5 q6 q7 q8 =>
      refine exists_congr fun k => and_congr_right fun hk => ?_
      rw [q8 k x hk x1 x2]
    | unselected q1 => exact Iff.rfl
    | noUnit q1 q2 q3 => exact Iff.rfl
  have hmatch : ∀ t, Matches o' period G.cols b.1.2 t ↔ Matches o' period F.cols c.1.2 t := fun t =>
    (matches_context hp (fun x hx => by rw [g3, s4]; simp [hx]) hagree t).symm
  obtain ⟨T, n, -, -, hn, rfl⟩ := relativeToRef_ok h1
  obtain ⟨T', n', -, -, hn', rfl⟩ := relativeToRef_ok h2
  rw [hn] at hn'
  cases hn'
  obtain ⟨_, _, f1⟩ := C54_relative hF hvF h1
  obtain ⟨_, _, f2⟩ := C54_relative g1 hvG h2
  rw [List.forall₂_map_right_iff, List.forall₂_same] at f1 f2
  have k1 := (f1 c (List.mem_of_getElem? hc)).2
  have k2 := (f2 b (List.mem_of_getElem? hb)).2
  rw [List.getElem?_map, List.getElem?_map, hc, hb]
  refine ⟨_, _, rfl, rfl, named_agree hF.cols_nodup g1.cols_nodup hagree, ?_, ?_⟩
  all_goals
    dsimp only
    simp only [funext fun t => propext (hmatch t)] at k2
    rw [g2] at k2
    rw [hcd] at k1
  · intro u f a d hsel hu hf haff
    cases hrel with
    | @converted l l' row row' vals j u' f' q1 q2 q3 q4 q5 q6 q7 q8 =>
      have hu' : F.HasMeta i "unit" (.str u') := by
        rw [← s5 i _ _ (by decide), hM hameta]
        exact ⟨j, q2, q3⟩
      have : u' = u := by
        rw [hM hcmeta] at hu hu'
        obtain ⟨j1, z1, z2⟩ := hu
        obtain ⟨j2, z3, z4⟩ := hu'
        have : j1 = j2 := by rw [← idxOf_of_getElem? hF.cols_nodup z1, ← idxOf_of_getElem? hF.cols_nodup z3]
        subst this
        rw [z2] at z4
        exact (PyVal.str.inj (Option.some.inj z4)).symm
      subst this
      rw [hf] at q4
      cases q4
      have e : vals.map f = vals.map (Fl.map fun x => a + x * d) := List.map_congr_left fun x _ => haff x
      dsimp only at k1 k2 ⊢
      rw [e] at k2 ⊢
      rw [hcd]
      exact k1.affine k2
    | unselected q1 => exact absurd hsel q1
    | @noUnit _ j v q1 q2 q3 =>
      rw [← s5 i _ _ (by decide), hM hameta] at hu
      obtain ⟨j1, z1, z2⟩ := hu
      have : j1 = j := by rw [← idxOf_of_getElem? r3 z1, ← idxOf_of_getElem? r3 q1]
      subst this
      rw [q2] at z2
      exact absurd (Option.some.inj z2) (q3 u)
  · intro hsel
    have hsame : b.2 = rd.2 := by
      cases hrel with
      | @converted l l' row row' vals j u' f' q1 q2 q3 q4 q5 q6 q7 q8 =>
        rcases hsel with hsel | hsel
        · exact absurd q1 hsel
        · refine absurd ?_ (hsel u')
          rw [← s5 i _ _ (by decide), hM hameta]
          exact ⟨j, q2, q3⟩
      | unselected q1 => rfl
      | noUnit q1 q2 q3 => rfl
    rw [hsame] at k2
    rw [hsame, hcd]
    exact k1.unique k2

/-- **C83**: after converting units, values relative to a reference period are those before times the scaling of the
units; their offset does not matter. What was not converted is the same. The metadata agree but for units and contexts. -/
theorem C83_units {reg : Registry K} {F G X : DFrame K} (hF : F.Ok) (hr : ∀ c ∈ requiredCols, c ∈ F.cols)
    {o : FilterOpts K} {keep : Bool} {which : List (String × PyArg K)} {w : String}
    (h : F.convertUnit (unitConv reg w) o keep which w .none false = (.ok (some G), X)) {fmt : PyVal K → String}
    {o' : FilterOpts K} {name : Option String} {period : List (String × PyArg K)} (hp : NotAboutUnits period)
    {res res' : List (List (PyVal K) × List (Fl K))} (h1 : F.relativeToRef fmt o' name period = .ok res)
    (h2 : G.relativeToRef fmt o' name period = .ok res') {i : Nat} {rd : SRow K} (hi : F.withContext.rows[i]? = some rd) :
    ∃ rv rv', res[i]? = some rv ∧ res'[i]? = some rv' ∧ AgreeMeta F.cols G.cols rv.1 rv'.1 ∧
      (∀ u c, Selected o keep which F.times F.withContext.cols rd → F.HasMeta i "unit" (.str u) → mkConv reg u w = .ok c →
        rv'.2 = rv.2.map (Fl.map (· * c.scaling))) ∧
      (¬ Selected o keep which F.times F.withContext.cols rd ∨ (∀ u, ¬ F.HasMeta i "unit" (.str u)) → rv'.2 = rv.2) := by
  obtain ⟨rv, rv', q1, q2, q3, q4, q5⟩ := relative_converted hF hr h hp h1 h2 hi
  refine ⟨rv, rv', q1, q2, q3, fun u c hs hu hc => ?_, q5⟩
  refine q4 u (fun x => match x with | .nan => .nan | .num v => .num (c.convertFrom v)) c.offset c.scaling hs hu ?_ ?_
  · unfold unitConv
    rw [hc]
    rfl
  · intro x
    cases x <;> rfl

/-- **C83** with a metric: the factor is that of the emissions. -/
theorem C83_metric {reg : Registry ℚ} (hreg : HasGases reg) {own : List (String × List (Edge ℚ))}
    (hown : ∀ n ∈ scmContexts, n ∉ own.map Prod.fst) (before : List ConvReq) {F G X : DFrame ℚ} (hF : F.Ok)
    (hr : ∀ c ∈ requiredCols, c ∈ F.cols) {o : FilterOpts ℚ} {keep : Bool} {which : List (String × PyArg ℚ)}
    {metric b : String}
    (h : (F.convertUnitIn reg o keep which b (some metric) false (afterReqs reg before (importState own))).1
      = (.ok (some G), X)) {fmt : PyVal ℚ → String} {o' : FilterOpts ℚ} {name : Option String}
    {period : List (String × PyArg ℚ)} (hp : NotAboutUnits period) {res res' : List (List (PyVal ℚ) × List (Fl ℚ))}
    (h1 : F.relativeToRef fmt o' name period = .ok res) (h2 : G.relativeToRef fmt o' name period = .ok res')
    {i : Nat} {rd : SRow ℚ} (hi : F.withContext.rows[i]? = some rd) {x y : String} {p q : ℚ} (hx : Gwp metric x (.num p))
    (hy : Gwp metric y (.num q)) (hxy : x ≠ y) {φ : Form} {a : String} {m m' : ℚ} (ha : InForm reg φ x m a)
    (hb : InForm reg φ y m' b) (hs : Selected o keep which F.times F.withContext.cols rd)
    (hu : F.HasMeta i "unit" (.str a)) :
    ∃ rv rv', res[i]? = some rv ∧ res'[i]? = some rv' ∧ AgreeMeta F.cols G.cols rv.1 rv'.1 ∧
      rv'.2 = scaleAll (p / q * m / m') rv.2 := by
  rw [convertUnitIn_eq hreg hown before] at h
  obtain ⟨f, hf1, hf2⟩ := frameConv_metric hreg hown hx hy hxy ha hb
  obtain ⟨rv, rv', q1, q2, q3, q4, -⟩ := relative_converted hF hr h hp h1 h2 hi
  refine ⟨rv, rv', q1, q2, q3, ?_⟩
  refine q4 a f 0 _ hs hu hf1 fun v => ?_
  rw [hf2]
  cases v with
  | nan => rfl
  | num v => exact congrArg Fl.num (zero_add _).symm

/-! ## Example -/

/-- Temperatures in K and degC relative to 2010: the numbers are the same. -/
example : ∃ G, refF.convertUnit (unitConv tempReg "degC") demoO true [] "degC" .none false = (.ok (some G), refF) ∧
    NotAboutUnits [("year", PyArg.list [PyVal.int (K := ℚ) 2010])] ∧
    (∃ l, G.data[0]? = some (l, [.num (1 - 27315 / 100), .num (3 - 27315 / 100), .num (10 - 27315 / 100)])) ∧
    refF.relativeToRef (fun _ => "") demoO (some "rel") [("variable", .val (.str "T"))] = .ok
      [([.str "m", .str "a", .str "World", .str "T rel", .str "K"], [.num (-11 / 3), .num (-5 / 3), .num (16 / 3)]),
       ([.str "m", .str "b", .str "World", .str "T rel", .str "K"], [.nan, .nan, .num 0]),
       ([.str "m", .str "c", .str "World", .str "T rel", .str "K"], [.nan, .num (-1 / 2), .num (1 / 2)])] ∧
    G.relativeToRef (fun _ => "") demoO (some "rel") [("variable", .val (.str "T"))] = .ok
      [([.str "m", .str "a", .str "World", .str "T rel", .str "degC", .none], [.num (-11 / 3), .num (-5 / 3), .num (16 / 3)]),
       ([.str "m", .str "b", .str "World", .str "T rel", .str "degC", .none], [.nan, .nan, .num 0]),
       ([.str "m", .str "c", .str "World", .str "T rel", .str "degC", .none], [.nan, .num (-1 / 2), .num (1 / 2)])] :=
  ⟨frameIn (refF.convertUnit (unitConv tempReg "degC") demoO true [] "degC" .none false), by decide +kernel,
    by unfold NotAboutUnits; decide +kernel, ⟨0, by decide +kernel⟩, by decide +kernel, by decide +kernel⟩

end Openscm
