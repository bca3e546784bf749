import Verif.FrameSelect
import Verif.FrameRef2

/-!
# C93: selecting timeseries, converting units and anomalies
-/

set_option linter.unusedSectionVars false

namespace Openscm
variable {K : Type} [Field K] [LinearOrder K] [IsStrictOrderedRing K]

theorem rows_commute {α β : Type} {S : α → β → Prop} {p : α → Bool} {q : β → Bool} {l : List α} {m n : List β}
    (hfun : ∀ a ∈ l, ∀ b b', S a b → S a b' → b = b') (h : List.Forall₂ S l m) (h' : List.Forall₂ S (l.filter p) n)
    (hpq : ∀ a ∈ l, ∀ b, S a b → p a = q b) : n = m.filter q := by
  induction h generalizing n with
  | nil => cases h'; rfl
  | @cons a b l m hab _ ih =>
    rw [List.filter_cons] at h'
    rw [List.filter_cons, ← hpq a (by simp) b hab]
    have hfun' : ∀ a ∈ l, ∀ b b', S a b → S a b' → b = b' := fun a ha => hfun a (by simp [ha])
    have hpq' : ∀ a ∈ l, ∀ b, S a b → p a = q b := fun a ha => hpq a (by simp [ha])
    split at h'
    · rename_i hp
      rw [if_pos hp]
      cases h' with
      | cons h1 h2 => rw [hfun a (by simp) _ _ h1 hab, ih hfun' h2 hpq']
    · rename_i hp
      rw [if_neg hp]
      exact ih hfun' h' hpq'

/-! ## Anomalies -/

theorem meta_at {F : DFrame K} (hF : F.Ok) {i : Nat} {r : Nat × List (PyVal K)} (h : F.meta[i]? = some r) :
    ∃ rd, F.rows[i]? = some rd ∧ rd.1 = r := by
  rw [hF.meta_eq, List.getElem?_map, Option.map_eq_some_iff] at h
  exact h

open Classical in
/-- C93: the anomalies of a selection of timeseries of a frame without missing values are the selected anomalies. -/
theorem C93_anomaly [CharZero K] {F F' : DFrame K} (hF : F.Ok) (hr : ∀ c ∈ requiredCols, c ∈ F.cols) (hc : Complete F)
    {os : FilterOpts K} {keep : Bool} {sel : List (String × PyArg K)} (hf : AboutMeta F.cols sel)
    (h1 : F.filter os keep sel = .ok F') {fmt : PyVal K → String} {o : FilterOpts K} {append : Option String}
    {filters : List (String × PyArg K)} {res res' : List (List (PyVal K) × List (Fl K))}
    (h : F.relativeToRef fmt o append filters = .ok res) (h' : F'.relativeToRef fmt o append filters = .ok res') :
    res'.length = F'.meta.length ∧
    ∀ (i j : Nat) (r : Nat × List (PyVal K)), F'.meta[i]? = some r → F.meta[j]? = some r → res'[i]? = res[j]? := by
  have hv : "variable" ∈ F.cols := hr _ (by decide)
  by_cases hts : F.times = []
  · have : F'.meta = [] := by
      obtain ⟨-, -, c1, -, c2⟩ := C46_cells hF h1
      match hm : F'.meta with
      | [] => rfl
      | r :: _ =>
        obtain ⟨t, x, hx⟩ := c2 r (by rw [hm]; simp)
        rw [c1] at hx
        have := (List.mem_filter.1 hx).1
        unfold DFrame.cells at this
        rw [hts] at this
        simp at this
    have ok' := (C46_cells hF h1).1
    obtain ⟨T, name, -, -, -, e⟩ := relativeToRef_ok h'
    have er : F'.rows = [] := by
      unfold DFrame.rows
      rw [this]
      rfl
    rw [this]
    refine ⟨by rw [e, er]; rfl, fun i j r q => by simp at q⟩
  obtain ⟨a1, a2, a3, a4⟩ := select_rows hF hc hts hf h1
  obtain ⟨n1, -, f1⟩ := C54_relative hF hv h
  obtain ⟨n2, -, f2⟩ := C54_relative a1 (a2 ▸ hv) h'
  obtain ⟨T, name, -, -, e1, e2⟩ := relativeToRef_ok h
  obtain ⟨T', name', -, -, e1', e2'⟩ := relativeToRef_ok h'
  rw [e1] at e1'
  cases e1'
  have lm : F'.meta.length = F'.rows.length := by rw [a1.meta_eq, List.length_map]
  refine ⟨by rw [lm, f2.length_eq], fun i j r q1 q2 => ?_⟩
  obtain ⟨rd', r1, r2⟩ := meta_at a1 q1
  obtain ⟨rd, s1, s2⟩ := meta_at hF q2
  have hne : F'.rows ≠ [] := fun h => by rw [h] at r1; simp at r1
  have ht := a4 hne
  have : rd' = rd := by
    have hm := List.mem_of_getElem? r1
    rw [a3] at hm
    have hm := (List.mem_filter.1 hm).1
    obtain ⟨p1, p2, -⟩ := hF.rows_ok
    refine List.inj_on_of_nodup_map p2 hm (List.mem_of_getElem? s1) ?_
    rw [← p1 _ hm, ← p1 _ (List.mem_of_getElem? s1), r2, s2]
  subst this
  have g1 : res[j]? = some (nameVariable F.cols name rd'.1.2, (res[j]?.map (·.2)).getD []) := by
    rw [e2, List.getElem?_map, s1]
    rfl
  have g2 : res'[i]? = some (nameVariable F.cols name rd'.1.2, (res'[i]?.map (·.2)).getD []) := by
    rw [e2', List.getElem?_map, r1, a2]
    rfl
  obtain ⟨li, ei⟩ := List.getElem?_eq_some_iff.1 r1
  obtain ⟨lj, ej⟩ := List.getElem?_eq_some_iff.1 s1
  have hi' : i < res'.length := f2.length_eq ▸ li
  have hj' : j < res.length := f1.length_eq ▸ lj
  have v1 := (f1.get lj hj').2
  have v2 := (f2.get li hi').2
  simp only [List.get_eq_getElem, ei, ej] at v1 v2
  rw [a2, ht] at v2
  have v := v1.unique v2
  rw [g1, g2, List.getElem?_eq_getElem hi', List.getElem?_eq_getElem hj']
  simp only [Option.map_some, Option.getD_some, v]

/-! ## Units -/

theorem withContext_rows (F : DFrame K) : ∃ φ : SRow K → SRow K, (∀ G : DFrame K, G.cols = F.cols → G.Ok →
    G.withContext.rows = G.rows.map φ ∧ G.withContext.cols = F.withContext.cols) ∧ ∀ a, (φ a).2 = a.2 ∧ (φ a).1.1 = a.1.1 := by
  by_cases h : "unit_context" ∈ F.cols
  · refine ⟨id, fun G hG _ => ?_, fun a => ⟨rfl, rfl⟩⟩
    unfold DFrame.withContext
    rw [if_pos h, if_pos (hG ▸ h), List.map_id]
    exact ⟨rfl, hG⟩
  · refine ⟨fun rd => ((rd.1.1, selectCols (F.cols ++ ["unit_context"]) (sortedCols (F.cols ++ ["unit_context"])) (rd.1.2 ++ [.none])), rd.2),
      fun G hG hOk => ?_, fun a => ⟨rfl, rfl⟩⟩
    unfold DFrame.withContext
    rw [if_neg h, if_neg (hG ▸ h)]
    unfold DFrame.sortMeta DFrame.rows
    simp only [hG, List.map_map]
    refine ⟨?_, trivial⟩
    rw [List.zip_map_left]
    rfl

theorem RowConverted.same {conv : String → Except Err (Fl K → Fl K)} {unit : String} {ctx : PyVal K} {cols : List String}
    {sel : SRow K → Prop} {a b b' : SRow K} (hl : a.1.2.length = cols.length) (hn : cols.Nodup)
    (h : RowConverted conv unit ctx cols sel a b) (h' : RowConverted conv unit ctx cols sel a b') : b = b' := by
  have at_unit : ∀ {i j : Nat}, cols[i]? = some "unit" → cols[j]? = some "unit" → i = j := by
    intro i j h1 h2
    exact (List.getElem?_inj (List.getElem?_eq_some_iff.1 h1).1 hn).1 (h1.trans h2.symm)
  cases h with
  | @converted l l' row row' vals j u f s1 s2 s3 s4 s5 s6 s7 s8 =>
    cases h' with
    | @converted _ _ _ row'' _ j' u' f' t1 t2 t3 t4 t5 t6 t7 t8 =>
      cases at_unit s2 t2
      rw [s3] at t3
      cases t3
      rw [s4] at t4
      cases t4
      have : row' = row'' := by
        refine List.ext_getElem (by omega) fun i q1 q2 => ?_
        simp only at hl
        have hi : i < cols.length := by omega
        have hci : cols[i]? = some cols[i] := List.getElem?_eq_getElem hi
        by_cases hu : cols[i] = "unit"
        · rw [hu] at hci
          rw [s6 i _ hci (List.getElem?_eq_getElem q1), t6 i _ hci (List.getElem?_eq_getElem q2)]
        · by_cases hx : cols[i] = "unit_context"
          · rw [hx] at hci
            rw [s7 i _ hci (List.getElem?_eq_getElem q1), t7 i _ hci (List.getElem?_eq_getElem q2)]
          · have e1 := s8 i _ hci hu hx
            have e2 := t8 i _ hci hu hx
            rw [← e2, List.getElem?_eq_getElem q1, List.getElem?_eq_getElem q2] at e1
            exact Option.some.inj e1
      rw [this]
    | unselected t1 => exact absurd s1 t1
    | noUnit t1 t2 t3 =>
      cases at_unit s2 t1
      simp only at t2
      rw [s3] at t2
      cases t2
      exact absurd rfl (t3 _)
  | unselected s1 =>
    cases h' with
    | converted t1 => exact absurd t1 s1
    | unselected => rfl
    | noUnit => rfl
  | noUnit s1 s2 s3 =>
    cases h' with
    | converted t1 t2 t3 =>
      cases at_unit s1 t2
      simp only at s2
      rw [t3] at s2
      cases s2
      exact absurd rfl (s3 _)
    | unselected => rfl
    | noUnit => rfl

theorem times_of_selected {F F' : DFrame K} (hF : F.Ok) {o : FilterOpts K} {keep : Bool} {sel : List (String × PyArg K)}
    (h1 : F.filter o keep sel = .ok F') (hne : F'.data ≠ []) : F.times ≠ [] := by
  intro hts
  obtain ⟨c0, -, c1, -, c2⟩ := C46_cells hF h1
  have hl := c0.length_eq
  match hm : F'.meta, hl with
  | [], hl => exact hne (List.length_eq_zero_iff.1 (by simpa using hl.symm))
  | r :: _, _ =>
    obtain ⟨t, x, hx⟩ := c2 r (by rw [hm]; simp)
    rw [c1] at hx
    have := (List.mem_filter.1 hx).1
    unfold DFrame.cells at this
    rw [hts] at this
    simp at this

open Classical in
/-- C93: converting units of a selection of timeseries of a frame without missing values gives the selected timeseries
of the converted frame. -/
theorem C93_units {reg : Registry K} {F F' G G' H X Y : DFrame K} (hF : F.Ok) (hr : ∀ c ∈ requiredCols, c ∈ F.cols) (hc : Complete F)
    {os : FilterOpts K} {keep : Bool} {sel : List (String × PyArg K)} (hf : OtherColumns F.cols sel)
    (h1 : F.filter os keep sel = .ok F') (hne : F'.data ≠ []) {o : FilterOpts K} {k : Bool} {filters : List (String × PyArg K)}
    {unit : String} {ctx : PyVal K}
    (h2 : F.convertUnit (unitConv reg unit) o k filters unit ctx false = (.ok (some G), X))
    (h3 : F'.convertUnit (unitConv reg unit) o k filters unit ctx false = (.ok (some H), Y))
    (h4 : G.filter os keep sel = .ok G') : G' = H := by
  have hts := times_of_selected hF h1 hne
  have hfm : AboutMeta F.cols sel := fun f hfm => ⟨(hf f hfm).1, (hf f hfm).2.2.2⟩
  obtain ⟨a1, a2, a3, a4⟩ := select_rows hF hc hts hfm h1
  have hrne : F'.rows ≠ [] := by
    intro h
    rw [a1.data_eq, h] at hne
    exact hne rfl
  have a4 := a4 hrne
  have hr' : ∀ c ∈ requiredCols, c ∈ F'.cols := by rw [a2]; exact hr
  obtain ⟨G1, e1, -, g1, g2, g3, g4⟩ := C53_converted hF hr h2
  simp only [Bool.false_eq_true, if_false, Option.some.injEq] at e1
  subst e1
  obtain ⟨H1, e1, -, k1, k2, k3, k4⟩ := C53_converted a1 hr' h3
  simp only [Bool.false_eq_true, if_false, Option.some.injEq] at e1
  subst e1
  obtain ⟨s1, s2, s3, s4, s5, s6, s7⟩ := withContext_spec hF hr
  have h0 := hF.withContext
  obtain ⟨φ, p1, p2⟩ := withContext_rows F
  have pF := (p1 F rfl hF).1
  obtain ⟨pF', pc'⟩ := p1 F' a2 a1
  rw [pF, List.forall₂_map_left_iff] at g4
  rw [pF', List.forall₂_map_left_iff, pc', a4, a3] at k4
  have hmem : ∀ a ∈ F.rows, φ a ∈ F.withContext.rows := fun a ha => by rw [pF]; exact List.mem_map_of_mem ha
  -- rows and their metadata
  have other : ∀ a ∈ F.rows, ∀ c v, c ≠ "unit_context" →
      ((∃ i : Nat, F.cols[i]? = some c ∧ a.1.2[i]? = some v) ↔
        ∃ i : Nat, F.withContext.cols[i]? = some c ∧ (φ a).1.2[i]? = some v) := by
    intro a ha c v hcx
    obtain ⟨i, hi⟩ := List.getElem?_of_mem ha
    have m1 : F.meta[i]? = some a.1 := by rw [hF.meta_eq, List.getElem?_map, hi]; rfl
    have m2 : F.withContext.meta[i]? = some (φ a).1 := by rw [h0.meta_eq, pF, List.map_map, List.getElem?_map, hi]; rfl
    have := s5 i c v hcx
    unfold DFrame.HasMeta at this
    rw [m1, m2] at this
    constructor
    · rintro ⟨j, q1, q2⟩
      obtain ⟨j', r, q3, q4, q5⟩ := this.2 ⟨j, _, q1, rfl, q2⟩
      cases q4
      exact ⟨j', q3, q5⟩
    · rintro ⟨j, q1, q2⟩
      obtain ⟨j', r, q3, q4, q5⟩ := this.1 ⟨j, _, q1, rfl, q2⟩
      cases q4
      exact ⟨j', q3, q5⟩
  have other' : ∀ {sl : SRow K → Prop} {x b : SRow K}, RowConverted (unitConv reg unit) unit ctx F.withContext.cols sl x b →
      ∀ c v, c ≠ "unit" → c ≠ "unit_context" → ((∃ i : Nat, F.withContext.cols[i]? = some c ∧ x.1.2[i]? = some v) ↔
        ∃ i : Nat, F.withContext.cols[i]? = some c ∧ b.1.2[i]? = some v) := by
    intro sl x b hx c v q1 q2
    cases hx with
    | converted _ _ _ _ _ _ _ q8 =>
      refine exists_congr fun i => and_congr_right fun hi => ?_
      rw [q8 i c hi q1 q2]
    | unselected => exact Iff.rfl
    | noUnit => exact Iff.rfl
  have hcols : ∀ c, c ≠ "unit_context" → c ≠ "parameter_type" → (c ∈ F.cols ↔ c ∈ G.cols) := by
    intro c q _
    rw [g3, s4]
    simp [q]
  have hcG : Complete G := by
    intro d hd
    rw [g1.data_eq, List.mem_map] at hd
    obtain ⟨b, hb, rfl⟩ := hd
    obtain ⟨i, hi⟩ := List.getElem?_of_mem hb
    have li := (List.getElem?_eq_some_iff.1 hi).1
    have li' : i < F.rows.length := g4.length_eq ▸ li
    have hrel := g4.get li' li
    simp only [List.get_eq_getElem] at hrel
    rw [(List.getElem?_eq_some_iff.1 hi).2] at hrel
    have hav : ∃ vs : List K, F.rows[i].2.2 = vs.map .num := by
      refine hc _ ?_
      rw [hF.data_eq]
      exact List.mem_map_of_mem (List.getElem_mem _)
    obtain ⟨vs, hvs⟩ := hav
    have hφ := (p2 F.rows[i]).1
    generalize φ F.rows[i] = x at hrel hφ
    rw [← hφ] at hvs
    cases hrel with
    | @converted _ _ _ _ vals _ u f _ _ _ q4 =>
      simp only at hvs
      unfold unitConv at q4
      split at q4
      · cases q4
      · rename_i c _
        rw [← Except.ok.inj q4, hvs]
        exact ⟨vs.map c.convertFrom, by simp⟩
    | unselected => exact ⟨vs, hvs⟩
    | noUnit => exact ⟨vs, hvs⟩
  have hfG : AboutMeta G.cols sel := fun f hfm => by
    obtain ⟨q1, q2, q3, q4⟩ := hf f hfm
    exact ⟨q1.imp (hcols _ q3 q4).1 id, q4⟩
  obtain ⟨b1, b2, b3, b4⟩ := select_rows g1 hcG (g2 ▸ hts) hfG h4
  have hrows : H.rows = G'.rows := by
    rw [b3]
    refine rows_commute ?_ g4 k4 ?_
    · intro a ha b b' q1 q2
      exact q1.same (h0.rows_ok.2.2.2.2 _ (hmem a ha)) h0.cols_nodup q2
    · intro a ha b q
      refine decide_eq_decide.2 (iff_congr ?_ Iff.rfl)
      refine matches_across hf hcols (fun c v q1 q2 q3 => ?_) 0 0
      rw [g3]
      exact (other a ha c v q2).trans (other' q c v q1 q2)
  have hGne : G'.rows ≠ [] := by
    rw [← hrows]
    intro h
    rw [h] at k4
    rw [a3] at hrne
    cases hh : F.rows.filter fun rd => decide (PicksRow os keep sel F.cols rd.1.2) with
    | nil => exact hrne hh
    | cons => rw [hh] at k4; cases k4
  rw [b1.frameOf_eq, k1.frameOf_eq, hrows, b4 hGne, g2, k2, a4, b2, g3, k3, pc']

/-! ## Cases -/

/-- The second temperature. -/
def warmB : DFrame ℚ := thenFrame ((warmF (.num 2000)).filter demoO true [("scenario", .val (.str "b"))])

/-- Hypotheses of `C93_interpolate`, `C93_units` and `C93_anomaly`: of two temperatures one is selected. -/
example : (warmF (.num 2000)).Ok ∧ Complete (warmF (.num 2000)) ∧ Typed tempReg true (warmF (.num 2000)) ∧
    AboutMeta (warmF (.num 2000)).cols [("scenario", PyArg.val (PyVal.str (K := ℚ) "b"))] ∧
    OtherColumns (warmF (.num 2000)).cols [("scenario", PyArg.val (PyVal.str (K := ℚ) "b"))] ∧
    (warmF (.num 2000)).filter demoO true [("scenario", .val (.str "b"))] = .ok warmB ∧
    warmB.data = [(1, [.num 1000, .num 2000, .num 3000])] ∧
    (∃ G, (warmF (.num 2000)).interpolate tempReg true [0, 5, 30] .linear = .ok G) ∧
    (∃ G, (warmF (.num 2000)).convertUnit (unitConv tempReg "degC") demoO true [] "degC" .none false = (.ok (some G), warmF (.num 2000))) ∧
    (∃ H, warmB.convertUnit (unitConv tempReg "degC") demoO true [] "degC" .none false = (.ok (some H), warmB)) ∧
    (∃ r, (warmF (.num 2000)).relativeToRef (fun _ => "") demoO (some "rel") [("time", .list [.time 0, .time 10])] = .ok r) ∧
    warmB.relativeToRef (fun _ => "") demoO (some "rel") [("time", .list [.time 0, .time 10])] =
      .ok [([.str "m", .str "b", .str "World", .str "T rel", .str "mK"], [.num (-500), .num 500, .num 1500])] := by
  refine ⟨warmF_ok _, ?_, ?_, by unfold AboutMeta; decide +kernel, by unfold OtherColumns; decide +kernel, by decide +kernel, by decide +kernel,
    ⟨warmG' (.num 2000), by decide +kernel⟩,
    ⟨frameIn ((warmF (.num 2000)).convertUnit (unitConv tempReg "degC") demoO true [] "degC" .none false), by decide +kernel⟩,
    ⟨frameIn (warmB.convertUnit (unitConv tempReg "degC") demoO true [] "degC" .none false), by decide +kernel⟩,
    ⟨[([.str "m", .str "a", .str "World", .str "T rel", .str "K"], [.num (-1 / 2), .num (1 / 2), .num (5 / 2)]),
      ([.str "m", .str "b", .str "World", .str "T rel", .str "mK"], [.num (-500), .num 500, .num 1500])], by decide +kernel⟩, by decide +kernel⟩
  · intro d hd
    simp only [warmF, List.mem_cons, List.not_mem_nil, or_false] at hd
    rcases hd with rfl | rfl
    · exact ⟨[300, 301, 303], rfl⟩
    · exact ⟨[1000, 2000, 3000], rfl⟩
  · intro i hi
    match i, hi with
    | 0, _ => exact ⟨_, .guessed (n := "T") (u := "K") rfl (.inl (by decide +kernel)) ⟨3, _, rfl, rfl, rfl⟩ ⟨4, _, rfl, rfl, rfl⟩⟩
    | 1, _ => exact ⟨_, .guessed (n := "T") (u := "mK") rfl (.inl (by decide +kernel)) ⟨3, _, rfl, rfl, rfl⟩ ⟨4, _, rfl, rfl, rfl⟩⟩

/-- C93 needs frames without missing values: a time at which all selected timeseries miss their value is lost by
selecting, and interpolation may then be refused. -/
theorem C93_missing : ∃ F' G G', (warmF .nan).filter demoO true [("scenario", .val (.str "b"))] = .ok F' ∧ F'.times = [0, 20] ∧
    F'.interpolate tempReg true [0, 5, 30] .linear = .error .insufficientData ∧
    (warmF .nan).interpolate tempReg true [0, 5, 30] .linear = .ok G ∧
    G.filter demoO true [("scenario", .val (.str "b"))] = .ok G' :=
  ⟨thenFrame ((warmF .nan).filter demoO true [("scenario", .val (.str "b"))]), warmG' .nan,
    thenFrame ((warmG' .nan).filter demoO true [("scenario", .val (.str "b"))]), by decide +kernel, by decide +kernel, by decide +kernel,
    by decide +kernel, by decide +kernel⟩

end Openscm
