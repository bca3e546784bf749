import Verif.FrameUnits2
import Verif.FrameInterp2
import Verif.TimeAffine

/-!
# C72: converting units and interpolating commute

Converting the units of a frame and then its times is the same as converting its times and then its units, if filters
do not look at times and interpolation leaves every timeseries that has values some value.
-/

set_option linter.unusedSectionVars false

namespace Openscm

variable {K : Type} [Field K] [LinearOrder K] [IsStrictOrderedRing K]

/-! ## Specification -/

/-- The filters name columns of the metadata (or the level of variables), and not what the two calls change. -/
def OtherColumns (cols : List String) (filters : List (String × PyArg K)) : Prop :=
  ∀ f ∈ filters, (f.1 ∈ cols ∨ f.1 = "level") ∧ f.1 ≠ "unit" ∧ f.1 ≠ "unit_context" ∧ f.1 ≠ "parameter_type"

/-- Some value is there. -/
def HasValue (l : List (Fl K)) : Prop := ∃ x : K, Fl.num x ∈ l

/-- Two frames show the same. -/
def SameFrame (F G : DFrame K) : Prop :=
  F.times = G.times ∧ F.data = G.data ∧ ∀ i c v, F.HasMeta i c v ↔ G.HasMeta i c v

/-! ## Selection -/

theorem matches_across {o : FilterOpts K} {filters : List (String × PyArg K)} {cols cols' : List String}
    {row row' : List (PyVal K)} (hf : OtherColumns cols filters)
    (hc : ∀ c, c ≠ "unit_context" → c ≠ "parameter_type" → (c ∈ cols ↔ c ∈ cols'))
    (h : ∀ c v, c ≠ "unit" → c ≠ "unit_context" → c ≠ "parameter_type" →
      ((∃ i : Nat, cols[i]? = some c ∧ row[i]? = some v) ↔ ∃ i : Nat, cols'[i]? = some c ∧ row'[i]? = some v))
    (t t' : Int) : Matches o filters cols row t ↔ Matches o filters cols' row' t' := by
  have hfit : ∀ (level : Option (PyArg K)) (c : String) (arg : PyArg K), c ≠ "unit" → c ≠ "unit_context" → c ≠ "parameter_type" →
      (MetaFits o level cols row c arg ↔ MetaFits o level cols' row' c arg) := by
    intro level c arg h1 h2 h3
    unfold MetaFits
    constructor
    · rintro ⟨i, v, w, a, b, d⟩
      obtain ⟨j, a', b'⟩ := (h c v h1 h2 h3).1 ⟨i, a, b⟩
      exact ⟨j, v, w, a', b', d⟩
    · rintro ⟨i, v, w, a, b, d⟩
      obtain ⟨j, a', b'⟩ := (h c v h1 h2 h3).2 ⟨i, a, b⟩
      exact ⟨j, v, w, a', b', d⟩
  unfold Matches
  refine forall_congr' fun f => forall_congr' fun hfm => ?_
  obtain ⟨h0, h1, h2, h3⟩ := hf f hfm
  unfold Wants
  by_cases hv : f.1 = "variable"
  · rw [if_pos hv, if_pos hv]
    exact hfit _ _ _ (by decide) (by decide) (by decide)
  · rw [if_neg hv, if_neg hv]
    by_cases hm : f.1 ∈ cols
    · rw [if_pos hm, if_pos ((hc _ h2 h3).1 hm)]
      exact hfit _ _ _ h1 h2 h3
    · rw [if_neg hm, if_neg (fun h => hm ((hc _ h2 h3).2 h))]
      rcases h0 with h0 | h0
      · exact absurd h0 hm
      · rw [if_pos h0, if_pos h0]
        exact or_congr Iff.rfl (hfit _ _ _ (by decide) (by decide) (by decide))

/-- The filters select this row of metadata. -/
def PicksRow (o : FilterOpts K) (keep : Bool) (filters : List (String × PyArg K)) (cols : List String)
    (row : List (PyVal K)) : Prop := Matches o filters cols row 0 ↔ keep = true

theorem selected_iff {o : FilterOpts K} {keep : Bool} {filters : List (String × PyArg K)} {times : List Int}
    {cols : List String} {rd : SRow K} (hf : OtherColumns cols filters) (hl : rd.2.2.length = times.length) :
    Selected o keep filters times cols rd ↔ PicksRow o keep filters cols rd.1.2 ∧ HasValue rd.2.2 := by
  have hm : ∀ t, Matches o filters cols rd.1.2 t ↔ Matches o filters cols rd.1.2 0 := fun t =>
    matches_across hf (fun _ _ _ => Iff.rfl) (fun _ _ _ _ _ => Iff.rfl) t 0
  constructor
  · rintro ⟨k, t, x, h1, h2, h3⟩
    exact ⟨(hm t).symm.trans h3, x, List.mem_of_getElem? h2⟩
  · rintro ⟨h1, x, h2⟩
    obtain ⟨k, hk⟩ := List.getElem?_of_mem h2
    have hlt := (List.getElem?_eq_some_iff.1 hk).1
    exact ⟨k, times[k]'(hl ▸ hlt), x, List.getElem?_eq_getElem _, hk, (hm _).trans h1⟩

/-! ## Conversion, one timeseries at a time -/

/-- What becomes of timeseries `i`. -/
theorem convert_at {conv : String → Except Err (Fl K → Fl K)} {F G : DFrame K} (hF : F.Ok)
    (hr : ∀ c ∈ requiredCols, c ∈ F.cols) {o : FilterOpts K} {keep : Bool}
    {filters : List (String × PyArg K)} {unit : String} {ctx : PyVal K} {F' : DFrame K} (hf : OtherColumns F.cols filters)
    (h : F.convertUnit conv o keep filters unit ctx false = (.ok (some G), F')) {i : Nat} {r : Nat × List (PyVal K)}
    {old : Nat × List (Fl K)} (hm : F.meta[i]? = some r) (hd : F.data[i]? = some old) :
    (∃ u f, PicksRow o keep filters F.cols r.2 ∧ HasValue old.2 ∧ F.HasMeta i "unit" (.str u) ∧ conv u = .ok f ∧
      G.data[i]? = some (old.1, old.2.map f) ∧ (∀ v, G.HasMeta i "unit" v ↔ v = .str unit) ∧
      (∀ v, G.HasMeta i "unit_context" v ↔ v = ctx) ∧
      ∀ c v, c ≠ "unit" → c ≠ "unit_context" → (G.HasMeta i c v ↔ F.HasMeta i c v)) ∨
    ((¬ (PicksRow o keep filters F.cols r.2 ∧ HasValue old.2) ∨ ∀ u, ¬ F.HasMeta i "unit" (.str u)) ∧
      G.data[i]? = some old ∧ ∀ c v, G.HasMeta i c v ↔ F.withContext.HasMeta i c v) := by
  obtain ⟨G1, e1, -, g1, g2, g3, g4⟩ := C53_converted hF hr h
  simp only [Bool.false_eq_true, if_false, Option.some.injEq] at e1
  subst e1
  obtain ⟨s1, s2, s3, s4, s5, s6, s7⟩ := withContext_spec hF hr
  obtain ⟨hu, hc⟩ := unit_mem_withContext hF hr
  have h0 := hF.withContext
  obtain ⟨r1, r2, r3, r4, r5⟩ := h0.rows_ok
  -- the row in the frame with the column for contexts
  have hlt : i < F.withContext.rows.length := by
    have := (List.getElem?_eq_some_iff.1 hd).1
    rw [← s2, h0.data_eq, List.length_map] at this
    exact this
  have hltG : i < G.rows.length := g4.length_eq ▸ hlt
  have hrel := g4.get hlt hltG
  simp only [List.get_eq_getElem] at hrel
  have ha : F.withContext.rows[i]? = some F.withContext.rows[i] := List.getElem?_eq_getElem hlt
  have hb : G.rows[i]? = some G.rows[i] := List.getElem?_eq_getElem hltG
  generalize F.withContext.rows[i] = a at ha hrel
  generalize G.rows[i] = b at hb hrel
  have haold : a.2 = old := by
    have : F.withContext.data[i]? = some a.2 := by rw [h0.data_eq, List.getElem?_map, ha]; rfl
    rw [s2, hd] at this
    exact (Option.some.inj this).symm
  have hameta : F.withContext.meta[i]? = some a.1 := by rw [h0.meta_eq, List.getElem?_map, ha]; rfl
  have hbmeta : G.meta[i]? = some b.1 := by rw [g1.meta_eq, List.getElem?_map, hb]; rfl
  have hbdata : G.data[i]? = some b.2 := by rw [g1.data_eq, List.getElem?_map, hb]; rfl
  have hA : ∀ c v, F.withContext.HasMeta i c v ↔ ∃ j : Nat, F.withContext.cols[j]? = some c ∧ a.1.2[j]? = some v := by
    intro c v
    constructor
    · rintro ⟨j, x, q1, q2, q3⟩
      rw [hameta] at q2
      cases q2
      exact ⟨j, q1, q3⟩
    · rintro ⟨j, q1, q3⟩
      exact ⟨j, a.1, q1, hameta, q3⟩
  have hB : ∀ c v, G.HasMeta i c v ↔ ∃ j : Nat, F.withContext.cols[j]? = some c ∧ b.1.2[j]? = some v := by
    intro c v
    constructor
    · rintro ⟨j, x, q1, q2, q3⟩
      rw [hbmeta] at q2
      cases q2
      exact ⟨j, g3 ▸ q1, q3⟩
    · rintro ⟨j, q1, q3⟩
      exact ⟨j, b.1, g3.symm ▸ q1, hbmeta, q3⟩
  have hpick : PicksRow o keep filters F.withContext.cols a.1.2 ↔ PicksRow o keep filters F.cols r.2 := by
    unfold PicksRow
    rw [matches_across (cols := F.cols) (row := r.2) (cols' := F.withContext.cols) (row' := a.1.2) hf ?_ ?_ 0 0]
    · intro c q1 _
      rw [s4 c]
      simp [q1]
    · intro c v _ q2 _
      rw [← hA, s5 i c v q2]
      constructor
      · rintro ⟨j, q3, q4⟩; exact ⟨j, r, q3, hm, q4⟩
      · rintro ⟨j, x, q3, q4, q5⟩
        rw [hm] at q4
        cases q4
        exact ⟨j, q3, q5⟩
  have hfw : OtherColumns F.withContext.cols filters := fun f hfm =>
    ⟨(hf f hfm).1.imp (fun h => (s4 _).2 (.inl h)) id, (hf f hfm).2⟩
  have hsel : Selected o keep filters F.times F.withContext.cols a ↔ PicksRow o keep filters F.cols r.2 ∧ HasValue old.2 := by
    rw [selected_iff hfw (by rw [← s1]; exact r4 a (List.mem_of_getElem? ha)), hpick, haold]
  have huniq : ∀ {i j : Nat} {c : String}, F.withContext.cols[i]? = some c → F.withContext.cols[j]? = some c → i = j := by
    intro i j c q1 q2
    rw [← idxOf_of_getElem? r3 q1, ← idxOf_of_getElem? r3 q2]
  have hlen := r5 a (List.mem_of_getElem? ha)
  cases hrel with
  | @converted l l' row row' vals j u f q1 q2 q3 q4 q5 q6 q7 q8 =>
    left
    simp only at hA hB hlen
    have hsel' := hsel.1 q1
    have hat : ∀ {c : String} {w : PyVal K}, c ∈ F.withContext.cols →
        (∀ (i : Nat) (v : PyVal K), F.withContext.cols[i]? = some c → row'[i]? = some v → v = w) →
        ∀ v, G.HasMeta i c v ↔ v = w := by
      intro c w hcm hall v
      rw [hB]
      constructor
      · rintro ⟨k, z1, z2⟩; exact hall k v z1 z2
      · rintro rfl
        have z := getElem?_idxOf' hcm
        have zl := List.idxOf_lt_length_of_mem hcm
        have z2 : row'[F.withContext.cols.idxOf c]? = some (row'[F.withContext.cols.idxOf c]'(by omega)) :=
          List.getElem?_eq_getElem _
        exact ⟨_, z, by rw [z2, hall _ _ z z2]⟩
    refine ⟨u, f, hsel'.1, hsel'.2, (s5 _ _ _ (by decide)).1 ((hA _ _).2 ⟨j, q2, q3⟩), q4, ?_, hat hu q6, hat hc q7, ?_⟩
    · rw [hbdata, ← haold]
    · intro c v z1 z2
      rw [hB, ← s5 i c v z2, hA]
      refine exists_congr fun k => and_congr_right fun hk => ?_
      rw [q8 k c hk z1 z2]
  | unselected q1 =>
    right
    exact ⟨.inl fun h => q1 (hsel.2 h), by rw [hbdata, haold], fun c v => by rw [hA, hB]⟩
  | @noUnit _ j v q1 q2 q3 =>
    right
    refine ⟨.inr ?_, by rw [hbdata, haold], fun c v => by rw [hA, hB]⟩
    intro u hcon
    obtain ⟨k, z1, z2⟩ := (hA _ _).1 ((s5 _ _ _ (by decide)).2 hcon)
    cases huniq q1 z1
    rw [q2] at z2
    exact q3 u (Option.some.inj z2)

/-! ## Types and values -/

/-- Conversions are affine, and do not change what type is guessed. -/
structure FineConv (reg : Registry K) (conv : String → Except Err (Fl K → Fl K)) (unit : String) (F : DFrame K) : Prop where
  affine : ∀ u f, conv u = .ok f → ∃ a b : K, f = Fl.map (affine a b)
  guess : ∀ i u f, F.HasMeta i "unit" (.str u) → conv u = .ok f → ∀ n,
    guessParameterType reg n (some u) = guessParameterType reg n (some unit)

theorem Placed.map {ext : Extrap} {src tgt : List Int} {old new : List (Fl K)} {p : PType} (a b : K)
    (h : Placed ext src tgt old new p) : Placed ext src tgt (old.map (Fl.map (affine a b))) (new.map (Fl.map (affine a b))) p := by
  have key : ∀ {c : TSConv K}, c.convertFrom old = .ok new →
      c.convertFrom (old.map (Fl.map (affine a b))) = .ok (new.map (Fl.map (affine a b))) := by
    intro c hc
    unfold TSConv.convertFrom at hc ⊢
    rw [convert_affine, hc]
    rfl
  cases h with
  | point h1 h2 => exact .point h1 (key h2)
  | average h1 h2 h3 h4 => exact .average h1 h2 h3 (key h4)

theorem OneMore.unique {l m m' : List Int} (h : OneMore l m) (h' : OneMore l m') : m = m' := by
  have := h.extend
  rw [h'.extend] at this
  exact (Except.ok.inj this).symm

theorem Placed.same {ext : Extrap} {src tgt : List Int} {old new new' : List (Fl K)} {p : PType}
    (h : Placed ext src tgt old new p) (h' : Placed ext src tgt old new' p) : new = new' := by
  cases h with
  | point h1 h2 =>
    cases h' with
    | point g1 g2 =>
      rw [h1] at g1; cases g1
      rw [h2] at g2; exact Except.ok.inj g2
  | average h1 h2 h3 h4 =>
    cases h' with
    | average g1 g2 g3 g4 =>
      cases h1.unique g1
      cases h2.unique g2
      rw [h3] at g3; cases g3
      rw [h4] at g4; exact Except.ok.inj g4

/-- Conversion does not change types. -/
theorem type_kept {reg : Registry K} {views : Bool} {conv : String → Except Err (Fl K → Fl K)} {F G : DFrame K} (hF : F.Ok)
    (hr : ∀ c ∈ requiredCols, c ∈ F.cols) {o : FilterOpts K} {keep : Bool} {filters : List (String × PyArg K)}
    {unit : String} {ctx : PyVal K} {F' : DFrame K} (hf : OtherColumns F.cols filters) (hv : FineConv reg conv unit F)
    (h : F.convertUnit conv o keep filters unit ctx false = (.ok (some G), F')) {i : Nat} {v : PyVal K}
    (ht : TypeIs reg views F i v) (hi : i < F.data.length) : TypeIs reg views G i v := by
  obtain ⟨G1, e1, -, g1, g2, g3, g4⟩ := C53_converted hF hr h
  simp only [Bool.false_eq_true, if_false, Option.some.injEq] at e1
  subst e1
  obtain ⟨s1, s2, s3, s4, s5, s6, s7⟩ := withContext_spec hF hr
  have hl : F.data.length = F.meta.length := by simpa using congrArg List.length hF.labels
  have hcase := convert_at hF hr hf h (List.getElem?_eq_getElem (hl ▸ hi)) (List.getElem?_eq_getElem hi)
  have hother : ∀ c v, c ≠ "unit" → c ≠ "unit_context" → (G.HasMeta i c v ↔ F.HasMeta i c v) := by
    intro c v z1 z2
    rcases hcase with ⟨u, f, -, -, -, -, -, -, -, q⟩ | ⟨-, -, q⟩
    · exact q c v z1 z2
    · rw [q, s5 i c v z2]
  have hnone : ("parameter_type" ∉ F.cols ∨ F.HasMeta i "parameter_type" .none) →
      ("parameter_type" ∉ G.cols ∨ G.HasMeta i "parameter_type" .none) := by
    rintro (q | q)
    · left
      rw [g3, s4]
      rintro (q' | q')
      · exact q q'
      · exact absurd q' (by decide)
    · exact .inr ((hother _ _ (by decide) (by decide)).2 q)
  cases ht with
  | given h1 h2 => exact .given ((hother _ _ (by decide) (by decide)).2 h1) h2
  | @guessed n u e m hn hu =>
    have hn' := (hother _ _ (by decide) (by decide)).2 hn
    rcases hcase with ⟨u', f, -, -, q1, q2, -, q3, -, -⟩ | ⟨-, -, q⟩
    · cases HasMeta.unique hF hu q1
      rw [hv.guess i u f q1 q2 n]
      exact .guessed e (hnone m) hn' ((q3 _).2 rfl)
    · exact .guessed e (hnone m) hn' ((q _ _).2 ((s5 _ _ _ (by decide)).2 hu))
  | @guessedNoUnit n e m hn hu =>
    have hn' := (hother _ _ (by decide) (by decide)).2 hn
    rcases hcase with ⟨u', f, -, -, q1, -⟩ | ⟨-, -, q⟩
    · cases HasMeta.unique hF hu q1
    · exact .guessedNoUnit e (hnone m) hn' ((q _ _).2 ((s5 _ _ _ (by decide)).2 hu))
  | unknown e m hlt =>
    refine .unknown e (hnone m) ?_
    have hg := g1.meta_eq
    have hF2 := hF.withContext.meta_eq
    have e1 := congrArg List.length s3
    rw [hF2] at e1
    rw [hg]
    simp only [List.length_map] at e1 ⊢
    rw [← g4.length_eq, e1]
    exact hlt

/-! ## The two orders -/

theorem interpolate_cols {reg : Registry K} {views : Bool} {F G : DFrame K} {target : List Int} {ext : Extrap}
    (h : F.interpolate reg views target ext = .ok G) : G.cols = F.withType.cols := by
  obtain ⟨rows, ks, new, -, -, -, rfl⟩ := interpolate_parts h
  rfl

theorem hasMeta_exists {F : DFrame K} (hF : F.Ok) {i : Nat} {c : String} (hc : c ∈ F.cols) (hi : i < F.meta.length) :
    ∃ v, F.HasMeta i c v :=
  ⟨_, (hasMeta_iff hF).2 ⟨F.meta[i], List.getElem?_eq_getElem hi, hc, rfl⟩⟩

theorem HasMeta.lt {F : DFrame K} {i : Nat} {c : String} {v : PyVal K} (h : F.HasMeta i c v) : i < F.meta.length := by
  obtain ⟨_, _, -, h2, -⟩ := h
  exact (List.getElem?_eq_some_iff.1 h2).1

theorem commute_core {reg : Registry K} {views : Bool} {conv : String → Except Err (Fl K → Fl K)} {F G H G' H' X Y : DFrame K}
    (hF : F.Ok) (hr : ∀ c ∈ requiredCols, c ∈ F.cols) {o : FilterOpts K} {keep : Bool} {filters : List (String × PyArg K)}
    {unit : String} {ctx : PyVal K} (hf : OtherColumns F.cols filters) (hv : FineConv reg conv unit F)
    {target : List Int} {ext : Extrap}
    (h1 : F.convertUnit conv o keep filters unit ctx false = (.ok (some G), X))
    (h2 : G.interpolate reg views target ext = .ok H)
    (h3 : F.interpolate reg views target ext = .ok G')
    (h4 : G'.convertUnit conv o keep filters unit ctx false = (.ok (some H'), Y))
    (hk : ∀ (i : Nat) (old new : Nat × List (Fl K)), F.data[i]? = some old → G'.data[i]? = some new → (HasValue old.2 ↔ HasValue new.2)) :
    SameFrame H H' := by
  -- the four frames
  obtain ⟨G1, e1, -, g1, g2, g3, g4⟩ := C53_converted hF hr h1
  simp only [Bool.false_eq_true, if_false, Option.some.injEq] at e1
  subst e1
  obtain ⟨s1, s2, s3, s4, s5, s6, s7⟩ := withContext_spec hF hr
  have hrG : ∀ c ∈ requiredCols, c ∈ G.cols := fun c hc => by rw [g3]; exact (s4 c).2 (.inl (hr c hc))
  obtain ⟨a1, a2, a3, a4, a5⟩ := C56_placed_partial g1 hrG h2
  obtain ⟨b1, b2, b3, b4, b5⟩ := C56_placed_partial hF hr h3
  have hc' := interpolate_cols h3
  have hrG' : ∀ c ∈ requiredCols, c ∈ G'.cols := fun c hc => by rw [hc']; exact (withType_cols hr).2 (.inl (hr c hc))
  have hf' : OtherColumns G'.cols filters := fun f hfm =>
    ⟨(hf f hfm).1.imp (fun h => by rw [hc']; exact (withType_cols hr).2 (.inl h)) id, (hf f hfm).2⟩
  obtain ⟨H1, e2, -, k1, k2, k3, k4⟩ := C53_converted b1 hrG' h4
  simp only [Bool.false_eq_true, if_false, Option.some.injEq] at e2
  subst e2
  obtain ⟨t1, t2, t3, t4, t5, t6, t7⟩ := withContext_spec b1 hrG'
  -- lengths
  have lF : F.data.length = F.meta.length := by simpa using congrArg List.length hF.labels
  have lG' : G'.data.length = F.data.length := by simpa using congrArg List.length b3
  have lG : G.data.length = F.data.length := by
    rw [g1.data_eq, List.length_map, ← g4.length_eq, ← s2, hF.withContext.data_eq, List.length_map]
  have lH : H.data.length = F.data.length := by rw [← lG]; simpa using congrArg List.length a3
  have lH' : H'.data.length = F.data.length := by
    rw [k1.data_eq, List.length_map, ← k4.length_eq, ← lG', ← t2, b1.withContext.data_eq, List.length_map]
  have mG' : G'.meta.length = F.data.length := by rw [← lG']; simpa using (congrArg List.length b1.labels).symm
  have mH : H.meta.length = F.data.length := by rw [← lH]; simpa using (congrArg List.length a1.labels).symm
  have mH' : H'.meta.length = F.data.length := by rw [← lH']; simpa using (congrArg List.length k1.labels).symm
  -- one timeseries
  have each : ∀ (i : Nat), i < F.data.length → H.data[i]? = H'.data[i]? ∧ ∀ c v, H.HasMeta i c v ↔ H'.HasMeta i c v := by
    intro i hi
    have hold : F.data[i]? = some F.data[i] := List.getElem?_eq_getElem hi
    have hrow : F.meta[i]? = some (F.meta[i]'(lF ▸ hi)) := List.getElem?_eq_getElem _
    generalize F.data[i] = old at hold
    generalize F.meta[i]'(lF ▸ hi) = r at hrow
    obtain ⟨new, hnew, hb⟩ := b5 i old hold
    have hrow' : G'.meta[i]? = some (G'.meta[i]'(mG' ▸ hi)) := List.getElem?_eq_getElem _
    generalize G'.meta[i]'(mG' ▸ hi) = r' at hrow'
    have hlab : new.1 = old.1 := by
      have := congrArg (fun l : List Nat => l[i]?) b3
      simp only [List.getElem?_map, hnew, hold, Option.map_some, Option.some.injEq] at this
      exact this
    have hpick : PicksRow o keep filters F.cols r.2 ↔ PicksRow o keep filters G'.cols r'.2 := by
      unfold PicksRow
      rw [matches_across (cols := F.cols) (row := r.2) (cols' := G'.cols) (row' := r'.2) hf ?_ ?_ 0 0]
      · intro c _ q2
        rw [hc', withType_cols hr]
        simp [q2]
      · intro c v _ _ q3
        have := b4 i c v q3
        constructor
        · rintro ⟨j, q4, q5⟩
          obtain ⟨j', x, z1, z2, z3⟩ := this.2 ⟨j, r, q4, hrow, q5⟩
          rw [hrow'] at z2; cases z2
          exact ⟨j', z1, z3⟩
        · rintro ⟨j, q4, q5⟩
          obtain ⟨j', x, z1, z2, z3⟩ := this.1 ⟨j, r', q4, hrow', q5⟩
          rw [hrow] at z2; cases z2
          exact ⟨j', z1, z3⟩
    have hval := hk i old new hold hnew
    have hunit : ∀ v, G'.HasMeta i "unit" v ↔ F.HasMeta i "unit" v := fun v => b4 i _ v (by decide)
    have cF := convert_at hF hr hf h1 hrow hold
    have cG := convert_at b1 hrG' hf' h4 hrow' hnew
    -- the type in `H` and in `G'`
    have htype : ∀ p, H.HasMeta i "parameter_type" p → G'.HasMeta i "parameter_type" p →
        ∀ v, H.HasMeta i "parameter_type" v ↔ H'.HasMeta i "parameter_type" v := by
      intro p q1 q2 v
      have hH' : H'.HasMeta i "parameter_type" v ↔ G'.HasMeta i "parameter_type" v := by
        rcases cG with ⟨u, f, -, -, -, -, -, -, -, q⟩ | ⟨-, -, q⟩
        · exact q _ _ (by decide) (by decide)
        · rw [q, t5 _ _ _ (by decide)]
      rw [hH']
      constructor
      · intro q3; rwa [HasMeta.unique a1 q3 q1]
      · intro q3; rwa [HasMeta.unique b1 q3 q2]
    rcases cF with ⟨u, f, p1, p2, p3, p4, p5, p6, p7, p8⟩ | ⟨p1, p2, p3⟩
    · -- converted
      rcases cG with ⟨u', f', q1, q2, q3, q4, q5, q6, q7, q8⟩ | ⟨q1, q2, q3⟩
      · cases HasMeta.unique hF ((hunit _).1 q3) p3
        rw [p4] at q4
        cases q4
        obtain ⟨a, b, rfl⟩ := hv.affine u f p4
        obtain ⟨new', hnew', ha⟩ := a5 i _ p5
        have hlab' : new'.1 = old.1 := by
          have := congrArg (fun l : List Nat => l[i]?) a3
          simp only [List.getElem?_map, hnew', p5, Option.map_some, Option.some.injEq] at this
          exact this
        rcases hb with ⟨w, p, w1, w2, w3, w4⟩ | ⟨v, -, -, -, w4⟩
        · have hw := type_kept hF hr hf hv h1 w1 hi
          rcases ha with ⟨w', p', x1, x2, x3, x4⟩ | ⟨v', x1, x2, -⟩
          · cases hw.unique g1 x1
            have hp : p = p' := by
              have z1 := kindWord_iff.1 w2
              rw [kindWord_iff.1 x2] at z1
              exact (Except.ok.inj z1).symm
            subst hp
            rw [g2] at x4
            have hmap := x4.same (w4.map a b)
            constructor
            · rw [hnew', q5]
              exact congrArg some (Prod.ext (hlab'.trans hlab.symm) hmap)
            · intro c v
              by_cases hc : c = "parameter_type"
              · subst hc; exact htype _ x3 w3 v
              · rw [a4 i c v hc]
                by_cases hcu : c = "unit"
                · subst hcu; rw [p6, q6]
                · by_cases hcc : c = "unit_context"
                  · subst hcc; rw [p7, q7]
                  · rw [p8 c v hcu hcc, q8 c v hcu hcc, b4 i c v hc]
          · have := hw.unique g1 x1
            subst this
            cases x2
        · exfalso
          obtain ⟨x, hx⟩ := hval.1 p2
          rw [w4] at hx
          obtain ⟨_, -, hx⟩ := List.mem_map.1 hx
          cases hx
      · exfalso
        rcases q1 with q1 | q1
        · exact q1 ⟨hpick.1 p1, hval.1 p2⟩
        · exact q1 u ((hunit _).2 p3)
    · rcases cG with ⟨u', f', q1, q2, q3, q4, q5, q6, q7, q8⟩ | ⟨q1, q2, q3⟩
      · exfalso
        rcases p1 with p1 | p1
        · exact p1 ⟨hpick.2 q1, hval.2 q2⟩
        · exact p1 u' ((hunit _).1 q3)
      · obtain ⟨new', hnew', ha⟩ := a5 i _ p2
        have hlab' : new'.1 = old.1 := by
          have := congrArg (fun l : List Nat => l[i]?) a3
          simp only [List.getElem?_map, hnew', p2, Option.map_some, Option.some.injEq] at this
          exact this
        have hmeta : ∀ c v, c ≠ "parameter_type" → (H.HasMeta i c v ↔ H'.HasMeta i c v) := by
          intro c v hc
          rw [a4 i c v hc, p3, q3]
          by_cases hcc : c = "unit_context"
          · subst hcc
            by_cases hin : "unit_context" ∈ F.cols
            · have hin' : "unit_context" ∈ G'.cols := by rw [hc']; exact (withType_cols hr).2 (.inl hin)
              rw [s6 i v hin, t6 i v hin', b4 i _ v (by decide)]
            · have hin' : "unit_context" ∉ G'.cols := by
                rw [hc', withType_cols hr]
                rintro (q | q)
                · exact hin q
                · exact absurd q (by decide)
              have z1 := s7 i v hin
              have z2 := t7 i v hin'
              obtain ⟨_, x1⟩ := hasMeta_exists hF.withContext (i := i) (unit_mem_withContext hF hr).2 (by
                have := congrArg List.length s3
                simp only [List.length_map] at this
                omega)
              obtain ⟨_, x2⟩ := hasMeta_exists b1.withContext (i := i) (unit_mem_withContext b1 hrG').2 (by
                have := congrArg List.length t3
                simp only [List.length_map] at this
                omega)
              cases s7 i _ hin x1
              cases t7 i _ hin' x2
              constructor
              · intro q; cases z1 q; exact x2
              · intro q; cases z2 q; exact x1
          · rw [s5 i c v hcc, t5 i c v hcc, b4 i c v hc]
        have done : new'.2 = new.2 → (∃ p, H.HasMeta i "parameter_type" p ∧ G'.HasMeta i "parameter_type" p) →
            H.data[i]? = H'.data[i]? ∧ ∀ c v, H.HasMeta i c v ↔ H'.HasMeta i c v := by
          rintro z ⟨p, z1, z2⟩
          refine ⟨?_, ?_⟩
          · rw [hnew', q2]
            exact congrArg some (Prod.ext (hlab'.trans hlab.symm) z)
          · intro c v
            by_cases hc : c = "parameter_type"
            · subst hc; exact htype p z1 z2 v
            · exact hmeta c v hc
        rcases hb with ⟨w, p, w1, w2, w3, w4⟩ | ⟨v, w1, w2, w3, w4⟩
        · have hw := type_kept hF hr hf hv h1 w1 hi
          rcases ha with ⟨w', p', x1, x2, x3, x4⟩ | ⟨v', x1, x2, -⟩
          · cases hw.unique g1 x1
            have hp : p = p' := by
              have z1 := kindWord_iff.1 w2
              rw [kindWord_iff.1 x2] at z1
              exact (Except.ok.inj z1).symm
            subst hp
            rw [g2] at x4
            exact done (x4.same w4) ⟨_, x3, w3⟩
          · have := hw.unique g1 x1
            subst this
            cases x2
        · have hw := type_kept hF hr hf hv h1 w1 hi
          rcases ha with ⟨w', p', x1, -⟩ | ⟨v', x1, x2, x3, x4⟩
          · have := hw.unique g1 x1
            subst this
            cases w2
          · cases hw.unique g1 x1
            exact done (x4.trans w4.symm) ⟨_, x3, w3⟩
  refine ⟨?_, ?_, ?_⟩
  · rw [a2, k2, b2]
  · refine List.ext_getElem? fun i => ?_
    by_cases hi : i < F.data.length
    · exact (each i hi).1
    · rw [List.getElem?_eq_none (by omega), List.getElem?_eq_none (by omega)]
  · intro i c v
    by_cases hi : i < F.data.length
    · exact (each i hi).2 c v
    · constructor
      · intro h; have := HasMeta.lt h; omega
      · intro h; have := HasMeta.lt h; omega

/-! ## Conversions without context -/

theorem unitConv_fine {reg : Registry K} {unit : String} {F : DFrame K} (hu : unit ≠ "")
    (hF : ∀ i, ¬ F.HasMeta i "unit" (.str "")) : FineConv reg (unitConv reg unit) unit F where
  affine := by
    intro u f h
    unfold unitConv at h
    cases hc : mkConv reg u unit with
    | error e => rw [hc] at h; cases h
    | ok c =>
      rw [hc] at h
      refine ⟨c.scaling, c.offset, ?_⟩
      rw [← Except.ok.inj h]
      funext x
      cases x with
      | nan => rfl
      | num v =>
        simp only [Fl.map, Conv.convertFrom, Openscm.affine, Fl.num.injEq]
        ring
  guess := by
    intro i u f hm h n
    have hne : u ≠ "" := by
      rintro rfl
      exact hF i hm
    unfold unitConv mkConv at h
    cases hs : reg u with
    | none => rw [hs] at h; cases h
    | some a =>
      rw [hs] at h
      cases ht : reg unit with
      | none => rw [ht] at h; cases h
      | some b =>
        rw [ht] at h
        by_cases hd : a.dim = b.dim
        · have e : ∀ {w : String} {d : UDef K}, w ≠ "" → reg w = some d → guessParameterType reg n (some w) =
              if d.dim.any (fun x => x.1 = "[time]") then .average else .point := by
            intro w d hw hd'
            unfold guessParameterType
            split
            · rename_i q; cases q
            · rename_i q; exact absurd (Option.some.inj q) hw
            · rename_i q
              cases q
              rw [hd']
          rw [e hne hs, e hu ht, hd]
        · simp only [if_neg hd] at h
          cases h

/-- **C72**, as far as it holds: both orders give the same frame if every timeseries with values has values after
interpolation and the other way round (`C72_missing` shows that this is needed). Filters name columns other than the
unit, the context and the type; units are not the empty text. -/
theorem C72_commute_partial {reg : Registry K} {views : Bool} {F G H G' H' X Y : DFrame K}
    (hF : F.Ok) (hr : ∀ c ∈ requiredCols, c ∈ F.cols) {o : FilterOpts K} {keep : Bool} {filters : List (String × PyArg K)}
    {unit : String} {ctx : PyVal K} (hf : OtherColumns F.cols filters) (hu : unit ≠ "")
    (hn : ∀ i, ¬ F.HasMeta i "unit" (.str "")) {target : List Int} {ext : Extrap}
    (h1 : F.convertUnit (unitConv reg unit) o keep filters unit ctx false = (.ok (some G), X))
    (h2 : G.interpolate reg views target ext = .ok H)
    (h3 : F.interpolate reg views target ext = .ok G')
    (h4 : G'.convertUnit (unitConv reg unit) o keep filters unit ctx false = (.ok (some H'), Y))
    (hk : ∀ (i : Nat) (old new : Nat × List (Fl K)), F.data[i]? = some old → G'.data[i]? = some new →
      (HasValue old.2 ↔ HasValue new.2)) :
    SameFrame H H' := commute_core hF hr hf (unitConv_fine hu hn) h1 h2 h3 h4 hk

/-! ## Values after interpolation -/

theorem convertNum_hasValue {ty : PType} {ext : Extrap} {src : List K} {t0 t1 : K} {ts vs : List K} {r : List (Fl K)}
    (ht : t0 < t1) (h : convertNum ty ext src (t0 :: t1 :: ts) vs = .ok r) : HasValue r := by
  unfold convertNum at h
  split at h
  · cases h
  · cases ty with
    | average =>
      simp only at h
      split at h
      · cases h
      · split at h
        · generalize sortKnots ((linPoints src).zip (linValues vs)) = k at h
          unfold intervalAverages at h
          cases h1 : intervalAverage ext (vs.headD 0) (vs.getLastD 0) k t0 t1 with
          | error e => rw [h1] at h; cases h
          | ok y =>
            rw [h1] at h
            simp only at h
            cases h2 : intervalAverages ext (vs.headD 0) (vs.getLastD 0) k (t1 :: ts) with
            | error e => rw [h2] at h; cases h
            | ok ys =>
              rw [h2] at h
              simp only [toInsufficient, Except.ok.injEq] at h
              subst h
              unfold intervalAverage at h1
              split at h1
              · cases h1
              · rw [if_neg ht.ne'] at h1
                cases h1
                exact ⟨_, by simp; exact .inl rfl⟩
        · cases h
    | point =>
      simp only at h
      split at h
      · cases h
      · split at h
        · generalize sortKnots (src.zip vs) = k at h
          unfold evalAll at h
          cases h1 : evalAt ext (vs.headD 0) (vs.getLastD 0) k t0 with
          | error e => rw [h1] at h; cases h
          | ok y =>
            rw [h1] at h
            simp only at h
            cases h2 : evalAll ext (vs.headD 0) (vs.getLastD 0) k (t1 :: ts) with
            | error e => rw [h2] at h; cases h
            | ok ys =>
              rw [h2] at h
              simp only [toInsufficient, Except.ok.injEq] at h
              subst h
              exact ⟨y, by simp⟩
        · cases h
    | _ => cases h

theorem Placed.hasValue {ext : Extrap} {src tgt : List Int} {vs : List K} {new : List (Fl K)} {p : PType}
    (ht : tgt.Pairwise (· < ·)) (h : Placed ext src tgt (vs.map .num) new p) : HasValue new := by
  have key : ∀ {s t : List K} {ty : PType} {c : TSConv K}, (∀ t0 t1 r, t = t0 :: t1 :: r → t0 < t1) →
      mkTSConv s t ty ext = .ok c → c.convertFrom (vs.map .num) = .ok new → HasValue new := by
    intro s t ty c hinc hc hn
    have hcf := mkTSConv_fields hc
    unfold mkTSConv at hc
    split at hc
    · cases hc
    · split at hc
      · rename_i t0 t1 r
        subst hcf
        unfold TSConv.convertFrom convert at hn
        simp only [Fl.allNum_map_num] at hn
        exact convertNum_hasValue (hinc _ _ _ rfl) hn
      · cases hc
  cases h with
  | point h1 h2 =>
    refine key ?_ h1 h2
    intro t0 t1 r e
    match tgt, ht, e with
    | a :: b :: l, ht, e =>
      simp only [List.map_cons, List.cons.injEq] at e
      rw [← e.1, ← e.2.1]
      have := (List.pairwise_cons.1 ht).1 b (by simp)
      exact_mod_cast this
  | @average s t c h1 h2 h3 h4 =>
    refine key ?_ h3 h4
    intro t0 t1 r e
    obtain ⟨l', a, b, rfl, rfl⟩ := h2
    match l', ht, e with
    | [], ht, e =>
      simp only [List.nil_append, List.map_cons, List.cons.injEq] at e
      rw [← e.1, ← e.2.1]
      have := (List.pairwise_cons.1 ht).1 b (by simp)
      exact_mod_cast this
    | [x], ht, e =>
      simp only [List.cons_append, List.nil_append, List.map_cons, List.cons.injEq] at e
      rw [← e.1, ← e.2.1]
      have := (List.pairwise_cons.1 ht).1 a (by simp)
      exact_mod_cast this
    | x :: y :: l, ht, e =>
      simp only [List.cons_append, List.map_cons, List.cons.injEq] at e
      rw [← e.1, ← e.2.1]
      have := (List.pairwise_cons.1 ht).1 y (by simp)
      exact_mod_cast this

theorem Placed.source_ne {ext : Extrap} {src tgt : List Int} {old new : List (Fl K)} {p : PType}
    (h : Placed ext src tgt old new p) : src ≠ [] := by
  rintro rfl
  cases h with
  | point h1 _ => simp [mkTSConv] at h1
  | average h1 => obtain ⟨l', a, b, e, -⟩ := h1; simp at e

/-- All values are there. -/
def Complete (F : DFrame K) : Prop := ∀ d ∈ F.data, ∃ vs : List K, d.2 = vs.map .num

/-- Every timeseries has a type, given or guessed. -/
def Typed (reg : Registry K) (views : Bool) (F : DFrame K) : Prop :=
  ∀ i, i < F.data.length → ∃ w, TypeIs reg views F i (.str w)

/-- **C72** for frames without missing values in which every timeseries has a type. -/
theorem C72_commute {reg : Registry K} {views : Bool} {F G H G' H' X Y : DFrame K}
    (hF : F.Ok) (hr : ∀ c ∈ requiredCols, c ∈ F.cols) (hc : Complete F) (ht : Typed reg views F)
    {o : FilterOpts K} {keep : Bool} {filters : List (String × PyArg K)}
    {unit : String} {ctx : PyVal K} (hf : OtherColumns F.cols filters) (hu : unit ≠ "")
    (hn : ∀ i, ¬ F.HasMeta i "unit" (.str "")) {target : List Int} (hi : target.Pairwise (· < ·)) {ext : Extrap}
    (h1 : F.convertUnit (unitConv reg unit) o keep filters unit ctx false = (.ok (some G), X))
    (h2 : G.interpolate reg views target ext = .ok H)
    (h3 : F.interpolate reg views target ext = .ok G')
    (h4 : G'.convertUnit (unitConv reg unit) o keep filters unit ctx false = (.ok (some H'), Y)) :
    SameFrame H H' := by
  refine C72_commute_partial hF hr hf hu hn h1 h2 h3 h4 ?_
  intro i old new hold hnew
  obtain ⟨b1, b2, b3, b4, b5⟩ := C56_placed_partial hF hr h3
  obtain ⟨new', e, hb⟩ := b5 i old hold
  rw [hnew] at e
  cases e
  obtain ⟨w, hw⟩ := ht i (List.getElem?_eq_some_iff.1 hold).1
  obtain ⟨vs, hvs⟩ := hc old (List.mem_of_getElem? hold)
  rcases hb with ⟨w', p, w1, w2, w3, w4⟩ | ⟨v, w1, w2, -⟩
  · have hs := w4.source_ne
    have hl := hF.data_len old (List.mem_of_getElem? hold)
    rw [hvs] at w4 hl ⊢
    refine ⟨fun _ => w4.hasValue hi, fun _ => ?_⟩
    match vs, hl with
    | [], hl => exact absurd (List.length_eq_zero_iff.1 hl.symm) hs
    | x :: r, _ => exact ⟨x, by simp⟩
  · cases w1.unique hF hw
    cases w2

/-- **C72**: one order interpolates if the other does. -/
theorem C72_works {reg : Registry K} {views : Bool} {F G X : DFrame K}
    (hF : F.Ok) (hr : ∀ c ∈ requiredCols, c ∈ F.cols) (ht : Typed reg views F)
    {o : FilterOpts K} {keep : Bool} {filters : List (String × PyArg K)}
    {unit : String} {ctx : PyVal K} (hf : OtherColumns F.cols filters) (hu : unit ≠ "")
    (hn : ∀ i, ¬ F.HasMeta i "unit" (.str "")) (target : List Int) (ext : Extrap)
    (h1 : F.convertUnit (unitConv reg unit) o keep filters unit ctx false = (.ok (some G), X)) :
    (∃ H, G.interpolate reg views target ext = .ok H) ↔ ∃ G', F.interpolate reg views target ext = .ok G' := by
  have hv := unitConv_fine (reg := reg) hu hn
  obtain ⟨G1, e1, -, g1, g2, g3, g4⟩ := C53_converted hF hr h1
  simp only [Bool.false_eq_true, if_false, Option.some.injEq] at e1
  subst e1
  obtain ⟨s1, s2, s3, s4, s5, s6, s7⟩ := withContext_spec hF hr
  have hrG : ∀ c ∈ requiredCols, c ∈ G.cols := fun c hc => by rw [g3]; exact (s4 c).2 (.inl (hr c hc))
  have lF : F.data.length = F.meta.length := by simpa using congrArg List.length hF.labels
  have lG : G.data.length = F.data.length := by
    rw [g1.data_eq, List.length_map, ← g4.length_eq, ← s2, hF.withContext.data_eq, List.length_map]
  have mG : G.meta.length = F.data.length := by rw [← lG]; simpa using (congrArg List.length g1.labels).symm
  have bound : ∀ {T : DFrame K} {i : Nat} {v : PyVal K}, TypeIs reg views T i v → i < T.meta.length := by
    intro T i v h
    cases h with
    | given h _ => exact HasMeta.lt h
    | guessed _ _ h _ => exact HasMeta.lt h
    | guessedNoUnit _ _ h _ => exact HasMeta.lt h
    | unknown _ _ h => exact h
  have fwd : ∀ {i v}, TypeIs reg views F i v → TypeIs reg views G i v := fun h =>
    type_kept hF hr hf hv h1 h (lF ▸ bound h)
  have bwd : ∀ {i v}, TypeIs reg views G i v → TypeIs reg views F i v := by
    intro i v h
    obtain ⟨w, hw⟩ := ht i (mG ▸ bound h)
    rwa [h.unique g1 (fwd hw)]
  -- values before and after the conversion
  have vals : ∀ (i : Nat) (old gold : Nat × List (Fl K)), F.data[i]? = some old → G.data[i]? = some gold →
      ∃ a b : K, gold.2 = old.2.map (Fl.map (affine a b)) := by
    intro i old gold h2 h3
    have hi := (List.getElem?_eq_some_iff.1 h2).1
    have hid : old.2 = old.2.map (Fl.map (affine (1 : K) 0)) := by
      conv_lhs => rw [← List.map_id old.2]
      refine List.map_congr_left fun x _ => ?_
      cases x with
      | nan => rfl
      | num y => simp [Fl.map, affine]
    rcases convert_at hF hr hf h1 (List.getElem?_eq_getElem (lF ▸ hi)) h2 with ⟨u, f, -, -, -, p4, p5, -⟩ | ⟨-, p2, -⟩
    · rw [h3] at p5
      cases p5
      obtain ⟨a, b, rfl⟩ := hv.affine u f p4
      exact ⟨a, b, rfl⟩
    · rw [h3] at p2
      cases p2
      exact ⟨1, 0, hid⟩
  have unmap : ∀ {src tgt : List Int} {old new : List (Fl K)} {p : PType} (a b : K),
      Placed ext src tgt (old.map (Fl.map (affine a b))) new p → ∃ new', Placed ext src tgt old new' p := by
    intro src tgt old new p a b h
    have key : ∀ {c : TSConv K}, c.convertFrom (old.map (Fl.map (affine a b))) = .ok new → ∃ new', c.convertFrom old = .ok new' := by
      intro c hc
      unfold TSConv.convertFrom at hc ⊢
      rw [convert_affine] at hc
      cases hx : convert c.ty c.ext c.source c.target old with
      | error e => rw [hx] at hc; cases hc
      | ok x => exact ⟨x, rfl⟩
    cases h with
    | point h1 h2 => obtain ⟨n, hn⟩ := key h2; exact ⟨n, .point h1 hn⟩
    | average h1 h2 h3 h4 => obtain ⟨n, hn⟩ := key h4; exact ⟨n, .average h1 h2 h3 hn⟩
  constructor
  · rintro ⟨H, h2⟩
    obtain ⟨a1, a2, a3, a4, a5⟩ := C56_placed_partial g1 hrG h2
    refine C56_works hF hr ?_ ?_
    · intro i old hold
      have hi := (List.getElem?_eq_some_iff.1 hold).1
      have hg : G.data[i]? = some (G.data[i]'(lG ▸ hi)) := List.getElem?_eq_getElem _
      generalize G.data[i]'(lG ▸ hi) = gold at hg
      obtain ⟨new, hnew, ha⟩ := a5 i gold hg
      obtain ⟨w, hw⟩ := ht i hi
      rcases ha with ⟨w', p, w1, w2, w3, w4⟩ | ⟨v, w1, w2, -⟩
      · obtain ⟨a, b, hab⟩ := vals i old gold hold hg
        rw [g2, hab] at w4
        obtain ⟨n, hn'⟩ := unmap a b w4
        exact ⟨w', p, n, bwd w1, w2, hn'⟩
      · have := w1.unique g1 (fwd hw)
        subst this
        cases w2
    · intro i j a b h3 h4 h5 h6
      exact C56_refused g1 hrG (fwd h3) (fwd h4) h5 h6 h2
  · rintro ⟨G', h3⟩
    obtain ⟨a1, a2, a3, a4, a5⟩ := C56_placed_partial hF hr h3
    refine C56_works g1 hrG ?_ ?_
    · intro i gold hg
      have hi := (List.getElem?_eq_some_iff.1 hg).1
      have hold : F.data[i]? = some (F.data[i]'(lG ▸ hi)) := List.getElem?_eq_getElem _
      generalize F.data[i]'(lG ▸ hi) = old at hold
      obtain ⟨new, hnew, ha⟩ := a5 i old hold
      obtain ⟨w, hw⟩ := ht i (lG ▸ hi)
      rcases ha with ⟨w', p, w1, w2, w3, w4⟩ | ⟨v, w1, w2, -⟩
      · obtain ⟨a, b, hab⟩ := vals i old gold hold hg
        exact ⟨w', p, new.2.map (Fl.map (affine a b)), fwd w1, w2, by rw [g2, hab]; exact w4.map a b⟩
      · have := w1.unique hF hw
        subst this
        cases w2
    · intro i j a b h3' h4 h5 h6
      exact C56_refused hF hr (bwd h3') (bwd h4) h5 h6 h3

/-! ## Cases -/

/-- Two temperatures; one value of the second may be missing. -/
def warmF (x : Fl ℚ) : DFrame ℚ :=
  { times := [0, 10, 20]
    cols := ["model", "scenario", "region", "variable", "unit"]
    data := [(0, [.num 300, .num 301, .num 303]), (1, [.num 1000, x, .num 3000])]
    «meta» := [(0, [.str "m", .str "a", .str "World", .str "T", .str "K"]), (1, [.str "m", .str "b", .str "World", .str "T", .str "mK"])] }

theorem warmF_ok (x : Fl ℚ) : (warmF x).Ok :=
  ⟨rfl, by simp [warmF], by change List.Nodup ["model", "scenario", "region", "variable", "unit"]; decide +kernel, by intro d hd; simp [warmF] at hd; rcases hd with rfl | rfl <;> rfl,
    by intro d hd; simp [warmF] at hd; rcases hd with rfl | rfl <;> rfl⟩

/-- What was returned. -/
def frameIn (r : Except Err (Option (DFrame ℚ)) × DFrame ℚ) : DFrame ℚ :=
  match r.1 with
  | .ok (some F) => F
  | _ => r.2

def warmG (x : Fl ℚ) : DFrame ℚ := frameIn ((warmF x).convertUnit (unitConv tempReg "degC") demoO true [("variable", .val (.str "T"))] "degC" .none false)

def thenFrame (r : Except Err (DFrame ℚ)) : DFrame ℚ :=
  match r with
  | .ok F => F
  | .error _ => warmF .nan

def warmG' (x : Fl ℚ) : DFrame ℚ := thenFrame ((warmF x).interpolate tempReg true [0, 5, 30] .linear)

/-- Hypotheses of `C72_commute`: all values are there. -/
example : Complete (warmF (.num 2000)) ∧ Typed tempReg true (warmF (.num 2000)) ∧
    OtherColumns (warmF (.num 2000)).cols [("variable", PyArg.val (PyVal.str (K := ℚ) "T"))] ∧
    (∀ i, ¬ (warmF (.num 2000)).HasMeta i "unit" (.str "")) ∧
    (warmF (.num 2000)).convertUnit (unitConv tempReg "degC") demoO true [("variable", .val (.str "T"))] "degC" .none false =
      (.ok (some (warmG (.num 2000))), warmF (.num 2000)) ∧
    (warmF (.num 2000)).interpolate tempReg true [0, 5, 30] .linear = .ok (warmG' (.num 2000)) ∧
    dataOf ((warmG (.num 2000)).interpolate tempReg true [0, 5, 30] .linear) =
      some [(0, [.num (2685 / 100), .num (2735 / 100), .num (3185 / 100)]), (1, [.num (-27215 / 100), .num (-27165 / 100), .num (-26915 / 100)])] := by
  refine ⟨?_, ?_, by unfold OtherColumns; decide +kernel, ?_, by decide +kernel, by decide +kernel, by decide +kernel⟩
  · intro d hd
    simp only [warmF, List.mem_cons, List.not_mem_nil, or_false] at hd
    rcases hd with rfl | rfl
    · exact ⟨[300, 301, 303], rfl⟩
    · exact ⟨[1000, 2000, 3000], rfl⟩
  · intro i hi
    match i, hi with
    | 0, _ => exact ⟨_, .guessed (n := "T") (u := "K") rfl (.inl (by decide +kernel)) ⟨3, _, rfl, rfl, rfl⟩ ⟨4, _, rfl, rfl, rfl⟩⟩
    | 1, _ => exact ⟨_, .guessed (n := "T") (u := "mK") rfl (.inl (by decide +kernel)) ⟨3, _, rfl, rfl, rfl⟩ ⟨4, _, rfl, rfl, rfl⟩⟩
  · intro i h
    obtain ⟨r, h1, h2, h3⟩ := (hasMeta_iff (warmF_ok _)).1 h
    match i, h1 with
    | 0, h1 =>
      have : r = (0, [.str "m", .str "a", .str "World", .str "T", .str "K"]) := (Option.some.inj h1).symm
      subst this
      revert h3
      decide +kernel
    | 1, h1 =>
      have : r = (1, [.str "m", .str "b", .str "World", .str "T", .str "mK"]) := (Option.some.inj h1).symm
      subst this
      revert h3
      decide +kernel

/-- **C72** is violated if a value is missing: interpolated first, the timeseries has no values and keeps its unit mK,
otherwise it gets degC. -/
theorem C72_missing : ∃ H H', (warmG .nan).interpolate tempReg true [0, 5, 30] .linear = .ok H ∧
    (warmF .nan).interpolate tempReg true [0, 5, 30] .linear = .ok (warmG' .nan) ∧
    (warmF .nan).convertUnit (unitConv tempReg "degC") demoO true [("variable", .val (.str "T"))] "degC" .none false =
      (.ok (some (warmG .nan)), warmF .nan) ∧
    (warmG' .nan).convertUnit (unitConv tempReg "degC") demoO true [("variable", .val (.str "T"))] "degC" .none false =
      (.ok (some H'), warmG' .nan) ∧
    H.HasMeta 1 "unit" (.str "degC") ∧ H'.HasMeta 1 "unit" (.str "mK") :=
  ⟨thenFrame ((warmG .nan).interpolate tempReg true [0, 5, 30] .linear),
    frameIn ((warmG' .nan).convertUnit (unitConv tempReg "degC") demoO true [("variable", .val (.str "T"))] "degC" .none false),
    by decide +kernel, by decide +kernel, by decide +kernel, by decide +kernel,
    ⟨4, (1, [.str "m", .str "b", .str "World", .str "T", .str "degC", .str "point", .none]), by decide +kernel, by decide +kernel, rfl⟩,
    ⟨4, (1, [.str "m", .str "b", .str "World", .str "T", .str "mK", .str "point", .none]), by decide +kernel, by decide +kernel, rfl⟩⟩

end Openscm
