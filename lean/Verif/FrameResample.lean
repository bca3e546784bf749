import Verif.FrameInterp2
import Verif.OffsetProps

/-!
# Resampling frames (model) and C63

`ScmDataFrameBase.resample`, `openscm/scmdataframe/base.py:1054-1167`.
-/

set_option linter.unusedSectionVars false

namespace Openscm

variable {K : Type} [Field K] [LinearOrder K] [IsStrictOrderedRing K]

/-- `resample` with the rule `r` and its multiple `n`, `openscm/scmdataframe/base.py:1163-1167`. -/
def DFrame.resample (reg : Registry K) (views : Bool) (F : DFrame K) (r : Rule) (n : Int) (ext : Extrap) :
    Except Err (DFrame K) :=
  match F.times.head?, F.times.getLast? with
  | some a, some b =>
    match generateRange r n a b with
    | (_, some e) => .error e
    | (l, none) => F.interpolate reg views l ext
  | _, _ => .error .indexError

/-! ## Facts about conversions -/

theorem OneMore.increasing {l m : List Int} (h : OneMore l m) (hl : l.Pairwise (· < ·)) : m.Pairwise (· < ·) := by
  obtain ⟨l', a, b, rfl, rfl⟩ := h
  have e : l' ++ [a, b, b + (b - a)] = (l' ++ [a, b]) ++ [b + (b - a)] := by simp
  rw [e, List.pairwise_append]
  refine ⟨hl, by simp, ?_⟩
  intro x hx y hy
  rw [List.mem_singleton] at hy
  subst hy
  have hab : a < b := by
    have := (List.pairwise_append.1 hl).2.1
    simpa using this
  rw [List.pairwise_append] at hl
  rw [List.mem_append] at hx
  rcases hx with hx | hx
  · have := hl.2.2 x hx b (by simp)
    omega
  · simp only [List.mem_cons, List.not_mem_nil, or_false] at hx
    omega

theorem OneMore.exists {l : List Int} (h : 2 ≤ l.length) : ∃ m, OneMore l m := by
  obtain ⟨b, l1, h1⟩ : ∃ b l1, l = l1 ++ [b] := by
    rcases List.eq_nil_or_concat l with h0 | ⟨l1, b, h0⟩
    · rw [h0] at h; simp at h
    · exact ⟨b, l1, by simpa using h0⟩
  obtain ⟨a, l2, h2⟩ : ∃ a l2, l1 = l2 ++ [a] := by
    rcases List.eq_nil_or_concat l1 with h0 | ⟨l2, a, h0⟩
    · rw [h1, h0] at h; simp at h
    · exact ⟨a, l2, by simpa using h0⟩
  exact ⟨l2 ++ [a, b, b + (b - a)], l2, a, b, by rw [h1, h2]; simp, rfl⟩

theorem cast_increasing {l : List Int} (h : l.Pairwise (· < ·)) : (toK l : List K).Pairwise (· < ·) := by
  unfold toK
  rw [List.pairwise_map]
  exact h.imp fun h => by exact_mod_cast h

theorem mkTSConv_self {l : List Int} (h2 : 2 ≤ l.length) (h : l.Pairwise (· < ·)) (p : PType) (ext : Extrap) :
    mkTSConv (toK l : List K) (toK l) p ext = .ok { source := toK l, target := toK l, ty := p, ext := ext } := by
  match l, h2, h with
  | a :: b :: l, _, h =>
    have hab : a < b := (List.pairwise_cons.1 h).1 b (by simp)
    unfold mkTSConv toK
    simp only [List.map_cons]
    rw [if_neg]
    have : (a : K) < (b : K) := by exact_mod_cast hab
    exact not_lt.2 this.le

/-- A timeseries without missing values on its own times stays as it is. -/
theorem Placed.self {ts : List Int} {vs : List K} {p : PType} (ext : Extrap) (hp : p = .average ∨ p = .point)
    (h3 : 3 ≤ vs.length) (hl : ts.length = vs.length) (hs : ts.Pairwise (· < ·)) :
    Placed ext ts ts (vs.map .num) (vs.map .num) p := by
  rcases hp with rfl | rfl
  · obtain ⟨m, hm⟩ := OneMore.exists (l := ts) (by omega)
    have hi := hm.increasing hs
    have hml := hm.length
    have hc := mkTSConv_self (K := K) (by omega) hi .average ext
    refine .average hm hm hc ?_
    exact (C22_converter_identity _ vs h3 rfl (.inr rfl)
      (by simp [TSConv.targetLength, pointsLength, toK, hml, hl]) (cast_increasing hi)).1
  · have hc := mkTSConv_self (K := K) (by omega) hs .point ext
    refine .point hc ?_
    exact (C22_converter_identity _ vs h3 rfl (.inl rfl)
      (by simp [TSConv.targetLength, pointsLength, toK, hl]) (cast_increasing hs)).1

theorem Placed.unique {ext : Extrap} {src tgt : List Int} {old new new' : List (Fl K)} {p : PType}
    (h : Placed ext src tgt old new p) (h' : Placed ext src tgt old new' p) : new = new' := by
  cases h with
  | point h1 h2 =>
    cases h' with
    | point h3 h4 =>
      rw [h1] at h3
      cases h3
      rw [h2] at h4
      exact Except.ok.inj h4
  | average a1 a2 h1 h2 =>
    cases h' with
    | average b1 b2 h3 h4 =>
      have e1 := a1.extend.symm.trans b1.extend
      have e2 := a2.extend.symm.trans b2.extend
      cases e1
      cases e2
      rw [h1] at h3
      cases h3
      rw [h2] at h4
      exact Except.ok.inj h4

theorem Placed.kind {ext : Extrap} {src tgt : List Int} {old new : List (Fl K)} {p : PType}
    (h : Placed ext src tgt old new p) : p = .average ∨ p = .point := by
  cases h with
  | point => exact .inr rfl
  | average => exact .inl rfl

/-- The times of the source, in full. -/
theorem convertNum_parts {p : PType} {ext : Extrap} {src tgt vs : List K} {r : List (Fl K)} (hp : p = .average ∨ p = .point)
    (h : convertNum p ext src tgt vs = .ok r) : 3 ≤ vs.length ∧ src.length = (if p = .average then vs.length + 1 else vs.length) := by
  unfold convertNum at h
  split at h
  · cases h
  · rename_i h3
    refine ⟨by omega, ?_⟩
    rcases hp with rfl | rfl
    · simp only at h
      split at h
      · cases h
      · rename_i h4
        simpa using h4
    · simp only at h
      split at h
      · cases h
      · rename_i h4
        simpa using h4

/-- Numbers give numbers. -/
theorem Placed.nums {ext : Extrap} {src tgt : List Int} {vs : List K} {new : List (Fl K)} {p : PType}
    (h : Placed ext src tgt (vs.map .num) new p) (hs : src.Pairwise (· < ·)) (ht : tgt.Pairwise (· < ·)) :
    ∃ ws : List K, new = ws.map .num := by
  have key : ∀ l : List (Fl K), (∀ (i : Nat) (x : Fl K), l[i]? = some x → ∃ w, x = .num w) → ∃ ws : List K, l = ws.map .num := by
    intro l
    induction l with
    | nil => exact fun _ => ⟨[], rfl⟩
    | cons x l ih =>
      intro hx
      obtain ⟨w, hw⟩ := hx 0 x rfl
      obtain ⟨ws, hws⟩ := ih fun i y hy => hx (i + 1) y (by simpa using hy)
      exact ⟨w :: ws, by rw [hw, hws]; rfl⟩
  apply key
  cases h with
  | @point c h1 h2 =>
    have hc := mkTSConv_fields h1
    subst hc
    unfold TSConv.convertFrom convert at h2
    simp only [Fl.allNum_map_num] at h2
    obtain ⟨h3, hl⟩ := convertNum_parts (.inr rfl) h2
    have h4 := convertNum_point_ok h3 (by simpa [toK] using hl) (cast_increasing hs) h2
    intro i x hx
    obtain ⟨hi, hx⟩ := List.getElem?_eq_some_iff.1 hx
    obtain ⟨y, -, hy⟩ := evalAll_getElem h4 i (by rw [← evalAll_length h4]; exact hi)
    exact ⟨y, by rw [← hx, hy]⟩
  | @average s t c m1 m2 h1 h2 =>
    have hc := mkTSConv_fields h1
    subst hc
    unfold TSConv.convertFrom convert at h2
    simp only [Fl.allNum_map_num] at h2
    obtain ⟨h3, hl⟩ := convertNum_parts (.inl rfl) h2
    have h4 := convertNum_average_ok h3 (by simpa [toK] using hl) (cast_increasing (m1.increasing hs)) h2
    intro i x hx
    obtain ⟨hi, hx⟩ := List.getElem?_eq_some_iff.1 hx
    have hlen := intervalAverages_length h4
    have h5 := intervalAverages_getElem h4 i (by omega)
    rw [hx] at h5
    have hne : (t.map fun i : Int => (i : K))[i + 1]'(by omega) ≠ (t.map fun i : Int => (i : K))[i]'(by omega) := by
      have := List.pairwise_iff_getElem.1 (cast_increasing (K := K) (m2.increasing ht)) i (i + 1)
        (by unfold toK; omega) (by unfold toK; omega) (by omega)
      exact this.ne'
    unfold intervalAverage at h5
    split at h5
    · cases h5
    · rw [if_neg hne] at h5
      exact ⟨_, (Except.ok.inj h5).symm⟩

theorem kindWord_text {p : PType} (hp : p = .average ∨ p = .point) : KindWord (typeText p) p := by
  rcases hp with rfl | rfl
  · exact .average ((toLower_anyCase (by decide)).1 (by decide +kernel))
  · exact .point ((toLower_anyCase (by decide)).1 (by decide +kernel))

/-- C56: a frame of one kind, without missing values, stays as it is when it is interpolated to its own times. -/
theorem C56_own {reg : Registry K} {views : Bool} {F : DFrame K} (ext : Extrap) (hF : F.Ok)
    (hr : ∀ c ∈ requiredCols, c ∈ F.cols) (h3 : 3 ≤ F.times.length) (hs : F.times.Pairwise (· < ·)) {p : PType}
    (hp : p = .average ∨ p = .point) (hpc : "parameter_type" ∈ F.cols)
    (hty : ∀ i, i < F.meta.length → F.HasMeta i "parameter_type" (.str (typeText p)))
    (hnum : ∀ d ∈ F.data, ∃ vs : List K, d.2 = vs.map .num) :
    F.interpolate reg views F.times ext = .ok F := by
  have hlen : F.data.length = F.meta.length := by
    have := congrArg List.length hF.labels
    simpa using this
  have hT : ∀ i, i < F.meta.length → TypeIs reg views F i (.str (typeText p)) := fun i hi => .given (hty i hi) (by simp)
  have hpl : ∀ (i : Nat) (d : Nat × List (Fl K)), F.data[i]? = some d → Placed ext F.times F.times d.2 d.2 p := by
    intro i d hd
    have hm := List.mem_of_getElem? hd
    obtain ⟨vs, hvs⟩ := hnum d hm
    have hl := hF.data_len d hm
    rw [hvs] at hl ⊢
    rw [List.length_map] at hl
    exact Placed.self ext hp (by omega) hl.symm hs
  have bound : ∀ {i : Nat} {d : Nat × List (Fl K)}, F.data[i]? = some d → i < F.meta.length := by
    intro i d hd
    have := (List.getElem?_eq_some_iff.1 hd).1
    omega
  have only : ∀ i v, TypeIs reg views F i v → i < F.meta.length := by
    intro i v hv
    have hm : ∀ {c w}, F.HasMeta i c w → i < F.meta.length := by
      rintro c w ⟨_, _, -, h2, -⟩
      exact (List.getElem?_eq_some_iff.1 h2).1
    cases hv with
    | given h _ => exact hm h
    | guessed _ _ h _ => exact hm h
    | guessedNoUnit _ _ h _ => exact hm h
    | unknown _ _ h => exact h
  obtain ⟨G, hG⟩ := C56_works (reg := reg) (views := views) (F := F) (target := F.times) (ext := ext) hF hr
    (fun i d hd => ⟨_, p, d.2, hT i (bound hd), kindWord_text hp, hpl i d hd⟩)
    (fun i j a b ha hb _ => by
      have e1 := TypeIs.unique hF ha (hT i (only i _ ha))
      have e2 := TypeIs.unique hF hb (hT j (only j _ hb))
      cases e1
      cases e2
      exact lt_irrefl _)
  rw [hG]
  obtain ⟨g1, g2, g3, g4, g5⟩ := C56_placed_partial hF hr hG
  have hcols : G.cols = F.cols := by
    obtain ⟨rows, ks, new, -, -, -, rfl⟩ := interpolate_parts hG
    simp [DFrame.withType, hpc]
  have hkind : ∀ {i w q}, TypeIs reg views F i (.str w) → KindWord w q → q = p := by
    intro i w q h1 h2
    have e := TypeIs.unique hF h1 (hT i (only i _ h1))
    cases e
    have h3 := kindWord_iff.1 h2
    rw [kindWord_iff.1 (kindWord_text hp)] at h3
    exact (Except.ok.inj h3).symm
  have hdata : G.data = F.data := by
    apply List.ext_getElem?
    intro i
    cases hd : F.data[i]? with
    | none =>
      rw [List.getElem?_eq_none_iff] at hd ⊢
      have := congrArg List.length g3
      simp only [List.length_map] at this
      omega
    | some d =>
      obtain ⟨new, e1, e2⟩ := g5 i d hd
      rw [e1]
      have hl := congrArg (fun l : List Nat => l[i]?) g3
      simp only [List.getElem?_map, hd, e1, Option.map_some] at hl
      rcases e2 with ⟨w, q, t1, t2, -, t4⟩ | ⟨v, t1, t2, -⟩
      · obtain rfl := hkind t1 t2
        have := t4.unique (hpl i d hd)
        rw [Option.some.injEq]
        exact Prod.ext (Option.some.inj hl) this
      · have e := TypeIs.unique hF t1 (hT i (only i _ t1))
        subst e
        simp [PyVal.isNull] at t2
  have hmeta : G.meta = F.meta := by
    have hGlen : G.meta.length = F.meta.length := by
      have e1 := congrArg List.length g1.labels
      simp only [List.length_map] at e1
      rw [← e1, hdata, hlen]
    apply List.ext_getElem?
    intro i
    cases hd : F.meta[i]? with
    | none =>
      rw [List.getElem?_eq_none_iff] at hd ⊢
      omega
    | some row =>
      have hi := (List.getElem?_eq_some_iff.1 hd).1
      have hgr : G.meta[i]? = some G.meta[i] := List.getElem?_eq_getElem (by omega)
      rw [hgr, Option.some.injEq]
      have l1 := g1.meta_len _ (List.mem_of_getElem? hgr)
      have l2 := hF.meta_len _ (List.mem_of_getElem? hd)
      have hlab : G.meta[i].1 = row.1 := by
        have e := congrArg (fun l : List Nat => l[i]?) (g1.labels.symm.trans (g3.trans hF.labels))
        simp only [List.getElem?_map, hd, hgr, Option.map_some] at e
        exact Option.some.inj e
      refine Prod.ext hlab (List.ext_getElem (by rw [l1, l2, hcols]) fun j h1 h2 => ?_)
      have hj : F.cols[j]? = some (F.cols[j]'(by omega)) := List.getElem?_eq_getElem _
      have hv : F.HasMeta i (F.cols[j]'(by omega)) row.2[j] := ⟨j, row, hj, hd, List.getElem?_eq_getElem _⟩
      have hw : G.HasMeta i (F.cols[j]'(by omega)) (G.meta[i].2[j]) :=
        ⟨j, _, by rw [hcols]; exact hj, hgr, List.getElem?_eq_getElem _⟩
      by_cases hc : F.cols[j]'(by omega) = "parameter_type"
      · rw [hc] at hv hw
        have e1 := HasMeta.unique hF hv (hty i hi)
        have hdi : F.data[i]? = some (F.data[i]'(by omega)) := List.getElem?_eq_getElem _
        obtain ⟨new, -, e2⟩ := g5 i _ hdi
        rcases e2 with ⟨w, q, t1, t2, t3, -⟩ | ⟨v, t1, t2, -⟩
        · obtain rfl := hkind t1 t2
          rw [e1]
          exact HasMeta.unique g1 hw t3
        · have e := TypeIs.unique hF t1 (hT i (only i _ t1))
          subst e
          simp [PyVal.isNull] at t2
      · exact HasMeta.unique hF ((g4 i _ _ hc).1 hw) hv
  cases G
  cases F
  simp only at g2 hcols hdata hmeta
  subst g2 hcols hdata hmeta
  rfl

/-! ## Facts about ranges -/

theorem genLoop_increasing {r : Rule} {n stop : Int} {f : Nat} {cur : Int} {l : List Int}
    (h : genLoop r n stop f cur = (l, none)) : l.Pairwise (· < ·) ∧ ∀ t ∈ l, cur ≤ t ∧ t ≤ stop := by
  induction f generalizing cur l with
  | zero => simp [genLoop] at h
  | succ f ih =>
    unfold genLoop at h
    split at h
    · rename_i hle
      cases hc : r.apply n cur with
      | error e => rw [hc] at h; simp at h
      | ok u =>
        rw [hc] at h
        simp only at h
        split at h
        · simp at h
        · rename_i hlt
          simp only [Prod.mk.injEq] at h
          obtain ⟨h1, h2⟩ := ih (Prod.ext rfl h.2)
          rw [← h.1]
          refine ⟨List.pairwise_cons.2 ⟨fun t ht => ?_, h1⟩, fun t ht => ?_⟩
          · have := h2 t ht
            omega
          · rcases List.mem_cons.1 ht with rfl | ht
            · omega
            · have := h2 t ht
              omega
    · simp only [Prod.mk.injEq, and_true] at h
      subst h
      simp

/-- The loop does the same if it is told to stop at the last time it yields. -/
theorem genLoop_last {r : Rule} {n stop : Int} {f : Nat} {cur b : Int} {l : List Int}
    (h : genLoop r n stop f cur = (l, none)) (hb : l.getLast? = some b) (f' : Nat) (hf : (b - cur).toNat + 2 ≤ f') :
    genLoop r n b f' cur = (l, none) := by
  induction f generalizing cur l f' with
  | zero => simp [genLoop] at h
  | succ f ih =>
    have hinc := genLoop_increasing h
    unfold genLoop at h
    split at h
    · rename_i hle
      cases hc : r.apply n cur with
      | error e => rw [hc] at h; simp at h
      | ok u =>
        rw [hc] at h
        simp only at h
        split at h
        · simp at h
        · rename_i hlt
          simp only [Prod.mk.injEq] at h
          obtain ⟨e1, e2⟩ := h
          have hbm := (hinc.2 b (List.mem_of_getLast? hb)).1
          cases f' with
          | zero => omega
          | succ f' =>
            unfold genLoop
            rw [if_pos hbm, hc]
            simp only
            rw [if_neg hlt]
            generalize hr : genLoop r n stop f u = rest at e1 e2
            obtain ⟨l', o⟩ := rest
            simp only at e1 e2
            subst e2
            cases hl' : l' with
            | nil =>
              rw [← e1, hl'] at hb
              simp only [List.getLast?_singleton, Option.some.injEq] at hb
              subst hb
              have hg : genLoop r n cur f' u = ([], none) := by
                cases f' with
                | zero => omega
                | succ f' =>
                  unfold genLoop
                  rw [if_neg (by omega)]
              rw [hg, ← e1, hl']
            | cons x xs =>
              have hb' : l'.getLast? = some b := by
                rw [← e1, hl', List.getLast?_cons_cons, ← hl'] at hb
                exact hb
              have hub := (genLoop_increasing hr).2 b (List.mem_of_getLast? hb')
              rw [ih hr hb' f' (by omega), ← e1, hl']
    · simp only [Prod.mk.injEq, and_true] at h
      subst h
      simp at hb

theorem on_of_day {r : Rule} (hv : r.Valid) {t : Int} (h : OnDay r t) : r.on t = true := by
  by_cases ht : ∃ s, r = .tick s
  · obtain ⟨s, rfl⟩ := ht
    rfl
  · obtain ⟨g, hg⟩ := exists_grid hv (fun s e => ht ⟨s, e⟩)
    obtain ⟨i, hi⟩ := (hg.day t).1 h
    exact (hg.on t).2 ⟨i, hi⟩

/-- The range from the first to the last time of a range is that range. -/
theorem generateRange_again {r : Rule} (hv : r.Valid) {n start stop : Int} (hn : 1 ≤ n) (hse : start ≤ stop)
    {l : List Int} (hl : generateRange r n start stop = (l, none)) {a b : Int} (ha : l.head? = some a)
    (hb : l.getLast? = some b) : generateRange r n a b = (l, none) := by
  have hon : ∀ t ∈ l, r.on t = true := by
    intro t ht
    by_cases hk : ∃ s, r = .tick s
    · obtain ⟨s, rfl⟩ := hk
      rfl
    · exact on_of_day hv ((C55_times hv (fun s e => hk ⟨s, e⟩) hn hse hl).2.1 t ht).1
  have h1 : r.rollback a = .ok a := by
    unfold Rule.rollback
    rw [if_pos (hon a (List.mem_of_head? ha))]
  have h2 : r.rollforward b = .ok b := by
    unfold Rule.rollforward
    rw [if_pos (hon b (List.mem_of_getLast? hb))]
  unfold generateRange at hl ⊢
  rw [h1, h2]
  simp only
  cases hb1 : r.rollback start with
  | error e => rw [hb1] at hl; simp at hl
  | ok s =>
    rw [hb1] at hl
    cases hf : r.rollforward stop with
    | error e => rw [hf] at hl; simp at hl
    | ok e =>
      rw [hf] at hl
      simp only at hl
      have hs : s = a := by
        generalize hfu : (e - s).toNat + 2 = f at hl
        cases f with
        | zero => simp [genLoop] at hl
        | succ f =>
          unfold genLoop at hl
          split at hl
          · cases hc : r.apply n s with
            | error e => rw [hc] at hl; simp at hl
            | ok u =>
              rw [hc] at hl
              simp only at hl
              split at hl
              · simp at hl
              · simp only [Prod.mk.injEq] at hl
                rw [← hl.1] at ha
                simpa using ha
          · simp only [Prod.mk.injEq, and_true] at hl
            rw [← hl] at ha
            simp at ha
      subst hs
      exact genLoop_last hl hb _ (le_refl _)

/-! ## C63 -/

theorem resample_parts {reg : Registry K} {views : Bool} {F G : DFrame K} {r : Rule} {n : Int} {ext : Extrap}
    (h : F.resample reg views r n ext = .ok G) :
    ∃ a b l, F.times.head? = some a ∧ F.times.getLast? = some b ∧ generateRange r n a b = (l, none) ∧
      F.interpolate reg views l ext = .ok G := by
  unfold DFrame.resample at h
  split at h
  · rename_i a b ha hb
    generalize hg : generateRange r n a b = x at h
    obtain ⟨l, o⟩ := x
    cases o with
    | some e => cases h
    | none => exact ⟨a, b, l, ha, hb, hg, h⟩
  · cases h

theorem ends_le {l : List Int} (hs : l.Pairwise (· < ·)) {a b : Int} (ha : l.head? = some a) (hb : l.getLast? = some b) :
    a ≤ b := by
  cases l with
  | nil => simp at ha
  | cons x l =>
    simp only [List.head?_cons, Option.some.injEq] at ha
    subst ha
    rcases List.mem_cons.1 (List.mem_of_getLast? hb) with h | h
    · exact h.ge
    · exact ((List.pairwise_cons.1 hs).1 b h).le

/-- C63: what the calls that succeed return. The times of the result are steps of the rule: they increase, lie on days of
the rule at the time of day of the first time, and begin with the last such time that is not after the first time. The
timeseries and their metadata stay, apart from the column with the types. Every timeseries with a type is put on these
times (as `interpolate` does, C56), and those without have no values left. -/
theorem C63_steps {reg : Registry K} {views : Bool} {F G : DFrame K} {r : Rule} {n : Int} {ext : Extrap}
    (hF : F.Ok) (hr : ∀ c ∈ requiredCols, c ∈ F.cols) (hv : r.Valid) (ht : ∀ s, r ≠ .tick s) (hn : 1 ≤ n) {a b : Int}
    (ha : F.times.head? = some a) (hb : F.times.getLast? = some b) (hab : a ≤ b)
    (h : F.resample reg views r n ext = .ok G) :
    G.times.Pairwise (· < ·) ∧ (∀ t ∈ G.times, OnDay r t ∧ SameClock t a) ∧
    (∃ c, G.times.head? = some c ∧ c ≤ a ∧ ∀ t, OnDay r t → SameClock t a → t ≤ a → t ≤ c) ∧
    G.data.map (·.1) = F.data.map (·.1) ∧
    (∀ i c v, c ≠ "parameter_type" → (G.HasMeta i c v ↔ F.HasMeta i c v)) ∧
    ∀ i old, F.data[i]? = some old → ∃ new, G.data[i]? = some new ∧
      ((∃ w p, TypeIs reg views F i (.str w) ∧ KindWord w p ∧ G.HasMeta i "parameter_type" (.str (typeText p)) ∧
          Placed ext F.times G.times old.2 new.2 p) ∨
       (∃ v, TypeIs reg views F i v ∧ v.isNull = true ∧ G.HasMeta i "parameter_type" v ∧ new.2 = G.times.map fun _ => Fl.nan)) := by
  obtain ⟨a', b', l, ha', hb', hg, hi⟩ := resample_parts h
  rw [ha] at ha'
  rw [hb] at hb'
  cases ha'
  cases hb'
  obtain ⟨-, g2, g3, g4, g5⟩ := C56_placed_partial hF hr hi
  rw [g2]
  obtain ⟨t1, t2, t3⟩ := C55_times hv ht hn hab hg
  exact ⟨t1, t2, t3, g3, g4, g5⟩

/-- C63, for the multiple 1 and ends at the same time of day: the result has every step from the last one that is not
after the first time to the first one that is not before the last time. For multiples and other times of day the end
may be missing (`C55_multiple`, `C55_clock`). -/
theorem C63_complete_partial {reg : Registry K} {views : Bool} {F G : DFrame K} {r : Rule} {ext : Extrap}
    (hF : F.Ok) (hr : ∀ c ∈ requiredCols, c ∈ F.cols) (hv : r.Valid) (ht : ∀ s, r ≠ .tick s) {a b : Int}
    (ha : F.times.head? = some a) (hb : F.times.getLast? = some b) (hab : a ≤ b) (hc : SameClock a b)
    (h : F.resample reg views r 1 ext = .ok G) :
    ∃ c d, (c ≤ a ∧ OnDay r c ∧ SameClock c a ∧ ∀ t, OnDay r t → SameClock t a → t ≤ a → t ≤ c) ∧
      (b ≤ d ∧ OnDay r d ∧ SameClock d a ∧ ∀ t, OnDay r t → SameClock t a → b ≤ t → d ≤ t) ∧
      ∀ t, t ∈ G.times ↔ OnDay r t ∧ SameClock t a ∧ c ≤ t ∧ t ≤ d := by
  obtain ⟨a', b', l, ha', hb', hg, hi⟩ := resample_parts h
  rw [ha] at ha'
  rw [hb] at hb'
  cases ha'
  cases hb'
  obtain ⟨-, g2, -, -, -⟩ := C56_placed_partial hF hr hi
  rw [g2]
  obtain ⟨t1, t2, c, c1, c2, c3⟩ := C55_times hv ht (le_refl 1) hab hg
  obtain ⟨d, d1, d2, d3⟩ := C55_covers_partial hv ht hab hc hg
  have hcm := List.mem_of_head? c1
  have hdm := List.mem_of_getLast? d1
  refine ⟨c, d, ⟨c2, (t2 c hcm).1, (t2 c hcm).2, c3⟩, ⟨d2, (t2 d hdm).1, (t2 d hdm).2, d3⟩, fun t => ⟨fun htm => ?_, ?_⟩⟩
  · refine ⟨(t2 t htm).1, (t2 t htm).2, ?_, ?_⟩
    · cases hl : l with
      | nil => rw [hl] at c1; simp at c1
      | cons x xs =>
        rw [hl] at c1 t1 htm
        simp only [List.head?_cons, Option.some.injEq] at c1
        subst c1
        rcases List.mem_cons.1 htm with h | h
        · exact h.ge
        · exact ((List.pairwise_cons.1 t1).1 t h).le
    · rcases List.eq_nil_or_concat l with hl | ⟨xs, x, hl⟩
      · rw [hl] at d1; simp at d1
      · rw [hl, List.concat_eq_append] at d1 t1 htm
        simp only [List.getLast?_append, List.getLast?_singleton, Option.some_or, Option.some.injEq] at d1
        subst d1
        rcases List.mem_append.1 htm with h | h
        · exact ((List.pairwise_append.1 t1).2.2 t h x (by simp)).le
        · exact (List.mem_singleton.1 h).le
  · rintro ⟨o1, o2, o3, o4⟩
    exact C55_no_gap hv ht hab hg hcm hdm o3 o4 o1 o2

/-- C63: values of a point timeseries at times that stay do not change. -/
theorem C63_kept {ext : Extrap} {src tgt : List Int} {vs : List K} {new : List (Fl K)} (hs : src.Pairwise (· < ·))
    (h : Placed ext src tgt (vs.map .num) new .point) {i j : Nat} {t : Int} {x : K} (hi : src[i]? = some t)
    (hj : tgt[j]? = some t) (hx : vs[i]? = some x) : new[j]? = some (.num x) := by
  cases h with
  | @point c h1 h2 =>
    have hc := mkTSConv_fields h1
    subst hc
    unfold TSConv.convertFrom convert at h2
    simp only [Fl.allNum_map_num] at h2
    obtain ⟨h3, hl⟩ := convertNum_parts (.inr rfl) h2
    obtain ⟨i1, i2⟩ := List.getElem?_eq_some_iff.1 hi
    obtain ⟨j1, j2⟩ := List.getElem?_eq_some_iff.1 hj
    obtain ⟨x1, x2⟩ := List.getElem?_eq_some_iff.1 hx
    have := C24_knot ext _ _ vs new h3 (by simpa [toK] using hl) (cast_increasing hs) h2 i j (by unfold toK; simpa using i1)
      (by simpa using j1) (by simp [toK, i2, j2])
    rw [this, x2]

/-- C63: between two times of the source, a point timeseries lies on the line through their values. -/
theorem C63_line {ext : Extrap} {src tgt : List Int} {vs : List K} {new : List (Fl K)} (hs : src.Pairwise (· < ·))
    (h : Placed ext src tgt (vs.map .num) new .point) {i j : Nat} {t u v : Int} {x y : K} (hi : src[i]? = some t)
    (hi' : src[i + 1]? = some u) (hx : vs[i]? = some x) (hy : vs[i + 1]? = some y) (hj : tgt[j]? = some v)
    (htv : t ≤ v) (hvu : v ≤ u) :
    new[j]? = some (.num (x + (y - x) * (((v : K) - (t : K)) / ((u : K) - (t : K))))) := by
  cases h with
  | @point c h1 h2 =>
    have hc := mkTSConv_fields h1
    subst hc
    unfold TSConv.convertFrom convert at h2
    simp only [Fl.allNum_map_num] at h2
    obtain ⟨h3, hl⟩ := convertNum_parts (.inr rfl) h2
    obtain ⟨i1, i2⟩ := List.getElem?_eq_some_iff.1 hi
    obtain ⟨k1, k2⟩ := List.getElem?_eq_some_iff.1 hi'
    obtain ⟨j1, j2⟩ := List.getElem?_eq_some_iff.1 hj
    obtain ⟨x1, x2⟩ := List.getElem?_eq_some_iff.1 hx
    obtain ⟨y1, y2⟩ := List.getElem?_eq_some_iff.1 hy
    have := C24_segment ext _ _ vs new h3 (by simpa [toK] using hl) (cast_increasing hs) h2 i j (by simpa [toK] using k1)
      (by simpa using j1) (by simp only [toK, List.getElem_map, i2, j2]; exact_mod_cast htv)
      (by simp only [toK, List.getElem_map, k2, j2]; exact_mod_cast hvu)
    rw [this]
    simp only [toK, List.getElem_map, i2, j2, k2, x2, y2]

/-- C63: resampling again with the same rule changes nothing, for frames of one kind without missing values. -/
theorem C63_again {reg : Registry K} {views : Bool} {F G : DFrame K} {r : Rule} {n : Int} {ext : Extrap} (ext' : Extrap)
    (hF : F.Ok) (hr : ∀ c ∈ requiredCols, c ∈ F.cols) (hv : r.Valid) (hn : 1 ≤ n) (hs : F.times.Pairwise (· < ·))
    {p : PType} (hty : ∀ i, i < F.data.length → ∃ w, TypeIs reg views F i (.str w) ∧ KindWord w p)
    (hne : F.data ≠ []) (hnum : ∀ d ∈ F.data, ∃ vs : List K, d.2 = vs.map .num)
    (h : F.resample reg views r n ext = .ok G) (h3 : 3 ≤ G.times.length) :
    G.resample reg views r n ext' = .ok G := by
  obtain ⟨a, b, l, ha, hb, hg, hi⟩ := resample_parts h
  obtain ⟨g1, g2, g3, g4, g5⟩ := C56_placed_partial hF hr hi
  have hinc : l.Pairwise (· < ·) := by
    unfold generateRange at hg
    split at hg
    · simp at hg
    · split at hg
      · simp at hg
      · exact (genLoop_increasing hg).1
  have hlen : G.data.length = F.data.length := by
    have := congrArg List.length g3
    simpa using this
  have hml : G.data.length = G.meta.length := by
    have := congrArg List.length g1.labels
    simpa using this
  have hrow : ∀ i, i < F.data.length → ∃ (new : Nat × List (Fl K)) (ws : List K), G.data[i]? = some new ∧ new.2 = ws.map .num ∧
      G.HasMeta i "parameter_type" (.str (typeText p)) ∧ (p = .average ∨ p = .point) := by
    intro i hi'
    have hd : F.data[i]? = some F.data[i] := List.getElem?_eq_getElem hi'
    obtain ⟨new, e1, e2⟩ := g5 i _ hd
    obtain ⟨w, t1, t2⟩ := hty i hi'
    rcases e2 with ⟨w', q, u1, u2, u3, u4⟩ | ⟨v, u1, u2, -⟩
    · have e := TypeIs.unique hF t1 u1
      cases e
      have e := (kindWord_iff.1 t2).symm.trans (kindWord_iff.1 u2)
      cases e
      obtain ⟨vs, hvs⟩ := hnum _ (List.getElem_mem hi')
      rw [hvs] at u4
      obtain ⟨ws, hws⟩ := u4.nums hs hinc
      exact ⟨new, ws, e1, hws, u3, t2.kind⟩
    · have e := TypeIs.unique hF t1 u1
      subst e
      simp [PyVal.isNull] at u2
  have hpos : 0 < F.data.length := List.length_pos_iff.2 hne
  obtain ⟨_, _, -, -, hm0, hp⟩ := hrow 0 hpos
  have hpc : "parameter_type" ∈ G.cols := by
    obtain ⟨j, _, h1, -, -⟩ := hm0
    exact List.mem_of_getElem? h1
  have hreq : ∀ c ∈ requiredCols, c ∈ G.cols := by
    intro c hc
    obtain ⟨rows, ks, new, -, -, -, rfl⟩ := interpolate_parts hi
    exact (withType_cols hr).2 (.inl (hr c hc))
  have hrange : ∃ c d, l.head? = some c ∧ l.getLast? = some d := by
    rw [g2] at h3
    cases l with
    | nil => simp at h3
    | cons x xs => exact ⟨x, _, rfl, List.getLast?_eq_some_getLast (by simp)⟩
  obtain ⟨c, d, hc, hd⟩ := hrange
  have hagain := generateRange_again hv hn (ends_le hs ha hb) hg hc hd
  have hself : G.interpolate reg views G.times ext' = .ok G :=
    C56_own ext' g1 hreq h3 (by rw [g2]; exact hinc) hp hpc
      (fun i hi' => by
        obtain ⟨_, _, -, -, hm, -⟩ := hrow i (by omega)
        exact hm)
      (fun d hd => by
        obtain ⟨i, hi'⟩ := List.getElem?_of_mem hd
        have := (List.getElem?_eq_some_iff.1 hi').1
        obtain ⟨new, ws, e1, e2, -, -⟩ := hrow i (by omega)
        rw [hi'] at e1
        cases e1
        exact ⟨ws, e2⟩)
  unfold DFrame.resample
  rw [g2, hc, hd]
  simp only [hagain]
  rw [← g2]
  exact hself

/-- C63: the calls that succeed, for times well inside the years 1 to 9999. -/
theorem C63_works {reg : Registry K} {views : Bool} {F : DFrame K} {r : Rule} {n : Int} {ext : Extrap} (hF : F.Ok)
    (hr : ∀ c ∈ requiredCols, c ∈ F.cols) (hv : r.Valid) (ht : ∀ s, r ≠ .tick s) (hn : 1 ≤ n) {a b : Int}
    (ha : F.times.head? = some a) (hb : F.times.getLast? = some b) (hab : a ≤ b)
    (h1 : yearToSeconds 1 + 500 * 86400 ≤ a) (h2 : b + (n + 2) * (500 * 86400) ≤ yearToSeconds 10000)
    (hp : ∀ l, generateRange r n a b = (l, none) → ∀ i old, F.data[i]? = some old → ∃ w p new,
      TypeIs reg views F i (.str w) ∧ KindWord w p ∧ Placed ext F.times l old.2 new p)
    (ho : ∀ i j a b, TypeIs reg views F i (.str a) → TypeIs reg views F j (.str b) → AnyCase a "average" → ¬ a < b) :
    ∃ G, F.resample reg views r n ext = .ok G := by
  obtain ⟨l, hl⟩ := C55_works hv ht hn hab h1 h2
  obtain ⟨G, hG⟩ := C56_works hF hr (hp l hl) ho
  refine ⟨G, ?_⟩
  unfold DFrame.resample
  rw [ha, hb]
  simp only [hl]
  exact hG

/-- The result of resampling a frame with both kinds, where it is accepted, cannot be resampled again. -/
theorem C63_mixed {reg : Registry K} {views : Bool} {F G : DFrame K} {r : Rule} {n : Int} {ext : Extrap}
    (hF : F.Ok) (hr : ∀ c ∈ requiredCols, c ∈ F.cols) {i j : Nat} (hi : TypeIs reg views F i (.str "average"))
    (hj : TypeIs reg views F j (.str "point")) : F.resample reg views r n ext ≠ .ok G := by
  intro h
  obtain ⟨_, _, l, -, -, -, h⟩ := resample_parts h
  exact C56_mixed hF hr hi hj h

/-! ## Examples -/

/-- Point timeseries at three days. -/
def yearsF : DFrame ℚ :=
  { typedF [.none, .str "point"] with times := [dateTime 2000 1 1, dateTime 2000 7 1, dateTime 2001 7 1] }

theorem yearsF_ok : yearsF.Ok := ⟨by decide +kernel, by decide +kernel, by decide +kernel, by decide +kernel, by decide +kernel⟩

/-- Years: from 2000 to 2002, with the last value kept after the end. -/
example : (match yearsF.resample (fun _ => none) true (.months .year 1 false) 1 .constant with
    | .ok G => some (G.times, G.data)
    | .error _ => none) =
    some ([dateTime 2000 1 1, dateTime 2001 1 1, dateTime 2002 1 1],
      [(0, [.num 1, .num (2 + 2 * (184 / 365)), .num 4]), (1, [.num 1, .num (2 + 2 * (184 / 365)), .num 4])]) := by
  decide +kernel

example {G : DFrame ℚ} (h : yearsF.resample (fun _ => none) true (.months .year 1 false) 1 .constant = .ok G)
    (h3 : 3 ≤ G.times.length) : G.resample (fun _ => none) true (.months .year 1 false) 1 .linear = .ok G := by
  refine C63_again (p := .point) .linear yearsF_ok (by decide) ⟨by decide, by decide⟩ (le_refl _) (by decide +kernel) ?_ (by decide +kernel) ?_ h h3
  · intro i hi
    have : i < 2 := hi
    match i, this with
    | 0, _ =>
      refine ⟨_, .guessed rfl (.inr ⟨5, _, rfl, rfl, rfl⟩) ⟨3, _, rfl, rfl, rfl⟩ ⟨4, _, rfl, rfl, rfl⟩, ?_⟩
      exact kindWord_iff.2 (by decide +kernel)
    | 1, _ => exact ⟨_, .given ⟨5, _, rfl, rfl, rfl⟩ (by simp), kindWord_iff.2 (by decide +kernel)⟩
  · intro d hd
    have : d.2 = [1, 2, 4].map .num := by
      simp only [yearsF, typedF, List.mem_map] at hd
      obtain ⟨_, -, rfl⟩ := hd
      rfl
    exact ⟨_, this⟩

end Openscm
