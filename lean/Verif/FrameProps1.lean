import Verif.FrameFilter
import Mathlib.Algebra.Field.Rat

/-!
# C46 and C47: filtering frames
-/

set_option linter.unusedSectionVars false

namespace Openscm

variable {K : Type} [Field K] [DecidableEq K]

/-! ## Cells of restricted frames -/

def cellsOf (times : List Int) (row : List (PyVal K)) (vals : List (Fl K)) : List (List (PyVal K) × Int × K) :=
  (times.zip vals).filterMap fun tv =>
    match tv.2 with
    | .num x => some (row, tv.1, x)
    | .nan => none

theorem cells_frameOf (times : List Int) (cols : List String) (R : List (SRow K)) :
    (frameOf times cols R).cells = R.flatMap fun rd => cellsOf times rd.1.2 rd.2.2 := by
  unfold DFrame.cells frameOf
  simp only [zip_map_fst_snd]
  rfl

theorem cellsOf_mask (P : Int → Bool) (times : List Int) (row : List (PyVal K)) (vals : List (Fl K)) :
    cellsOf times row (maskVals P times vals) = (cellsOf times row vals).filter fun c => P c.2.1 := by
  unfold cellsOf maskVals
  induction times generalizing vals with
  | nil => rfl
  | cons t l ih =>
    cases vals with
    | nil => rfl
    | cons v r =>
      simp only [List.zipWith_cons_cons, List.zip_cons_cons, List.filterMap_cons]
      rw [ih]
      cases v <;> cases hp : P t <;> simp [hp]

theorem cellsOf_pick {bs : List Bool} (times : List Int) (row : List (PyVal K)) {vals : List (Fl K)}
    (h : List.Forall₂ (fun c b => c = true → b = true) (vals.map Fl.isNum) bs) :
    cellsOf (pick bs times) row (pick bs vals) = cellsOf times row vals := by
  unfold cellsOf
  induction vals generalizing bs times with
  | nil => cases bs <;> simp [pick]
  | cons v r ih =>
    cases h with
    | @cons _ b _ bs h1 h2 =>
      cases times with
      | nil => simp [pick]
      | cons t l =>
        have := ih l h2
        cases b with
        | true => simp only [pick, if_true, List.zip_cons_cons, List.filterMap_cons, this]
        | false =>
          cases v with
          | nan => simp [pick, this]
          | num x => simp [Fl.isNum] at h1

theorem cellsOf_nil {times : List Int} {row : List (PyVal K)} {vals : List (Fl K)} (h : vals.any Fl.isNum = false) :
    cellsOf times row vals = [] := by
  unfold cellsOf
  rw [List.filterMap_eq_nil_iff]
  rintro ⟨t, v⟩ hv
  have := List.any_eq_false.1 h v (List.of_mem_zip hv).2
  cases v with
  | nan => rfl
  | num x => simp [Fl.isNum] at this

theorem flatMap_filter_nil {α β : Type} (p : α → Bool) (f : α → List β) (l : List α)
    (h : ∀ a ∈ l, p a = false → f a = []) : (l.filter p).flatMap f = l.flatMap f := by
  induction l with
  | nil => rfl
  | cons a l ih =>
    have := ih fun b hb => h b (by simp [hb])
    rw [List.filter_cons]
    cases hp : p a with
    | true => simp [this]
    | false => simp [this, h a (by simp) hp]

theorem cells_dropRows {times : List Int} {cols : List String} {R : List (SRow K)}
    (hR : ∀ rd ∈ R, rd.2.2.length = times.length) :
    (dropRows times cols R).cells = R.flatMap fun rd => cellsOf times rd.1.2 rd.2.2 := by
  unfold dropRows
  simp only [cells_frameOf, List.flatMap_map]
  have hcov : ∀ rd ∈ R, cellsOf (pick (presentTimes times (R.map (·.2))) times) rd.1.2
      (pick (presentTimes times (R.map (·.2))) rd.2.2) = cellsOf times rd.1.2 rd.2.2 := by
    intro rd hrd
    refine cellsOf_pick _ _ (presentTimes_covers ?_ (List.mem_map_of_mem hrd))
    intro d hd
    obtain ⟨x, hx, rfl⟩ := List.mem_map.1 hd
    exact hR x hx
  rw [← flatMap_filter_nil (fun rd => rd.2.2.any Fl.isNum) _ R fun rd _ hp => cellsOf_nil hp]
  rw [List.flatMap_def, List.flatMap_def]
  exact congrArg _ (List.map_congr_left fun rd hrd => hcov rd (List.mem_filter.1 hrd).1)

theorem DFrame.Ok.cells_restrict {F : DFrame K} (hF : F.Ok) (P : List (PyVal K) → Int → Bool) :
    (F.restrict P).cells = F.cells.filter fun c => P c.1 c.2.1 := by
  obtain ⟨-, -, -, h4, -⟩ := hF.rows_ok
  unfold DFrame.restrict
  rw [cells_dropRows]
  · conv_rhs => rw [hF.frameOf_eq, cells_frameOf]
    unfold maskRows
    rw [List.flatMap_map, List.filter_flatMap]
    rw [List.flatMap_def, List.flatMap_def]
    refine congrArg _ (List.map_congr_left fun rd _ => ?_)
    simp only [cellsOf_mask]
    refine List.filter_congr fun c hc => ?_
    unfold cellsOf at hc
    obtain ⟨tv, -, htv⟩ := List.mem_filterMap.1 hc
    cases hv : tv.2 with
    | nan => rw [hv] at htv; cases htv
    | num x => rw [hv] at htv; cases htv; rfl
  · intro rd hrd
    obtain ⟨x, hx, rfl⟩ := List.mem_map.1 hrd
    exact maskVals_length (h4 x hx)

/-- Every time and every timeseries of a restricted frame has a value. -/
theorem presentTimes_true {times : List Int} {data : List (Nat × List (Fl K))} {n : Nat}
    (h : ∀ d ∈ data, d.2.length = times.length) (hn : (presentTimes times data)[n]? = some true) :
    ∃ d ∈ data, ∃ x, d.2[n]? = some (.num x) := by
  induction data with
  | nil =>
    simp only [presentTimes, List.foldr_nil, List.getElem?_map] at hn
    cases h1 : times[n]? <;> rw [h1] at hn <;> simp at hn
  | cons d l ih =>
    rw [presentTimes_cons, List.getElem?_zipWith] at hn
    cases h1 : (d.2.map Fl.isNum)[n]? with
    | none => rw [h1] at hn; simp at hn
    | some b =>
      cases h2 : (presentTimes times l)[n]? with
      | none => rw [h1, h2] at hn; simp at hn
      | some c =>
        rw [h1, h2] at hn
        simp only [Option.some.injEq, Bool.or_eq_true] at hn
        rcases hn with rfl | rfl
        · rw [List.getElem?_map] at h1
          cases h3 : d.2[n]? with
          | none => rw [h3] at h1; simp at h1
          | some v =>
            rw [h3] at h1
            cases v with
            | nan => simp [Fl.isNum] at h1
            | num x => exact ⟨d, by simp, x, h3⟩
        · obtain ⟨e, he, x, hx⟩ := ih (fun d hd => h d (by simp [hd])) h2
          exact ⟨e, by simp [he], x, hx⟩

theorem pick_true {α : Type} {bs : List Bool} {l : List α} {a : α} (h : a ∈ pick bs l) :
    ∃ (n : Nat), bs[n]? = some true ∧ l[n]? = some a := by
  induction bs generalizing l with
  | nil => simp [pick] at h
  | cons b bs ih =>
    cases l with
    | nil => simp [pick] at h
    | cons x l =>
      cases b with
      | true =>
        simp only [pick, if_true, List.mem_cons] at h
        rcases h with rfl | h
        · exact ⟨0, rfl, rfl⟩
        · obtain ⟨n, h1, h2⟩ := ih h; exact ⟨n + 1, by simpa using h1, by simpa using h2⟩
      | false =>
        simp only [pick, Bool.false_eq_true, if_false] at h
        obtain ⟨n, h1, h2⟩ := ih h; exact ⟨n + 1, by simpa using h1, by simpa using h2⟩

theorem mem_cellsOf {times : List Int} {row row' : List (PyVal K)} {vals : List (Fl K)} {t : Int} {x : K} :
    (row', t, x) ∈ cellsOf times row vals ↔ row' = row ∧ ∃ (n : Nat), times[n]? = some t ∧ vals[n]? = some (.num x) := by
  unfold cellsOf
  rw [List.mem_filterMap]
  constructor
  · rintro ⟨⟨a, v⟩, hm, he⟩
    cases v with
    | nan => cases he
    | num y =>
      cases he
      obtain ⟨n, hn⟩ := List.mem_iff_getElem?.1 hm
      rw [List.getElem?_zip_eq_some] at hn
      exact ⟨rfl, n, hn⟩
  · rintro ⟨rfl, n, h1, h2⟩
    exact ⟨(t, .num x), List.mem_iff_getElem?.2 ⟨n, List.getElem?_zip_eq_some.2 ⟨h1, h2⟩⟩, rfl⟩

theorem dropRows_dense {times : List Int} {cols : List String} {R : List (SRow K)}
    (hR : ∀ rd ∈ R, rd.2.2.length = times.length) :
    (∀ t ∈ (dropRows times cols R).times, ∃ row x, (row, t, x) ∈ (dropRows times cols R).cells) ∧
    (∀ r ∈ (dropRows times cols R).meta, ∃ t x, (r.2, t, x) ∈ (dropRows times cols R).cells) := by
  have hR' : ∀ d ∈ R.map (·.2), d.2.length = times.length := by
    intro d hd
    obtain ⟨x, hx, rfl⟩ := List.mem_map.1 hd
    exact hR x hx
  refine ⟨fun t ht => ?_, fun r hr => ?_⟩
  · obtain ⟨n, h1, h2⟩ := pick_true ht
    obtain ⟨d, hd, x, hx⟩ := presentTimes_true hR' h1
    obtain ⟨rd, hrd, rfl⟩ := List.mem_map.1 hd
    refine ⟨rd.1.2, x, ?_⟩
    rw [cells_dropRows hR, List.mem_flatMap]
    exact ⟨rd, hrd, mem_cellsOf.2 ⟨rfl, n, h2, hx⟩⟩
  · unfold dropRows frameOf at hr
    simp only [List.map_map] at hr
    obtain ⟨rd, hrd, rfl⟩ := List.mem_map.1 hr
    obtain ⟨h1, h2⟩ := List.mem_filter.1 hrd
    obtain ⟨v, hv, hn⟩ := List.any_eq_true.1 h2
    cases v with
    | nan => simp [Fl.isNum] at hn
    | num x =>
      obtain ⟨n, hn⟩ := List.mem_iff_getElem?.1 hv
      have hlt : n < times.length := by
        rw [← hR rd h1]; exact (List.getElem?_eq_some_iff.1 hn).1
      refine ⟨times[n], x, ?_⟩
      rw [cells_dropRows hR, List.mem_flatMap]
      exact ⟨rd, h1, mem_cellsOf.2 ⟨rfl, n, by simp [hlt], hn⟩⟩

theorem DFrame.Ok.restrict_dense {F : DFrame K} (hF : F.Ok) (P : List (PyVal K) → Int → Bool) :
    (∀ t ∈ (F.restrict P).times, ∃ row x, (row, t, x) ∈ (F.restrict P).cells) ∧
    (∀ r ∈ (F.restrict P).meta, ∃ t x, (r.2, t, x) ∈ (F.restrict P).cells) := by
  obtain ⟨-, -, -, h4, -⟩ := hF.rows_ok
  refine dropRows_dense ?_
  intro rd hrd
  obtain ⟨x, hx, rfl⟩ := List.mem_map.1 hrd
  exact maskVals_length (h4 x hx)

theorem cell_row {F : DFrame K} (hF : F.Ok) {c : List (PyVal K) × Int × K} (hc : c ∈ F.cells) :
    c.1.length = F.cols.length ∧ c.2.1 ∈ F.times ∧ ∃ r ∈ F.meta, r.2 = c.1 := by
  obtain ⟨row, t, x⟩ := c
  rw [hF.frameOf_eq, cells_frameOf, List.mem_flatMap] at hc
  obtain ⟨rd, hrd, hm⟩ := hc
  obtain ⟨rfl, n, h1, h2⟩ := mem_cellsOf.1 hm
  refine ⟨hF.rows_ok.2.2.2.2 rd hrd, List.mem_of_getElem? h1, rd.1, ?_, rfl⟩
  rw [hF.meta_eq]
  exact List.mem_map_of_mem hrd

/-! ## C46 -/

open Classical in
/-- C46: a filter that works leaves exactly the cells that match all filters (`keep`) or the other cells (not
`keep`), with their values and in their order. Every time and every timeseries that is left has a value. -/
theorem C46_cells {F : DFrame K} (hF : F.Ok) {o : FilterOpts K} {keep : Bool} {filters : List (String × PyArg K)}
    {G : DFrame K} (h : F.filter o keep filters = .ok G) :
    G.Ok ∧ G.cols = F.cols ∧
    G.cells = F.cells.filter (fun c => decide (Matches o filters F.cols c.1 c.2.1 ↔ keep = true)) ∧
    (∀ t ∈ G.times, ∃ row x, (row, t, x) ∈ G.cells) ∧ (∀ r ∈ G.meta, ∃ t x, (r.2, t, x) ∈ G.cells) := by
  obtain ⟨P, h1, h2⟩ := filter_restrict hF h
  have hG : G = F.restrict fun r t => P r t == keep := by
    have := h2 F hF (Within.refl F) keep
    rw [h] at this
    exact Except.ok.inj this
  subst hG
  refine ⟨hF.restrict _, rfl, ?_, hF.restrict_dense _⟩
  rw [hF.cells_restrict]
  refine List.filter_congr fun c hc => ?_
  rw [Bool.eq_iff_iff, beq_iff_eq, decide_eq_true_iff, ← h1 c.1 c.2.1 (cell_row hF hc).1]
  cases P c.1 c.2.1 <;> cases keep <;> simp

/-- C46: `keep` and not `keep` work for the same frames and filters and partition the cells. -/
theorem C46_partition {F : DFrame K} (hF : F.Ok) {o : FilterOpts K} {keep : Bool} {filters : List (String × PyArg K)}
    {G : DFrame K} (h : F.filter o keep filters = .ok G) :
    ∃ G', F.filter o (!keep) filters = .ok G' ∧ (G.cells ++ G'.cells).Perm F.cells := by
  obtain ⟨P, h1, h2⟩ := filter_restrict hF h
  refine ⟨_, h2 F hF (Within.refl F) (!keep), ?_⟩
  have hG : G = F.restrict fun r t => P r t == keep := by
    have := h2 F hF (Within.refl F) keep
    rw [h] at this
    exact Except.ok.inj this
  rw [hG, hF.cells_restrict, hF.cells_restrict]
  have : (fun c : List (PyVal K) × Int × K => P c.1 c.2.1 == !keep) = fun c => !(P c.1 c.2.1 == keep) := by
    funext c; cases P c.1 c.2.1 <;> cases keep <;> rfl
  rw [this]
  exact List.filter_append_perm _ _

/-- Filters that certainly work: patterns without the characters that the code forgets to escape for columns,
numbers for years, months, days and hours, times. -/
inductive Plain (cols : List String) : String × PyArg K → Prop
  | column {c : String} {pats : List String} : c ∈ cols → pats ≠ [] →
      (∀ p ∈ pats, ∀ x ∈ p.toList, unescaped x = false) → Plain cols (c, .list (pats.map .str))
  | number {c : String} {ns : List Int} : c ∉ cols → (c = "year" ∨ c = "month" ∨ c = "day" ∨ c = "hour") →
      ns ≠ [] → Plain cols (c, .list (ns.map .int))
  | time {ts : List Int} : "time" ∉ cols → Plain cols ("time", .list (ts.map .time))

theorem timeParts_ok {e : Err} {part : Int → Int} {times : List Int} (h1 : times ≠ [])
    (h2 : ∀ t ∈ times, datetimeRange t = true) : timeParts e part times = .ok (times.map part) := by
  unfold timeParts
  rw [if_neg h1, if_pos (List.all_eq_true.2 h2)]

theorem timeMatchList_ints (tbl : NameTable) (d ns : List Int) (h : ns ≠ []) :
    (timeMatchList (K := K) tbl d (ns.map .int)).1 = .ok (isIn (d.map (PyVal.int (K := K))) (ns.map .int)) := by
  cases ns with
  | nil => exact absurd rfl h
  | cons a r => rfl

theorem plain_mask {F : DFrame K} {o : FilterOpts K} (ho : o.regexp = false)
    (hF : F.Ok) (ht : F.times ≠ []) (hr : ∀ t ∈ F.times, datetimeRange t = true)
    (hs : ∀ r ∈ F.meta, ∀ v ∈ r.2, ∃ s, v = .str s) {filters : List (String × PyArg K)}
    (hl : ∀ f ∈ filters, f.1 ≠ "level") {f : String × PyArg K} (hp : Plain F.cols f) :
    (∃ m, F.oneMask o filters f = .ok (some (.inl m))) ∨ (∃ m, F.oneMask o filters f = .ok (some (.inr m))) := by
  have hlev : levelOf filters = none := by
    unfold levelOf
    rw [List.find?_eq_none.2 fun f hf => by simpa using hl f hf]
    rfl
  have hmeta : ∀ (c : String) (pats : List String), c ∈ F.cols → pats ≠ [] →
      (∀ p ∈ pats, ∀ x ∈ p.toList, unescaped x = false) →
      ∃ m, F.metaMask o none c (.list (pats.map .str)) = .ok m := by
    intro c pats hc hne hx
    unfold DFrame.metaMask DFrame.column
    cases hi : F.cols.findIdx? (· = c) with
    | none =>
      rw [List.findIdx?_eq_none_iff] at hi
      exact absurd (hi c hc) (by simp)
    | some i =>
      simp only
      have : ∃ col : List String, (F.meta.map fun r => r.2.getD i .none) = col.map .str := by
        refine ⟨F.meta.map fun r => match r.2.getD i .none with | .str s => s | _ => "", ?_⟩
        rw [List.map_map]
        refine List.map_congr_left fun r hr' => ?_
        have hlt : i < r.2.length := by
          rw [hF.meta_len r hr']
          exact (List.getElem?_eq_some_iff.1 (findIdx_col hi)).1
        obtain ⟨s, hs'⟩ := hs r hr' _ (List.getElem_mem hlt)
        simp [hlt, hs']
      obtain ⟨col, hcol⟩ := this
      rw [hcol, ho]
      obtain ⟨m, hm, -⟩ := C48_exact (K := K) o.sep o.hasNan pats col hne hx
      exact ⟨m, hm⟩
  cases hp with
  | @column c pats h1 h2 h3 =>
    obtain ⟨m, hm⟩ := hmeta c pats h1 h2 h3
    left
    refine ⟨m, ?_⟩
    unfold DFrame.oneMask
    by_cases hv : c = "variable"
    · subst hv; simp [hlev, hm, Except.map]
    · simp [hv, h1, hm, Except.map]
  | @number c ns h1 h2 h3 =>
    right
    have hall : (ns.map PyVal.int).all (fun v : PyVal K => match v with | .int _ => true | _ => false) = true := by
      simp [List.all_map, Function.comp_def]
    rcases h2 with rfl | rfl | rfl | rfl
    · refine ⟨isIn ((F.times.map timeYear).map (PyVal.int (K := K))) (ns.map .int), ?_⟩
      simp [DFrame.oneMask, h1, partMask, tpYears, timeParts_ok ht hr, yearsMatch, Except.map]
    · refine ⟨isIn ((F.times.map timeMonth).map (PyVal.int (K := K))) (ns.map .int), ?_⟩
      simp only [DFrame.oneMask, h1, partMask, tpMonths, timeParts_ok ht hr, monthMatch, timeMatch]
      simp [timeMatchList_ints _ _ _ h3, Except.map]
    · refine ⟨isIn ((F.times.map timeDayOfMonth).map (PyVal.int (K := K))) (ns.map .int), ?_⟩
      have : ¬ isText (PyArg.list (ns.map .int) : PyArg K) := by
        cases ns with
        | nil => exact absurd rfl h3
        | cons a r => exact fun h => h
      rcases frameDayMatch_eq F.times (PyArg.list (ns.map .int) : PyArg K) with ⟨he, -⟩ | ⟨he, -⟩ | ⟨-, he⟩
      · simp [h3] at he
      · exact absurd he this
      · simp only [DFrame.oneMask, h1, he, partMask, tpDays, timeParts_ok ht hr, dayMatch, timeMatch]
        simp [timeMatchList_ints _ _ _ h3, Except.map]
    · refine ⟨isIn ((F.times.map timeHour).map (PyVal.int (K := K))) (ns.map .int), ?_⟩
      simp [DFrame.oneMask, h1, partMask, tpHours, timeParts_ok ht hr, hourMatch, Except.map]
  | @time ts h1 =>
    right
    refine ⟨isIn (F.times.map (PyVal.time (K := K))) (ts.map .time), ?_⟩
    simp [DFrame.oneMask, h1, datetimeMatch, Except.map]

/-- C46: filters of these forms work for every frame with data whose metadata are strings and whose times Python
can represent. -/
theorem C46_works {F : DFrame K} {o : FilterOpts K} (ho : o.regexp = false) (hF : F.Ok) (ht : F.times ≠ [])
    (hm : F.meta ≠ []) (hy : ∀ t ∈ F.times, dateTime 1 1 1 ≤ t ∧ t < dateTime 10000 1 1)
    (hs : ∀ r ∈ F.meta, ∀ v ∈ r.2, ∃ s, v = .str s) {filters : List (String × PyArg K)}
    (hl : ∀ f ∈ filters, f.1 ≠ "level") (hp : ∀ f ∈ filters, Plain F.cols f) (keep : Bool) :
    ∃ G, F.filter o keep filters = .ok G := by
  have hr : ∀ t ∈ F.times, datetimeRange t = true := by
    intro t h
    have e1 : yearToSeconds 1 = dateTime 1 1 1 := by decide
    have e2 : yearToSeconds 10000 = dateTime 10000 1 1 := by decide
    simp only [datetimeRange, e1, e2, Bool.and_eq_true, decide_eq_true_eq]
    exact hy t h
  have key : ∀ fs : List (String × PyArg K), (∀ f ∈ fs, Plain F.cols f) → ∀ ts me : List Bool, ts ≠ [] → me ≠ [] →
      ts.length = F.times.length → me.length = F.meta.length →
      ∃ r, F.applyLoop o filters fs ts me = .ok r := by
    intro fs
    induction fs with
    | nil => intro _ ts me _ _ _ _; exact ⟨_, rfl⟩
    | cons f fs ih =>
      intro hfs ts me h1 h2 h3 h4
      have hfs' : ∀ f ∈ fs, Plain F.cols f := fun g hg => hfs g (by simp [hg])
      rcases plain_mask ho hF ht hr hs hl (hfs f (by simp)) with ⟨m, hm'⟩ | ⟨m, hm'⟩
      · obtain ⟨s, -, hs2⟩ := oneMask_test hF.cols_nodup hm'
        have hs3 := hs2 F (Within.refl F)
        rw [hm'] at hs3
        have hlen : m.length = F.meta.length := by
          rcases s with _ | p | q <;> simp [MaskTest.mask] at hs3
          rw [hs3]; simp
        simp only [DFrame.applyLoop, hm', andMask, if_neg h2]
        refine ih hfs' ts _ h1 ?_ h3 (by simp [h4, hlen])
        intro he
        have := congrArg List.length he
        simp [h4, hlen, hm] at this
      · obtain ⟨s, -, hs2⟩ := oneMask_test hF.cols_nodup hm'
        have hs3 := hs2 F (Within.refl F)
        rw [hm'] at hs3
        have hlen : m.length = F.times.length := by
          rcases s with _ | p | q <;> simp [MaskTest.mask] at hs3
          rw [hs3]; simp
        simp only [DFrame.applyLoop, hm', andMask, if_neg h1]
        refine ih hfs' _ me ?_ h2 (by simp [h3, hlen]) h4
        intro he
        have := congrArg List.length he
        simp [h3, hlen, ht] at this
  obtain ⟨r, hr'⟩ := key filters hp (F.times.map fun _ => true) (F.meta.map fun _ => true) (by simpa using ht)
    (by simpa using hm) (by simp) (by simp)
  obtain ⟨p, q, h1, h2⟩ := applyLoop_test hF.cols_nodup filters (by simp) (by simp) hr'
  refine ⟨_, filter_of_masks hF keep (p := p) (q := q) ?_⟩
  unfold DFrame.applyFilters
  rw [h2 F (Within.refl F) (fun _ => true) (fun _ => true)]
  simp

/-! ## C47 -/

theorem DFrame.Ok.within_restrict {F : DFrame K} (hF : F.Ok) (P : List (PyVal K) → Int → Bool)
    (h : (F.restrict P).times ≠ []) : Within (F.restrict P) F := by
  obtain ⟨hd1, hd2⟩ := hF.restrict_dense P
  have hsub : ∀ c ∈ (F.restrict P).cells, c ∈ F.cells := by
    intro c hc
    rw [hF.cells_restrict] at hc
    exact (List.mem_filter.1 hc).1
  refine ⟨rfl, fun r hr => ?_, fun t ht => ?_, fun he => ?_, fun he => absurd he h⟩
  · obtain ⟨t, x, hc⟩ := hd2 r hr
    obtain ⟨-, -, s, hs, e⟩ := cell_row hF (hsub _ hc)
    exact ⟨s, hs, e.symm⟩
  · obtain ⟨row, x, hc⟩ := hd1 t ht
    exact (cell_row hF (hsub _ hc)).2.1
  · exfalso
    obtain ⟨t, ht⟩ := List.exists_mem_of_ne_nil _ h
    obtain ⟨row, x, hc⟩ := hd1 t ht
    obtain ⟨-, -, r, hr, -⟩ := cell_row (hF.restrict P) hc
    rw [he] at hr
    simp at hr

/-- C47, idempotence: filtering the result, if it is not empty, with the same filter changes nothing. -/
theorem C47_idempotent_partial {F : DFrame K} (hF : F.Ok) {o : FilterOpts K} {keep : Bool}
    {filters : List (String × PyArg K)} {G : DFrame K} (h : F.filter o keep filters = .ok G) (hG : G.times ≠ []) :
    G.filter o keep filters = .ok G := by
  obtain ⟨P, -, h2⟩ := filter_restrict hF h
  have e : G = F.restrict fun r t => P r t == keep := by
    have := h2 F hF (Within.refl F) keep
    rw [h] at this
    exact Except.ok.inj this
  subst e
  rw [h2 _ (hF.restrict _) (hF.within_restrict _ hG) keep, hF.restrict_restrict]
  simp only [Bool.and_self]

/-- C47, commutation: two filters, each with its own `keep`, give the same in both orders. -/
theorem C47_commute_partial {F : DFrame K} (hF : F.Ok) {o o' : FilterOpts K} {k k' : Bool}
    {fs fs' : List (String × PyArg K)} {G G' : DFrame K} (h : F.filter o k fs = .ok G) (h' : F.filter o' k' fs' = .ok G')
    (hG : G.times ≠ []) (hG' : G'.times ≠ []) :
    ∃ H, G.filter o' k' fs' = .ok H ∧ G'.filter o k fs = .ok H := by
  obtain ⟨P, -, h2⟩ := filter_restrict hF h
  obtain ⟨P', -, h2'⟩ := filter_restrict hF h'
  have e : G = F.restrict fun r t => P r t == k := by
    have := h2 F hF (Within.refl F) k
    rw [h] at this
    exact Except.ok.inj this
  have e' : G' = F.restrict fun r t => P' r t == k' := by
    have := h2' F hF (Within.refl F) k'
    rw [h'] at this
    exact Except.ok.inj this
  subst e e'
  refine ⟨_, h2' _ (hF.restrict _) (hF.within_restrict _ hG) k', ?_⟩
  rw [h2 _ (hF.restrict _) (hF.within_restrict _ hG') k, hF.restrict_restrict, hF.restrict_restrict]
  simp only [Bool.and_comm]

/-- Neither of the filters has the level for the variable of the other. -/
def Independent (fs fs' : List (String × PyArg K)) : Prop :=
  ((∃ f ∈ fs, f.1 = "level") → ∀ g ∈ fs', g.1 ≠ "variable") ∧
  ((∃ f ∈ fs', f.1 = "level") → ∀ g ∈ fs, g.1 ≠ "variable")

theorem oneMask_congr (F : DFrame K) (o : FilterOpts K) {fs fs' : List (String × PyArg K)} {f : String × PyArg K}
    (h1 : f.1 = "variable" → levelOf fs = levelOf fs')
    (h2 : f.1 = "level" → (fs.any fun g => g.1 = "variable") = fs'.any fun g => g.1 = "variable") :
    F.oneMask o fs f = F.oneMask o fs' f := by
  unfold DFrame.oneMask
  by_cases hv : f.1 = "variable"
  · rw [if_pos hv, if_pos hv, h1 hv]
  · rw [if_neg hv, if_neg hv]
    by_cases hl : f.1 = "level"
    · rw [h2 hl]
    · simp only [hl, if_false]

theorem applyLoop_congr (F : DFrame K) (o : FilterOpts K) {fs fs' : List (String × PyArg K)}
    (l : List (String × PyArg K)) (h : ∀ f ∈ l, F.oneMask o fs f = F.oneMask o fs' f) (ts me : List Bool) :
    F.applyLoop o fs l ts me = F.applyLoop o fs' l ts me := by
  induction l generalizing ts me with
  | nil => rfl
  | cons f l ih =>
    have ih' := fun ts me => ih (fun g hg => h g (by simp [hg])) ts me
    unfold DFrame.applyLoop
    rw [h f (by simp)]
    simp only [ih']

theorem applyLoop_append (F : DFrame K) (o : FilterOpts K) (fs l l' : List (String × PyArg K)) (ts me : List Bool) :
    F.applyLoop o fs (l ++ l') ts me =
      match F.applyLoop o fs l ts me with
      | .error e => .error e
      | .ok (ts', me') => F.applyLoop o fs l' ts' me' := by
  induction l generalizing ts me with
  | nil => rfl
  | cons f l ih =>
    simp only [List.cons_append, DFrame.applyLoop]
    cases F.oneMask o fs f with
    | error e => rfl
    | ok x =>
      rcases x with _ | m | m
      · exact ih ts me
      · simp only
        cases andMask me m with
        | error e => rfl
        | ok me' => exact ih ts me'
      · simp only
        cases andMask ts m with
        | error e => rfl
        | ok ts' => exact ih ts' me

theorem levelOf_append (fs fs' : List (String × PyArg K)) :
    levelOf (fs ++ fs') = (levelOf fs).or (levelOf fs') := by
  unfold levelOf
  rw [List.find?_append]
  cases List.find? (fun f => decide (f.1 = "level")) fs <;> rfl

theorem levelOf_none {fs : List (String × PyArg K)} (h : ∀ f ∈ fs, f.1 ≠ "level") : levelOf fs = none := by
  unfold levelOf
  rw [List.find?_eq_none.2 fun f hf => by simpa using h f hf]
  rfl

theorem levelOf_some {fs : List (String × PyArg K)} (h : ∃ f ∈ fs, f.1 = "level") : ∃ a, levelOf fs = some a := by
  unfold levelOf
  cases hf : fs.find? (fun f => decide (f.1 = "level")) with
  | none =>
    rw [List.find?_eq_none] at hf
    obtain ⟨f, h1, h2⟩ := h
    exact absurd h2 (by simpa using hf f h1)
  | some a => exact ⟨a.2, rfl⟩

/-- C47, both at once: filtering by two sets of filters one after the other is filtering by all of them at once,
unless one has the level for the variable of the other. -/
theorem C47_both_partial {F : DFrame K} (hF : F.Ok) {o : FilterOpts K}
    {fs fs' : List (String × PyArg K)} (hi : Independent fs fs') {G G' : DFrame K}
    (h : F.filter o true fs = .ok G) (h' : F.filter o true fs' = .ok G') (hG : G.times ≠ []) :
    ∃ H, G.filter o true fs' = .ok H ∧ F.filter o true (fs ++ fs') = .ok H := by
  have step : ∀ {fs : List (String × PyArg K)} {G : DFrame K}, F.filter o true fs = .ok G →
      ∃ (p : List (PyVal K) → Bool) (q : Int → Bool), ∀ H, Within H F → ∀ (p0 : List (PyVal K) → Bool) (q0 : Int → Bool),
        H.applyLoop o fs fs (H.times.map q0) (H.meta.map fun r => p0 r.2) =
          .ok (H.times.map (fun t => q0 t && q t), H.meta.map fun r => p0 r.2 && p r.2) := by
    intro fs G h
    have : ∃ r, F.applyFilters o fs = .ok r := by
      unfold DFrame.filter at h
      cases hr : F.applyFilters o fs with
      | error e => rw [hr] at h; cases h
      | ok r => exact ⟨r, rfl⟩
    obtain ⟨r, hr⟩ := this
    obtain ⟨p, q, -, h2⟩ := applyLoop_test hF.cols_nodup fs (by simp) (by simp) hr
    exact ⟨p, q, h2⟩
  have fin : ∀ {fs : List (String × PyArg K)} {p : List (PyVal K) → Bool} {q : Int → Bool} {H : DFrame K}, H.Ok →
      (∀ (p0 : List (PyVal K) → Bool) (q0 : Int → Bool),
        H.applyLoop o fs fs (H.times.map q0) (H.meta.map fun r => p0 r.2) =
          .ok (H.times.map (fun t => q0 t && q t), H.meta.map fun r => p0 r.2 && p r.2)) →
      H.filter o true fs = .ok (H.restrict fun r t => (p r && q t) == true) := by
    intro fs p q H hH hh
    refine filter_of_masks hH true ?_
    unfold DFrame.applyFilters
    rw [hh (fun _ => true) (fun _ => true)]
    simp
  obtain ⟨p, q, h1⟩ := step h
  obtain ⟨p', q', h1'⟩ := step h'
  have e : G = F.restrict fun r t => (p r && q t) == true := by
    have := fin hF (h1 F (Within.refl F))
    rw [h] at this
    exact Except.ok.inj this
  subst e
  refine ⟨_, fin (hF.restrict _) (h1' _ (hF.within_restrict _ hG)), ?_⟩
  have hloop : ∀ (p0 : List (PyVal K) → Bool) (q0 : Int → Bool),
        F.applyLoop o (fs ++ fs') (fs ++ fs') (F.times.map q0) (F.meta.map fun r => p0 r.2) =
          .ok (F.times.map (fun t => q0 t && (q t && q' t)), F.meta.map fun r => p0 r.2 && (p r.2 && p' r.2)) := by
    intro p0 q0
    have c1 : ∀ f ∈ fs, F.oneMask o (fs ++ fs') f = F.oneMask o fs f := by
      intro f hf
      refine oneMask_congr F o (fun hv => ?_) (fun hl => ?_)
      · rw [levelOf_append, levelOf_none (fs := fs') (fun g hg hgl => hi.2 ⟨g, hg, hgl⟩ f hf hv)]
        simp
      · rw [List.any_append]
        have : (fs'.any fun g => decide (g.1 = "variable")) = false := by
          rw [List.any_eq_false]
          exact fun g hg => by simpa using hi.1 ⟨f, hf, hl⟩ g hg
        rw [this, Bool.or_false]
    have c2 : ∀ f ∈ fs', F.oneMask o (fs ++ fs') f = F.oneMask o fs' f := by
      intro f hf
      refine oneMask_congr F o (fun hv => ?_) (fun hl => ?_)
      · rw [levelOf_append, levelOf_none (fs := fs) (fun g hg hgl => hi.1 ⟨g, hg, hgl⟩ f hf hv)]
        simp
      · rw [List.any_append]
        have : (fs.any fun g => decide (g.1 = "variable")) = false := by
          rw [List.any_eq_false]
          exact fun g hg => by simpa using hi.2 ⟨f, hf, hl⟩ g hg
        rw [this, Bool.false_or]
    rw [applyLoop_append, applyLoop_congr F o fs c1, h1 F (Within.refl F) p0 q0]
    simp only
    rw [applyLoop_congr F o fs' c2, h1' F (Within.refl F) (fun r => p0 r && p r) (fun t => q0 t && q t)]
    simp only [Bool.and_assoc]
  rw [fin (p := fun r => p r && p' r) (q := fun t => q t && q' t) hF hloop, hF.restrict_restrict]
  congr 2
  funext r t
  cases p r <;> cases q t <;> cases p' r <;> cases q' t <;> rfl

/-! ### Cases -/

/-- Two variables, one with a hole, at two times. -/
def demoF : DFrame ℚ :=
  { times := [dateTime 2010 1 1, dateTime 2020 6 15]
    cols := ["region", "scenario", "variable"]
    data := [(0, [.num 1, .num 2]), (1, [.nan, .num 4]), (2, [.num 5, .num 6])]
    «meta» := [(0, [.str "World", .str "a", .str "Emissions|CO2"]), (1, [.str "World", .str "b", .str "Emissions|CH4"]),
      (2, [.str "World|Asia", .str "a", .str "Emissions|CO2|Land"])] }

def demoO : FilterOpts ℚ := { sep := "|", hasNan := true, regexp := false }

theorem demoF_ok : demoF.Ok where
  labels := by decide +kernel
  nodup := by decide +kernel
  cols_nodup := by decide +kernel
  data_len := by decide +kernel
  meta_len := by decide +kernel

def catF (x : Except Err (DFrame ℚ)) : List (Nat × List (Fl ℚ)) × List Int :=
  match x with
  | .ok G => (G.data, G.times)
  | .error _ => ([], [])

/-- C46 and C47 for a frame, one year and one scenario: what is left. -/
example : demoF.filter demoO true [("scenario", .list [.str "b"]), ("year", .val (.int 2020))] =
    .ok { demoF with times := [dateTime 2020 6 15], data := [(1, [.num 4])], «meta» := [(1, [.str "World", .str "b", .str "Emissions|CH4"])] } := by
  decide +kernel

/-- The rest: cells that do not match; the time of the hole is still there. -/
example : demoF.filter demoO false [("scenario", .list [.str "b"]), ("year", .val (.int 2020))] =
    .ok { demoF with data := [(0, [.num 1, .num 2]), (2, [.num 5, .num 6])], «meta» := [demoF.meta[0], demoF.meta[2]] } := by
  decide +kernel

/-- The filters of the example are plain (C46_works). -/
example : Plain (K := ℚ) demoF.cols ("scenario", .list (["b"].map .str)) ∧ Plain (K := ℚ) demoF.cols ("year", .list ([2020].map .int)) :=
  ⟨.column (by decide) (by decide) (by decide +kernel), .number (by decide) (.inl rfl) (by decide)⟩

/-- C47_both_partial: filters that are independent, and results that are not empty. -/
example : Independent (K := ℚ) [("variable", .val (.str "Emissions|*")), ("level", .val (.int 1))] [("scenario", .val (.str "a"))] ∧
    (catF (demoF.filter demoO true [("variable", .val (.str "Emissions|*")), ("level", .val (.int 1))])).2 ≠ [] ∧
    (catF (demoF.filter demoO true [("scenario", .val (.str "a"))])).2 ≠ [] := by
  refine ⟨⟨fun _ => by decide, ?_⟩, by decide +kernel, by decide +kernel⟩
  rintro ⟨f, hf, he⟩
  simp at hf
  subst hf
  exact absurd he (by decide)

/-- C47 does not hold for results that are empty: filtering them again raises. -/
theorem C47_empty : ∃ G, demoF.filter demoO true [("scenario", .val (.str "c"))] = .ok G ∧
    G.cells = [] ∧ G.filter demoO true [("scenario", .val (.str "c"))] = .error .typeError ∧
    G.filter demoO true [("year", .val (.int 2010))] = .error .valueError := by
  refine ⟨{ times := [], cols := demoF.cols, data := [], «meta» := [] }, ?_, ?_, ?_, ?_⟩ <;> decide +kernel

/-- C47 does not hold for a level given apart from its variable: it then counts from the root. -/
theorem C47_level : ∃ G H,
    demoF.filter demoO true [("variable", .val (.str "Emissions|*"))] = .ok G ∧
    G.filter demoO true [("level", .val (.int 1))] = .ok H ∧
    demoF.filter demoO true [("variable", .val (.str "Emissions|*")), ("level", .val (.int 1))] ≠ .ok H := by
  refine ⟨demoF, { demoF with data := [(0, [.num 1, .num 2]), (1, [.nan, .num 4])], «meta» := [demoF.meta[0], demoF.meta[1]] },
    ?_, ?_, ?_⟩ <;> decide +kernel

/-- C47 never holds for empty results: filtering a frame without times and timeseries raises unless there are no
filters. -/
theorem C47_empty_refused {F : DFrame K} (h1 : F.times = []) (h2 : F.meta = []) (o : FilterOpts K) (keep : Bool)
    {filters : List (String × PyArg K)} {G : DFrame K} (h : F.filter o keep filters = .ok G) : filters = [] := by
  have key : ∀ fs : List (String × PyArg K), ∀ ts me r, ts = [] → me = [] → F.applyLoop o filters fs ts me = .ok r →
      ∀ f ∈ fs, f.1 = "level" ∧ ∃ g ∈ filters, g.1 = "variable" := by
    intro fs
    induction fs with
    | nil => simp
    | cons f fs ih =>
      intro ts me r hts hme hr
      subst hts hme
      unfold DFrame.applyLoop at hr
      cases hone : F.oneMask o filters f with
      | error e => rw [hone] at hr; cases hr
      | ok x =>
        rw [hone] at hr
        rcases x with _ | m | m
        · rw [List.forall_mem_cons]
          refine ⟨?_, ih [] [] r rfl rfl hr⟩
          have nn : ∀ {α : Type} {g : α → List Bool ⊕ List Bool} {y : Except Err α}, y.map (fun m => some (g m)) ≠ .ok none := by
            intro α g y; cases y <;> simp [Except.map]
          unfold DFrame.oneMask at hone
          split at hone
          · exact absurd hone nn
          split at hone
          · exact absurd hone nn
          split at hone
          · exact absurd hone nn
          split at hone
          · exact absurd hone nn
          split at hone
          · exact absurd hone nn
          split at hone
          · exact absurd hone nn
          split at hone
          · exact absurd hone nn
          split at hone
          · rename_i hl
            refine ⟨hl, ?_⟩
            split at hone
            · rename_i ha
              simpa using ha
            · exact absurd hone nn
          · cases hone
        · simp [andMask] at hr
        · simp [andMask] at hr
  have : ∃ r, F.applyFilters o filters = .ok r := by
    unfold DFrame.filter at h
    cases hr : F.applyFilters o filters with
    | error e => rw [hr] at h; cases h
    | ok r => exact ⟨r, rfl⟩
  obtain ⟨r, hr⟩ := this
  have hk := key filters _ _ r (by rw [h1]; rfl) (by rw [h2]; rfl) hr
  refine List.eq_nil_iff_forall_not_mem.2 fun f hf => ?_
  obtain ⟨-, g, hg, hv⟩ := hk f hf
  exact absurd ((hk g hg).1.symm.trans hv) (by decide)

end Openscm
