import Verif.FrameIam2

/-!
# C87: tables through pyam
-/

set_option linter.unusedSectionVars false

namespace Openscm

variable {K : Type} [Field K] [LinearOrder K] [IsStrictOrderedRing K]

theorem isUpper_toLower (c : Char) : c.toLower.isUpper = false := by
  simp only [Char.isUpper, Char.toLower]
  split
  · rename_i h
    simp only [UInt32.le_iff_toNat_le, ge_iff_le, UInt32.toNat_add] at h ⊢
    simp at h ⊢
    omega
  · rename_i h
    simpa using h

theorem toLower_idem (c : Char) : c.toLower.toLower = c.toLower := by
  have h := isUpper_toLower c
  generalize c.toLower = d at *
  simp only [Char.isUpper, decide_eq_false_iff_not] at h
  simp only [Char.toLower]
  rw [dif_neg]
  simp only [ge_iff_le]
  tauto

theorem lowerText_idem (s : String) : lowerText (lowerText s) = lowerText s := by
  unfold lowerText
  rw [String.toList_ofList, List.map_map]
  congr 2
  funext c
  exact toLower_idem c

/-- What a row in long form contributes to the pivot table. -/
def iamPivot (e : IamRow K) : Option (List (PyVal K) × Int × K) :=
  if e.1.all fun v => !v.isNull then
    match cellTime e.2.1, cellFloat e.2.2 with
    | some t, some (.num x) => some (e.1, t, x)
    | _, _ => none
  else none

theorem iamPivot_incomplete {e : IamRow K} (h : iamComplete e = false) : iamPivot e = none := by
  unfold iamPivot
  unfold iamComplete at h
  split
  · rename_i h1
    rw [h1, Bool.true_and, Bool.and_eq_false_iff, Bool.not_eq_false', Bool.not_eq_false', isNull_iff, isNull_iff] at h
    rcases h with h | h
    · have : cellTime e.2.1 = none := by rcases h with h | h <;> rw [h] <;> rfl
      rw [this]
    · have : cellFloat e.2.2 = some .nan := by rcases h with h | h <;> rw [h] <;> rfl
      rw [this]
      split
      · rename_i hh; cases hh
      · rfl
  · rfl

theorem iamPivot_float (e : IamRow K) (h : (cellFloat e.2.2).isSome = true) :
    iamPivot (e.1, e.2.1, .flt ((cellFloat e.2.2).getD .nan)) = iamPivot e := by
  obtain ⟨x, hx⟩ := Option.isSome_iff_exists.1 h
  have e : cellFloat (PyVal.flt ((cellFloat e.2.2).getD .nan)) = cellFloat e.2.2 := by
    rw [hx]; rfl
  unfold iamPivot
  simp only [e]

theorem map_rowVal_self {cols : List String} (hn : cols.Nodup) {k : List (PyVal K)} (hk : k.length = cols.length) :
    cols.map (rowVal cols k) = k := by
  apply List.ext_getElem
  · simp [hk]
  · intro i h1 h2
    rw [List.getElem_map]
    unfold rowVal
    rw [hn.idxOf_getElem i (by omega), List.getD_eq_getElem?_getD, List.getElem?_eq_getElem h2]
    rfl

theorem filterMap_filter_none {α β : Type} {f : α → Option β} {p : α → Bool} {l : List α}
    (h : ∀ a ∈ l, p a = false → f a = none) : (l.filter p).filterMap f = l.filterMap f := by
  induction l with
  | nil => rfl
  | cons a l ih =>
    have ih' := ih fun b hb => h b (List.mem_cons_of_mem _ hb)
    rw [List.filter_cons]
    split
    · rw [List.filterMap_cons, List.filterMap_cons, ih']
    · rename_i hp
      rw [List.filterMap_cons, h a (List.mem_cons_self ..) (by simpa using hp), ih']

theorem mapExcept_eq_map {α β : Type} {f : α → Except Err β} {g : α → β} {l : List α} {r : List β}
    (h : mapExcept f l = .ok r) (hg : ∀ a ∈ l, ∀ b, f a = .ok b → b = g a) : r = l.map g := by
  rw [mapExcept_ok] at h
  induction h with
  | nil => rfl
  | @cons a b l r hab _ ih =>
    rw [List.map_cons, ← ih fun a ha => hg a (List.mem_cons_of_mem _ ha), hg a (List.mem_cons_self ..) b hab]

theorem mapExcept_mem {α β : Type} {f : α → Except Err β} {l : List α} {r : List β} (h : mapExcept f l = .ok r) {a : α}
    (ha : a ∈ l) : ∃ b, f a = .ok b := by
  rw [mapExcept_ok] at h
  induction h with
  | nil => cases ha
  | @cons x b l r hab _ ih =>
    rcases List.mem_cons.1 ha with rfl | ha
    · exact ⟨b, hab⟩
    · exact ih ha

theorem forall₂_imp_mem {α β : Type} {P Q : α → β → Prop} {l : List α} {m : List β} (h : List.Forall₂ P l m)
    (hq : ∀ a b, a ∈ l → P a b → Q a b) : List.Forall₂ Q l m := by
  induction h with
  | nil => exact .nil
  | cons hab _ ih =>
    exact .cons (hq _ _ (List.mem_cons_self ..) hab) (ih fun a b ha => hq a b (List.mem_cons_of_mem _ ha))

/-- **C87** for long tables: read through pyam they give the frame that they give when read directly, if pyam accepts
them and the names of the index levels are in lower case. -/
theorem C87_long {clock : Clock} {T I : Table K} {R : DFrame K} (hv : T.HasCol "value")
    (hlow : ∀ c ∈ T.index, lowerText c = c) (hI : iamTable clock T = .ok I) (h : fromTable clock T = .ok R) :
    fromTable clock I = .ok R := by
  unfold fromTable at h
  split at h
  · cases h
  rename_i hreq
  rw [if_pos (mem_labels.2 hv)] at h
  have hreq : ∀ c ∈ requiredCols, T.HasCol c := fun c hc => mem_labels.1 (not_not.1 hreq c hc)
  unfold fromLong at h
  split at h
  · cases h
  rename_i htc
  dsimp only at h
  unfold iamTable at hI
  dsimp only at hI
  have hnm : ∀ c, c ∈ T.labels.filterMap textOf ↔ Label.text c ∈ T.labels := fun c => textNames_mem
  simp only [hnm] at hI
  rw [if_neg (not_not.2 fun c hc => mem_labels.2 (hreq c hc))] at hI
  split at hI
  · cases hI
  rw [if_pos (mem_labels.2 hv)] at hI
  split at hI
  · cases hI
  generalize htcd : (if Label.text "year" ∈ T.labels then "year" else "time") = tc at h hI
  generalize hcd : requiredCols ++ (T.labels.filterMap textOf).filter (fun c => c ∉ requiredCols ∧ c ≠ tc ∧ c ≠ "value") = cols at h hI
  split at h
  · cases h
  rename_i hnames
  rw [not_or, not_not, not_not] at hnames
  split at h
  · cases h
  rename_i hx
  split at h
  · cases h
  rename_i hts
  split at h
  · cases h
  rename_i hne
  have hf := mk_long hreq (by rwa [mem_labels, mem_labels] at htc) hnames.2 htcd hcd
  have hcols : IamCols cols tc := by
    refine ⟨fun c hc => ?_, hf.nodup, fun c hc => ((hf.mem c).1 hc).2, ?_, fun c hc => (hf.mem c).2 ⟨hreq c hc, required_special hc⟩⟩
    · rcases ((hf.mem c).1 hc).1 with hm | hm
      · exact hlow c hm
      · obtain ⟨l, -, hl⟩ := List.mem_map.1 hm
        cases l with
        | text s =>
          have hl : lowerText s = c := by simpa [colName] using hl
          rw [← hl, lowerText_idem]
        | num => cases hl
        | time => cases hl
    · rcases hf.tc_time with ⟨e, -⟩ | ⟨e, -⟩
      · exact .inl e
      · exact .inr e
  set row : List (PyVal K) → IamRow K := fun r => (cols.map fun c => cellOf T.labels r (.text c),
    cellOf T.labels r (.text tc), cellOf T.labels r (.text "value")) with hrow
  have hpT : ∀ r, pivotEntry T.labels tc cols r = iamPivot (row r) := fun r => rfl
  unfold iamFinish at hI
  split at hI
  · cases hI
  split at hI
  · cases hI
  split at hI
  · cases hI
  split at hI
  · cases hI
  rename_i rows hrows
  cases hI
  have hkind : ∀ r ∈ T.rows, (∃ y, (row r).2.1 = .int y) ∨ ∃ t, (row r).2.1 = .time t := by
    intro r hr
    have hor : (T.rows.all fun r => (cellOf T.labels r (.text tc)).isInt) = true ∨
        (T.rows.all fun r => (cellOf T.labels r (.text tc)).isTime) = true := by
      by_contra hn
      rw [not_or] at hn
      exact hts hn
    rcases hor with hor | hor
    · have := List.all_eq_true.1 hor r hr
      left
      show ∃ y, cellOf T.labels r (.text tc) = .int y
      cases hc : cellOf T.labels r (.text tc) with
      | int y => exact ⟨y, rfl⟩
      | _ => rw [hc] at this; cases this
    · have := List.all_eq_true.1 hor r hr
      right
      show ∃ y, cellOf T.labels r (.text tc) = .time y
      cases hc : cellOf T.labels r (.text tc) with
      | time y => exact ⟨y, rfl⟩
      | _ => rw [hc] at this; cases this
  have hrows' : rows = ((T.rows.map row).filter iamComplete).map iamOut := by
    refine mapExcept_eq_map hrows ?_
    intro e he b hb
    obtain ⟨r, hr, rfl⟩ := List.mem_map.1 (List.mem_filter.1 he).1
    unfold iamRow at hb
    rcases hkind r hr with ⟨y, hy⟩ | ⟨y, hy⟩
    · rw [hy] at hb
      unfold iamTime at hb
      simp only at hb
      split at hb
      · cases hb
      · rename_i hh
        split at hh
        · cases hh
        · cases hh; cases hb
          simp [iamOut, hy]
    · rw [hy] at hb
      unfold iamTime at hb
      simp only at hb
      split at hb
      · cases hb
      · rename_i hh
        split at hh
        · cases hh; cases hb
          simp [iamOut, hy]
        · cases hh
  subst hrows'
  show fromTable clock (iamOf cols tc _) = _
  set rows := ((T.rows.map row).filter iamComplete).map iamOut with hrd
  have hsome : ∀ r ∈ T.rows, (cellFloat (row r).2.2).isSome = true := by
    intro r hr
    rw [Bool.not_eq_true, List.any_eq_false] at hx
    have := hx r hr
    show (cellFloat (cellOf T.labels r (.text "value"))).isSome = true
    cases hc : cellFloat (cellOf T.labels r (.text "value")) with
    | none => rw [hc] at this; exact absurd rfl this
    | some => rfl
  have hklen : ∀ r, (row r).1.length = cols.length := fun r => by simp [hrow]
  have hform : ∀ b ∈ rows, ∃ r ∈ T.rows, b = (row r).1 ++ [(row r).2.1, .flt ((cellFloat (row r).2.2).getD .nan)] := by
    intro b hb
    obtain ⟨e, he, rfl⟩ := List.mem_map.1 hb
    obtain ⟨r, hr, rfl⟩ := List.mem_map.1 (List.mem_filter.1 he).1
    exact ⟨r, hr, rfl⟩
  have hcell : ∀ r, (∀ c ∈ cols, cellOf (iamOf cols tc rows).labels ((row r).1 ++ [(row r).2.1, .flt ((cellFloat (row r).2.2).getD .nan)]) (.text c) = rowVal cols (row r).1 c) ∧
      cellOf (iamOf cols tc rows).labels ((row r).1 ++ [(row r).2.1, .flt ((cellFloat (row r).2.2).getD .nan)]) (.text tc) = (row r).2.1 ∧
      cellOf (iamOf cols tc rows).labels ((row r).1 ++ [(row r).2.1, .flt ((cellFloat (row r).2.2).getD .nan)]) (.text "value") =
        .flt ((cellFloat (row r).2.2).getD .nan) := by
    intro r
    have hl : ((row r).1 ++ [(row r).2.1, PyVal.flt ((cellFloat (row r).2.2).getD .nan)]).length =
        (iamOf cols tc rows).index.length + (iamOf cols tc rows).cols.length := by
      simp [iamOf, hklen]
    obtain ⟨c1, c2, c3⟩ := hcols.cell (rows := rows) (hklen r) (row r).2.1 (.flt ((cellFloat (row r).2.2).getD .nan))
    refine ⟨fun c hc => ?_, ?_, ?_⟩
    · rw [cell_eq hl, c1 c]
      · rintro rfl; exact hcols.tc_ne.2.1 hc
      · rintro rfl; exact hcols.tc_ne.2.2 hc
    · rw [cell_eq hl, c2]
    · rw [cell_eq hl, c3]
  have hpI : ∀ r ∈ T.rows, pivotEntry (iamOf cols tc rows).labels tc cols
      ((row r).1 ++ [(row r).2.1, .flt ((cellFloat (row r).2.2).getD .nan)]) = iamPivot (row r) := by
    intro r hr
    obtain ⟨c1, c2, c3⟩ := hcell r
    rw [← iamPivot_float (row r) (hsome r hr)]
    unfold pivotEntry iamPivot
    simp only [c2, c3]
    rw [List.map_congr_left c1, map_rowVal_self hcols.nodup (hklen r)]
    rfl
  have hentries : rows.filterMap (pivotEntry (iamOf cols tc rows).labels tc cols) = T.rows.filterMap (pivotEntry T.labels tc cols) := by
    have e1 : rows.filterMap (pivotEntry (iamOf cols tc rows).labels tc cols) =
        ((T.rows.map row).filter iamComplete).filterMap (pivotEntry (iamOf cols tc rows).labels tc cols ∘ iamOut) := by
      rw [hrd, List.filterMap_map]
    rw [e1, List.filterMap_congr (g := iamPivot), filterMap_filter_none fun a _ ha => iamPivot_incomplete ha, List.filterMap_map]
    · rfl
    · intro e he
      obtain ⟨r, hr, rfl⟩ := List.mem_map.1 (List.mem_filter.1 he).1
      exact hpI r hr
  have hhas := hcols.has (rows := rows)
  have hlabels : (iamOf cols tc rows).labels.filterMap textOf = cols ++ [tc, "value"] := by
    unfold Table.labels iamOf
    simp only [List.map_nil, List.nil_append]
    rw [List.filterMap_map, List.filterMap_map]
    have : ∀ c ∈ cols ++ [tc, "value"], ((textOf ∘ Label.lower) ∘ Label.text) c = some c := by
      intro c hc
      have := List.mem_map_of_mem (f := fun c => colName (Label.text c)) hc
      have h2 := congrArg (fun l => l[(cols ++ [tc, "value"]).idxOf c]?) hcols.all
      have hlt := List.idxOf_lt_length_of_mem hc
      simp only [List.getElem?_map, List.getElem?_eq_getElem hlt, List.getElem_idxOf, Option.map_some] at h2
      simpa [colName, textOf, Label.lower] using h2
    rw [List.filterMap_congr this, List.filterMap_some]
  obtain ⟨n1, n2, n3⟩ := hcols.tc_ne
  have hyt : ¬ (Label.text "year" ∈ (iamOf cols tc rows).labels ↔ Label.text "time" ∈ (iamOf cols tc rows).labels) := by
    rw [mem_labels, mem_labels, hhas, hhas]
    have hy : "year" ∉ cols := fun hm => hcols.plain _ hm (.inr (.inl rfl))
    have ht : "time" ∉ cols := fun hm => hcols.plain _ hm (.inr (.inr rfl))
    rcases hcols.tc with rfl | rfl <;> simp [hy, ht]
  have htc' : (if Label.text "year" ∈ (iamOf cols tc rows).labels then "year" else "time") = tc := by
    have hy : "year" ∉ cols := fun hm => hcols.plain _ hm (.inr (.inl rfl))
    have hl := fun h => (hhas "year").1 (mem_labels.1 h)
    rcases hcols.tc with rfl | rfl
    · exact if_pos (mem_labels.2 ((hhas _).2 (.inr (.inl rfl))))
    · exact if_neg fun h => by rcases hl h with h | h | h; exacts [hy h, absurd h (by decide), absurd h (by decide)]
  have hcols' : requiredCols ++ ((iamOf cols tc rows).labels.filterMap textOf).filter (fun c => c ∉ requiredCols ∧ c ≠ tc ∧ c ≠ "value") = cols := by
    rw [hlabels, List.filter_append]
    have e1 : [tc, "value"].filter (fun c => decide (c ∉ requiredCols ∧ c ≠ tc ∧ c ≠ "value")) = [] := by
      rw [List.filter_eq_nil_iff]
      intro c hc
      simp only [List.mem_cons, List.not_mem_nil, or_false] at hc
      rcases hc with rfl | rfl <;> simp
    rw [e1, List.append_nil, ← hcd, List.filter_append, List.filter_filter]
    have e2 : requiredCols.filter (fun c => decide (c ∉ requiredCols ∧ c ≠ tc ∧ c ≠ "value")) = [] := by
      rw [List.filter_eq_nil_iff]
      intro c hc
      simp [hc]
    rw [e2, List.nil_append]
    congr 1
    exact List.filter_congr fun c _ => by simp
  unfold fromTable
  rw [if_neg (not_not.2 fun c hc => mem_labels.2 ((hhas c).2 (.inl (hcols.req c hc)))), if_pos (mem_labels.2 ((hhas _).2 (.inr (.inr rfl))))]
  unfold fromLong
  rw [if_neg hyt]
  dsimp only
  rw [htc', hcols']
  show (if _ then _ else if (rows.any _) = true then _ else if _ then _ else if rows.filterMap _ = [] then _ else Except.ok (pivotFrame cols (rows.filterMap _))) = _
  rw [hentries, if_neg, if_neg, if_neg, if_neg hne]
  · exact h
  · rw [not_and_or]
    by_contra hn
    rw [not_or, not_not, not_not] at hn
    apply hts
    constructor
    · intro hall
      apply hn.1
      rw [List.all_eq_true] at hall ⊢
      intro b hb
      obtain ⟨r, hr, rfl⟩ := hform b hb
      rw [(hcell r).2.1]
      exact hall r hr
    · intro hall
      apply hn.2
      rw [List.all_eq_true] at hall ⊢
      intro b hb
      obtain ⟨r, hr, rfl⟩ := hform b hb
      rw [(hcell r).2.1]
      exact hall r hr
  · rw [Bool.not_eq_true, List.any_eq_false]
    intro b hb
    obtain ⟨r, hr, rfl⟩ := hform b hb
    rw [(hcell r).2.2]
    simp [cellFloat]
  · rw [hlabels, not_or, not_not, not_not]
    refine ⟨by simp [Table.labels, iamOf], ?_⟩
    rw [List.nodup_append]
    refine ⟨hcols.nodup, by simpa using n1, ?_⟩
    rintro a ha b hb rfl
    simp only [List.mem_cons, List.not_mem_nil, or_false] at hb
    rcases hb with rfl | rfl
    · exact n2 ha
    · exact n3 ha

/-! ## Which tables pyam accepts, and what becomes of their rows -/

/-- Long tables that are modelled: the required columns, `value` and one of `year` and `time`, columns of different names,
none called `notes`, numbers or nothing as values and years in the column `year`. -/
structure LongIam (T : Table K) : Prop where
  rect : T.Rect
  req : ∀ c ∈ requiredCols, T.HasCol c
  value : T.HasCol "value"
  one : ¬ (T.HasCol "year" ↔ T.HasCol "time")
  text : ∀ l ∈ T.cols, ∃ s, l = .text s
  distinct : (T.index.map some ++ T.cols.map colName).Nodup
  notes : ¬ T.HasCol "notes"
  numbers : ∀ r ∈ T.rows, (∃ x, IsNumber (T.cell r "value") x) ∨ T.cell r "value" = .none ∨ T.cell r "value" = .flt .nan
  years : ∀ r ∈ T.rows, T.HasCol "year" → ∃ y, T.cell r "year" = .int y

/-- Nothing is missing in the row. -/
def Table.Complete (T : Table K) (r : List (PyVal K)) : Prop :=
  ∀ c, T.HasCol c → T.cell r c ≠ .none ∧ T.cell r c ≠ .flt .nan

theorem LongIam.names {T : Table K} (h : LongIam T) :
    (T.labels.filterMap textOf).map some = T.index.map some ++ T.cols.map colName := by
  unfold Table.labels
  rw [List.filterMap_append, List.map_append]
  congr 1
  · induction T.index with
    | nil => rfl
    | cons a l ih => simpa [textOf] using ih
  · have := h.text
    generalize T.cols = ls at this
    induction ls with
    | nil => rfl
    | cons a l ih =>
      obtain ⟨s, rfl⟩ := this _ (List.mem_cons_self ..)
      have := ih fun l' h' => this l' (List.mem_cons_of_mem _ h')
      simpa [textOf, Label.lower, colName] using this

/-- A row in long form. -/
def Table.iamRow (T : Table K) (cols : List String) (tc : String) (r : List (PyVal K)) : IamRow K :=
  (cols.map (T.cell r), T.cell r tc, T.cell r "value")

theorem LongIam.table {T : Table K} (h : LongIam T) (clock : Clock) : ∃ cols tc,
    cols.Nodup ∧ (∀ c, c ∈ cols ↔ T.HasCol c ∧ ¬ (c = "value" ∨ c = "year" ∨ c = "time")) ∧
    (tc = "year" ∧ ¬ T.HasCol "time" ∨ tc = "time" ∧ ¬ T.HasCol "year") ∧ T.HasCol tc ∧
    iamTable clock T = iamFinish clock cols tc (T.rows.map (T.iamRow cols tc)) := by
  have hn := h.names
  have hnd : (T.labels.filterMap textOf).Nodup := by
    have := h.distinct
    rw [← hn] at this
    exact List.Nodup.of_map _ this
  have hlen : (T.labels.filterMap textOf).length = T.labels.length := by
    have := congrArg List.length hn
    simpa [Table.labels] using this
  have hlab : T.labels.Nodup := by
    have e : T.labels = (T.labels.filterMap textOf).map .text := by
      unfold Table.labels
      rw [List.filterMap_append, List.map_append]
      congr 1
      · induction T.index with
        | nil => rfl
        | cons a l ih => simpa [textOf] using ih
      · have := h.text
        generalize T.cols = ls at this
        induction ls with
        | nil => rfl
        | cons a l ih =>
          obtain ⟨s, rfl⟩ := this _ (List.mem_cons_self ..)
          have := ih fun l' h' => this l' (List.mem_cons_of_mem _ h')
          simpa [textOf, Label.lower] using this
    rw [e]
    exact hnd.map fun a b hab => by simpa using hab
  have hnm : ∀ c, c ∈ T.labels.filterMap textOf ↔ T.HasCol c := fun c => textNames_mem.trans mem_labels
  have ho := h.one
  unfold iamTable
  dsimp only
  rw [if_neg (by simpa only [hnm, not_not] using h.req), if_neg (by simp only [hnm]; exact not_or.2 ⟨not_not.2 hlab, h.notes⟩),
    if_pos ((hnm _).2 h.value), if_neg (by simpa only [hnm] using h.one), if_neg (not_not.2 hlen)]
  have hyy : (if "year" ∈ T.labels.filterMap textOf then "year" else "time") =
      if Label.text "year" ∈ T.labels then "year" else "time" := by
    by_cases hy : T.HasCol "year"
    · rw [if_pos ((hnm _).2 hy), if_pos (mem_labels.2 hy)]
    · rw [if_neg (mt (hnm _).1 hy), if_neg (mt mem_labels.1 hy)]
  rw [hyy]
  generalize htcd : (if Label.text "year" ∈ T.labels then "year" else "time") = tc
  generalize hcols : (requiredCols ++ List.filter (fun c => decide (c ∉ requiredCols ∧ c ≠ tc ∧ c ≠ "value"))
    (List.filterMap textOf T.labels)) = cols
  have hf := mk_long h.req h.one hnd htcd hcols
  refine ⟨cols, tc, hf.nodup, hf.mem, hf.tc_time, hf.tc_has, ?_⟩
  congr 1
  refine List.map_congr_left fun r hr => ?_
  unfold Table.iamRow
  rw [cell_eq (h.rect r hr), cell_eq (h.rect r hr), List.map_congr_left fun c _ => cell_eq (h.rect r hr) c]

theorem LongIam.complete {T : Table K} (h : LongIam T) {cols : List String} {tc : String}
    (hm : ∀ c, c ∈ cols ↔ T.HasCol c ∧ ¬ (c = "value" ∨ c = "year" ∨ c = "time"))
    (ht : tc = "year" ∧ ¬ T.HasCol "time" ∨ tc = "time" ∧ ¬ T.HasCol "year") (hh : T.HasCol tc) {r : List (PyVal K)} :
    iamComplete (T.iamRow cols tc r) = true ↔ T.Complete r := by
  have hnn : ∀ v : PyVal K, (!v.isNull) = true ↔ v ≠ .none ∧ v ≠ .flt .nan := by
    intro v
    rw [Bool.not_eq_true', ← Bool.not_eq_true, isNull_iff, not_or]
  unfold iamComplete Table.iamRow
  rw [Bool.and_eq_true, Bool.and_eq_true, List.all_eq_true]
  simp only [hnn]
  constructor
  · rintro ⟨⟨h1, h2⟩, h3⟩ c hc
    by_cases hcc : c ∈ cols
    · exact h1 _ (List.mem_map_of_mem hcc)
    · rw [hm] at hcc
      have : c = "value" ∨ c = "year" ∨ c = "time" := by
        by_contra hn; exact hcc ⟨hc, hn⟩
      rcases this with rfl | rfl | rfl
      · exact h3
      · rcases ht with ⟨rfl, -⟩ | ⟨rfl, hno⟩
        · exact h2
        · exact absurd hc hno
      · rcases ht with ⟨rfl, hno⟩ | ⟨rfl, -⟩
        · exact absurd hc hno
        · exact h2
  · intro hc
    refine ⟨⟨fun v hv => ?_, hc _ hh⟩, hc _ h.value⟩
    obtain ⟨c, hcc, rfl⟩ := List.mem_map.1 hv
    exact hc c ((hm c).1 hcc).1

/-- No two complete rows agree in everything but the value. -/
def Table.NoDuplicates (T : Table K) : Prop :=
  T.rows.Pairwise fun r s => T.Complete r → T.Complete s → ¬ ∀ c, T.HasCol c → c ≠ "value" → SameValue (T.cell r c) (T.cell s c)

/-- The text reads as one time. -/
def Clock.Reads (clock : Clock) (s : String) : Prop := ∃ t, clock.read [s] = .ok [t]

/-- **C87**, which long tables pyam accepts: those in which no two complete rows agree in everything but the value, and in
which the times of the complete rows all are datetimes or all are text that reads as a time, or there are years instead. -/
theorem C87_accepted {T : Table K} (h : LongIam T) (clock : Clock) :
    (∃ I, iamTable clock T = .ok I) ↔ T.NoDuplicates ∧
      (T.HasCol "year" ∨ (∀ r ∈ T.rows, T.Complete r → ∃ t, T.cell r "time" = .time t) ∨
        ∀ r ∈ T.rows, T.Complete r → ∃ s, T.cell r "time" = .str s ∧ clock.Reads s) := by
  obtain ⟨cols, tc, hn, hm, ht, hh, he⟩ := h.table clock
  have hcomp := fun r => h.complete hm ht hh (r := r)
  have hcell : ∀ r ∈ T.rows, (cellFloat (T.cell r "value")).isNone = false := by
    intro r hr
    rcases h.numbers r hr with ⟨x, hx⟩ | hx | hx
    · generalize T.cell r "value" = v at hx
      cases hx <;> rfl
    · rw [hx]; rfl
    · rw [hx]; rfl
  have hnum : ¬ ((T.rows.map (T.iamRow cols tc)).any fun e => (cellFloat e.2.2).isNone) = true := by
    rw [Bool.not_eq_true, List.any_eq_false]
    intro e he
    obtain ⟨r, hr, rfl⟩ := List.mem_map.1 he
    show ¬ (cellFloat (T.cell r "value")).isNone = true
    rw [hcell r hr]; simp
  have hmem : ∀ e, e ∈ (T.rows.map (T.iamRow cols tc)).filter iamComplete ↔ ∃ r ∈ T.rows, T.Complete r ∧ T.iamRow cols tc r = e := by
    intro e
    rw [List.mem_filter, List.mem_map]
    constructor
    · rintro ⟨⟨r, hr, rfl⟩, hc⟩; exact ⟨r, hr, (hcomp r).1 hc, rfl⟩
    · rintro ⟨r, hr, hc, rfl⟩; exact ⟨⟨r, hr, rfl⟩, (hcomp r).2 hc⟩
  have hpair : iamDuplicates ((T.rows.map (T.iamRow cols tc)).filter iamComplete) = false ↔
      T.rows.Pairwise fun r s => T.Complete r → T.Complete s →
        ¬ ((∀ c ∈ cols, SameValue (T.cell r c) (T.cell s c)) ∧ T.cell r tc = T.cell s tc) := by
    rw [iamDuplicates_iff, List.pairwise_filter, List.pairwise_map]
    simp only [hcomp]
    unfold Table.iamRow
    simp only [sameRow_map]
  rw [he]
  unfold iamFinish
  rw [if_neg hnum]
  have hdup : iamDuplicates ((T.rows.map (T.iamRow cols tc)).filter iamComplete) = false →
      (∀ r ∈ T.rows, ∀ s ∈ T.rows, T.Complete r → T.Complete s → SameValue (T.cell r tc) (T.cell s tc) → T.cell r tc = T.cell s tc) →
      T.NoDuplicates := by
    intro hp hk
    rw [hpair] at hp
    unfold Table.NoDuplicates
    refine hp.imp_of_mem ?_
    intro r s hr hs hrs hc hc' hall
    refine hrs hc hc' ⟨fun c hcc => ?_, hk r hr s hs hc hc' ?_⟩
    · have := (hm c).1 hcc
      exact hall c this.1 fun e => this.2 (.inl e)
    · refine hall tc hh ?_
      rcases ht with ⟨rfl, -⟩ | ⟨rfl, -⟩ <;> decide
  have hdup' : T.NoDuplicates → iamDuplicates ((T.rows.map (T.iamRow cols tc)).filter iamComplete) = false := by
    intro hp
    rw [hpair]
    refine hp.imp ?_
    intro r s hrs hc hc' hall
    refine hrs hc hc' fun c hcc hv => ?_
    by_cases hin : c ∈ cols
    · exact hall.1 c hin
    · have : c = tc := by
        rw [hm] at hin
        have : c = "value" ∨ c = "year" ∨ c = "time" := by
          by_contra hn; exact hin ⟨hcc, hn⟩
        rcases ht with ⟨rfl, hno⟩ | ⟨rfl, hno⟩ <;> rcases this with rfl | rfl | rfl <;>
          first | rfl | exact absurd rfl hv | exact absurd hcc hno
      rw [this, hall.2]
      exact .equal _
  rcases ht with ⟨rfl, hno⟩ | ⟨rfl, hno⟩
  · have hy : ∀ r ∈ T.rows, ∃ y, T.cell r "year" = .int y := fun r hr => h.years r hr hh
    constructor
    · rintro ⟨I, hI⟩
      split at hI
      · cases hI
      rename_i hd
      refine ⟨hdup (by simpa using hd) fun r hr s hs _ _ hsv => ?_, .inl hh⟩
      obtain ⟨y, hy1⟩ := hy r hr
      obtain ⟨z, hz1⟩ := hy s hs
      rw [hy1, hz1] at hsv ⊢
      cases hsv with
      | missing a => rcases a with a | a <;> cases a
      | equal => rfl
    · rintro ⟨hd, -⟩
      rw [hdup' hd, if_neg (by simp), if_neg (by simp)]
      rw [mapExcept_map (g := iamOut)]
      · exact ⟨_, rfl⟩
      · intro e he
        obtain ⟨r, hr, -, rfl⟩ := (hmem e).1 he
        obtain ⟨y, hy1⟩ := hy r hr
        unfold iamRow iamTime iamOut Table.iamRow
        simp [hy1]
  · constructor
    · rintro ⟨I, hI⟩
      split at hI
      · cases hI
      rename_i hd
      split at hI
      · cases hI
      rename_i hmix
      split at hI
      · cases hI
      rename_i rows hrows
      have hall : ∀ r ∈ T.rows, T.Complete r → (∃ t, T.cell r "time" = .time t) ∨ ∃ s, T.cell r "time" = .str s ∧ clock.Reads s := by
        intro r hr hc
        obtain ⟨b, hb⟩ := mapExcept_mem hrows ((hmem _).2 ⟨r, hr, hc, rfl⟩)
        unfold iamRow at hb
        simp only [Table.iamRow] at hb
        split at hb
        · cases hb
        rename_i t htt
        cases hcell : T.cell r "time" with
        | time t => exact .inl ⟨t, rfl⟩
        | str s =>
          rw [hcell] at htt
          unfold iamTime at htt
          simp only [if_true] at htt
          split at htt
          · rename_i t' ht'
            exact .inr ⟨s, rfl, t', ht'⟩
          · cases htt
        | _ => rw [hcell] at htt; unfold iamTime at htt; simp at htt
      refine ⟨hdup (by simpa using hd) fun r hr s hs hc hc' hsv => ?_, .inr ?_⟩
      · rcases hall r hr hc with ⟨t, e⟩ | ⟨t, e, -⟩ <;> rcases hall s hs hc' with ⟨u, e'⟩ | ⟨u, e', -⟩ <;> rw [e, e'] at hsv ⊢ <;>
        · first
          | (cases hsv with
            | missing a => rcases a with a | a <;> cases a
            | equal => rfl)
          | (cases hsv with
            | missing a => rcases a with a | a <;> cases a)
      · by_contra hn
        rw [not_or] at hn
        push Not at hn
        obtain ⟨⟨r, hr, hc, h1⟩, s, hs, hc', h2⟩ := hn
        apply hmix
        refine ⟨rfl, ?_⟩
        unfold iamMixed
        rw [Bool.and_eq_true, List.any_eq_true, List.any_eq_true]
        refine ⟨⟨_, (hmem _).2 ⟨r, hr, hc, rfl⟩, ?_⟩, _, (hmem _).2 ⟨s, hs, hc', rfl⟩, ?_⟩
        · rcases hall r hr hc with ⟨t, e⟩ | ⟨t, e, -⟩
          · exact absurd e (h1 t)
          · show timeIsText (T.cell r "time") = true
            rw [e]; rfl
        · rcases hall s hs hc' with ⟨t, e⟩ | ⟨t, e, er⟩
          · show (!timeIsText (T.cell s "time")) = true
            rw [e]; rfl
          · exact absurd er (h2 t e)
    · rintro ⟨hd, hor⟩
      rw [hdup' hd, if_neg (by simp), if_neg]
      · have hex : ∀ e ∈ (T.rows.map (T.iamRow cols "time")).filter iamComplete, ∃ b, iamRow clock "time" e = .ok b := by
          intro e he
          obtain ⟨r, hr, hc, rfl⟩ := (hmem e).1 he
          unfold iamRow Table.iamRow
          rcases hor with hor | hor | hor
          · exact absurd hor hno
          · obtain ⟨t, e⟩ := hor r hr hc
            simp [e, iamTime]
          · obtain ⟨t, e, u, eu⟩ := hor r hr hc
            simp [e, iamTime, eu]
        choose! f hf using hex
        rw [mapExcept_map (g := f) hf]
        exact ⟨_, rfl⟩
      · rintro ⟨-, hmix⟩
        unfold iamMixed at hmix
        rw [Bool.and_eq_true, List.any_eq_true, List.any_eq_true] at hmix
        obtain ⟨⟨e, he, h1⟩, e', he', h2⟩ := hmix
        obtain ⟨r, hr, hc, rfl⟩ := (hmem e).1 he
        obtain ⟨s, hs, hc', rfl⟩ := (hmem e').1 he'
        simp only [Table.iamRow] at h1 h2
        rcases hor with hor | hor | hor
        · exact absurd hor hno
        · obtain ⟨t, e⟩ := hor r hr hc
          rw [e] at h1; cases h1
        · obtain ⟨t, e, -⟩ := hor s hs hc'
          rw [e] at h2; cases h2

open Classical in
/-- **C87**, the rows of a long table in pyam: the complete rows in the same order, with the same metadata, the same
numbers and the same times; text is read as time. -/
theorem C87_rows {T I : Table K} (h : LongIam T) (hlow : ∀ c ∈ T.index, lowerText c = c) {clock : Clock}
    (hI : iamTable clock T = .ok I) :
    List.Forall₂ (fun r b =>
        (∀ c, T.HasCol c → c ≠ "value" → c ≠ "year" → c ≠ "time" → I.cell b c = T.cell r c) ∧
        (∀ x, IsNumber (I.cell b "value") x ↔ IsNumber (T.cell r "value") x) ∧
        I.cell b "year" = T.cell r "year" ∧
        (T.HasCol "time" → ∃ t, I.cell b "time" = .time t ∧
          (T.cell r "time" = .time t ∨ ∃ s, T.cell r "time" = .str s ∧ clock.read [s] = .ok [t])))
      (T.rows.filter fun r => T.Complete r) I.rows ∧
    ∀ c, I.HasCol c ↔ T.HasCol c := by
  obtain ⟨cols, tc, hn, hm, ht, hh, he⟩ := h.table clock
  have hcols : IamCols cols tc := by
    refine ⟨fun c hc => ?_, hn, fun c hc => ((hm c).1 hc).2, ?_, fun c hc => (hm c).2 ⟨h.req c hc, required_special hc⟩⟩
    · rcases ((hm c).1 hc).1 with hmm | hmm
      · exact hlow c hmm
      · obtain ⟨l, -, hl⟩ := List.mem_map.1 hmm
        cases l with
        | text s =>
          have hl : lowerText s = c := by simpa [colName] using hl
          rw [← hl, lowerText_idem]
        | num => cases hl
        | time => cases hl
    · rcases ht with ⟨e, -⟩ | ⟨e, -⟩
      · exact .inl e
      · exact .inr e
  have hcomp := fun r => h.complete hm ht hh (r := r)
  rw [he] at hI
  unfold iamFinish at hI
  split at hI
  · cases hI
  split at hI
  · cases hI
  split at hI
  · cases hI
  split at hI
  · cases hI
  rename_i rows hrows
  cases hI
  have hhas := hcols.has (rows := rows)
  refine ⟨?_, fun c => ?_⟩
  · show List.Forall₂ _ _ rows
    rw [mapExcept_ok, List.filter_map, List.forall₂_map_left_iff] at hrows
    have hfil : T.rows.filter (iamComplete ∘ T.iamRow cols tc) = T.rows.filter fun r => T.Complete r := by
      refine List.filter_congr fun r _ => ?_
      show iamComplete (T.iamRow cols tc r) = _
      rw [Bool.eq_iff_iff, hcomp, decide_eq_true_iff]
    rw [hfil] at hrows
    have hmemr : ∀ r ∈ T.rows.filter (fun r => T.Complete r), r ∈ T.rows ∧ T.Complete r := by
      intro r hr
      have := List.mem_filter.1 hr
      exact ⟨this.1, by simpa using this.2⟩
    have key : ∀ r b, r ∈ T.rows ∧ T.Complete r → iamRow clock tc (T.iamRow cols tc r) = .ok b →
        (∀ c, T.HasCol c → c ≠ "value" → c ≠ "year" → c ≠ "time" → (iamOf cols tc rows).cell b c = T.cell r c) ∧
        (∀ x, IsNumber ((iamOf cols tc rows).cell b "value") x ↔ IsNumber (T.cell r "value") x) ∧
        (iamOf cols tc rows).cell b "year" = T.cell r "year" ∧
        (T.HasCol "time" → ∃ t, (iamOf cols tc rows).cell b "time" = .time t ∧
          (T.cell r "time" = .time t ∨ ∃ s, T.cell r "time" = .str s ∧ clock.read [s] = .ok [t])) := by
      rintro r b ⟨hr, hc⟩ hb
      unfold iamRow at hb
      split at hb
      · cases hb
      rename_i t htt
      cases hb
      obtain ⟨c1, c2, c3⟩ := hcols.cell (rows := rows) (k := cols.map (T.cell r)) (by simp) t
        (.flt ((cellFloat (T.cell r "value")).getD .nan))
      have htne : tc = "year" ∨ tc = "time" := hcols.tc
      simp only [Table.iamRow] at htt ⊢
      refine ⟨fun c hcc h1 h2 h3 => ?_, fun x => ?_, ?_, fun htm => ?_⟩
      · rw [c1 c (by rcases htne with rfl | rfl <;> assumption) h1]
        have hin : c ∈ cols := (hm c).2 ⟨hcc, by simp [h1, h2, h3]⟩
        unfold rowVal
        have hlt := List.idxOf_lt_length_of_mem hin
        rw [List.getD_eq_getElem?_getD, List.getElem?_map, List.getElem?_eq_getElem hlt, List.getElem_idxOf]
        rfl
      · rw [c3]
        rcases h.numbers r hr with ⟨y, hy⟩ | hy | hy
        · generalize T.cell r "value" = v at hy
          cases hy with
          | int z =>
            constructor
            · intro hx; cases hx; exact .int z
            · intro hx; cases hx; exact .flt _
          | flt y => exact Iff.rfl
        · exact absurd hy (hc _ h.value).1
        · exact absurd hy (hc _ h.value).2
      · rcases ht with ⟨rfl, hno⟩ | ⟨rfl, hno⟩
        · rw [c2]
          obtain ⟨y, hy⟩ := h.years r hr hh
          rw [hy] at htt ⊢
          unfold iamTime at htt
          simp at htt
          exact htt.symm
        · rw [cell_absent hno, cell_absent]
          rw [hhas, hm]
          simp
      · rcases ht with ⟨rfl, hno⟩ | ⟨rfl, hno⟩
        · exact absurd htm hno
        · rw [c2]
          cases hcell : T.cell r "time" with
          | time u =>
            rw [hcell] at htt
            unfold iamTime at htt
            simp only [if_true] at htt
            cases htt
            exact ⟨u, rfl, .inl rfl⟩
          | str s =>
            rw [hcell] at htt
            unfold iamTime at htt
            simp only [if_true] at htt
            split at htt
            · rename_i u hu
              cases htt
              exact ⟨u, rfl, .inr ⟨s, rfl, hu⟩⟩
            · cases htt
          | _ => rw [hcell] at htt; unfold iamTime at htt; simp at htt
    exact forall₂_imp_mem hrows fun r b hr hb => key r b (hmemr r hr) hb
  · show (iamOf cols tc rows).HasCol c ↔ _
    rw [hhas, hm]
    constructor
    · rintro (h1 | rfl | rfl)
      · exact h1.1
      · exact hh
      · exact h.value
    · intro hc
      by_cases hin : c = "value" ∨ c = "year" ∨ c = "time"
      · right
        rcases ht with ⟨rfl, hno⟩ | ⟨rfl, hno⟩ <;> rcases hin with rfl | rfl | rfl <;> simp_all
      · exact .inl ⟨hc, hin⟩

/-! ## Cases -/

/-- Three timeseries: one with a missing value, one of which the scenario is missing, one without values. -/
def iamF : DFrame ℚ :=
  { times := [dateTime 2005 1 1, dateTime 2010 1 1], cols := ["model", "scenario", "region", "variable", "unit", "run"]
    data := [(0, [.num 3, .nan]), (1, [.num 4, .num 5]), (2, [.nan, .nan])]
    «meta» := [(0, [.str "m", .str "s", .str "World", .str "v", .str "K", .int 1]),
      (1, [.str "m", .none, .str "World", .str "v", .str "K", .int 2]),
      (2, [.str "m", .str "s", .str "World", .str "v", .str "K", .int 3])] }

/-- The hypotheses of `C87_frame_partial` hold, and one timeseries of three comes back, without its missing value. -/
example : IamFrame noClock iamF ∧ (∃ i < iamF.data.length, iamF.Full i ∧ ∃ t, iamF.valueAt i t ≠ none) ∧
    ∃ I R, iamF.toIam noClock = .ok I ∧ fromTable noClock I = .ok R ∧ R.times = [dateTime 2005 1 1] ∧ R.data = [(0, [.num 3])] := by
  refine ⟨⟨⟨by decide +kernel, by decide +kernel, by decide +kernel, by decide +kernel, by decide +kernel⟩,
    hasDuplicates_iff.1 (by decide +kernel), by decide +kernel, by decide +kernel, fun _ _ _ => rfl, by decide +kernel,
    by decide +kernel⟩, ⟨0, by decide +kernel, by unfold DFrame.Full; decide +kernel, dateTime 2005 1 1, by decide +kernel⟩, ?_⟩
  refine ⟨_, _, (by decide +kernel : iamF.toIam noClock = .ok
    { index := [], cols := [.text "model", .text "scenario", .text "region", .text "variable", .text "unit", .text "run", .text "time", .text "value"]
      rows := [[.str "m", .str "s", .str "World", .str "v", .str "K", .int 1, .time (dateTime 2005 1 1), .flt (.num 3)]] }),
    (by decide +kernel : _ = Except.ok
    { times := [dateTime 2005 1 1], cols := ["model", "scenario", "region", "variable", "unit", "run"]
      data := [(0, [.num 3])], «meta» := [(0, [.str "m", .str "s", .str "World", .str "v", .str "K", .int 1])] }), rfl, rfl⟩

/-- Metadata called `Run` is called `run` when it comes back. -/
theorem C87_case : ∃ I R, wideR.toIam noClock = .ok I ∧ fromTable noClock I = .ok R ∧ "Run" ∈ wideR.cols ∧ "Run" ∉ R.cols ∧
    "run" ∈ R.cols := by
  refine ⟨_, _, (by decide +kernel : wideR.toIam noClock = .ok
    { index := [], cols := [.text "model", .text "scenario", .text "region", .text "variable", .text "unit", .text "Run", .text "time", .text "value"]
      rows := [[.str "m", .str "s", .str "World", .str "v", .str "K", .int 1, .time (dateTime 2005 1 1), .flt (.num 3)],
        [.str "m", .str "s", .str "World", .str "v", .str "K", .int 1, .time (dateTime 2010 1 1), .flt (.num 2)],
        [.str "m", .str "s", .str "World", .str "v", .str "K", .int 2, .time (dateTime 2005 1 1), .flt (.num 4)]] }),
    (by decide +kernel : _ = Except.ok
    { times := [dateTime 2005 1 1, dateTime 2010 1 1], cols := ["model", "scenario", "region", "variable", "unit", "run"]
      data := [(0, [.num 3, .num 2]), (1, [.num 4, .nan])]
      «meta» := [(0, [.str "m", .str "s", .str "World", .str "v", .str "K", .int 1]),
        (1, [.str "m", .str "s", .str "World", .str "v", .str "K", .int 2])] }), ?_⟩
  decide +kernel

/-- A long table with times in text and a missing value. -/
def textT : Table ℚ :=
  { index := ["model", "run"], cols := [.text "Scenario", .text "region", .text "variable", .text "unit", .text "time", .text "value"]
    rows := [[.str "m", .int 1, .str "s", .str "World", .str "v", .str "K", .str "2010", .int 3],
      [.str "m", .int 1, .str "s", .str "World", .str "v", .str "K", .str "2011", .none],
      [.str "m", .int 2, .str "s", .str "World", .str "v", .str "K", .str "2010", .flt (.num 4)]] }

/-- Reads `2010` only. -/
def oneClock : Clock := { looks := fun s => s == "2010", read := fun ss => if ss = ["2010"] then .ok [dateTime 2010 1 1] else .error .valueError }

theorem textT_long : LongIam textT := by
  refine ⟨by unfold Table.Rect; decide +kernel, by unfold Table.HasCol; decide +kernel, by unfold Table.HasCol; decide +kernel,
    by unfold Table.HasCol; decide +kernel, ?_, by decide +kernel, by unfold Table.HasCol; decide +kernel, ?_, ?_⟩
  · simp [textT]
  · intro r hr
    simp only [textT, List.mem_cons, List.not_mem_nil, or_false] at hr
    rcases hr with rfl | rfl | rfl
    · exact .inl ⟨3, IsNumber.int 3⟩
    · exact .inr (.inl rfl)
    · exact .inl ⟨4, IsNumber.flt 4⟩
  · intro r hr hy
    exact absurd hy (by unfold Table.HasCol; decide +kernel)

/-- The hypotheses of `C87_rows` and `C87_accepted` hold. -/
example : LongIam textT ∧ (∀ c ∈ textT.index, lowerText c = c) ∧ (∃ I, iamTable oneClock textT = .ok I ∧ I.rows.length = 2) ∧
    iamTable noClock textT = .error .valueError := by
  refine ⟨textT_long, by decide +kernel, ⟨_, (by decide +kernel : iamTable oneClock textT = .ok
    { index := [], cols := [.text "model", .text "scenario", .text "region", .text "variable", .text "unit", .text "run", .text "time", .text "value"]
      rows := [[.str "m", .str "s", .str "World", .str "v", .str "K", .int 1, .time (dateTime 2010 1 1), .flt (.num 3)],
        [.str "m", .str "s", .str "World", .str "v", .str "K", .int 2, .time (dateTime 2010 1 1), .flt (.num 4)]] }), rfl⟩, by decide +kernel⟩

/-- The hypotheses of `C87_long` hold. -/
example : ∃ T : Table ℚ, T.HasCol "value" ∧ (∀ c ∈ T.index, lowerText c = c) ∧ T.rows.length = 3 ∧
    (∃ I, iamTable noClock T = .ok I) ∧ ∃ R, fromTable noClock T = .ok R := by
  refine ⟨{ index := ["model", "run"]
            cols := [.text "Scenario", .text "region", .text "variable", .text "unit", .text "year", .text "value"]
            rows := [[.str "m", .int 1, .str "s", .str "World", .str "v", .str "K", .int 2010, .int 3],
              [.str "m", .int 1, .str "s", .str "World", .str "v", .str "K", .int 2011, .none],
              [.str "m", .int 2, .str "s", .str "World", .str "v", .str "K", .int 2010, .flt (.num 4)]] },
    by unfold Table.HasCol; decide +kernel, by decide +kernel, rfl,
    ⟨_, (by decide +kernel : _ = Except.ok
      { index := [], cols := [.text "model", .text "scenario", .text "region", .text "variable", .text "unit", .text "run", .text "year", .text "value"]
        rows := [[.str "m", .str "s", .str "World", .str "v", .str "K", .int 1, .int 2010, .flt (.num 3)],
          [.str "m", .str "s", .str "World", .str "v", .str "K", .int 2, .int 2010, .flt (.num 4)]] })⟩,
    ⟨_, (by decide +kernel : _ = Except.ok
      { times := [dateTime 2010 1 1], cols := ["model", "scenario", "region", "variable", "unit", "run"]
        data := [(0, [.num 3]), (1, [.num 4])]
        «meta» := [(0, [.str "m", .str "s", .str "World", .str "v", .str "K", .int 1]),
          (1, [.str "m", .str "s", .str "World", .str "v", .str "K", .int 2])] })⟩⟩

end Openscm
