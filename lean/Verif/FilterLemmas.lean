import Verif.FilterStr

/-!
# Pattern matching acts value by value
-/

set_option linter.unusedSectionVars false

namespace Openscm

variable {K : Type} [Field K] [DecidableEq K]

/-- The test made from one filter string. -/
def strTest (sep : String) (level : Option (PyArg K)) (regexp : Bool) (s : String) : Except Err (String → Bool) :=
  match reCompile (if regexp then s.toList else wildcardRe s.toList) with
  | .error e => .error e
  | .ok p =>
    match level with
    | none => .ok fun m => reMatch p true m.toList
    | some lv =>
      match levelTest lv with
      | .error e => .error e
      | .ok t => .ok fun m => reMatch p true m.toList && t (depthBelow sep s m)

/-- What a string filter sees of a value; `none` if it is refused. -/
def filterText (hasNan : Bool) : PyVal K → Option String
  | .str s => some s
  | .flt .nan => if hasNan then some "" else none
  | _ => none

/-- Values that `np.isnan` accepts, if it is called. -/
def nanOk (hasNan : Bool) : PyVal K → Bool
  | .none => !hasNan
  | .time _ => !hasNan
  | _ => true

/-- Does the filter value `v` match the metadata value `m`? -/
def hit (sep : String) (level : Option (PyArg K)) (regexp hasNan : Bool) (v m : PyVal K) : Bool :=
  match v with
  | .str s =>
    match strTest sep level regexp s, filterText hasNan m with
    | .ok f, some x => f x
    | _, _ => false
  | v => m.colEq v

/-- Is the filter value `v` usable? -/
def valueOk (sep : String) (level : Option (PyArg K)) (regexp : Bool) : PyVal K → Prop
  | .str s => ∃ f, strTest sep level regexp s = .ok f
  | _ => True

def PyVal.isStr : PyVal K → Bool
  | .str _ => true
  | _ => false

theorem nanToEmpty_iff {col conv : List (PyVal K)} :
    nanToEmpty col = .ok conv ↔ (∀ m ∈ col, nanOk true m = true) ∧
      conv = col.map (fun m => match m with | .flt .nan => .str "" | m => m) := by
  induction col generalizing conv with
  | nil =>
    simp only [nanToEmpty, Except.ok.injEq, List.map_nil, List.not_mem_nil, false_imp_iff, implies_true, true_and]
    exact eq_comm
  | cons a l ih =>
    have key : ∀ x : PyVal K, nanOk true a = true →
        (((nanToEmpty l).map (x :: ·) = .ok conv) ↔ (∀ m ∈ l, nanOk true m = true) ∧
          conv = x :: l.map (fun m => match m with | .flt .nan => .str "" | m => m)) := by
      intro x _
      cases h : nanToEmpty l with
      | error e =>
        simp only [Except.map, reduceCtorEq, false_iff]
        rintro ⟨h1, -⟩
        have := (ih (conv := l.map (fun m => match m with | .flt .nan => .str "" | m => m))).2 ⟨h1, rfl⟩
        rw [h] at this
        cases this
      | ok c =>
        obtain ⟨h1, h2⟩ := ih.1 h
        simp only [Except.map, Except.ok.injEq]
        rw [← h2]
        exact ⟨fun e => ⟨h1, e.symm⟩, fun e => e.2.symm⟩
    cases a with
    | str s => simpa [nanToEmpty, nanOk] using key (.str s) rfl
    | int z => simpa [nanToEmpty, nanOk] using key (.int z) rfl
    | flt x =>
      cases x with
      | nan => simpa [nanToEmpty, nanOk] using key (.str "") rfl
      | num x => simpa [nanToEmpty, nanOk] using key (.flt (.num x)) rfl
    | none => simp [nanToEmpty, nanOk]
    | time t => simp [nanToEmpty, nanOk]

theorem colStrings_iff {col : List (PyVal K)} {strs : List String} :
    colStrings col = .ok strs ↔ col = strs.map .str := by
  induction col generalizing strs with
  | nil => cases strs <;> simp [colStrings]
  | cons a l ih =>
    cases a with
    | str s =>
      cases h : colStrings l with
      | error e =>
        simp only [colStrings, h, Except.map, reduceCtorEq, false_iff]
        intro he
        cases strs with
        | nil => simp at he
        | cons b r =>
          simp only [List.map_cons, List.cons.injEq] at he
          rw [ih.2 he.2] at h
          cases h
      | ok c =>
        have := ih.1 h
        simp only [colStrings, h, Except.map, Except.ok.injEq]
        constructor
        · rintro rfl; simp [this]
        · intro he
          cases strs with
          | nil => simp at he
          | cons b r =>
            simp only [List.map_cons, List.cons.injEq, PyVal.str.injEq] at he
            have h2 := ih.2 he.2
            rw [h] at h2
            cases h2
            rw [he.1]
    | _ => cases strs <;> simp [colStrings]

/-- The columns that a string filter accepts. -/
theorem colStrings_conv {hasNan : Bool} {col conv : List (PyVal K)} {strs : List String}
    (hc : (if hasNan then nanToEmpty col else .ok col) = .ok conv) :
    colStrings conv = .ok strs ↔ col.map (filterText hasNan) = strs.map some := by
  rw [colStrings_iff]
  cases hasNan with
  | true =>
    simp only [if_true] at hc
    obtain ⟨-, rfl⟩ := nanToEmpty_iff.1 hc
    clear hc
    induction col generalizing strs with
    | nil => cases strs <;> simp
    | cons a l ih =>
      cases strs with
      | nil => simp
      | cons b r =>
        simp only [List.map_cons, List.cons.injEq, ih]
        cases a with
        | flt x => cases x <;> simp [filterText]
        | _ => simp [filterText]
  | false =>
    simp only [Bool.false_eq_true, if_false, Except.ok.injEq] at hc
    subst hc
    induction col generalizing strs with
    | nil => cases strs <;> simp
    | cons a l ih =>
      cases strs with
      | nil => simp
      | cons b r =>
        simp only [List.map_cons, List.cons.injEq, ih]
        cases a with
        | flt x => cases x <;> simp [filterText]
        | _ => simp [filterText]

theorem zipWith_map_self {α β γ δ : Type} (f : α → β) (g : α → γ) (h : β → γ → δ) (l : List α) :
    List.zipWith h (l.map f) (l.map g) = l.map fun x => h (f x) (g x) := by
  induction l with
  | nil => rfl
  | cons a l ih => simp [ih]

theorem matchString_iff {sep : String} {level : Option (PyArg K)} {regexp : Bool} {col : List (PyVal K)} {s : String}
    {m : List Bool} : matchString sep level regexp col s = .ok m ↔
      ∃ f strs, strTest sep level regexp s = .ok f ∧ colStrings col = .ok strs ∧ m = strs.map f := by
  unfold matchString strTest
  cases hp : reCompile (if regexp then s.toList else wildcardRe s.toList) with
  | error e => simp
  | ok p =>
    simp only
    cases hs : colStrings col with
    | error e => simp
    | ok strs =>
      have hsub : ∀ m ∈ strs, (strs.filter fun m => reMatch p true m.toList).contains m = reMatch p true m.toList := by
        intro m hm
        rw [Bool.eq_iff_iff]
        simp [hm]
      cases level with
      | none =>
        simp only [Except.ok.injEq]
        have : strs.map (fun m => (strs.filter fun m => reMatch p true m.toList).contains m)
            = strs.map fun m => reMatch p true m.toList := List.map_congr_left hsub
        rw [this]
        constructor
        · rintro rfl; exact ⟨_, _, rfl, rfl, rfl⟩
        · rintro ⟨f, t, h1, h2, h3⟩; subst h1; cases h2; exact h3.symm
      | some lv =>
        simp only [findDepth]
        cases hl : levelTest lv with
        | error e => simp
        | ok t =>
          have e : List.zipWith (fun m d => (strs.filter fun m => reMatch p true m.toList).contains m && d) strs
              (strs.map fun v => t (depthBelow sep s v))
              = strs.map fun m => reMatch p true m.toList && t (depthBelow sep s m) := by
            have := zipWith_map_self (fun x : String => x) (fun v => t (depthBelow sep s v))
              (fun m d => (strs.filter fun m => reMatch p true m.toList).contains m && d) strs
            rw [List.map_id'] at this
            rw [this]
            refine List.map_congr_left fun m hm => ?_
            show ((strs.filter fun m => reMatch p true m.toList).contains m && _) = _
            rw [hsub m hm]
          simp only [Except.ok.injEq, e]
          constructor
          · rintro rfl; exact ⟨_, _, rfl, rfl, rfl⟩
          · rintro ⟨f, t', h1, h2, h3⟩; subst h1; cases h2; exact h3.symm

theorem matchOne_iff {sep : String} {level : Option (PyArg K)} {regexp hasNan : Bool} {col conv : List (PyVal K)}
    (hc : (if hasNan then nanToEmpty col else .ok col) = .ok conv) {v : PyVal K} {m : List Bool} :
    matchOne sep level regexp col conv v = .ok m ↔
      valueOk sep level regexp v ∧ (v.isStr = true → ∀ x ∈ col, filterText hasNan x ≠ none) ∧
      m = col.map (hit sep level regexp hasNan v) := by
  cases v with
  | str s =>
    simp only [matchOne, matchString_iff, colStrings_conv hc, valueOk, PyVal.isStr, true_imp_iff]
    constructor
    · rintro ⟨f, strs, h1, h2, rfl⟩
      refine ⟨⟨f, h1⟩, fun x hx hn => ?_, ?_⟩
      · have : none ∈ col.map (filterText hasNan) := List.mem_map.2 ⟨x, hx, hn⟩
        rw [h2] at this
        simp at this
      · have : strs.map f = (strs.map some).map fun o => match o with | some x => f x | none => false := by
          rw [List.map_map]; rfl
        rw [this, ← h2, List.map_map]
        refine List.map_congr_left fun x _ => ?_
        simp only [Function.comp, hit, h1]
        cases filterText hasNan x <;> rfl
    · rintro ⟨⟨f, h1⟩, h2, rfl⟩
      have hx : ∃ strs : List String, col.map (filterText hasNan) = strs.map some := by
        clear hc
        induction col with
        | nil => exact ⟨[], rfl⟩
        | cons a l ih =>
          obtain ⟨t, ht⟩ := ih fun x hx => h2 x (by simp [hx])
          cases ha : filterText hasNan a with
          | none => exact absurd ha (h2 a (by simp))
          | some b => exact ⟨b :: t, by simp [ha, ht]⟩
      obtain ⟨strs, h3⟩ := hx
      refine ⟨f, strs, h1, h3, ?_⟩
      have : strs.map f = (strs.map some).map fun o => match o with | some x => f x | none => false := by
        rw [List.map_map]; rfl
      rw [this, ← h3, List.map_map]
      refine List.map_congr_left fun x _ => ?_
      simp only [Function.comp, hit, h1]
      cases filterText hasNan x <;> rfl
  | _ =>
    simp only [matchOne, valueOk, PyVal.isStr, Except.ok.injEq, Bool.false_eq_true, false_imp_iff, true_and]
    exact eq_comm

theorem matchValues_iff {sep : String} {level : Option (PyArg K)} {regexp hasNan : Bool} {col conv : List (PyVal K)}
    (hc : (if hasNan then nanToEmpty col else .ok col) = .ok conv) {vals : List (PyVal K)} {g : PyVal K → Bool}
    {m : List Bool} :
    matchValues sep level regexp col conv vals (col.map g) = .ok m ↔
      (∀ v ∈ vals, valueOk sep level regexp v ∧ (v.isStr = true → ∀ x ∈ col, filterText hasNan x ≠ none)) ∧
      m = col.map fun x => g x || vals.any fun v => hit sep level regexp hasNan v x := by
  induction vals generalizing g with
  | nil =>
    simp only [matchValues, Except.ok.injEq, List.not_mem_nil, false_imp_iff, implies_true, List.any_nil, Bool.or_false,
      true_and]
    exact eq_comm
  | cons v r ih =>
    simp only [matchValues]
    cases h : matchOne sep level regexp col conv v with
    | error e =>
      simp only [reduceCtorEq, List.mem_cons, forall_eq_or_imp, false_iff]
      rintro ⟨⟨⟨h1, h2⟩, -⟩, -⟩
      rw [(matchOne_iff hc).2 ⟨h1, h2, rfl⟩] at h
      cases h
    | ok n =>
      obtain ⟨h1, h2, rfl⟩ := (matchOne_iff hc).1 h
      simp only [zipWith_map_self, ih, List.mem_cons, forall_eq_or_imp, List.any_cons, Bool.or_assoc]
      constructor
      · rintro ⟨a, b⟩; exact ⟨⟨⟨h1, h2⟩, a⟩, b⟩
      · rintro ⟨⟨-, a⟩, b⟩; exact ⟨a, b⟩

/-- Pattern matching, value by value. -/
theorem patternMatch_iff {sep : String} {level : Option (PyArg K)} {regexp hasNan : Bool} {col : List (PyVal K)}
    {values : PyArg K} {m : List Bool} :
    patternMatch sep level regexp hasNan col values = .ok m ↔
      values.values ≠ [] ∧
      (∀ v ∈ values.values, valueOk sep (givenLevel level) regexp v) ∧
      (∀ x ∈ col, nanOk hasNan x = true ∧
        ((∃ v ∈ values.values, v.isStr = true) → filterText hasNan x ≠ none)) ∧
      m = col.map fun x => values.values.any fun v => hit sep (givenLevel level) regexp hasNan v x := by
  unfold patternMatch
  cases hc : (if hasNan then nanToEmpty col else Except.ok col) with
  | error e =>
    simp only [reduceCtorEq, false_iff]
    rintro ⟨-, -, h, -⟩
    cases hasNan with
    | false => simp at hc
    | true =>
      simp only [if_true] at hc
      rw [nanToEmpty_iff.2 ⟨fun m hm => (h m hm).1, rfl⟩] at hc
      cases hc
  | ok conv =>
    have hn : ∀ x ∈ col, nanOk hasNan x = true := by
      cases hasNan with
      | false => intro x _; cases x <;> rfl
      | true =>
        simp only [if_true] at hc
        exact (nanToEmpty_iff.1 hc).1
    simp only
    by_cases he : values.values = []
    · simp [he]
    · rw [if_neg he, matchValues_iff hc]
      simp only [Bool.false_or, ne_eq, he, not_false_eq_true, true_and]
      constructor
      · rintro ⟨a, b⟩
        exact ⟨fun v hv => (a v hv).1, fun x hx => ⟨hn x hx, fun ⟨v, hv, hs⟩ => (a v hv).2 hs x hx⟩, b⟩
      · rintro ⟨a, b, c⟩
        exact ⟨fun v hv => ⟨a v hv, fun hs x hx => (b x hx).2 ⟨v, hv, hs⟩⟩, c⟩

end Openscm
