import Verif.Regex
import Verif.Units
import Mathlib.Algebra.Field.Rat

/-!
# Guessing parameter types (model) and C58

`guess_parameter_type`, `openscm/scmdataframe/parameter_type.py:27-75`.

The patterns with groups are written as lists of alternatives: `(X)?` as with and without `X`, `(A|B)` as `A` and
`B`. The text matches the pattern if it matches one of them. That a dimensionality written as text contains
`[time]` is modelled as having this base dimension. Any failure to parse a unit is the error for undefined units.
-/

namespace Openscm

variable {K : Type} [Field K]

/-- `parameter_matches`, `openscm/scmdataframe/parameter_type.py:13-24`. -/
def parameterMatches : List (List String × PType) :=
  [(["^Emissions"], .average),
   ([".*_EMIS", ".*_GWPEMIS"], .average),
   ([".*Flux"], .average),
   ([".*_RF", ".*_PEFFRF", ".*_EFFRF", ".*_SRF"], .average),
   (["^Radiative Forcing"], .average),
   (["HEATUPTAKE_EBALANCE_TOTAL"], .average),
   (["^Atmospheric Concentrations"], .point),
   ([".*_CONC"], .point),
   (["Surface Temperature", ".*TEMP"], .point)]

/-- `r.match(variable_name)` for a pattern given as alternatives. -/
def matchesOne (alts : List String) (name : String) : Bool :=
  alts.any fun p =>
    match reCompile p.toList with
    | .error _ => false
    | .ok items => reMatch items true name.toList

/-- The loop, `openscm/scmdataframe/parameter_type.py:69-75`. -/
def guessFromName : List (List String × PType) → String → PType
  | [], _ => .point
  | (alts, t) :: r, name => if matchesOne alts name then t else guessFromName r name

/-- `guess_parameter_type`, `openscm/scmdataframe/parameter_type.py:27-75`. -/
def guessParameterType (reg : Registry K) (name : String) (unit : Option String) : PType :=
  match unit with
  | none => guessFromName parameterMatches name
  | some "" => guessFromName parameterMatches name
  | some u =>
    match reg u with
    | none => guessFromName parameterMatches name
    | some d => if d.dim.any (fun x => x.1 = "[time]") then .average else .point

/-! ## C58: specification -/

/-- The text begins with `w`. -/
def Begins (w s : String) : Prop := ∃ t : List Char, s.toList = w.toList ++ t

/-- `w` occurs in the text and begins on its first line. -/
def OnFirstLine (w s : String) : Prop := ∃ a b : List Char, s.toList = a ++ (w.toList ++ b) ∧ '\n' ∉ a

/-- Names of averages. -/
def AverageName (s : String) : Prop :=
  Begins "Emissions" s ∨ Begins "Radiative Forcing" s ∨ Begins "HEATUPTAKE_EBALANCE_TOTAL" s ∨
  ∃ w ∈ ["_EMIS", "_GWPEMIS", "Flux", "_RF", "_PEFFRF", "_EFFRF", "_SRF"], OnFirstLine w s

/-! ## Facts -/

theorem reMatch_lits (w : List Char) (st : Bool) (s : List Char) :
    reMatch (w.map fun c => ReItem.one (.lit c)) st s = true ↔ ∃ t, s = w ++ t := by
  induction w generalizing st s with
  | nil => simp [reMatch]
  | cons c w ih =>
    cases s with
    | nil => simp [reMatch, Atom.step]
    | cons x r =>
      simp only [List.map_cons, reMatch, Atom.step]
      by_cases h : x = c
      · subst h
        simp [ih]
      · simp [h]

theorem mem_any_tails {st : Bool} {s : List Char} {p : Bool × List Char} :
    p ∈ Atom.any.tails st s → ∃ a, s = a ++ p.2 ∧ '\n' ∉ a := by
  induction s generalizing st with
  | nil =>
    intro h
    simp only [Atom.tails, List.mem_singleton] at h
    exact ⟨[], by simp [h]⟩
  | cons x r ih =>
    intro h
    simp only [Atom.tails, List.mem_cons] at h
    rcases h with rfl | h
    · exact ⟨[], by simp⟩
    · simp only [Atom.step] at h
      by_cases hx : x = '\n'
      · simp [hx] at h
      · simp only [hx, if_false] at h
        obtain ⟨a, e, ha⟩ := ih h
        refine ⟨x :: a, by simp [e], ?_⟩
        simp only [List.mem_cons, not_or]
        exact ⟨fun h => hx h.symm, ha⟩

theorem any_tails_mem {a s : List Char} (ha : '\n' ∉ a) (st : Bool) : ∃ st', (st', s) ∈ Atom.any.tails st (a ++ s) := by
  induction a generalizing st with
  | nil => cases s <;> exact ⟨st, by simp [Atom.tails]⟩
  | cons x r ih =>
    simp only [List.mem_cons, not_or] at ha
    obtain ⟨st', h⟩ := ih ha.2 false
    refine ⟨st', ?_⟩
    simp only [List.cons_append, Atom.tails, Atom.step, List.mem_cons]
    right
    rw [if_neg (fun h => ha.1 h.symm)]
    exact h

theorem reMatch_onFirstLine (w s : String) :
    reMatch (.star .any :: w.toList.map fun c => ReItem.one (.lit c)) true s.toList = true ↔ OnFirstLine w s := by
  simp only [reMatch, List.any_eq_true]
  constructor
  · rintro ⟨p, hp, h⟩
    obtain ⟨b, hb⟩ := (reMatch_lits _ _ _).1 h
    obtain ⟨a, e, ha⟩ := mem_any_tails hp
    exact ⟨a, b, by rw [e, hb], ha⟩
  · rintro ⟨a, b, e, ha⟩
    obtain ⟨st', h⟩ := any_tails_mem (s := w.toList ++ b) ha true
    exact ⟨_, e ▸ h, (reMatch_lits _ _ _).2 ⟨b, rfl⟩⟩

theorem reMatch_begins (w s : String) :
    reMatch (.one .bol :: w.toList.map fun c => ReItem.one (.lit c)) true s.toList = true ↔ Begins w s := by
  simp only [reMatch, Atom.step, if_true]
  exact reMatch_lits _ _ _

theorem matchesOne_line {ps ws : List String}
    (h : ps.map (fun p => reCompile p.toList) = ws.map fun w => .ok (.star .any :: w.toList.map fun c => ReItem.one (.lit c))) (s : String) :
    matchesOne ps s = true ↔ ∃ w ∈ ws, OnFirstLine w s := by
  induction ps generalizing ws with
  | nil =>
    cases ws with
    | nil => simp [matchesOne]
    | cons => simp at h
  | cons p ps ih =>
    cases ws with
    | nil => simp at h
    | cons w ws =>
      simp only [List.map_cons, List.cons.injEq] at h
      have := ih h.2
      unfold matchesOne at this ⊢
      rw [List.any_cons, Bool.or_eq_true, this, h.1]
      simp only [reMatch_onFirstLine, List.mem_cons, exists_eq_or_imp]

theorem matchesOne_begins {p w : String} (h : reCompile p.toList = .ok (.one .bol :: w.toList.map fun c => ReItem.one (.lit c))) (s : String) :
    matchesOne [p] s = true ↔ Begins w s := by
  simp only [matchesOne, List.any_cons, List.any_nil, Bool.or_false, h]
  exact reMatch_begins w s

theorem matchesOne_lits {p w : String} (h : reCompile p.toList = .ok (w.toList.map fun c => ReItem.one (.lit c))) (s : String) :
    matchesOne [p] s = true ↔ Begins w s := by
  simp only [matchesOne, List.any_cons, List.any_nil, Bool.or_false, h]
  exact reMatch_lits _ _ _

theorem guessFromName_point {l : List (List String × PType)} (h : ∀ x ∈ l, x.2 = .point) (s : String) : guessFromName l s = .point := by
  induction l with
  | nil => rfl
  | cons x r ih =>
    obtain ⟨alts, t⟩ := x
    have ht : t = .point := h (alts, t) (by simp)
    unfold guessFromName
    rw [ih fun y hy => h y (by simp [hy]), ht]
    split <;> rfl

theorem guessFromName_average {l m : List (List String × PType)} (hl : ∀ x ∈ l, x.2 = .average) (hm : ∀ x ∈ m, x.2 = .point) (s : String) :
    guessFromName (l ++ m) s = if (∃ x ∈ l, matchesOne x.1 s = true) then .average else .point := by
  induction l with
  | nil => simp [guessFromName_point hm]
  | cons x r ih =>
    obtain ⟨alts, t⟩ := x
    have ht : t = .average := hl (alts, t) (by simp)
    rw [List.cons_append, guessFromName, ih fun y hy => hl y (by simp [hy]), ht]
    by_cases h : matchesOne alts s = true
    · simp [h]
    · rw [if_neg h]
      exact if_congr (by simp [h]) rfl rfl

theorem guessFromName_eq (s : String) : (guessFromName parameterMatches s = .average ↔ AverageName s) ∧
    (guessFromName parameterMatches s = .point ↔ ¬ AverageName s) := by
  have h := guessFromName_average (l := parameterMatches.take 6) (m := parameterMatches.drop 6) (by decide) (by decide) s
  rw [List.take_append_drop] at h
  have e : (∃ x ∈ parameterMatches.take 6, matchesOne x.1 s = true) ↔ AverageName s := by
    have h1 := matchesOne_begins (p := "^Emissions") (w := "Emissions") (by decide +kernel) s
    have h2 := matchesOne_line (ps := [".*_EMIS", ".*_GWPEMIS"]) (ws := ["_EMIS", "_GWPEMIS"]) (by decide +kernel) s
    have h3 := matchesOne_line (ps := [".*Flux"]) (ws := ["Flux"]) (by decide +kernel) s
    have h4 := matchesOne_line (ps := [".*_RF", ".*_PEFFRF", ".*_EFFRF", ".*_SRF"]) (ws := ["_RF", "_PEFFRF", "_EFFRF", "_SRF"])
      (by decide +kernel) s
    have h5 := matchesOne_begins (p := "^Radiative Forcing") (w := "Radiative Forcing") (by decide +kernel) s
    have h6 := matchesOne_lits (p := "HEATUPTAKE_EBALANCE_TOTAL") (w := "HEATUPTAKE_EBALANCE_TOTAL") (by decide +kernel) s
    unfold parameterMatches AverageName
    constructor
    · rintro ⟨x, hx, hm⟩
      simp only [List.take_succ_cons, List.take_zero, List.mem_cons, List.not_mem_nil, or_false] at hx
      rcases hx with rfl | rfl | rfl | rfl | rfl | rfl
      · exact .inl (h1.1 hm)
      · obtain ⟨w, hw, ho⟩ := h2.1 hm
        exact .inr (.inr (.inr ⟨w, List.mem_append_left ["Flux", "_RF", "_PEFFRF", "_EFFRF", "_SRF"] hw, ho⟩))
      · obtain ⟨w, hw, ho⟩ := h3.1 hm
        exact .inr (.inr (.inr ⟨w, List.mem_append_right ["_EMIS", "_GWPEMIS"] (List.mem_append_left ["_RF", "_PEFFRF", "_EFFRF", "_SRF"] hw), ho⟩))
      · obtain ⟨w, hw, ho⟩ := h4.1 hm
        exact .inr (.inr (.inr ⟨w, List.mem_append_right ["_EMIS", "_GWPEMIS", "Flux"] hw, ho⟩))
      · exact .inr (.inl (h5.1 hm))
      · exact .inr (.inr (.inl (h6.1 hm)))
    · rintro (hb | hb | hb | ⟨w, hw, ho⟩)
      · exact ⟨(["^Emissions"], .average), by simp, h1.2 hb⟩
      · exact ⟨(["^Radiative Forcing"], .average), by simp, h5.2 hb⟩
      · exact ⟨(["HEATUPTAKE_EBALANCE_TOTAL"], .average), by simp, h6.2 hb⟩
      · have hw' : w ∈ ["_EMIS", "_GWPEMIS"] ∨ w ∈ ["Flux"] ∨ w ∈ ["_RF", "_PEFFRF", "_EFFRF", "_SRF"] := by
          rcases List.mem_append.1 (show w ∈ ["_EMIS", "_GWPEMIS"] ++ ["Flux", "_RF", "_PEFFRF", "_EFFRF", "_SRF"] from hw) with h | h
          · exact .inl h
          · exact .inr (List.mem_append.1 (show w ∈ ["Flux"] ++ ["_RF", "_PEFFRF", "_EFFRF", "_SRF"] from h))
        rcases hw' with hw' | hw' | hw'
        · exact ⟨([".*_EMIS", ".*_GWPEMIS"], .average), by simp, h2.2 ⟨w, hw', ho⟩⟩
        · exact ⟨([".*Flux"], .average), by simp, h3.2 ⟨w, hw', ho⟩⟩
        · exact ⟨([".*_RF", ".*_PEFFRF", ".*_EFFRF", ".*_SRF"], .average), by simp, h4.2 ⟨w, hw', ho⟩⟩
  rw [h]
  by_cases ha : AverageName s
  · rw [if_pos (e.2 ha)]
    simp [ha]
  · rw [if_neg (fun hx => ha (e.1 hx))]
    simp [ha]

/-! ## C58 -/

/-- C58: with a known unit the guess is `average` if the unit has a time dimension, else `point`. -/
theorem C58_unit {reg : Registry K} {u : String} {d : UDef K} (hu : u ≠ "") (h : reg u = some d) (name : String) :
    (guessParameterType reg name (some u) = .average ↔ ∃ e, ("[time]", e) ∈ d.dim) ∧
    (guessParameterType reg name (some u) = .point ↔ ¬ ∃ e, ("[time]", e) ∈ d.dim) := by
  have hform : guessParameterType reg name (some u) = if d.dim.any (fun x => x.1 = "[time]") then .average else .point := by
    unfold guessParameterType
    split
    · simp_all
    · simp_all
    · rename_i w _ he
      cases he
      simp [h]
  have e : d.dim.any (fun x => x.1 = "[time]") = true ↔ ∃ e, ("[time]", e) ∈ d.dim := by
    simp only [List.any_eq_true, decide_eq_true_iff]
    constructor
    · rintro ⟨⟨a, b⟩, hx, rfl⟩
      exact ⟨b, hx⟩
    · rintro ⟨b, hb⟩
      exact ⟨_, hb, rfl⟩
  rw [hform, ← e]
  constructor <;> split <;> simp_all

/-- C58: without a unit, or with an unknown one, the guess is `average` for the names of averages, else `point`. -/
theorem C58_name {reg : Registry K} {unit : Option String} (h : unit = none ∨ unit = some "" ∨ ∃ u, unit = some u ∧ reg u = none) (name : String) :
    (guessParameterType reg name unit = .average ↔ AverageName name) ∧
    (guessParameterType reg name unit = .point ↔ ¬ AverageName name) := by
  have e : guessParameterType reg name unit = guessFromName parameterMatches name := by
    unfold guessParameterType
    rcases h with rfl | rfl | ⟨u, rfl, hu⟩
    · rfl
    · rfl
    · split
      · rfl
      · rfl
      · simp_all
  rw [e]
  exact guessFromName_eq name

/-- A name that fits patterns of both kinds is that of an average, since these come first. -/
example : guessParameterType (K := ℚ) (fun _ => none) "Emissions TEMP_CONC" none = .average ∧
    guessParameterType (K := ℚ) (fun _ => none) "MAGICC_CO2_CONC" none = .point ∧
    guessParameterType (K := ℚ) (fun _ => none) "DAT_CO2_GWPEMIS" (some "") = .average ∧
    guessParameterType (K := ℚ) (fun _ => none) "My Emissions" none = .point ∧
    guessParameterType (K := ℚ) (fun u => if u = "s" then some { dim := [("[time]", 1)], scale := 1, offset := 0, scale_ne := one_ne_zero } else none)
      "Surface Temperature" (some "s") = .average := by
  decide +kernel

end Openscm
