import Verif.Names

/-!
# C17: string and tuple names are interchangeable
-/

namespace Openscm

theorem splitChars_ne_nil (l : List Char) : splitChars l ≠ [] := by
  induction l with
  | nil => simp [splitChars]
  | cons c l ih =>
    unfold splitChars
    split
    · simp
    · split <;> simp

theorem joinChars_splitChars (l : List Char) : [sepChar].intercalate (splitChars l) = l := by
  induction l with
  | nil => simp [splitChars]
  | cons c l ih =>
    unfold splitChars
    split
    · rename_i h
      subst h
      cases hs : splitChars l with
      | nil => exact absurd hs (splitChars_ne_nil l)
      | cons a t => rw [hs] at ih; rw [List.intercalate_cons_cons]; simp [ih]
    · split
      · rename_i h; exact absurd h (splitChars_ne_nil l)
      · rename_i a t hs
        rw [hs] at ih
        cases t with
        | nil => simp at ih ⊢; exact ih
        | cons b t =>
          rw [List.intercalate_cons_cons] at ih ⊢
          rw [← ih]; simp

theorem splitChars_of_no_sep (l : List Char) (h : sepChar ∉ l) : splitChars l = [l] := by
  induction l with
  | nil => rfl
  | cons c l ih =>
    simp only [List.mem_cons, not_or] at h
    unfold splitChars
    rw [if_neg (fun e => h.1 e.symm), ih h.2]

theorem splitChars_append_sep (a b : List Char) (h : sepChar ∉ a) :
    splitChars (a ++ sepChar :: b) = a :: splitChars b := by
  induction a with
  | nil => simp [splitChars]
  | cons c l ih =>
    simp only [List.mem_cons, not_or] at h
    rw [List.cons_append, splitChars, if_neg (fun e => h.1 e.symm), ih h.2]

theorem splitChars_joinChars (l : List (List Char)) (hl : l ≠ []) (h : ∀ p ∈ l, sepChar ∉ p) :
    splitChars ([sepChar].intercalate l) = l := by
  induction l with
  | nil => exact absurd rfl hl
  | cons a t ih =>
    cases t with
    | nil => simpa using splitChars_of_no_sep a (h a (by simp))
    | cons b t =>
      rw [List.intercalate_cons_cons, List.append_assoc, List.singleton_append,
        splitChars_append_sep a _ (h a (by simp)),
        ih (by simp) (fun p hp => h p (List.mem_cons_of_mem _ hp))]

/-- C17, first half: splitting a name given as a string and joining the parts gives the string
back (so `"|".join(info.name)` is the string the user asked for). -/
theorem C17_join_split (s : String) : joinName (splitName s) = s := by
  unfold joinName splitName
  rw [List.map_map]
  have : (String.toList ∘ String.ofList) = (id : List Char → List Char) := by
    funext x; simp
  rw [this, List.map_id, joinChars_splitChars, String.ofList_toList]

/-- C17, second half: a tuple of parts without separator, joined to a string, splits into
exactly those parts. -/
theorem C17_split_join (l : List String) (hl : l ≠ []) (h : ∀ p ∈ l, sepChar ∉ p.toList) :
    splitName (joinName l) = l := by
  unfold joinName splitName
  rw [String.toList_ofList, splitChars_joinChars]
  · rw [List.map_map]
    have : (String.ofList ∘ String.toList) = (id : String → String) := by
      funext x; simp
    rw [this, List.map_id]
  · simpa using hl
  · intro p hp
    simp only [List.mem_map] at hp
    obtain ⟨q, hq, rfl⟩ := hp
    exact h q hq

example : splitName (joinName ["Emissions", "CO2", "", "x"]) = ["Emissions", "CO2", "", "x"] :=
  C17_split_join _ (by simp) (by decide)

/-- C17: the two ways to give a name are the same argument for every call (`HName.parts` is the
only way the core calls look at a non-empty name). -/
theorem C17_str_eq_seq (l : List String) (hl : l ≠ []) (h : ∀ p ∈ l, sepChar ∉ p.toList) :
    (HName.str (joinName l)).parts = (HName.seq l).parts :=
  C17_split_join l hl h

/-- C17: different strings are different names. -/
theorem C17_split_injective {s t : String} (h : splitName s = splitName t) : s = t := by
  rw [← C17_join_split s, ← C17_join_split t, h]

/-- C17: the number of levels is one more than the number of separators. -/
theorem C17_levels (s : String) :
    (splitName s).length = (s.toList.filter (· = sepChar)).length + 1 := by
  unfold splitName
  rw [List.length_map]
  induction s.toList with
  | nil => rfl
  | cons c l ih =>
    unfold splitChars
    split
    · rename_i h; subst h; simp [ih]
    · rename_i h
      cases hs : splitChars l with
      | nil => exact absurd hs (splitChars_ne_nil l)
      | cons a t => rw [hs] at ih; simp [h] at ih ⊢; exact ih

/-- A part that contains the separator breaks the equivalence: the hypothesis of
`C17_split_join` cannot be dropped. -/
theorem C17_separator_in_part : splitName (joinName ["a|b"]) ≠ ["a|b"] := by decide

end Openscm
