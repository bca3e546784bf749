import Verif.VersionProps

/-!
# C86: the version in an archive
-/

namespace Openscm.Version

/-! ## Specification -/

/-- What points to a commit: tags, and branches and the like. -/
inductive Ref
  | tag (name : Str)
  | other (name : Str)

/-- As listed by git since version 1.8.3. -/
def Ref.shown : Ref → Str
  | .tag n => 't' :: 'a' :: 'g' :: ':' :: ' ' :: n
  | .other n => n

/-- The expansion of `%d`: ` (HEAD -> master, tag: v1.0, origin/master)`. -/
def decorated (refs : List Ref) : Str :=
  ' ' :: '(' :: ((refs.map Ref.shown).intersperse [',', ' ']).flatten ++ [')']

/-- Names without commas and parentheses, white space neither at their beginning nor at their end;
names of branches do not look like tags. -/
structure Ref.Valid (r : Ref) : Prop where
  chars : ∀ c ∈ r.shown, c ≠ ',' ∧ c ≠ '(' ∧ c ≠ ')'
  first : ∀ c, r.shown.head? = some c → isSpace c = false
  last : ∀ c, r.shown.getLast? = some c → isSpace c = false
  ne : r.shown ≠ []
  kind : ∀ n, r = .other n → ¬ ['t', 'a', 'g', ':', ' '] <+: n

/-! ## Lemmas -/

theorem stripChars_both {p : Char → Bool} {pre s post : Str} (hpre : ∀ c ∈ pre, p c = true)
    (hpost : ∀ c ∈ post, p c = true) {c d : Char} (hc : s.head? = some c)
    (hd : s.getLast? = some d) (h1 : p c = false) (h2 : p d = false) :
    stripChars p (pre ++ s ++ post) = s := by
  have h := stripChars_of hpost hc hd h1 h2
  unfold stripChars at h ⊢
  rw [List.append_assoc, List.dropWhile_append_of_pos hpre]
  exact h

theorem strip_self {s : Str} (h1 : ∀ c, s.head? = some c → isSpace c = false)
    (h2 : ∀ c, s.getLast? = some c → isSpace c = false) (hne : s ≠ []) {pre : Str}
    (hpre : ∀ c ∈ pre, isSpace c = true) : strip (pre ++ s) = s := by
  obtain ⟨c, q, hq⟩ := List.exists_cons_of_ne_nil hne
  obtain ⟨z, hz⟩ : ∃ z, s.getLast? = some z := by
    cases h : s.getLast? with
    | none => rw [List.getLast?_eq_none_iff] at h; exact absurd h hne
    | some d => exact ⟨d, rfl⟩
  have hc : s.head? = some c := by rw [hq]; rfl
  have := stripChars_both (p := isSpace) (post := []) hpre (by simp) hc hz (h1 c hc) (h2 z hz)
  rwa [List.append_nil] at this

theorem splitOn_cons {x : Char} {a b : Str} (h : x ∉ a) :
    splitOn x (a ++ x :: b) = a :: splitOn x b := by
  induction a with
  | nil => simp [splitOn]
  | cons c a ih =>
    have hc : c ≠ x := fun e => h (by simp [e])
    rw [List.cons_append, splitOn, if_neg hc, ih (fun hm => h (by simp [hm]))]

theorem splitOn_one {x : Char} {a : Str} (h : x ∉ a) : splitOn x a = [a] := by
  induction a with
  | nil => rfl
  | cons c a ih =>
    have hc : c ≠ x := fun e => h (by simp [e])
    rw [splitOn, if_neg hc, ih (fun hm => h (by simp [hm]))]

/-- The list of references is taken apart again. -/
theorem split_refs {refs : List Ref} (hv : ∀ r ∈ refs, r.Valid) (hne : refs ≠ []) {pre : Str}
    (hpre : pre = [] ∨ pre = [' ']) :
    (splitOn ',' (pre ++ ((refs.map Ref.shown).intersperse [',', ' ']).flatten)).map strip
      = refs.map Ref.shown := by
  have hps : ∀ c ∈ pre, isSpace c = true := by
    rcases hpre with rfl | rfl
    · simp
    · decide
  have hpc : ',' ∉ pre := by rcases hpre with rfl | rfl <;> decide
  induction refs generalizing pre with
  | nil => exact absurd rfl hne
  | cons r refs ih =>
    have hr := hv r (by simp)
    have hno : ',' ∉ pre ++ r.shown := by
      rw [List.mem_append, not_or]
      exact ⟨hpc, fun hm => (hr.chars _ hm).1 rfl⟩
    cases refs with
    | nil =>
      have e : pre ++ (([r].map Ref.shown).intersperse [',', ' ']).flatten = pre ++ r.shown := by simp
      rw [e, splitOn_one hno]
      simp only [List.map_cons, List.map_nil, strip_self hr.first hr.last hr.ne hps]
    | cons q refs =>
      have e : pre ++ (((r :: q :: refs).map Ref.shown).intersperse [',', ' ']).flatten
          = (pre ++ r.shown) ++ ',' :: ([' '] ++ (((q :: refs).map Ref.shown).intersperse [',', ' ']).flatten) := by
        simp
      rw [e, splitOn_cons hno, List.map_cons, strip_self hr.first hr.last hr.ne hps,
        ih (pre := [' ']) (fun r hr => hv r (by simp [List.mem_cons.1 hr])) (by simp) (Or.inr rfl)
          (by decide) (by decide)]
      rfl

theorem strLt_trans {s t u : Str} (h1 : strLt s t = true) (h2 : strLt t u = true) : strLt s u = true := by
  induction s generalizing t u with
  | nil =>
    cases t with
    | nil => simp [strLt] at h1
    | cons d t =>
      cases u with
      | nil => simp [strLt] at h2
      | cons => rfl
  | cons c s ih =>
    cases t with
    | nil => simp [strLt] at h1
    | cons d t =>
      cases u with
      | nil => simp [strLt] at h2
      | cons e u =>
        simp only [strLt, Bool.or_eq_true, decide_eq_true_eq, Bool.and_eq_true] at h1 h2 ⊢
        rcases h1 with h1 | ⟨rfl, h1⟩ <;> rcases h2 with h2 | ⟨rfl, h2⟩
        · exact Or.inl (by omega)
        · exact Or.inl h1
        · exact Or.inl h2
        · exact Or.inr ⟨rfl, ih h1 h2⟩

theorem strLt_irrefl (s : Str) : strLt s s = false := by
  induction s with
  | nil => rfl
  | cons c s ih => simp [strLt, ih]

theorem firstSorted_none {p : Str → Bool} {l : List Str} :
    firstSorted p l = none ↔ ∀ t ∈ l, p t = false := by
  induction l with
  | nil => simp [firstSorted]
  | cons t l ih =>
    simp only [firstSorted, List.mem_cons, forall_eq_or_imp, ← ih]
    cases h : firstSorted p l with
    | none => cases p t <;> simp
    | some u => simp only; split <;> simp

theorem firstSorted_some {p : Str → Bool} {l : List Str} {r : Str} (h : firstSorted p l = some r) :
    r ∈ l ∧ p r = true ∧ ∀ t ∈ l, p t = true → strLt t r = false := by
  induction l generalizing r with
  | nil => simp [firstSorted] at h
  | cons t l ih =>
    rw [firstSorted] at h
    cases hl : firstSorted p l with
    | none =>
      rw [hl] at h
      simp only at h
      split at h
      · rename_i hp
        injection h with h; subst h
        refine ⟨by simp, hp, fun x hx hpx => ?_⟩
        rcases List.mem_cons.1 hx with rfl | hx
        · exact strLt_irrefl _
        · rw [firstSorted_none.1 hl x hx] at hpx; simp at hpx
      · simp at h
    | some u =>
      rw [hl] at h
      obtain ⟨i1, i2, i3⟩ := ih hl
      simp only at h
      split at h
      · rename_i hp
        rw [Bool.and_eq_true] at hp
        injection h with h; subst h
        refine ⟨by simp, hp.1, fun x hx hpx => ?_⟩
        rcases List.mem_cons.1 hx with rfl | hx
        · exact strLt_irrefl _
        · rw [Bool.eq_false_iff]
          intro hlt
          have := strLt_trans hlt hp.2
          rw [i3 x hx hpx] at this; simp at this
      · rename_i hp
        injection h with h; subst h
        refine ⟨by simp [i1], i2, fun x hx hpx => ?_⟩
        rcases List.mem_cons.1 hx with rfl | hx
        · rw [hpx, Bool.true_and, Bool.not_eq_true] at hp; exact hp
        · exact i3 x hx hpx

theorem tag_str : str "tag: " = ['t', 'a', 'g', ':', ' '] := by decide +kernel

theorem tags_of {refs : List Ref} (hv : ∀ r ∈ refs, r.Valid) (n : Str) :
    n ∈ (((refs.map Ref.shown).filter (str "tag: ").isPrefixOf).map (·.drop 5)) ↔ Ref.tag n ∈ refs := by
  simp only [List.mem_map, List.mem_filter, tag_str, List.isPrefixOf_iff_prefix]
  constructor
  · rintro ⟨s, ⟨⟨r, hr, rfl⟩, hp⟩, rfl⟩
    cases r with
    | tag m => exact hr
    | other m => exact absurd hp ((hv _ hr).kind m rfl)
  · intro h
    exact ⟨_, ⟨⟨_, h, rfl⟩, ⟨n, rfl⟩⟩, rfl⟩

theorem joined_noParen {refs : List Ref} (hv : ∀ r ∈ refs, r.Valid) (hne : refs ≠ []) :
    ∃ c d, (((refs.map Ref.shown).intersperse [',', ' ']).flatten).head? = some c ∧
      (((refs.map Ref.shown).intersperse [',', ' ']).flatten).getLast? = some d ∧
      (c ≠ '(' ∧ c ≠ ')') ∧ (d ≠ '(' ∧ d ≠ ')') := by
  induction refs with
  | nil => exact absurd rfl hne
  | cons r refs ih =>
    have hr := hv r (by simp)
    obtain ⟨c, q, hq⟩ := List.exists_cons_of_ne_nil hr.ne
    have hc : c ≠ '(' ∧ c ≠ ')' := (hr.chars c (by rw [hq]; simp)).2
    cases refs with
    | nil =>
      obtain ⟨z, hz⟩ : ∃ z, r.shown.getLast? = some z := by
        cases h : r.shown.getLast? with
        | none => rw [List.getLast?_eq_none_iff] at h; exact absurd h hr.ne
        | some d => exact ⟨d, rfl⟩
      exact ⟨c, z, by simp [hq], by simp [hz], hc, (hr.chars z (getLast?_some_mem hz)).2⟩
    | cons r' refs =>
      obtain ⟨_, d, _, h2, _, h4⟩ := ih (fun r hr => hv r (by simp [List.mem_cons.1 hr])) (by simp)
      refine ⟨c, d, by simp [hq], ?_, hc, h4⟩
      have e : (((r :: r' :: refs).map Ref.shown).intersperse [',', ' ']).flatten
          = (r.shown ++ [',', ' ']) ++ (((r' :: refs).map Ref.shown).intersperse [',', ' ']).flatten := by
        simp
      rw [e, List.getLast?_append, h2]; rfl

/-- The references read from the expanded keyword. -/
theorem refs_of {refs : List Ref} (hv : ∀ r ∈ refs, r.Valid) (hne : refs ≠ []) :
    (str "$Format").isPrefixOf (strip (decorated refs)) = false ∧
    (splitOn ',' (stripChars (fun c => c = '(' || c = ')') (strip (decorated refs)))).map strip
      = refs.map Ref.shown := by
  obtain ⟨c, d, h1, h2, h3, h4⟩ := joined_noParen hv hne
  set J := ((refs.map Ref.shown).intersperse [',', ' ']).flatten with hJ
  have e1 : strip (decorated refs) = ['('] ++ J ++ [')'] := by
    have := stripChars_both (p := isSpace) (pre := [' ']) (s := ['('] ++ J ++ [')']) (post := [])
      (by decide) (by simp) (c := '(') (d := ')') (by simp) (by rw [List.getLast?_append]; rfl) (by decide) (by decide)
    rw [List.append_nil] at this
    exact this
  rw [e1]
  refine ⟨?_, ?_⟩
  · have : str "$Format" = '$' :: str "Format" := by decide +kernel
    rw [this]; rfl
  · rw [stripChars_both (by decide) (by decide) h1 h2 (by simp [h3]) (by simp [h4])]
    exact split_refs hv hne (pre := []) (Or.inl rfl)

/-! ## C86 -/

/-- **C86** for archives, what holds: the version in an archive of a commit with tags is its first
tag by code points that begins with the prefix, without the prefix; without such a tag it is
`0+unknown`. Missing: commits without any tag; see `C86_branch`. -/
theorem C86_archive_partial {refs : List Ref} (hv : ∀ r ∈ refs, r.Valid) (htag : ∃ n, Ref.tag n ∈ refs)
    (full date : Str) (g : Git) (dirs : List Str) :
    let v := getVersions ⟨decorated refs, full, date⟩ g dirs
    v.full = some (strip full) ∧ v.dirty = some false ∧
    ((v.error = none ∧ Ref.tag ('v' :: v.version) ∈ refs ∧
        ∀ n, Ref.tag ('v' :: n) ∈ refs → strLt n v.version = false) ∨
      (v.error ≠ none ∧ v.version = "0+unknown".toList ∧ ∀ n, Ref.tag ('v' :: n) ∉ refs)) := by
  obtain ⟨n0, hn0⟩ := htag
  have hne : refs ≠ [] := fun h => by rw [h] at hn0; simp at hn0
  obtain ⟨e1, e2⟩ := refs_of hv hne
  have hv' : str "v" = ['v'] := by decide +kernel
  have hpre : ∀ s : Str, (['v'] : Str).isPrefixOf s = true ↔ ∃ n, s = 'v' :: n := by
    intro s
    rw [List.isPrefixOf_iff_prefix]
    constructor
    · rintro ⟨n, rfl⟩; exact ⟨n, rfl⟩
    · rintro ⟨n, rfl⟩; exact ⟨n, rfl⟩
  have hkw : ∀ (A : Option Versions), versionsFromKeywords ⟨decorated refs, full, date⟩ (str "v") = A →
      ∀ v, A = some v → getVersions ⟨decorated refs, full, date⟩ g dirs = v := by
    rintro A rfl v h; unfold getVersions; rw [h]
  have htags := tags_of hv
  have hne' : ((refs.map Ref.shown).filter (str "tag: ").isPrefixOf).map (·.drop 5) ≠ [] := by
    intro h
    have := (htags n0).2 hn0
    rw [h] at this; simp at this
  have hk : versionsFromKeywords ⟨decorated refs, full, date⟩ (str "v")
      = match firstSorted (['v'] : Str).isPrefixOf
          (((refs.map Ref.shown).filter (str "tag: ").isPrefixOf).map (·.drop 5)) with
        | some r => some { version := r.drop 1, full := some (strip full), dirty := some false,
                           error := none, date := some (isoDate date) }
        | none => some { version := str "0+unknown", full := some (strip full), dirty := some false,
                         error := some (str "no suitable tags"), date := none } := by
    unfold versionsFromKeywords
    simp only [e1, Bool.false_eq_true, if_false, e2, if_neg hne', hv', List.length_singleton]
    rfl
  cases hf : firstSorted (['v'] : Str).isPrefixOf
      (((refs.map Ref.shown).filter (str "tag: ").isPrefixOf).map (·.drop 5)) with
  | none =>
    rw [hf] at hk
    rw [hkw _ hk _ rfl]
    refine ⟨rfl, rfl, Or.inr ⟨by simp, rfl, fun n hn => ?_⟩⟩
    have := firstSorted_none.1 hf _ ((htags _).2 hn)
    rw [(hpre _).2 ⟨n, rfl⟩] at this; simp at this
  | some r =>
    rw [hf] at hk
    rw [hkw _ hk _ rfl]
    obtain ⟨g1, g2, g3⟩ := firstSorted_some hf
    obtain ⟨m, rfl⟩ := (hpre r).1 g2
    refine ⟨rfl, rfl, Or.inl ⟨rfl, (htags _).1 g1, fun n hn => ?_⟩⟩
    have := g3 _ ((htags _).2 hn) ((hpre _).2 ⟨n, rfl⟩)
    simpa [strLt] using this

/-- **C86** is violated by archives of commits without tags: the branch `v2-dev` is taken for a
release. -/
theorem C86_branch : ∃ refs : List Ref, (∀ r ∈ refs, r.Valid) ∧ (∀ n, Ref.tag n ∉ refs) ∧
    ∀ full date g dirs, (getVersions ⟨decorated refs, full, date⟩ g dirs).version = "2-dev".toList ∧
      (getVersions ⟨decorated refs, full, date⟩ g dirs).error = none := by
  refine ⟨[.other (str "HEAD -> v2-dev"), .other (str "origin/v2-dev"), .other (str "v2-dev")], ?_, by simp, ?_⟩
  · intro r hr
    simp only [List.mem_cons, List.not_mem_nil, or_false] at hr
    rcases hr with rfl | rfl | rfl <;>
      exact ⟨by decide +kernel, by
        intro c hc
        have : c ∈ ['H', 'o', 'v'] := by
          revert hc; simp [Ref.shown, str]; rintro rfl; decide
        revert this; revert c; decide, by
        intro c hc
        have : c = 'v' := by
          revert hc; simp [Ref.shown, str]; rintro rfl; decide
        subst this; decide, by decide +kernel, by
        rintro n h; injection h with h; subst h
        rw [← List.isPrefixOf_iff_prefix]; decide +kernel⟩
  · intro full date g dirs
    set refs : List Ref := [.other (str "HEAD -> v2-dev"), .other (str "origin/v2-dev"), .other (str "v2-dev")]
    have k1 : (str "$Format").isPrefixOf (strip (decorated refs)) = false := by decide +kernel
    have k2 : (splitOn ',' (stripChars (fun c => c = '(' || c = ')') (strip (decorated refs)))).map strip
        = refs.map Ref.shown := by decide +kernel
    have k3 : ((refs.map Ref.shown).filter (str "tag: ").isPrefixOf).map (·.drop 5) = [] := by decide +kernel
    have k4 : firstSorted (str "v").isPrefixOf ((refs.map Ref.shown).filter (·.any Char.isDigit))
        = some (str "v2-dev") := by decide +kernel
    have k5 : (str "v2-dev").drop (str "v").length = "2-dev".toList := by decide +kernel
    unfold getVersions versionsFromKeywords
    simp only [k1, Bool.false_eq_true, if_false, k2, k3, if_true, k4, k5, and_self]

/-- Hypotheses of `C86_archive_partial` met: the release is preferred to its candidate. -/
example : (getVersions ⟨decorated [.other (str "HEAD -> master"), .tag (str "v1.0rc1"), .tag (str "v1.0"),
      .tag (str "final")], str "abc123", []⟩ ⟨false, none, none, 0, []⟩ []).version = str "1.0" ∧
    (getVersions ⟨decorated [.other (str "v2"), .tag (str "final")], str "abc123", []⟩
      ⟨false, none, none, 0, []⟩ []).version = str "0+unknown" := by decide +kernel

end Openscm.Version
