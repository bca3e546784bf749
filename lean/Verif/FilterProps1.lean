import Verif.FilterLemmas
import Mathlib.Data.List.Infix
import Mathlib.Algebra.Field.Rat

/-!
# C48, C49: patterns and levels
-/

set_option linter.unusedSectionVars false

namespace Openscm

variable {K : Type} [Field K] [DecidableEq K]

/-! ## Specification -/

/-- The pattern with its stars replaced, one after the other, by the texts `ts`. -/
def fill : List Char → List (List Char) → List Char
  | [], _ => []
  | c :: p, ts =>
    if c = '*' then
      match ts with
      | [] => fill p []
      | t :: ts => t ++ fill p ts
    else c :: fill p ts

/-- `v` is `p` with each star standing for any text. -/
def Wild (p v : String) : Prop :=
  ∃ ts : List (List Char), ts.length = p.toList.count '*' ∧ v.toList = fill p.toList ts

/-- Characters that the code leaves as they are although they mean something in a regular
expression. -/
def unescaped (c : Char) : Bool := c = '[' || c = '?' || c = '^' || c = '{' || c = '\\'

/-- The stars stand for texts without newline, and a newline is allowed at the end. -/
def WildLine (p v : List Char) : Prop :=
  ∃ ts : List (List Char), ts.length = p.count '*' ∧ (∀ t ∈ ts, '\n' ∉ t) ∧
    (v = fill p ts ∨ v = fill p ts ++ ['\n'])

/-! ## The translation to a regular expression -/

def escChar (c : Char) : List Char :=
  if c = '*' then ['.', '*']
  else if c = '|' ∨ c = '.' ∨ c = '+' ∨ c = '(' ∨ c = ')' ∨ c = '$' then ['\\', c]
  else [c]

theorem replaceChar_append (c : Char) (t a b : List Char) :
    replaceChar c t (a ++ b) = replaceChar c t a ++ replaceChar c t b := by
  simp [replaceChar]

theorem flatMap_esc_step (c : Char) (t : List Char) (f : Char → List Char) (s : List Char) :
    replaceChar c t (s.flatMap f) = s.flatMap fun x => replaceChar c t (f x) := by
  induction s with
  | nil => rfl
  | cons a s ih => rw [List.flatMap_cons, replaceChar_append, ih, List.flatMap_cons]

theorem wildcardRe_eq (s : List Char) : wildcardRe s = s.flatMap escChar ++ ['$'] := by
  unfold wildcardRe
  have h0 : s = s.flatMap fun x => [x] := by simp
  congr 1
  conv => lhs; rw [h0]
  simp only [flatMap_esc_step]
  congr 1
  funext c
  by_cases h1 : c = '|'
  · subst h1; decide
  by_cases h2 : c = '.'
  · subst h2; decide
  by_cases h3 : c = '*'
  · subst h3; decide
  by_cases h4 : c = '+'
  · subst h4; decide
  by_cases h5 : c = '('
  · subst h5; decide
  by_cases h6 : c = ')'
  · subst h6; decide
  by_cases h7 : c = '$'
  · subst h7; decide
  simp [replaceChar, escChar, h1, h2, h3, h4, h5, h6, h7]

def tokChar (c : Char) : List ReTok := if c = '*' then [.atom .any, .star] else [.atom (.lit c)]

theorem reTokens_plain {c : Char} (h : unescaped c = false) (r : List Char) {l : List ReTok}
    (hr : reTokens r = .ok l) : reTokens (escChar c ++ r) = .ok (tokChar c ++ l) := by
  simp only [unescaped, Bool.or_eq_false_iff, decide_eq_false_iff_not] at h
  obtain ⟨⟨⟨⟨h1, h2⟩, h3⟩, h4⟩, h5⟩ := h
  by_cases hs : c = '*'
  · subst hs
    have e1 : reTokens ('*' :: r) = .ok (.star :: l) := by
      simp [reTokens, hr, Except.map]
    show reTokens ('.' :: '*' :: r) = _
    rw [reTokens.eq_4 _ _ (by simp) (by simp), if_pos rfl, e1]
    rfl
  · simp only [escChar, tokChar, if_neg hs]
    by_cases he : c = '|' ∨ c = '.' ∨ c = '+' ∨ c = '(' ∨ c = ')' ∨ c = '$'
    · rw [if_pos he]
      have : escapable c = true := by rcases he with rfl | rfl | rfl | rfl | rfl | rfl <;> decide
      show reTokens ('\\' :: c :: r) = _
      simp [reTokens, this, hr, Except.map]
    · rw [if_neg he]
      simp only [not_or] at he
      obtain ⟨a1, a2, a3, a4, a5, a6⟩ := he
      show reTokens (c :: r) = _
      rw [reTokens.eq_4 _ _ (fun h => absurd h h5) (fun _ _ h => absurd h h5)]
      simp [*, Except.map]

theorem reTokens_wild {s : List Char} (h : ∀ c ∈ s, unescaped c = false) :
    reTokens (s.flatMap escChar ++ ['$']) = .ok (s.flatMap tokChar ++ [.atom .eol]) := by
  induction s with
  | nil => decide
  | cons c s ih =>
    simp only [List.flatMap_cons, List.append_assoc]
    exact reTokens_plain (h c (by simp)) _ (ih fun x hx => h x (by simp [hx]))

def itemChar (c : Char) : List ReItem := if c = '*' then [.star .any] else [.one (.lit c)]

theorem reItems_wild (s : List Char) (prev : RePrev) :
    reItems prev (s.flatMap tokChar ++ [.atom .eol]) = .ok (prev.items ++ (s.flatMap itemChar ++ [.one .eol])) := by
  induction s generalizing prev with
  | nil => simp [reItems, Except.map, RePrev.items]
  | cons c s ih =>
    simp only [List.flatMap_cons, List.append_assoc]
    by_cases hs : c = '*'
    · subst hs
      show reItems prev (.atom .any :: .star :: (s.flatMap tokChar ++ [.atom .eol])) = _
      simp only [reItems, RePrev.quant, ih, Except.map]
      simp [RePrev.items, itemChar]
    · simp only [tokChar, itemChar, if_neg hs]
      show reItems prev (.atom (.lit c) :: (s.flatMap tokChar ++ [.atom .eol])) = _
      simp only [reItems, ih, Except.map]
      simp [RePrev.items]

theorem wildcard_compile {s : List Char} (h : ∀ c ∈ s, unescaped c = false) :
    reCompile (wildcardRe s) = .ok (s.flatMap itemChar ++ [.one .eol]) := by
  unfold reCompile
  rw [wildcardRe_eq, reTokens_wild h]
  simp only [reItems_wild]
  rfl

theorem tails_any {P : Bool × List Char → Bool} (st : Bool) (v : List Char) :
    (Atom.any.tails st v).any P = true ↔
      ∃ t rest st', v = t ++ rest ∧ '\n' ∉ t ∧ P (st', rest) = true ∧ (t = [] → st' = st) ∧ (t ≠ [] → st' = false) := by
  induction v generalizing st with
  | nil =>
    simp only [Atom.tails, List.any_cons, List.any_nil, Bool.or_false]
    constructor
    · intro h
      exact ⟨[], [], st, rfl, by simp, h, fun _ => rfl, fun h => absurd rfl h⟩
    · rintro ⟨t, rest, st', h1, -, h2, h3, -⟩
      have h1 := h1.symm
      simp only [List.append_eq_nil_iff] at h1
      rw [h1.2, h3 h1.1] at h2
      exact h2
  | cons x r ih =>
    simp only [Atom.tails, List.any_cons, Bool.or_eq_true]
    constructor
    · rintro (h | h)
      · exact ⟨[], x :: r, st, rfl, by simp, h, fun _ => rfl, fun h => absurd rfl h⟩
      · by_cases hx : x = '\n'
        · simp [Atom.step, hx] at h
        · simp only [Atom.step, if_neg hx] at h
          obtain ⟨t, rest, st', h1, h2, h3, h4, h5⟩ := (ih false).1 h
          refine ⟨x :: t, rest, st', by rw [h1]; rfl, by simp [h2, Ne.symm hx], h3, by simp, fun _ => ?_⟩
          by_cases ht : t = []
          · exact h4 ht
          · exact h5 ht
    · rintro ⟨t, rest, st', h1, h2, h3, h4, h5⟩
      cases t with
      | nil =>
        left
        rw [h1, ← h4 rfl]
        exact h3
      | cons y t =>
        right
        simp only [List.cons_append, List.cons.injEq] at h1
        obtain ⟨rfl, rfl⟩ := h1
        have hx : x ≠ '\n' := by rintro rfl; simp at h2
        simp only [Atom.step, if_neg hx]
        refine (ih false).2 ⟨t, rest, st', rfl, fun h => h2 (by simp [h]), h3, ?_, ?_⟩
        · intro _; exact h5 (by simp)
        · intro _; exact h5 (by simp)

theorem reMatch_wild (s : List Char) (st : Bool) (v : List Char) :
    reMatch (s.flatMap itemChar ++ [.one .eol]) st v = true ↔ WildLine s v := by
  induction s generalizing st v with
  | nil =>
    simp only [List.flatMap_nil, List.nil_append, reMatch, Atom.step, WildLine, fill, List.count_nil,
      List.length_eq_zero_iff]
    by_cases h : v = [] ∨ v = ['\n']
    · rw [if_pos h]
      simp only [true_iff]
      exact ⟨[], rfl, by simp, h⟩
    · rw [if_neg h]
      simp only [Bool.false_eq_true, false_iff]
      rintro ⟨ts, -, -, h2⟩
      exact h h2
  | cons c s ih =>
    by_cases hs : c = '*'
    · subst hs
      show (Atom.any.tails st v).any (fun p => reMatch (s.flatMap itemChar ++ [.one .eol]) p.1 p.2) = true ↔ _
      rw [tails_any]
      constructor
      · rintro ⟨t, rest, st', rfl, h2, h3, -⟩
        obtain ⟨ts, a1, a2, a3⟩ := (ih st' rest).1 h3
        refine ⟨t :: ts, by simp [a1], ?_, ?_⟩
        · intro u hu
          rcases List.mem_cons.1 hu with rfl | hu
          · exact h2
          · exact a2 u hu
        · simp only [fill, if_true]
          rcases a3 with rfl | rfl
          · exact .inl rfl
          · exact .inr (by simp)
      · rintro ⟨ts, a1, a2, a3⟩
        cases ts with
        | nil => simp at a1
        | cons t ts =>
          simp only [fill, if_true] at a3
          have key : ∀ rest, (rest = fill s ts ∨ rest = fill s ts ++ ['\n']) → v = t ++ rest →
              ∃ t' rest' st', v = t' ++ rest' ∧ '\n' ∉ t' ∧
                reMatch (s.flatMap itemChar ++ [.one .eol]) st' rest' = true ∧ (t' = [] → st' = st) ∧
                (t' ≠ [] → st' = false) := by
            intro rest h1 h2
            have hw : WildLine s rest := ⟨ts, by simpa using a1, fun u hu => a2 u (by simp [hu]), h1⟩
            refine ⟨t, rest, if t = [] then st else false, h2, a2 t (by simp), (ih _ _).2 hw, ?_, ?_⟩
            · intro h; rw [if_pos h]
            · intro h; rw [if_neg h]
          rcases a3 with h | h
          · exact key _ (.inl rfl) h
          · exact key _ (.inr rfl) (by rw [h]; simp)
    · have hi : itemChar c = [.one (.lit c)] := by simp [itemChar, hs]
      rw [List.flatMap_cons, hi]
      show (match (Atom.lit c).step st v with
        | none => false
        | some (st', s') => reMatch (s.flatMap itemChar ++ [.one .eol]) st' s') = true ↔ _
      have hcount : (c :: s).count '*' = s.count '*' := by rw [List.count_cons]; simp [hs]
      cases v with
      | nil =>
        simp only [Atom.step, Bool.false_eq_true, false_iff]
        rintro ⟨ts, -, -, h⟩
        simp [fill, hs] at h
      | cons x v =>
        simp only [Atom.step]
        by_cases hx : x = c
        · subst hx
          simp only [if_true, ih]
          unfold WildLine
          rw [hcount]
          simp [fill, hs]
        · simp only [if_neg hx, Bool.false_eq_true, false_iff]
          rintro ⟨ts, -, -, h⟩
          simp [fill, hs, hx] at h

theorem WildLine_iff {p v : String} (h : '\n' ∉ v.toList) : WildLine p.toList v.toList ↔ Wild p v := by
  constructor
  · rintro ⟨ts, h1, h2, h3 | h3⟩
    · exact ⟨ts, h1, h3⟩
    · rw [h3] at h; simp at h
  · rintro ⟨ts, h1, h2⟩
    rw [h2] at h
    generalize p.toList = q at *
    obtain ⟨h3, h4⟩ : (∀ t ∈ ts, '\n' ∉ t) ∧ True := by
      refine ⟨?_, trivial⟩
      clear h2
      induction q generalizing ts with
      | nil =>
        have : ts = [] := by simpa using h1
        subst this; simp
      | cons c q ih =>
        by_cases hs : c = '*'
        · subst hs
          cases ts with
          | nil => simp at h1
          | cons t ts =>
            simp only [fill, if_true, List.mem_append, not_or] at h
            intro u hu
            rcases List.mem_cons.1 hu with rfl | hu
            · exact h.1
            · exact ih ts h.2 (by simpa using h1) u hu
        · have hcount : (c :: q).count '*' = q.count '*' := by rw [List.count_cons]; simp [hs]
          simp only [fill, if_neg hs, List.mem_cons, not_or] at h
          exact ih ts h.2 (by rw [h1, hcount])
    exact ⟨ts, h1, h3, .inl h2⟩

/-! ## C48 -/

/-- C48, exactly as the code has it: a filter of patterns without `[ ? ^ { \` accepts every column of
strings and selects the values in which the stars stand for texts without newline, with or without an
additional newline at the end. -/
theorem C48_exact (sep : String) (hasNan : Bool) (pats : List String) (col : List String) (hp : pats ≠ [])
    (h : ∀ p ∈ pats, ∀ c ∈ p.toList, unescaped c = false) :
    ∃ m, patternMatch (K := K) sep none false hasNan (col.map .str) (.list (pats.map .str)) = .ok m ∧
      m.length = col.length ∧
      ∀ (i : Nat) (v : String), col[i]? = some v →
        (m[i]? = some true ↔ ∃ p ∈ pats, WildLine p.toList v.toList) := by
  have hs : ∀ p ∈ pats, strTest (K := K) sep none false p
      = .ok fun m => reMatch (p.toList.flatMap itemChar ++ [.one .eol]) true m.toList := by
    intro p hm
    unfold strTest
    simp only [Bool.false_eq_true, if_false]
    rw [wildcard_compile (h p hm)]
  refine ⟨_, patternMatch_iff.2 ⟨?_, ?_, ?_, rfl⟩, by simp, ?_⟩
  · simpa [PyArg.values] using hp
  · intro v hv
    simp only [PyArg.values, List.mem_map] at hv
    obtain ⟨p, hm, rfl⟩ := hv
    exact ⟨_, hs p hm⟩
  · intro x hx
    obtain ⟨s, -, rfl⟩ := List.mem_map.1 hx
    exact ⟨rfl, fun _ => by simp [filterText]⟩
  · intro i v hv
    simp only [List.getElem?_map, hv, Option.map_some, Option.some.injEq, PyArg.values, List.any_map, List.any_eq_true,
      Function.comp]
    constructor
    · rintro ⟨p, hm, hh⟩
      refine ⟨p, hm, (reMatch_wild _ true _).1 ?_⟩
      simpa [hit, givenLevel, hs p hm, filterText] using hh
    · rintro ⟨p, hm, hh⟩
      refine ⟨p, hm, ?_⟩
      simpa [hit, givenLevel, hs p hm, filterText] using (reMatch_wild _ true _).2 hh

/-- C48 for patterns without `[ ? ^ { \` and values without newline: selected is exactly what equals one
of the patterns with each star standing for some text. Missing for the full claim: see the witnesses
below. -/
theorem C48_partial (sep : String) (hasNan : Bool) (pats : List String) (col : List String) (hp : pats ≠ [])
    (h : ∀ p ∈ pats, ∀ c ∈ p.toList, unescaped c = false) :
    ∃ m, patternMatch (K := K) sep none false hasNan (col.map .str) (.list (pats.map .str)) = .ok m ∧
      m.length = col.length ∧
      ∀ (i : Nat) (v : String), col[i]? = some v → '\n' ∉ v.toList →
        (m[i]? = some true ↔ ∃ p ∈ pats, Wild p v) := by
  obtain ⟨m, h1, h2, h3⟩ := C48_exact (K := K) sep hasNan pats col hp h
  refine ⟨m, h1, h2, fun i v hv hn => (h3 i v hv).trans ?_⟩
  simp only [WildLine_iff hn]

example : patternMatch (K := ℚ) "|" none false true
    (["Emissions|CO2", "Emissions|CO2|AFOLU", "Emissions.CO2", "x(y)$"].map .str)
    (.list [.str "Emissions|*", .str "*(*)$"]) = .ok [true, true, false, true] := by decide +kernel

/-- C48 does not hold for `?`: the value itself is not selected, but one without the last character is. -/
theorem C48_question : patternMatch (K := ℚ) "|" none false true (["CO2?", "CO2", "CO"].map .str)
    (.val (.str "CO2?")) = .ok [false, true, true] := by decide +kernel

/-- C48 does not hold for `^`. -/
theorem C48_caret : patternMatch (K := ℚ) "|" none false true (["a^b", "ab"].map .str) (.val (.str "a^b"))
    = .ok [false, false] := by decide +kernel

/-- C48 does not hold for a backslash at the end: it makes the end of the value free. -/
theorem C48_backslash : patternMatch (K := ℚ) "|" none false true (["a\\", "a$", "a$bc"].map .str)
    (.val (.str "a\\")) = .ok [false, true, true] := by decide +kernel

/-- C48 does not hold for values with a newline. -/
theorem C48_newline : patternMatch (K := ℚ) "|" none false true (["a\n", "a\nb", "a"].map .str)
    (.val (.str "a")) = .ok [true, false, true] ∧
  patternMatch (K := ℚ) "|" none false true (["a\n", "a\nb", "a"].map .str)
    (.val (.str "*")) = .ok [true, false, true] := by decide +kernel

/-! ## C49 -/

/-- `w` is `v` without the occurrences of `old`, found from left to right without overlap. -/
inductive Removed (old : List Char) : List Char → List Char → Prop
  | done : Removed old [] []
  | found {v w : List Char} : old ≠ [] → Removed old v w → Removed old (old ++ v) w
  | skip {c : Char} {v w : List Char} : (old = [] ∨ ¬ old <+: c :: v) → Removed old v w → Removed old (c :: v) (c :: w)

/-- `n` is the number of occurrences of the nonempty text `sep` in `v`, found from left to right without
overlap. -/
inductive Counted (sep : List Char) : List Char → Nat → Prop
  | done : Counted sep [] 0
  | found {v : List Char} {n : Nat} : Counted sep v n → Counted sep (sep ++ v) (n + 1)
  | skip {c : Char} {v : List Char} {n : Nat} : ¬ sep <+: c :: v → Counted sep v n → Counted sep (c :: v) n

/-- The number written by decimal digits. -/
def decimal (ds : List Char) : Nat := ds.foldl (fun a c => a * 10 + (c.toNat - '0'.toNat)) 0

/-- What a level demands of the depth: a number, `"n-"` or `"n+"`. -/
inductive LevelMeans : PyArg K → (Nat → Prop) → Prop
  | exact (n : Nat) : LevelMeans (.val (.int n)) (fun d => d = n)
  | upTo {ds : List Char} : ds ≠ [] → (∀ c ∈ ds, c.isDigit = true) →
      LevelMeans (.val (.str (String.ofList (ds ++ ['-'])))) (fun d => d ≤ decimal ds)
  | from {ds : List Char} : ds ≠ [] → (∀ c ∈ ds, c.isDigit = true) →
      LevelMeans (.val (.str (String.ofList (ds ++ ['+'])))) (fun d => decimal ds ≤ d)

theorem removeText_drop (old : List Char) (k : Nat) (v : List Char) (h : k ≤ v.length) :
    removeText old k v = removeText old 0 (v.drop k) := by
  induction k generalizing v with
  | zero => rfl
  | succ k ih =>
    cases v with
    | nil => simp at h
    | cons c v =>
      rw [removeText, ih v (by simpa using h)]
      rfl

theorem removed_removeText (old v : List Char) : Removed old v (removeText old 0 v) := by
  induction hn : v.length using Nat.strong_induction_on generalizing v with
  | _ n ih =>
    cases v with
    | nil => exact .done
    | cons c r =>
      rw [removeText]
      by_cases hp : old ≠ [] ∧ old.isPrefixOf (c :: r) = true
      · rw [if_pos hp]
        obtain ⟨h1, h2⟩ := hp
        rw [List.isPrefixOf_iff_prefix] at h2
        obtain ⟨v', hv⟩ := h2
        have hl : 0 < old.length := List.length_pos_iff.2 h1
        have hlen := congrArg List.length hv
        simp only [List.length_append, List.length_cons] at hlen hn
        rw [removeText_drop _ _ _ (by omega)]
        have : r.drop (old.length - 1) = v' := by
          cases old with
          | nil => exact absurd rfl h1
          | cons a old =>
            simp only [List.cons_append, List.cons.injEq] at hv
            rw [← hv.2]
            simp
        rw [this, ← hv]
        exact .found h1 (ih v'.length (by omega) v' rfl)
      · rw [if_neg hp]
        refine .skip ?_ (ih r.length (by simp at hn; omega) r rfl)
        by_cases h1 : old = []
        · exact .inl h1
        · right
          intro h2
          exact hp ⟨h1, List.isPrefixOf_iff_prefix.2 h2⟩

theorem Removed.eq {old v w : List Char} (h : Removed old v w) : w = removeText old 0 v := by
  induction h with
  | done => rfl
  | @found v w h1 h2 ih =>
    cases hv : old ++ v with
    | nil => simp at hv; exact absurd hv.1 h1
    | cons c r =>
      have hp : old.isPrefixOf (c :: r) = true := List.isPrefixOf_iff_prefix.2 ⟨v, hv⟩
      rw [removeText, if_pos ⟨h1, hp⟩]
      have hl : 0 < old.length := List.length_pos_iff.2 h1
      have hlen := congrArg List.length hv
      simp only [List.length_append, List.length_cons] at hlen
      rw [removeText_drop _ _ _ (by omega), ih]
      congr 1
      cases old with
      | nil => exact absurd rfl h1
      | cons a old =>
        simp only [List.cons_append, List.cons.injEq] at hv
        rw [← hv.2]
        simp
  | @skip c v w h1 h2 ih =>
    rw [removeText, if_neg, ih]
    rintro ⟨a, b⟩
    rcases h1 with h1 | h1
    · exact a h1
    · exact h1 (List.isPrefixOf_iff_prefix.1 b)

theorem countText_drop (sep : List Char) (k : Nat) (v : List Char) (h : k ≤ v.length) :
    countText sep k v = countText sep 0 (v.drop k) := by
  induction k generalizing v with
  | zero => rfl
  | succ k ih =>
    cases v with
    | nil => simp at h
    | cons c v =>
      rw [countText, ih v (by simpa using h)]
      rfl

theorem counted_iff {sep : List Char} (hs : sep ≠ []) {v : List Char} {n : Nat} :
    Counted sep v n ↔ n = countText sep 0 v := by
  constructor
  · intro h
    induction h with
    | done => simp [countText, hs]
    | @found v n h2 ih =>
      cases hv : sep ++ v with
      | nil => simp at hv; exact absurd hv.1 hs
      | cons c r =>
        have hp : sep.isPrefixOf (c :: r) = true := List.isPrefixOf_iff_prefix.2 ⟨v, hv⟩
        rw [countText, if_pos hp]
        have hl : 0 < sep.length := List.length_pos_iff.2 hs
        have hlen := congrArg List.length hv
        simp only [List.length_append, List.length_cons] at hlen
        rw [countText_drop _ _ _ (by omega), ih, Nat.add_comm]
        congr 2
        cases sep with
        | nil => exact absurd rfl hs
        | cons a sep =>
          simp only [List.cons_append, List.cons.injEq] at hv
          rw [← hv.2]
          simp
    | @skip c v n h1 h2 ih =>
      rw [countText, if_neg, ih]
      exact fun b => h1 (List.isPrefixOf_iff_prefix.1 b)
  · rintro rfl
    induction hn : v.length using Nat.strong_induction_on generalizing v with
    | _ n ih =>
      cases v with
      | nil => rw [countText, if_neg hs]; exact .done
      | cons c r =>
        rw [countText]
        by_cases hp : sep.isPrefixOf (c :: r) = true
        · rw [if_pos hp]
          have h2 := List.isPrefixOf_iff_prefix.1 hp
          obtain ⟨v', hv⟩ := h2
          have hl : 0 < sep.length := List.length_pos_iff.2 hs
          have hlen := congrArg List.length hv
          simp only [List.length_append, List.length_cons] at hlen hn
          rw [countText_drop _ _ _ (by omega)]
          have : r.drop (sep.length - 1) = v' := by
            cases sep with
            | nil => exact absurd rfl hs
            | cons a sep =>
              simp only [List.cons_append, List.cons.injEq] at hv
              rw [← hv.2]
              simp
          rw [this, ← hv, Nat.add_comm]
          exact .found (ih v'.length (by omega) rfl)
        · rw [if_neg hp]
          exact .skip (fun h => hp (List.isPrefixOf_iff_prefix.2 h)) (ih r.length (by simp at hn; omega) rfl)

theorem pyDigits_decimal {ds : List Char} (h : ∀ c ∈ ds, c.isDigit = true) (acc : Nat) :
    pyDigits acc ds = some (ds.foldl (fun a c => a * 10 + (c.toNat - '0'.toNat)) acc) := by
  induction ds generalizing acc with
  | nil => simp [pyDigits]
  | cons c r ih =>
    have hc := h c (by simp)
    have hne : c ≠ '_' := by rintro rfl; exact absurd hc (by decide)
    rw [pyDigits.eq_3 _ _ _ (fun _ _ e => absurd e hne), if_pos hc, ih (fun x hx => h x (by simp [hx]))]
    rfl

theorem pyInt_decimal {ds : List Char} (hne : ds ≠ []) (h : ∀ c ∈ ds, c.isDigit = true) :
    pyInt ds = .ok (decimal ds) := by
  have hsp : ∀ c : Char, c.isDigit = true → pySpace c = false := by
    intro c hc
    simp only [pySpace, Bool.or_eq_false_iff, decide_eq_false_iff_not]
    refine ⟨⟨⟨⟨⟨?_, ?_⟩, ?_⟩, ?_⟩, ?_⟩, ?_⟩ <;> (rintro rfl; exact absurd hc (by decide))
  have hd : ∀ l : List Char, (∀ c ∈ l, c.isDigit = true) → l.dropWhile pySpace = l := by
    intro l hl
    cases l with
    | nil => rfl
    | cons a l => rw [List.dropWhile_cons_of_neg]; simp [hsp a (hl a (by simp))]
  unfold pyInt
  rw [hd ds h, hd ds.reverse (fun c hc => h c (by simpa using hc)), List.reverse_reverse]
  cases ds with
  | nil => exact absurd rfl hne
  | cons c r =>
    have hc := h c (by simp)
    have h1 : c ≠ '-' := by rintro rfl; exact absurd hc (by decide)
    have h2 : c ≠ '+' := by rintro rfl; exact absurd hc (by decide)
    have : pyNat (c :: r) = some (decimal (c :: r)) := by
      rw [pyNat, if_pos hc, pyDigits_decimal (fun x hx => h x (by simp [hx]))]
      simp [decimal]
    simp only
    split
    · rename_i heq
      split at heq
      · rename_i e; simp only [List.cons.injEq] at e; exact absurd e.1 h1
      · rename_i e; simp only [List.cons.injEq] at e; exact absurd e.1 h2
      · rw [this] at heq; simp at heq
    · rename_i heq
      split at heq
      · rename_i e; simp only [List.cons.injEq] at e; exact absurd e.1 h1
      · rename_i e; simp only [List.cons.injEq] at e; exact absurd e.1 h2
      · rw [this] at heq
        cases heq
        rfl

theorem levelTest_means {level : PyArg K} {P : Nat → Prop} (h : LevelMeans level P) :
    ∃ t, levelTest level = .ok t ∧ ∀ d, t d = true ↔ P d := by
  cases h with
  | exact n =>
    refine ⟨_, rfl, fun d => ?_⟩
    simp only [PyVal.eq, decide_eq_true_eq, Nat.cast_inj]
    exact eq_comm
  | @upTo ds h1 h2 =>
    refine ⟨fun x => ((x : Int) ≤ (decimal ds : Int) : Bool), ?_, fun d => ?_⟩
    · unfold levelTest
      simp [pyInt_decimal h1 h2]
    · simp
  | @«from» ds h1 h2 =>
    refine ⟨fun x => ((decimal ds : Int) ≤ (x : Int) : Bool), ?_, fun d => ?_⟩
    · unfold levelTest
      simp [pyInt_decimal h1 h2]
    · simp

theorem LevelMeans.given {level : PyArg K} {P : Nat → Prop} (h : LevelMeans level P) :
    givenLevel (some level) = some level := by
  cases h <;> rfl

/-- C49: with a level, a value is selected exactly when it matches the pattern and the number of
separators left after removing the fixed text of the pattern is as the level says. -/
theorem C49_level (sep : String) (hsep : sep.toList ≠ []) (hasNan : Bool) (p : String) (col : List String)
    (hp : ∀ c ∈ p.toList, unescaped c = false) {level : PyArg K} {P : Nat → Prop} (hl : LevelMeans level P) :
    ∃ m, patternMatch sep (some level) false hasNan (col.map .str) (.val (.str p)) = .ok m ∧
      m.length = col.length ∧
      ∀ (i : Nat) (v : String), col[i]? = some v →
        (m[i]? = some true ↔ WildLine p.toList v.toList ∧
          ∃ w d, Removed (p.toList.filter (· ≠ '*')) v.toList w ∧ Counted sep.toList w d ∧ P d) := by
  obtain ⟨t, ht, hP⟩ := levelTest_means hl
  have hs : strTest sep (some level) false p = .ok fun m =>
      reMatch (p.toList.flatMap itemChar ++ [.one .eol]) true m.toList && t (depthBelow sep p m) := by
    unfold strTest
    simp only [Bool.false_eq_true, if_false]
    rw [wildcard_compile hp]
    simp only [ht]
  refine ⟨_, patternMatch_iff.2 ⟨by simp [PyArg.values], ?_, ?_, rfl⟩, by simp, ?_⟩
  · intro v hv
    simp only [PyArg.values, List.mem_singleton] at hv
    subst hv
    rw [hl.given]
    exact ⟨_, hs⟩
  · intro x hx
    obtain ⟨s, -, rfl⟩ := List.mem_map.1 hx
    exact ⟨rfl, fun _ => by simp [filterText]⟩
  · intro i v hv
    simp only [List.getElem?_map, hv, Option.map_some, Option.some.injEq, PyArg.values, List.any_cons, List.any_nil,
      Bool.or_false, hit, hl.given, hs, filterText, Bool.and_eq_true, reMatch_wild, hP, depthBelow]
    refine and_congr_right fun _ => ?_
    constructor
    · intro h
      exact ⟨_, _, removed_removeText _ _, (counted_iff hsep).2 rfl, h⟩
    · rintro ⟨w, d, h1, h2, h3⟩
      rw [h1.eq] at h2
      rw [(counted_iff hsep).1 h2] at h3
      exact h3

/-- Levels that are not a number or a number with `-` or `+` are refused. -/
theorem C49_refused (sep : String) (hasNan regexp : Bool) (p : String) (col : List (PyVal K)) (s : String) (c : Char)
    (hs : s.toList.getLast? = some c) (h1 : c ≠ '-') (h2 : c ≠ '+') (m : List Bool) :
    patternMatch sep (some (.val (.str s))) regexp hasNan col (.val (.str p)) ≠ .ok m := by
  intro h
  obtain ⟨-, h, -⟩ := patternMatch_iff.1 h
  obtain ⟨f, hf⟩ := h (.str p) (by simp [PyArg.values])
  unfold strTest at hf
  simp only [givenLevel, levelTest, hs, if_neg h1, if_neg h2] at hf
  split at hf <;> simp at hf

/-- The depths up to `n` and from `n + 1` on partition the matching values, and those of depth `n` are
those up to `n` and from `n` on. -/
theorem C49_partition {level upTo from_ : PyArg K} {n : Nat} {A B : Nat → Prop}
    (h1 : LevelMeans level (fun d => d = n)) (h2 : LevelMeans upTo A) (hA : ∀ d, A d ↔ d ≤ n)
    (h3 : LevelMeans from_ B) (hB : ∀ d, B d ↔ n ≤ d) (sep : String) (hasNan : Bool) (p : String) (col : List String)
    (hp : ∀ c ∈ p.toList, unescaped c = false) :
    ∃ me mu mf m, patternMatch sep (some level) false hasNan (col.map .str) (.val (.str p)) = .ok me ∧
      patternMatch sep (some upTo) false hasNan (col.map .str) (.val (.str p)) = .ok mu ∧
      patternMatch sep (some from_) false hasNan (col.map .str) (.val (.str p)) = .ok mf ∧
      patternMatch (K := K) sep none false hasNan (col.map .str) (.val (.str p)) = .ok m ∧
      me = List.zipWith (· && ·) mu mf ∧ m = List.zipWith (· || ·) mu mf := by
  have key : ∀ {lv : PyArg K} {P : Nat → Prop}, LevelMeans lv P → ∃ t : Nat → Bool, (∀ d, t d = true ↔ P d) ∧
      patternMatch sep (some lv) false hasNan (col.map .str) (.val (.str p)) = .ok (col.map fun v =>
        reMatch (p.toList.flatMap itemChar ++ [.one .eol]) true v.toList && t (depthBelow sep p v)) := by
    intro lv P hl
    obtain ⟨t, ht, hP⟩ := levelTest_means hl
    refine ⟨t, hP, patternMatch_iff.2 ⟨by simp [PyArg.values], ?_, ?_, ?_⟩⟩
    · intro v hv
      simp only [PyArg.values, List.mem_singleton] at hv
      subst hv
      rw [hl.given]
      refine ⟨fun m => reMatch (p.toList.flatMap itemChar ++ [.one .eol]) true m.toList && t (depthBelow sep p m), ?_⟩
      unfold strTest
      simp only [Bool.false_eq_true, if_false]
      rw [wildcard_compile hp]
      simp only [ht]
    · intro x hx
      obtain ⟨s, -, rfl⟩ := List.mem_map.1 hx
      exact ⟨rfl, fun _ => by simp [filterText]⟩
    · rw [List.map_map]
      refine List.map_congr_left fun v _ => ?_
      simp only [Function.comp, PyArg.values, List.any_cons, List.any_nil, Bool.or_false, hit, hl.given, strTest,
        Bool.false_eq_true, if_false, wildcard_compile hp, ht, filterText]
  have keyN : patternMatch (K := K) sep none false hasNan (col.map .str) (.val (.str p)) = .ok (col.map fun v =>
        reMatch (p.toList.flatMap itemChar ++ [.one .eol]) true v.toList) := by
    refine patternMatch_iff.2 ⟨by simp [PyArg.values], ?_, ?_, ?_⟩
    · intro v hv
      simp only [PyArg.values, List.mem_singleton] at hv
      subst hv
      refine ⟨fun m => reMatch (p.toList.flatMap itemChar ++ [.one .eol]) true m.toList, ?_⟩
      unfold strTest
      simp only [Bool.false_eq_true, if_false]
      rw [wildcard_compile hp]
      rfl
    · intro x hx
      obtain ⟨s, -, rfl⟩ := List.mem_map.1 hx
      exact ⟨rfl, fun _ => by simp [filterText]⟩
    · rw [List.map_map]
      refine List.map_congr_left fun v _ => ?_
      simp only [Function.comp, PyArg.values, List.any_cons, List.any_nil, Bool.or_false, hit, givenLevel, strTest,
        Bool.false_eq_true, if_false, wildcard_compile hp, filterText]
  obtain ⟨t1, a1, b1⟩ := key h1
  obtain ⟨t2, a2, b2⟩ := key h2
  obtain ⟨t3, a3, b3⟩ := key h3
  refine ⟨_, _, _, _, b1, b2, b3, keyN, ?_, ?_⟩
  · rw [zipWith_map_self]
    refine List.map_congr_left fun v _ => ?_
    rw [Bool.eq_iff_iff]
    simp only [Bool.and_eq_true, a1, a2, a3, hA, hB]
    constructor
    · rintro ⟨x, rfl⟩; exact ⟨⟨x, le_refl _⟩, x, le_refl _⟩
    · rintro ⟨⟨x, y⟩, -, z⟩; exact ⟨x, le_antisymm y z⟩
  · rw [zipWith_map_self]
    refine List.map_congr_left fun v _ => ?_
    rw [Bool.eq_iff_iff]
    simp only [Bool.or_eq_true, Bool.and_eq_true, a2, a3, hA, hB]
    constructor
    · intro x
      rcases le_total (depthBelow sep p v) n with h | h
      · exact .inl ⟨x, h⟩
      · exact .inr ⟨x, h⟩
    · rintro (⟨x, -⟩ | ⟨x, -⟩) <;> exact x

theorem countText_char (c : Char) (v : List Char) : countText [c] 0 v = v.count c := by
  induction v with
  | nil => simp [countText]
  | cons a v ih =>
    rw [countText]
    by_cases h : a = c
    · subst h
      simp [ih, Nat.add_comm]
    · have : List.isPrefixOf [c] (a :: v) = false := by simp [List.isPrefixOf, Ne.symm h]
      simp [this, ih, h]

theorem removeText_none {old v : List Char} (h : ¬ old <:+: v) : removeText old 0 v = v := by
  induction v with
  | nil => rfl
  | cons c v ih =>
    rw [removeText, if_neg, ih]
    · exact fun h' => h (h'.trans (List.suffix_cons c v).isInfix)
    · rintro ⟨-, h'⟩
      exact h (List.isPrefixOf_iff_prefix.1 h').isInfix

/-- The usual case: below `pre`, the values of depth `n` are those with `n` separators after `pre`,
unless `pre` occurs again. -/
theorem C49_below (pre rest : String) (hpre : pre.toList ≠ []) (hstar : '*' ∉ pre.toList)
    (hocc : ¬ pre.toList <:+: rest.toList) :
    depthBelow "|" (pre ++ "*") (pre ++ rest) = rest.toList.count '|' := by
  unfold depthBelow
  have h1 : ((pre ++ "*").toList.filter (· ≠ '*')) = pre.toList := by
    rw [String.toList_append, List.filter_append]
    have : (pre.toList.filter (· ≠ '*')) = pre.toList :=
      List.filter_eq_self.2 (by intro c hc; simp; rintro rfl; exact hstar hc)
    rw [this]
    simp
  rw [h1, String.toList_append]
  have h2 : removeText pre.toList 0 (pre.toList ++ rest.toList) = rest.toList := by
    have h := (Removed.found (v := rest.toList) (w := rest.toList) hpre
      (by have := removed_removeText pre.toList rest.toList; rwa [removeText_none hocc] at this)).eq
    exact h.symm
  rw [h2]
  exact countText_char '|' _

/-- If `pre` occurs again the separators in it are not counted either. -/
example : depthBelow "|" "A|*" "A|x|A|b" = 1 := by decide

example : patternMatch (K := ℚ) "|" (some (.val (.int 1))) false true
    (["Emissions|CO2", "Emissions|CO2|AFOLU", "Emissions|CO2|AFOLU|Soil", "Other|x|y"].map .str)
    (.val (.str "Emissions|*")) = .ok [false, true, false, false] := by decide +kernel

example : LevelMeans (K := ℚ) (.val (.str "12-")) (fun d => d ≤ 12) :=
  .upTo (ds := ['1', '2']) (by simp) (by decide)

end Openscm
