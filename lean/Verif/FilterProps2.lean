import Verif.FilterTime
import Mathlib.Data.List.Infix
import Mathlib.Algebra.Field.Rat

/-!
# C50: filtering by names of months and weekdays
-/

set_option linter.unusedSectionVars false

namespace Openscm

variable {K : Type} [Field K] [DecidableEq K]

/-! ## Specification -/

def shortMonths : List String :=
  ["jan", "feb", "mar", "apr", "may", "jun", "jul", "aug", "sep", "oct", "nov", "dec"]
def longMonths : List String :=
  ["january", "february", "march", "april", "may", "june", "july", "august", "september", "october", "november",
    "december"]
def shortDays : List String := ["mon", "tue", "wed", "thu", "fri", "sat", "sun"]
def longDays : List String := ["monday", "tuesday", "wednesday", "thursday", "friday", "saturday", "sunday"]

/-- `s` is the name of number `k` in a list of names that starts with number `first`, in any mixture of
upper and lower case. -/
def NameOf (names : List String) (first : Int) (s : List Char) (k : Int) : Prop :=
  ∃ i : Nat, k = first + i ∧ names[i]? = some (String.ofList (s.map Char.toLower))

/-- What an entry of a list of names and ranges stands for: a name stands for its number, `a-b` for the
numbers from that of `a` to that of `b`. Names outside ranges are all short or all long. -/
inductive Stands (short long : List String) (first : Int) (isShort : Bool) : String → (Int → Prop) → Prop
  | name {s : String} {k : Int} : NameOf (if isShort then short else long) first s.toList k →
      Stands short long first isShort s (fun n => n = k)
  | range {a b : List Char} {i j : Int} (form : Bool) : NameOf (if form then short else long) first a i →
      NameOf (if form then short else long) first b j → i ≤ j →
      Stands short long first isShort (String.ofList (a ++ '-' :: b)) (fun n => i ≤ n ∧ n ≤ j)

/-- Entries with a dash. -/
def ranges (l : List String) : List String := l.filter fun s => '-' ∈ s.toList

/-! ## Facts about the tables -/

/-- A table as the specification has it, with what is needed of the names. -/
structure TableOk (tbl : NameTable) (short long : List String) : Prop where
  short_eq : tbl.short = short.map String.toList
  long_eq : tbl.long = long.map String.toList
  short_nodup : short.Nodup
  long_nodup : long.Nodup
  short_dash : ∀ s ∈ short, '-' ∉ s.toList
  long_dash : ∀ s ∈ long, '-' ∉ s.toList
  agree : ∀ s ∈ short, ∀ i < short.length, ∀ j < long.length, short[i]? = some s → long[j]? = some s → i = j

theorem monthTable_ok : TableOk monthTable shortMonths longMonths where
  short_eq := by decide +kernel
  long_eq := by decide +kernel
  short_nodup := by decide +kernel
  long_nodup := by decide +kernel
  short_dash := by decide +kernel
  long_dash := by decide +kernel
  agree := by decide +kernel

theorem dayTable_ok : TableOk dayTable shortDays longDays where
  short_eq := by decide +kernel
  long_eq := by decide +kernel
  short_nodup := by decide +kernel
  long_nodup := by decide +kernel
  short_dash := by decide +kernel
  long_dash := by decide +kernel
  agree := by decide +kernel

theorem ofList_map_lower (s : List Char) : (String.ofList (s.map Char.toLower)).toList = s.map Char.toLower := by
  simp

theorem strptime_iff {names : List String} (hn : names.Nodup) {first : Int} {s : String} {k : Int} :
    strptime (K := K) (names.map String.toList) first (.str s) = .ok k ↔ NameOf names first s.toList k := by
  unfold strptime NameOf
  simp only
  cases h : (names.map String.toList).findIdx? (· = s.toList.map Char.toLower) with
  | none =>
    simp only [reduceCtorEq, false_iff]
    rintro ⟨i, -, hi⟩
    rw [List.findIdx?_eq_none_iff] at h
    have := h (s.toList.map Char.toLower) (List.mem_map.2 ⟨_, List.mem_of_getElem? hi, by simp⟩)
    simp at this
  | some i =>
    rw [List.findIdx?_eq_some_iff_getElem] at h
    obtain ⟨hlt, h1, -⟩ := h
    simp only [List.length_map] at hlt
    simp only [List.getElem_map, decide_eq_true_eq] at h1
    have hi : names[i]? = some (String.ofList (s.toList.map Char.toLower)) := by
      rw [List.getElem?_eq_getElem hlt, ← h1]; simp
    simp only [Except.ok.injEq]
    constructor
    · rintro rfl; exact ⟨i, rfl, hi⟩
    · rintro ⟨j, rfl, hj⟩
      have hij : i = j := (List.nodup_iff_injective_get.1 hn |> fun inj => by
        have hj' : j < names.length := (List.getElem?_eq_some_iff.1 hj).1
        have := @inj ⟨i, hlt⟩ ⟨j, hj'⟩ (by
          rw [List.getElem?_eq_getElem hlt] at hi
          rw [List.getElem?_eq_getElem hj'] at hj
          simp only [List.get_eq_getElem]
          rw [Option.some.inj hi, Option.some.inj hj])
        exact congrArg Fin.val this)
      rw [hij]

theorem NameOf.unique {names : List String} (hn : names.Nodup) {first : Int} {s : List Char} {k l : Int}
    (h1 : NameOf names first s k) (h2 : NameOf names first s l) : k = l := by
  have a := (strptime_iff (K := ℚ) hn (s := String.ofList s)).2 (by simpa using h1)
  have b := (strptime_iff (K := ℚ) hn (s := String.ofList s)).2 (by simpa using h2)
  rw [a] at b
  exact Except.ok.inj b

theorem NameOf.dash {names : List String} (hd : ∀ s ∈ names, '-' ∉ s.toList) {first : Int} {s : List Char} {k : Int}
    (h : NameOf names first s k) : '-' ∉ s := by
  obtain ⟨i, -, hi⟩ := h
  intro hm
  refine hd _ (List.mem_of_getElem? hi) ?_
  rw [ofList_map_lower]
  exact List.mem_map.2 ⟨'-', hm, rfl⟩

theorem mapExcept_ok {α β : Type} {f : α → Except Err β} {l : List α} {r : List β} :
    mapExcept f l = .ok r ↔ List.Forall₂ (fun a b => f a = .ok b) l r := by
  induction l generalizing r with
  | nil =>
    simp only [mapExcept, Except.ok.injEq, List.forall₂_nil_left_iff]
    exact eq_comm
  | cons a l ih =>
    unfold mapExcept
    cases h : f a with
    | error e =>
      simp only [reduceCtorEq, false_iff]
      intro hf
      cases hf with
      | cons h1 _ => rw [h] at h1; cases h1
    | ok b =>
      cases h2 : mapExcept f l with
      | error e =>
        simp only [reduceCtorEq, false_iff]
        intro hf
        cases hf with
        | cons _ h3 => rw [ih.2 h3] at h2; cases h2
      | ok t =>
        simp only [Except.ok.injEq]
        constructor
        · rintro rfl; exact .cons h (ih.1 h2)
        · intro hf
          cases hf with
          | cons h3 h4 =>
            rw [h] at h3; cases h3
            have := ih.2 h4
            rw [h2] at this; cases this
            rfl

theorem mapExcept_error {α β : Type} {f : α → Except Err β} {e : Err} {l : List α} (h : mapExcept f l = .error e) :
    ∃ a ∈ l, f a = .error e := by
  induction l with
  | nil => simp [mapExcept] at h
  | cons a l ih =>
    unfold mapExcept at h
    cases h1 : f a with
    | error e' => rw [h1] at h; cases h; exact ⟨a, by simp, h1⟩
    | ok b =>
      rw [h1] at h
      cases h2 : mapExcept f l with
      | error e' =>
        rw [h2] at h; cases h
        obtain ⟨x, hx, hx2⟩ := ih h2
        exact ⟨x, by simp [hx], hx2⟩
      | ok t => rw [h2] at h; cases h

theorem strptime_str_error {names : List (List Char)} {first : Int} {s : String} {e : Err}
    (h : strptime (K := K) names first (.str s) = .error e) : e = .valueError := by
  unfold strptime at h
  simp only at h
  split at h <;> simp_all

theorem mapExcept_str_error {names : List (List Char)} {first : Int} {ss : List String} {e : Err}
    (h : mapExcept (strptime (K := K) names first) (ss.map .str) = .error e) : e = .valueError := by
  obtain ⟨a, ha, h2⟩ := mapExcept_error h
  obtain ⟨s, -, rfl⟩ := List.mem_map.1 ha
  exact strptime_str_error h2

variable {tbl : NameTable} {short long : List String}

/-- Names of one form are converted to their numbers. -/
theorem convStrs_names (ht : TableOk tbl short long) (isShort : Bool) (ss : List String) (ks : List Int)
    (h : List.Forall₂ (fun s k => NameOf (if isShort then short else long) tbl.first s.toList k) ss ks) :
    convStrs (K := K) tbl (ss.map .str) = .ok ks := by
  unfold convStrs
  cases isShort with
  | true =>
    have : mapExcept (strptime (K := K) tbl.short tbl.first) (ss.map .str) = .ok ks := by
      rw [mapExcept_ok, List.forall₂_map_left_iff]
      exact h.imp fun s k hk => by rw [ht.short_eq]; exact (strptime_iff ht.short_nodup).2 hk
    rw [this]
  | false =>
    have hl : mapExcept (strptime (K := K) tbl.long tbl.first) (ss.map .str) = .ok ks := by
      rw [mapExcept_ok, List.forall₂_map_left_iff]
      exact h.imp fun s k hk => by rw [ht.long_eq]; exact (strptime_iff ht.long_nodup).2 hk
    cases hs : mapExcept (strptime (K := K) tbl.short tbl.first) (ss.map .str) with
    | error e =>
      rw [mapExcept_str_error hs]
      exact hl
    | ok r =>
      rw [mapExcept_ok, List.forall₂_map_left_iff] at hs
      have : r = ks := by
        clear hl
        induction h generalizing r with
        | nil => cases hs; rfl
        | cons h1 _ ih =>
          cases hs with
          | cons h2 h3 =>
            rw [ht.short_eq, strptime_iff ht.short_nodup] at h2
            obtain ⟨i, e1, hi⟩ := h2
            obtain ⟨j, e2, hj⟩ := h1
            have := ht.agree _ (List.mem_of_getElem? hi) i (List.getElem?_eq_some_iff.1 hi).1 j
              (List.getElem?_eq_some_iff.1 hj).1 hi hj
            rw [ih _ h3, e1, e2, this]
      rw [this]

/-- A list with a dash in one of its strings is refused. -/
theorem convStrs_dash (ht : TableOk tbl short long) (ss : List String) {x : String} (hx : x ∈ ss) (hd : '-' ∈ x.toList) :
    convStrs (K := K) tbl (ss.map .str) = .error .valueError := by
  have key : ∀ (names : List String), names.Nodup → (∀ s ∈ names, '-' ∉ s.toList) →
      mapExcept (strptime (K := K) (names.map String.toList) tbl.first) (ss.map .str) = .error .valueError := by
    intro names hn hnd
    cases h : mapExcept (strptime (K := K) (names.map String.toList) tbl.first) (ss.map .str) with
    | error e => rw [mapExcept_str_error h]
    | ok r =>
      rw [mapExcept_ok, List.forall₂_map_left_iff] at h
      have : ∃ k, strptime (K := K) (names.map String.toList) tbl.first (.str x) = .ok k := by
        clear hd
        induction h with
        | nil => simp at hx
        | cons h1 _ ih =>
          rcases List.mem_cons.1 hx with rfl | hx
          · exact ⟨_, h1⟩
          · exact ih hx
      obtain ⟨k, hk⟩ := this
      exact absurd hd (((strptime_iff hn).1 hk).dash hnd)
  unfold convStrs
  rw [ht.short_eq, ht.long_eq, key _ ht.short_nodup ht.short_dash]
  exact key _ ht.long_nodup ht.long_dash

theorem splitDash_none {a : List Char} (h : '-' ∉ a) : splitDash a = [a] := by
  induction a with
  | nil => rfl
  | cons c r ih =>
    simp only [List.mem_cons, not_or] at h
    rw [splitDash, if_neg (Ne.symm h.1), ih h.2]

theorem splitDash_one {a b : List Char} (h : '-' ∉ a) (hb : '-' ∉ b) : splitDash (a ++ '-' :: b) = [a, b] := by
  induction a with
  | nil => simp [splitDash, splitDash_none hb]
  | cons c r ih =>
    simp only [List.mem_cons, not_or] at h
    rw [List.cons_append, splitDash, if_neg (Ne.symm h.1), ih h.2]

theorem timeRanges_plain (ss : List String) (h : ∀ s ∈ ss, '-' ∉ s.toList) (i : Nat) :
    timeRanges (K := K) tbl i (ss.map .str) = .ok ([], []) := by
  induction ss generalizing i with
  | nil => rfl
  | cons s r ih =>
    rw [List.map_cons, timeRanges, if_neg (h s (by simp))]
    exact ih (fun s hs => h s (by simp [hs])) (i + 1)

theorem timeRanges_skip (ss : List String) (h : ∀ s ∈ ss, '-' ∉ s.toList) (i : Nat) (l : List (PyVal K)) :
    timeRanges tbl i (ss.map .str ++ l) = timeRanges tbl (i + ss.length) l := by
  induction ss generalizing i with
  | nil => rfl
  | cons s r ih =>
    rw [List.map_cons, List.cons_append, timeRanges, if_neg (h s (by simp)),
      ih (fun s hs => h s (by simp [hs])) (i + 1)]
    congr 1
    simp only [List.length_cons]
    omega

theorem timeRanges_one (ht : TableOk tbl short long) {form : Bool} {a b : List Char} {m n : Int}
    (ha : NameOf (if form then short else long) tbl.first a m) (hb : NameOf (if form then short else long) tbl.first b n)
    (hmn : m ≤ n) (i : Nat) (post : List String) (h : ∀ s ∈ post, '-' ∉ s.toList) :
    timeRanges (K := K) tbl i (.str (String.ofList (a ++ '-' :: b)) :: post.map .str) = .ok ([i], intRange m n) := by
  have hdash : ∀ s ∈ (if form then short else long), '-' ∉ s.toList := by
    cases form
    · exact ht.long_dash
    · exact ht.short_dash
  have hc := convStrs_names (K := K) ht form [String.ofList a, String.ofList b] [m, n]
    (.cons (by simpa using ha) (.cons (by simpa using hb) .nil))
  rw [timeRanges, if_pos (by simp)]
  rw [show (String.ofList (a ++ '-' :: b)).toList = a ++ '-' :: b by simp, splitDash_one (ha.dash hdash) (hb.dash hdash)]
  simp only [List.map_cons, List.map_nil] at hc ⊢
  rw [hc]
  simp only
  rw [if_neg (by omega), timeRanges_plain post h]
  simp

theorem mem_intRange {a b k : Int} : k ∈ intRange a b ↔ a ≤ k ∧ k ≤ b := by
  simp only [intRange, List.mem_map, List.mem_range]
  constructor
  · rintro ⟨i, h, rfl⟩; omega
  · rintro ⟨h1, h2⟩
    exact ⟨(k - a).toNat, by omega, by omega⟩

/-- The entries of a list of names. -/
theorem names_forall₂ {isShort : Bool} {ss : List String} {first : Int} (h : ∀ s ∈ ss, '-' ∉ s.toList)
    (hs : ∀ s ∈ ss, ∃ P, Stands short long first isShort s P) :
    ∃ ks, List.Forall₂ (fun s k => NameOf (if isShort then short else long) first s.toList k) ss ks := by
  induction ss with
  | nil => exact ⟨[], .nil⟩
  | cons s r ih =>
    obtain ⟨ks, hk⟩ := ih (fun s hs => h s (by simp [hs])) (fun x hx => hs x (by simp [hx]))
    obtain ⟨P, hP⟩ := hs s (by simp)
    cases hP with
    | name hn => exact ⟨_, .cons hn hk⟩
    | range form ha hb hab => exact absurd (by simp) (h _ (List.mem_cons_self ..))

/-- What the entries of a list of names stand for. -/
theorem names_mem (hn : (if isShort then short else long).Nodup) {first : Int} {ss : List String} {ks : List Int}
    (h : ∀ s ∈ ss, '-' ∉ s.toList)
    (hk : List.Forall₂ (fun s k => NameOf (if isShort then short else long) first s.toList k) ss ks) (k : Int) :
    k ∈ ks ↔ ∃ s ∈ ss, ∃ P, Stands short long first isShort s P ∧ P k := by
  induction hk with
  | nil => simp
  | @cons s k' r l h1 _ ih =>
    simp only [List.mem_cons, exists_eq_or_imp, ih fun s hs => h s (by simp [hs])]
    refine or_congr_left ?_
    constructor
    · rintro rfl; exact ⟨_, .name h1, rfl⟩
    · rintro ⟨P, hP, hPk⟩
      cases hP with
      | name h2 => rw [hPk]; exact NameOf.unique hn h2 h1
      | range form ha hb hab => exact absurd (by simp) (h _ (List.mem_cons_self ..))

theorem timeMatchList_str (data : List Int) (ss : List String) (hne : ss ≠ []) :
    timeMatchList (K := K) tbl data (ss.map .str) =
      match timeRanges (K := K) tbl 0 (ss.map .str) with
      | .error e => (.error e, ss.map .str)
      | .ok (toDelete, toAppend) =>
        match deleteAll toDelete (ss.map .str) with
        | (l', false) => (.error .indexError, l')
        | (l', true) =>
          match convStrs tbl l' with
          | .error e => (.error e, l')
          | .ok ints => (.ok (data.map fun v => decide (v ∈ ints ++ toAppend)), l') := by
  cases ss with
  | nil => exact absurd rfl hne
  | cons s r => rfl

theorem ranges_none {ss : List String} (h : ranges ss = []) : ∀ s ∈ ss, '-' ∉ s.toList := by
  intro s hs hd
  have : s ∈ ranges ss := List.mem_filter.2 ⟨hs, by simpa using hd⟩
  rw [h] at this
  simp at this

theorem ranges_split {ss : List String} {x : String} {l : List String} (h : ranges ss = x :: l) :
    ∃ pre post, ss = pre ++ x :: post ∧ (∀ s ∈ pre, '-' ∉ s.toList) ∧ '-' ∈ x.toList ∧ ranges post = l := by
  induction ss with
  | nil => simp [ranges] at h
  | cons s r ih =>
    by_cases hd : '-' ∈ s.toList
    · have e : ranges (s :: r) = s :: ranges r := by simp [ranges, hd]
      rw [e, List.cons.injEq] at h
      exact ⟨[], r, by rw [← h.1]; rfl, by simp, h.1 ▸ hd, h.2⟩
    · have e : ranges (s :: r) = ranges r := by simp [ranges, hd]
      rw [e] at h
      obtain ⟨pre, post, h1, h2, h3, h4⟩ := ih h
      refine ⟨s :: pre, post, by rw [h1]; rfl, ?_, h3, h4⟩
      intro y hy
      rcases List.mem_cons.1 hy with rfl | hy
      · exact hd
      · exact h2 y hy

/-- What holds with at most one range; the ranges are removed from the list of the caller. -/
theorem timeMatchList_selects (ht : TableOk tbl short long) (data : List Int) (ss : List String) (hne : ss ≠ [])
    (isShort : Bool) (hs : ∀ s ∈ ss, ∃ P, Stands short long tbl.first isShort s P) (h1 : (ranges ss).length ≤ 1) :
    ∃ m, timeMatchList (K := K) tbl data (ss.map .str)
        = (.ok m, (ss.filter fun s => '-' ∉ s.toList).map .str) ∧ m.length = data.length ∧
      ∀ (i : Nat) (k : Int), data[i]? = some k →
        (m[i]? = some true ↔ ∃ s ∈ ss, ∃ P, Stands short long tbl.first isShort s P ∧ P k) := by
  have hnd : (if isShort then short else long).Nodup := by
    cases isShort
    · exact ht.long_nodup
    · exact ht.short_nodup
  have hdash : ∀ form : Bool, ∀ s ∈ (if form then short else long), '-' ∉ s.toList := by
    intro form
    cases form
    · exact ht.long_dash
    · exact ht.short_dash
  cases hr : ranges ss with
  | nil =>
    have hd := ranges_none hr
    obtain ⟨ks, hk⟩ := names_forall₂ hd hs
    refine ⟨data.map fun v => decide (v ∈ ks), ?_, by simp, ?_⟩
    · rw [timeMatchList_str data ss hne, timeRanges_plain ss hd]
      simp only [deleteAll]
      rw [convStrs_names ht isShort ss ks hk]
      simp only [List.append_nil]
      rw [List.filter_eq_self.2 (by simpa using hd)]
    · intro i k hi
      simp only [List.getElem?_map, hi, Option.map_some, Option.some.injEq, decide_eq_true_eq]
      exact names_mem hnd hd hk k
  | cons x l =>
    rw [hr] at h1
    have hl : l = [] := by simpa using h1
    subst hl
    obtain ⟨pre, post, e, hpre, hx, hpost⟩ := ranges_split hr
    have hpost := ranges_none hpost
    subst e
    have hboth : ∀ s ∈ pre ++ post, '-' ∉ s.toList := by
      intro s hs
      rcases List.mem_append.1 hs with h | h
      · exact hpre s h
      · exact hpost s h
    obtain ⟨P, hP⟩ := hs x (by simp)
    obtain ⟨ks, hk⟩ := names_forall₂ (isShort := isShort) (first := tbl.first) hboth
      (fun s hm => hs s (by
        rcases List.mem_append.1 hm with h | h
        · simp [h]
        · simp [h]))
    cases hP with
    | name hn => exact absurd hx (hn.dash (hdash isShort))
    | @range a b i j form ha hb hab =>
      refine ⟨data.map fun v => decide (v ∈ ks ++ intRange i j), ?_, by simp, ?_⟩
      · rw [timeMatchList_str data _ hne, List.map_append, List.map_cons, timeRanges_skip pre hpre, Nat.zero_add,
          timeRanges_one ht ha hb hab pre.length post hpost]
        have hdel : deleteAll [pre.length] (pre.map PyVal.str ++ PyVal.str (K := K) (String.ofList (a ++ '-' :: b)) ::
            post.map PyVal.str) = ((pre ++ post).map PyVal.str, true) := by
          rw [deleteAll, if_pos (by simp), deleteAll]
          rw [List.eraseIdx_append_of_length_le (by simp)]
          simp
        simp only
        rw [hdel]
        simp only
        rw [convStrs_names ht isShort (pre ++ post) ks hk]
        simp only
        congr 2
        rw [List.filter_append, List.filter_cons]
        simp only [hx, not_true_eq_false, decide_false, Bool.false_eq_true, if_false]
        rw [List.filter_eq_self.2 (by simpa using hpre), List.filter_eq_self.2 (by simpa using hpost)]
      · intro q k hi
        simp only [List.getElem?_map, hi, Option.map_some, Option.some.injEq, decide_eq_true_eq, List.mem_append,
          mem_intRange, names_mem hnd hboth hk k]
        have huniq : (∃ P, Stands short long tbl.first isShort (String.ofList (a ++ '-' :: b)) P ∧ P k) ↔ i ≤ k ∧ k ≤ j := by
          constructor
          · rintro ⟨P, hP, hPk⟩
            generalize hw : String.ofList (a ++ '-' :: b) = w at hP
            cases hP with
            | name hn => subst hw; exact absurd hx (hn.dash (hdash isShort))
            | @range a' b' i' j' form' ha' hb' hab' =>
              have e2 := congrArg (fun s => splitDash s.toList) hw
              simp only [String.toList_ofList] at e2
              rw [splitDash_one (ha.dash (hdash _)) (hb.dash (hdash _)),
                splitDash_one (ha'.dash (hdash _)) (hb'.dash (hdash _))] at e2
              simp only [List.cons.injEq, and_true] at e2
              obtain ⟨rfl, rfl⟩ := e2
              have hval : ∀ {w : List Char} {u v : Int}, NameOf (if form then short else long) tbl.first w u →
                  NameOf (if form' then short else long) tbl.first w v → u = v := by
                intro w u v h1 h2
                have hN : ∀ f : Bool, (if f then short else long).Nodup := by
                  intro f; cases f
                  · exact ht.long_nodup
                  · exact ht.short_nodup
                by_cases hf : form = form'
                · subst hf; exact NameOf.unique (hN _) h1 h2
                · obtain ⟨i1, e1, g1⟩ := h1
                  obtain ⟨i2, e2, g2⟩ := h2
                  have hA := fun {a b : Nat} (ga : short[a]? = some (String.ofList (w.map Char.toLower)))
                    (gb : long[b]? = some (String.ofList (w.map Char.toLower))) =>
                      ht.agree _ (List.mem_of_getElem? ga) a (List.getElem?_eq_some_iff.1 ga).1 b
                        (List.getElem?_eq_some_iff.1 gb).1 ga gb
                  cases form <;> cases form' <;> simp at hf g1 g2
                  · rw [e1, e2, hA g2 g1]
                  · rw [e1, e2, hA g1 g2]
              rw [hval ha ha', hval hb hb']
              exact hPk
          · intro h; exact ⟨_, .range form ha hb hab, h⟩
        rw [← huniq]
        simp only [List.mem_cons]
        constructor
        · rintro (⟨s, hs, h⟩ | h)
          · exact ⟨s, hs.elim Or.inl (fun h => Or.inr (Or.inr h)), h⟩
          · exact ⟨_, Or.inr (Or.inl rfl), h⟩
        · rintro ⟨s, hs | rfl | hs, h⟩
          · exact Or.inl ⟨s, Or.inl hs, h⟩
          · exact Or.inr h
          · exact Or.inl ⟨s, Or.inr hs, h⟩

theorem deleteAll_keeps {α : Type} (ds : List Nat) (a : List α) (x : α) (b : List α) (h : ∀ d ∈ ds, a.length < d) :
    x ∈ (deleteAll ds (a ++ x :: b)).1 := by
  induction ds generalizing b with
  | nil => simp [deleteAll]
  | cons d r ih =>
    rw [deleteAll]
    have hd := h d (by simp)
    split
    · obtain ⟨q, hq⟩ : ∃ q, d - a.length = q + 1 := ⟨d - a.length - 1, by omega⟩
      rw [List.eraseIdx_append_of_length_le (by omega), hq, List.eraseIdx_cons_succ]
      exact ih _ fun d hd => h d (by simp [hd])
    · simp

theorem deleteAll_subset {α : Type} (ds : List Nat) (l : List α) : ∀ x ∈ (deleteAll ds l).1, x ∈ l := by
  induction ds generalizing l with
  | nil => simp [deleteAll]
  | cons d r ih =>
    rw [deleteAll]
    split
    · intro x hx; exact List.mem_of_mem_eraseIdx (ih _ x hx)
    · simp

theorem timeRanges_ge {i : Nat} {l : List (PyVal K)} {d : List Nat} {a : List Int}
    (h : timeRanges tbl i l = .ok (d, a)) : ∀ x ∈ d, i ≤ x := by
  induction l generalizing i d a with
  | nil => simp only [timeRanges, Except.ok.injEq, Prod.mk.injEq] at h; simp [← h.1]
  | cons v r ih =>
    cases v with
    | str s =>
      rw [timeRanges] at h
      split at h
      · split at h
        · cases h
        · split at h
          · split at h
            · cases h
            · split at h
              · cases h
              · rename_i hq
                simp only [Except.ok.injEq, Prod.mk.injEq] at h
                rw [← h.1]
                intro x hx
                rcases List.mem_cons.1 hx with rfl | hx
                · exact le_refl _
                · have := ih hq x hx; omega
          · cases h
      · intro x hx; have := ih h x hx; omega
    | _ => simp [timeRanges] at h

/-- A range at the head of the list is put down for deletion. -/
theorem timeRanges_head {i : Nat} {s : String} {l : List (PyVal K)} {d : List Nat} {a : List Int}
    (hs : '-' ∈ s.toList) (h : timeRanges tbl i (.str s :: l) = .ok (d, a)) :
    ∃ d' a', d = i :: d' ∧ timeRanges tbl (i + 1) l = .ok (d', a') := by
  rw [timeRanges, if_pos hs] at h
  split at h
  · cases h
  · split at h
    · split at h
      · cases h
      · split at h
        · cases h
        · rename_i hq
          simp only [Except.ok.injEq, Prod.mk.injEq] at h
          exact ⟨_, _, h.1.symm, hq⟩
    · cases h

theorem timeRanges_str_error {i : Nat} {ss : List String} {e : Err}
    (h : timeRanges (K := K) tbl i (ss.map .str) = .error e) : e = .valueError ∨ e = .indexError := by
  induction ss generalizing i with
  | nil => simp [timeRanges] at h
  | cons s r ih =>
    rw [List.map_cons, timeRanges] at h
    split at h
    · split at h
      · rename_i hc
        cases h
        left
        unfold convStrs at hc
        have hm : (splitDash s.toList).map (fun p => (PyVal.str (String.ofList p) : PyVal K))
            = ((splitDash s.toList).map String.ofList).map PyVal.str := by rw [List.map_map]; rfl
        rw [hm] at hc
        split at hc
        · exact mapExcept_str_error hc
        · exact mapExcept_str_error hc
      · split at h
        · split at h
          · cases h; exact Or.inl rfl
          · split at h
            · rename_i hq; cases h; exact ih hq
            · cases h
        · cases h; exact Or.inr rfl
    · exact ih h

theorem timeMatchList_two (ht : TableOk tbl short long) (data : List Int) (ss : List String)
    (h2 : 2 ≤ (ranges ss).length) :
    ∃ e, (e = .valueError ∨ e = .indexError) ∧ (timeMatchList (K := K) tbl data (ss.map .str)).1 = .error e := by
  have hne : ss ≠ [] := by rintro rfl; simp [ranges] at h2
  rw [timeMatchList_str data ss hne]
  cases hr : timeRanges (K := K) tbl 0 (ss.map .str) with
  | error e => exact ⟨e, timeRanges_str_error hr, rfl⟩
  | ok da =>
    obtain ⟨d, a⟩ := da
    simp only
    obtain ⟨x, y, l, hxy⟩ : ∃ x y l, ranges ss = x :: y :: l := by
      match hq : ranges ss, h2 with
      | x :: y :: l, _ => exact ⟨x, y, l, rfl⟩
      | [x], h => simp at h
      | [], h => simp at h
    obtain ⟨pre, rest, e1, hpre, hx, hrest⟩ := ranges_split hxy
    obtain ⟨mid, post, e2, hmid, hy, -⟩ := ranges_split hrest
    subst e2
    subst e1
    rw [List.map_append, List.map_cons, timeRanges_skip pre hpre, Nat.zero_add] at hr
    obtain ⟨d', a', rfl, hr2⟩ := timeRanges_head hx hr
    rw [List.map_append, List.map_cons, timeRanges_skip mid hmid] at hr2
    obtain ⟨d'', a'', rfl, hr3⟩ := timeRanges_head hy hr2
    have hge := timeRanges_ge hr3
    have hmem : (PyVal.str y : PyVal K) ∈ (deleteAll (pre.length :: (pre.length + 1 + mid.length) :: d'')
        ((pre ++ x :: (mid ++ y :: post)).map PyVal.str)).1 := by
      rw [deleteAll, if_pos (by simp)]
      have e : ((pre ++ x :: (mid ++ y :: post)).map (PyVal.str (K := K))).eraseIdx pre.length
          = (pre ++ mid).map PyVal.str ++ PyVal.str y :: post.map PyVal.str := by
        rw [List.map_append, List.eraseIdx_append_of_length_le (by simp)]
        simp
      rw [e]
      refine deleteAll_keeps _ _ _ _ ?_
      intro q hq
      simp only [List.length_map, List.length_append]
      rcases List.mem_cons.1 hq with rfl | hq
      · omega
      · have := hge q hq; omega
    have hsub := deleteAll_subset (pre.length :: (pre.length + 1 + mid.length) :: d'')
      ((pre ++ x :: (mid ++ y :: post)).map (PyVal.str (K := K)))
    generalize hD : deleteAll (pre.length :: (pre.length + 1 + mid.length) :: d'')
      ((pre ++ x :: (mid ++ y :: post)).map (PyVal.str (K := K))) = D at hmem hsub ⊢
    obtain ⟨l', b⟩ := D
    cases b with
    | false => exact ⟨_, Or.inr rfl, rfl⟩
    | true =>
      simp only at hmem hsub ⊢
      obtain ⟨ss', rfl⟩ : ∃ ss' : List String, l' = ss'.map PyVal.str := by
        clear hD hmem
        induction l' with
        | nil => exact ⟨[], rfl⟩
        | cons v r ih =>
          obtain ⟨t, rfl⟩ := ih fun x hx => hsub x (by simp [hx])
          obtain ⟨s, -, rfl⟩ := List.mem_map.1 (hsub v (by simp))
          exact ⟨s :: t, rfl⟩
      have hmem' : y ∈ ss' := by
        obtain ⟨s, h1, h2⟩ := List.mem_map.1 hmem
        cases h2
        exact h1
      rw [convStrs_dash ht ss' hmem' hy]
      exact ⟨_, Or.inl rfl, rfl⟩

/-! ## C50 -/

/-- C50 as it holds: a list of names of months with at most one range selects exactly the months it
names. All names outside the range have to be short, or all long. Missing: lists with two or more ranges
(`C50_two_ranges_month`). -/
theorem C50_month_partial (data : List Int) (ss : List String) (hne : ss ≠ []) (isShort : Bool)
    (hs : ∀ s ∈ ss, ∃ P, Stands shortMonths longMonths 1 isShort s P) (h1 : (ranges ss).length ≤ 1) :
    ∃ m, (monthMatch (K := K) data (.list (ss.map .str))).1 = .ok m ∧ m.length = data.length ∧
      ∀ (i : Nat) (k : Int), data[i]? = some k →
        (m[i]? = some true ↔ ∃ s ∈ ss, ∃ P, Stands shortMonths longMonths 1 isShort s P ∧ P k) := by
  obtain ⟨m, e, h⟩ := timeMatchList_selects (K := K) monthTable_ok data ss hne isShort hs h1
  refine ⟨m, ?_, h⟩
  simp [monthMatch, timeMatch, e]

/-- The same for weekdays, Monday being number 0. -/
theorem C50_day_partial (data : List Int) (ss : List String) (hne : ss ≠ []) (isShort : Bool)
    (hs : ∀ s ∈ ss, ∃ P, Stands shortDays longDays 0 isShort s P) (h1 : (ranges ss).length ≤ 1) :
    ∃ m, (dayMatch (K := K) data (.list (ss.map .str))).1 = .ok m ∧ m.length = data.length ∧
      ∀ (i : Nat) (k : Int), data[i]? = some k →
        (m[i]? = some true ↔ ∃ s ∈ ss, ∃ P, Stands shortDays longDays 0 isShort s P ∧ P k) := by
  obtain ⟨m, e, h⟩ := timeMatchList_selects (K := K) dayTable_ok data ss hne isShort hs h1
  refine ⟨m, ?_, h⟩
  simp [dayMatch, timeMatch, e]

/-- A single name or range. -/
theorem C50_month_single (data : List Int) (s : String) (isShort : Bool) {P : Int → Prop}
    (hs : Stands shortMonths longMonths 1 isShort s P) :
    ∃ m, (monthMatch (K := K) data (.val (.str s))).1 = .ok m ∧ m.length = data.length ∧
      ∀ (i : Nat) (k : Int), data[i]? = some k →
        (m[i]? = some true ↔ ∃ P, Stands shortMonths longMonths 1 isShort s P ∧ P k) := by
  obtain ⟨m, e, h2, h3⟩ := timeMatchList_selects (K := K) monthTable_ok data [s] (by simp) isShort
    (by simpa using ⟨P, hs⟩) (by simp only [ranges, List.filter_cons]; split <;> simp)
  refine ⟨m, ?_, h2, ?_⟩
  rotate_left
  · have h4 : ∀ (i : Nat) (k : Int), data[i]? = some k → (m[i]? = some true ↔
        ∃ P, Stands shortMonths longMonths monthTable.first isShort s P ∧ P k) := by simpa using h3
    exact h4
  simp only [List.map_cons, List.map_nil] at e
  simp [monthMatch, timeMatch, e]

/-- C50 fails for every list with two or more ranges, in particular for the list that the error message
for a decreasing range recommends: it always raises. -/
theorem C50_two_ranges_month (data : List Int) (ss : List String) (h : 2 ≤ (ranges ss).length) :
    ∃ e, (e = .valueError ∨ e = .indexError) ∧ (monthMatch (K := K) data (.list (ss.map .str))).1 = .error e :=
  timeMatchList_two monthTable_ok data ss h

theorem C50_two_ranges_day (data : List Int) (ss : List String) (h : 2 ≤ (ranges ss).length) :
    ∃ e, (e = .valueError ∨ e = .indexError) ∧ (dayMatch (K := K) data (.list (ss.map .str))).1 = .error e :=
  timeMatchList_two dayTable_ok data ss h

/-- C50 is violated by the documented example. -/
theorem C50_documented (data : List Int) :
    (monthMatch (K := K) data (.list [.str "Nov-Dec", .str "Jan-Feb"])).1 = .error .indexError := by
  have h : timeRanges (K := ℚ) monthTable 0 [.str "Nov-Dec", .str "Jan-Feb"] = .ok ([0, 1], [11, 12, 1, 2]) := by
    decide +kernel
  have h' : timeRanges (K := K) monthTable 0 [.str "Nov-Dec", .str "Jan-Feb"] = .ok ([0, 1], [11, 12, 1, 2]) := by
    have hx : ∀ s : String, strptime (K := K) monthTable.short 1 (.str s) = strptime (K := ℚ) monthTable.short 1 (.str s) :=
      fun _ => rfl
    have key : ∀ (ss : List String), convStrs (K := K) monthTable (ss.map .str) = convStrs (K := ℚ) monthTable (ss.map .str) := by
      have k2 : ∀ (names : List (List Char)) (ss : List String), mapExcept (strptime (K := K) names 1) (ss.map .str)
          = mapExcept (strptime (K := ℚ) names 1) (ss.map .str) := by
        intro names ss
        induction ss with
        | nil => rfl
        | cons a r ih =>
          simp only [List.map_cons, mapExcept, ih]
          rfl
      intro ss
      unfold convStrs
      rw [show monthTable.first = 1 from rfl, k2, k2]
    have k3 : ∀ (i : Nat) (ss : List String), timeRanges (K := K) monthTable i (ss.map .str)
        = timeRanges (K := ℚ) monthTable i (ss.map .str) := by
      intro i ss
      induction ss generalizing i with
      | nil => rfl
      | cons a r ih =>
        simp only [List.map_cons, timeRanges]
        have e : ∀ (K' : Type), (splitDash a.toList).map (fun p => (PyVal.str (String.ofList p) : PyVal K'))
            = ((splitDash a.toList).map String.ofList).map PyVal.str := by intro K'; rw [List.map_map]; rfl
        rw [e, e, key, ih]
    exact (k3 0 ["Nov-Dec", "Jan-Feb"]).trans h
  simp only [monthMatch, timeMatch, timeMatchList, h']
  simp [deleteAll]

/-- After filtering, a range is gone from the list the caller passed. -/
theorem C50_argument_changed (data : List Int) (ss : List String) (hne : ss ≠ []) (isShort : Bool)
    (hs : ∀ s ∈ ss, ∃ P, Stands shortMonths longMonths 1 isShort s P) (h1 : (ranges ss).length = 1) :
    ∃ ss' : List String, (monthMatch (K := K) data (.list (ss.map .str))).2 = .list (ss'.map .str) ∧
      ss'.length + 1 = ss.length ∧ ranges ss' = [] := by
  obtain ⟨m, e, -, -⟩ := timeMatchList_selects (K := K) monthTable_ok data ss hne isShort hs (by omega)
  refine ⟨ss.filter fun s => '-' ∉ s.toList, by simp [monthMatch, timeMatch, e], ?_, ?_⟩
  · have := List.length_eq_length_filter_add (l := ss) (fun s : String => decide ('-' ∈ s.toList))
    unfold ranges at h1
    simp only [decide_not]
    omega
  · simp [ranges]

/-- The same list object selects other months when it is used again. -/
theorem C50_again :
    let months : PyArg ℚ := .list [.str "Jan-Feb", .str "jun"]
    (monthMatch [1, 2, 6, 7] months).1 = .ok [true, true, true, false] ∧
    (monthMatch [1, 2, 6, 7] (monthMatch [1, 2, 6, 7] months).2).1 = .ok [false, false, true, false] := by
  decide +kernel

/-- Everything after the second name of a range is ignored. -/
theorem C50_third_name : (monthMatch (K := ℚ) [1, 2, 3] (.val (.str "Jan-Feb-Mar"))).1 = .ok [true, true, false] := by
  decide +kernel

/-- The hypotheses can be met: short names in any case with a range of long ones. -/
example : ∀ s ∈ ["JAN", "march-May", "dec"], ∃ P, Stands shortMonths longMonths 1 true s P := by
  intro s hs
  simp only [List.mem_cons, List.not_mem_nil, or_false] at hs
  rcases hs with rfl | rfl | rfl
  · exact ⟨_, .name (k := 1) ⟨0, by decide, by decide⟩⟩
  · exact ⟨_, .range (a := "march".toList) (b := "May".toList) (i := 3) (j := 5) false ⟨2, by decide, by decide⟩
      ⟨4, by decide, by decide⟩ (by decide)⟩
  · exact ⟨_, .name (k := 12) ⟨11, by decide, by decide⟩⟩

example : (ranges ["JAN", "march-May", "dec"]).length ≤ 1 := by decide

example : (monthMatch (K := ℚ) [1, 2, 3, 4, 5, 6, 12] (.list [.str "JAN", .str "march-May", .str "dec"])).1
    = .ok [true, false, true, true, true, false, true] := by decide +kernel

end Openscm
