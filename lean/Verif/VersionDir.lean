import Verif.VersionArchive

/-!
# C86: source trees that are neither archives nor checkouts, and dates
-/

namespace Openscm.Version

/-- Git does not know the source tree, or cannot describe it. -/
def Unknown (g : Git) : Prop := g.isRepo = false ∨ g.describe = none ∨ g.head = none

theorem pieces_unknown {g : Git} (h : Unknown g) (pre : Str) : piecesFromVcs pre g = none := by
  unfold piecesFromVcs
  rcases h with h | h | h
  · simp [h]
  · cases hr : g.isRepo <;> simp [h]
  · cases hr : g.isRepo <;> cases hd : g.describe <;> simp [h]

theorem openscm_str : str "openscm-" = "openscm-".toList := rfl

theorem getVersions_unknown {g : Git} (h : Unknown g) (dirs : List Str) :
    getVersions unexpanded g dirs =
      match versionsFromParentdir (str "openscm-") dirs with
      | some v => v
      | none => { version := str "0+unknown", full := none, dirty := none,
                  error := some (str "unable to compute version"), date := none } := by
  unfold getVersions
  rw [keywords_unexpanded, pieces_unknown h]
  rfl

/-- **C86** without git: the version is the rest of the name of the innermost of the three directories around the
package that is called `openscm-…`. -/
theorem C86_directory {g : Git} (h : Unknown g) {inner outer : List Str} {v : Str} (hlen : inner.length < 3)
    (hin : ∀ d ∈ inner, ¬ "openscm-".toList <+: d) :
    let r := getVersions unexpanded g (inner ++ ("openscm-".toList ++ v) :: outer)
    r.version = v ∧ r.error = none ∧ r.full = none ∧ r.dirty = some false := by
  have hf : ((inner ++ ("openscm-".toList ++ v) :: outer).take 3).find? (str "openscm-").isPrefixOf
      = some ("openscm-".toList ++ v) := by
    have h1 : (inner ++ ("openscm-".toList ++ v) :: outer).take 3
        = inner ++ ("openscm-".toList ++ v) :: outer.take (2 - inner.length) := by
      have : 3 - inner.length = (2 - inner.length) + 1 := by omega
      rw [List.take_append, List.take_of_length_le (by omega), this, List.take_succ_cons]
    rw [h1, List.find?_append]
    have h2 : inner.find? (str "openscm-").isPrefixOf = none := by
      rw [List.find?_eq_none]
      intro d hd hp
      exact hin d hd (List.isPrefixOf_iff_prefix.1 hp)
    have h3 : (str "openscm-").isPrefixOf ("openscm-".toList ++ v) = true :=
      List.isPrefixOf_iff_prefix.2 ⟨v, rfl⟩
    rw [h2, List.find?_cons_of_pos h3]
    rfl
  intro r
  have hr : r = { version := v, full := none, dirty := some false, error := none, date := none } := by
    show getVersions _ _ _ = _
    rw [getVersions_unknown h]
    unfold versionsFromParentdir
    rw [hf]
    show Versions.mk (("openscm-".toList ++ v).drop (str "openscm-").length) _ _ _ _ = _
    rw [show (str "openscm-") = "openscm-".toList from rfl, List.drop_left]
  rw [hr]
  exact ⟨rfl, rfl, rfl, rfl⟩

/-- **C86** without git and without such a directory: `0+unknown`, and an error is told. -/
theorem C86_unknown {g : Git} (h : Unknown g) {dirs : List Str} (hd : ∀ d ∈ dirs.take 3, ¬ "openscm-".toList <+: d) :
    let r := getVersions unexpanded g dirs
    r.version = "0+unknown".toList ∧ r.error ≠ none ∧ r.full = none ∧ r.dirty = none := by
  have hf : (dirs.take 3).find? (str "openscm-").isPrefixOf = none := by
    rw [List.find?_eq_none]
    intro d hd' hp
    exact hd d hd' (List.isPrefixOf_iff_prefix.1 hp)
  intro r
  have hr : r = { version := str "0+unknown", full := none, dirty := none,
                  error := some (str "unable to compute version"), date := none } := by
    show getVersions _ _ _ = _
    rw [getVersions_unknown h]
    unfold versionsFromParentdir
    rw [hf]
  rw [hr]
  exact ⟨rfl, by simp, rfl, rfl⟩

/-- The directory farther out is not looked at when an inner one has the name of a release, and names four levels up
are not found. -/
example :
    (getVersions unexpanded ⟨true, none, none, 0, []⟩ [str "src", str "openscm-1.2", str "openscm-1.1"]).version
      = str "1.2" ∧
    (getVersions unexpanded ⟨false, none, none, 0, []⟩ [str "a", str "b", str "c", str "openscm-1.1"]).version
      = str "0+unknown" := by decide +kernel

/-! ## Dates -/

theorem replaceFirst_split {x : Char} {a b r : Str} (h : x ∉ a) : replaceFirst x r (a ++ x :: b) = a ++ (r ++ b) := by
  induction a with
  | nil => simp [replaceFirst]
  | cons c a ih =>
    rw [List.mem_cons, not_or] at h
    rw [List.cons_append, replaceFirst, if_neg (Ne.symm h.1), ih h.2, List.cons_append]

/-- The parts of a date as printed by git. -/
structure DateParts where
  day : Str
  time : Str
  zone : Str

structure DateParts.Valid (d : DateParts) : Prop where
  day : d.day ≠ []
  zone : d.zone ≠ []
  plain : ∀ c ∈ d.day ++ d.time ++ d.zone, isSpace c = false

/-- `2019-01-02 03:04:05 +0100` and a newline -/
def DateParts.printed (d : DateParts) : Str := d.day ++ ' ' :: (d.time ++ ' ' :: d.zone) ++ ['\n']

theorem isoDate_printed {d : DateParts} (hd : d.Valid) : isoDate d.printed = d.day ++ 'T' :: (d.time ++ d.zone) := by
  have hsp : ∀ {s : Str}, (∀ c ∈ s, isSpace c = false) → ' ' ∉ s := fun hs hm => absurd (hs _ hm) (by decide)
  have hday : ∀ c ∈ d.day, isSpace c = false := fun c hc => hd.plain c (by simp [hc])
  have htime : ∀ c ∈ d.time, isSpace c = false := fun c hc => hd.plain c (by simp [hc])
  have hzone : ∀ c ∈ d.zone, isSpace c = false := fun c hc => hd.plain c (by simp [hc])
  obtain ⟨a, q, hq⟩ := List.exists_cons_of_ne_nil hd.day
  obtain ⟨z, hz⟩ : ∃ z, d.zone.getLast? = some z := by
    cases h : d.zone.getLast? with
    | none => rw [List.getLast?_eq_none_iff] at h; exact absurd h hd.zone
    | some d => exact ⟨d, rfl⟩
  have hs : strip d.printed = d.day ++ ' ' :: (d.time ++ ' ' :: d.zone) := by
    refine stripChars_of (by decide) (c := a) (d := z) (by rw [hq]; rfl) ?_ (hday a (by rw [hq]; simp))
      (hzone z (getLast?_some_mem hz))
    have : d.day ++ ' ' :: (d.time ++ ' ' :: d.zone) = (d.day ++ ' ' :: d.time ++ [' ']) ++ d.zone := by simp
    rw [this, List.getLast?_append, hz]; rfl
  unfold isoDate
  rw [hs, replaceFirst_split (hsp hday)]
  have : d.day ++ (['T'] ++ (d.time ++ ' ' :: d.zone)) = (d.day ++ 'T' :: d.time) ++ ' ' :: d.zone := by simp
  rw [this, replaceFirst_split]
  · simp
  · intro hm
    rw [List.mem_append, List.mem_cons] at hm
    rcases hm with hm | hm | hm
    · exact hsp hday hm
    · exact absurd hm (by decide)
    · exact hsp htime hm

/-- **C86**: the date of the version is the date of the commit in ISO form, whichever tag, changes and hash. -/
theorem C86_date {g : Git} {c : Checkout} (hr : Reports ['v'] g c) (hc : c.Valid) (dirs : List Str) {d : DateParts}
    (hd : d.Valid) (hg : g.date = d.printed) :
    (getVersions unexpanded g dirs).date = some (d.day ++ 'T' :: (d.time ++ d.zone)) := by
  rw [getVersions_of hr hc, hg, isoDate_printed hd]

/-- Hypotheses of `C86_date` met. -/
example : DateParts.Valid ⟨str "2019-01-02", str "03:04:05", str "+0100"⟩ ∧
    isoDate (str "2019-01-02 03:04:05 +0100\n") = str "2019-01-02T03:04:05+0100" :=
  ⟨⟨by decide +kernel, by decide +kernel, by decide +kernel⟩, by decide +kernel⟩

end Openscm.Version
