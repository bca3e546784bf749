import Verif.Version

/-!
# C86: the version names the checkout
-/

namespace Openscm.Version

/-! ## Specification -/

/-- The state of a checkout. -/
structure Checkout where
  /-- the closest tag that begins with the prefix, without the prefix -/
  tag : Option Str
  /-- commits since the tag, or altogether if there is no tag -/
  distance : Nat
  /-- the commit -/
  commit : Str
  /-- as abbreviated by git -/
  short : Str
  /-- local changes -/
  dirty : Bool

/-- Tags are not empty after the prefix; commits are hexadecimal numbers. -/
structure Checkout.Valid (c : Checkout) : Prop where
  tag : c.tag ≠ some []
  commit : c.commit ≠ []
  hex : ∀ x ∈ c.commit, isHex x = true
  short : c.short ≠ []
  shortHex : ∀ x ∈ c.short, isHex x = true

/-- What `git describe --tags --dirty --always --long --match PREFIX*` prints. -/
def described (pre : Str) (c : Checkout) : Str :=
  (match c.tag with
   | some t => pre ++ t ++ '-' :: Nat.toDigits 10 c.distance ++ '-' :: 'g' :: c.short
   | none => c.short) ++ (if c.dirty then ['-', 'd', 'i', 'r', 't', 'y'] else [])

/-- Git reports this checkout. -/
structure Reports (pre : Str) (g : Git) (c : Checkout) : Prop where
  repo : g.isRepo = true
  describe : g.describe = some (described pre c ++ ['\n'])
  head : g.head = some (c.commit ++ ['\n'])
  count : c.tag = none → g.count = c.distance

/-- The hash used in version strings: the abbreviation printed by git, without a tag the first seven
digits. -/
def Checkout.hash (c : Checkout) : Str :=
  match c.tag with
  | some _ => c.short
  | none => c.commit.take 7

/-- A checkout of exactly the tagged commit, without changes. -/
def Checkout.AtTag (c : Checkout) : Prop := c.tag.isSome ∧ c.distance = 0 ∧ c.dirty = false

/-! ## Lemmas -/

theorem dropWhile_head {p : Char → Bool} {c : Char} {s : Str} (h : p c = false) :
    (c :: s).dropWhile p = c :: s := by simp [h]

theorem stripChars_of {p : Char → Bool} {s post : Str} (hpost : ∀ c ∈ post, p c = true)
    {c d : Char} (hc : s.head? = some c) (hd : s.getLast? = some d) (h1 : p c = false)
    (h2 : p d = false) : stripChars p (s ++ post) = s := by
  unfold stripChars
  obtain ⟨s', rfl⟩ := List.head?_eq_some_iff.1 hc
  rw [List.cons_append, dropWhile_head h1, ← List.cons_append, List.reverse_append,
    List.dropWhile_append_of_pos (by simpa using hpost)]
  rw [← List.head?_reverse] at hd
  obtain ⟨r, hr⟩ := List.head?_eq_some_iff.1 hd
  rw [hr, dropWhile_head h2, ← hr, List.reverse_reverse]

theorem isHex_space {c : Char} (h : isHex c = true) : isSpace c = false := by
  unfold isHex Char.isDigit at h
  unfold isSpace
  simp only [Bool.or_eq_true, Bool.and_eq_true, decide_eq_true_eq] at h
  simp only [Bool.or_eq_false_iff, decide_eq_false_iff_not]
  refine ⟨⟨⟨⟨⟨?_, ?_⟩, ?_⟩, ?_⟩, ?_⟩, ?_⟩ <;> rintro rfl <;> revert h <;> decide

theorem isHex_ne {c d : Char} (h : isHex c = true) (hd : isHex d = false) : c ≠ d := by
  rintro rfl; rw [h] at hd; simp at hd

theorem isDigit_ne {c d : Char} (h : c.isDigit = true) (hd : d.isDigit = false) : c ≠ d := by
  rintro rfl; rw [h] at hd; simp at hd

theorem getLast?_some_mem {s : Str} {d : Char} (h : s.getLast? = some d) : d ∈ s :=
  List.mem_of_getLast? h

theorem digits_isDigit {n : Nat} : ∀ c ∈ Nat.toDigits 10 n, c.isDigit = true :=
  fun _ hc => Nat.isDigit_of_mem_toDigits (by decide) (by decide) hc

theorem digits_inj {m n : Nat} (h : Nat.toDigits 10 m = Nat.toDigits 10 n) : m = n := by
  rw [← Nat.ofDigitChars_ten_toDigits (n := m), h, Nat.ofDigitChars_ten_toDigits]

theorem cut {x : Char} {a b a' b' : Str} (h1 : x ∉ a) (h2 : x ∉ a') (h : a ++ x :: b = a' ++ x :: b') :
    a = a' ∧ b = b' := by
  induction a generalizing a' with
  | nil =>
    cases a' with
    | nil => exact ⟨rfl, (List.cons.inj h).2⟩
    | cons y a' => exact absurd (List.cons.inj h).1 (fun e => h2 (by simp [e]))
  | cons y a ih =>
    cases a' with
    | nil => exact absurd (List.cons.inj h).1 (fun e => h1 (by simp [e]))
    | cons z a' =>
      obtain ⟨e1, e2⟩ := List.cons.inj h
      obtain ⟨i1, i2⟩ := ih (fun hm => h1 (by simp [hm])) (fun hm => h2 (by simp [hm])) e2
      exact ⟨by rw [e1, i1], i2⟩

/-- The regular expression finds exactly the parts put together. -/
theorem describeRe_parts {t n h : Str} (ht : t ≠ []) (hn : n ≠ []) (hh : h ≠ [])
    (hn' : ∀ c ∈ n, c.isDigit = true) (hh' : ∀ c ∈ h, isHex c = true) :
    describeRe (t ++ '-' :: n ++ '-' :: 'g' :: h) = some (t, n, h) := by
  have hr : (t ++ '-' :: n ++ '-' :: 'g' :: h).reverse
      = h.reverse ++ 'g' :: '-' :: (n.reverse ++ '-' :: t.reverse) := by simp
  have e1 : ('g' :: '-' :: (n.reverse ++ '-' :: t.reverse)).takeWhile isHex = [] := by
    rw [List.takeWhile_cons_of_neg (by decide)]
  have e2 : ('-' :: t.reverse).takeWhile Char.isDigit = [] := by
    rw [List.takeWhile_cons_of_neg (by decide)]
  unfold describeRe
  rw [hr]
  simp only [List.takeWhile_append_of_pos (p := isHex) (l₁ := h.reverse) (by simpa using hh'),
    List.dropWhile_append_of_pos (p := isHex) (l₁ := h.reverse) (by simpa using hh'), e1,
    List.append_nil, dropWhile_head (show isHex 'g' = false by decide),
    List.takeWhile_append_of_pos (p := Char.isDigit) (l₁ := n.reverse) (by simpa using hn'),
    List.dropWhile_append_of_pos (p := Char.isDigit) (l₁ := n.reverse) (by simpa using hn'), e2,
    dropWhile_head (show Char.isDigit '-' = false by decide)]
  obtain ⟨c, r, hcr⟩ := List.exists_cons_of_ne_nil (l := t.reverse) (by simpa using ht)
  rw [hcr]
  simp only [List.reverse_eq_nil_iff, hh, hn, or_self, if_false, List.reverse_reverse]
  rw [← hcr, List.reverse_reverse]

theorem dirty_suffix {s : Str} : (str "-dirty").isSuffixOf (s ++ ['-', 'd', 'i', 'r', 't', 'y']) = true := by
  rw [List.isSuffixOf_iff_suffix]; exact ⟨s, rfl⟩

theorem clean_suffix {s : Str} {d : Char} (hd : s.getLast? = some d) (hx : isHex d = true) :
    (str "-dirty").isSuffixOf s = false := by
  rw [Bool.eq_false_iff, Ne, List.isSuffixOf_iff_suffix]
  rintro ⟨u, rfl⟩
  rw [List.getLast?_append] at hd
  have : (str "-dirty").getLast? = some 'y' := by decide +kernel
  rw [this] at hd
  simp at hd
  subst hd
  revert hx; decide

/-- `described` without the mark of local changes. -/
def bare (pre : Str) (c : Checkout) : Str :=
  match c.tag with
  | some t => pre ++ t ++ '-' :: Nat.toDigits 10 c.distance ++ '-' :: 'g' :: c.short
  | none => c.short

theorem bare_last {pre : Str} {c : Checkout} (hc : c.Valid) :
    ∃ d, (bare pre c).getLast? = some d ∧ isHex d = true := by
  obtain ⟨d, hd⟩ : ∃ d, c.short.getLast? = some d := by
    cases h : c.short.getLast? with
    | none => rw [List.getLast?_eq_none_iff] at h; exact absurd h hc.short
    | some d => exact ⟨d, rfl⟩
  refine ⟨d, ?_, hc.shortHex d (getLast?_some_mem hd)⟩
  unfold bare
  split
  · rw [List.getLast?_append, List.getLast?_cons, List.getLast?_cons, hd]; rfl
  · exact hd

theorem bare_head {pre : Str} {c : Checkout} (hc : c.Valid) {p : Char} (hp : pre.head? = some p) :
    ∃ d, (bare pre c).head? = some d ∧ (d = p ∨ isHex d = true) := by
  unfold bare
  split
  · refine ⟨p, ?_, Or.inl rfl⟩
    obtain ⟨q, rfl⟩ := List.head?_eq_some_iff.1 hp
    rfl
  · obtain ⟨d, q, hq⟩ := List.exists_cons_of_ne_nil hc.short
    exact ⟨d, by rw [hq]; rfl, Or.inr (hc.shortHex d (by rw [hq]; simp))⟩

theorem strip_described {pre : Str} {c : Checkout} (hc : c.Valid) {p : Char}
    (hp : pre.head? = some p) (hps : isSpace p = false) :
    strip (described pre c ++ ['\n']) = described pre c := by
  obtain ⟨d, hd, hd'⟩ := bare_head (pre := pre) hc hp
  obtain ⟨z, hz, hz'⟩ := bare_last (pre := pre) hc
  have hb : described pre c = bare pre c ++ (if c.dirty then ['-', 'd', 'i', 'r', 't', 'y'] else []) := rfl
  obtain ⟨q, hq⟩ := List.head?_eq_some_iff.1 hd
  have h1 : isSpace d = false := by
    rcases hd' with rfl | h
    · exact hps
    · exact isHex_space h
  cases hdirty : c.dirty
  · rw [hdirty] at hb
    simp only [Bool.false_eq_true, if_false, List.append_nil] at hb
    rw [hb]
    exact stripChars_of (by decide) hd hz h1 (isHex_space hz')
  · rw [hdirty] at hb
    simp only [if_true] at hb
    refine stripChars_of (by decide) (c := d) (d := 'y') ?_ ?_ h1 (by decide)
    · rw [hb, hq]; rfl
    · rw [hb, List.getLast?_append]; rfl

/-- What is read out of the output of git. -/
theorem pieces_of {pre : Str} {g : Git} {c : Checkout} (hr : Reports pre g c) (hc : c.Valid) {p : Char}
    (hp : pre.head? = some p) (hps : isSpace p = false) :
    piecesFromVcs pre g = some { long := c.commit, short := c.hash, error := none, dirty := c.dirty,
                                 tag := c.tag, distance := c.distance, date := isoDate g.date } := by
  have hfull : strip (c.commit ++ ['\n']) = c.commit := by
    obtain ⟨d, q, hq⟩ := List.exists_cons_of_ne_nil hc.commit
    obtain ⟨z, hz⟩ : ∃ z, c.commit.getLast? = some z := by
      cases h : c.commit.getLast? with
      | none => rw [List.getLast?_eq_none_iff] at h; exact absurd h hc.commit
      | some d => exact ⟨d, rfl⟩
    exact stripChars_of (by decide) (c := d) (d := z) (by rw [hq]; rfl) hz
      (isHex_space (hc.hex d (by rw [hq]; simp))) (isHex_space (hc.hex z (getLast?_some_mem hz)))
  have hdirty : (str "-dirty").isSuffixOf (described pre c) = c.dirty ∧
      (if c.dirty then (described pre c).take ((described pre c).length - 6) else described pre c)
        = bare pre c := by
    have hb : described pre c = bare pre c ++ (if c.dirty then ['-', 'd', 'i', 'r', 't', 'y'] else []) := rfl
    cases hdirty : c.dirty
    · rw [hdirty] at hb
      simp only [Bool.false_eq_true, if_false, List.append_nil] at hb ⊢
      rw [hb]
      obtain ⟨z, hz, hz'⟩ := bare_last (pre := pre) hc
      exact ⟨clean_suffix hz hz', rfl⟩
    · rw [hdirty] at hb
      simp only [if_true] at hb ⊢
      rw [hb]
      exact ⟨dirty_suffix, by simp⟩
  unfold piecesFromVcs
  rw [hr.describe, hr.head, hr.repo]
  simp only [Bool.not_true, Bool.false_eq_true, if_false, strip_described hc hp hps, hfull]
  rw [hdirty.1, hdirty.2]
  unfold bare Checkout.hash
  cases htag : c.tag with
  | none =>
    have hno : '-' ∉ c.short := fun h => absurd (hc.shortHex _ h) (by decide)
    simp only [hno, if_false, hr.count htag]
  | some t =>
    have hne : pre ++ t ≠ [] := by
      intro h
      rw [List.append_eq_nil_iff] at h
      rw [h.1] at hp; simp at hp
    have hin : '-' ∈ pre ++ t ++ '-' :: Nat.toDigits 10 c.distance ++ '-' :: 'g' :: c.short := by simp
    have hpre : pre.isPrefixOf (pre ++ t) = true := by
      rw [List.isPrefixOf_iff_prefix]; exact ⟨t, rfl⟩
    simp only [hin, if_true,
      describeRe_parts hne Nat.toDigits_ne_nil hc.short digits_isDigit hc.shortHex,
      hpre, List.drop_left, Nat.ofDigitChars_ten_toDigits]

/-- The keywords as they are in a checkout, `openscm/_version.py:25-27`. -/
def unexpanded : Keywords := ⟨str "$Format:%d$", str "$Format:%H$", str "$Format:%ci$"⟩

/-- The keywords are not used in a checkout. -/
theorem keywords_unexpanded : versionsFromKeywords unexpanded (str "v") = none := by
  have : (str "$Format").isPrefixOf (strip unexpanded.refnames) = true := by decide +kernel
  unfold versionsFromKeywords
  simp only [this, if_true]

/-- What `get_versions` returns in a checkout. -/
theorem getVersions_of {g : Git} {c : Checkout} (hr : Reports ['v'] g c) (hc : c.Valid) (dirs : List Str) :
    getVersions unexpanded g dirs =
      { version := renderPep440 { long := c.commit, short := c.hash, error := none, dirty := c.dirty,
                                  tag := c.tag, distance := c.distance, date := isoDate g.date },
        full := some c.commit, dirty := some c.dirty, error := none, date := some (isoDate g.date) } := by
  have hv : str "v" = ['v'] := by decide +kernel
  unfold getVersions
  rw [keywords_unexpanded, hv, pieces_of hr hc (p := 'v') rfl (by decide)]
  rfl

/-! ## C86 -/

/-- **C86**: the version tells the commit and whether there are local changes, without an error. -/
theorem C86_commit {g : Git} {c : Checkout} (hr : Reports ['v'] g c) (hc : c.Valid) (dirs : List Str) :
    (getVersions unexpanded g dirs).full = some c.commit ∧
    (getVersions unexpanded g dirs).dirty = some c.dirty ∧
    (getVersions unexpanded g dirs).error = none := by
  rw [getVersions_of hr hc]; exact ⟨rfl, rfl, rfl⟩

theorem tagged_of {c : Checkout} (hc : c.Valid) {l s e d n z} :
    (Pieces.mk l s e d c.tag n z).tagged = c.tag := by
  have := hc.tag
  unfold Pieces.tagged
  cases h : c.tag with
  | none => rfl
  | some t =>
    cases t with
    | nil => exact absurd h this
    | cons => rfl

/-- **C86**: the version of an unchanged checkout of a tagged commit is the tag without its prefix. -/
theorem C86_release {g : Git} {c : Checkout} (hr : Reports ['v'] g c) (hc : c.Valid) (dirs : List Str)
    (hat : c.AtTag) : some (getVersions unexpanded g dirs).version = c.tag := by
  rw [getVersions_of hr hc]
  unfold renderPep440
  rw [tagged_of hc]
  obtain ⟨h1, h2, h3⟩ := hat
  obtain ⟨t, ht⟩ := Option.isSome_iff_exists.1 h1
  simp [ht, h2, h3]

theorem hash_hex {c : Checkout} (hc : c.Valid) : ∀ x ∈ c.hash, isHex x = true := by
  unfold Checkout.hash
  split
  · exact hc.shortHex
  · exact fun x hx => hc.hex x (List.mem_of_mem_take hx)

/-- Everything behind the `+`. -/
def local' (c : Checkout) : Str :=
  Nat.toDigits 10 c.distance ++ '.' :: 'g' :: (c.hash ++ (if c.dirty then ['.', 'd', 'i', 'r', 't', 'y'] else []))

theorem local_inj {c d : Checkout} (hc : c.Valid) (hd : d.Valid) (h : local' c = local' d) :
    c.distance = d.distance ∧ c.hash = d.hash ∧ c.dirty = d.dirty := by
  unfold local' at h
  obtain ⟨e1, e2⟩ := cut (x := '.')
    (fun hm => absurd (digits_isDigit _ hm) (by decide))
    (fun hm => absurd (digits_isDigit _ hm) (by decide)) h
  have e2 := (List.cons.inj e2).2
  refine ⟨digits_inj e1, ?_⟩
  have n1 : '.' ∉ c.hash := fun hm => absurd (hash_hex hc _ hm) (by decide)
  have n2 : '.' ∉ d.hash := fun hm => absurd (hash_hex hd _ hm) (by decide)
  cases h1 : c.dirty <;> cases h2 : d.dirty <;> rw [h1, h2] at e2 <;>
    simp only [Bool.false_eq_true, if_false, if_true, List.append_nil] at e2
  · exact ⟨e2, rfl⟩
  · rw [e2] at n1; simp at n1
  · rw [← e2] at n2; simp at n2
  · exact ⟨List.append_cancel_right e2, rfl⟩

theorem version_form {c : Checkout} (hc : c.Valid) {z : Str} (hplus : ∀ t, c.tag = some t → '+' ∉ t) :
    let v := renderPep440 { long := c.commit, short := c.hash, error := none, dirty := c.dirty,
                            tag := c.tag, distance := c.distance, date := z }
    (c.AtTag ∧ c.tag = some v) ∨
    (¬ c.AtTag ∧ ∃ t, c.tag = some t ∧ v = t ++ '+' :: local' c) ∨
    (c.tag = none ∧ v = '0' :: '+' :: ('u' :: 'n' :: 't' :: 'a' :: 'g' :: 'g' :: 'e' :: 'd' :: '.' :: local' c)) := by
  have s1 : str ".g" = ['.', 'g'] := by decide +kernel
  have s2 : str ".dirty" = ['.', 'd', 'i', 'r', 't', 'y'] := by decide +kernel
  have s3 : str "0+untagged." = ['0', '+', 'u', 'n', 't', 'a', 'g', 'g', 'e', 'd', '.'] := by decide +kernel
  unfold renderPep440
  simp only [tagged_of hc]
  cases ht : c.tag with
  | none =>
    refine Or.inr (Or.inr ⟨rfl, ?_⟩)
    simp only [s1, s2, s3, dec, local']
    simp
  | some t =>
    simp only
    by_cases hm : c.distance ≠ 0 ∨ c.dirty = true
    · rw [if_pos hm]
      refine Or.inr (Or.inl ⟨?_, t, rfl, ?_⟩)
      · rintro ⟨_, h2, h3⟩
        rcases hm with h | h
        · exact h h2
        · rw [h3] at h; simp at h
      · have : plusOrDot t = ['+'] := by unfold plusOrDot; rw [if_neg (hplus t ht)]
        simp only [s1, s2, dec, local', this]
        simp
    · rw [if_neg hm]
      refine Or.inl ⟨⟨by simp [ht], by by_contra h; exact hm (Or.inl h), ?_⟩, rfl⟩
      cases hd : c.dirty
      · rfl
      · exact absurd (Or.inr hd) hm

/-- **C86**, what holds: the version tells tag, distance and local changes, and unless it is that of
a release also the abbreviated commit. Missing: tags that contain a `+`; see `C86_collision`. -/
theorem C86_distinct_partial {g h : Git} {c d : Checkout} (hg : Reports ['v'] g c) (hh : Reports ['v'] h d)
    (hc : c.Valid) (hd : d.Valid) (dirs dirs' : List Str)
    (hpc : ∀ t, c.tag = some t → '+' ∉ t) (hpd : ∀ t, d.tag = some t → '+' ∉ t)
    (heq : (getVersions unexpanded g dirs).version = (getVersions unexpanded h dirs').version) :
    c.tag = d.tag ∧ c.distance = d.distance ∧ c.dirty = d.dirty ∧ (c.AtTag ∨ c.hash = d.hash) := by
  rw [getVersions_of hg hc, getVersions_of hh hd] at heq
  simp only at heq
  have f1 := version_form hc (z := isoDate g.date) hpc
  have f2 := version_form hd (z := isoDate h.date) hpd
  simp only at f1 f2
  rw [← heq] at f2
  generalize renderPep440 { long := c.commit, short := c.hash, error := none, dirty := c.dirty,
                            tag := c.tag, distance := c.distance, date := isoDate g.date } = v at f1 f2
  have plus0 : '+' ∉ ['0'] := by decide
  have udig : ∀ {x : Checkout} {l : Str}, local' x ≠ 'u' :: l := by
    intro x l hl
    unfold local' at hl
    obtain ⟨q, r, hqr⟩ := List.exists_cons_of_ne_nil (Nat.toDigits_ne_nil (n := x.distance) (b := 10))
    rw [hqr] at hl
    have : q = 'u' := (List.cons.inj hl).1
    subst this
    exact absurd (digits_isDigit (n := x.distance) 'u' (by rw [hqr]; simp)) (by decide)
  rcases f1 with ⟨a1, b1⟩ | ⟨a1, t, b1, c1⟩ | ⟨a1, c1⟩ <;>
    rcases f2 with ⟨a2, b2⟩ | ⟨a2, u, b2, c2⟩ | ⟨a2, c2⟩
  · exact ⟨b1.trans b2.symm, a1.2.1.trans a2.2.1.symm, a1.2.2.trans a2.2.2.symm, Or.inl a1⟩
  · have := hpc v b1; rw [c2] at this; simp at this
  · have := hpc v b1; rw [c2] at this; simp at this
  · have := hpd v b2; rw [c1] at this; simp at this
  · rw [c1] at c2
    obtain ⟨e1, e2⟩ := cut (hpc t b1) (hpd u b2) c2
    obtain ⟨i1, i2, i3⟩ := local_inj hc hd e2
    exact ⟨by rw [b1, b2, e1], i1, i3, Or.inr i2⟩
  · rw [c1] at c2
    obtain ⟨_, e2⟩ := cut (a' := ['0']) (hpc t b1) plus0 c2
    exact absurd e2 udig
  · have := hpd v b2; rw [c1] at this; simp at this
  · rw [c1] at c2
    obtain ⟨_, e2⟩ := cut (a := ['0']) plus0 (hpd u b2) c2
    exact absurd e2.symm udig
  · rw [c1] at c2
    have : local' c = local' d := by simpa using c2
    obtain ⟨i1, i2, i3⟩ := local_inj hc hd this
    exact ⟨by rw [a1, a2], i1, i3, Or.inr i2⟩

/-- **C86** is violated by tags with a `+`: after two commits on the tag `v1.0` the version is that
of the release `v1.0+2.gabc1234`. -/
theorem C86_collision : ∃ (g h : Git) (c d : Checkout), Reports ['v'] g c ∧ Reports ['v'] h d ∧
    c.Valid ∧ d.Valid ∧ c.tag ≠ d.tag ∧ c.distance ≠ d.distance ∧
    (getVersions unexpanded g []).version = (getVersions unexpanded h []).version := by
  refine ⟨⟨true, some (str "v1.0-2-gabc1234\n"), some (str "abc12345\n"), 7, []⟩,
    ⟨true, some (str "v1.0+2.gabc1234-0-gdef9876\n"), some (str "def98765\n"), 7, []⟩,
    ⟨some (str "1.0"), 2, str "abc12345", str "abc1234", false⟩,
    ⟨some (str "1.0+2.gabc1234"), 0, str "def98765", str "def9876", false⟩, ?_, ?_, ?_, ?_, ?_, ?_, ?_⟩
  · exact ⟨rfl, by decide +kernel, by decide +kernel, by simp⟩
  · exact ⟨rfl, by decide +kernel, by decide +kernel, by simp⟩
  · exact ⟨by decide +kernel, by decide +kernel, by decide +kernel, by decide +kernel, by decide +kernel⟩
  · exact ⟨by decide +kernel, by decide +kernel, by decide +kernel, by decide +kernel, by decide +kernel⟩
  · decide +kernel
  · decide
  · decide +kernel

/-- **C86**: there is at most one `+` in a version, as demanded for version strings of packages, if
there is at most one in the tag. -/
theorem C86_one_plus {g : Git} {c : Checkout} (hr : Reports ['v'] g c) (hc : c.Valid) (dirs : List Str)
    (htag : ∀ t, c.tag = some t → t.count '+' ≤ 1) :
    (getVersions unexpanded g dirs).version.count '+' ≤ 1 := by
  rw [getVersions_of hr hc]
  have s1 : (str ".g").count '+' = 0 := by decide +kernel
  have s2 : (if c.dirty then str ".dirty" else []).count '+' = 0 := by
    cases c.dirty
    · rfl
    · decide +kernel
  have s3 : (str "0+untagged.").count '+' = 1 := by decide +kernel
  have s4 : (dec c.distance).count '+' = 0 :=
    List.count_eq_zero.2 fun hm => absurd (digits_isDigit _ hm) (by decide)
  have s5 : c.hash.count '+' = 0 :=
    List.count_eq_zero.2 fun hm => absurd (hash_hex hc _ hm) (by decide)
  unfold renderPep440
  simp only [tagged_of hc]
  cases ht : c.tag with
  | none => simp only [List.count_append, s1, s2, s3, s4, s5]; omega
  | some t =>
    simp only
    split
    · simp only [List.count_append, s1, s2, s4, s5]
      have := htag t ht
      unfold plusOrDot
      split
      · have : List.count '+' ['.'] = 0 := by decide
        omega
      · rename_i hp
        have h0 := List.count_eq_zero.2 hp
        have : List.count '+' ['+'] = 1 := by decide
        omega
    · exact htag t ht

/-- **C86** in the other styles: whatever the style, a release has the version of its tag, except for
`git-describe-long`, which always gives what git printed, without the prefix of the tag. -/
theorem C86_styles {g : Git} {c : Checkout} {pre t : Str} {p : Char} (hr : Reports pre g c) (hc : c.Valid)
    (hp : pre.head? = some p) (hps : isSpace p = false) (ht : c.tag = some t) {ps : Pieces}
    (hps' : piecesFromVcs pre g = some ps) :
    (∀ style ∈ ["", "default", "pep440", "pep440-pre", "pep440-post", "pep440-old", "git-describe"],
      c.distance = 0 → c.dirty = false → ∃ v, render ps style = some v ∧ v.version = t) ∧
    (∃ v, render ps "git-describe-long" = some v ∧ pre ++ v.version = described pre c) ∧
    ∀ style ∉ ["", "default", "pep440", "pep440-pre", "pep440-post", "pep440-old", "git-describe",
      "git-describe-long"], render ps style = none := by
  rw [pieces_of hr hc hp hps] at hps'
  injection hps' with hps'
  subst hps'
  have htg : ∀ {l s e d n z}, (Pieces.mk l s e d c.tag n z).tagged = some t := by
    intro l s e d n z; rw [tagged_of hc, ht]
  refine ⟨?_, ?_, ?_⟩
  · intro style hs h1 h2
    simp only [List.mem_cons, List.not_mem_nil, or_false] at hs
    rcases hs with rfl | rfl | rfl | rfl | rfl | rfl | rfl <;>
      refine ⟨_, rfl, ?_⟩
    · show renderPep440 _ = t
      unfold renderPep440; rw [htg]; simp [h1, h2]
    · show renderPep440 _ = t
      unfold renderPep440; rw [htg]; simp [h1, h2]
    · show renderPep440 _ = t
      unfold renderPep440; rw [htg]; simp [h1, h2]
    · show renderPep440Pre _ = t
      unfold renderPep440Pre; rw [htg]; simp [h1]
    · show renderPep440Post _ = t
      unfold renderPep440Post; rw [htg]; simp [h1, h2]
    · show renderPep440Old _ = t
      unfold renderPep440Old; rw [htg]; simp [h1, h2]
    · show renderGitDescribe _ = t
      unfold renderGitDescribe; rw [htg]; simp [h1, h2]
  · refine ⟨_, rfl, ?_⟩
    show pre ++ renderGitDescribeLong _ = _
    have s1 : str "-" = ['-'] := by decide +kernel
    have s2 : str "-g" = ['-', 'g'] := by decide +kernel
    have s3 : str "-dirty" = ['-', 'd', 'i', 'r', 't', 'y'] := by decide +kernel
    unfold renderGitDescribeLong described
    rw [htg, ht]
    simp [s1, s2, s3, dec, Checkout.hash, ht]
  · intro style hs
    simp only [List.mem_cons, List.not_mem_nil, or_false, not_or] at hs
    obtain ⟨a1, a2, a3, a4, a5, a6, a7, a8⟩ := hs
    simp [render, a1, a2, a3, a4, a5, a6, a7, a8]

/-- Hypotheses of these theorems met: a checkout with changes, three commits after the tag
`v0.1-rc2`, whose hyphen is not mistaken. -/
example : ∃ (g : Git) (c : Checkout), Reports ['v'] g c ∧ c.Valid ∧ (∀ t, c.tag = some t → '+' ∉ t) ∧
    getVersions unexpanded g [] = ⟨str "0.1-rc2+3.gabc1234.dirty", some (str "abc12345"), some true, none,
      some (str "2019-01-02T03:04:05+0100")⟩ := by
  refine ⟨⟨true, some (str "v0.1-rc2-3-gabc1234-dirty\n"), some (str "abc12345\n"), 7,
      str "2019-01-02 03:04:05 +0100\n"⟩,
    ⟨some (str "0.1-rc2"), 3, str "abc12345", str "abc1234", true⟩, ?_, ?_, ?_, ?_⟩
  · exact ⟨rfl, by decide +kernel, by decide +kernel, by simp⟩
  · exact ⟨by decide +kernel, by decide +kernel, by decide +kernel, by decide +kernel, by decide +kernel⟩
  · intro t ht; injection ht with ht; subst ht; decide +kernel
  · decide +kernel

/-- A release, and a tree without tags. -/
example : (∃ (g : Git) (c : Checkout), Reports ['v'] g c ∧ c.Valid ∧ c.AtTag ∧
      (getVersions unexpanded g []).version = str "1.0") ∧
    ∃ (g : Git) (c : Checkout), Reports ['v'] g c ∧ c.Valid ∧
      (getVersions unexpanded g []).version = str "0+untagged.7.gabc1234" := by
  refine ⟨⟨⟨true, some (str "v1.0-0-gabc1234\n"), some (str "abc12345\n"), 7, []⟩,
    ⟨some (str "1.0"), 0, str "abc12345", str "abc1234", false⟩, ?_, ?_, ?_, ?_⟩,
    ⟨⟨true, some (str "abc12345\n"), some (str "abc12345\n"), 7, []⟩,
    ⟨none, 7, str "abc12345", str "abc12345", false⟩, ?_, ?_, ?_⟩⟩
  · exact ⟨rfl, by decide +kernel, by decide +kernel, by simp⟩
  · exact ⟨by decide +kernel, by decide +kernel, by decide +kernel, by decide +kernel, by decide +kernel⟩
  · exact ⟨rfl, rfl, rfl⟩
  · decide +kernel
  · exact ⟨rfl, by decide +kernel, by decide +kernel, fun _ => rfl⟩
  · exact ⟨by decide +kernel, by decide +kernel, by decide +kernel, by decide +kernel, by decide +kernel⟩
  · decide +kernel

end Openscm.Version
