import Mathlib.Data.List.Basic

/-!
# `openscm/_version.py`

How `openscm.__version__` is found. Strings are lists of characters. What is read from outside, the
expanded keywords, the outputs of git and the path of the source tree, is given.
-/

namespace Openscm.Version

abbrev Str := List Char

def str (s : String) : Str := s.toList

/-- ASCII white space, as stripped by `str.strip`. -/
def isSpace (c : Char) : Bool :=
  c = ' ' || c = '\t' || c = '\n' || c = '\r' || c = '\x0b' || c = '\x0c'

/-- `str.strip(chars)` -/
def stripChars (p : Char → Bool) (s : Str) : Str :=
  ((s.dropWhile p).reverse.dropWhile p).reverse

/-- `str.strip()` -/
def strip (s : Str) : Str := stripChars isSpace s

/-- `s.replace(a, b, 1)` for a single character `a` -/
def replaceFirst (a : Char) (b : Str) : Str → Str
  | [] => []
  | c :: s => if c = a then b ++ s else c :: replaceFirst a b s

/-- `s.split(c)` for a single character `c` -/
def splitOn (a : Char) : Str → List Str
  | [] => [[]]
  | c :: s =>
    if c = a then [] :: splitOn a s
    else
      match splitOn a s with
      | [] => [[c]]
      | w :: ws => (c :: w) :: ws

/-- `s < t` by code points -/
def strLt : Str → Str → Bool
  | _, [] => false
  | [], _ :: _ => true
  | c :: s, d :: t => c.toNat < d.toNat || (c = d && strLt s t)

/-- The value returned by `get_versions`. -/
structure Versions where
  version : Str
  full : Option Str
  dirty : Option Bool
  error : Option Str
  date : Option Str
  deriving DecidableEq

/-- `pieces` as left by `git_pieces_from_vcs`. -/
structure Pieces where
  long : Str
  short : Str
  error : Option Str
  dirty : Bool
  /-- `closest-tag` -/
  tag : Option Str
  distance : Nat
  date : Str
  deriving DecidableEq

/-- The dates, `openscm/_version.py:183` and `:328`: `2019-01-02 03:04:05 +0100` becomes
`2019-01-02T03:04:05+0100`. -/
def isoDate (s : Str) : Str := replaceFirst ' ' [] (replaceFirst ' ' ['T'] (strip s))

def isHex (c : Char) : Bool := c.isDigit || (97 ≤ c.toNat && c.toNat ≤ 102)

/-- The regular expression `^(.+)-(\d+)-g([0-9a-f]+)$`, `openscm/_version.py:293`. As digits
contain no hyphen and hexadecimal digits neither a hyphen nor `g`, there is at most one way to match.
Simplifications: `\d` matches ASCII digits only, and there is no newline in the string. -/
def describeRe (s : Str) : Option (Str × Str × Str) :=
  let r := s.reverse
  let hex := r.takeWhile isHex
  match r.dropWhile isHex with
  | 'g' :: '-' :: r1 =>
    let num := r1.takeWhile Char.isDigit
    match r1.dropWhile Char.isDigit with
    | '-' :: c :: r2 =>
      if hex = [] ∨ num = [] then none else some ((c :: r2).reverse, num.reverse, hex.reverse)
    | _ => none
  | _ => none

/-- What git says about a source tree. `none`: the command failed. -/
structure Git where
  /-- `git rev-parse --git-dir` succeeds -/
  isRepo : Bool
  /-- `git describe --tags --dirty --always --long --match PREFIX*` -/
  describe : Option Str
  /-- `git rev-parse HEAD` -/
  head : Option Str
  /-- `git rev-list HEAD --count` -/
  count : Nat
  /-- `git show -s --format=%ci HEAD` -/
  date : Str

/-- `git_pieces_from_vcs`, `openscm/_version.py:232-330`. `none`: `NotThisMethod`.
Simplifications: the texts of the two error messages are not modelled exactly; `git rev-list` and
`git show` succeed whenever `git rev-parse HEAD` does. -/
def piecesFromVcs (pre : Str) (g : Git) : Option Pieces :=
  if !g.isRepo then none
  else
    match g.describe with
    | none => none
    | some out =>
      match g.head with
      | none => none
      | some full =>
        let out := strip out
        let full := strip full
        let dirty := (str "-dirty").isSuffixOf out
        let desc := if dirty then out.take (out.length - 6) else out
        if '-' ∈ desc then
          match describeRe desc with
          | none => some { long := full, short := full.take 7, error := some (str "unable to parse git-describe output"),
                           dirty := dirty, tag := none, distance := 0, date := [] }
          | some (t, n, h) =>
            if pre.isPrefixOf t then
              some { long := full, short := h, error := none, dirty := dirty,
                     tag := some (t.drop pre.length), distance := Nat.ofDigitChars 10 n 0,
                     date := isoDate g.date }
            else
              some { long := full, short := full.take 7, error := some (str "tag doesn't start with prefix"),
                     dirty := dirty, tag := none, distance := 0, date := [] }
        else
          some { long := full, short := full.take 7, error := none, dirty := dirty, tag := none,
                 distance := g.count, date := isoDate g.date }

/-- `"%d" % n` -/
def dec (n : Nat) : Str := Nat.toDigits 10 n

/-- `plus_or_dot`, `openscm/_version.py:333-337` -/
def plusOrDot (tag : Str) : Str := if '+' ∈ tag then ['.'] else ['+']

/-- `if pieces["closest-tag"]`: neither `None` nor empty -/
def Pieces.tagged (p : Pieces) : Option Str :=
  match p.tag with
  | some (c :: t) => some (c :: t)
  | _ => none

/-- `render_pep440`, `openscm/_version.py:340-361` -/
def renderPep440 (p : Pieces) : Str :=
  match p.tagged with
  | some t =>
    if p.distance ≠ 0 ∨ p.dirty then
      t ++ plusOrDot t ++ dec p.distance ++ str ".g" ++ p.short ++ (if p.dirty then str ".dirty" else [])
    else t
  | none =>
    str "0+untagged." ++ dec p.distance ++ str ".g" ++ p.short ++ (if p.dirty then str ".dirty" else [])

/-- `render_pep440_pre`, `openscm/_version.py:364-377` -/
def renderPep440Pre (p : Pieces) : Str :=
  match p.tagged with
  | some t => if p.distance ≠ 0 then t ++ str ".post.dev" ++ dec p.distance else t
  | none => str "0.post.dev" ++ dec p.distance

/-- `render_pep440_post`, `openscm/_version.py:380-404` -/
def renderPep440Post (p : Pieces) : Str :=
  match p.tagged with
  | some t =>
    if p.distance ≠ 0 ∨ p.dirty then
      t ++ str ".post" ++ dec p.distance ++ (if p.dirty then str ".dev0" else []) ++ plusOrDot t
        ++ str "g" ++ p.short
    else t
  | none =>
    str "0.post" ++ dec p.distance ++ (if p.dirty then str ".dev0" else []) ++ str "+g" ++ p.short

/-- `render_pep440_old`, `openscm/_version.py:407-426` -/
def renderPep440Old (p : Pieces) : Str :=
  match p.tagged with
  | some t =>
    if p.distance ≠ 0 ∨ p.dirty then
      t ++ str ".post" ++ dec p.distance ++ (if p.dirty then str ".dev0" else [])
    else t
  | none => str "0.post" ++ dec p.distance ++ (if p.dirty then str ".dev0" else [])

/-- `render_git_describe`, `openscm/_version.py:429-446` -/
def renderGitDescribe (p : Pieces) : Str :=
  (match p.tagged with
   | some t => if p.distance ≠ 0 then t ++ str "-" ++ dec p.distance ++ str "-g" ++ p.short else t
   | none => p.short) ++ (if p.dirty then str "-dirty" else [])

/-- `render_git_describe_long`, `openscm/_version.py:449-466` -/
def renderGitDescribeLong (p : Pieces) : Str :=
  (match p.tagged with
   | some t => t ++ str "-" ++ dec p.distance ++ str "-g" ++ p.short
   | none => p.short) ++ (if p.dirty then str "-dirty" else [])

/-- `render`, `openscm/_version.py:469-504`; `none`: `ValueError` for an unknown style. -/
def render (p : Pieces) (style : String) : Option Versions :=
  match p.error with
  | some e => some { version := str "unknown", full := some p.long, dirty := none, error := some e, date := none }
  | none =>
    let style := if style = "" ∨ style = "default" then "pep440" else style
    let v :=
      if style = "pep440" then some (renderPep440 p)
      else if style = "pep440-pre" then some (renderPep440Pre p)
      else if style = "pep440-post" then some (renderPep440Post p)
      else if style = "pep440-old" then some (renderPep440Old p)
      else if style = "git-describe" then some (renderGitDescribe p)
      else if style = "git-describe-long" then some (renderGitDescribeLong p)
      else none
    match v with
    | none => none
    | some v => some { version := v, full := some p.long, dirty := some p.dirty, error := none, date := some p.date }

/-- The keywords put in by `git archive`, `openscm/_version.py:19-29`. -/
structure Keywords where
  refnames : Str
  full : Str
  date : Str

/-- The first of the strings by code points that satisfy `p`: `for ref in sorted(tags): if p(ref)`. -/
def firstSorted (p : Str → Bool) : List Str → Option Str
  | [] => none
  | t :: ts =>
    match firstSorted p ts with
    | none => if p t then some t else none
    | some u => if p t && strLt t u then some t else some u

/-- `git_versions_from_keywords`, `openscm/_version.py:170-229`. `none`: `NotThisMethod`. The sets
of refs are lists: neither order nor repetition matter for the smallest one. -/
def versionsFromKeywords (k : Keywords) (pre : Str) : Option Versions :=
  let refnames := strip k.refnames
  if (str "$Format").isPrefixOf refnames then none
  else
    let refs := (splitOn ',' (stripChars (fun c => c = '(' || c = ')') refnames)).map strip
    let tags := (refs.filter (str "tag: ").isPrefixOf).map (·.drop 5)
    let tags := if tags = [] then refs.filter (·.any Char.isDigit) else tags
    match firstSorted pre.isPrefixOf tags with
    | some r => some { version := r.drop pre.length, full := some (strip k.full), dirty := some false,
                       error := none, date := some (isoDate k.date) }
    | none => some { version := str "0+unknown", full := some (strip k.full), dirty := some false,
                     error := some (str "no suitable tags"), date := none }

/-- `versions_from_parentdir`, `openscm/_version.py:110-139`: of the path, the last three
components, innermost first. -/
def versionsFromParentdir (pre : Str) (dirs : List Str) : Option Versions :=
  match (dirs.take 3).find? pre.isPrefixOf with
  | some d => some { version := d.drop pre.length, full := none, dirty := some false, error := none, date := none }
  | none => none

/-- `get_versions`, `openscm/_version.py:507-556`, with the configuration of lines 36-47. -/
def getVersions (k : Keywords) (g : Git) (dirs : List Str) : Versions :=
  match versionsFromKeywords k (str "v") with
  | some v => v
  | none =>
    match (piecesFromVcs (str "v") g).bind (render · "pep440") with
    | some v => v
    | none =>
      match versionsFromParentdir (str "openscm-") dirs with
      | some v => v
      | none => { version := str "0+unknown", full := none, dirty := none,
                  error := some (str "unable to compute version"), date := none }

end Openscm.Version
