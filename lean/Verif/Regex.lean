import Verif.Basic

/-!
# The part of Python's `re` used by the filters (model)

`re.compile(...)` and `pattern.match(...)` as used in `openscm/scmdataframe/filters.py:178-180` and
`openscm/scmdataframe/parameter_type.py`. Modelled: literal characters, `.`, `^`, `$`, escaped
punctuation, and the repetitions `*` and `?` of one character. Not modelled (`Err.unmodelled`): groups,
character sets, alternatives, counted repetitions and escapes of letters and digits.
-/

namespace Openscm

/-- One element of a pattern. -/
inductive Atom
  | lit (c : Char)
  /-- `.`: any character but a newline -/
  | any
  /-- `^` -/
  | bol
  /-- `$`: the end, or just before a newline at the end -/
  | eol
  deriving DecidableEq, Repr

/-- An element with its repetition. Greedy and lazy repetitions match the same texts. -/
inductive ReItem
  | one (a : Atom)
  | star (a : Atom)
  | plus (a : Atom)
  | opt (a : Atom)
  deriving DecidableEq, Repr

/-- What is left of the text after `a`, if `a` matches; `start` tells whether this is the
beginning of the text. -/
def Atom.step (a : Atom) (start : Bool) (s : List Char) : Option (Bool × List Char) :=
  match a, s with
  | .lit c, x :: r => if x = c then some (false, r) else none
  | .lit _, [] => none
  | .any, x :: r => if x = '\n' then none else some (false, r)
  | .any, [] => none
  | .bol, s => if start then some (start, s) else none
  | .eol, s => if s = [] ∨ s = ['\n'] then some (start, s) else none

/-- What can be left after any number of `a` (a single character). -/
def Atom.tails (a : Atom) (start : Bool) : List Char → List (Bool × List Char)
  | [] => [(start, [])]
  | x :: r =>
    (start, x :: r) :: (match a.step start (x :: r) with
      | none => []
      | some _ => a.tails false r)

/-- `pattern.match(text)`: does the text begin with a match? -/
def reMatch : List ReItem → Bool → List Char → Bool
  | [], _, _ => true
  | .one a :: r, st, s =>
    match a.step st s with
    | none => false
    | some (st', s') => reMatch r st' s'
  | .opt a :: r, st, s =>
    reMatch r st s ||
      (match a.step st s with
      | none => false
      | some (st', s') => reMatch r st' s')
  | .star a :: r, st, s => (a.tails st s).any fun p => reMatch r p.1 p.2
  | .plus a :: r, st, s =>
    match a.step st s with
    | none => false
    | some (st', s') => (a.tails st' s').any fun p => reMatch r p.1 p.2

/-- Can `c` follow a backslash and stand for itself? `re` refuses or gives a meaning to backslash and
an ASCII letter or digit. -/
def escapable (c : Char) : Bool := !c.isAlphanum

/-- The elements of a pattern text: characters and repetition signs. -/
inductive ReTok
  | atom (a : Atom)
  | star
  | plus
  | opt
  deriving DecidableEq, Repr

/-- First half of `re.compile`: read the elements. -/
def reTokens : List Char → Except Err (List ReTok)
  | [] => .ok []
  | ['\\'] => .error .reError
  | '\\' :: d :: r => if escapable d then (reTokens r).map (.atom (.lit d) :: ·) else .error .unmodelled
  | c :: r =>
    if c = '.' then (reTokens r).map (.atom .any :: ·)
    else if c = '^' then (reTokens r).map (.atom .bol :: ·)
    else if c = '$' then (reTokens r).map (.atom .eol :: ·)
    else if c = '*' then (reTokens r).map (.star :: ·)
    else if c = '+' then (reTokens r).map (.plus :: ·)
    else if c = '?' then (reTokens r).map (.opt :: ·)
    else if c = '[' ∨ c = '(' ∨ c = ')' ∨ c = '|' ∨ c = '{' then .error .unmodelled
    else (reTokens r).map (.atom (.lit c) :: ·)

/-- What stands before the current position: nothing that can be repeated, an element, an element with
its repetition, or the latter made lazy. -/
inductive RePrev
  | nothing
  | atom (a : Atom)
  | repeated
  | lazy
  deriving DecidableEq, Repr

/-- The repetition `q` after `prev`: it needs something to repeat that is not `^` or `$`; a `?` after a
repetition makes it lazy, all else is refused. -/
def RePrev.quant (prev : RePrev) (q : Atom → ReItem) (question : Bool) : Except Err (List ReItem × RePrev) :=
  match prev with
  | .nothing => .error .reError
  | .atom .bol => .error .reError
  | .atom .eol => .error .reError
  | .atom a => .ok ([q a], .repeated)
  | .repeated => if question then .ok ([], .lazy) else .error .reError
  | .lazy => .error .reError

/-- The element at the previous position, if it has no repetition. -/
def RePrev.items : RePrev → List ReItem
  | .atom a => [.one a]
  | _ => []

/-- Second half of `re.compile`: attach the repetitions. -/
def reItems : RePrev → List ReTok → Except Err (List ReItem)
  | prev, [] => .ok prev.items
  | prev, .atom a :: r => (reItems (.atom a) r).map (prev.items ++ ·)
  | prev, .star :: r =>
    match prev.quant .star false with
    | .error e => .error e
    | .ok (l, p) => (reItems p r).map (l ++ ·)
  | prev, .plus :: r =>
    match prev.quant .plus false with
    | .error e => .error e
    | .ok (l, p) => (reItems p r).map (l ++ ·)
  | prev, .opt :: r =>
    match prev.quant .opt true with
    | .error e => .error e
    | .ok (l, p) => (reItems p r).map (l ++ ·)

/-- `re.compile`. -/
def reCompile (p : List Char) : Except Err (List ReItem) :=
  match reTokens p with
  | .error e => .error e
  | .ok l => reItems .nothing l

end Openscm
