import Verif.Basic

/-!
# Hierarchical names (model)

`HierarchicalName = Union[str, Sequence[str]]`, `openscm/core/parameters.py:25-33`.
-/

namespace Openscm

/-- `HIERARCHY_SEPARATOR`, `openscm/core/parameters.py:27`. -/
def sepChar : Char := '|'

/-- Python's `str.split("|")` on the characters of a string: always at least one part. -/
def splitChars : List Char → List (List Char)
  | [] => [[]]
  | c :: cs =>
    if c = sepChar then [] :: splitChars cs
    else match splitChars cs with
      | [] => [[c]]
      | h :: t => (c :: h) :: t

/-- `name.split(HIERARCHY_SEPARATOR)` as used in `openscm/core/parameterset.py:59,95,126` and
`openscm/core/regions.py:97,149`, `openscm/core/parameters.py:221`. -/
def splitName (s : String) : List String :=
  (splitChars s.toList).map String.ofList

/-- `"|".join(parts)`, `openscm/core/parameters.py:326`. -/
def joinName (parts : List String) : String :=
  String.ofList ([sepChar].intercalate (parts.map String.toList))

/-- `HierarchicalName`, `openscm/core/parameters.py:25`: a string or a sequence of strings. -/
inductive HName
  | str (s : String)
  | seq (l : List String)
  deriving DecidableEq, Repr

/-- `if isinstance(name, str): name = name.split("|")` (`openscm/core/parameterset.py:58-59`,
`94-95`, `125-126`; `openscm/core/regions.py:148-149`). -/
def HName.parts : HName → List String
  | .str s => splitName s
  | .seq l => l

/-- Python truthiness of a name, as tested by `if not name` (`openscm/core/regions.py:146`). -/
def HName.truthy : HName → Bool
  | .str s => s ≠ ""
  | .seq l => l ≠ []

end Openscm
