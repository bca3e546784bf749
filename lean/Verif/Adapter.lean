import Verif.Basic

/-!
# Loading adapters

`openscm/adapters/__init__.py:179-230`, `openscm/core/__init__.py:35-64`.
A class is represented by a number: each execution of a module body creates a new one. Importing is
what the environment does: it may fail, and Python caches the module, so that further imports of a
module that was imported give the same class.
-/

namespace Openscm

/-- The module-level dictionary `_loaded_adapters` and Python's cache of imported modules
(`sys.modules`), with the classes defined in them. -/
structure Adapters where
  loaded : List (String × Nat)
  modules : List (String × Nat)
  fresh : Nat

/-- `from .dice import DICE`: `ok` tells whether the modules needed by the adapter can be
imported; if not, `ImportError` is raised (`none`). -/
def importModule (a : Adapters) (name : String) (ok : Bool) : Option Nat × Adapters :=
  match a.modules.lookup name with
  | some c => (some c, a)
  | none =>
    if ok then
      (some a.fresh, { a with modules := (name, a.fresh) :: a.modules, fresh := a.fresh + 1 })
    else (none, a)

/-- The names in the chain of `if`s. -/
def knownAdapters : List String := ["DICE"]

/-- `load_adapter`, `openscm/adapters/__init__.py:179-230`. -/
def loadAdapter (a : Adapters) (name : String) (ok : Bool) : Except Err Nat × Adapters :=
  match a.loaded.lookup name with
  | some c => (.ok c, a)
  | none =>
    if name ∈ knownAdapters then
      match importModule a name ok with
      | (none, a') => (.error .adapterNeedsModule, a')
      | (some c, a') => (.ok c, { a' with loaded := (name, c) :: a'.loaded })
    else (.error .keyError, a)

/-- What else may happen between calls: anybody may import or reload modules (`ok` as above;
`drop` removes a module from Python's cache). -/
inductive AdapterOp
  | load (name : String) (ok : Bool)
  | importIt (name : String) (ok : Bool)
  | drop (name : String)

def adapterCall (a : Adapters) : AdapterOp → Except Err (Option Nat) × Adapters
  | .load n ok => match loadAdapter a n ok with
    | (.ok c, a') => (.ok (some c), a')
    | (.error e, a') => (.error e, a')
  | .importIt n ok => (.ok (importModule a n ok).1, (importModule a n ok).2)
  | .drop n => (.ok none, { a with modules := a.modules.filter (fun p => p.1 ≠ n) })

def adaptersAfter (a : Adapters) : List AdapterOp → Adapters
  | [] => a
  | op :: ops => adaptersAfter (adapterCall a op).2 ops

/-- A new interpreter. -/
def Adapters.init : Adapters := ⟨[], [], 0⟩

end Openscm
