import Verif.Units
import Mathlib.Algebra.Order.Field.Rat

/-!
# The gas units

`openscm/core/units.py:122-315`: the table of standard gases and the unit definitions made from it.
pint is modelled as far as these definitions need it: a definition introduces a dimension or a
multiple of a product of units, later definitions replace earlier ones, and names are resolved when
a unit is used. Prefixes, plurals and pint's own units other than gram and tonne are left out.
-/

namespace Openscm

/-- A value of `_standard_gases`, `openscm/core/units.py:122-126`: a string, or a list whose first
entry (always of the form `factor * unit`) says how to convert and whose other entries are other
names. -/
inductive GasValue
  | base (name : String)
  | derived (factor : ℚ) (unit : String) (aliases : List String)

/-- `_standard_gases`, `openscm/core/units.py:127-242`. -/
def standardGases : List (String × GasValue) :=
  [("C", .base "carbon"), ("CO2", .derived (12 / 44) "C" ["carbon_dioxide"]),
    ("CH4", .base "methane"), ("N", .base "nitrogen"),
    ("N2O", .derived (14 / 44) "N" ["nitrous_oxide"]),
    ("N2ON", .derived (14 / 28) "N" ["nitrous_oxide_farming_style"]), ("NOx", .base "NOx"),
    ("nox", .derived 1 "NOx" []), ("NH3", .derived (14 / 17) "N" ["ammonia"]),
    ("S", .derived 1 "sulfur" []), ("SO2", .derived (32 / 64) "S" ["sulfur_dioxide"]),
    ("SOx", .derived 1 "SO2" []), ("BC", .base "black_carbon"), ("OC", .base "OC"),
    ("CO", .base "carbon_monoxide"), ("VOC", .base "VOC"),
    ("NMVOC", .derived 1 "VOC" ["non_methane_volatile_organic_compounds"]),
    ("CFC11", .base "CFC11"), ("CFC12", .base "CFC12"), ("CFC13", .base "CFC13"),
    ("CFC113", .base "CFC113"), ("CFC114", .base "CFC114"), ("CFC115", .base "CFC115"),
    ("HCFC21", .base "HCFC21"), ("HCFC22", .base "HCFC22"), ("HCFC123", .base "HCFC123"),
    ("HCFC124", .base "HCFC124"), ("HCFC141b", .base "HCFC141b"), ("HCFC142b", .base "HCFC142b"),
    ("HCFC225ca", .base "HCFC225ca"), ("HCFC225cb", .base "HCFC225cb"), ("HFC23", .base "HFC23"),
    ("HFC32", .base "HFC32"), ("HFC41", .base "HFC41"), ("HFC125", .base "HFC125"),
    ("HFC134", .base "HFC134"), ("HFC134a", .base "HFC134a"), ("HFC143", .base "HFC143"),
    ("HFC143a", .base "HFC143a"), ("HFC152", .base "HFC152"), ("HFC152a", .base "HFC152a"),
    ("HFC161", .base "HFC161"), ("HFC227ea", .base "HFC227ea"), ("HFC236cb", .base "HFC236cb"),
    ("HFC236ea", .base "HFC236ea"), ("HFC236fa", .base "HFC236fa"),
    ("HFC245ca", .base "HFC245ca"), ("HFC245fa", .base "HFC245fa"),
    ("HFC365mfc", .base "HFC365mfc"), ("HFC4310mee", .base "HFC4310mee"),
    ("HFC4310", .derived 1 "HFC4310mee" []), ("Halon1201", .base "Halon1201"),
    ("Halon1202", .base "Halon1202"), ("Halon1211", .base "Halon1211"),
    ("Halon1301", .base "Halon1301"), ("Halon2402", .base "Halon2402"), ("CF4", .base "CF4"),
    ("C2F6", .base "C2F6"), ("cC3F6", .base "cC3F6"), ("C3F8", .base "C3F8"),
    ("cC4F8", .base "cC4F8"), ("C4F10", .base "C4F10"), ("C5F12", .base "C5F12"),
    ("C6F14", .base "C6F14"), ("C7F16", .base "C7F16"), ("C8F18", .base "C8F18"),
    ("C10F18", .base "C10F18"), ("HFE125", .base "HFE125"), ("HFE134", .base "HFE134"),
    ("HFE143a", .base "HFE143a"), ("HCFE235da2", .base "HCFE235da2"),
    ("HFE245cb2", .base "HFE245cb2"), ("HFE245fa2", .base "HFE245fa2"),
    ("HFE347mcc3", .base "HFE347mcc3"), ("HFE347pcf2", .base "HFE347pcf2"),
    ("HFE356pcc3", .base "HFE356pcc3"), ("HFE449sl", .base "HFE449sl"),
    ("HFE569sf2", .base "HFE569sf2"), ("HFE4310pccc124", .base "HFE4310pccc124"),
    ("HFE236ca12", .base "HFE236ca12"), ("HFE338pcc13", .base "HFE338pcc13"),
    ("HFE227ea", .base "HFE227ea"), ("HFE236ea2", .base "HFE236ea2"),
    ("HFE236fa", .base "HFE236fa"), ("HFE245fa1", .base "HFE245fa1"),
    ("HFE263fb2", .base "HFE263fb2"), ("HFE329mcc2", .base "HFE329mcc2"),
    ("HFE338mcf2", .base "HFE338mcf2"), ("HFE347mcf2", .base "HFE347mcf2"),
    ("HFE356mec3", .base "HFE356mec3"), ("HFE356pcf2", .base "HFE356pcf2"),
    ("HFE356pcf3", .base "HFE356pcf3"), ("HFE365mcf3", .base "HFE365mcf3"),
    ("HFE374pc2", .base "HFE374pc2"), ("PFPMIE", .base "PFPMIE"), ("CCl4", .base "CCl4"),
    ("CHCl3", .base "CHCl3"), ("CH2Cl2", .base "CH2Cl2"), ("CH3CCl3", .base "CH3CCl3"),
    ("CH3Cl", .base "CH3Cl"), ("CH3Br", .base "CH3Br"), ("SF5CF3", .base "SF5CF3"),
    ("SF6", .base "SF6"), ("NF3", .base "NF3")]

/-- Right hand sides of `UnitRegistry.define`. -/
inductive Defn
  /-- `"name = [d]"` -/
  | dim (d : String)
  /-- `"name = factor * u1 * u2 * ..."` -/
  | expr (factor : ℚ) (units : List String)

/-- `_add_mass_emissions_joint_version`, `openscm/core/units.py:282-295`. -/
def jointDefs (symbol : String) : List (String × Defn) :=
  [("g" ++ symbol, .expr 1 ["g", symbol]), ("t" ++ symbol, .expr 1 ["t", symbol])]

/-- The definitions for one entry of the table, in order, `openscm/core/units.py:298-315`.
Simplification: `str.upper` acts on ASCII letters only (the table has no others). -/
def gasDefs (symbol : String) (value : GasValue) : List (String × Defn) :=
  (match value with
    | .base name =>
      (symbol, .dim name) :: (if name ≠ symbol then [(name, .expr 1 [symbol])] else [])
    | .derived factor unit aliases =>
      (symbol, .expr factor [unit]) :: aliases.map (fun a => (a, .expr 1 [symbol])))
  ++ jointDefs symbol
  ++ (if symbol.toUpper ≠ symbol then
      (symbol.toUpper, .expr 1 [symbol]) :: jointDefs symbol.toUpper else [])

/-- `_add_gases`, `openscm/core/units.py:297-315`. -/
def addGases (gases : List (String × GasValue)) : List (String × Defn) :=
  gases.flatMap fun e => gasDefs e.1 e.2

/-- The two units of pint that the joint units refer to. -/
def massDefs : List (String × Defn) := [("g", .dim "mass"), ("t", .expr 1000000 ["g"])]

/-- The definition in force: the latest. -/
def lastDef (defs : List (String × Defn)) (name : String) : Option Defn :=
  defs.foldl (fun acc e => if e.1 = name then some e.2 else acc) none

mutual
/-- pint's `_get_root_units`: the factor to, and the product of, dimensions. `none` is
`UndefinedUnitError`. `fuel` bounds the number of definitions followed. -/
def rootOf (defs : List (String × Defn)) : Nat → String → Option (ℚ × List String)
  | 0, _ => none
  | fuel + 1, name =>
    match lastDef defs name with
    | none => none
    | some (.dim d) => some (1, [d])
    | some (.expr f us) => rootsOf defs fuel f us

def rootsOf (defs : List (String × Defn)) : Nat → ℚ → List String → Option (ℚ × List String)
  | _, f, [] => some (f, [])
  | 0, _, _ :: _ => none
  | fuel + 1, f, u :: us =>
    match rootOf defs fuel u with
    | none => none
    | some (g, ds) =>
      match rootsOf defs fuel (f * g) us with
      | none => none
      | some (h, es) => some (h, ds ++ es)
end

end Openscm
