import Verif.Basic
import Mathlib.Algebra.Order.Field.Basic

/-!
# Unit conversion (model)

`openscm/core/units.py:463-587` (`UnitConverter`).

pint itself is not modelled: a unit registry is an arbitrary table that says which strings are
units, what dimension they have and how a magnitude in that unit relates to base units.
-/

namespace Openscm

/-- A unit as pint knows it: a dimensionality (exponents of base dimensions, in canonical order)
and an affine map `magnitude ↦ magnitude * scale + offset` into base units
(`pint.converters.OffsetConverter`; `offset = 0` for multiplicative units). -/
structure UDef (K : Type) [Zero K] where
  dim : List (String × Int)
  scale : K
  offset : K
  scale_ne : scale ≠ 0

/-- A unit registry: which strings parse as units and to what.  `none` is pint's
`UndefinedUnitError` (any parse failure). -/
abbrev Registry (K : Type) [Zero K] := String → Option (UDef K)

variable {K : Type} [Field K]

/-- Magnitude in base units of `v` in unit `u` (pint). -/
def UDef.toBase (u : UDef K) (v : K) : K := v * u.scale + u.offset

/-- Magnitude in unit `u` of the base-unit magnitude `b` (pint). -/
def UDef.ofBase (u : UDef K) (b : K) : K := (b - u.offset) / u.scale

/-- `Quantity(v, s).to(t)` of pint for units of equal dimensionality. -/
def pintTo (s t : UDef K) (v : K) : K := t.ofBase (s.toBase v)

/-- `UnitConverter` objects, `openscm/core/units.py:463-478`. -/
structure Conv (K : Type) where
  source : String
  target : String
  scaling : K
  offset : K

/-- `UnitConverter.__init__` without context, `openscm/core/units.py:480-527`: scaling and offset
are reconstructed from the conversions of `1` and `-1` (lines 508-513, 526-527).
Simplification: the NaN warning (519-524) concerns contexts only and is not modelled here. -/
def mkConv (reg : Registry K) (source target : String) : Except Err (Conv K) :=
  match reg source with
  | none => .error .undefinedUnit
  | some s =>
    match reg target with
    | none => .error .undefinedUnit
    | some t =>
      if s.dim = t.dim then
        let s1 : K := 1
        let s2 : K := -1
        let t1 := pintTo s t s1
        let t2 := pintTo s t s2
        let scaling := (t2 - t1) / (s2 - s1)
        let offset := t1 - scaling * s1
        .ok { source := source, target := target, scaling := scaling, offset := offset }
      else .error .dimensionality

/-- `UnitConverter(parameter.unit, unit)` where `parameter.unit` may be `None`
(`openscm/core/views.py:175,305`): pint's `Unit(None)` raises `TypeError`. -/
def mkConvOpt (reg : Registry K) (source : Option String) (target : String) :
    Except Err (Conv K) :=
  match source with
  | none => .error .typeError
  | some s => mkConv reg s target

/-- `UnitConverter.convert_from`, `openscm/core/units.py:543`. -/
def Conv.convertFrom (c : Conv K) (v : K) : K := c.offset + v * c.scaling

/-- `UnitConverter.convert_to`, `openscm/core/units.py:559`. -/
def Conv.convertTo (c : Conv K) (v : K) : K := (v - c.offset) / c.scaling

end Openscm
