import Verif.Gas

/-!
# Conversion contexts

`openscm/core/units.py:317-451`, `480-527`: the contexts of pint that allow conversions between
gases, and `UnitConverter` with a context.

pint is modelled as far as needed: a context is a list of transformations between dimensions; a
conversion looks for a shortest path of transformations, applies them one after the other and then
converts to the target unit. Simplifications: the functions of a transformation multiply a quantity
by a unit and a number; they are represented by the factor this is in root units. Where a
transformation is applied the units have no offset (pint has offsets for temperatures only).
-/

namespace Openscm

/-- A dimensionality. -/
abbrev Dim := List (String × Int)

/-- The four forms in which emissions come, `openscm/core/units.py:417-448`. -/
inductive Form
  | bare
  | massFlux
  | mass
  | flux
  deriving DecidableEq

/-- `"{}"`, `"[mass] * {} / [time]"`, `"[mass] * {}"`, `"{} / [time]"` as dimensionalities. -/
def Form.dim : Form → String → Dim
  | .bare, g => [(g, 1)]
  | .massFlux, g => [("mass", 1), (g, 1), ("time", -1)]
  | .mass, g => [("mass", 1), (g, 1)]
  | .flux, g => [(g, 1), ("time", -1)]

variable {K : Type} [Field K]

/-- Binary operations on floats that may be NaN. -/
def Fl.map₂ (f : K → K → K) : Fl K → Fl K → Fl K
  | .num x, .num y => .num (f x y)
  | _, _ => .nan

/-- A transformation of a context: from, to, factor in root units. -/
structure Edge (K : Type) where
  src : Dim
  dst : Dim
  factor : Fl K

/-- The transformations for one entry of a metric, `openscm/core/units.py:396-449`. `_get_transform_func`
multiplies by `carbon / unit * conversion_factor` or divides by it. -/
def metricEdges (reg : Registry K) (label : String) (val : Fl K) : Except Err (List (Edge K)) :=
  match reg "CO2", reg label, reg "carbon" with
  | some co2, some u, some carbon =>
    match u.dim with
    | [] => .error .indexError
    | (base, _) :: _ =>
      match reg base with
      | none => .error .undefinedUnit
      | some unit =>
        let conv := val.map (fun v => v * co2.scale / u.scale)
        let fwd := conv.map (fun c => carbon.scale / unit.scale * c)
        let bwd := conv.map (fun c => unit.scale / carbon.scale / c)
        .ok ([Form.bare, .massFlux, .mass, .flux].flatMap fun φ =>
          [⟨φ.dim base, φ.dim "carbon", fwd⟩, ⟨φ.dim "carbon", φ.dim base, bwd⟩])
  | _, _, _ => .error .undefinedUnit

/-- The context of one metric, `openscm/core/units.py:394-451`. -/
def metricContext (reg : Registry K) : List (String × Fl K) → Except Err (List (Edge K))
  | [] => .ok []
  | (label, val) :: r =>
    match metricEdges reg label val with
    | .error e => .error e
    | .ok es =>
      match metricContext reg r with
      | .error e => .error e
      | .ok fs => .ok (es ++ fs)

/-- The contexts `CH4_conversions` and `NOx_conversions`, `openscm/core/units.py:321-352`. Here the
factors in root units are given directly: `CH4`, `C`, `NOx` and `nitrogen` have factor 1. -/
def ch4Context : List (Edge K) :=
  [⟨Form.bare.dim "carbon", Form.bare.dim "methane", .num (16 / 12)⟩,
    ⟨Form.bare.dim "methane", Form.bare.dim "carbon", .num (1 / (16 / 12))⟩]

def noxContext : List (Edge K) :=
  [⟨Form.bare.dim "nitrogen", Form.bare.dim "NOx", .num ((14 + 2 * 16) / 14)⟩,
    ⟨Form.bare.dim "NOx", Form.bare.dim "nitrogen", .num (1 / ((14 + 2 * 16) / 14))⟩]

/-- `graph[start]` of a context. -/
def neighbours (ctx : List (Edge K)) (start : Dim) : List Dim :=
  (ctx.filter (fun e => e.src = start)).map Edge.dst

/-- pint's `find_shortest_path`; `fuel` bounds the length of the paths. -/
def findPath (nb : Dim → List Dim) (fin : Dim) : Nat → Dim → List Dim → Option (List Dim)
  | 0, _, _ => none
  | fuel + 1, start, path =>
    if start = fin then some (path ++ [start])
    else (nb start).foldl (fun best node =>
      if node ∈ path ++ [start] then best
      else
        match findPath nb fin fuel node (path ++ [start]) with
        | none => best
        | some p =>
          match best with
          | none => some p
          | some b => if p.length < b.length then some p else some b) none

/-- The transformation in force from `a` to `b`: the one added last. -/
def transform (ctx : List (Edge K)) (a b : Dim) : Option (Fl K) :=
  ctx.foldl (fun acc e => if e.src = a ∧ e.dst = b then some e.factor else acc) none

/-- The transformations along a path, applied to a magnitude in root units. -/
def alongPath (ctx : List (Edge K)) (x : Fl K) : List Dim → Except Err (Fl K)
  | a :: b :: r =>
    match transform ctx a b with
    | none => .error .keyError
    | some f => alongPath ctx (Fl.map₂ (· * ·) x f) (b :: r)
  | _ => .ok x

/-- `Quantity(v, s).to(t)` while a context is active. A path of one element applies no
transformation: the conversion is the usual one. -/
def ctxTo (ctx : List (Edge K)) (s t : UDef K) (v : K) : Except Err (Fl K) :=
  match findPath (neighbours ctx) t.dim (2 * ctx.length + 2) s.dim [] with
  | none => .error .dimensionality
  | some [_] => .ok (.num (pintTo s t v))
  | some p =>
    match alongPath ctx (.num (v * s.scale)) p with
    | .error e => .error e
    | .ok x => .ok (x.map (· / t.scale))

/-- `UnitConverter` objects whose numbers may be NaN. -/
structure ConvFl (K : Type) where
  scaling : Fl K
  offset : Fl K

/-- `UnitConverter.__init__` with a context, `openscm/core/units.py:480-527`. -/
def mkConvCtx (reg : Registry K) (ctx : List (Edge K)) (source target : String) :
    Except Err (ConvFl K) :=
  match reg source with
  | none => .error .undefinedUnit
  | some s =>
    match reg target with
    | none => .error .undefinedUnit
    | some t =>
      match ctxTo ctx s t 1, ctxTo ctx s t (-1) with
      | .ok t1, .ok t2 =>
        let scaling := (Fl.map₂ (· - ·) t2 t1).map (· / (-1 - 1))
        .ok { scaling := scaling, offset := Fl.map₂ (· - ·) t1 (scaling.map (· * 1)) }
      | .error e, _ => .error e
      | _, .error e => .error e

/-- `UnitConverter.convert_from`, `openscm/core/units.py:543`. -/
def ConvFl.convertFrom (c : ConvFl K) (v : K) : Fl K :=
  Fl.map₂ (· + ·) c.offset (c.scaling.map (v * ·))

/-- The names of the metrics, second row of `openscm/data/metric_conversions.csv`. -/
def metricNames : List String := ["SARGWP100", "AR4GWP100", "AR5GWP100"]

/-- `openscm/data/metric_conversions.csv`, from the fourth row. -/
def metricTable : List (String × List (Option ℚ)) :=
  [("CH4", [some 21, some 25, some 28]), ("N2O", [some 310, some 298, some 265]),
    ("CFC11", [some 3800, some 4750, some 4660]), ("CFC12", [some 8100, some 10900, some 10200]),
    ("CFC13", [none, some 14400, some 13900]), ("CFC113", [some 4800, some 6130, some 5820]),
    ("CFC114", [none, some 10000, some 8590]), ("CFC115", [none, some 7370, some 7670]),
    ("Halon1301", [some 5400, some 7140, some 6290]),
    ("Halon1211", [none, some 1890, some 1750]), ("Halon2402", [none, some 1640, some 1470]),
    ("Halon1202", [none, none, none]), ("CCl4", [some 1400, some 1400, some 1730]),
    ("CH3Br", [none, some 5, some 2]), ("CH3CCl3", [some 100, some 146, some 160]),
    ("HCFC21", [none, none, some 148]), ("HCFC22", [some 1500, some 1810, some 1760]),
    ("HCFC123", [some 90, some 77, some 79]), ("HCFC124", [some 470, some 609, some 527]),
    ("HCFC141b", [some 600, some 725, some 782]),
    ("HCFC142b", [some 1800, some 2310, some 1980]), ("HCFC225ca", [none, some 122, some 127]),
    ("HCFC225cb", [none, some 595, some 525]), ("HFC23", [some 11700, some 14800, some 12400]),
    ("HFC32", [some 650, some 675, some 677]), ("HFC41", [some 150, none, some 116]),
    ("HFC125", [some 2800, some 3500, some 3170]), ("HFC134", [some 1000, none, some 1120]),
    ("HFC134a", [some 1300, some 1430, some 1300]), ("HFC143", [some 300, none, some 328]),
    ("HFC143a", [some 3800, some 4470, some 4800]), ("HFC152", [none, none, some 16]),
    ("HFC152a", [some 140, some 124, some 138]), ("HFC161", [none, none, some 4]),
    ("HFC227ea", [some 2900, some 3220, some 3350]), ("HFC236cb", [none, none, some 1210]),
    ("HFC236ea", [none, none, some 1330]), ("HFC236fa", [some 6300, some 9810, some 8060]),
    ("HFC245ca", [some 560, none, some 716]), ("HFC245fa", [none, some 1030, some 858]),
    ("HFC365mfc", [none, some 794, some 804]), ("HFC4310mee", [some 1300, some 1640, some 1650]),
    ("SF6", [some 23900, some 22800, some 23500]), ("NF3", [none, some 17200, some 16100]),
    ("CF4", [some 6500, some 7390, some 6630]), ("C2F6", [some 9200, some 12200, some 11100]),
    ("C3F8", [some 7000, some 8830, some 8900]), ("cC4F8", [some 8700, some 10300, some 9540]),
    ("C4F10", [some 7000, some 8860, some 9200]), ("C5F12", [some 7500, some 9160, some 8550]),
    ("C6F14", [some 7400, some 9300, some 7910]), ("C10F18", [none, none, some 7190]),
    ("SF5CF3", [none, some 17700, some 17400]), ("cC3F6", [none, none, some 9200]),
    ("HFE125", [some 14900, some 12400, none]), ("HFE134", [some 6320, some 5560, none]),
    ("HFE143a", [some 756, some 523, none]), ("HCFE235da2", [some 350, some 491, none]),
    ("HFE245cb2", [some 708, some 654, none]), ("HFE245fa2", [some 659, some 812, none]),
    ("HFE347mcc3", [some 575, some 530, none]), ("HFE347pcf2", [some 580, some 889, none]),
    ("HFE356pcc3", [some 110, some 413, none]), ("HFE449sl", [some 297, some 421, none]),
    ("HFE569sf2", [some 59, some 57, none]), ("HFE4310pccc124", [some 1870, some 2820, none]),
    ("HFE236ca12", [some 2800, some 5350, none]), ("HFE338pcc13", [none, some 1500, some 2910]),
    ("HFE227ea", [none, none, some 6450]), ("HFE236ea2", [none, none, some 1790]),
    ("HFE236fa", [none, none, some 979]), ("HFE245fa1", [none, none, some 828]),
    ("HFE263fb2", [none, none, some 1]), ("HFE329mcc2", [none, none, some 3070]),
    ("HFE338mcf2", [none, none, some 929]), ("HFE347mcf2", [none, none, some 854]),
    ("HFE356mec3", [none, none, some 387]), ("HFE356pcf2", [none, none, some 719]),
    ("HFE356pcf3", [none, none, some 446]), ("HFE365mcf3", [none, none, none]),
    ("HFE374pc2", [none, none, some 627]), ("PFPMIE", [none, some 10300, some 9710]),
    ("CHCl3", [some 4, none, some 16]), ("CH2Cl2", [some 9, some (87 / 10), some 9]),
    ("CH3Cl", [none, some 13, some 12]), ("Halon1201", [none, none, some 376])]

/-- One column of the table, as `metric_conversions[col].iteritems()`; missing entries are NaN. -/
def metricColumn (n : Nat) : List (String × Fl ℚ) :=
  metricTable.map fun r => (r.1, match r.2[n]? with
    | some (some x) => .num x
    | _ => .nan)

/-- The context of a name, `openscm/core/units.py:321-451`; unknown names raise `KeyError` in pint.
(pint's own contexts, such as `spectroscopy`, are left to `Verif.ContextState`.) -/
def contextOf (reg : Registry ℚ) (name : String) : Except Err (List (Edge ℚ)) :=
  if name = "CH4_conversions" then .ok ch4Context
  else if name = "NOx_conversions" then .ok noxContext
  else
    match metricNames.idxOf? name with
    | some n => metricContext reg (metricColumn n)
    | none => .error .keyError

end Openscm
