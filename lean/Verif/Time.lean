import Verif.Basic
import Mathlib.Algebra.Order.Field.Basic
import Mathlib.Data.List.Sort

/-!
# Timeseries conversion (model)

`openscm/core/time.py:291-646`.  Time points are numbers of the field `K` (the code casts them to
`int64`, line 25, 419-420); integers embed in `K`.
-/

namespace Openscm
variable {K : Type} [Field K] [LinearOrder K] [IsStrictOrderedRing K]

/-- The straight line through two points, as evaluated by scipy's `interp1d` (kind `linear`):
`slope * (x - x_lo) + y_lo`. -/
def line (p q : K × K) (x : K) : K := (q.2 - p.2) / (q.1 - p.1) * (x - p.1) + p.2

/-- `scipy.interpolate.interp1d(..., kind="linear")` inside its range (and outside with
`fill_value="extrapolate"`): the segment is chosen by `searchsorted` clipped to
`1 .. len(x) - 1`, i.e. the first segment whose right end is not left of `x`, or the last one.
`knots` are the (sorted) points.  Lists of fewer than two points do not occur (`_convert` demands
three values, `openscm/core/time.py:541`). -/
def interp : List (K × K) → K → K
  | [], _ => 0
  | [p], _ => p.2
  | [p, q], x => line p q x
  | p :: q :: r :: rs, x => if x ≤ q.1 then line p q x else interp (q :: r :: rs) x

/-- Area under the line through `p` and `q` from `p.1` to `x`. -/
def lineArea (p q : K × K) (x : K) : K :=
  p.2 * (x - p.1) + (q.2 - p.2) / (q.1 - p.1) * (x - p.1) ^ 2 / 2

/-- Integral of `interp knots` from the first knot to `x` (an antiderivative of `interp knots`;
proved to be one in `TimeIntegral.lean`). -/
def prim : List (K × K) → K → K
  | [], _ => 0
  | [p], x => p.2 * (x - p.1)
  | [p, q], x => lineArea p q x
  | p :: q :: r :: rs, x =>
    if x ≤ q.1 then lineArea p q x
    else lineArea p q q.1 + prim (q :: r :: rs) x

/-- First abscissa. -/
def firstX {β : Type} (knots : List (K × β)) : K := (knots.map Prod.fst).headD 0

/-- Last abscissa. -/
def lastX {β : Type} (knots : List (K × β)) : K := (knots.map Prod.fst).getLastD 0

/-- The function returned by `_calc_continuous_representation`, `openscm/core/time.py:428-498`,
with the extrapolation arguments of `_get_scipy_extrapolation_args` (492-498): `lo`, `hi` are
`values[0]`, `values[-1]` (of the values given by the user, line 496).  With
`ExtrapolationType.NONE` scipy raises `ValueError` outside the range. -/
def evalAt (ext : Extrap) (lo hi : K) (knots : List (K × K)) (x : K) : Except Err K :=
  match ext with
  | .none => if x < firstX knots ∨ lastX knots < x then .error .valueError
      else .ok (interp knots x)
  | .constant => if x < firstX knots then .ok lo else if lastX knots < x then .ok hi
      else .ok (interp knots x)
  | .linear => .ok (interp knots x)

/-- Antiderivative of `evalAt` (zero at the first knot). -/
def primAt (ext : Extrap) (lo hi : K) (knots : List (K × K)) (x : K) : Except Err K :=
  match ext with
  | .none => if x < firstX knots ∨ lastX knots < x then .error .valueError
      else .ok (prim knots x)
  | .constant => if x < firstX knots then .ok (lo * (x - firstX knots))
      else if lastX knots < x then .ok (prim knots (lastX knots) + hi * (x - lastX knots))
      else .ok (prim knots x)
  | .linear => .ok (prim knots x)

/-- `integrate.quad(continuous_representation, l, u)`, `openscm/core/time.py:319`, idealised as
the exact integral; with `ExtrapolationType.NONE` an end point outside the range raises
`ValueError` (idealisation: the real quadrature evaluates interior nodes only). -/
def quad (ext : Extrap) (lo hi : K) (knots : List (K × K)) (l u : K) : Except Err K :=
  match primAt ext lo hi knots l with
  | .error e => .error e
  | .ok a =>
    match primAt ext lo hi knots u with
    | .error e => .error e
    | .ok b => .ok (b - a)

/-- One iteration of the loop in `_calc_interval_averages`, `openscm/core/time.py:317-320`.
An interval of length zero divides zero by zero: NaN. -/
def intervalAverage (ext : Extrap) (lo hi : K) (knots : List (K × K)) (l u : K) :
    Except Err (Fl K) :=
  match quad ext lo hi knots l u with
  | .error e => .error e
  | .ok y => .ok (if u = l then .nan else .num (y / (u - l)))

/-- `_calc_interval_averages`, `openscm/core/time.py:291-322`. -/
def intervalAverages (ext : Extrap) (lo hi : K) (knots : List (K × K)) :
    List K → Except Err (List (Fl K))
  | [] => .ok []
  | [_] => .ok []
  | l :: u :: r =>
    match intervalAverage ext lo hi knots l u with
    | .error e => .error e
    | .ok y =>
      match intervalAverages ext lo hi knots (u :: r) with
      | .error e => .error e
      | .ok ys => .ok (y :: ys)

/-- Evaluation of the interpolant at each target time, `openscm/core/time.py:590-592`. -/
def evalAll (ext : Extrap) (lo hi : K) (knots : List (K × K)) : List K → Except Err (List (Fl K))
  | [] => .ok []
  | x :: r =>
    match evalAt ext lo hi knots x with
    | .error e => .error e
    | .ok y =>
      match evalAll ext lo hi knots r with
      | .error e => .error e
      | .ok ys => .ok (.num y :: ys)

/-- `linearization_points`, `openscm/core/time.py:458-469`: time points and interval midpoints
alternating (the concatenate/reshape/transpose/flatten of the code written as a recursion). -/
def linPoints : List K → List K
  | [] => []
  | [t] => [t]
  | t :: u :: r => t :: (u + t) / 2 :: linPoints (u :: r)

/-- Alternate the elements of two lists (`np.array([a, b]).T.reshape(...)`). -/
def interleave {β : Type} : List β → List β → List β
  | a :: as, b :: bs => a :: b :: interleave as bs
  | _, _ => []

/-- `edge_point_values`, `openscm/core/time.py:342`. -/
def edgeValues (vs : List K) : List K :=
  List.zipWith (fun a b => (a + b) / 2) vs.tail vs.dropLast

/-- `middle_point_values`, `openscm/core/time.py:343-345`. -/
def middleValues (vs : List K) : List K :=
  List.zipWith (fun v (e : K × K) => (4 * v - e.1 - e.2) / 2) vs.tail.dropLast
    ((edgeValues vs).dropLast.zip (edgeValues vs).tail)

/-- `_calc_integral_preserving_linear_interpolation`, `openscm/core/time.py:325-366`. -/
def linValues (vs : List K) : List K :=
  let edges := edgeValues vs
  let v0 := vs.headD 0
  let vl := vs.getLastD 0
  let firstEdge := 2 * v0 - edges.headD 0
  let lastEdge := 2 * vl - edges.getLastD 0
  interleave (firstEdge :: edges) (v0 :: (middleValues vs ++ [vl])) ++ [lastEdge]

/-- `interp1d` sorts its points by abscissa (`assume_sorted=False`, a stable sort). -/
def sortKnots {β : Type} (l : List (K × β)) : List (K × β) := l.insertionSort (fun a b => a.1 ≤ b.1)

/-- Strictly increasing. -/
def strictInc : List K → Bool
  | [] => true
  | [_] => true
  | a :: b :: r => decide (a < b) && strictInc (b :: r)

/-- `except ValueError: raise InsufficientDataError(...)`, `openscm/core/time.py:544-551`. -/
def toInsufficient {α : Type} : Except Err α → Except Err α
  | .error _ => .error .insufficientData
  | .ok r => .ok r

/-- `_convert` and `_convert_unsafe`, `openscm/core/time.py:506-594`, for arrays without NaN.
`ValueError`s of scipy become `InsufficientDataError` (546-551); `interp1d` raises `ValueError`
when the numbers of abscissas and values differ.  Duplicate source time points are left out of
the model. -/
def convertNum (ty : PType) (ext : Extrap) (src tgt : List K) (vs : List K) :
    Except Err (List (Fl K)) :=
  if vs.length < 3 then .error .insufficientData
  else
    let lo := vs.headD 0
    let hi := vs.getLastD 0
    match ty with
    | .average =>
      if src.length ≠ vs.length + 1 then .error .insufficientData
      else
        let knots := sortKnots ((linPoints src).zip (linValues vs))
        if strictInc (knots.map Prod.fst) then
          toInsufficient (intervalAverages ext lo hi knots tgt)
        else .error .unmodelled
    | .point =>
      if src.length ≠ vs.length then .error .insufficientData
      else
        let knots := sortKnots (src.zip vs)
        if strictInc (knots.map Prod.fst) then
          toInsufficient (evalAll ext lo hi knots tgt)
        else .error .unmodelled
    | _ => .error .notImplemented

/-! ### Missing values

NaN is passed on by every arithmetic operation, so which results are NaN follows from which values are: the functions
below do with "is NaN" what the functions above do with numbers. -/

/-- `line` of points some of which are NaN: `slope * (x - x_lo) + y_lo` is NaN also at the end whose value is a number. -/
def gapLine (p q : K × Bool) : Bool := p.2 || q.2

/-- `interp` of points some of which are NaN.  (For times that are integers, as here, scipy 1.3 does not leave the work to
`np.interp`, which would take the values at time points of the source from there.) -/
def gapInterp : List (K × Bool) → K → Bool
  | [], _ => false
  | [p], _ => p.2
  | [p, q], _ => gapLine p q
  | p :: q :: r :: rs, x => if x ≤ q.1 then gapLine p q else gapInterp (q :: r :: rs) x

/-- `evalAt` of points some of which are NaN. -/
def gapAt (ext : Extrap) (lo hi : Bool) (knots : List (K × Bool)) (x : K) : Bool :=
  match ext with
  | .constant => if x < firstX knots then lo else if lastX knots < x then hi else gapInterp knots x
  | _ => gapInterp knots x

/-- Some line between points one of which is NaN lies above the interval from `l` to `u`. -/
def gapIn : List (K × Bool) → K → K → Bool
  | p :: q :: r, l, u => ((p.2 || q.2) && decide (l < q.1 ∧ p.1 < u)) || gapIn (q :: r) l u
  | _, _, _ => false

/-- `quad` of points some of which are NaN: the integral is NaN if the function is somewhere in the interval
(idealisation: the real quadrature may miss short pieces). -/
def gapQuad (ext : Extrap) (lo hi : Bool) (knots : List (K × Bool)) (l u : K) : Bool :=
  gapIn knots (min l u) (max l u) ||
    match ext with
    | .none => false
    | .constant => (decide (min l u < firstX knots) && lo) || (decide (lastX knots < max l u) && hi)
    | .linear => (decide (min l u < firstX knots) && (knots.take 2).any Prod.snd) ||
        (decide (lastX knots < max l u) && (knots.reverse.take 2).any Prod.snd)

/-- `intervalAverages` of points some of which are NaN. -/
def gapAverages (ext : Extrap) (lo hi : Bool) (knots : List (K × Bool)) : List K → List Bool
  | [] => []
  | [_] => []
  | l :: u :: r => gapQuad ext lo hi knots l u :: gapAverages ext lo hi knots (u :: r)

/-- `edgeValues` of averages some of which are NaN. -/
def gapEdges (ms : List Bool) : List Bool := List.zipWith (fun a b => a || b) ms.tail ms.dropLast

/-- `middleValues` of averages some of which are NaN. -/
def gapMiddles (ms : List Bool) : List Bool :=
  List.zipWith (fun v (e : Bool × Bool) => v || e.1 || e.2) ms.tail.dropLast
    ((gapEdges ms).dropLast.zip (gapEdges ms).tail)

/-- `linValues` of averages some of which are NaN. -/
def linGaps (ms : List Bool) : List Bool :=
  let edges := gapEdges ms
  let m0 := ms.headD false
  let ml := ms.getLastD false
  interleave ((m0 || edges.headD false) :: edges) (m0 :: (gapMiddles ms ++ [ml])) ++ [ml || edges.getLastD false]

/-- Which results of `convertNum` are NaN because of NaN among the values. -/
def gaps (ty : PType) (ext : Extrap) (src tgt : List K) (ms : List Bool) : List Bool :=
  match ty with
  | .average => gapAverages ext (ms.headD false) (ms.getLastD false) (sortKnots ((linPoints src).zip (linGaps ms))) tgt
  | _ => tgt.map (gapAt ext (ms.headD false) (ms.getLastD false) (sortKnots (src.zip ms)))

/-- Zero in place of NaN. -/
def Fl.orZero : Fl K → K
  | .nan => 0
  | .num x => x

def Fl.isNan : Fl K → Bool
  | .nan => true
  | .num _ => false

/-- Results with NaN at the marked positions. -/
def blank (gs : List Bool) (r : List (Fl K)) : List (Fl K) := List.zipWith (fun g y => if g then Fl.nan else y) gs r

/-- `_convert` for arrays that may hold NaN, `openscm/core/time.py:506-594`; errors are as for numbers. -/
def convert (ty : PType) (ext : Extrap) (src tgt : List K) (vals : List (Fl K)) :
    Except Err (List (Fl K)) :=
  match Fl.allNum vals with
  | some vs => convertNum ty ext src tgt vs
  | none =>
    match convertNum ty ext src tgt (vals.map Fl.orZero) with
    | .error e => .error e
    | .ok r => .ok (blank (gaps ty ext src tgt (vals.map Fl.isNan)) r)

/-- `source_length` / `target_length`, `openscm/core/time.py:630-646`. -/
def pointsLength (ty : PType) (tps : List K) : Nat :=
  match ty with
  | .average => tps.length - 1
  | _ => tps.length

/-- `TimeseriesConverter` objects, `openscm/core/time.py:369-388`. -/
structure TSConv (K : Type) where
  source : List K
  target : List K
  ty : PType
  ext : Extrap

/-- `TimeseriesConverter.__init__`, `openscm/core/time.py:390-426`: `self._source[0] >
self._target[1]` raises `IndexError` when there is no such element. -/
def mkTSConv (source target : List K) (ty : PType) (ext : Extrap) : Except Err (TSConv K) :=
  match source with
  | [] => .error .indexError
  | s :: _ =>
    match target with
    | _ :: t1 :: _ =>
      if t1 < s then .error .insufficientData
      else .ok { source := source, target := target, ty := ty, ext := ext }
    | _ => .error .indexError

/-- `TimeseriesConverter.convert_from`, `openscm/core/time.py:596-611`. -/
def TSConv.convertFrom (c : TSConv K) (v : List (Fl K)) : Except Err (List (Fl K)) :=
  convert c.ty c.ext c.source c.target v

/-- `TimeseriesConverter.convert_to`, `openscm/core/time.py:613-628`. -/
def TSConv.convertTo (c : TSConv K) (v : List (Fl K)) : Except Err (List (Fl K)) :=
  convert c.ty c.ext c.target c.source v

/-- `TimeseriesConverter.target_length`, `openscm/core/time.py:639-646`. -/
def TSConv.targetLength (c : TSConv K) : Nat := pointsLength c.ty c.target

/-- `TimeseriesConverter.source_length`, `openscm/core/time.py:630-637`. -/
def TSConv.sourceLength (c : TSConv K) : Nat := pointsLength c.ty c.source

end Openscm
