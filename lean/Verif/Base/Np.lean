import Verif.Base.Py
import Mathlib.Algebra.Order.Field.Basic

/-!
numpy primitives on numbers: floats with nan/inf, `linspace`, histogram edges and bins.
-/

namespace Rascal

variable {K : Type _}

/-- A Python float where the code distinguishes finite values from infinities and nan
(`np.isfinite` src/rascal/houghtransform.py:42-53, src/rascal/atlas.py:164-174). -/
inductive PyFloat (K : Type _)
  | fin (v : K)
  | posInf
  | negInf
  | nan
  deriving DecidableEq, Repr

/-- `np.isfinite(v)` returning the finite value (src/rascal/houghtransform.py:42). -/
def PyFloat.toFinite {K : Type _} : PyFloat K → Option K
  | .fin v => some v
  | _ => none

/-- `a < b` on Python floats; every comparison with nan is false
(src/rascal/synthetic.py:84, 103-104). -/
def PyFloat.lt {K : Type _} [LT K] [DecidableLT K] : PyFloat K → PyFloat K → Bool
  | .fin a, .fin b => decide (a < b)
  | .negInf, .fin _ => true
  | .negInf, .posInf => true
  | .fin _, .posInf => true
  | _, _ => false

/-- `np.linspace(lo, hi, num)` in exact arithmetic (src/rascal/houghtransform.py:78, and the bin
edges of `np.histogram2d` 183-187): `lo + i * (hi - lo) / (num - 1)`; for `num = 1` just `lo`. -/
def linspace [Field K] (lo hi : K) (num : Nat) : List K :=
  if num = 1 then [lo]
  else (List.range num).map (fun i : Nat => lo + (i : K) * ((hi - lo) / ((num : K) - 1)))

/-- Minimum of a non-empty list (numpy `a.min()`, `a` the histogram sample,
src/rascal/houghtransform.py:183-187). -/
def listMin [LinearOrder K] (a : K) (l : List K) : K := l.foldl min a

/-- Maximum of a non-empty list (numpy `a.max()`, src/rascal/houghtransform.py:183-187). -/
def listMax [LinearOrder K] (a : K) (l : List K) : K := l.foldl max a

/-- numpy's `_get_outer_edges` for `range=None` (used by `np.histogram2d`
src/rascal/houghtransform.py:183-187 and `np.histogram` src/rascal/calibrator.py:521):
`(0, 1)` for an empty sample, min and max otherwise, widened by 0.5 when they coincide. -/
def outerEdges [Field K] [LinearOrder K] : List K → K × K
  | [] => (0, 1)
  | a :: l =>
    let lo := listMin a l
    let hi := listMax a l
    if lo = hi then (lo - 1/2, hi + 1/2) else (lo, hi)

/-- Uniform bin edges (`np.histogram2d`, src/rascal/houghtransform.py:183-187): `bins + 1` edges. -/
def binEdges [Field K] [LinearOrder K] (sample : List K) (bins : Nat) : List K :=
  linspace (outerEdges sample).1 (outerEdges sample).2 (bins + 1)

/-- `np.searchsorted(edges, s, side="right")` on increasing edges (inside `np.histogramdd`,
src/rascal/houghtransform.py:183-187): the number of edges `≤ s`. -/
def searchRight [LinearOrder K] (edges : List K) (s : K) : Nat :=
  (edges.filter (fun e => decide (e ≤ s))).length

/-- The bin number of a value in `np.histogramdd` (src/rascal/houghtransform.py:183-187):
`searchsorted(..., 'right')`, minus one if the value equals the last edge; bin numbers start at 1,
0 and `bins + 1` are outliers. -/
def binNumber [LinearOrder K] (edges : List K) (s : K) : Nat :=
  if edges.getLast? = some s then searchRight edges s - 1 else searchRight edges s

end Rascal
