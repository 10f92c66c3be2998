import Verif.Model.Ransac
import Mathlib.Algebra.Field.Rat
import Mathlib.Algebra.Order.Ring.Rat
import Mathlib.Data.Rat.Floor

/-! Rational fitting routines and constants of a small search, used as concrete cases. -/

namespace Rascal.Toy

/-- The finite entries of a list. -/
def finites (l : List (PyFloat ℚ)) : List ℚ := l.filterMap PyFloat.toFinite

/-- Least-squares straight line; `linAlg` if it is not unique. -/
def line (xs ys : List ℚ) : PyRes (List ℚ) :=
  let n : ℚ := xs.length
  let sx := xs.sum
  let sy := ys.sum
  let sxx := (xs.map (fun x => x * x)).sum
  let sxy := (List.zipWith (fun x y => x * y) xs ys).sum
  let det := n * sxx - sx * sx
  if det = 0 then .error .linAlg
  else .ok [(sy * sxx - sx * sxy) / det, (n * sxy - sx * sy) / det]

/-- The root of a rational square; 0 otherwise. -/
def root (q : ℚ) : ℚ :=
  let a := q.num.natAbs.sqrt
  let b := q.den.sqrt
  (a : ℚ) / (b : ℚ)

/-- Straight-line fits only; a constant density. -/
def kern : Kernels ℚ where
  polyfit := fun xs ys n => if n = 1 then line (finites xs) (finites ys) else .error .valueError
  polyval := fun c x => c.foldr (fun a t => a + x * t) 0
  robust := fun xs ys n => if n = 1 then line xs ys else .error .valueError
  sqrt := root
  spline := fun _ _ _ => .ok (fun _ _ => 0)

/-- Two candidate pairs and a density that only depends on its first argument. -/
def cfg : RansacCfg ℚ :=
  { fitDeg := 1, sampleSize := 2, x := [10, 20], y := [5900, 8700], tol := 5, minIntercept := 2000,
    maxIntercept := 4000, pixelList := [0, 1, 2], known := none, density := .spline 1 (fun x _ => x),
    minFitError := 0, minMatches := 0, minUtil := 0, nPeaks := 2, oneDim := true }

/-- The best cost before the first trial, and no solution. -/
def start : Best ℚ := ⟨.fin (10 ^ 50), 10 ^ 50, none, none, 0, [], []⟩

/-- The line through both pairs. -/
def solution : Best ℚ := ⟨.fin 0, 0, some [3100, 280], some [0, 0], 2, [10, 20], [5900, 8700]⟩

/-- The solution of a run that came to an end. -/
def finished : RunState ℚ → Option (Best ℚ)
  | .finished s => some s
  | _ => none

end Rascal.Toy
