import Verif.Model.Match
import Verif.Model.RefinePeaks

/-!
`match_peaks` given an integer array of coefficients.  The copies `fit_coeff.copy()` keep the type, and an
integer array stores only the whole part of a sum.
-/

namespace Rascal

variable {K : Type _} [Field K] [LinearOrder K] [FloorRing K]

/-- `for i, d in enumerate(delta): fit_new[i] += d` for an integer array
(src/rascal/calibrator.py:786-787, 1813-1814): numpy cuts off the fraction of the sum. -/
def addDeltaInt (co : List Int) (delta : List K) : PyRes (List Int) :=
  if co.length < delta.length then .error .indexError
  else .ok (co.mapIdx (fun (i : Nat) (c : Int) => pyInt ((c : K) + delta.getD i 0)))

/-- The coefficients as numbers (src/rascal/calibrator.py:1791). -/
def intCoeff (co : List Int) : List K := co.map (fun c : Int => (c : K))

/-- The objective given to the minimiser for integer coefficients (src/rascal/calibrator.py:754-820,
1804-1811). -/
def Session.objectiveInt (F : FitEnv K) (s : Session K) (a : MatchArgs K) (co : List Int) (delta : List K) :
    PyRes (PyFloat K) :=
  match s.world.atlasLines, s.basis with
  | .ok lines, some b =>
    match addDeltaInt co delta with
    | .error e => .error e
    | .ok l =>
      adjustPolyfit (F.kern b) s.world.cal.peaks lines s.world.cal.props.pixelList (intCoeff l) a.tol a.minFrac []
  | _, _ => .error .attributeError

/-- The refinement of integer coefficients (src/rascal/calibrator.py:1797-1821): the start of the
minimiser is a float array.  Simplified: a nan cannot be stored in an integer array; taken to raise
ValueError. -/
def Session.refineStepInt (F : FitEnv K) (M : MatchKernels K) (s : Session K) (a : MatchArgs K)
    (co : List Int) : PyRes (Refined K) :=
  if !a.refine then .ok .skipped
  else
    match M.minimize (s.objectiveInt F a co)
        ((pyTake (intCoeff co) (a.nDelta.getD ((co.length : Int) - 1))).map (fun c => c * (1 / 1000))) with
    | .error e => .error e
    | .ok none => .error .valueError
    | .ok (some d) =>
      match addDeltaInt co d with
      | .error e => .error e
      | .ok l => .ok (.coeffs (intCoeff l))

/-- `match_peaks` with `fit_coeff` an integer array (src/rascal/calibrator.py:1717-1956); `a.coeff` is
not used. -/
def Session.matchPeaksInt (F : FitEnv K) (M : MatchKernels K) (s : Session K) (a : MatchArgs K)
    (co : List Int) : Session K × PyRes (MatchOut K) :=
  match s.refineStepInt F M a co with
  | .error e => (s, .error e)
  | .ok new => s.matchSearch F M a .array (intCoeff co) new

end Rascal
