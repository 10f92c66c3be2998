import Verif.Model.Fit

/-!
Model of the warnings `fit` logs (src/rascal/calibrator.py:1552-1715).

Not modelled: the warning on a failed robust fit inside the loop (src/rascal/calibrator.py:655-659), messages of
other levels, and the text of the messages.
-/

namespace Rascal

variable {K : Type _}

/-- The warnings (src/rascal/calibrator.py:1639-1644, 1655-1659, 1663-1667, 1691-1692, 1694-1697). -/
inductive FitWarning
  | sampleSize | matchesAtlas | matchesPeaks | invalidFit | rmsTooLarge
  deriving DecidableEq, Repr

section
variable [Field K] [LinearOrder K]

/-- The warnings after the search (src/rascal/calibrator.py:1688-1697); the utilisations are computed before. -/
def finishLog (nPeaks nLines : Nat) (fitTol : K) (out : SolveOut K) : List FitWarning :=
  match (utilisation out.inliers nPeaks : PyRes (PyFloat K)), (utilisation out.inliers nLines : PyRes (PyFloat K)) with
  | .ok _, .ok _ =>
    (if out.valid then [] else [FitWarning.invalidFit]) ++
      (if fitTol < out.err then [FitWarning.rmsTooLarge] else [])
  | _, _ => []

/-- The warnings on `minimum_matches` (src/rascal/calibrator.py:1654-1668). -/
def matchesLog (m : Int) (nLines nPeaks : Nat) : List FitWarning :=
  (if m > nLines then [FitWarning.matchesAtlas] else []) ++
    (if (if m > nLines then (nLines : Int) else m) > nPeaks then [FitWarning.matchesPeaks] else [])

/-- The warnings from the search to the end (src/rascal/calibrator.py:1654-1697). -/
def Cal.searchLog [FloorRing K] (F : FitEnv K) (c : Cal K) (atlasLines : List K) (a : FitArgs K) (fitTol : K)
    (rnd : FitRandom K) : List FitWarning :=
  let c1 := { c with ransac := { c.ransac with
    minMatches := adjustMinMatches c.ransac.minMatches atlasLines.length c.peaks.length } }
  let r := c1.solve F (F.kern a.fitType) atlasLines a a.degree rnd
  matchesLog c.ransac.minMatches atlasLines.length c.peaks.length ++
    match r.2 with
    | .done (.ok out) => finishLog r.1.peaks.length atlasLines.length fitTol out
    | _ => []

/-- The warnings of `fit` (src/rascal/calibrator.py:1552-1715) with the argument `fit_tolerance`, in the order they
are logged. -/
def World.fitLog [FloorRing K] (F : FitEnv K) (w : World K) (a : FitArgs K) (fitTol : K) (rnd : FitRandom K) :
    List FitWarning :=
  if a.fitType = .other then []
  else
    match w.atlasLines with
    | .error _ => []
    | .ok lines =>
      let c := { w.cal with fitCoeff := a.fitCoeff }
      let c1 := { c with ransac := { c.ransac with
        sampleSize := adjustSampleSize c.ransac.sampleSize lines.length a.fitDeg } }
      let h := c1.ensureHough F
      (if w.cal.ransac.sampleSize > lines.length then [FitWarning.sampleSize] else []) ++
        match h.2 with
        | .error _ => []
        | .ok _ => h.1.searchLog F lines a fitTol rnd

end

end Rascal
