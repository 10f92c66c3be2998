import Verif.Model.CalState
import Verif.Model.Ransac

/-!
Model of `fit` (src/rascal/calibrator.py:1552-1715) and of the parts of `_solve_candidate_ransac`
around the sampling loop.

Not modelled here: log messages (the warnings of `fit` are in Model/FitLog.lean, with `fit_tolerance`), the
progress bar, and the attributes `max_tries`, `fit_tolerance`, `fit_type`, `brute_force`, `progress`,
`candidates`, `candidate_peak`, `candidate_arc`.
-/

namespace Rascal

variable {K : Type _}

/-- The `fit_type` argument (src/rascal/calibrator.py:1621-1636). -/
inductive FitType
  | poly | legendre | chebyshev | other
  deriving DecidableEq, Repr

/-- Arguments of `fit` (src/rascal/calibrator.py:1552-1562) that matter for the result. -/
structure FitArgs (K : Type _) where
  maxTries : Int := 500
  fitDeg : Nat := 4
  fitCoeff : Option (List K) := none
  fitType : FitType := .poly
  candTol : K
  brute : Bool := false

/-- What `fit` uses besides the state: the kernels for each basis, `gauss(actual, 1.0, predicted,
sigma)` (src/rascal/calibrator.py:252-257, 310-312), the sorting routines, and whether `x[[sample]]` is
one-dimensional. -/
structure FitEnv (K : Type _) where
  kern : FitType → Kernels K
  gauss : K → K → K → K
  argsortK : List K → List Nat
  argsortN : List Nat → List Nat
  oneDim : Bool

/-- The randomness of one `fit` call: `np.random.random(n)` for the shifts of the polynomial candidates
(src/rascal/calibrator.py:298-301) and the draws of the loop (538-555). -/
structure FitRandom (K : Type _) where
  uniform : Nat → K
  tape : List Draw

/-- Result of `_solve_candidate_ransac` (src/rascal/calibrator.py:469, 752). -/
structure SolveOut (K : Type _) where
  coeffs : Option (List K)
  err : K
  residual : Option (List K)
  inliers : Nat
  valid : Bool

/-- A call that returned or raised, or is still running when the tape ends
(src/rascal/calibrator.py:529). -/
inductive CallRes (α : Type _)
  | running
  | done (r : PyRes α)

/-- What `fit` returns (src/rascal/calibrator.py:1707-1715). -/
structure FitReport (K : Type _) where
  coeffs : List K
  matchedPeaks : List K
  matchedAtlas : List K
  rms : K
  residual : Option (List K)
  peakUtil : K
  atlasUtil : PyFloat K
  deriving DecidableEq

section
variable [Field K] [LinearOrder K]

/-- The candidates (src/rascal/calibrator.py:426-430).  A search space without columns cannot be indexed
(IndexError, line 245); without a baseline the polynomial variant raises ValueError (281). -/
def Cal.candidates (F : FitEnv K) (c : Cal K) (k : Kernels K) (atlasLines : List K) (candTol : K)
    (uniform : Nat → K) : PyRes (List (Cand K)) :=
  match c.houghLines with
  | none => .error .typeError
  | some lines =>
    if c.ransac.linear then
      match c.pairs with
      | none => .error .attributeError
      | some .noColumns => if lines = [] then .ok [] else .error .indexError
      | some (.array pairs) =>
        .ok (candidatesLinear
          (fun a p => F.gauss a p ((c.hough.rangeTol + c.hough.linTol) * (11775 / 10000)))
          candTol lines pairs)
    else
      match c.fitCoeff with
      | none => .error .valueError
      | some co =>
        candidatesPoly (fun a p => F.gauss a p c.hough.rangeTol) candTol c.peaksAreArray c.peaks
          atlasLines (k.polyval co)
          ((List.range lines.length).map (fun i => uniform i * c.hough.rangeTol * 2 - c.hough.rangeTol))

/-- The candidate lists `x`, `y` (src/rascal/calibrator.py:432-464). -/
def Cal.candidateLists (F : FitEnv K) (c : Cal K) (cands : List (Cand K)) : List K × List K :=
  let r := mostCommon F.argsortK cands c.ransac.topN c.ransac.weighted
  if c.ransac.filterClose then filterClose c.ransac.tol r.1 r.2 else r

/-- The bin centres given to the spline (src/rascal/calibrator.py:498-505). -/
def binCentres (edges : List K) : List K :=
  edges.tail.map (fun e => e - (edges.getD 1 0 - edges.getD 0 0) / 2)

/-- The density (src/rascal/calibrator.py:497-509). -/
def Cal.density (c : Cal K) (k : Kernels K) : PyRes (Density K) :=
  match c.ht.xedges with
  | none => .ok .absent
  | some xe =>
    match c.ransac.houghWeight.toFinite with
    | none => .ok .unbound
    | some w =>
      match k.spline (binCentres xe) (binCentres (c.ht.yedges.getD [])) (c.ht.hist.getD []) with
      | .error e => .error e
      | .ok f => .ok (.spline w f)

/-- Cost and error before the first trial (src/rascal/calibrator.py:444-449, 512-515). -/
def startCost (k : Kernels K) (x y : List K) : Option (List K) → PyRes (PyFloat K × K)
  | none => .ok (.fin (10 ^ 50), 10 ^ 50)
  | some [] => .error .indexError
  | some (a :: l) =>
    match matchBijective (k.polyval (a :: l)) (candTable x y) (npUnique x) with
    | .error e => .error e
    | .ok m => .ok (.fin (m.map (fun e => e.1)).sum, rmsOf k (m.map (fun e => e.1)))

/-- The constants of the loop (src/rascal/calibrator.py:382-523). -/
def Cal.ransacCfg (c : Cal K) (fitDeg sampleSize : Nat) (x y : List K) (d : Density K) (oneDim : Bool) :
    RansacCfg K :=
  { fitDeg := fitDeg, sampleSize := sampleSize, x := x, y := y, tol := c.ransac.tol,
    minIntercept := c.hough.minIntercept, maxIntercept := c.hough.maxIntercept,
    pixelList := c.props.pixelList, known := c.known, density := d,
    minFitError := c.ransac.minFitError, minMatches := c.ransac.minMatches,
    minUtil := c.ransac.minUtil, nPeaks := c.peaks.length, oneDim := oneDim }

/-- The attributes changed by the loop (src/rascal/calibrator.py:708-709). -/
def Cal.setMatched (c : Cal K) (s : Best K) : Cal K :=
  { c with matchedPeaks := s.matchedPeaks, matchedAtlas := s.matchedAtlas }

/-- The checks after the loop and the result (src/rascal/calibrator.py:737-752). -/
def finishSolve (fitDeg : Nat) (s : Best K) : PyRes (SolveOut K) :=
  if s.inliers = s.matchedPeaks.length ∧ s.inliers = s.matchedAtlas.length ∧ s.matchedAtlas.Nodup then
    .ok ⟨s.coeffs, s.err, s.residual, s.inliers, !decide (s.inliers ≤ fitDeg + 1)⟩
  else .error .assertionError

/-- The part after the candidates are known and numerous enough (src/rascal/calibrator.py:474-752). -/
def Cal.solveLists [FloorRing K] (F : FitEnv K) (k : Kernels K) (c : Cal K) (a : FitArgs K) (fitDeg : Nat)
    (rnd : FitRandom K) (x y : List K) : Cal K × CallRes (SolveOut K) :=
  let t := makeTrials a.brute c.ransac.sampleSize.toNat x.length (npUnique x).length a.maxTries
  let c1 := { c with ransac := { c.ransac with sampleSize := t.2 } }
  match c1.density k with
  | .error e => (c1, .done (.error e))
  | .ok d =>
    match startCost k x y a.fitCoeff with
    | .error e => (c1, .done (.error e))
    | .ok (cost, err) =>
      match (c1.ransacCfg fitDeg t.2 x y d F.oneDim).run k rnd.tape t.1
          ⟨cost, err, none, none, 0, c.matchedPeaks, c.matchedAtlas⟩ with
      | .running s => (c1.setMatched s, .running)
      | .raised e s => (c1.setMatched s, .done (.error e))
      | .finished s => (c1.setMatched s, .done (finishSolve fitDeg s))

/-- `_solve_candidate_ransac` (src/rascal/calibrator.py:382-752).  With too few candidates it returns
before anything is changed. -/
def Cal.solve [FloorRing K] (F : FitEnv K) (k : Kernels K) (c : Cal K) (atlasLines : List K) (a : FitArgs K)
    (fitDeg : Nat) (rnd : FitRandom K) : Cal K × CallRes (SolveOut K) :=
  match c.candidates F k atlasLines a.candTol rnd.uniform with
  | .error e => (c, .done (.error e))
  | .ok cands =>
    let xy := c.candidateLists F cands
    if (npUnique xy.1).length ≤ fitDeg then (c, .done (.ok ⟨none, 10 ^ 50, none, 0, false⟩))
    else c.solveLists F k a fitDeg rnd xy.1 xy.2

/-- `n_inliers / len(...)` (src/rascal/calibrator.py:1688-1689).  The count of an accepted solution is a
numpy integer, for which division by zero gives inf; otherwise it is the int 0. -/
def utilisation (n total : Nat) : PyRes (PyFloat K) :=
  if total = 0 then (if n = 0 then .error .zeroDivision else .ok .posInf)
  else .ok (.fin ((n : K) / (total : K)))

/-- The end of `fit` (src/rascal/calibrator.py:1688-1715).  The peaks are not empty when something is
matched, so the first utilisation is finite. -/
def Cal.finishFit (c : Cal K) (nLines : Nat) (out : SolveOut K) : Cal K × PyRes (FitReport K) :=
  match (utilisation out.inliers c.peaks.length : PyRes (PyFloat K)) with
  | .error e => (c, .error e)
  | .ok _ =>
    match (utilisation out.inliers nLines : PyRes (PyFloat K)) with
    | .error e => (c, .error e)
    | .ok au =>
      match out.coeffs with
      | none => (c, .error .assertionError)
      | some co =>
        let pu : K := (out.inliers : K) / (c.peaks.length : K)
        ({ c with fitCoeff := some co, rms := some out.err, residual := out.residual,
                  peakUtil := some pu, atlasUtil := some au },
          .ok ⟨co, c.matchedPeaks, c.matchedAtlas, out.err, out.residual, pu, au⟩)

/-- The changes of `sample_size` before the search (src/rascal/calibrator.py:1638-1649); `fitDeg` is the
argument, not the degree of a baseline. -/
def adjustSampleSize (s : Int) (nLines fitDeg : Nat) : Int :=
  let s1 := if s > nLines then (nLines : Int) else s
  if s1 ≤ fitDeg then (fitDeg : Int) + 1 else s1

/-- The changes of `minimum_matches` (src/rascal/calibrator.py:1654-1668). -/
def adjustMinMatches (m : Int) (nLines nPeaks : Nat) : Int :=
  let m1 := if m > nLines then (nLines : Int) else m
  if m1 > nPeaks then (nPeaks : Int) else m1

/-- The Hough transform is only done if there is none yet (src/rascal/calibrator.py:1651-1652). -/
def Cal.ensureHough (F : FitEnv K) (c : Cal K) : Cal K × PyRes Unit :=
  if c.houghLines.isNone || c.houghPoints.isNone then c.doHough F.argsortK F.argsortN false
  else (c, .ok ())

/-- The degree of the search (src/rascal/calibrator.py:1611-1614). -/
def FitArgs.degree (a : FitArgs K) : Nat :=
  match a.fitCoeff with
  | none => a.fitDeg
  | some co => co.length - 1

/-- From the search to the end of `fit` (src/rascal/calibrator.py:1654-1715). -/
def Cal.fitSearch [FloorRing K] (F : FitEnv K) (c : Cal K) (atlasLines : List K) (a : FitArgs K)
    (rnd : FitRandom K) : Cal K × CallRes (FitReport K) :=
  let c1 := { c with ransac := { c.ransac with
    minMatches := adjustMinMatches c.ransac.minMatches atlasLines.length c.peaks.length } }
  let r := c1.solve F (F.kern a.fitType) atlasLines a a.degree rnd
  match r.2 with
  | .running => (r.1, .running)
  | .done (.error e) => (r.1, .done (.error e))
  | .done (.ok out) =>
    let f := r.1.finishFit atlasLines.length out
    (f.1, .done f.2)

/-- `fit` (src/rascal/calibrator.py:1552-1715) once there is an atlas. -/
def Cal.fitWith [FloorRing K] (F : FitEnv K) (c : Cal K) (atlasLines : List K) (a : FitArgs K)
    (rnd : FitRandom K) : Cal K × CallRes (FitReport K) :=
  let c1 := { c with ransac := { c.ransac with
    sampleSize := adjustSampleSize c.ransac.sampleSize atlasLines.length a.fitDeg } }
  let h := c1.ensureHough F
  match h.2 with
  | .error e => (h.1, .done (.error e))
  | .ok _ => h.1.fitSearch F atlasLines a rnd

/-- `fit` (src/rascal/calibrator.py:1552-1715).  `fit_coeff` is overwritten first; an unknown
`fit_type` raises ValueError, `len(None)` TypeError.  An empty `fit_coeff` is treated as degree 0. -/
def World.fit [FloorRing K] (F : FitEnv K) (w : World K) (a : FitArgs K) (rnd : FitRandom K) :
    World K × CallRes (FitReport K) :=
  let c := { w.cal with fitCoeff := a.fitCoeff }
  if a.fitType = .other then ({ w with cal := c }, .done (.error .valueError))
  else
    match w.atlasLines with
    | .error _ => ({ w with cal := c }, .done (.error .typeError))
    | .ok lines =>
      let r := c.fitWith F lines a rnd
      ({ w with cal := r.1 }, r.2)

end

end Rascal
