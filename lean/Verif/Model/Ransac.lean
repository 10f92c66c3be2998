import Verif.Model.Candidates
import Verif.Model.Models
import Verif.Model.RefinePeaks
import Mathlib.Algebra.Order.Floor.Defs

/-!
Model of `_solve_candidate_ransac` (src/rascal/calibrator.py:382-752).

The numerical kernels are parameters.  The random draws come from a tape: one entry per pass through
the `while keep_trying` loop.  The loop has no bound, so a run on a finite tape may still be going on
when the tape ends.
-/

namespace Rascal

variable {K : Type _}

/-- Python `a <= b` on floats (src/rascal/calibrator.py:636); false if one is nan. -/
def PyFloat.le [LE K] [DecidableLE K] : PyFloat K → PyFloat K → Bool
  | .fin a, .fin b => decide (a ≤ b)
  | .negInf, .nan => false
  | .negInf, _ => true
  | .fin _, .posInf => true
  | .posInf, .posInf => true
  | _, _ => false

/-- The library routines used (src/rascal/calibrator.py:502-506, 515, 575, 591-593, 653-655, 668, 671):
`self.polyfit` on data that may contain infinities and that returns finite coefficients or raises,
`self.polyval`, `models.robust_polyfit`, `np.sqrt`, and `RectBivariateSpline` with the two axes and
the histogram, giving the density function. -/
structure Kernels (K : Type _) where
  polyfit : List (PyFloat K) → List (PyFloat K) → Nat → PyRes (List K)
  polyval : List K → K → K
  robust : List K → List K → Nat → PyRes (List K)
  sqrt : K → K
  spline : List K → List K → List (List Nat) → PyRes (K → K → K)

/-- State of the local name `twoditp` (src/rascal/calibrator.py:497-509): `None` without a histogram,
never assigned if the weight is not finite, otherwise the spline. -/
inductive Density (K : Type _)
  | absent
  | unbound
  | spline (weight : K) (f : K → K → K)

/-- What does not change during the loop (src/rascal/calibrator.py:474-523 and attributes).  `x`, `y`
are the candidates, `oneDim` says whether `x[[sample]]` is one-dimensional (numpy before 1.23). -/
structure RansacCfg (K : Type _) where
  fitDeg : Nat
  sampleSize : Nat
  x : List K
  y : List K
  tol : K
  minIntercept : K
  maxIntercept : K
  pixelList : List K
  known : Option (List (PyFloat K) × List (PyFloat K))
  density : Density K
  minFitError : K
  minMatches : Int
  minUtil : K
  nPeaks : Nat
  oneDim : Bool

/-- The best solution so far and the attributes `matched_peaks`, `matched_atlas`
(src/rascal/calibrator.py:444-449, 702-709). -/
structure Best (K : Type _) where
  cost : PyFloat K
  err : K
  coeffs : Option (List K)
  residual : Option (List K)
  inliers : Nat
  matchedPeaks : List K
  matchedAtlas : List K
  deriving DecidableEq

/-- End of one pass through the loop body (src/rascal/calibrator.py:529-735): `continue`, on to the
next sample, or an exception. -/
inductive Attempt (K : Type _)
  | retry
  | next (s : Best K)
  | raised (e : PyErr) (s : Best K)

/-- One trial of the sampler (src/rascal/calibrator.py:474-480, 533-535). -/
inductive Trial
  | random
  | brute (idx : List Nat)

/-- The random numbers of one pass (src/rascal/calibrator.py:538-555). -/
structure Draw where
  peaks : List Nat
  waves : List Nat

/-- `np.random.choice(peaks, n, replace=False, p=prob)` (src/rascal/calibrator.py:538-540), all
probabilities being positive: each seed picks one of the remaining entries. -/
def pickDistinct [DecidableEq K] : List K → Nat → List Nat → List K
  | _, 0, _ => []
  | [], _ + 1, _ => []
  | a :: l, n + 1, seeds =>
    let v := (a :: l).getD (seeds.headD 0 % (l.length + 1)) a
    v :: pickDistinct ((a :: l).erase v) n seeds.tail

/-- Choosing a wavelength for each peak (src/rascal/calibrator.py:544-565).  Drawing again until the
wavelength is new is modelled by drawing among the new ones; `none` if there is no new one. -/
def pickWaves [DecidableEq K] (cand : K → Option (List K)) :
    List K → List K → List Nat → PyRes (Option (List K))
  | [], used, _ => .ok (some used)
  | p :: ps, used, seeds =>
    match cand p with
    | none => .error .keyError
    | some ws =>
      match ws.filter (fun w => decide (w ∉ used)) with
      | [] => .ok none
      | a :: l => pickWaves cand ps (used ++ [(a :: l).getD (seeds.headD 0 % (l.length + 1)) a]) seeds.tail

section
variable [Field K] [LinearOrder K]

/-- `np.concatenate` with the known pairs (src/rascal/calibrator.py:568-571). -/
def addKnown (known : Option (List (PyFloat K) × List (PyFloat K))) (xs ys : List K) :
    List (PyFloat K) × List (PyFloat K) :=
  match known with
  | none => (xs.map .fin, ys.map .fin)
  | some (p, v) => (xs.map .fin ++ p, ys.map .fin ++ v)

/-- The sample of one pass (src/rascal/calibrator.py:530-571); `none` if it is abandoned.  A
two-dimensional sample fails in `np.concatenate` or in `polyfit`. -/
def RansacCfg.sample (c : RansacCfg K) (d : Draw) :
    Trial → PyRes (Option (List (PyFloat K) × List (PyFloat K)))
  | .brute idx =>
    if c.oneDim then .ok (some (addKnown c.known (takeIdx c.x idx) (takeIdx c.y idx)))
    else .error (if c.known.isSome then .valueError else .typeError)
  | .random =>
    match sampleProb (npUnique c.x) with
    | .error e => .error e
    | .ok _ =>
      let xHat := pickDistinct (npUnique c.x) c.sampleSize d.peaks
      match pickWaves (candTable c.x c.y) xHat [] d.waves with
      | .error e => .error e
      | .ok none => .ok none
      | .ok (some yHat) => .ok (some (addKnown c.known xHat yHat))

/-- The intercept check (src/rascal/calibrator.py:578-582); `polyfit` returns at least one
coefficient. -/
def RansacCfg.interceptOk (c : RansacCfg K) (coeffs : List K) : Bool :=
  !(decide (coeffs.getD 0 0 < c.minIntercept) || decide (coeffs.getD 0 0 > c.maxIntercept))

/-- `np.arange(a, b, 1)` (src/rascal/calibrator.py:592). -/
def arangeFrom [FloorRing K] (a b : K) : List K :=
  (List.range ⌈b - a⌉.toNat).map (fun i : Nat => a + (i : K))

/-- `np.all(np.diff(v) > 0)` (src/rascal/calibrator.py:589-596). -/
def increasing (v : List K) : Bool :=
  (List.zipWith (fun b a => decide (b - a > 0)) v.tail v).all id

/-- The grid of the monotonicity check (src/rascal/calibrator.py:585-592); the peaks are distinct and
increasing, so `np.ptp` is last minus first. -/
def monotoneGrid [FloorRing K] (peaks : List K) : List K :=
  let first := peaks.headD 0
  let last := peaks.getLastD 0
  arangeFrom (first - (last - first) * (2 / 10)) (last + (last - first) * (2 / 10))

/-- The monotonicity check (src/rascal/calibrator.py:585-600). -/
def RansacCfg.monotoneOk [FloorRing K] (k : Kernels K) (c : RansacCfg K) (coeffs : List K) : Bool :=
  increasing ((monotoneGrid (npUnique c.x)).map (k.polyval coeffs))

/-- `err[err > tol] = tol` (src/rascal/calibrator.py:611). -/
def clipErr (tol e : K) : K := if e > tol then tol else e

/-- The Hough weight of a trial (src/rascal/calibrator.py:614-627).  `polyval` with no coefficients,
the derivative of a constant, raises IndexError. -/
def RansacCfg.weight (k : Kernels K) (c : RansacCfg K) (coeffs : List K) : PyRes K :=
  if derivativeCoeffs coeffs = [] then .error .indexError
  else
    match c.density with
    | .absent => .ok 1
    | .unbound => .error .unboundLocal
    | .spline w f => .ok (w * (c.pixelList.map (fun p =>
        let gradient := k.polyval (derivativeCoeffs coeffs) p
        let intercept := k.polyval coeffs p - gradient * p
        f intercept gradient)).sum)

/-- The cost of a trial (src/rascal/calibrator.py:629-633), `errs` being clipped. -/
def trialCost (errs : List K) (nCoeffs : Nat) (weight : K) : PyFloat K :=
  PyFloat.div (PyFloat.div (.fin errs.sum) (.fin ((errs.length : K) - (nCoeffs : K) + 1)))
    (.fin (weight + 1 / 1000000000))

/-- The entries within the tolerance (src/rascal/calibrator.py:640-643). -/
def inlierList (tol : K) (m : List (K × K × K)) : List (K × K × K) :=
  m.filter (fun e => decide (clipErr tol e.1 < tol))

/-- The residual of the robust fit (src/rascal/calibrator.py:664-669); values beyond the tolerance on
either side become `+tol`. -/
def fitResidual (k : Kernels K) (tol : K) (coeffs peaks atlas : List K) : List K :=
  (List.zipWith (fun p a => k.polyval coeffs p - a) peaks atlas).map
    (fun r => if |r| > tol then tol else r)

/-- `np.sqrt(np.mean(r**2))` (src/rascal/calibrator.py:515, 671). -/
def rmsOf (k : Kernels K) (r : List K) : K :=
  k.sqrt ((r.map (fun v => v ^ 2)).sum / (r.length : K))

/-- The three assertions after an accepted trial (src/rascal/calibrator.py:712-720). -/
def oneToOne (peaks atlas : List K) : Bool :=
  decide ((npUnique peaks).length = peaks.length) && decide ((npUnique atlas).length = atlas.length) &&
    decide ((npUnique atlas).length = (npUnique peaks).length)

/-- The tests on the robust fit and the update (src/rascal/calibrator.py:663-732). -/
def RansacCfg.judge (k : Kernels K) (c : RansacCfg K) (cost : PyFloat K) (mp ma : List K)
    (co : List K) : Attempt K :=
  let res := fitResidual k c.tol co mp ma
  if rmsOf k res < c.minFitError then .retry
  else if (mp.length : Int) < c.minMatches then .retry
  else if (mp.length : K) < c.minUtil * (c.nPeaks : K) then .retry
  else if oneToOne mp ma then .next ⟨cost, rmsOf k res, some co, some res, mp.length, mp, ma⟩
  else .raised .assertionError ⟨cost, rmsOf k res, some co, some res, mp.length, mp, ma⟩

/-- The block for a potential new best fit (src/rascal/calibrator.py:636-732). -/
def RansacCfg.consider (k : Kernels K) (c : RansacCfg K) (cost : PyFloat K) (m : List (K × K × K))
    (s : Best K) : Attempt K :=
  let mp := (inlierList c.tol m).map (fun e => e.2.1)
  let ma := (inlierList c.tol m).map (fun e => e.2.2)
  if mp.length ≤ c.fitDeg then .retry
  else
    match k.robust mp ma c.fitDeg with
    | .error .linAlg => .retry
    | .error e => .raised e s
    | .ok co => c.judge k cost mp ma co

/-- The cost of the trial and the comparison with the best (src/rascal/calibrator.py:611-735). -/
def RansacCfg.compare (k : Kernels K) (c : RansacCfg K) (coeffs : List K) (m : List (K × K × K))
    (s : Best K) : Attempt K :=
  match c.weight k coeffs with
  | .error e => .raised e s
  | .ok w =>
    let cost := trialCost (m.map (fun e => clipErr c.tol e.1)) coeffs.length w
    if cost.le s.cost then c.consider k cost m s else .next s

/-- The loop body after the sample is drawn (src/rascal/calibrator.py:573-735). -/
def RansacCfg.evaluate [FloorRing K] (k : Kernels K) (c : RansacCfg K)
    (data : List (PyFloat K) × List (PyFloat K)) (s : Best K) : Attempt K :=
  match k.polyfit data.1 data.2 c.fitDeg with
  | .error e => .raised e s
  | .ok coeffs =>
    if !c.interceptOk coeffs then .retry
    else if !c.monotoneOk k coeffs then .retry
    else
      match matchBijective (k.polyval coeffs) (candTable c.x c.y) (npUnique c.x) with
      | .error e => .raised e s
      | .ok [] => .retry
      | .ok (a :: l) => c.compare k coeffs (a :: l) s

/-- One pass through the loop body (src/rascal/calibrator.py:529-735).  An abandoned sample breaks out
of the `while` loop. -/
def RansacCfg.attempt [FloorRing K] (k : Kernels K) (c : RansacCfg K) (d : Draw) (t : Trial) (s : Best K) :
    Attempt K :=
  match c.sample d t with
  | .error e => .raised e s
  | .ok none => .next s
  | .ok (some data) => c.evaluate k data s

/-- How far the loop has come (src/rascal/calibrator.py:525-735). -/
inductive RunState (K : Type _)
  | finished (s : Best K)
  | running (s : Best K)
  | raised (e : PyErr) (s : Best K)

/-- The two nested loops (src/rascal/calibrator.py:525-735) on a tape of draws; `continue` repeats the
same sample. -/
def RansacCfg.run [FloorRing K] (k : Kernels K) (c : RansacCfg K) :
    List Draw → List Trial → Best K → RunState K
  | _, [], s => .finished s
  | [], _ :: _, s => .running s
  | d :: ds, t :: ts, s =>
    match c.attempt k d t s with
    | .retry => c.run k ds (t :: ts) s
    | .next s' => c.run k ds ts s'
    | .raised e s' => .raised e s'

end

/-- `itertools.combinations` (src/rascal/calibrator.py:476), in its order. -/
def pyCombinations {α : Type _} : List α → Nat → List (List α)
  | _, 0 => [[]]
  | [], _ + 1 => []
  | a :: l, n + 1 => (pyCombinations l n).map (a :: ·) ++ pyCombinations l (n + 1)

/-- The sampler (src/rascal/calibrator.py:474-480): trials and the new `sample_size`.  Without
`brute_force` the contents of the combinations are not used. -/
def makeTrials (brute : Bool) (sampleSize nx nUnique : Nat) (maxTries : Int) : List Trial × Nat :=
  if brute then ((pyCombinations (List.range nx) sampleSize).map .brute, nUnique)
  else if sampleSize ≥ nUnique then
    ((pyCombinations (List.range nx) sampleSize).map (fun _ => .random), nUnique)
  else (List.replicate maxTries.toNat .random, sampleSize)

end Rascal
