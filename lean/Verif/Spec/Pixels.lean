import Verif.Spec.Affine

/-!
A change of the pixel scale: every pixel position `p` becomes `s * p`, as when a spectrum is binned (`s = 1 / n` for
bins of `n` pixels) or oversampled.  Wavelengths stay.
-/

namespace Rascal.Spec

variable {K : Type _} [Field K] [LinearOrder K]

/-- A line (slope, intercept) on the new pixel scale (src/rascal/houghtransform.py:88-92). -/
def pixLine (s : K) (l : K × K) : K × K := (l.1 / s, l.2)

/-- A pair (pixel, wavelength) on the new pixel scale (src/rascal/calibrator.py:103-106). -/
def pixPair (s : K) (p : K × K) : K × K := (s * p.1, p.2)

/-- Coefficients of a polynomial, lowest order first, on the new pixel scale: the coefficient of order `i` is
divided by `s ^ i` (src/rascal/calibrator.py:575). -/
def pixCoeffs (s : K) : List K → List K
  | [] => []
  | c :: cs => c :: (pixCoeffs s cs).map (fun v => v / s)

/-- The pixel settings on the new scale (src/rascal/calibrator.py:859-982). -/
def pixProps (s : K) (p : CalProps K) : CalProps K :=
  { p with numPix := s * p.numPix, pixelList := p.pixelList.map (fun v => s * v) }

/-- The Hough settings on the new pixel scale (src/rascal/calibrator.py:1092-1116). -/
def pixHoughSet (s : K) (h : HoughSet K) : HoughSet K :=
  { h with minSlope := mapFin (fun v => v / s) h.minSlope, maxSlope := mapFin (fun v => v / s) h.maxSlope }

/-- The combinations on the new pixel scale (src/rascal/calibrator.py:130-133). -/
def pixPairStore (s : K) : PairStore K → PairStore K
  | .noColumns => .noColumns
  | .array l => .array (l.map (pixPair s))

/-- Hough points on the new pixel scale (src/rascal/houghtransform.py:92). -/
def pixPointStore (s : K) : PointStore K → PointStore K
  | .array l => .array (l.map (pixLine s))
  | .pyList l => .pyList (l.map (pixLine s))
  | .malformed => .malformed

/-- A Hough transform on the new pixel scale (src/rascal/houghtransform.py:11-20). -/
def pixHough (s : K) (h : Hough K) : Hough K :=
  { h with
    points := h.points.map (pixPointStore s)
    xedges := h.xedges.map (fun l => l.map (fun v => v / s))
    lines := h.lines.map (fun l => l.map (pixLine s))
    minSlope := h.minSlope.map (fun v => v / s)
    maxSlope := h.maxSlope.map (fun v => v / s) }

/-- A calibrator on the new pixel scale (src/rascal/calibrator.py:34-80). -/
def pixCal (s : K) (c : Cal K) : Cal K :=
  { c with
    peaks := c.peaks.map (fun v => s * v)
    props := pixProps s c.props
    hough := pixHoughSet s c.hough
    pairs := c.pairs.map (pixPairStore s)
    ht := pixHough s c.ht
    houghLines := c.houghLines.map (fun l => l.map (pixLine s))
    houghPoints := c.houghPoints.map (pixPointStore s)
    known := c.known.map (fun k => (k.1.map (mapFin (fun v => s * v)), k.2))
    matchedPeaks := c.matchedPeaks.map (fun v => s * v)
    fitCoeff := c.fitCoeff.map (pixCoeffs s) }

/-- A calibrator with its atlases on the new pixel scale (src/rascal/calibrator.py:1416). -/
def pixWorld (s : K) (w : World K) : World K := ⟨w.atlases, pixCal s w.cal⟩

/-- A call on the new pixel scale (src/rascal/calibrator.py:822-1550). -/
def pixOp (s : K) : SetOp K → SetOp K
  | .setCalibrator n p l => .setCalibrator (n.map (fun v => s * v)) (p.map (fun q => q.map (fun v => s * v))) l
  | .setKnown p v => .setKnown (p.map (mapFin (fun v => s * v))) v
  | op => op

/-- Calls that can be expressed on the new pixel scale: not a file with a transform
(src/rascal/houghtransform.py:284-346). -/
def Rescalable : SetOp K → Prop
  | .loadHough .. => False
  | _ => True

/-- The arguments of `fit` on the new pixel scale (src/rascal/calibrator.py:1552-1562). -/
def pixArgs (s : K) (a : FitArgs K) : FitArgs K := { a with fitCoeff := a.fitCoeff.map (pixCoeffs s) }

/-- The result of `fit` on the new pixel scale (src/rascal/calibrator.py:1705-1715). -/
def pixReport (s : K) (r : FitReport K) : FitReport K :=
  { r with coeffs := pixCoeffs s r.coeffs, matchedPeaks := r.matchedPeaks.map (fun v => s * v) }

/-- The outcome of a call on the new pixel scale (src/rascal/calibrator.py:1552-1715). -/
def pixOutcome (s : K) : CallRes (FitReport K) → CallRes (FitReport K)
  | .running => .running
  | .done (.error e) => .done (.error e)
  | .done (.ok r) => .done (.ok (pixReport s r))

/-- The library routines follow the change of the pixel scale: a polynomial fitted to the same wavelengths at changed
pixels is the changed polynomial where it is unique, and the density of a changed histogram is the changed density
(src/rascal/calibrator.py:499-503, 575, 655). -/
structure PixelKernels (k : Kernels K) (s : K) : Prop where
  polyfit : ∀ xs ys n, Determined xs n →
    k.polyfit (xs.map (mapFin (fun v => s * v))) ys n = (k.polyfit xs ys n).map (pixCoeffs s)
  robust : ∀ xs ys n, xs.Nodup → n < xs.length →
    k.robust (xs.map (fun v => s * v)) ys n = (k.robust xs ys n).map (pixCoeffs s)
  polyval : ∀ co x, k.polyval (pixCoeffs s co) (s * x) = k.polyval co x
  spline : ∀ bx bY h, k.spline (bx.map (fun v => v / s)) bY h = (k.spline bx bY h).map (fun f x y => f (s * x) y)

/-- The order found by a sorting routine does not depend on the unit (src/rascal/houghtransform.py:113). -/
def ScaleFreeSort (s : K) (argsort : List K → List Nat) : Prop :=
  ∀ l : List K, argsort (l.map (fun v => s * v)) = argsort l

/-- The histogram of the slopes does not depend on the widening of a degenerate range
(src/rascal/houghtransform.py:183-187). -/
def SpreadSlopes (pts : List (K × K)) : Prop := ∃ p ∈ pts, ∃ q ∈ pts, p.1 ≠ q.1

end Rascal.Spec
