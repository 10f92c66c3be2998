import Verif.Model.Fit

/-!
A change of the wavelength scale: every wavelength `v` becomes `s * v + t` and every tolerance `d` becomes
`s * d`.  With `s = 1` only the zero point moves, with `t = 0` only the unit changes.
-/

namespace Rascal.Spec

variable {K : Type _} [Field K] [LinearOrder K]

/-- A wavelength on the new scale (used for the attributes of src/rascal/calibrator.py:34-80). -/
def aff (s t v : K) : K := s * v + t

/-- The finite values are changed (src/rascal/calibrator.py:1507-1550 allows infinite known values). -/
def mapFin (f : K → K) : PyFloat K → PyFloat K
  | .fin v => .fin (f v)
  | .posInf => .posInf
  | .negInf => .negInf
  | .nan => .nan

/-- A line (slope, intercept) on the new scale (src/rascal/houghtransform.py:88-92). -/
def affLine (s t : K) (l : K × K) : K × K := (s * l.1, aff s t l.2)

/-- A pair (pixel, wavelength) on the new scale (src/rascal/calibrator.py:103-106). -/
def affPair (s t : K) (p : K × K) : K × K := (p.1, aff s t p.2)

/-- Coefficients, lowest order first, on the new scale (src/rascal/calibrator.py:575). -/
def affCoeffs (s t : K) : List K → List K
  | [] => []
  | c :: cs => aff s t c :: cs.map (fun v => s * v)

/-- An atlas line on the new scale (src/rascal/atlas.py:15-47). -/
def affAtlasLine (s t : K) (l : AtlasLine K) : AtlasLine K := { l with wl := aff s t l.wl }

/-- An atlas on the new scale (src/rascal/atlas.py:96-140). -/
def affAtlas (s t : K) (a : Atlas K) : Atlas K :=
  { lines := a.lines.map (affAtlasLine s t), minW := a.minW.map (mapFin (aff s t)),
    maxW := a.maxW.map (mapFin (aff s t)), rangeTol := s * a.rangeTol }

/-- The Hough settings on the new scale (src/rascal/calibrator.py:1018-1116). -/
def affHoughSet (s t : K) (h : HoughSet K) : HoughSet K :=
  { h with
    minW := aff s t h.minW
    maxW := aff s t h.maxW
    rangeTol := s * h.rangeTol
    linTol := s * h.linTol
    minIntercept := aff s t h.minIntercept
    maxIntercept := aff s t h.maxIntercept
    minSlope := mapFin (fun v => s * v) h.minSlope
    maxSlope := mapFin (fun v => s * v) h.maxSlope }

/-- The RANSAC settings on the new scale (src/rascal/calibrator.py:1179-1283). -/
def affRansacSet (s : K) (r : RansacSet K) : RansacSet K :=
  { r with tol := s * r.tol, minFitError := s * r.minFitError }

/-- The combinations on the new scale (src/rascal/calibrator.py:130-133). -/
def affPairStore (s t : K) : PairStore K → PairStore K
  | .noColumns => .noColumns
  | .array l => .array (l.map (affPair s t))

/-- Hough points on the new scale (src/rascal/houghtransform.py:92). -/
def affPointStore (s t : K) : PointStore K → PointStore K
  | .array l => .array (l.map (affLine s t))
  | .pyList l => .pyList (l.map (affLine s t))
  | .malformed => .malformed

/-- A Hough transform on the new scale: the counts stay (src/rascal/houghtransform.py:11-20). -/
def affHough (s t : K) (h : Hough K) : Hough K :=
  { points := h.points.map (affPointStore s t)
    hist := h.hist
    xedges := h.xedges.map (fun l => l.map (fun v => s * v))
    yedges := h.yedges.map (fun l => l.map (aff s t))
    lines := h.lines.map (fun l => l.map (affLine s t))
    minSlope := h.minSlope.map (fun v => s * v)
    maxSlope := h.maxSlope.map (fun v => s * v)
    minIntercept := h.minIntercept.map (aff s t)
    maxIntercept := h.maxIntercept.map (aff s t) }

/-- A calibrator on the new scale (src/rascal/calibrator.py:34-80); pixels stay. -/
def affCal (s t : K) (c : Cal K) : Cal K :=
  { c with
    hough := affHoughSet s t c.hough
    ransac := affRansacSet s c.ransac
    candTol := c.candTol.map (fun v => s * v)
    pairs := c.pairs.map (affPairStore s t)
    ht := affHough s t c.ht
    houghLines := c.houghLines.map (fun l => l.map (affLine s t))
    houghPoints := c.houghPoints.map (affPointStore s t)
    known := c.known.map (fun k => (k.1, k.2.map (mapFin (aff s t))))
    matchedAtlas := c.matchedAtlas.map (aff s t)
    fitCoeff := c.fitCoeff.map (affCoeffs s t)
    rms := c.rms.map (fun v => s * v)
    residual := c.residual.map (fun l => l.map (fun v => s * v)) }

/-- A calibrator with its atlases on the new scale (src/rascal/calibrator.py:1416). -/
def affWorld (s t : K) (w : World K) : World K := ⟨w.atlases.map (affAtlas s t), affCal s t w.cal⟩

/-- The arguments of `set_hough_properties` on the new scale (src/rascal/calibrator.py:984-993). -/
def affHoughArgs (s t : K) (a : HoughArgs K) : HoughArgs K :=
  { a with
    minW := a.minW.map (aff s t)
    maxW := a.maxW.map (aff s t)
    rangeTol := a.rangeTol.map (fun v => s * v)
    linTol := a.linTol.map (fun v => s * v) }

/-- The arguments of `set_ransac_properties` on the new scale (src/rascal/calibrator.py:1121-1133). -/
def affRansacArgs (s : K) (a : RansacArgs K) : RansacArgs K :=
  { a with tol := a.tol.map (fun v => s * v), minFitError := a.minFitError.map (fun v => s * v) }

/-- The atlas on the old scale (src/rascal/atlas.py:15-94). -/
def unaffAtlas (s t : K) (a : Atlas K) : Atlas K := affAtlas s⁻¹ (-t / s) a

/-- A call on the new scale (src/rascal/calibrator.py:822-1550).  A user's change of an atlas is the same
change made on the new scale. -/
def affOp (s t : K) : SetOp K → SetOp K
  | .setHough a => .setHough (affHoughArgs s t a)
  | .setRansac a => .setRansac (affRansacArgs s a)
  | .setAtlas i tol b => .setAtlas i (s * tol) b
  | .addUserAtlas f tol b =>
    .addUserAtlas (fun x => (affAtlas s t (f (unaffAtlas s t x)).1, (f (unaffAtlas s t x)).2)) (s * tol) b
  | .removeRange v tol => .removeRange (aff s t v) (s * tol)
  | .editAtlas i f => .editAtlas i (fun x => affAtlas s t (f (unaffAtlas s t x)))
  | .setKnown p v => .setKnown p (v.map (mapFin (aff s t)))
  | op => op

/-- Calls that can be expressed on the new scale: not the packaged line lists, which are in Angstrom, and not
a file with a transform (src/rascal/atlas.py:185-197, src/rascal/houghtransform.py:284-346). -/
def Movable : SetOp K → Prop
  | .addAtlas .. => False
  | .loadHough .. => False
  | _ => True

/-- The arguments of `fit` on the new scale (src/rascal/calibrator.py:1552-1562). -/
def affArgs (s t : K) (a : FitArgs K) : FitArgs K :=
  { a with fitCoeff := a.fitCoeff.map (affCoeffs s t), candTol := s * a.candTol }

/-- The result of `fit` on the new scale (src/rascal/calibrator.py:1705-1715). -/
def affReport (s t : K) (r : FitReport K) : FitReport K :=
  { r with
    coeffs := affCoeffs s t r.coeffs
    matchedAtlas := r.matchedAtlas.map (aff s t)
    rms := s * r.rms
    residual := r.residual.map (fun l => l.map (fun v => s * v)) }

/-- The outcome of a call on the new scale (src/rascal/calibrator.py:1552-1715). -/
def affOutcome (s t : K) : CallRes (FitReport K) → CallRes (FitReport K)
  | .running => .running
  | .done (.error e) => .done (.error e)
  | .done (.ok r) => .done (.ok (affReport s t r))

/-- There are more distinct finite abscissae than the degree, so that the polynomial of least squares is
unique (src/rascal/calibrator.py:575). -/
def Determined (xs : List (PyFloat K)) (n : Nat) : Prop :=
  ∃ l : List K, l.Nodup ∧ n < l.length ∧ ∀ v ∈ l, .fin v ∈ xs

/-- The library routines follow the change of scale: fits of changed data are the changed fits, the root is
homogeneous, and the density of a changed histogram is the changed density
(src/rascal/calibrator.py:499-503, 515, 575, 655, 675).  numpy picks the smallest coefficients if the polynomial
is not unique; this choice follows a change of unit, but not of the zero point. -/
structure AffineKernels (k : Kernels K) (s t : K) : Prop where
  polyfit : ∀ xs ys n, t = 0 ∨ Determined xs n →
    k.polyfit xs (ys.map (mapFin (aff s t))) n = (k.polyfit xs ys n).map (affCoeffs s t)
  robust : ∀ xs ys n, k.robust xs (ys.map (aff s t)) n = (k.robust xs ys n).map (affCoeffs s t)
  polyfit_ne : ∀ xs ys n co, k.polyfit xs ys n = .ok co → co ≠ []
  robust_ne : ∀ xs ys n co, k.robust xs ys n = .ok co → co ≠ []
  polyval : ∀ co x, co ≠ [] → k.polyval (affCoeffs s t co) x = aff s t (k.polyval co x)
  sqrt : ∀ v, k.sqrt (s ^ 2 * v) = s * k.sqrt v
  spline : ∀ bx bY h, k.spline (bx.map (fun v => s * v)) (bY.map (aff s t)) h =
    (k.spline bx bY h).map (fun f x y => f (x / s) ((y - t) / s))

/-- The histogram of the points does not depend on the widening of a degenerate range
(src/rascal/houghtransform.py:183-187). -/
def SpreadPoints (s : K) (pts : List (K × K)) : Prop :=
  pts ≠ [] ∧ (s = 1 ∨ ((∃ p ∈ pts, ∃ q ∈ pts, p.1 ≠ q.1) ∧ ∃ p ∈ pts, ∃ q ∈ pts, p.2 ≠ q.2))

end Rascal.Spec
