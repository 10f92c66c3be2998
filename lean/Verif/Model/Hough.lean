import Verif.Base.Np

/-!
Model of src/rascal/houghtransform.py.
-/

namespace Rascal

variable {K : Type _}

/-- What the attribute `hough_points` can hold (src/rascal/houghtransform.py:12, 92, 140, 165,
312, 327): an `n x 2` array, a plain Python list of `[gradient, intercept]` (after loading json),
or an array of another shape (stacking `None` on `None`). -/
inductive PointStore (K : Type _)
  | array (pts : List (K × K))
  | pyList (pts : List (K × K))
  | malformed
  deriving DecidableEq, Repr

/-- The attributes of `HoughTransform` (src/rascal/houghtransform.py:11-20, 183, 191, 210).
Histogram counts are natural numbers (numpy stores them as floats). -/
structure Hough (K : Type _) where
  points : Option (PointStore K)
  lines : Option (List (K × K))
  hist : Option (List (List Nat))
  xedges : Option (List K)
  yedges : Option (List K)
  minSlope : Option K
  maxSlope : Option K
  minIntercept : Option K
  maxIntercept : Option K
  deriving DecidableEq, Repr

/-- `HoughTransform.__init__` (src/rascal/houghtransform.py:11-20). -/
def Hough.init : Hough K := ⟨none, none, none, none, none, none, none, none, none⟩

/-- `set_constraints` (src/rascal/houghtransform.py:22-58): four `isfinite` assertions, then four
assignments. -/
def Hough.setConstraints (h : Hough K) (minS maxS minI maxI : PyFloat K) :
    Hough K × PyRes Unit :=
  match minS.toFinite with
  | none => (h, .error .assertionError)
  | some a => match maxS.toFinite with
    | none => (h, .error .assertionError)
    | some b => match minI.toFinite with
      | none => (h, .error .assertionError)
      | some c => match maxI.toFinite with
        | none => (h, .error .assertionError)
        | some d =>
          ({ h with minSlope := some a, maxSlope := some b, minIntercept := some c,
                    maxIntercept := some d }, .ok ())

section Points
variable [Field K] [LinearOrder K]

/-- The array built by `generate_hough_points` (src/rascal/houghtransform.py:77-92) for given
constraints: row by row over the slopes, the intercept `y - slope * x` of each data point, masked by
the inclusive intercept range. -/
def houghGrid (minS maxS minI maxI : K) (xy : List (K × K)) (numSlopes : Nat) : List (K × K) :=
  let slopes := linspace minS maxS numSlopes
  let intercepts := (slopes.map (fun s => xy.map (fun p => p.2 - s * p.1))).flatten
  let gradients := (slopes.map (fun s => List.replicate xy.length s)).flatten
  let mask := intercepts.map (fun c => decide (minI ≤ c) && decide (c ≤ maxI))
  (boolMask gradients mask).zip (boolMask intercepts mask)

/-- `generate_hough_points` (src/rascal/houghtransform.py:60-92).  `xy` are the columns of `pairs`
(equal lengths, as all callers pass).  Unset constraints make `linspace` fail (TypeError); an empty
slope grid or empty data make `np.concatenate`/`np.column_stack` fail (ValueError). -/
def Hough.generate (h : Hough K) (xy : List (K × K)) (numSlopes : Nat) : Hough K × PyRes Unit :=
  match h.minSlope, h.maxSlope, h.minIntercept, h.maxIntercept with
  | some a, some b, some c, some d =>
    if numSlopes = 0 ∨ xy = [] then (h, .error .valueError)
    else ({ h with points := some (.array (houghGrid a b c d xy numSlopes)) }, .ok ())
  | _, _, _, _ => (h, .error .typeError)

/-- Gradient and intercept of the line through two points (src/rascal/houghtransform.py:121-122);
`none` when the abscissae coincide: the gradient is then inf or nan and is always masked out by the
strict comparisons of lines 130-135. -/
def lineThrough (p q : K × K) : Option (K × K) :=
  if q.1 = p.1 then none
  else
    let g := (q.2 - p.2) / (q.1 - p.1)
    some (g, q.2 - g * q.1)

/-- The double loop over `i` and `j > i` (src/rascal/houghtransform.py:120-128). -/
def pairLines : List (K × K) → List (K × K)
  | [] => []
  | p :: t => t.filterMap (lineThrough p) ++ pairLines t

/-- The array built by `generate_hough_points_brute_force`
(src/rascal/houghtransform.py:111-140) for given constraints; strict masks. -/
def bruteLines (argsort : List K → List Nat) (minS maxS minI maxI : K) (xy : List (K × K)) :
    List (K × K) :=
  let sorted := takeIdx xy (argsort (xy.map Prod.fst))
  (pairLines sorted).filter (fun l =>
    decide (minS < l.1) && decide (l.1 < maxS) && decide (minI < l.2) && decide (l.2 < maxI))

/-- `generate_hough_points_brute_force` (src/rascal/houghtransform.py:94-140).  With fewer than two
points `np.concatenate([])` raises ValueError; unset constraints raise TypeError in the comparison. -/
def Hough.generateBrute (argsort : List K → List Nat) (h : Hough K) (xy : List (K × K)) :
    Hough K × PyRes Unit :=
  if xy.length < 2 then (h, .error .valueError)
  else
    match h.minSlope, h.maxSlope, h.minIntercept, h.maxIntercept with
    | some a, some b, some c, some d =>
      ({ h with points := some (.array (bruteLines argsort a b c d xy)) }, .ok ())
    | _, _, _, _ => (h, .error .typeError)

end Points

/-- The argument of `add_hough_points` (src/rascal/houghtransform.py:142-163): another
HoughTransform, an `n x 2` array, a 1-D array of two numbers (which `vstack` takes as one row), an
array of another shape, or anything else. -/
inductive HoughArg (K : Type _)
  | hough (points : Option (PointStore K))
  | array (pts : List (K × K))
  | row (p : K × K)
  | badArray
  | other

/-- `np.vstack((a, b))` for what `hough_points` may hold (src/rascal/houghtransform.py:165).
`None` becomes a `1 x 1` object array, which stacks only on another `None`; an empty Python list
becomes a `1 x 0` array, which does not stack on an `n x 2` array. -/
def vstackPoints : Option (PointStore K) → Option (PointStore K) → PyRes (PointStore K)
  | some a, some b =>
    match a, b with
    | .array p, .array q => .ok (.array (p ++ q))
    | .pyList p, .array q => if p = [] then .error .valueError else .ok (.array (p ++ q))
    | .array p, .pyList q => if q = [] then .error .valueError else .ok (.array (p ++ q))
    | .pyList p, .pyList q =>
      if p = [] ∧ q = [] then .ok .malformed
      else if p = [] ∨ q = [] then .error .valueError else .ok (.array (p ++ q))
    | .malformed, .malformed => .ok .malformed
    | _, _ => .error .valueError
  | none, none => .ok .malformed
  | none, some .malformed => .ok .malformed
  | some .malformed, none => .ok .malformed
  | _, _ => .error .valueError

/-- `add_hough_points` (src/rascal/houghtransform.py:142-165). -/
def Hough.add (h : Hough K) (hp : HoughArg K) : Hough K × PyRes Unit :=
  match hp with
  | .other => (h, .error .typeError)
  | .badArray => (h, .error .valueError)
  | .hough p => match vstackPoints h.points p with
    | .ok s => ({ h with points := some s }, .ok ())
    | .error e => (h, .error e)
  | .array p => match vstackPoints h.points (some (.array p)) with
    | .ok s => ({ h with points := some s }, .ok ())
    | .error e => (h, .error e)
  | .row p => match vstackPoints h.points (some (.array [p])) with
    | .ok s => ({ h with points := some s }, .ok ())
    | .error e => (h, .error e)

section Bin
variable [Field K] [LinearOrder K]

/-- The counts of `np.histogram2d` (src/rascal/houghtransform.py:183-187): entry `(i, j)` is the
number of points whose bin numbers are `i + 1` and `j + 1`. -/
def histogram2d (pts : List (K × K)) (xbins ybins : Nat) : List (List Nat) :=
  let xe := binEdges (pts.map Prod.fst) xbins
  let ye := binEdges (pts.map Prod.snd) ybins
  (List.range xbins).map (fun i => (List.range ybins).map (fun j =>
    pts.countP (fun p => binNumber xe p.1 == i + 1 && binNumber ye p.2 == j + 1)))

/-- `hist_sorted_arg` (src/rascal/houghtransform.py:191-195): flat argsort, reversed, unravelled. -/
def histSortedArg (argsort : List Nat → List Nat) (hist : List (List Nat)) (ybins : Nat) :
    List (Nat × Nat) :=
  (argsort hist.flatten).reverse.map (fun k => (k / ybins, k % ybins))

/-- `hough_lines` (src/rascal/houghtransform.py:197-210): bin centres in the order of
`hist_sorted_arg`. -/
def houghLines (xe ye : List K) (args : List (Nat × Nat)) : List (K × K) :=
  let xw := (xe.getD 1 0 - xe.getD 0 0) / 2
  let yw := (ye.getD 1 0 - ye.getD 0 0) / 2
  args.map (fun b => (xe.getD b.1 0 + xw, ye.getD b.2 0 + yw))

/-- `bin_hough_points` (src/rascal/houghtransform.py:167-210).  `None` trips the assertion; a plain
list cannot be indexed with `[:, 0]` (TypeError); a malformed array has no second column
(IndexError); bin numbers below 1 raise ValueError in numpy. -/
def Hough.bin (argsort : List Nat → List Nat) (h : Hough K) (xbins ybins : Nat) :
    Hough K × PyRes Unit :=
  match h.points with
  | none => (h, .error .assertionError)
  | some (.pyList _) => (h, .error .typeError)
  | some .malformed => (h, .error .indexError)
  | some (.array pts) =>
    if xbins = 0 ∨ ybins = 0 then (h, .error .valueError)
    else
      let hist := histogram2d pts xbins ybins
      let xe := binEdges (pts.map Prod.fst) xbins
      let ye := binEdges (pts.map Prod.snd) ybins
      ({ h with hist := some hist, xedges := some xe, yedges := some ye,
                lines := some (houghLines xe ye (histSortedArg argsort hist ybins)) }, .ok ())

end Bin

end Rascal
