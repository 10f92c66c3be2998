import Verif.Base.Np
import Mathlib.Analysis.SpecialFunctions.Exp

/-!
Model of the candidate handling of src/rascal/calibrator.py: peak/line pairs, candidate points, most
common candidates, close-line filter, one-to-one matching, sampling weights.
-/

namespace Rascal

variable {K : Type _}

/-- `itertools.product(self.peaks, self.atlas.get_lines())` (src/rascal/calibrator.py:103-106). -/
def allPairs (peaks lines : List K) : List (K × K) :=
  peaks.flatMap (fun p => lines.map (fun w => (p, w)))

/-- The four numbers that fix the polygon of the pair constraint (src/rascal/calibrator.py:110-127):
wavelength limits at pixel 0 and at the last pixel `P`. -/
structure Polygon (K : Type _) where
  lastPix : K
  lo0 : K
  hi0 : K
  loP : K
  hiP : K

section
variable [Field K] [LinearOrder K]

/-- `Delaunay(corners).find_simplex(pair) >= 0` (src/rascal/calibrator.py:110-129): the triangles of
a Delaunay triangulation of four points cover their convex hull, which here is the trapezoid between
the two vertical edges.  Boundary points count as inside (Qhull's rounding tolerance is not
modelled). -/
def Polygon.inside (g : Polygon K) (pt : K × K) : Bool :=
  let t := pt.1 / g.lastPix
  let lo := (1 - t) * min g.lo0 g.hi0 + t * min g.loP g.hiP
  let hi := (1 - t) * max g.lo0 g.hi0 + t * max g.loP g.hiP
  decide (0 ≤ t) && decide (t ≤ 1) && decide (lo ≤ pt.2) && decide (pt.2 ≤ hi)

/-- The corners lie on one line, on which Qhull fails (src/rascal/calibrator.py:110). -/
def Polygon.flat (g : Polygon K) : Bool :=
  decide (g.lastPix = 0) || (decide (g.lo0 = g.hi0) && decide (g.loP = g.hiP))

/-- `_generate_pairs` (src/rascal/calibrator.py:86-133).  `polygon` is `none` when `constrain_poly` is
false.  `QhullError` is a RuntimeError; `find_simplex` of an empty list raises ValueError. -/
def generatePairs (peaks lines : List K) (polygon : Option (Polygon K)) : PyRes (List (K × K)) :=
  match polygon with
  | none => .ok (allPairs peaks lines)
  | some g =>
    if g.flat then .error .runtimeError
    else if allPairs peaks lines = [] then .error .valueError
    else .ok (boolMask (allPairs peaks lines) ((allPairs peaks lines).map g.inside))

end

/-- One entry of `self.candidates`: three aligned arrays (src/rascal/calibrator.py:259-261,
313-315). -/
structure Cand (K : Type _) where
  peaks : List K
  wls : List K
  weights : List K
  deriving DecidableEq, Repr

/-- `_merge_candidates` (src/rascal/calibrator.py:135-152): the rows `(peak, wavelength, weight)` of
all candidates, each row sorted by `np.sort` (last axis). -/
def mergeCandidates [LinearOrder K] (cs : List (Cand K)) : List (List K) :=
  (cs.flatMap (fun c => (c.peaks.zip (c.wls.zip c.weights)).map
    (fun t => [t.1, t.2.1, t.2.2]))).map (fun r => r.mergeSort (fun a b => decide (a ≤ b)))

section
variable [Field K] [LinearOrder K]

/-- `_get_candidate_points_linear` (src/rascal/calibrator.py:219-261).  `weight actual predicted` is
the Gaussian of lines 252-257. -/
def candidatesLinear (weight : K → K → K) (tol : K) (lines : List (K × K)) (pairs : List (K × K)) :
    List (Cand K) :=
  lines.map (fun line =>
    let predicted := pairs.map (fun p => line.1 * p.1 + line.2)
    let actual := pairs.map Prod.snd
    let diff := List.zipWith (fun p a => |p - a|) predicted actual
    let mask := diff.map (fun d => decide (d ≤ tol))
    { peaks := boolMask (pairs.map Prod.fst) mask
      wls := boolMask actual mask
      weights := List.zipWith weight (boolMask actual mask) (boolMask predicted mask) })

/-- One shift of `_get_candidate_points_poly` (src/rascal/calibrator.py:303-315): the arrays of atlas
lines and predicted wavelengths are subtracted, which broadcasts: equal lengths element by element,
length one against everything, otherwise ValueError.  Indexing the shorter array with the broadcast
mask raises IndexError; `self.peaks[mask]` raises TypeError if the peaks are a plain list. -/
def polyCandidate (weight : K → K → K) (tol : K) (peaksAreArray : Bool) (peaks actual predicted : List K) :
    PyRes (Option (Cand K)) :=
  if actual.length = predicted.length then
    let mask := (List.zipWith (fun a p => |a - p|) actual predicted).map (fun d => decide (d < tol))
    if mask.any id then
      if peaksAreArray then
        .ok (some ⟨boolMask peaks mask, boolMask actual mask,
          List.zipWith weight (boolMask actual mask) (boolMask predicted mask)⟩)
      else .error .typeError
    else .ok none
  else if actual.length = 1 ∨ predicted.length = 1 then
    let diffs := actual.flatMap (fun a => predicted.map (fun p => |a - p|))
    if (diffs.map (fun d => decide (d < tol))).any id then .error .indexError else .ok none
  else .error .valueError

/-- The loop of `_get_candidate_points_poly` (src/rascal/calibrator.py:291-315); `f` is
`polyval(., fit_coeff)`, `deltas` the random shifts of lines 298-301. -/
def candidatesPoly (weight : K → K → K) (tol : K) (peaksAreArray : Bool) (peaks actual : List K)
    (f : K → K) : List K → PyRes (List (Cand K))
  | [] => .ok []
  | d :: ds =>
    match polyCandidate weight tol peaksAreArray peaks actual (peaks.map (fun p => f p + d)) with
    | .error e => .error e
    | .ok c =>
      match candidatesPoly weight tol peaksAreArray peaks actual f ds with
      | .error e => .error e
      | .ok cs => .ok (c.toList ++ cs)

/-- The per-peak part of `_get_most_common_candidates` (src/rascal/calibrator.py:193-215).
`matched` and `counts` are `wavelengths[idx]` and the weights (or ones) of the peak.
`[peak] * n` is empty for negative `n`, while `[:n]` then drops entries at the end. -/
def mostCommonOf (argsort : List K → List Nat) (topN : Int) (peak : K) (matched counts : List K) :
    List K × List K :=
  let uniq := npUnique matched
  let n : Int := min topN uniq.length
  let agg := uniq.map (fun w => (boolMask counts (matched.map (fun v => decide (v = w)))).sum)
  (List.replicate n.toNat peak, takeIdx matched (pyTake (argsort (agg.map (fun a => -a))) n))

/-- `_get_most_common_candidates` (src/rascal/calibrator.py:154-217) for float wavelengths; `mostCommonInt`
in IntWaves.lean is the variant for integers. -/
def mostCommon (argsort : List K → List Nat) (cs : List (Cand K)) (topN : Int) (weighted : Bool) :
    List K × List K :=
  let peaks := cs.flatMap Cand.peaks
  let wls := cs.flatMap Cand.wls
  let probs := cs.flatMap Cand.weights
  let per := (npUnique peaks).map (fun peak =>
    let mask := peaks.map (fun p => decide (p = peak))
    let counts := boolMask probs mask
    mostCommonOf argsort topN peak (boolMask wls mask)
      (if weighted then counts else counts.map (fun _ => 1)))
  (per.flatMap Prod.fst, per.flatMap Prod.snd)

/-- The close-line filter at the start of `_solve_candidate_ransac`
(src/rascal/calibrator.py:457-464): distinct wavelengths whose successor is nearer than
`3 * ransac_tolerance` are removed from the aligned lists. -/
def filterClose (tol : K) (x y : List K) : List K × List K :=
  let u := npUnique y
  let idx := boolMask u.dropLast ((List.zipWith (fun b a => b - a) u.tail u.dropLast).map
    (fun d => decide (d < 3 * tol)))
  let mask := y.map (fun v => !(idx.contains v))
  (boolMask x mask, boolMask y mask)

/-- The candidate dictionary (src/rascal/calibrator.py:492-495): `y[x == p]` for a key `p`; other
keys raise KeyError. -/
def candTable (x y : List K) (p : K) : Option (List K) :=
  if p ∈ x then some (boolMask y (x.map (fun v => decide (v = p)))) else none

/-- `np.argmin`: position of the first smallest entry (src/rascal/calibrator.py:350, 369). -/
def argminFrom : K → Nat → Nat → List K → Nat
  | _, best, _, [] => best
  | m, best, i, a :: l => if a < m then argminFrom a i (i + 1) l else argminFrom m best (i + 1) l

/-- `np.argmin` of an array; ValueError when empty (src/rascal/calibrator.py:350, 369). -/
def argmin : List K → PyRes Nat
  | [] => .error .valueError
  | a :: l => .ok (argminFrom a 0 1 l)

/-- First loop of `_match_bijective` (src/rascal/calibrator.py:345-354): for each peak its error and
nearest candidate, as triples (error, peak, wavelength). -/
def nearestCandidates (f : K → K) (cand : K → Option (List K)) :
    List K → PyRes (List (K × K × K))
  | [] => .ok []
  | p :: ps =>
    match cand p with
    | none => .error .keyError
    | some ws =>
      let errs := ws.map (fun w => |f p - w|)
      match argmin errs with
      | .error e => .error e
      | .ok i =>
        match nearestCandidates f cand ps with
        | .error e => .error e
        | .ok r => .ok ((errs.getD i 0, p, ws.getD i 0) :: r)

/-- Second loop of `_match_bijective` (src/rascal/calibrator.py:365-371), for one wavelength: the
entries claiming it and the one of smallest error. -/
def resolveWavelength (t : List (K × K × K)) (w : K) : PyRes (K × K × K) :=
  let m := boolMask t (t.map (fun e => decide (e.2.2 = w)))
  match argmin (m.map (fun e => e.1)) with
  | .error e => .error e
  | .ok i => .ok ((m.map (fun e => e.1)).getD i 0, (m.map (fun e => e.2.1)).getD i 0, w)

/-- Second loop of `_match_bijective` over the distinct wavelengths
(src/rascal/calibrator.py:365-376). -/
def resolveAll (t : List (K × K × K)) : List K → PyRes (List (K × K × K))
  | [] => .ok []
  | w :: ws =>
    match resolveWavelength t w with
    | .error e => .error e
    | .ok a => match resolveAll t ws with
      | .error e => .error e
      | .ok r => .ok (a :: r)

/-- `_match_bijective` (src/rascal/calibrator.py:317-380); `f` is `polyval(., fit_coeff)`.  The result
lists (error, peak, wavelength). -/
def matchBijective (f : K → K) (cand : K → Option (List K)) (peaks : List K) :
    PyRes (List (K × K × K)) :=
  match nearestCandidates f cand peaks with
  | .error e => .error e
  | .ok t =>
    match resolveAll t (npUnique (t.map (fun e => e.2.2))) with
    | .error e => .error e
    | .ok r =>
      if (npUnique (r.map (fun e => e.2.1))).length = (npUnique (r.map (fun e => e.2.2))).length then .ok r
      else .error .assertionError

/-- `np.digitize(v, edges, right=True)` (src/rascal/calibrator.py:522): the number of edges below
`v`. -/
def digitizeRight (edges : List K) (v : K) : Nat :=
  (edges.filter (fun e => decide (e < v))).length

/-- The counts of `np.histogram(peaks, bins=10)` (src/rascal/calibrator.py:521). -/
def histogram10 (peaks : List K) : List Nat :=
  (List.range 10).map (fun i => peaks.countP (fun p => binNumber (binEdges peaks 10) p == i + 1))

/-- The count looked up for a peak (src/rascal/calibrator.py:522): index `digitize - 1`, where `-1`
is the last bin. -/
def peakCount (peaks : List K) (p : K) : Nat :=
  let i := digitizeRight (binEdges peaks 10) p
  (histogram10 peaks).getD (if i = 0 then 9 else i - 1) 0

/-- The sampling probabilities (src/rascal/calibrator.py:518-523) as `np.random.choice` receives them
(538-540): a zero count gives `1/0 = inf` and then nan, which `choice` rejects with ValueError. -/
def sampleProb (peaks : List K) : PyRes (List K) :=
  let counts := peaks.map (peakCount peaks)
  if 0 ∈ counts then .error .valueError
  else
    let w := counts.map (fun c : Nat => 1 / (c : K))
    .ok (w.map (fun v => v / w.sum))

end

/-- `gauss` (src/rascal/util.py:426-447). -/
noncomputable def gaussFn (x a x0 sigma : ℝ) : ℝ :=
  a * Real.exp (-((x - x0) ^ 2) / (2 * sigma ^ 2 + 1e-9))

/-- The weight of a linear candidate (src/rascal/calibrator.py:252-257). -/
noncomputable def linearWeight (rangeTol linTol : ℝ) (actual predicted : ℝ) : ℝ :=
  gaussFn actual 1 predicted ((rangeTol + linTol) * 1.1775)

end Rascal
