import Verif.Model.Fit
import Mathlib.Data.List.Sort

/-!
Model of what follows a fit: `_adjust_polyfit` (src/rascal/calibrator.py:754-820), `match_peaks`
(1717-1956), `get_pix_wave_pairs`, `add_pix_wave_pair`, `remove_pix_wave_pair` (1958-2026) and
`manual_refit` (2028-2124).

The calls depend on the Python types of the attributes (list, array or None), so the calibrator gets
additional fields here.  Coefficients and residuals containing nan are only known to contain nan.
Not modelled: log messages, the arguments `method` and `convergence`, which are handed to the
minimiser.
-/

namespace Rascal

variable {K : Type _}

/-- The type of the attribute `fit_coeff` when it is not None (src/rascal/calibrator.py:1612, 1701,
1916, 1946, 2110): a list given by the caller, an array, or an array containing nan, of which only the
length is kept. -/
inductive CoeffKind
  | list | array | nan
  deriving DecidableEq, Repr

/-- The type of the attribute `matched_atlas` (src/rascal/calibrator.py:79, 709, 1887, 1900, 2007). -/
inductive AtlasKind
  | absent | list | array
  deriving DecidableEq, Repr

/-- A calibrator together with the attributes that matter after a fit.  `basis` says which `polyfit`
and `polyval` are set (src/rascal/calibrator.py:1621-1636), they do not exist before a fit; `peaksArr`
whether `matched_peaks` is an array (78, 708, 1883, 2006); `residuals` is the attribute of that name
(1888, 1901, 2113), `none` if missing or None; `intPeaks` whether the peaks given are integers (21-37),
`matchedInt` whether `matched_peaks` is. -/
structure Session (K : Type _) where
  world : World K
  basis : Option FitType
  coeffKind : CoeffKind
  peaksArr : Bool
  atlasKind : AtlasKind
  residuals : Option (List K)
  intPeaks : Bool
  matchedInt : Bool
  deriving DecidableEq

/-- A new calibrator (src/rascal/calibrator.py:78-80). -/
def Session.new (w : World K) (intPeaks : Bool) : Session K :=
  ⟨w, none, .list, false, .list, none, intPeaks, false⟩

/-- The library routines used after a fit: `scipy.optimize.minimize` (src/rascal/calibrator.py:1804-1811)
given the objective and the start, and `models.robust_polyfit` (1916, 2106) given the data, the degree
and the start; `none` if the answer contains nan. -/
structure MatchKernels (K : Type _) where
  minimize : (List K → PyRes (PyFloat K)) → List K → PyRes (Option (List K))
  robust : List K → List K → Nat → Option (List K) → PyRes (Option (List K))

/-- Arguments of `match_peaks` (src/rascal/calibrator.py:1717-1728); `coeff` with a flag saying whether
it is an array. -/
structure MatchArgs (K : Type _) where
  coeff : Option (Bool × List K) := none
  nDelta : Option Int := none
  refine : Bool := false
  tol : K
  minFrac : K
  robust : Bool := true
  deg : Option Nat := none

/-- The seven values returned by `match_peaks` (src/rascal/calibrator.py:1927-1956). -/
structure MatchReport (K : Type _) where
  coeffs : List K
  peaks : List K
  atlas : List K
  rms : K
  residuals : List K
  peakUtil : K
  atlasUtil : K
  deriving DecidableEq

/-- What `match_peaks` returns: the input solution and six times None (src/rascal/calibrator.py:1821),
or the full tuple. -/
inductive MatchOut (K : Type _)
  | input (coeffs : List K)
  | report (r : MatchReport K)
  deriving DecidableEq

/-- The outcome of the refinement step (src/rascal/calibrator.py:1797-1821). -/
inductive Refined (K : Type _)
  | skipped
  | nan
  | coeffs (l : List K)

section
variable [Field K] [LinearOrder K]

/-- `for i, d in enumerate(delta): fit_new[i] += d` (src/rascal/calibrator.py:786-787, 1813-1814). -/
def addDelta (fit delta : List K) : PyRes (List K) :=
  if fit.length < delta.length then .error .indexError
  else .ok (fit.mapIdx (fun i c => c + delta.getD i 0))

/-- `np.argmin(np.abs(atlas_lines - x))` with the line found (src/rascal/calibrator.py:791-797): the
first one of smallest distance. -/
def nearestLine (x : K) : List K → Option K
  | [] => none
  | a :: l => some (l.foldl (fun b c => if |c - x| < |b - x| then c else b) a)

/-- The loop over the peaks in `_adjust_polyfit` (src/rascal/calibrator.py:789-797). -/
def adjustMatches (f : K → K) (lines : List K) (tol : K) (peaks : List K) : List (K × K) :=
  peaks.filterMap (fun p =>
    match nearestLine (f p) lines with
    | none => none
    | some a => if |a - f p| < tol then some (p, a) else none)

/-- `_adjust_polyfit` (src/rascal/calibrator.py:754-820) given the atlas lines.  `np.argmin` of an empty
array raises ValueError, `polyval` without coefficients IndexError. -/
def adjustPolyfit (k : Kernels K) (peaks lines pixelList : List K) (fit : List K) (tol minFrac : K)
    (delta : List K) : PyRes (PyFloat K) :=
  match addDelta fit delta with
  | .error e => .error e
  | .ok fitNew =>
    if peaks ≠ [] ∧ fitNew = [] then .error .indexError
    else if peaks ≠ [] ∧ lines = [] then .error .valueError
    else
      let m := adjustMatches (k.polyval fitNew) lines tol peaks
      if (m.length : Int) - (fitNew.length : Int) - 1 < 1 then .ok .posInf
      else if (m.length : K) < (peaks.length : K) * minFrac then .ok .posInf
      else if !increasing ((pixelList.insertionSort (· ≤ ·)).map (k.polyval fitNew)) then .ok .posInf
      else .ok (.fin ((m.map (fun e => (e.2 - k.polyval fitNew e.1) ^ 2)).sum /
        ((m.length : K) - (fitNew.length : K) - 1)))

/-- The coefficients `match_peaks` starts from (src/rascal/calibrator.py:1791-1792). -/
def Session.inputCoeff (s : Session K) (a : MatchArgs K) : PyRes (CoeffKind × List K) :=
  match a.coeff with
  | some (arr, l) => .ok (if arr then .array else .list, l)
  | none =>
    match s.world.cal.fitCoeff with
    | none => .error .attributeError
    | some l => .ok (s.coeffKind, l)

/-- The objective given to the minimiser (src/rascal/calibrator.py:1804-1811); without an atlas or
before a fit the attributes are missing. -/
def Session.objective (F : FitEnv K) (s : Session K) (a : MatchArgs K) (co delta : List K) :
    PyRes (PyFloat K) :=
  match s.world.atlasLines, s.basis with
  | .ok lines, some b =>
    adjustPolyfit (F.kern b) s.world.cal.peaks lines s.world.cal.props.pixelList co a.tol a.minFrac delta
  | _, _ => .error .attributeError

/-- The refinement (src/rascal/calibrator.py:1797-1821): a list cannot be multiplied by a float. -/
def Session.refineStep (F : FitEnv K) (M : MatchKernels K) (s : Session K) (a : MatchArgs K)
    (kind : CoeffKind) (co : List K) : PyRes (Refined K) :=
  if !a.refine then .ok .skipped
  else
    match kind with
    | .list => .error .typeError
    | .nan => .ok .nan
    | .array =>
      match M.minimize (s.objective F a co)
          ((pyTake co (a.nDelta.getD ((co.length : Int) - 1))).map (fun c => c * (1 / 1000))) with
      | .error e => .error e
      | .ok none => .ok .nan
      | .ok (some d) =>
        match addDelta co d with
        | .error e => .error e
        | .ok l => .ok (.coeffs l)

/-- The lines near the prediction for one peak (src/rascal/calibrator.py:1831-1837). -/
def linesNear (lines : List K) (tol x : K) : List K :=
  lines.filter (fun a => decide (|a - x| < tol))

/-- All peaks with at least one line (src/rascal/calibrator.py:1829-1838); predictions from coefficients
containing nan are near nothing. -/
def matchLoop (f : K → K) (lines : List K) (tol : K) (peaks : List K) : List (K × List K) :=
  peaks.filterMap (fun p => if linesNear lines tol (f p) = [] then none else some (p, linesNear lines tol (f p)))

/-- The loop creating the permutations (src/rascal/calibrator.py:1841-1876).  For a peak with several
lines, of which one is not yet used, the list `match` is indexed with an array: TypeError.  So there is
never more than one candidate. -/
def expandMatches : List (List K) → List K → PyRes (List K)
  | [], c => .ok c
  | m :: ms, c =>
    if m.length = 1 then expandMatches ms (c ++ m)
    else if m.all (fun v => decide (v ∈ c)) then expandMatches ms c
    else .error .typeError

/-- `self.polyfit` (src/rascal/calibrator.py:1893): numpy rejects empty data and unequal lengths with
TypeError. -/
def polyfitChecked (k : Kernels K) (xs ys : List K) (deg : Nat) : PyRes (List K) :=
  if xs = [] ∨ xs.length ≠ ys.length then .error .typeError
  else k.polyfit (xs.map .fin) (ys.map .fin) deg

/-- The end of `match_peaks` (src/rascal/calibrator.py:1915-1956).  Without refinement the local
`fit_coeff_new` does not exist. -/
def Session.matchRefit (F : FitEnv K) (M : MatchKernels K) (s : Session K) (b : FitType)
    (robust : Bool) (deg : Nat) (new : Refined K) (fitted xs ys res : List K) (rms pu au : K) :
    Session K × PyRes (MatchOut K) :=
  if robust then
    match M.robust xs ys deg none with
    | .error e => (s, .error e)
    | .ok none =>
      ({ s with coeffKind := .nan,
                world := { s.world with cal := { s.world.cal with
                  fitCoeff := some (List.replicate (deg + 1) 0) } } },
        .ok (.report ⟨fitted, xs, ys, rms, res, pu, au⟩))
    | .ok (some co) =>
      let r := List.zipWith (fun x y => y - (F.kern b).polyval co x) xs ys
      ({ s with coeffKind := .array, residuals := some r,
                world := { s.world with cal := { s.world.cal with
                  fitCoeff := some co, rms := some (rmsOf (F.kern b) r) } } },
        .ok (.report ⟨co, xs, ys, rmsOf (F.kern b) r, r, pu, au⟩))
  else
    match new with
    | .coeffs co =>
      ({ s with coeffKind := .array,
                world := { s.world with cal := { s.world.cal with fitCoeff := some co } } },
        .ok (.report ⟨co, xs, ys, rms, res, pu, au⟩))
    | _ => (s, .error .unboundLocal)

/-- The attributes set before the candidates are checked (src/rascal/calibrator.py:1883-1888). -/
def Session.clearMatches (s : Session K) (xs : List K) : Session K :=
  { s with
    peaksArr := true, atlasKind := .absent, residuals := none, matchedInt := s.intPeaks && decide (xs ≠ []),
    world := { s.world with cal := { s.world.cal with matchedPeaks := xs, matchedAtlas := [] } } }

/-- The check of the single candidate and the attributes set after it
(src/rascal/calibrator.py:1890-1913). -/
def Session.matchFit (F : FitEnv K) (M : MatchKernels K) (s : Session K) (nLines : Nat)
    (robust : Bool) (deg : Nat) (new : Refined K) (xs ys : List K) : Session K × PyRes (MatchOut K) :=
  let s1 := s.clearMatches xs
  match s.basis with
  | none => (s1, .error .attributeError)
  | some b =>
    match polyfitChecked (F.kern b) xs ys deg with
    | .error e => (s1, .error e)
    | .ok fitted =>
      let res := List.zipWith (fun x y => |y - (F.kern b).polyval fitted x|) xs ys
      if res.sum < 10 ^ 9 then
        let rms := rmsOf (F.kern b) res
        let pu : K := (xs.length : K) / (s.world.cal.peaks.length : K)
        let au : K := (ys.length : K) / (nLines : K)
        Session.matchRefit F M
          { s1 with atlasKind := .array, residuals := some res,
                    world := { s1.world with cal := { s1.world.cal with
                      matchedAtlas := ys, rms := some rms, peakUtil := some pu,
                      atlasUtil := some (.fin au) } } }
          b robust deg new fitted xs ys res rms pu au
      else (s1, .error .assertionError)

/-- The search for lines near the predictions (src/rascal/calibrator.py:1823-1881). -/
def Session.matchSearch (F : FitEnv K) (M : MatchKernels K) (s : Session K) (a : MatchArgs K)
    (kind : CoeffKind) (co : List K) (new : Refined K) : Session K × PyRes (MatchOut K) :=
  match s.world.atlasLines with
  | .error e => (s, .error e)
  | .ok lines =>
    if s.world.cal.peaks ≠ [] ∧ s.basis = none then (s, .error .attributeError)
    else if s.world.cal.peaks ≠ [] ∧ co = [] then (s, .error .indexError)
    else
      let m := if kind = .nan then []
        else matchLoop ((F.kern (s.basis.getD .poly)).polyval co) lines a.tol s.world.cal.peaks
      match expandMatches (m.map Prod.snd) [] with
      | .error e => (s, .error e)
      | .ok ys => s.matchFit F M lines.length a.robust (a.deg.getD (co.length - 1)) new (m.map Prod.fst) ys

/-- `match_peaks` (src/rascal/calibrator.py:1717-1956).  An empty coefficient list is given the degree 0
instead of -1; both fail. -/
def Session.matchPeaks (F : FitEnv K) (M : MatchKernels K) (s : Session K) (a : MatchArgs K) :
    Session K × PyRes (MatchOut K) :=
  match s.inputCoeff a with
  | .error e => (s, .error e)
  | .ok (kind, co) =>
    match s.refineStep F M a kind co with
    | .error e => (s, .error e)
    | .ok .nan => (s, .ok (.input co))
    | .ok new => s.matchSearch F M a kind co new

end

/-- `get_pix_wave_pairs` (src/rascal/calibrator.py:1958-1983). -/
def Session.getPairs (s : Session K) : PyRes (List (Nat × K × K)) :=
  match s.atlasKind with
  | .absent => .error .typeError
  | _ => .ok ((s.world.cal.matchedPeaks.zip s.world.cal.matchedAtlas).mapIdx (fun i p => (i, p.1, p.2)))

/-- The new lists of an edit (src/rascal/calibrator.py:2002-2007, 2021-2026); `np.insert` and `np.delete`
return arrays. -/
def Session.setPairs (s : Session K) (p w : List K) : Session K :=
  { s with peaksArr := true, atlasKind := .array,
           world := { s.world with cal := { s.world.cal with matchedPeaks := p, matchedAtlas := w } } }

section
variable [Field K] [LinearOrder K]

/-- The value `np.insert` stores (src/rascal/calibrator.py:2003): an integer array cuts off the
fraction. -/
def Session.storedPix [FloorRing K] (s : Session K) (pix : K) : K :=
  if s.matchedInt then (if 0 ≤ pix then (⌊pix⌋ : K) else (⌈pix⌉ : K)) else pix

/-- `add_pix_wave_pair` (src/rascal/calibrator.py:1985-2007): before the first smaller entry.  Comparing
a Python float with a list raises TypeError, a numpy float is accepted.  Simplified: with
`matched_atlas` None numpy would insert into an array holding None; here it raises TypeError. -/
def Session.addPair [FloorRing K] (s : Session K) (numpyPix : Bool) (pix wave : K) :
    Session K × PyRes Unit :=
  if !s.peaksArr && !numpyPix then (s, .error .typeError)
  else
    match s.world.cal.matchedPeaks.findIdx? (fun p => decide (pix > p)) with
    | none => (s, .error .indexError)
    | some i =>
      match s.atlasKind with
      | .absent => (s, .error .typeError)
      | _ =>
        if s.world.cal.matchedAtlas.length < i then (s, .error .indexError)
        else (s.setPairs (s.world.cal.matchedPeaks.insertIdx i (s.storedPix pix))
          (s.world.cal.matchedAtlas.insertIdx i wave), .ok ())

end

/-- `np.delete(arr, arg)` for one position, which may be negative (src/rascal/calibrator.py:2022-2023). -/
def npDelete {α : Type _} (l : List α) (arg : Int) : PyRes (List α) :=
  if arg < -(l.length : Int) ∨ (l.length : Int) ≤ arg then .error .indexError
  else .ok (l.eraseIdx (if arg < 0 then (arg + l.length).toNat else arg.toNat))

/-- `remove_pix_wave_pair` (src/rascal/calibrator.py:2009-2026).  Simplified for `matched_atlas` None
like `addPair`. -/
def Session.removePair (s : Session K) (arg : Int) : Session K × PyRes Unit :=
  match s.atlasKind with
  | .absent => (s, .error .typeError)
  | _ =>
    match npDelete s.world.cal.matchedPeaks arg with
    | .error e => (s, .error e)
    | .ok p =>
      match npDelete s.world.cal.matchedAtlas arg with
      | .error e => (s, .error e)
      | .ok w => (s.setPairs p w, .ok ())

/-- Arguments of `manual_refit` (src/rascal/calibrator.py:2028-2030): the lists with a flag saying
whether they are arrays, `degree` with a flag saying whether it is an `int`, `x0` with a flag saying
whether it is a `list`; `intPeaks` says whether the peaks given are integers. -/
structure RefitArgs (K : Type _) where
  peaks : Option (Bool × List K) := none
  atlas : Option (Bool × List K) := none
  degree : Option (Bool × Int) := none
  x0 : Option (Bool × List K) := none
  intPeaks : Bool := false

/-- The five values returned by `manual_refit` (src/rascal/calibrator.py:2118-2124); `none` if they
contain nan. -/
structure RefitReport (K : Type _) where
  coeffs : Option (List K)
  peaks : List K
  atlas : List K
  rms : K
  residuals : Option (List K)
  deriving DecidableEq

/-- The starting point and degree of `manual_refit` (src/rascal/calibrator.py:2081-2095): `none` for a
starting point containing nan. -/
def Session.refitStart (s : Session K) (a : RefitArgs K) : PyRes (Option (Option (List K)) × Int) :=
  match a.x0, a.degree with
  | none, none =>
    match s.world.cal.fitCoeff with
    | none => .error .typeError
    | some l => .ok (some (if s.coeffKind = .nan then none else some l), (l.length : Int) - 1)
  | some (isList, l), none =>
    if isList then .ok (some (some l), (l.length : Int) - 1) else .error .assertionError
  | none, some (isInt, d) => if isInt then .ok (none, d) else .error .assertionError
  | some (isList, l), some (isInt, d) =>
    if isList && isInt && decide ((l.length : Int) = d + 1) then .ok (some (some l), d)
    else .error .assertionError

section
variable [Field K] [LinearOrder K]

/-- The lists `manual_refit` works on, with their types (src/rascal/calibrator.py:2075-2079). -/
def Session.refitLists (s : Session K) (a : RefitArgs K) : (Bool × List K) × (AtlasKind × List K) :=
  (match a.peaks with
    | some p => p
    | none => (s.peaksArr, s.world.cal.matchedPeaks),
   match a.atlas with
    | some (arr, l) => (if arr then .array else .list, l)
    | none => (s.atlasKind, s.world.cal.matchedAtlas))

/-- The attributes set first after the refit (src/rascal/calibrator.py:2110-2112). -/
def Session.storeRefit (s : Session K) (a : RefitArgs K) (deg : Nat) (co : Option (List K)) : Session K :=
  let l := s.refitLists a
  { s with
    coeffKind := if co.isNone then .nan else .array,
    peaksArr := l.1.1, atlasKind := l.2.1,
    matchedInt := if a.peaks.isSome then a.intPeaks else s.matchedInt,
    world := { s.world with cal := { s.world.cal with
      fitCoeff := some (co.getD (List.replicate (deg + 1) 0)),
      matchedPeaks := l.1.2, matchedAtlas := l.2.2 } } }

/-- The residuals of `manual_refit` and the end (src/rascal/calibrator.py:2113-2124).  Before a fit
`polyval` does not exist.  `np.nansum` of nan residuals is 0. -/
def Session.finishRefit (F : FitEnv K) (s : Session K) (co : Option (List K)) (xs ys : List K) :
    Session K × PyRes (RefitReport K) :=
  match s.basis with
  | none => (s, .error .attributeError)
  | some b =>
    let res := co.map (fun c => List.zipWith (fun x y => y - (F.kern b).polyval c x) xs ys)
    let rms := rmsOf (F.kern b) (res.getD (xs.map (fun _ => 0)))
    ({ s with residuals := res, world := { s.world with cal := { s.world.cal with rms := some rms } } },
      .ok ⟨co, xs, ys, rms, res⟩)

/-- `manual_refit` (src/rascal/calibrator.py:2028-2124).  A start containing nan makes `least_squares`
raise ValueError. -/
def Session.manualRefit (F : FitEnv K) (M : MatchKernels K) (s : Session K) (a : RefitArgs K) :
    Session K × PyRes (RefitReport K) :=
  match s.refitStart a with
  | .error e => (s, .error e)
  | .ok (x0, deg) =>
    let l := s.refitLists a
    if l.2.1 = .absent then (s, .error .typeError)
    else if l.1.2.length = l.2.2.length ∧ 0 < l.1.2.length ∧ 0 < deg ∧ deg ≤ (l.1.2.length : Int) - 1 then
      match x0 with
      | some none => (s, .error .valueError)
      | none =>
        match M.robust l.1.2 l.2.2 deg.toNat none with
        | .error e => (s, .error e)
        | .ok co => Session.finishRefit F (s.storeRefit a deg.toNat co) co l.1.2 l.2.2
      | some (some p) =>
        match M.robust l.1.2 l.2.2 deg.toNat (some p) with
        | .error e => (s, .error e)
        | .ok co => Session.finishRefit F (s.storeRefit a deg.toNat co) co l.1.2 l.2.2
    else (s, .error .assertionError)

/-- `set_*`, atlas and Hough calls do not touch the attributes added here
(src/rascal/calibrator.py:822-1550). -/
def Session.step (E : CalEnv K) (s : Session K) (op : SetOp K) : Session K × PyRes Unit :=
  let r := s.world.step E op
  ({ s with world := r.1 }, r.2)

/-- The world without matches, used to see whether a fit accepts a trial
(src/rascal/calibrator.py:708-709). -/
def World.noMatches (w : World K) : World K :=
  { w with cal := { w.cal with matchedPeaks := [], matchedAtlas := [] } }

/-- `fit` (src/rascal/calibrator.py:1552-1715) with the attributes added here: the basis is set unless
`fit_type` is unknown, `fit_coeff` is the argument until the fit succeeds.  An accepted trial, which has
matches, makes both lists Python lists; in the linear mode the peaks come from the array of pairs, which
holds floats.  Simplified: if `matched_atlas` is None, `matched_peaks` is empty and no trial is accepted
the fit may raise TypeError instead of the error given here. -/
def Session.fit [FloorRing K] (F : FitEnv K) (s : Session K) (a : FitArgs K) (coeffIsArray : Bool)
    (rnd : FitRandom K) : Session K × CallRes (FitReport K) :=
  let r := s.world.fit F a rnd
  let accepted := decide (((s.world.noMatches).fit F a rnd).1.cal.matchedPeaks ≠ [])
  let returned := match r.2 with
    | .done (.ok _) => true
    | _ => false
  ({ s with
     world := r.1,
     basis := if a.fitType = .other then s.basis else some a.fitType,
     coeffKind := if returned || coeffIsArray then .array else .list,
     peaksArr := if accepted then false else s.peaksArr,
     atlasKind := if accepted then .list else s.atlasKind,
     matchedInt := if accepted then s.intPeaks && !s.world.cal.ransac.linear else s.matchedInt }, r.2)

end

/-- The calls a user can make on a calibrator, without plotting
(src/rascal/calibrator.py:822-2124). -/
inductive SessionCall (K : Type _)
  | set (op : SetOp K)
  | fit (a : FitArgs K) (coeffIsArray : Bool) (rnd : FitRandom K)
  | matchPeaks (a : MatchArgs K)
  | addPair (numpyPix : Bool) (pix wave : K)
  | removePair (arg : Int)
  | manualRefit (a : RefitArgs K)

/-- Effect of one call on the attributes (src/rascal/calibrator.py:822-2124); a fit that does not return
within its tape leaves what it has stored so far. -/
def Session.call [Field K] [LinearOrder K] [FloorRing K] (E : CalEnv K) (F : FitEnv K)
    (M : MatchKernels K) (s : Session K) : SessionCall K → Session K
  | .set op => (s.step E op).1
  | .fit a arr rnd => (s.fit F a arr rnd).1
  | .matchPeaks a => (s.matchPeaks F M a).1
  | .addPair n p w => (s.addPair n p w).1
  | .removePair i => (s.removePair i).1
  | .manualRefit a => (s.manualRefit F M a).1

/-- A history of calls (src/rascal/calibrator.py:822-2124). -/
def Session.calls [Field K] [LinearOrder K] [FloorRing K] (E : CalEnv K) (F : FitEnv K)
    (M : MatchKernels K) (s : Session K) (h : List (SessionCall K)) : Session K :=
  h.foldl (fun s c => s.call E F M c) s

end Rascal
