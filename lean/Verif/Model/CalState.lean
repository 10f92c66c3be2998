import Verif.Model.Atlas
import Verif.Model.HoughIO
import Verif.Model.Candidates
import Verif.Model.RefinePeaks
import Mathlib.Algebra.Order.Floor.Ring
import Mathlib.Algebra.Order.Floor.Semiring

/-!
Model of the settings of `Calibrator` (src/rascal/calibrator.py:20-133, 822-1550): properties, atlas
handling, search space, Hough transform and known pairs.  The atlas is an object shared by
reference, so atlases live in a store and the calibrator holds an index into it.
-/

namespace Rascal

variable {K : Type _}

/-- The assignment pattern `if arg is not None ... elif self.attr is None ... else pass`
(src/rascal/calibrator.py:1018-1086, 1179-1283). -/
def keepOr {α : Type _} (cur arg : Option α) (default : α) : α :=
  match arg with
  | some v => v
  | none => match cur with
    | some c => c
    | none => default

/-- The value of `plotting_library` (src/rascal/calibrator.py:955-982). -/
inductive PlotLib
  | matplotlib
  | plotly
  | other
  deriving DecidableEq, Repr

/-- Attributes set by `set_calibrator_properties` (src/rascal/calibrator.py:859-982). -/
structure CalProps (K : Type _) where
  numPix : K
  pixelList : List K
  plottingLibrary : PlotLib
  plotMatplotlib : Bool
  plotPlotly : Bool
  deriving DecidableEq, Repr

/-- `use_matplotlib` (src/rascal/calibrator.py:841-848). -/
def CalProps.useMatplotlib (c : CalProps K) : CalProps K :=
  { c with plotMatplotlib := true, plotPlotly := false }

/-- `use_plotly` (src/rascal/calibrator.py:850-857). -/
def CalProps.usePlotly (c : CalProps K) : CalProps K :=
  { c with plotPlotly := true, plotMatplotlib := false }

/-- `which_plotting_library` (src/rascal/calibrator.py:822-839); `none` is Python's `None`. -/
def CalProps.whichLibrary (c : CalProps K) : Option PlotLib :=
  if c.plotMatplotlib then some .matplotlib
  else if c.plotPlotly then some .plotly
  else none

/-- The choice at the end of `set_calibrator_properties` (src/rascal/calibrator.py:969-982). -/
def CalProps.applyLibrary (c : CalProps K) : CalProps K :=
  match c.plottingLibrary with
  | .matplotlib => c.useMatplotlib
  | .plotly => c.usePlotly
  | .other => c

/-- `np.arange(stop)` (src/rascal/calibrator.py:937). -/
def arangeTo [Field K] [LinearOrder K] [FloorRing K] (stop : K) : List K :=
  (List.range ⌈stop⌉.toNat).map (fun i : Nat => (i : K))

/-- `set_calibrator_properties` on an existing object (src/rascal/calibrator.py:859-982).  `interp`
says whether `interp1d` accepts the pixel list; it raises after the assignments of `num_pix` and
`pixel_list`.  The seed is in Model/Seed.lean, the logger in Model/Logging.lean. -/
def CalProps.set (interp : List K → PyRes Unit) (c : CalProps K) (numPix : Option K)
    (pixelList : Option (List K)) (lib : Option PlotLib) : CalProps K × PyRes Unit :=
  let c1 := { c with
    numPix := keepOr (some c.numPix) numPix c.numPix
    pixelList := keepOr (some c.pixelList) pixelList c.pixelList }
  match interp c1.pixelList with
  | .error e => (c1, .error e)
  | .ok _ =>
    let c2 := { c1 with plottingLibrary := keepOr (some c.plottingLibrary) lib .matplotlib }
    (c2.applyLibrary, .ok ())

/-- The default `num_pix` (src/rascal/calibrator.py:911-928): the length of the spectrum, or 1.1 times
the largest peak (`max([])` raises ValueError). -/
def defaultNumPix [Field K] [LinearOrder K] (peaks : List K) (spectrum : Option (List K)) : PyRes K :=
  match spectrum with
  | some s => .ok (s.length : K)
  | none => match peaks with
    | [] => .error .valueError
    | a :: l => .ok (11 / 10 * listMax a l)

/-- `set_calibrator_properties()` as called by the constructor (src/rascal/calibrator.py:82). -/
def CalProps.init [Field K] [LinearOrder K] [FloorRing K] (interp : List K → PyRes Unit)
    (peaks : List K) (spectrum : Option (List K)) : PyRes (CalProps K) :=
  match defaultNumPix peaks spectrum with
  | .error e => .error e
  | .ok n =>
    match interp (arangeTo n) with
    | .error e => .error e
    | .ok _ => .ok (CalProps.applyLibrary ⟨n, arangeTo n, .matplotlib, false, false⟩)

/-- Attributes set by `set_hough_properties` (src/rascal/calibrator.py:984-1119). -/
structure HoughSet (K : Type _) where
  numSlopes : Int
  xbins : Int
  ybins : Int
  minW : K
  maxW : K
  rangeTol : K
  linTol : K
  minIntercept : K
  maxIntercept : K
  minSlope : PyFloat K
  maxSlope : PyFloat K
  deriving DecidableEq, Repr

/-- Arguments of `set_hough_properties` (src/rascal/calibrator.py:984-993). -/
structure HoughArgs (K : Type _) where
  numSlopes : Option Int := none
  xbins : Option Int := none
  ybins : Option Int := none
  minW : Option K := none
  maxW : Option K := none
  rangeTol : Option K := none
  linTol : Option K := none

/-- `np.ptp` (src/rascal/calibrator.py:1103, 1116); ValueError when empty. -/
def ptp [Field K] [LinearOrder K] : List K → PyRes K
  | [] => .error .valueError
  | a :: l => .ok (listMax a l - listMin a l)

/-- The intercept bounds (src/rascal/calibrator.py:1088-1090). -/
def HoughSet.setIntercepts [Field K] (h : HoughSet K) : HoughSet K :=
  { h with minIntercept := h.minW - h.rangeTol, maxIntercept := h.minW + h.rangeTol }

/-- The slope bounds for a pixel range `r` (src/rascal/calibrator.py:1092-1116). -/
def HoughSet.setSlopes [Field K] [LinearOrder K] (h : HoughSet K) (r : K) : HoughSet K :=
  { h with
    minSlope := PyFloat.div
      (.fin ((h.maxW - h.rangeTol - h.linTol) - (h.minIntercept + h.rangeTol + h.linTol))) (.fin r)
    maxSlope := PyFloat.div
      (.fin ((h.maxW + h.rangeTol + h.linTol) - (h.minIntercept - h.rangeTol - h.linTol))) (.fin r) }

/-- `set_hough_properties` without the final `_generate_pairs` (src/rascal/calibrator.py:1018-1116).
`cur` is `none` in the constructor. -/
def HoughSet.apply [Field K] [LinearOrder K] (cur : Option (HoughSet K)) (a : HoughArgs K)
    (pixelList : List K) : HoughSet K × PyRes Unit :=
  let h0 : HoughSet K :=
    { numSlopes := keepOr (cur.map HoughSet.numSlopes) a.numSlopes 2000
      xbins := keepOr (cur.map HoughSet.xbins) a.xbins 100
      ybins := keepOr (cur.map HoughSet.ybins) a.ybins 100
      minW := keepOr (cur.map HoughSet.minW) a.minW 3000
      maxW := keepOr (cur.map HoughSet.maxW) a.maxW 9000
      rangeTol := keepOr (cur.map HoughSet.rangeTol) a.rangeTol 500
      linTol := keepOr (cur.map HoughSet.linTol) a.linTol 100
      minIntercept := keepOr (cur.map HoughSet.minIntercept) none 0
      maxIntercept := keepOr (cur.map HoughSet.maxIntercept) none 0
      minSlope := keepOr (cur.map HoughSet.minSlope) none .nan
      maxSlope := keepOr (cur.map HoughSet.maxSlope) none .nan }
  let h1 := h0.setIntercepts
  match ptp pixelList with
  | .error e => (h1, .error e)
  | .ok r => (h1.setSlopes r, .ok ())

/-- Attributes set by `set_ransac_properties` (src/rascal/calibrator.py:1121-1283). -/
structure RansacSet (K : Type _) where
  sampleSize : Int
  topN : Int
  linear : Bool
  filterClose : Bool
  tol : K
  weighted : Bool
  houghWeight : PyFloat K
  minMatches : Int
  minUtil : K
  minFitError : K
  deriving DecidableEq, Repr

/-- Arguments of `set_ransac_properties` (src/rascal/calibrator.py:1121-1133). -/
structure RansacArgs (K : Type _) where
  sampleSize : Option Int := none
  topN : Option Int := none
  linear : Option Bool := none
  filterClose : Option Bool := none
  tol : Option K := none
  weighted : Option Bool := none
  houghWeight : Option (PyFloat K) := none
  minMatches : Option Int := none
  minUtil : Option K := none
  minFitError : Option K := none

/-- The values after the constructor's `set_ransac_properties()` (src/rascal/calibrator.py:84,
1179-1283). -/
def RansacSet.init [Field K] : RansacSet K :=
  ⟨5, 5, true, false, 5, true, .fin 1, 0, 0, 1 / 10000⟩

/-- `assert minimum_matches > 0`, for a value that is given (src/rascal/calibrator.py:1250-1251). -/
def RansacArgs.matchesOk (a : RansacArgs K) : Bool :=
  match a.minMatches with
  | some m => decide (m > 0)
  | none => true

/-- The assertion on `minimum_peak_utilisation` (src/rascal/calibrator.py:1261-1265). -/
def RansacArgs.utilOk [Field K] [LinearOrder K] (a : RansacArgs K) : Bool :=
  match a.minUtil with
  | some u => decide (u ≥ 0) && decide (u ≤ 1)
  | none => true

/-- `assert minimum_fit_error >= 0`, for a value that is given (src/rascal/calibrator.py:1275-1276). -/
def RansacArgs.errorOk [Field K] [LinearOrder K] (a : RansacArgs K) : Bool :=
  match a.minFitError with
  | some e => decide (e ≥ 0)
  | none => true

/-- `set_ransac_properties` on an existing object (src/rascal/calibrator.py:1121-1283).  The three
assertions are checked where they stand, so a failing call has already made the earlier
assignments. -/
def RansacSet.set [Field K] [LinearOrder K] (s : RansacSet K) (a : RansacArgs K) :
    RansacSet K × PyRes Unit :=
  let s1 := { s with
    sampleSize := keepOr (some s.sampleSize) a.sampleSize 5
    topN := keepOr (some s.topN) a.topN 5
    linear := keepOr (some s.linear) a.linear true
    filterClose := keepOr (some s.filterClose) a.filterClose false
    tol := keepOr (some s.tol) a.tol 5
    weighted := keepOr (some s.weighted) a.weighted true
    houghWeight := keepOr (some s.houghWeight) a.houghWeight (.fin 1) }
  if a.matchesOk then
    let s2 := { s1 with minMatches := keepOr (some s.minMatches) a.minMatches 0 }
    if a.utilOk then
      let s3 := { s2 with minUtil := keepOr (some s.minUtil) a.minUtil 0 }
      if a.errorOk then
        ({ s3 with minFitError := keepOr (some s.minFitError) a.minFitError (1 / 10000) }, .ok ())
      else (s3, .error .assertionError)
    else (s2, .error .assertionError)
  else (s1, .error .assertionError)

/-- `self.pairs` (src/rascal/calibrator.py:130-133): an array; without any pair it has no columns
unless it was cut from a non-empty array by the polygon. -/
inductive PairStore (K : Type _)
  | noColumns
  | array (l : List (K × K))
  deriving DecidableEq, Repr

/-- The attributes of a `Calibrator` (src/rascal/calibrator.py:34-80).  `pairs` and `candTol` do not
exist before an atlas is set. -/
structure Cal (K : Type _) where
  peaks : List K
  peaksAreArray : Bool
  props : CalProps K
  hough : HoughSet K
  ransac : RansacSet K
  atlas : Option Nat
  candTol : Option K
  constrainPoly : Bool
  pairs : Option (PairStore K)
  ht : Hough K
  houghLines : Option (List (K × K))
  houghPoints : Option (PointStore K)
  known : Option (List (PyFloat K) × List (PyFloat K))
  matchedPeaks : List K
  matchedAtlas : List K
  fitCoeff : Option (List K)
  rms : Option K
  residual : Option (List K)
  peakUtil : Option K
  atlasUtil : Option (PyFloat K)
  deriving DecidableEq

/-- A calibrator together with the atlas objects it may share (src/rascal/calibrator.py:1416). -/
structure World (K : Type _) where
  atlases : List (Atlas K)
  cal : Cal K
  deriving DecidableEq

/-- `Calibrator.__init__` (src/rascal/calibrator.py:21-84). -/
def Cal.new [Field K] [LinearOrder K] [FloorRing K] (interp : List K → PyRes Unit) (peaks : List K)
    (peaksAreArray : Bool) (spectrum : Option (List K)) : PyRes (Cal K) :=
  match CalProps.init interp peaks spectrum with
  | .error e => .error e
  | .ok c =>
    match HoughSet.apply none {} c.pixelList with
    | (_, .error e) => .error e
    | (h, .ok _) => .ok
        { peaks := peaks, peaksAreArray := peaksAreArray, props := c, hough := h,
          ransac := RansacSet.init, atlas := none, candTol := none, constrainPoly := false,
          pairs := none, ht := Hough.init, houghLines := none, houghPoints := none, known := none,
          matchedPeaks := [], matchedAtlas := [], fitCoeff := none, rms := none, residual := none,
          peakUtil := none, atlasUtil := none }

/-- The polygon of `_generate_pairs` (src/rascal/calibrator.py:110-127) from the settings. -/
def Cal.polygon [Field K] [LinearOrder K] (c : Cal K) (candTol lastPix : K) : Polygon K :=
  { lastPix := lastPix
    hi0 := c.hough.maxIntercept + candTol
    lo0 := c.hough.minIntercept - candTol
    loP := c.hough.maxW - c.hough.rangeTol - candTol
    hiP := c.hough.maxW + c.hough.rangeTol + candTol }

/-- `_generate_pairs` (src/rascal/calibrator.py:86-133) given the atlas lines. -/
def Cal.generatePairs [Field K] [LinearOrder K] (c : Cal K) (lines : List K) : Cal K × PyRes Unit :=
  if c.constrainPoly then
    match c.candTol, c.props.pixelList with
    | some t, a :: l =>
      match Rascal.generatePairs c.peaks lines (some (c.polygon t (listMax a l))) with
      | .error e => (c, .error e)
      | .ok r => ({ c with pairs := some (.array r) }, .ok ())
    | none, _ => (c, .error .attributeError)
    | _, [] => (c, .error .valueError)
  else
    let r := allPairs c.peaks lines
    ({ c with pairs := some (if r = [] then .noColumns else .array r) }, .ok ())

/-- The lines of the calibrator's atlas; `None` has no `get_lines` (src/rascal/calibrator.py:105). -/
def World.atlasLines (w : World K) : PyRes (List K) :=
  match w.cal.atlas with
  | none => .error .attributeError
  | some i => match w.atlases[i]? with
    | none => .error .attributeError
    | some a => .ok a.getLines

section
variable [Field K] [LinearOrder K]

/-- `self._generate_pairs()` on the world (src/rascal/calibrator.py:1119, 1341, 1397, 1423). -/
def World.generatePairs (w : World K) : World K × PyRes Unit :=
  match w.atlasLines with
  | .error e => (w, .error e)
  | .ok lines =>
    let r := w.cal.generatePairs lines
    ({ w with cal := r.1 }, r.2)

/-- `set_calibrator_properties` (src/rascal/calibrator.py:859-982). -/
def World.setCalibrator (interp : List K → PyRes Unit) (w : World K) (numPix : Option K)
    (pixelList : Option (List K)) (lib : Option PlotLib) : World K × PyRes Unit :=
  let r := w.cal.props.set interp numPix pixelList lib
  ({ w with cal := { w.cal with props := r.1 } }, r.2)

/-- `set_hough_properties` (src/rascal/calibrator.py:984-1119): the pairs are rebuilt if there is an
atlas. -/
def World.setHough (w : World K) (a : HoughArgs K) : World K × PyRes Unit :=
  let r := HoughSet.apply (some w.cal.hough) a w.cal.props.pixelList
  let w1 := { w with cal := { w.cal with hough := r.1 } }
  match r.2 with
  | .error e => (w1, .error e)
  | .ok _ =>
    match w.cal.atlas with
    | none => (w1, .ok ())
    | some _ => w1.generatePairs

/-- `set_ransac_properties` (src/rascal/calibrator.py:1121-1283). -/
def World.setRansac (w : World K) (a : RansacArgs K) : World K × PyRes Unit :=
  let r := w.cal.ransac.set a
  ({ w with cal := { w.cal with ransac := r.1 } }, r.2)

/-- `set_atlas` (src/rascal/calibrator.py:1399-1423): keeps a reference to the atlas object. -/
def World.setAtlas (w : World K) (i : Nat) (candTol : K) (constrain : Bool) : World K × PyRes Unit :=
  World.generatePairs
    { w with cal := { w.cal with atlas := some i, candTol := some candTol, constrainPoly := constrain } }

/-- Changing one atlas object (src/rascal/atlas.py:96-353), through the calibrator or directly. -/
def World.modifyAtlas (w : World K) (i : Nat) (f : Atlas K → Atlas K) : World K :=
  { w with atlases := w.atlases.modify i f }

/-- The arguments `add_atlas` hands on (src/rascal/calibrator.py:1304-1336): the limits are given, or
the wavelength limits moved by the range tolerance; `linelist` and `brightest_n_lines` are not
arguments of `add_atlas` and have their defaults (src/rascal/atlas.py:27, 107-108). -/
def HoughSet.fillLimits (h : HoughSet K) (a : AddArgs K) : AddArgs K :=
  { a with
    linelist := .nist
    brightest := some 1000
    minW := some (a.minW.getD (.fin (h.minW - h.rangeTol)))
    maxW := some (a.maxW.getD (.fin (h.maxW + h.rangeTol))) }

/-- `add_atlas` (src/rascal/calibrator.py:1285-1341): adds to the calibrator's atlas, or creates one
first. -/
def World.addAtlas (env : Env K) (w : World K) (a : AddArgs K) (candTol : K) (constrain : Bool) :
    World K × PyRes Unit :=
  match w.cal.atlas with
  | none =>
    match Atlas.new env (w.cal.hough.fillLimits a) w.cal.hough.rangeTol with
    | .error e => (w, .error e)
    | .ok at_ =>
      World.setAtlas { w with atlases := w.atlases ++ [at_] } w.atlases.length candTol constrain
  | some i =>
    match w.atlases[i]? with
    | none => (w, .error .attributeError)
    | some at_ =>
      let r := Atlas.add env at_ (w.cal.hough.fillLimits a)
      let w1 := w.modifyAtlas i (fun _ => r.1)
      match r.2 with
      | .error e => (w1, .error e)
      | .ok _ => w1.setAtlas i candTol constrain

/-- `if self.atlas is None: self.atlas = Atlas()` (src/rascal/calibrator.py:1381-1382). -/
def World.ensureAtlas (empty : Atlas K) (w : World K) : World K :=
  match w.cal.atlas with
  | none => { atlases := w.atlases ++ [empty], cal := { w.cal with atlas := some w.atlases.length } }
  | some _ => w

/-- `add_user_atlas` (src/rascal/calibrator.py:1364-1397); `add` is the `Atlas.add_user_atlas` call.
The new atlas is stored before the call, so it stays if the call fails. -/
def World.addUserAtlas (empty : Atlas K) (add : Atlas K → Atlas K × PyRes Unit) (w : World K)
    (candTol : K) (constrain : Bool) : World K × PyRes Unit :=
  let w0 := w.ensureAtlas empty
  match w0.cal.atlas with
  | none => (w0, .error .attributeError)
  | some i =>
    match w0.atlases[i]? with
    | none => (w0, .error .attributeError)
    | some a =>
      let r := add a
      let w1 := w0.modifyAtlas i (fun _ => r.1)
      match r.2 with
      | .error e => (w1, .error e)
      | .ok _ => w1.setAtlas i candTol constrain

/-- `remove_atlas_lines_range` (src/rascal/calibrator.py:1343-1348). -/
def World.removeRange (w : World K) (wl tol : K) : World K × PyRes Unit :=
  match w.cal.atlas with
  | none => (w, .error .attributeError)
  | some i => (w.modifyAtlas i (fun a => a.removeRange wl tol), .ok ())

/-- `clear_atlas` (src/rascal/calibrator.py:1357-1362). -/
def World.clearAtlas (w : World K) : World K × PyRes Unit :=
  match w.cal.atlas with
  | none => (w, .error .attributeError)
  | some i => (w.modifyAtlas i Atlas.clear, .ok ())

/-- `do_hough_transform` (src/rascal/calibrator.py:1425-1452).  Comparing an array with `[]` never
gives a true value, so the pairs are not regenerated; without columns `pairs[:, 0]` raises IndexError;
without an atlas the attribute is missing.  `num_slopes` and the bin numbers below zero are treated
like zero (ValueError). -/
def Cal.doHough (argsortK : List K → List Nat) (argsortN : List Nat → List Nat) (c : Cal K)
    (brute : Bool) : Cal K × PyRes Unit :=
  match c.pairs with
  | none => (c, .error .attributeError)
  | some store =>
    let r1 := c.ht.setConstraints c.hough.minSlope c.hough.maxSlope (.fin c.hough.minIntercept)
      (.fin c.hough.maxIntercept)
    let c1 := { c with ht := r1.1 }
    match r1.2 with
    | .error e => (c1, .error e)
    | .ok _ =>
      match store with
      | .noColumns => (c1, .error .indexError)
      | .array xy =>
        let r2 := if brute then c1.ht.generateBrute argsortK xy
          else c1.ht.generate xy c.hough.numSlopes.toNat
        let c2 := { c1 with ht := r2.1 }
        match r2.2 with
        | .error e => (c2, .error e)
        | .ok _ =>
          let r3 := c2.ht.bin argsortN c.hough.xbins.toNat c.hough.ybins.toNat
          let c3 := { c2 with ht := r3.1 }
          match r3.2 with
          | .error e => (c3, .error e)
          | .ok _ => ({ c3 with houghPoints := c3.ht.points, houghLines := c3.ht.lines }, .ok ())

/-- `save_hough_transform` (src/rascal/calibrator.py:1454-1488): the value of `save` is dropped. -/
def Cal.saveHough (c : Cal K) (disk : Disk K) (filename fileformat delim : List Char) (toDisk : Bool) :
    Disk K × PyRes (SaveResult K) :=
  match c.ht.save disk filename fileformat delim toDisk with
  | (d, .ok _) => (d, .ok .none)
  | (d, .error e) => (d, .error e)

/-- `load_hough_transform` (src/rascal/calibrator.py:1490-1505): only the transform object changes. -/
def Cal.loadHough (c : Cal K) (disk : Disk K) (filename filetype : List Char) : Cal K × PyRes Unit :=
  let r := c.ht.load disk filename filetype
  ({ c with ht := r.1 }, r.2)

/-- `set_known_pairs` (src/rascal/calibrator.py:1507-1550); both arguments as flat float arrays. -/
def Cal.setKnown (c : Cal K) (pix wave : List (PyFloat K)) : Cal K × PyRes Unit :=
  if pix.length = wave.length then
    if pix.all (fun p => decide (p ≠ .nan)) then
      if wave.all (fun v => decide (v ≠ .nan)) then ({ c with known := some (pix, wave) }, .ok ())
      else (c, .error .valueError)
    else (c, .error .valueError)
  else (c, .error .assertionError)

end

/-- `np.searchsorted(x, v)` (inside `interp1d`, src/rascal/calibrator.py:945-949): number of entries
below `v`. -/
def searchLeft [LinearOrder K] (x : List K) (v : K) : Nat :=
  (x.filter (fun e => decide (e < v))).length

/-- `pix_to_rawpix` (src/rascal/calibrator.py:945-949): `interp1d(pixel_list, arange(len))` with
extrapolation, for an increasing pixel list: the segment is the one found by `searchsorted`,
clipped to the first and last segment. -/
def rawPixel [Field K] [LinearOrder K] (pixelList : List K) (v : K) : K :=
  let hi := min (max (searchLeft pixelList v) 1) (pixelList.length - 1)
  let lo := hi - 1
  let xlo := pixelList.getD lo 0
  let xhi := pixelList.getD hi 0
  ((hi : K) - (lo : K)) / (xhi - xlo) * (v - xlo) + (lo : K)

/-- The calls a user can make on a calibrator before and between fits
(src/rascal/calibrator.py:822-1550), and changes of an atlas object from outside. -/
inductive SetOp (K : Type _)
  | setCalibrator (numPix : Option K) (pixelList : Option (List K)) (lib : Option PlotLib)
  | useMatplotlib
  | usePlotly
  | setHough (a : HoughArgs K)
  | setRansac (a : RansacArgs K)
  | setAtlas (i : Nat) (candTol : K) (constrain : Bool)
  | addAtlas (a : AddArgs K) (candTol : K) (constrain : Bool)
  | addUserAtlas (add : Atlas K → Atlas K × PyRes Unit) (candTol : K) (constrain : Bool)
  | removeRange (wl tol : K)
  | clearAtlas
  | editAtlas (i : Nat) (f : Atlas K → Atlas K)
  | doHough (brute : Bool)
  | loadHough (disk : Disk K) (filename filetype : List Char)
  | setKnown (pix wave : List (PyFloat K))

/-- What the calls depend on besides the state: the outcome of `interp1d`, the sorting routines, the
line lists and the default `Atlas()` (src/rascal/calibrator.py:945, 1382; src/rascal/atlas.py:15). -/
structure CalEnv (K : Type _) where
  interp : List K → PyRes Unit
  argsortK : List K → List Nat
  argsortN : List Nat → List Nat
  env : Env K
  emptyAtlas : Atlas K

/-- Effect of one call (src/rascal/calibrator.py:822-1550). -/
def World.step [Field K] [LinearOrder K] (E : CalEnv K) (w : World K) : SetOp K → World K × PyRes Unit
  | .setCalibrator n p l => w.setCalibrator E.interp n p l
  | .useMatplotlib => ({ w with cal := { w.cal with props := w.cal.props.useMatplotlib } }, .ok ())
  | .usePlotly => ({ w with cal := { w.cal with props := w.cal.props.usePlotly } }, .ok ())
  | .setHough a => w.setHough a
  | .setRansac a => w.setRansac a
  | .setAtlas i t b => w.setAtlas i t b
  | .addAtlas a t b => w.addAtlas E.env a t b
  | .addUserAtlas f t b => w.addUserAtlas E.emptyAtlas f t b
  | .removeRange v t => w.removeRange v t
  | .clearAtlas => w.clearAtlas
  | .editAtlas i f => (w.modifyAtlas i f, .ok ())
  | .doHough b =>
    let r := w.cal.doHough E.argsortK E.argsortN b
    ({ w with cal := r.1 }, r.2)
  | .loadHough d f t =>
    let r := w.cal.loadHough d f t
    ({ w with cal := r.1 }, r.2)
  | .setKnown p v =>
    let r := w.cal.setKnown p v
    ({ w with cal := r.1 }, r.2)

/-- A history of calls; exceptions are caught by the caller and the history goes on
(src/rascal/calibrator.py:822-1550). -/
def World.steps [Field K] [LinearOrder K] (E : CalEnv K) (w : World K) (ops : List (SetOp K)) : World K :=
  ops.foldl (fun w op => (w.step E op).1) w

end Rascal
