import Verif.Model.Match
import Verif.Model.HoughIO
import Verif.Model.RefinePeaks
import Mathlib.Logic.Function.Basic

/-!
Model of the effects of `plot_arc`, `plot_search_space` and `plot_fit` (src/rascal/plotting.py:255-1372,
src/rascal/calibrator.py:2126-2324): what they write to disk, show, return and modify, the points of the
residual panel, and the exceptions raised by rascal's own code.  Colours, labels, layout and what the
plotting libraries do with the data are not modelled; saving is taken to succeed.
-/

namespace Rascal

variable {K : Type _}

/-- What a spectrum is stored as (src/rascal/calibrator.py:29, 38). -/
inductive SpecKind
  | pyList | intArray | floatArray
  deriving DecidableEq, Repr

/-- A spectrum (src/rascal/calibrator.py:29, 38). -/
structure SpecArr (K : Type _) where
  kind : SpecKind
  vals : List (PyFloat K)
  deriving DecidableEq, Repr

/-- The spectra in memory, by address; the calibrator and the caller may hold the same one
(src/rascal/calibrator.py:38, 2254). -/
abbrev Heap (K : Type _) := Nat → SpecArr K

/-- The options common to the plotting functions (src/rascal/calibrator.py:2126-2136, 2186-2197,
2251-2264). -/
structure FigOpts where
  saveFig : Bool := false
  figType : List Char := "png".toList
  filename : Option (List Char) := none
  returnJson : Bool := false
  renderer : List Char := "default".toList
  display : Bool := true
  deriving DecidableEq, Repr

/-- A visible effect: a file written (src/rascal/plotting.py:247, 460, 658-663, 917, 1131-1136, 1262,
1357-1362) or a figure shown (249-250, 462-463, 660-665, 919-920, 1133-1138, 1264-1265, 1359-1364), with
the renderer if one is named. -/
inductive PlotEvent
  | file (name : List Char)
  | shown (renderer : Option (List Char))
  deriving DecidableEq, Repr

/-- What a plotting function returns: a matplotlib figure, a json string or None
(src/rascal/plotting.py:465, 672-673, 922, 1145-1146, 1267, 1371-1372). -/
inductive PlotOut
  | figure | json | none
  deriving DecidableEq, Repr

/-- The formats written as images by both libraries (src/rascal/plotting.py:246, 459, 662, 916, 1135,
1261, 1361). -/
def imageFormats : List (List Char) := ["jpg".toList, "png".toList, "svg".toList, "pdf".toList]

/-- The files of one figure (src/rascal/plotting.py:449-460 for matplotlib, 642-658 for plotly, which
also writes iframes; the other functions repeat this code).  `base` is the name used if none is given. -/
def savedFiles (plotly : Bool) (base : List Char) (o : FigOpts) : List (List Char) :=
  if o.saveFig then
    match pySplit o.figType "+".toList with
    | .error _ => []
    | .ok parts =>
      (parts.filter (fun t => (plotly && decide (t = "iframe".toList)) || decide (t ∈ imageFormats))).map
        (fun t => o.filename.getD base ++ ".".toList ++ t)
  else []

/-- The end of the matplotlib branches (src/rascal/plotting.py:449-465, 906-922, 1251-1267). -/
def finishMatplotlib (base : List Char) (o : FigOpts) : List PlotEvent × PlotOut :=
  ((savedFiles false base o).map PlotEvent.file ++ (if o.display then [.shown none] else []), .figure)

/-- The end of the plotly branches (src/rascal/plotting.py:649-673, 1122-1146, 1348-1372). -/
def finishPlotly (base : List Char) (o : FigOpts) : List PlotEvent × PlotOut :=
  ((savedFiles true base o).map PlotEvent.file ++
    (if o.display then [.shown (if o.renderer = "default".toList then none else some o.renderer)] else []),
    if o.returnJson then .json else .none)

/-- `v < 0` for a float (src/rascal/plotting.py:745). -/
def PyFloat.isNeg [Zero K] [LT K] [DecidableLT K] : PyFloat K → Bool
  | .fin v => decide (v < 0)
  | .negInf => true
  | .posInf => false
  | .nan => false

/-- What the assignment of `1e-100` stores (src/rascal/plotting.py:745): integer arrays cut it to 0. -/
def SpecKind.tiny [Field K] : SpecKind → K
  | .intArray => 0
  | _ => 1 / 10 ^ 100

/-- `spectrum[spectrum < 0] = 1e-100` (src/rascal/plotting.py:745). -/
def SpecArr.clip [Field K] [LinearOrder K] (a : SpecArr K) : SpecArr K :=
  { a with vals := a.vals.map (fun v => if v.isNeg then .fin a.kind.tiny else v) }

/-- The treatment of the spectrum in `plot_fit` (src/rascal/plotting.py:743-756): a list cannot be compared
with 0 (TypeError), `nanmax` of nothing raises ValueError. -/
def prepareSpectrum [Field K] [LinearOrder K] (h : Heap K) (ref : Option Nat) (log : Bool) :
    Heap K × PyRes Unit :=
  match ref with
  | none => (h, .ok ())
  | some i =>
    if log then
      if (h i).kind = .pyList then (h, .error .typeError)
      else (Function.update h i (h i).clip, if (h i).vals = [] then .error .valueError else .ok ())
    else (h, if (h i).vals = [] then .error .valueError else .ok ())

/-- `diff[np.argmin(np.abs(diff))]` with `diff = atlas lines - x` (src/rascal/plotting.py:801-802,
968-969). -/
def plotResidual [Field K] [LinearOrder K] (lines : List K) (x : K) : PyRes K :=
  match nearestLine x lines with
  | none => .error .valueError
  | some l => .ok (l - x)

/-- `spectrum[int(pix_to_rawpix(p))]` succeeds (src/rascal/plotting.py:773-775, 817, 978); nothing is read
without a spectrum. -/
def readable [Field K] [LinearOrder K] [FloorRing K] (pixelList : List K) (n : Option Nat) (p : K) : Bool :=
  match n with
  | none => true
  | some n => decide (-(n : Int) ≤ pyInt (rawPixel pixelList p)) && decide (pyInt (rawPixel pixelList p) < n)

/-- `spectrum[int(pix_to_rawpix(p))]` (src/rascal/plotting.py:773-775, 817, 827, 978): where the marker of a
peak starts.  Negative positions count from the end. -/
def markerHeight [Field K] [LinearOrder K] [FloorRing K] (pixelList : List K) (spec : List (PyFloat K))
    (p : K) : PyRes (PyFloat K) :=
  let i := pyInt (rawPixel pixelList p)
  match (if 0 ≤ i then spec[i.toNat]? else if 0 ≤ i + spec.length then spec[(i + spec.length).toNat]? else none) with
  | some v => .ok v
  | none => .error .indexError

/-- The loop over the matches (src/rascal/plotting.py:800-841): wavelength of the peak and residual shown.
`x` is the matched wavelength. -/
def matplotlibPoints [Field K] [LinearOrder K] (f : K → K) (lines : List K) (ok : K → Bool) :
    List (K × K) → PyRes (List (K × K))
  | [] => .ok []
  | (p, x) :: t =>
    match plotResidual lines x with
    | .error e => .error e
    | .ok d =>
      if ok p then
        match matplotlibPoints f lines ok t with
        | .error e => .error e
        | .ok r => .ok ((f p, d) :: r)
      else .error .indexError

/-- The loop over the peaks (src/rascal/plotting.py:951-985); with nan coefficients (`f` absent) no peak is
kept. -/
def plotlyPoints [Field K] [LinearOrder K] (f : Option (K → K)) (lines : List K) (tol : K) (ok : K → Bool) :
    List K → PyRes (List (K × K))
  | [] => .ok []
  | p :: t =>
    match f with
    | none => if lines = [] then .error .valueError else plotlyPoints f lines tol ok t
    | some g =>
      match plotResidual lines (g p) with
      | .error e => .error e
      | .ok d =>
        if |d| < tol then
          if ok p then
            match plotlyPoints f lines tol ok t with
            | .error e => .error e
            | .ok r => .ok ((g p, d) :: r)
          else .error .indexError
        else plotlyPoints f lines tol ok t

/-- Arguments of `plot_fit` (src/rascal/calibrator.py:2251-2264); the spectrum by address. -/
structure FitPlotArgs (K : Type _) where
  coeff : Option (List K) := none
  spectrum : Option Nat := none
  tolerance : K
  plotAtlas : Bool := true
  log : Bool := false
  opts : FigOpts := {}

/-- What `plot_fit` produces: the points of the residual panel (wavelength and residual), the rms line
(src/rascal/plotting.py:843, 858-875, 1001-1043), the effects and the value returned. -/
structure FitFigure (K : Type _) where
  points : List (K × K)
  rms : K
  events : List PlotEvent
  out : PlotOut
  deriving DecidableEq, Repr

/-- The figure from its points (src/rascal/plotting.py:843, 900-902, 1001, 1093-1120): `min` of no points
raises ValueError. -/
def figureOf [Field K] (k : Kernels K) (pts : List (K × K)) (fin : List PlotEvent × PlotOut) :
    PyRes (FitFigure K) :=
  if pts = [] then .error .valueError else .ok ⟨pts, rmsOf k (pts.map Prod.snd), fin.1, fin.2⟩

section
variable [Field K] [LinearOrder K] [FloorRing K]

/-- The matplotlib branch of `plot_fit` (src/rascal/plotting.py:760-922).  `n` is the length of the
spectrum.  Non-finite axis limits are rejected by matplotlib (ValueError). -/
def Session.drawMatplotlib (k : Kernels K) (s : Session K) (co : List K) (nan : Bool) (n : Option Nat)
    (a : FitPlotArgs K) : PyRes (FitFigure K) :=
  let c := s.world.cal
  if n.any (fun m => decide (m ≠ c.props.pixelList.length)) then .error .valueError
  else if !c.peaks.all (readable c.props.pixelList n) then .error .indexError
  else if s.atlasKind = .absent then
    match s.world.atlasLines with
    | .error e => if a.plotAtlas then .error e else .error .typeError
    | .ok _ => .error .typeError
  else
    let ms := c.matchedPeaks.zip c.matchedAtlas
    match s.world.atlasLines with
    | .error e => if a.plotAtlas || decide (ms ≠ []) then .error e else .error .valueError
    | .ok lines =>
      match matplotlibPoints (k.polyval co) lines (readable c.props.pixelList n) ms with
      | .error e => .error e
      | .ok pts => if nan then .error .valueError
        else figureOf k pts (finishMatplotlib "rascal_solution".toList a.opts)

/-- The plotly branch of `plot_fit` (src/rascal/plotting.py:924-1146). -/
def Session.drawPlotly (k : Kernels K) (s : Session K) (co : List K) (nan : Bool) (n : Option Nat)
    (a : FitPlotArgs K) : PyRes (FitFigure K) :=
  let c := s.world.cal
  match s.world.atlasLines with
  | .error e => if c.peaks = [] then .error .valueError else .error e
  | .ok lines =>
    match plotlyPoints (if nan then none else some (k.polyval co)) lines a.tolerance
        (readable c.props.pixelList n) c.peaks with
    | .error e => .error e
    | .ok pts => figureOf k pts (finishPlotly "rascal_solution".toList a.opts)

/-- The coefficients plotted (src/rascal/calibrator.py:2308-2309), with a flag for nan ones. -/
def Session.plotCoeff (s : Session K) (a : FitPlotArgs K) : PyRes (List K × Bool) :=
  match a.coeff with
  | some co => .ok (co, false)
  | none => match s.world.cal.fitCoeff with
    | none => .error .typeError
    | some co => .ok (co, decide (s.coeffKind = .nan))

/-- `plot_fit` after the spectrum (src/rascal/plotting.py:758-1154): `polyval` does not exist before a fit,
without coefficients it raises TypeError or IndexError.  Without a library the assertions fail, as
`matplotlib_imported` is never set. -/
def Session.drawFit (F : FitEnv K) (s : Session K) (n : Option Nat) (a : FitPlotArgs K) :
    PyRes (FitFigure K) :=
  match s.basis with
  | none => .error .attributeError
  | some b =>
    match s.plotCoeff a with
    | .error e => .error e
    | .ok (co, nan) =>
      if co = [] then .error .indexError
      else if s.world.cal.props.plotMatplotlib then s.drawMatplotlib (F.kern b) co nan n a
      else if s.world.cal.props.plotPlotly then s.drawPlotly (F.kern b) co nan n a
      else .error .assertionError

/-- `plot_fit` (src/rascal/plotting.py:676-1154, src/rascal/calibrator.py:2251-2324).  `own` is the address
of the calibrator's spectrum.  The calibrator is not changed, only the spectrum plotted can be. -/
def Session.plotFit (F : FitEnv K) (h : Heap K) (own : Option Nat) (s : Session K) (a : FitPlotArgs K) :
    Heap K × PyRes (FitFigure K) :=
  let ref := if a.spectrum.isSome then a.spectrum else own
  let r := prepareSpectrum h ref a.log
  match r.2 with
  | .error e => (r.1, .error e)
  | .ok _ => (r.1, s.drawFit F (ref.map (fun i => (h i).vals.length)) a)

/-- `spectrum / spectrum.max()` (src/rascal/plotting.py:1215-1231, 1279-1306): lists and None have no `max`,
`max` of nothing raises ValueError. -/
def normalisable : Option (SpecArr K) → PyRes Unit
  | none => .error .attributeError
  | some sp => if sp.kind = .pyList then .error .attributeError
    else if sp.vals = [] then .error .valueError else .ok ()

/-- `plot_arc` (src/rascal/plotting.py:1157-1372, src/rascal/calibrator.py:2126-2184).  `sp` is the
calibrator's spectrum, `pixelList` the argument; `len(None)` raises TypeError, matplotlib rejects lists of
different lengths, `max` of no peaks raises ValueError.  Without a library nothing happens. -/
def Session.plotArc (s : Session K) (sp : Option (SpecArr K)) (pixelList : Option (List K)) (o : FigOpts) :
    PyRes (List PlotEvent × PlotOut) :=
  if pixelList.isNone && sp.isNone then .error .typeError
  else if s.world.cal.props.plotMatplotlib then
    match sp with
    | none => if s.world.cal.peaks = [] then .error .valueError
        else .ok (finishMatplotlib "rascal_arc".toList o)
    | some spec =>
      match normalisable (some spec) with
      | .error e => .error e
      | .ok _ =>
        if pixelList.any (fun l => decide (l.length ≠ spec.vals.length)) then .error .valueError
        else .ok (finishMatplotlib "rascal_arc".toList o)
  else if s.world.cal.props.plotPlotly then
    match normalisable sp with
    | .error e => .error e
    | .ok _ => .ok (finishPlotly "rascal_arc".toList o)
  else .ok ([], .none)

/-- `plot_search_space` (src/rascal/plotting.py:255-673, src/rascal/calibrator.py:2186-2249).  `cands` is
the attribute `candidates`, which exists after a fit only; drawing the points and lines is taken to
succeed.  Without a library nothing happens. -/
def Session.plotSearchSpace (s : Session K) (cands : Option (List (Cand K))) (o : FigOpts) :
    PyRes (List PlotEvent × PlotOut) :=
  match cands with
  | none => .error .attributeError
  | some _ =>
    if s.world.cal.props.plotMatplotlib then
      .ok (finishMatplotlib "rascal_hough_search_space".toList o)
    else if s.world.cal.props.plotPlotly then .ok (finishPlotly "rascal_hough_search_space".toList o)
    else .ok ([], .none)

/-- `Calibrator(peaks, spectrum)` copies the spectrum given to a new address
(src/rascal/calibrator.py:38). -/
def Heap.copySpectrum (h : Heap K) (given : Option Nat) (fresh : Nat) : Heap K × Option Nat :=
  match given with
  | none => (h, none)
  | some i => (Function.update h fresh (h i), some fresh)

end

end Rascal
