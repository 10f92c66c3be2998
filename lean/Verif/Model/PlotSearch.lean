import Verif.Model.Plot
import Verif.Model.Fit

/-!
Model of what `plot_search_space` draws (src/rascal/plotting.py:255-673, src/rascal/calibrator.py:2186-2248):
the coordinates of the points and lines, and the attribute `candidates` it reads.  Colours, text labels, legend
and layout are not modelled.
-/

namespace Rascal

variable {K : Type _}

/-- The data of the figure (src/rascal/plotting.py:308-335 and, for matplotlib, 343-434; for plotly 473-640):
the three sets of points, the heights of the horizontal lines with their right end (they start at 0), the three
inclined lines, the solution, and the ranges of the axes.  The inclined lines are `none` if the last pixel is 0,
in which case numpy divides by zero and their coordinates are not finite. -/
structure SearchFig (K : Type _) where
  allPairs : List (K × K)
  candidatePairs : List (K × K)
  bestPairs : List (K × K)
  levels : List K
  right : K
  centre : Option (List (K × K))
  upper : Option (List (K × K))
  lower : Option (List (K × K))
  solution : Option (List (K × K))
  xlim : K × K
  ylim : K × K
  deriving DecidableEq, Repr

/-- The first two columns of a row, `[:, 0]` and `[:, 1]` (src/rascal/plotting.py:348-349, 487-488). -/
def rowPoint [Zero K] (r : List K) : K × K := (r.getD 0 0, r.getD 1 0)

section
variable [Field K] [LinearOrder K]

/-- The points of the inclined line with slope `rise / last` through `(0, start)`, one per pixel
(src/rascal/plotting.py:318-335). -/
def inclined (pixelList : List K) (last rise start : K) : Option (List (K × K)) :=
  if last = 0 then none else some (pixelList.map (fun x => (x, rise / last * x + start)))

/-- The drawing in `plot_search_space` (src/rascal/plotting.py:308-434, 471-640).  `cands` is the attribute
`candidates` (AttributeError without one), `polyval` the attribute of that name, which does not exist before a
fit (AttributeError).  `max` of an empty pixel list raises ValueError.  A search space without
columns cannot be indexed (plotly, IndexError) and gives `scatter` no arguments (matplotlib, TypeError); without
candidate rows `[:, 0]` raises IndexError. -/
def Cal.searchFig (argsort : List K → List Nat) (plotly : Bool) (polyval : Option (List K → K → K)) (c : Cal K)
    (cands : Option (List (Cand K))) (fitCoeff : Option (List K)) (topN : Int) (weighted : Bool) :
    PyRes (SearchFig K) :=
  match cands with
  | none => .error .attributeError
  | some cs =>
    let best := mostCommon argsort cs topN weighted
    match c.props.pixelList with
    | [] => .error .valueError
    | a :: l =>
      let last := listMax a l
      let hs := c.hough
      match c.pairs with
      | none => .error .attributeError
      | some .noColumns => .error (if plotly then .indexError else .typeError)
      | some (.array pairs) =>
        let merged := mergeCandidates cs
        if merged = [] then .error .indexError
        else if fitCoeff.isSome && polyval.isNone then .error .attributeError
        else
          let margin := if plotly then hs.rangeTol * (11 / 10) else hs.rangeTol
          .ok
            { allPairs := pairs
              candidatePairs := merged.map rowPoint
              bestPairs := best.1.zip best.2
              levels := [hs.minW, hs.minW + hs.rangeTol, hs.minW - hs.rangeTol,
                hs.maxW, hs.maxW + hs.rangeTol, hs.maxW - hs.rangeTol]
              right := last
              centre := inclined (a :: l) last (hs.maxW - hs.minW) hs.minW
              upper := inclined (a :: l) last (hs.maxW + hs.rangeTol - (hs.minW + hs.rangeTol))
                (hs.minW + hs.rangeTol)
              lower := inclined (a :: l) last (hs.maxW - hs.rangeTol - (hs.minW - hs.rangeTol))
                (hs.minW - hs.rangeTol)
              solution := fitCoeff.bind (fun co => polyval.map (fun f => c.peaks.map (fun p => (p, f co p))))
              xlim := (0, last)
              ylim := (hs.minW - margin, hs.maxW + margin) }

/-- The arguments of `plot_search_space` (src/rascal/calibrator.py:2186-2197). -/
structure SearchPlotArgs (K : Type _) where
  fitCoeff : Option (List K) := none
  topN : Int := 3
  weighted : Bool := true
  opts : FigOpts := {}

/-- `plot_search_space` with the figure drawn (src/rascal/plotting.py:255-673,
src/rascal/calibrator.py:2186-2249); nothing is drawn without a library, but `candidates` and `pixel_list` are
read before. -/
def Session.drawSearchSpace (F : FitEnv K) (s : Session K) (cands : Option (List (Cand K)))
    (a : SearchPlotArgs K) : PyRes (List PlotEvent × PlotOut × Option (SearchFig K)) :=
  let c := s.world.cal
  let polyval := s.basis.map (fun t => (F.kern t).polyval)
  if c.props.plotMatplotlib then
    match c.searchFig F.argsortK false polyval cands a.fitCoeff a.topN a.weighted with
    | .error e => .error e
    | .ok fig =>
      let r := finishMatplotlib "rascal_hough_search_space".toList a.opts
      .ok (r.1, r.2, some fig)
  else if c.props.plotPlotly then
    match c.searchFig F.argsortK true polyval cands a.fitCoeff a.topN a.weighted with
    | .error e => .error e
    | .ok fig =>
      let r := finishPlotly "rascal_hough_search_space".toList a.opts
      .ok (r.1, r.2, some fig)
  else if cands.isNone then .error .attributeError
  else if c.props.pixelList = [] then .error .valueError
  else .ok ([], .none, none)

/-- The attribute `candidates` left by a fit that gets past line 430 (src/rascal/calibrator.py:239, 259-261, 291,
313-315); `none` if the fit raises before. -/
def World.fitCandidates (F : FitEnv K) (w : World K) (a : FitArgs K) (uniform : Nat → K) :
    Option (List (Cand K)) :=
  if a.fitType = .other then none
  else
    match w.atlasLines with
    | .error _ => none
    | .ok lines =>
      let c := { w.cal with
        fitCoeff := a.fitCoeff
        ransac := { w.cal.ransac with
          sampleSize := adjustSampleSize w.cal.ransac.sampleSize lines.length a.fitDeg } }
      let h := c.ensureHough F
      match h.2 with
      | .error _ => none
      | .ok _ => (h.1.candidates F (F.kern a.fitType) lines a.candTol uniform).toOption

end

end Rascal
