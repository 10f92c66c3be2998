import Verif.Model.Plot
import Verif.Model.Candidates

/-!
Model of `plot_calibration_lines` (src/rascal/plotting.py:63-252): the simulated arc spectrum, the markers
of the lines, the files written and the exceptions raised by rascal's own code.  Drawing is taken to
succeed.  The wavelength grid is computed in exact arithmetic and kept in units of 0.001.
-/

namespace Rascal

variable {K : Type _}

/-- `np.rint`: half way cases go to the even number (src/rascal/plotting.py:157-160, 165-167). -/
def rint [Field K] [LinearOrder K] [FloorRing K] (x : K) : Int :=
  if x - (⌊x⌋ : K) < 1 / 2 then ⌊x⌋
  else if 1 / 2 < x - (⌊x⌋ : K) then ⌊x⌋ + 1
  else if ⌊x⌋ % 2 = 0 then ⌊x⌋ else ⌊x⌋ + 1

/-- `np.around(x, decimals=3)` in units of 0.001 (src/rascal/plotting.py:157-160, 165-167). -/
def milli [Field K] [LinearOrder K] [FloorRing K] (x : K) : Int := rint (x * 1000)

/-- The wavelength grid `np.around(np.arange(lo, hi + 0.001, 0.001), decimals=3)`
(src/rascal/plotting.py:157-160). -/
def arcGrid [Field K] [LinearOrder K] [FloorRing K] (lo hi : K) : List Int :=
  (List.range ⌈(hi + 1 / 1000 - lo) / (1 / 1000)⌉.toNat).map (fun k : Nat => milli (lo + (k : K) * (1 / 1000)))

/-- `i[mask] += v` for as many values as places, in the order of the places
(src/rascal/plotting.py:164-168). -/
def addMasked [Add K] : List K → List Bool → List K → List K
  | x :: i, true :: m, v :: vs => (x + v) :: addMasked i m vs
  | x :: i, _ :: m, vs => x :: addMasked i m vs
  | i, _, _ => i

/-- `i[mask] += v` (src/rascal/plotting.py:164-168): a single value is used for every place, otherwise the
numbers of values and places have to agree (ValueError). -/
def maskedAdd [Add K] (i : List K) (mask : List Bool) (v : List K) : PyRes (List K) :=
  if v.length = mask.count true then .ok (addMasked i mask v)
  else match v with
    | [x] => .ok (addMasked i mask (List.replicate (mask.count true) x))
    | _ => .error .valueError

/-- The loop over the elements (src/rascal/plotting.py:163-168). -/
def impulseLoop [Field K] [LinearOrder K] [FloorRing K] (grid : List Int) (a : LineArrays K) :
    List String → List K → PyRes (List K)
  | [], i => .ok i
  | e :: es, i =>
    let em := a.elems.map (fun x => decide (x = e))
    match maskedAdd i (grid.map (fun w => decide (w ∈ (boolMask a.wls em).map milli)))
        (boolMask a.intens em) with
    | .error err => .error err
    | .ok i' => impulseLoop grid a es i'

/-- `signal.convolve(i, gaussian, mode="same")` (src/rascal/plotting.py:170); `g j` is the kernel `j` samples
from its centre, 0 beyond its ends. -/
def convolveSame [Semiring K] (i : List K) (g : Int → K) : List K :=
  (List.range i.length).map (fun n : Nat =>
    ((List.range i.length).map (fun k : Nat => i.getD k 0 * g ((n : Int) - (k : Int)))).sum)

/-- The kernel (src/rascal/plotting.py:150-153): a Gaussian of width `2.5 * pixel_scale` on 100 Angstrom each
side, sampled every 0.001. -/
noncomputable def arcKernel (pixelScale : ℝ) (j : Int) : ℝ :=
  if |j| ≤ 100000 then gaussFn ((j : ℝ) * (1 / 1000)) 1 0 (pixelScale * (5 / 2) * 1) else 0

/-- The `elements` argument (src/rascal/plotting.py:64, 163, src/rascal/util.py:352-353). -/
inductive PlotElems
  | list (l : List String)
  | str (s : List Char)

/-- What `load_calibration_lines` makes of it (src/rascal/util.py:352-353). -/
def PlotElems.toLoad : PlotElems → List String
  | .list l => l
  | .str s => [String.ofList s]

/-- What a loop over it sees (src/rascal/plotting.py:163, 191, src/rascal/util.py:251-270): a string is the
sequence of its characters. -/
def PlotElems.iter : PlotElems → List String
  | .list l => l
  | .str s => s.map (fun c => c.toString)

/-- Arguments (src/rascal/plotting.py:63-83).  The atmosphere arguments appear as the conversions they
determine. -/
structure LinesArgs (K : Type _) where
  elements : PlotElems
  lo : K
  hi : K
  minIntensity : MinIntensity K
  minDistance : K
  brightest : Option Int := none
  vacuum : Bool := false
  airToVac : K → K
  vacToAir : K → K
  linelist : LineListArg := .nist
  opts : FigOpts := {}

/-- The figure: grid and simulated spectrum (src/rascal/plotting.py:221), markers of each element (189-197),
and the effects. -/
structure LinesFigure (K : Type _) where
  grid : List Int
  arc : List K
  markers : List (String × List (K × K))
  events : List PlotEvent
  deriving DecidableEq, Repr

section
variable [Field K] [LinearOrder K] [FloorRing K]

/-- The `load_calibration_lines` call (src/rascal/plotting.py:136-148). -/
def LinesArgs.load (env : Env K) (a : LinesArgs K) : PyRes (LineArrays K) :=
  loadFromFile env.argsort a.airToVac a.vacToAir env.nistRows env.fs a.linelist a.elements.toLoad a.lo a.hi
    (.scalar 0) 0 a.vacuum a.brightest

/-- The rows `np.column_stack` makes of the three arrays (src/rascal/plotting.py:175). -/
def LineArrays.rows (r : LineArrays K) : List (Row K) :=
  (r.elems.zip (r.wls.zip r.intens)).map (fun t => ⟨t.1, t.2.1, t.2.2⟩)

/-- A mask applied to the three arrays (src/rascal/plotting.py:173-177, 182-184). -/
def LineArrays.mask (r : LineArrays K) (m : List Bool) : LineArrays K :=
  ⟨boolMask r.elems m, boolMask r.wls m, boolMask r.intens m⟩

/-- The markers drawn for the elements (src/rascal/plotting.py:191-195). -/
def LineArrays.markers (r : LineArrays K) (es : List String) : List (String × List (K × K)) :=
  es.map (fun e => (e, (boolMask r.wls (r.elems.map (fun x => decide (x = e)))).zip
    (boolMask r.intens (r.elems.map (fun x => decide (x = e))))))

/-- `plot_calibration_lines` (src/rascal/plotting.py:63-252).  `min(w)` of an empty grid raises ValueError
(226). -/
def plotCalibrationLines (env : Env K) (g : Int → K) (a : LinesArgs K) : PyRes (LinesFigure K) :=
  match a.load env with
  | .error e => .error e
  | .ok arr =>
    let grid := arcGrid a.lo a.hi
    match impulseLoop grid arr a.elements.iter (grid.map (fun _ => 0)) with
    | .error e => .error e
    | .ok i =>
      match filterIntensity a.elements.iter arr.rows a.minIntensity with
      | .error e => .error e
      | .ok imask =>
        let arr1 := arr.mask imask
        match filterSeparation arr1.wls a.minDistance with
        | .error e => .error e
        | .ok dmask =>
          if grid = [] then .error .valueError
          else .ok ⟨grid, convolveSame i g, (arr1.mask dmask).markers a.elements.iter,
            (finishMatplotlib "rascal_arc".toList a.opts).1⟩

end

end Rascal
