import Verif.Base.Np
import Mathlib.Algebra.Order.Floor.Defs
import Mathlib.Algebra.Order.Floor.Ring

/-!
Model of `refine_peaks` (src/rascal/util.py:450-523).
-/

namespace Rascal

variable {K : Type _}

/-- `int(peak)` of a finite float: truncation towards zero (src/rascal/util.py:484-486). -/
def pyInt [Ring K] [LinearOrder K] [FloorRing K] (x : K) : Int := if 0 ≤ x then ⌊x⌋ else ⌈x⌉

/-- `a / b` on floats (src/rascal/util.py:488).  Simplified: the sign of a zero divisor is taken to be
positive. -/
def PyFloat.div [Field K] [LinearOrder K] : PyFloat K → PyFloat K → PyFloat K
  | .nan, _ => .nan
  | _, .nan => .nan
  | .fin a, .fin b =>
    if b = 0 then (if a = 0 then .nan else if 0 < a then .posInf else .negInf) else .fin (a / b)
  | .fin _, .posInf => .fin 0
  | .fin _, .negInf => .fin 0
  | .posInf, .fin b => if 0 ≤ b then .posInf else .negInf
  | .negInf, .fin b => if 0 ≤ b then .negInf else .posInf
  | _, _ => .nan

/-- `np.isfinite(v)` (src/rascal/util.py:491). -/
def PyFloat.isFinite : PyFloat K → Bool
  | .fin _ => true
  | _ => false

/-- The larger of two values, ignoring nan (src/rascal/util.py:488). -/
def PyFloat.fmax [LinearOrder K] (a b : PyFloat K) : PyFloat K :=
  match a, b with
  | .nan, b => b
  | a, .nan => a
  | a, b => if PyFloat.lt a b then b else a

/-- `np.nanmax(y)` of a non-empty array; nan if all entries are (src/rascal/util.py:488). -/
def nanMax [LinearOrder K] (y : List (PyFloat K)) : PyFloat K := y.foldl PyFloat.fmax .nan

/-- `y /= np.nanmax(y)` (src/rascal/util.py:488). -/
def normaliseWindow [Field K] [LinearOrder K] (y : List (PyFloat K)) : List (PyFloat K) :=
  y.map (fun v => v.div (nanMax y))

/-- Outcome of `curve_fit` and the unpacking of its result (src/rascal/util.py:500-502). -/
inductive FitOut (K : Type _)
  | ok (height centre : PyFloat K)
  | runtimeError
  | raises (e : PyErr)
  deriving DecidableEq

section
variable [Field K] [LinearOrder K] [FloorRing K]

/-- First pixel of the window (src/rascal/util.py:484). -/
def windowStart (len : Nat) (ww : Int) (peak : K) : Nat := pyBound len (max 0 (pyInt peak - ww))

/-- Pixel after the last one of the window (src/rascal/util.py:484-486); a negative bound counts from
the end. -/
def windowStop (len : Nat) (ww : Int) (peak : K) : Nat := pyBound len (min (pyInt peak + ww) len)

/-- `y`, the window of a peak (src/rascal/util.py:483-487). -/
def peakWindow (sp : List (PyFloat K)) (ww : Int) (peak : K) : List (PyFloat K) :=
  (sp.take (windowStop sp.length ww peak)).drop (windowStart sp.length ww peak)

/-- The spectrum copy after the in-place division of one window (src/rascal/util.py:483-488): `y` is a
view, so the division changes the array later windows are cut from. -/
def divideWindow (sp : List (PyFloat K)) (ww : Int) (peak : K) : List (PyFloat K) :=
  sp.take (windowStart sp.length ww peak) ++ normaliseWindow (peakWindow sp ww peak) ++
    sp.drop (windowStop sp.length ww peak)

/-- The loop over the peaks (src/rascal/util.py:482-513).  `curve_fit`, with its starting point
computed from the window, is an arbitrary function of the normalised window; only RuntimeError is caught.
An empty window makes `nanmax` raise ValueError.  The array is taken to have a float type, see
`refinePeaks`. -/
def refineLoop (fit : List (PyFloat K) → FitOut K) (ww : Int) :
    List (PyFloat K) → List K → PyRes (List (PyFloat K))
  | _, [] => .ok []
  | sp, peak :: rest =>
    if peakWindow sp ww peak = [] then .error .valueError
    else
      let y := normaliseWindow (peakWindow sp ww peak)
      let sp' := divideWindow sp ww peak
      if y.all (fun v => !v.isFinite) then refineLoop fit ww sp' rest
      else
        match fit y with
        | .runtimeError => refineLoop fit ww sp' rest
        | .raises e => .error e
        | .ok height centre =>
          if PyFloat.lt height (.fin 0) then refineLoop fit ww sp' rest
          else if PyFloat.lt (.fin (sp.length : K)) centre || PyFloat.lt centre (.fin 0) then
            refineLoop fit ww sp' rest
          else
            match refineLoop fit ww sp' rest with
            | .error e => .error e
            | .ok r => .ok ((match centre with
                | .fin c => .fin (peak - (ww : K) + c)
                | other => other) :: r)

/-- `np.isclose(a, b)` with the default tolerances (src/rascal/util.py:520). -/
def isClose : PyFloat K → PyFloat K → Bool
  | .fin a, .fin b => decide (|a - b| ≤ 1 / 100000000 + 1 / 100000 * |b|)
  | .posInf, .posInf => true
  | .negInf, .negInf => true
  | _, _ => false

/-- The final masks (src/rascal/util.py:515-523). -/
def refineSelect (len : Nat) (raw : List (PyFloat K)) : List (PyFloat K) :=
  let mask := raw.map (fun v => PyFloat.lt (.fin 0) v && PyFloat.lt v (.fin (len : K)))
  let close := false :: List.zipWith isClose raw raw.tail
  boolMask raw (List.zipWith (fun m c => m && !c) mask close)

/-- `refine_peaks` (src/rascal/util.py:450-523).  `np.array(spectrum)` copies, so the caller's data is
only read.  `isFloat` says whether the array has a floating type: an integer array does not
support the in-place division (TypeError; an empty window raises ValueError before that). -/
def refinePeaks (fit : List (PyFloat K) → FitOut K) (isFloat : Bool) (spectrum : List (PyFloat K))
    (peaks : List K) (ww : Int) : PyRes (List (PyFloat K)) :=
  match isFloat, peaks with
  | false, peak :: _ =>
    if peakWindow spectrum ww peak = [] then .error .valueError else .error .typeError
  | _, _ =>
    match refineLoop fit ww spectrum peaks with
    | .error e => .error e
    | .ok raw => .ok (refineSelect spectrum.length raw)

end

end Rascal
