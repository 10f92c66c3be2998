import Verif.Model.PlotLines

/-!
Model of the script src/rascal/arc_lines/convolve_lines.py: the simulated Xe arc.  The wavelength grid is computed in
exact arithmetic and kept in units of 0.01; the rows are those of `nist_clean.csv`.  Plotting is not modelled.
-/

namespace Rascal

variable {K : Type _}

/-- `gaus` (src/rascal/arc_lines/convolve_lines.py:6-27). -/
noncomputable def gausFn (x a b x0 sigma : ℝ) : ℝ := a * Real.exp (-((x - x0) ^ 2) / (2 * sigma ^ 2)) + b

/-- `np.around(x, decimals=2)` in units of 0.01 (src/rascal/arc_lines/convolve_lines.py:36, 40-42). -/
def centi [Field K] [LinearOrder K] [FloorRing K] (x : K) : Int := rint (x * 100)

/-- The grid `np.around(np.arange(min - 500.0, max + 500.01, 0.01), decimals=2)` for rounded limits
(src/rascal/arc_lines/convolve_lines.py:40-42). -/
def scriptGrid (lo hi : Int) : List Int :=
  (List.range (hi - lo + 100001).toNat).map (fun k : Nat => lo - 50000 + (k : Int))

/-- `i[places] = v` for as many values as places, in the order of the places
(src/rascal/arc_lines/convolve_lines.py:44). -/
def setMasked : List K → List Bool → List K → List K
  | _ :: i, true :: m, v :: vs => v :: setMasked i m vs
  | x :: i, _ :: m, vs => x :: setMasked i m vs
  | i, _, _ => i

/-- `i[places] = v` (src/rascal/arc_lines/convolve_lines.py:44): a single value is used for every place, otherwise the
numbers of values and places have to agree (ValueError). -/
def maskedSet (i : List K) (mask : List Bool) (v : List K) : PyRes (List K) :=
  if v.length = mask.count true then .ok (setMasked i mask v)
  else match v with
    | [x] => .ok (setMasked i mask (List.replicate (mask.count true) x))
    | _ => .error .valueError

/-- Wavelengths and simulated arc (src/rascal/arc_lines/convolve_lines.py:30-59); `min` of no lines raises ValueError.
`g j` is the kernel `j` samples from its centre, 0 beyond its ends. -/
def convolveScript [Field K] [LinearOrder K] [FloorRing K] (g : Int → K) (nist : List (Row K)) :
    PyRes (List Int × List K) :=
  let xe := nist.filter (fun r => decide (r.elem = "Xe"))
  match xe.map (fun r => centi r.wl) with
  | [] => .error .valueError
  | w :: ws =>
    let grid := scriptGrid (listMin w ws) (listMax w ws)
    match maskedSet (grid.map (fun _ => 0)) (grid.map (fun x => decide (x ∈ w :: ws))) (xe.map Row.inten) with
    | .error e => .error e
    | .ok i => .ok (grid, convolveSame i g)

/-- The kernel (src/rascal/arc_lines/convolve_lines.py:47-56): a Gaussian of 2.3 pixels of 5000/1024 Angstrom, on 100
Angstrom each side, sampled every 0.01. -/
noncomputable def scriptKernel (j : Int) : ℝ :=
  if |j| ≤ 10000 then gausFn ((j : ℝ) * (1 / 100)) 1 0 0 ((8500 - 3500) / 1024 * (23 / 10) * 1) else 0

end Rascal
