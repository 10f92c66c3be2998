import Mathlib.Analysis.Real.Sqrt

/-!
Model of the air/vacuum conversion (src/rascal/util.py:8-162), over the real numbers.
-/

namespace Rascal

/-- `omega` of `get_vapour_pressure` (src/rascal/util.py:12-22). -/
noncomputable def vpOmega (t : ℝ) : ℝ := t + (-0.238555575678) / (t - 650.175348448)

/-- `A` of `get_vapour_pressure` (src/rascal/util.py:12-13, 23). -/
noncomputable def vpA (o : ℝ) : ℝ := o ^ 2 + 1167.05214528 * o + (-724213.167032)

/-- `B` of `get_vapour_pressure` (src/rascal/util.py:14-16, 24). -/
noncomputable def vpB (o : ℝ) : ℝ := (-17.0738469401) * o ^ 2 + 12020.8247025 * o + (-3232555.03223)

/-- `C` of `get_vapour_pressure` (src/rascal/util.py:17-19, 25). -/
noncomputable def vpC (o : ℝ) : ℝ := 14.9151086135 * o ^ 2 + (-4823.26573616) * o + 405113.405421

/-- `B**2 - 4*A*C` (src/rascal/util.py:26). -/
noncomputable def vpDisc (o : ℝ) : ℝ := vpB o ^ 2 - 4 * vpA o * vpC o

/-- `X` of `get_vapour_pressure` (src/rascal/util.py:26).  `np.sqrt` of a negative number is nan; the
model is faithful only where `0 ≤ vpDisc`, which `C14_defined_partial` shows for the temperatures the
theorems use. -/
noncomputable def vpX (o : ℝ) : ℝ := -vpB o + Real.sqrt (vpDisc o)

/-- `get_vapour_pressure` (src/rascal/util.py:8-28). -/
noncomputable def vapourPressure (temperature : ℝ) : ℝ :=
  10 ^ 6 * (2 * vpC (vpOmega temperature) / vpX (vpOmega temperature)) ^ 4

/-- `get_vapour_partial_pressure` (src/rascal/util.py:31-36). -/
noncomputable def vapourPartialPressure (relativeHumidity vapourPressure : ℝ) : ℝ :=
  relativeHumidity / 100 * vapourPressure

/-- `edlen_refraction` (src/rascal/util.py:39-80) for one wavelength in Angstrom, temperature in
Celsius. -/
noncomputable def edlenRefraction (wavelength temperature pressure vpp : ℝ) : ℝ :=
  let w := wavelength / 10000
  let t := temperature
  let T := temperature + 273.15
  let S := (w ^ 2)⁻¹
  let nS := 1 + 1e-8 * (8342.54 + 2406147 / (130 - S) + 15998 / (38.9 - S))
  let X := (1 + 1e-8 * (0.601 - 0.00972 * t) * pressure) / (1 + 0.003661 * t)
  let nTP := 1 + pressure * (nS - 1) * X / 96095.43
  nTP - 1e-10 * (292.75 / T) * (3.7345 - 0.0401 * S) * vpp

/-- The index both conversions use (src/rascal/util.py:115-122, 153-161): temperature in Kelvin is
turned into Celsius and passed to `get_vapour_pressure`. -/
noncomputable def refractiveIndex (temperature pressure relativeHumidity wavelength : ℝ) : ℝ :=
  let t := temperature - 273.15
  edlenRefraction wavelength t pressure
    (vapourPartialPressure relativeHumidity (vapourPressure t))

/-- `vacuum_to_air_wavelength` (src/rascal/util.py:83-123), one wavelength. -/
noncomputable def vacuumToAir (temperature pressure relativeHumidity wavelength : ℝ) : ℝ :=
  wavelength / refractiveIndex temperature pressure relativeHumidity wavelength

/-- `air_to_vacuum_wavelength` (src/rascal/util.py:126-162), one wavelength. -/
noncomputable def airToVacuum (temperature pressure relativeHumidity wavelength : ℝ) : ℝ :=
  wavelength * refractiveIndex temperature pressure relativeHumidity wavelength

end Rascal
