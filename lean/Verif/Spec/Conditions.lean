import Mathlib.Data.Real.Basic

/-! Observing conditions for which the air/vacuum statements are made. -/

namespace Rascal.Spec

/-- Temperature in Kelvin (-50 to 100 Celsius), pressure in Pascal, relative humidity in per cent. -/
structure Conditions (temperature pressure humidity : ℝ) : Prop where
  cold : 223.15 ≤ temperature
  hot : temperature ≤ 373.15
  pressure_nonneg : 0 ≤ pressure
  pressure_le : pressure ≤ 110000
  humidity_nonneg : 0 ≤ humidity
  humidity_le : humidity ≤ 100

end Rascal.Spec
