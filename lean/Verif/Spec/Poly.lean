import Mathlib.Algebra.Ring.Defs

/-! Specification of polynomial values for coefficient lists, independent of the model. -/

namespace Rascal.Spec

variable {K : Type _} [CommSemiring K]

/-- Value at `x` of the polynomial whose coefficients are listed lowest order first. -/
def evalLow : List K → K → K
  | [], _ => 0
  | c :: cs, x => c + x * evalLow cs x

/-- Value at `x` of the polynomial whose coefficients are listed highest order first. -/
def evalHigh (p : List K) (x : K) : K := evalLow p.reverse x

end Rascal.Spec
