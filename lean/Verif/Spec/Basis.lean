import Mathlib.Algebra.Field.Defs

/-! Specification of Legendre and Chebyshev series, independent of the model. -/

namespace Rascal.Spec

variable {K : Type _} [Field K]

/-- The Legendre polynomials by their three-term recurrence
`(n + 2) P_{n+2} = (2n + 3) x P_{n+1} - (n + 1) P_n`. -/
def legP : Nat → K → K
  | 0, _ => 1
  | 1, x => x
  | n + 2, x => ((2 * (n : K) + 3) * x * legP (n + 1) x - ((n : K) + 1) * legP n x) / ((n : K) + 2)

/-- The Chebyshev polynomials by their recurrence `T_{n+2} = 2 x T_{n+1} - T_n`. -/
def chebT : Nat → K → K
  | 0, _ => 1
  | 1, x => x
  | n + 2, x => 2 * x * chebT (n + 1) x - chebT n x

/-- `c_0 P_n + c_1 P_{n+1} + ...`. -/
def seriesFrom (P : Nat → K) : Nat → List K → K
  | _, [] => 0
  | n, c :: cs => c * P n + seriesFrom P (n + 1) cs

/-- `c_0 P_0 + c_1 P_1 + ...`. -/
def series (P : Nat → K) (c : List K) : K := seriesFrom P 0 c

end Rascal.Spec
