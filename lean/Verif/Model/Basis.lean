import Verif.Model.Fit

/-!
The numpy evaluation routines `fit` chooses from (src/rascal/calibrator.py:1620-1631): `polyval`,
`legval` and `chebval` of `numpy.polynomial`, written like the loops of numpy.  An empty coefficient
list, for which numpy raises IndexError, gives 0 here; the callers check for it.
-/

namespace Rascal

variable {K : Type _}

/-- `np.polynomial.polynomial.polyval` (src/rascal/calibrator.py:1622): `c0 = c[-1]`, then
`c0 = c[-i] + c0 * x`. -/
def npPolyval [Semiring K] (c : List K) (x : K) : K :=
  match c.reverse with
  | [] => 0
  | a :: rest => rest.foldl (fun c0 b => b + c0 * x) a

section
variable [Field K]

/-- One pass of the loop of `legval` (src/rascal/calibrator.py:1626): `tmp = c0; nd = nd - 1;
c0 = c[-i] - c1*((nd - 1)/nd); c1 = tmp + c1*x*((2*nd - 1)/nd)`. -/
def legStep (x : K) (s : K × K × Nat) (b : K) : K × K × Nat :=
  let nd : K := ((s.2.2 - 1 : Nat) : K)
  (b - s.2.1 * ((nd - 1) / nd), s.1 + s.2.1 * x * ((2 * nd - 1) / nd), s.2.2 - 1)

/-- `np.polynomial.legendre.legval` (src/rascal/calibrator.py:1626). -/
def npLegval (c : List K) (x : K) : K :=
  match c.reverse with
  | [] => 0
  | [a] => a + 0 * x
  | c1 :: c0 :: rest =>
    let s := rest.foldl (legStep x) (c0, c1, c.length)
    s.1 + s.2.1 * x

/-- One pass of the loop of `chebval` (src/rascal/calibrator.py:1630): `tmp = c0; c0 = c[-i] - c1;
c1 = tmp + c1*x2` with `x2 = 2*x`. -/
def chebStep (x : K) (s : K × K) (b : K) : K × K := (b - s.2, s.1 + s.2 * (2 * x))

/-- `np.polynomial.chebyshev.chebval` (src/rascal/calibrator.py:1630). -/
def npChebval (c : List K) (x : K) : K :=
  match c.reverse with
  | [] => 0
  | [a] => a + 0 * x
  | c1 :: c0 :: rest =>
    let s := rest.foldl (chebStep x) (c0, c1)
    s.1 + s.2 * x

/-- The `polyval` of each basis (src/rascal/calibrator.py:1621-1636). -/
def basisVal : FitType → List K → K → K
  | .poly => npPolyval
  | .legendre => npLegval
  | .chebyshev => npChebval
  | .other => fun _ _ => 0

end

end Rascal
