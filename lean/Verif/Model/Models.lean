import Verif.Base.Py
import Mathlib.Algebra.Field.Defs
import Mathlib.Analysis.Real.Sqrt

/-!
Model of src/rascal/models.py and of `_derivative` (src/rascal/util.py:526-545).
-/

namespace Rascal

variable {K : Type _}

/-- The inner function `poly` returned by `polynomial` (src/rascal/models.py:19-25):
`t = a[-1]`, then `t += a[degree - i] * x**i` for `i = 1 .. degree`. -/
def polyLoop [Semiring K] (a : List K) (degree : Nat) (x : K) : K :=
  (List.range' 1 degree).foldl (fun t i => t + a.getD (degree - i) 0 * x ^ i) (a.getLastD 0)

/-- `polynomial` (src/rascal/models.py:10-27): the length is asserted, then the closure returned. -/
def polynomial [Semiring K] (a : List K) (degree : Nat) : PyRes (K → K) :=
  if a.length = degree + 1 then .ok (polyLoop a degree) else .error .assertionError

/-- `poly_cost_function` (src/rascal/models.py:30-54): `y - f(x)` element by element. -/
def polyCost [Ring K] (a x y : List K) (degree : Nat) : PyRes (List K) :=
  match polynomial a degree with
  | .error e => .error e
  | .ok f => .ok (List.zipWith (fun xi yi => yi - f xi) x y)

/-- `_derivative` (src/rascal/util.py:526-545): `i * p[i]` for `i = 1 .. len(p) - 1`. -/
def derivativeCoeffs [Semiring K] (p : List K) : List K :=
  (List.range' 1 (p.length - 1)).map (fun i : Nat => (i : K) * p.getD i 0)

/-- `x.mean()`, part of `x.std()` (src/rascal/models.py:61-62). -/
noncomputable def npMean (l : List ℝ) : ℝ := l.sum / l.length

/-- `x.std()` (src/rascal/models.py:61-62, 102-104, 117-121): population standard deviation. -/
noncomputable def npStd (l : List ℝ) : ℝ :=
  Real.sqrt ((l.map (fun v => (v - npMean l) ^ 2)).sum / l.length)

/-- `normalise_input` (src/rascal/models.py:57-67). -/
noncomputable def normaliseInput (x y : List ℝ) : List ℝ × List ℝ :=
  (x.map (fun v => v / npStd x), y.map (fun v => v / npStd y))

/-- The normalisation of a supplied starting point (src/rascal/models.py:98-104): entry `i` is
multiplied by `std(x)**i` for `i < degree`, then everything is divided by `std(y)`. -/
noncomputable def normaliseInit (x y : List ℝ) (degree : Nat) (p : List ℝ) : List ℝ :=
  (p.mapIdx (fun i c => if i < degree then c * npStd x ^ i else c)).map (fun c => c / npStd y)

/-- De-normalisation of the solver's answer (src/rascal/models.py:115-123): multiply by `std(y)`,
divide entry `i < degree` by `std(x)**(degree - i)`, reverse. -/
noncomputable def denormalise (x y : List ℝ) (degree : Nat) (p : List ℝ) : List ℝ :=
  (((p.map (fun c => c * npStd y)).mapIdx
    (fun i c => if i < degree then c / npStd x ^ (degree - i) else c))).reverse

/-- `robust_polyfit` (src/rascal/models.py:70-123).  `solve` stands for
`scipy.optimize.least_squares(..., loss="huber")`: it gets the residual function and the starting
point and returns `res.x`.
Data with zero spread make the normalised arrays nan/inf, on which `least_squares` raises
ValueError (residuals not finite); a starting point that is too short raises IndexError at line
102, one of another wrong length trips the assertion of `polynomial`. -/
noncomputable def robustPolyfit (solve : (List ℝ → PyRes (List ℝ)) → List ℝ → List ℝ)
    (x y : List ℝ) (degree : Nat) (x0 : Option (List ℝ)) : PyRes (List ℝ) :=
  match x0 with
  | some p =>
    if p.length < degree then .error .indexError
    else if p.length ≠ degree + 1 then .error .assertionError
    else if npStd y = 0 ∨ (npStd x = 0 ∧ degree ≠ 0) then .error .valueError
    else
      let (xn, yn) := normaliseInput x y
      .ok (denormalise x y degree
        (solve (fun a => polyCost a xn yn degree) (normaliseInit x y degree p)))
  | none =>
    if npStd y = 0 ∨ (npStd x = 0 ∧ degree ≠ 0) then .error .valueError
    else
      let (xn, yn) := normaliseInput x y
      .ok (denormalise x y degree
        (solve (fun a => polyCost a xn yn degree) (List.replicate (degree + 1) 1)))

end Rascal
