import Mathlib.Algebra.Order.Field.Basic
import Mathlib.Data.List.Basic

/-!
Specification of the Hough transform in its own terms (not using the model).
-/

namespace Rascal.Spec

variable {K α : Type _}

/-- All pairs of two entries of a list, the earlier one first. -/
def twoOf : List α → List (α × α)
  | [] => []
  | a :: t => t.map (fun b => (a, b)) ++ twoOf t

/-- The line `(g, c)` passes through the point `p`. -/
def OnLine [Field K] (l p : K × K) : Prop := p.2 = l.1 * p.1 + l.2

/-- `n` equal bins on `[lo, hi]`: the bin `i` contains `s`.  Left edge included, right edge excluded
except for the last bin. -/
def InBin [Field K] [LinearOrder K] (lo hi : K) (n i : Nat) (s : K) : Prop :=
  lo + i * ((hi - lo) / n) ≤ s ∧
    (s < lo + (i + 1) * ((hi - lo) / n) ∨ (i + 1 = n ∧ s = hi))

/-- Centre of bin `i` of `n` equal bins on `[lo, hi]`. -/
def binCentre [Field K] (lo hi : K) (n i : Nat) : K :=
  ((lo + i * ((hi - lo) / n)) + (lo + (i + 1) * ((hi - lo) / n))) / 2

/-- The binning interval of a non-empty sample: smallest and largest value, widened by one half on
both sides when they coincide. -/
structure SampleRange [Field K] [LinearOrder K] (s : List K) (lo hi : K) : Prop where
  lt : lo < hi
  contains : ∀ x ∈ s, lo ≤ x ∧ x ≤ hi
  tight : s ≠ [] → (lo ∈ s ∧ hi ∈ s) ∨ (∃ m, (∀ x ∈ s, x = m) ∧ lo = m - 1/2 ∧ hi = m + 1/2)

end Rascal.Spec
