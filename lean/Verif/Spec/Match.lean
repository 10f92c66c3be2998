import Mathlib.Algebra.Order.Group.Abs
import Mathlib.Algebra.Order.Ring.Defs
import Mathlib.Data.List.Basic

/-! Specification of matching peaks with lines, independent of the model. -/

namespace Rascal.Spec

variable {K : Type _} [Ring K] [LinearOrder K]

/-- Some line is closer to `x` than the tolerance. -/
def Near (lines : List K) (tol x : K) : Prop := ∃ a ∈ lines, |a - x| < tol

instance (lines : List K) (tol x : K) : Decidable (Near lines tol x) :=
  inferInstanceAs (Decidable (∃ a ∈ lines, |a - x| < tol))

/-- `a` is the only entry of `lines` closer to `x` than the tolerance. -/
def OnlyNear (lines : List K) (tol x a : K) : Prop :=
  ∃ l₁ l₂ : List K, lines = l₁ ++ a :: l₂ ∧ |a - x| < tol ∧ ∀ b ∈ l₁ ++ l₂, ¬ |b - x| < tol

/-- `d` is the distance from `x` to the nearest line. -/
def LineDist (lines : List K) (x d : K) : Prop :=
  (∃ a ∈ lines, d = |a - x|) ∧ ∀ b ∈ lines, d ≤ |b - x|

/-- The coefficients with the first ones shifted. -/
def Shifted (fit delta new : List K) : Prop :=
  new.length = fit.length ∧
    ∀ i : Nat, i < fit.length → new.getD i 0 = fit.getD i 0 + delta.getD i 0

/-- The wavelengths increase with the pixels, which are all different. -/
def StrictlyIncreasingOn (f : K → K) (pixels : List K) : Prop :=
  pixels.Nodup ∧ ∀ a ∈ pixels, ∀ b ∈ pixels, a < b → f a < f b

end Rascal.Spec
