import Mathlib.Algebra.Order.Field.Basic

/-! Specification vocabulary for settings, independent of the model. -/

namespace Rascal.Spec

/-- The last value given in a history of optional values, or the default. -/
def lastGiven {α : Type _} (default : α) (given : List (Option α)) : α :=
  (given.reverse.findSome? id).getD default

variable {K : Type _} [Field K] [LinearOrder K]

/-- `r` is the extent of a list of positions: the distance of two of them, and the largest. -/
def IsExtent (l : List K) (r : K) : Prop :=
  (∃ a ∈ l, ∃ b ∈ l, r = b - a) ∧ ∀ a ∈ l, ∀ b ∈ l, b - a ≤ r

end Rascal.Spec
