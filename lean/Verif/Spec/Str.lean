import Mathlib.Data.List.Basic

/-! Specification of joining strings (lists of characters) with a delimiter. -/

namespace Rascal.Spec

/-- `delim.join(parts)`. -/
def joinWith {α : Type _} (d : List α) : List (List α) → List α
  | [] => []
  | [p] => p
  | p :: q :: t => p ++ d ++ joinWith d (q :: t)

theorem joinWith_cons_append {α : Type _} (d x p : List α) (t : List (List α)) :
    joinWith d ((x ++ p) :: t) = x ++ joinWith d (p :: t) := by
  cases t <;> simp [joinWith]

end Rascal.Spec
