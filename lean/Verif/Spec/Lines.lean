import Mathlib.Algebra.Order.Group.Abs

/-! Specification vocabulary for line lists, independent of the model. -/

namespace Rascal.Spec

variable {α K : Type _}

/-- `r` is the first element of `l` carrying its key. -/
def FirstWith (key : α → K) (l : List α) (r : α) : Prop :=
  ∃ pre post, l = pre ++ r :: post ∧ ∀ q ∈ pre, key q ≠ key r

/-- Position `i` is at distance at least `d` from every other position of the list. -/
def Isolated [AddCommGroup K] [LinearOrder K] (ws : List K) (d : K) (i : Nat) : Prop :=
  ∀ (hi : i < ws.length) (j : Nat) (hj : j < ws.length), j ≠ i → d ≤ |ws[j] - ws[i]|

/-- `t` is the entry of `vals` at the last position at which `e` occurs in `names`. -/
def LastEntry (names : List String) (vals : List K) (e : String) (t : K) : Prop :=
  ∃ i : Nat, names[i]? = some e ∧ vals[i]? = some t ∧ ∀ j : Nat, i < j → names[j]? ≠ some e

end Rascal.Spec
