import Mathlib.Data.List.Basic

/-! What saving a figure means, without reference to the model. -/

namespace Rascal.Spec

/-- `t` stands in `s` between two separators `c`, the ends of `s` counting as separators. -/
def FieldOf {α : Type _} (c : α) (t s : List α) : Prop :=
  c ∉ t ∧ ∃ pre post, s = pre ++ t ++ post ∧ (pre = [] ∨ ∃ p, pre = p ++ [c]) ∧
    (post = [] ∨ ∃ q, post = c :: q)

/-- The formats each library can save (src/rascal/plotting.py:246, 459, 652-657). -/
def Supported (plotly : Bool) (t : List Char) : Prop :=
  t = ['j', 'p', 'g'] ∨ t = ['p', 'n', 'g'] ∨ t = ['s', 'v', 'g'] ∨ t = ['p', 'd', 'f'] ∨
    (plotly = true ∧ t = ['i', 'f', 'r', 'a', 'm', 'e'])

/-- The formats named in the documentation, for either library (src/rascal/calibrator.py:2152-2154,
2218-2220, 2286-2288). -/
def Documented (t : List Char) : Prop := Supported true t

end Rascal.Spec
