import Mathlib.Algebra.Order.Field.Basic

/-! Specification vocabulary for the candidate handling, independent of the model. -/

namespace Rascal.Spec

variable {K : Type _} [Field K] [LinearOrder K]

/-- `pt` is a weighted mean of the four given points. -/
def InHull (a b c d pt : K × K) : Prop :=
  ∃ wa wb wc wd : K, 0 ≤ wa ∧ 0 ≤ wb ∧ 0 ≤ wc ∧ 0 ≤ wd ∧ wa + wb + wc + wd = 1 ∧
    pt.1 = wa * a.1 + wb * b.1 + wc * c.1 + wd * d.1 ∧
    pt.2 = wa * a.2 + wb * b.2 + wc * c.2 + wd * d.2

/-- Peak `q` claims wavelength `w`: `w` is the first of the candidates of `q` nearest to the fitted
wavelength `f q`. -/
def Claims (f : K → K) (cand : K → Option (List K)) (q w : K) : Prop :=
  ∃ (ws : List K) (i : Nat), cand q = some ws ∧ ws[i]? = some w ∧
    (∀ v ∈ ws, |f q - w| ≤ |f q - v|) ∧
    ∀ (j : Nat) (v : K), j < i → ws[j]? = some v → |f q - w| < |f q - v|

/-- The wavelengths listed with peak `p` in a list of (peak, wavelength, weight). -/
def wavelengthsOf (t : List (K × K × K)) (p : K) : List K :=
  (t.filter (fun e => decide (e.1 = p))).map (fun e => e.2.1)

/-- Total weight of wavelength `w` for peak `p`. -/
def totalWeight (t : List (K × K × K)) (p w : K) : K :=
  ((t.filter (fun e => decide (e.1 = p) && decide (e.2.1 = w))).map (fun e => e.2.2)).sum

/-- Number of times wavelength `w` is listed for peak `p`. -/
def multiplicity (t : List (K × K × K)) (p w : K) : Nat :=
  (t.filter (fun e => decide (e.1 = p) && decide (e.2.1 = w))).length

end Rascal.Spec
