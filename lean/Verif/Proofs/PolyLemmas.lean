import Verif.Model.Models
import Verif.Spec.Poly
import Mathlib.Algebra.BigOperators.Intervals
import Mathlib.Algebra.Polynomial.Roots
import Mathlib.Tactic.Ring
import Mathlib.Tactic.FieldSimp

/-! Helper lemmas about coefficient lists. -/

namespace Rascal

open Finset

variable {K : Type _}

theorem evalLow_eq_sum [CommSemiring K] (p : List K) (x : K) :
    Spec.evalLow p x = ∑ i ∈ range p.length, p.getD i 0 * x ^ i := by
  induction p with
  | nil => simp [Spec.evalLow]
  | cons c cs ih =>
    rw [List.length_cons, sum_range_succ', Spec.evalLow, ih, mul_sum]
    simp only [List.getD_cons_succ, List.getD_cons_zero, pow_zero, mul_one]
    rw [add_comm]
    congr 1
    apply sum_congr rfl
    intro i _
    ring

theorem evalLow_append [CommSemiring K] (p q : List K) (x : K) :
    Spec.evalLow (p ++ q) x = Spec.evalLow p x + x ^ p.length * Spec.evalLow q x := by
  induction p with
  | nil => simp [Spec.evalLow]
  | cons c cs ih =>
    simp only [List.cons_append, Spec.evalLow, ih, List.length_cons, pow_succ]
    ring

theorem foldl_add_eq_sum [CommSemiring K] (f : Nat → K) (n s : Nat) (t : K) :
    (List.range' s n).foldl (fun t i => t + f i) t = t + ∑ i ∈ range n, f (s + i) := by
  induction n generalizing s t with
  | zero => simp
  | succ n ih =>
    rw [List.range'_succ, List.foldl_cons, ih, sum_range_succ']
    simp only [Nat.add_zero, add_assoc]
    congr 1
    rw [add_comm]
    congr 1
    apply sum_congr rfl
    intro i _
    congr 1; omega

theorem polyLoop_eq_sum [CommSemiring K] (a : List K) (degree : Nat) (h : a.length = degree + 1)
    (x : K) : polyLoop a degree x = ∑ i ∈ range (degree + 1), a.getD (degree - i) 0 * x ^ i := by
  unfold polyLoop
  rw [foldl_add_eq_sum (fun i => a.getD (degree - i) 0 * x ^ i), sum_range_succ', add_comm]
  congr 1
  · apply sum_congr rfl
    intro i _
    rw [Nat.add_comm]
  · simp only [pow_zero, mul_one, Nat.sub_zero]
    rw [List.getLastD_eq_getLast?, List.getLast?_eq_getElem?, h]
    simp [List.getD]

theorem polyLoop_eq_evalHigh [CommSemiring K] (a : List K) (degree : Nat)
    (h : a.length = degree + 1) (x : K) : polyLoop a degree x = Spec.evalHigh a x := by
  rw [polyLoop_eq_sum a degree h, Spec.evalHigh, evalLow_eq_sum, List.length_reverse, h]
  apply sum_congr rfl
  intro i hi
  have hi := mem_range.1 hi
  congr 1
  rw [List.getD, List.getD, List.getElem?_reverse (by omega), h]
  congr 2

theorem derivativeCoeffs_length [Semiring K] (p : List K) :
    (derivativeCoeffs p).length = p.length - 1 := by simp [derivativeCoeffs]

theorem derivativeCoeffs_getD [Semiring K] (p : List K) (i : Nat) (h : i + 1 < p.length) :
    (derivativeCoeffs p).getD i 0 = ((i : K) + 1) * p.getD (i + 1) 0 := by
  unfold derivativeCoeffs
  rw [List.getD, List.getElem?_map, List.getElem?_range' (by omega)]
  simp [Nat.add_comm]

/-- The Mathlib polynomial with the given coefficients, lowest order first. -/
noncomputable def toPoly [Semiring K] (p : List K) : Polynomial K :=
  ∑ i ∈ range p.length, Polynomial.monomial i (p.getD i 0)

theorem toPoly_eval [CommSemiring K] (p : List K) (x : K) :
    (toPoly p).eval x = Spec.evalLow p x := by
  rw [evalLow_eq_sum, toPoly, Polynomial.eval_finsetSum]
  simp [Polynomial.eval_monomial]

theorem toPoly_coeff [Semiring K] (p : List K) (i : Nat) : (toPoly p).coeff i = p.getD i 0 := by
  unfold toPoly
  rw [Polynomial.finsetSum_coeff]
  simp only [Polynomial.coeff_monomial]
  rw [sum_ite_eq' (range p.length) i]
  split
  · rfl
  · rename_i h
    rw [mem_range, not_lt] at h
    simp [List.getD, List.getElem?_eq_none h]

theorem toPoly_degree_lt [Semiring K] (p : List K) : (toPoly p).degree < p.length := by
  rw [Polynomial.degree_lt_iff_coeff_zero]
  intro m hm
  rw [toPoly_coeff]
  simp [List.getD, List.getElem?_eq_none hm]

theorem list_ext_getD {p q : List K} [Zero K] (hl : p.length = q.length)
    (h : ∀ i, p.getD i 0 = q.getD i 0) : p = q := by
  apply List.ext_getElem hl
  intro i h1 h2
  have := h i
  simpa [List.getD, List.getElem?_eq_getElem h1, List.getElem?_eq_getElem h2] using this

/-- Coefficient lists of the same length agreeing at that many distinct points are equal. -/
theorem evalLow_ext [CommRing K] [IsDomain K] [DecidableEq K] (p q : List K)
    (hl : p.length = q.length) (xs : List K) (hn : p.length ≤ xs.toFinset.card)
    (h : ∀ x ∈ xs, Spec.evalLow p x = Spec.evalLow q x) : p = q := by
  have hsub : toPoly p - toPoly q = 0 := by
    by_contra hne
    have hdeg : (toPoly p - toPoly q).degree < p.length := by
      refine lt_of_le_of_lt (Polynomial.degree_sub_le _ _) ?_
      exact max_lt (toPoly_degree_lt p) (hl ▸ toPoly_degree_lt q)
    have hnat : (toPoly p - toPoly q).natDegree < p.length :=
      (Polynomial.natDegree_lt_iff_degree_lt hne).2 hdeg
    have hcard := Polynomial.card_le_degree_of_subset_roots (p := toPoly p - toPoly q)
      (Z := xs.toFinset) (by
        intro x hx
        rw [Polynomial.mem_roots hne, Polynomial.IsRoot, Polynomial.eval_sub, toPoly_eval,
          toPoly_eval, h x (by simpa using hx), sub_self])
    omega
  apply list_ext_getD hl
  intro i
  have := congrArg (fun r => Polynomial.coeff r i) hsub
  simpa [toPoly_coeff, sub_eq_zero] using this

end Rascal
