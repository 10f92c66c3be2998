import Verif.Proofs.PolyLemmas
import Mathlib.Tactic.Linarith
import Mathlib.Tactic.Positivity
import Mathlib.Tactic.NormNum
import Mathlib.Algebra.Order.BigOperators.Group.List

/-! Helper lemmas for `robust_polyfit`. -/

namespace Rascal

open Finset

theorem evalHigh_eq_sum {K : Type _} [CommSemiring K] (p : List K) (d : Nat)
    (h : p.length = d + 1) (x : K) :
    Spec.evalHigh p x = ∑ i ∈ range (d + 1), p.getD (d - i) 0 * x ^ i := by
  rw [← polyLoop_eq_evalHigh p d h, polyLoop_eq_sum p d h]

theorem denormalise_length (x y : List ℝ) (d : Nat) (p : List ℝ) :
    (denormalise x y d p).length = p.length := by simp [denormalise]

theorem denormalise_getD (x y : List ℝ) (d : Nat) (p : List ℝ) (h : p.length = d + 1) (i : Nat)
    (hi : i ≤ d) :
    (denormalise x y d p).getD i 0 = p.getD (d - i) 0 * npStd y / npStd x ^ i := by
  unfold denormalise
  rw [List.getD, List.getElem?_reverse (by simp; omega)]
  simp only [List.length_mapIdx, List.length_map, h, List.getElem?_mapIdx, List.getElem?_map]
  have h1 : d + 1 - 1 - i = d - i := by omega
  rw [h1, List.getD, List.getElem?_eq_getElem (by omega)]
  simp only [Option.map_some, Option.getD_some]
  split
  · have : d - (d - i) = i := by omega
    rw [this]
  · have : i = 0 := by omega
    subst this
    simp

/-- Value of the de-normalised polynomial. -/
theorem evalLow_denormalise (x y : List ℝ) (d : Nat) (p : List ℝ) (h : p.length = d + 1)
    (t : ℝ) :
    Spec.evalLow (denormalise x y d p) t = npStd y * Spec.evalHigh p (t / npStd x) := by
  rw [evalLow_eq_sum, denormalise_length, h, evalHigh_eq_sum p d h, mul_sum]
  apply sum_congr rfl
  intro i hi
  rw [denormalise_getD x y d p h i (by have := mem_range.1 hi; omega), div_pow]
  ring

/-- The highest-first normalised list whose de-normalisation is `q`. -/
noncomputable def renormalise (x y : List ℝ) (q : List ℝ) : List ℝ :=
  (q.mapIdx (fun i c => c * npStd x ^ i / npStd y)).reverse

theorem denormalise_renormalise (x y : List ℝ) (d : Nat) (q : List ℝ) (h : q.length = d + 1)
    (hx : npStd x ≠ 0 ∨ d = 0) (hy : npStd y ≠ 0) : denormalise x y d (renormalise x y q) = q := by
  have hl : (renormalise x y q).length = d + 1 := by simp [renormalise, h]
  apply list_ext_getD (by rw [denormalise_length, hl, h])
  intro i
  by_cases hi : i ≤ d
  · rw [denormalise_getD x y d _ hl i hi]
    unfold renormalise
    rw [List.getD, List.getElem?_reverse (by simp; omega)]
    simp only [List.length_mapIdx, List.getElem?_mapIdx]
    have : q.length - 1 - (d - i) = i := by omega
    rw [this, List.getD, List.getElem?_eq_getElem (by omega)]
    simp only [Option.map_some, Option.getD_some]
    have hp : npStd x ^ i ≠ 0 := by
      rcases hx with hx | hx
      · exact pow_ne_zero _ hx
      · have : i = 0 := by omega
        subst this; simp
    field_simp
  · rw [List.getD, List.getD, List.getElem?_eq_none (by rw [denormalise_length, hl]; omega),
      List.getElem?_eq_none (by omega)]

theorem npStd_nonneg (l : List ℝ) : 0 ≤ npStd l := Real.sqrt_nonneg _

theorem sum_sq_eq_zero (l : List ℝ) (m : ℝ) :
    (l.map (fun v => (v - m) ^ 2)).sum = 0 ↔ ∀ v ∈ l, v = m := by
  induction l with
  | nil => simp
  | cons a t ih =>
    have hnn : 0 ≤ (t.map (fun v => (v - m) ^ 2)).sum :=
      List.sum_nonneg (by simp only [List.mem_map]; rintro _ ⟨v, _, rfl⟩; positivity)
    simp only [List.map_cons, List.sum_cons, List.forall_mem_cons]
    rw [← ih]
    have h0 : 0 ≤ (a - m) ^ 2 := by positivity
    constructor
    · intro h
      have h1 : (a - m) ^ 2 = 0 := by linarith
      have h2 : (t.map (fun v => (v - m) ^ 2)).sum = 0 := by linarith
      exact ⟨by have := pow_eq_zero_iff (two_ne_zero) |>.1 h1; linarith, h2⟩
    · rintro ⟨rfl, h⟩
      rw [h]; simp

theorem mean_of_const (l : List ℝ) (c : ℝ) (hne : l ≠ []) (h : ∀ v ∈ l, v = c) :
    npMean l = c := by
  have : l = List.replicate l.length c := List.eq_replicate_of_mem h
  unfold npMean
  rw [this]
  simp only [List.sum_replicate, List.length_replicate, nsmul_eq_mul]
  have hl : (l.length : ℝ) ≠ 0 := by
    simpa using hne
  field_simp

/-- The spread of a data set is zero iff all entries are equal. -/
theorem npStd_eq_zero_iff (l : List ℝ) : npStd l = 0 ↔ ∀ a ∈ l, ∀ b ∈ l, a = b := by
  rcases eq_or_ne l [] with rfl | hne
  · simp [npStd]
  have hl : (0 : ℝ) < l.length := by
    have := List.length_pos_iff.2 hne
    exact_mod_cast this
  have hnn : 0 ≤ (l.map (fun v => (v - npMean l) ^ 2)).sum :=
    List.sum_nonneg (by simp only [List.mem_map]; rintro _ ⟨v, _, rfl⟩; positivity)
  unfold npStd
  rw [Real.sqrt_eq_zero (div_nonneg hnn hl.le), div_eq_zero_iff, sum_sq_eq_zero]
  constructor
  · rintro (h | h)
    · intro a ha b hb
      rw [h a ha, h b hb]
    · exact absurd h hl.ne'
  · intro h
    left
    intro v hv
    exact (mean_of_const l v hne (fun w hw => h w hw v hv)).symm

end Rascal
