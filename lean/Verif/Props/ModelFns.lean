import Verif.Proofs.RobustLemmas
import Mathlib.Analysis.Calculus.Deriv.Polynomial

/-!
Property theorems C19-C23: model functions and robust polynomial fit.
-/

namespace Rascal

open Finset

variable {K : Type _}

/-! ### C19 -/

/-- C19.  A list of `degree + 1` coefficients gives the function
`x ↦ ∑ a[degree - i] * x ^ i`, i.e. the highest-order-first polynomial; any other length raises. -/
theorem C19_polynomial [CommSemiring K] (a : List K) (degree : Nat) :
    (a.length = degree + 1 → ∃ f, polynomial a degree = .ok f ∧
      ∀ x, f x = ∑ i ∈ range (degree + 1), a.getD (degree - i) 0 * x ^ i ∧
        f x = Spec.evalHigh a x) ∧
    (a.length ≠ degree + 1 → polynomial a degree = .error .assertionError) := by
  constructor
  · intro h
    exact ⟨polyLoop a degree, by simp [polynomial, h], fun x =>
      ⟨polyLoop_eq_sum a degree h x, polyLoop_eq_evalHigh a degree h x⟩⟩
  · intro h
    simp [polynomial, h]

/-- C19, residuals: `poly_cost_function` is target minus prediction, point by point. -/
theorem C19_residuals [CommRing K] (a x y : List K) (degree : Nat) (h : a.length = degree + 1) :
    polyCost a x y degree =
      .ok (List.zipWith (fun xi yi => yi - Spec.evalHigh a xi) x y) := by
  have : polyLoop a degree = Spec.evalHigh a := funext (polyLoop_eq_evalHigh a degree h)
  simp [polyCost, polynomial, h, this]

/-- A case for `C19_polynomial` and `C19_residuals`: `3x² + 2x + 1` at `2`. -/
example : ∃ f, polynomial [3, 2, (1 : ℤ)] 2 = .ok f ∧ f 2 = 17 := ⟨_, rfl, by decide⟩

/-! ### C20 -/

/-- C20.  `_derivative` returns one coefficient less, and they are the coefficients of the
derivative of the (lowest-order-first) polynomial. -/
theorem C20_derivative (p : List ℝ) (x : ℝ) :
    (derivativeCoeffs p).length = p.length - 1 ∧
    HasDerivAt (fun t => Spec.evalLow p t) (Spec.evalLow (derivativeCoeffs p) x) x := by
  refine ⟨derivativeCoeffs_length p, ?_⟩
  have h1 : (fun t => Spec.evalLow p t) = fun t => (toPoly p).eval t := by
    funext t; rw [toPoly_eval]
  have h2 : toPoly (derivativeCoeffs p) = Polynomial.derivative (toPoly p) := by
    ext i
    rw [toPoly_coeff, Polynomial.coeff_derivative, toPoly_coeff]
    by_cases h : i + 1 < p.length
    · rw [derivativeCoeffs_getD p i h]; ring
    · rw [List.getD, List.getD, List.getElem?_eq_none (by rw [derivativeCoeffs_length]; omega),
        List.getElem?_eq_none (by omega)]
      simp
  rw [h1, ← toPoly_eval, h2]
  exact Polynomial.hasDerivAt _ _

example : derivativeCoeffs [7, 5, 3, (2 : ℤ)] = [5, 6, 6] := by decide

/-! ### C21 -/

/-- The solver contract used throughout: a starting point with `d + 1` entries gives an answer with
`d + 1` entries. -/
def KeepsLength (solve : (List ℝ → PyRes (List ℝ)) → List ℝ → List ℝ) (d : Nat) : Prop :=
  ∀ F p0, p0.length = d + 1 → (solve F p0).length = d + 1

/-- C21.  On success there is a starting point such that, `p` being the solver's answer on the
unit-variance data, the returned lowest-first coefficients describe `std(y) * p(x / std(x))`, and
the residuals in user units are `std(y)` times the solver's residuals. -/
theorem C21_denormalisation (solve : (List ℝ → PyRes (List ℝ)) → List ℝ → List ℝ)
    (x y : List ℝ) (d : Nat) (hs : KeepsLength solve d) (x0 : Option (List ℝ)) (out : List ℝ)
    (h : robustPolyfit solve x y d x0 = .ok out) :
    ∃ p0 : List ℝ, p0.length = d + 1 ∧
      let p := solve (fun a => polyCost a (x.map (· / npStd x)) (y.map (· / npStd y)) d) p0
      out.length = d + 1 ∧
      (∀ t, Spec.evalLow out t = npStd y * Spec.evalHigh p (t / npStd x)) ∧
      ∃ r, polyCost p (x.map (· / npStd x)) (y.map (· / npStd y)) d = .ok r ∧
        List.zipWith (fun xi yi => yi - Spec.evalLow out xi) x y = r.map (npStd y * ·) := by
  -- common part
  have key : ∀ p0 : List ℝ, p0.length = d + 1 → npStd y ≠ 0 →
      out = denormalise x y d
        (solve (fun a => polyCost a (x.map (· / npStd x)) (y.map (· / npStd y)) d) p0) →
      let p := solve (fun a => polyCost a (x.map (· / npStd x)) (y.map (· / npStd y)) d) p0
      out.length = d + 1 ∧
      (∀ t, Spec.evalLow out t = npStd y * Spec.evalHigh p (t / npStd x)) ∧
      ∃ r, polyCost p (x.map (· / npStd x)) (y.map (· / npStd y)) d = .ok r ∧
        List.zipWith (fun xi yi => yi - Spec.evalLow out xi) x y = r.map (npStd y * ·) := by
    intro p0 hp0 hy hout p
    have hp : p.length = d + 1 := hs _ _ hp0
    have hv : ∀ t, Spec.evalLow out t = npStd y * Spec.evalHigh p (t / npStd x) := by
      intro t; rw [hout]; exact evalLow_denormalise x y d p hp t
    refine ⟨by rw [hout, denormalise_length]; exact hp, hv, _, C19_residuals p _ _ d hp, ?_⟩
    rw [List.zipWith_map, List.map_zipWith]
    congr 1
    funext xi yi
    rw [hv]
    field_simp
  unfold robustPolyfit at h
  cases x0 with
  | none =>
    simp only at h
    split at h
    · cases h
    · rename_i hc
      simp only [normaliseInput, Except.ok.injEq] at h
      refine ⟨List.replicate (d + 1) 1, by simp, key _ (by simp) ?_ h.symm⟩
      exact fun h0 => hc (Or.inl h0)
  | some p =>
    simp only at h
    split at h
    · cases h
    · split at h
      · cases h
      · split at h
        · cases h
        · rename_i hl hc
          simp only [normaliseInput, Except.ok.injEq] at h
          have hlen : (normaliseInit x y d p).length = d + 1 := by
            simp only [normaliseInit, List.length_map, List.length_mapIdx]
            omega
          refine ⟨normaliseInit x y d p, hlen, key _ hlen ?_ h.symm⟩
          exact fun h0 => hc (Or.inl h0)

/-- C21, when it raises (no starting point given): exactly when the targets are all equal, or the
abscissae are all equal and the degree is positive. -/
theorem C21_error (solve : (List ℝ → PyRes (List ℝ)) → List ℝ → List ℝ)
    (x y : List ℝ) (d : Nat) :
    (∃ e, robustPolyfit solve x y d none = .error e) ↔
      (∀ a ∈ y, ∀ b ∈ y, a = b) ∨ ((∀ a ∈ x, ∀ b ∈ x, a = b) ∧ d ≠ 0) := by
  rw [← npStd_eq_zero_iff, ← npStd_eq_zero_iff]
  unfold robustPolyfit
  simp only [normaliseInput]
  split
  · rename_i h; simp [h]
  · rename_i h; simp [h]

/-- Data with spread: the call does not raise, whatever the solver (a case for `C21_denormalisation`). -/
example (solve) : ∃ out, robustPolyfit solve [0, 2, 5] [1, 2, 4] 1 none = .ok out := by
  have h := (C21_error solve [0, 2, 5] [1, 2, 4] 1).not
  cases hr : robustPolyfit solve [0, 2, 5] [1, 2, 4] 1 none with
  | ok out => exact ⟨out, rfl⟩
  | error e => exact absurd ⟨e, hr⟩ (h.2 (by norm_num))

/-! ### C22 -/

/-- Total loss of a residual list. -/
noncomputable def Spec.totalLoss (rho : ℝ → ℝ) (rs : List ℝ) : ℝ := (rs.map rho).sum

/-- Residuals of a lowest-first polynomial on the data. -/
noncomputable def Spec.residuals (q x y : List ℝ) : List ℝ :=
  List.zipWith (fun xi yi => yi - Spec.evalLow q xi) x y

/-- The Huber loss of `scipy.optimize.least_squares` as a function of the residual. -/
noncomputable def Spec.huber (r : ℝ) : ℝ := if r ^ 2 ≤ 1 then r ^ 2 else 2 * |r| - 1

/-- On the residual function of this data set the solver's answer is a global minimiser of the loss
among coefficient lists of length `d + 1`. -/
def GlobalMinimiser (rho : ℝ → ℝ) (solve : (List ℝ → PyRes (List ℝ)) → List ℝ → List ℝ)
    (x y : List ℝ) (d : Nat) : Prop :=
  let F : List ℝ → PyRes (List ℝ) :=
    fun a => polyCost a (x.map (· / npStd x)) (y.map (· / npStd y)) d
  ∀ p0 a r r' : List ℝ, p0.length = d + 1 → a.length = d + 1 → F (solve F p0) = .ok r →
    F a = .ok r' → Spec.totalLoss rho r ≤ Spec.totalLoss rho r'

/-- C22, optimality.  If the solver is a global minimiser, no lowest-first polynomial of the same
degree has a smaller loss (residuals measured in units of `std(y)`). -/
theorem C22_optimal (rho : ℝ → ℝ) (solve : (List ℝ → PyRes (List ℝ)) → List ℝ → List ℝ)
    (x y : List ℝ) (d : Nat) (hs : KeepsLength solve d) (ho : GlobalMinimiser rho solve x y d)
    (x0 : Option (List ℝ)) (out : List ℝ)
    (h : robustPolyfit solve x y d x0 = .ok out) (q : List ℝ) (hq : q.length = d + 1) :
    Spec.totalLoss rho ((Spec.residuals out x y).map (· / npStd y)) ≤
      Spec.totalLoss rho ((Spec.residuals q x y).map (· / npStd y)) := by
  -- zero spread raises
  have hne : npStd y ≠ 0 ∧ (npStd x ≠ 0 ∨ d = 0) := by
    unfold robustPolyfit at h
    cases x0 with
    | none =>
      simp only at h
      split at h
      · cases h
      · rename_i hc; tauto
    | some p =>
      simp only at h
      split at h
      · cases h
      · split at h
        · cases h
        · split at h
          · cases h
          · rename_i hc; tauto
  obtain ⟨p0, hp0, hlen, hval, r, hr, hres⟩ := C21_denormalisation solve x y d hs x0 out h
  set F := fun a => polyCost a (x.map (· / npStd x)) (y.map (· / npStd y)) d with hF
  have hqn : (renormalise x y q).length = d + 1 := by simp [renormalise, hq]
  have hmin := ho p0 (renormalise x y q) r _ hp0 hqn hr (C19_residuals _ _ _ d hqn)
  have hqv : ∀ t, Spec.evalLow q t = npStd y * Spec.evalHigh (renormalise x y q) (t / npStd x) := by
    intro t
    conv_lhs => rw [← denormalise_renormalise x y d q hq hne.2 hne.1]
    exact evalLow_denormalise x y d _ hqn t
  have e1 : (Spec.residuals out x y).map (· / npStd y) = r := by
    unfold Spec.residuals
    rw [hres, List.map_map]
    have : ((fun t => t / npStd y) ∘ fun t => npStd y * t) = id := by
      funext t; simp only [Function.comp, id]; field_simp [hne.1]
    rw [this, List.map_id]
  have e2 : (Spec.residuals q x y).map (· / npStd y) =
      List.zipWith (fun xi yi => yi - Spec.evalHigh (renormalise x y q) xi)
        (x.map (· / npStd x)) (y.map (· / npStd y)) := by
    unfold Spec.residuals
    rw [List.zipWith_map, List.map_zipWith]
    congr 1
    funext xi yi
    rw [hqv]
    field_simp [hne.1]
  rw [e1, e2]
  exact hmin

/-- C22, exact recovery.  On data lying exactly on a polynomial of the degree, with more distinct
abscissae than the degree, a globally minimising solver yields exactly that polynomial. -/
theorem C22_exact_recovery (rho : ℝ → ℝ) (hrho0 : ∀ r, 0 ≤ rho r) (hrho : ∀ r, rho r = 0 ↔ r = 0)
    (solve : (List ℝ → PyRes (List ℝ)) → List ℝ → List ℝ)
    (x y : List ℝ) (d : Nat) (hs : KeepsLength solve d) (ho : GlobalMinimiser rho solve x y d)
    (x0 : Option (List ℝ)) (out : List ℝ)
    (h : robustPolyfit solve x y d x0 = .ok out) (q : List ℝ) (hq : q.length = d + 1)
    (hdata : y = x.map (Spec.evalLow q)) (hdist : d < x.toFinset.card) : out = q := by
  obtain ⟨p0, hp0, hlen, _⟩ := C21_denormalisation solve x y d hs x0 out h
  have hopt := C22_optimal rho solve x y d hs ho x0 out h q hq
  have hq0 : ∀ r ∈ (Spec.residuals q x y).map (· / npStd y), r = 0 := by
    intro r hr
    unfold Spec.residuals at hr
    rw [hdata, List.zipWith_map_right] at hr
    simp at hr
    tauto
  have hsum0 : Spec.totalLoss rho ((Spec.residuals q x y).map (· / npStd y)) = 0 := by
    unfold Spec.totalLoss
    apply List.sum_eq_zero
    intro v hv
    obtain ⟨r, hr, rfl⟩ := List.mem_map.1 hv
    exact (hrho r).2 (hq0 r hr)
  rw [hsum0] at hopt
  have hnn : ∀ v ∈ ((Spec.residuals out x y).map (· / npStd y)).map rho, 0 ≤ v := by
    intro v hv
    obtain ⟨r, _, rfl⟩ := List.mem_map.1 hv
    exact hrho0 r
  have hz : ((((Spec.residuals out x y).map (· / npStd y)).map rho)).sum = 0 :=
    le_antisymm hopt (List.sum_nonneg hnn)
  have hall : ∀ v ∈ ((Spec.residuals out x y).map (· / npStd y)).map rho, v = 0 :=
    fun v hv => List.all_zero_of_le_zero_le_of_sum_eq_zero hnn hz hv
  have hy : npStd y ≠ 0 := by
    intro h0
    unfold robustPolyfit at h
    cases x0 with
    | none => simp [h0] at h
    | some p =>
      simp only [h0, true_or, if_true] at h
      split at h
      · cases h
      · split at h <;> cases h
  apply evalLow_ext out q (by rw [hlen, hq]) x (by omega)
  intro xi hxi
  have hm : Spec.evalLow q xi - Spec.evalLow out xi ∈ Spec.residuals out x y := by
    unfold Spec.residuals
    rw [hdata, List.zipWith_map_right]
    rw [List.mem_iff_getElem] at hxi ⊢
    obtain ⟨i, hi, rfl⟩ := hxi
    exact ⟨i, by simpa using hi, by simp⟩
  have := hall _ (List.mem_map_of_mem (List.mem_map_of_mem hm))
  rw [hrho, div_eq_zero_iff] at this
  rcases this with h1 | h1
  · linarith
  · exact absurd h1 hy

/-- The loss used by the code satisfies the hypotheses of `C22_exact_recovery`. -/
theorem huber_nonneg_zero : (∀ r, 0 ≤ Spec.huber r) ∧ ∀ r, Spec.huber r = 0 ↔ r = 0 := by
  constructor
  · intro r
    unfold Spec.huber
    split
    · positivity
    · rename_i h
      have : 1 < |r| := by
        by_contra hc
        push Not at hc
        exact h (by rw [← sq_abs]; nlinarith [abs_nonneg r])
      linarith
  · intro r
    unfold Spec.huber
    split
    · simp
    · rename_i h
      have : 1 < |r| := by
        by_contra hc
        push Not at hc
        exact h (by rw [← sq_abs]; nlinarith [abs_nonneg r])
      constructor
      · intro h0; linarith
      · rintro rfl; norm_num at this

theorem npStd_pair (a b : ℝ) (h : a ≤ b) : npStd [a, b] = (b - a) / 2 := by
  unfold npStd npMean
  simp only [List.map_cons, List.map_nil, List.sum_cons, List.sum_nil, List.length_cons,
    List.length_nil]
  rw [show (((a - (a + (b + 0)) / ((0 + 1 + 1 : ℕ) : ℝ)) ^ 2 +
    ((b - (a + (b + 0)) / ((0 + 1 + 1 : ℕ) : ℝ)) ^ 2 + 0)) / ((0 + 1 + 1 : ℕ) : ℝ))
      = ((b - a) / 2) ^ 2 by push_cast; ring]
  exact Real.sqrt_sq (by linarith)

/-- Both solver contracts of `C22_optimal` can be met, and the recovery theorem applies: data on `1 + 2x`. -/
example : ∃ solve, KeepsLength solve 1 ∧ GlobalMinimiser Spec.huber solve [0, 2] [1, 5] 1 ∧
    robustPolyfit solve [0, 2] [1, 5] 1 none = .ok [1, 2] := by
  have hx : npStd [0, 2] = 1 := by rw [npStd_pair 0 2 (by norm_num)]; norm_num
  have hy : npStd [1, 5] = 2 := by rw [npStd_pair 1 5 (by norm_num)]; norm_num
  refine ⟨fun _ _ => [1, 1/2], fun _ _ _ => rfl, ?_, ?_⟩
  · intro p0 a r r' _ ha hr hr'
    have h0 : Spec.totalLoss Spec.huber r = 0 := by
      beta_reduce at hr
      rw [C19_residuals [1, 1/2] _ _ 1 rfl, hx, hy] at hr
      cases hr
      norm_num [Spec.totalLoss, Spec.evalHigh, Spec.evalLow, Spec.huber]
    rw [h0]
    apply List.sum_nonneg
    intro v hv
    obtain ⟨r, _, rfl⟩ := List.mem_map.1 hv
    exact huber_nonneg_zero.1 r
  · norm_num [robustPolyfit, hx, hy, denormalise, normaliseInput]

/-! ### C23 -/

/-- C23, full statement: the normalised starting point represents the supplied coefficients
(lowest order first, as `fit` and `manual_refit` use them). -/
def C23_Statement : Prop :=
  ∀ (x y : List ℝ) (d : Nat) (p : List ℝ), p.length = d + 1 → npStd x ≠ 0 → npStd y ≠ 0 →
    ∀ t, npStd y * Spec.evalHigh (normaliseInit x y d p) (t / npStd x) = Spec.evalLow p t

/-- The same with the other possible convention, highest order first. -/
def C23_StatementHigh : Prop :=
  ∀ (x y : List ℝ) (d : Nat) (p : List ℝ), p.length = d + 1 → npStd x ≠ 0 → npStd y ≠ 0 →
    ∀ t, npStd y * Spec.evalHigh (normaliseInit x y d p) (t / npStd x) = Spec.evalHigh p t

/-- C23 is false of the code under either convention. -/
theorem C23_refuted : ¬ C23_Statement ∧ ¬ C23_StatementHigh := by
  have hx : npStd [0, 4] = 2 := by rw [npStd_pair 0 4 (by norm_num)]; norm_num
  have hy : npStd [0, 2] = 1 := by rw [npStd_pair 0 2 (by norm_num)]; norm_num
  constructor
  · intro h
    have := h [0, 4] [0, 2] 1 [0, 1] rfl (by rw [hx]; norm_num) (by rw [hy]; norm_num) 2
    simp [normaliseInit, Spec.evalHigh, Spec.evalLow, hx, hy] at this
  · intro h
    have := h [0, 4] [0, 2] 1 [1, 0] rfl (by rw [hx]; norm_num) (by rw [hy]; norm_num) 2
    simp [normaliseInit, Spec.evalHigh, Spec.evalLow, hx, hy] at this

/-- C23, what is true: read highest-first, the supplied polynomial is represented when the
abscissae already have unit spread.  Missing: any other spread, and the lowest-first reading. -/
theorem C23_start_partial (x y : List ℝ) (d : Nat) (p : List ℝ) (hp : p.length = d + 1)
    (hx : npStd x = 1) (hy : npStd y ≠ 0) (t : ℝ) :
    npStd y * Spec.evalHigh (normaliseInit x y d p) (t / npStd x) = Spec.evalHigh p t := by
  have hl : (normaliseInit x y d p).length = d + 1 := by simp [normaliseInit, hp]
  rw [evalHigh_eq_sum _ d hl, evalHigh_eq_sum _ d hp, mul_sum]
  apply sum_congr rfl
  intro i hi
  have hi := mem_range.1 hi
  have hg : (normaliseInit x y d p).getD (d - i) 0 = p.getD (d - i) 0 / npStd y := by
    unfold normaliseInit
    rw [List.getD, List.getElem?_map, List.getElem?_mapIdx, List.getD,
      List.getElem?_eq_getElem (by omega)]
    simp [hx]
  rw [hg, hx]
  field_simp

example : npStd [0, 2] = 1 := by rw [npStd_pair 0 2 (by norm_num)]; norm_num

end Rascal
