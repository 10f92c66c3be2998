import Verif.Model.Basis
import Verif.Spec.Basis
import Verif.Props.ModelFns
import Verif.Props.AfterFitProps
import Mathlib.RingTheory.Polynomial.Chebyshev
import Mathlib.Tactic.FieldSimp
import Mathlib.Tactic.LinearCombination

/-! Property theorems C67: the bases offered by `fit_type`. -/

set_option linter.unusedSectionVars false

namespace Rascal

open Spec

section
variable {K : Type _} [Field K]

theorem seriesFrom_append (P : Nat → K) (n : Nat) (a b : List K) :
    seriesFrom P n (a ++ b) = seriesFrom P n a + seriesFrom P (n + a.length) b := by
  induction a generalizing n with
  | nil => simp [seriesFrom]
  | cons c cs ih =>
    simp only [List.cons_append, seriesFrom, ih, List.length_cons]
    rw [show n + 1 + cs.length = n + (cs.length + 1) by omega]
    ring

theorem foldl_horner (rest : List K) (a x : K) :
    rest.foldl (fun c0 b => b + c0 * x) a = evalLow rest.reverse x + a * x ^ rest.length := by
  induction rest generalizing a with
  | nil => simp [evalLow]
  | cons b rest ih =>
    simp only [List.foldl_cons, ih, List.reverse_cons, evalLow_append, List.length_reverse, evalLow,
      List.length_cons, pow_succ]
    ring

/-- `polyval` evaluates the power series. -/
theorem npPolyval_eq (c : List K) (x : K) : npPolyval c x = evalLow c x := by
  unfold npPolyval
  cases h : c.reverse with
  | nil => rw [List.reverse_eq_nil_iff] at h; rw [h]; rfl
  | cons a rest =>
    have hc : c = rest.reverse ++ [a] := by rw [← List.reverse_reverse c, h, List.reverse_cons]
    dsimp only
    rw [foldl_horner, hc, evalLow_append]
    simp only [evalLow, List.length_reverse]
    ring

theorem legP_rec [CharZero K] (k : Nat) (x : K) :
    legP (k + 2) x = x * legP (k + 1) x * ((2 * ((k : K) + 2) - 1) / ((k : K) + 2)) -
      legP k x * (((k : K) + 2 - 1) / ((k : K) + 2)) := by
  have h : ((k : K) + 2) ≠ 0 := by exact_mod_cast (by omega : k + 2 ≠ 0)
  rw [legP]
  field_simp
  ring

theorem foldl_leg [CharZero K] (x : K) (rest : List K) (c0 c1 : K) :
    (rest.foldl (legStep x) (c0, c1, rest.length + 2)).1 +
        (rest.foldl (legStep x) (c0, c1, rest.length + 2)).2.1 * x =
      series (fun n => legP n x) rest.reverse + c0 * legP rest.length x + c1 * legP (rest.length + 1) x := by
  induction rest generalizing c0 c1 with
  | nil => simp [series, seriesFrom, legP]
  | cons b rest ih =>
    rw [List.foldl_cons]
    have hs : legStep x (c0, c1, (b :: rest).length + 2) b =
        (b - c1 * (((rest.length + 2 : Nat) : K) - 1) / ((rest.length + 2 : Nat) : K),
          c0 + c1 * x * ((2 * ((rest.length + 2 : Nat) : K) - 1) / ((rest.length + 2 : Nat) : K)),
          rest.length + 2) := by
      unfold legStep
      simp only [List.length_cons, show rest.length + 1 + 2 - 1 = rest.length + 2 by omega]
      rw [mul_div_assoc]
    rw [hs, ih]
    unfold series
    rw [List.reverse_cons, seriesFrom_append]
    simp only [seriesFrom, List.length_reverse, List.length_cons, Nat.zero_add, add_zero]
    rw [legP_rec rest.length x]
    push_cast
    ring

/-- C67, evaluation: `legval` is the sum of the coefficients times the Legendre polynomials. -/
theorem C67_legval [CharZero K] (c : List K) (x : K) :
    basisVal .legendre c x = series (fun n => legP n x) c := by
  show npLegval c x = _
  unfold npLegval
  cases h : c.reverse with
  | nil => rw [List.reverse_eq_nil_iff] at h; rw [h]; rfl
  | cons c1 l =>
    cases l with
    | nil =>
      have hc : c = [c1] := by rw [← List.reverse_reverse c, h]; rfl
      rw [hc]
      simp [series, seriesFrom, legP]
    | cons c0 rest =>
      have hc : c = rest.reverse ++ [c0, c1] := by rw [← List.reverse_reverse c, h]; simp
      have hl : c.length = rest.length + 2 := by rw [hc]; simp
      dsimp only
      rw [hl, foldl_leg, hc]
      unfold series
      rw [seriesFrom_append]
      simp only [seriesFrom, List.length_reverse, Nat.zero_add, add_zero, add_assoc]

theorem foldl_cheb (x : K) (rest : List K) (c0 c1 : K) :
    (rest.foldl (chebStep x) (c0, c1)).1 + (rest.foldl (chebStep x) (c0, c1)).2 * x =
      series (fun n => chebT n x) rest.reverse + c0 * chebT rest.length x + c1 * chebT (rest.length + 1) x := by
  induction rest generalizing c0 c1 with
  | nil => simp [series, seriesFrom, chebT]
  | cons b rest ih =>
    rw [List.foldl_cons]
    rw [show chebStep x (c0, c1) b = (b - c1, c0 + c1 * (2 * x)) from rfl, ih]
    unfold series
    rw [List.reverse_cons, seriesFrom_append]
    simp only [seriesFrom, List.length_reverse, List.length_cons, Nat.zero_add, add_zero]
    rw [chebT]
    ring

/-- C67, evaluation: `chebval` is the sum of the coefficients times the Chebyshev polynomials. -/
theorem C67_chebval (c : List K) (x : K) :
    basisVal .chebyshev c x = series (fun n => chebT n x) c := by
  show npChebval c x = _
  unfold npChebval
  cases h : c.reverse with
  | nil => rw [List.reverse_eq_nil_iff] at h; rw [h]; rfl
  | cons c1 l =>
    cases l with
    | nil =>
      have hc : c = [c1] := by rw [← List.reverse_reverse c, h]; rfl
      rw [hc]
      simp [series, seriesFrom, chebT]
    | cons c0 rest =>
      have hc : c = rest.reverse ++ [c0, c1] := by rw [← List.reverse_reverse c, h]; simp
      dsimp only
      rw [foldl_cheb, hc]
      unfold series
      rw [seriesFrom_append]
      simp only [seriesFrom, List.length_reverse, Nat.zero_add, add_zero, add_assoc]

/-- The specification agrees with the Chebyshev polynomials of Mathlib. -/
theorem chebT_eq (n : Nat) (x : K) : chebT n x = (Polynomial.Chebyshev.T K n).eval x := by
  induction n using Nat.twoStepInduction with
  | zero => simp [chebT]
  | one => simp [chebT]
  | more n ih1 ih2 =>
    rw [chebT, ih1, ih2]
    have := Polynomial.Chebyshev.T_add_two K (n : ℤ)
    push_cast
    rw [this]
    simp

/-- C67, what holds: up to degree 1, and for `poly` at every degree, evaluating coefficients in the chosen
basis is evaluating them as powers, which is what the robust fit assumes. -/
theorem C67_power_partial (t : FitType) (ht : t ≠ .other) (c : List K) (h : t = .poly ∨ c.length ≤ 2) (x : K) :
    basisVal t c x = evalLow c x := by
  cases t with
  | other => exact absurd rfl ht
  | poly => exact npPolyval_eq c x
  | legendre =>
    match c, h with
    | [], _ => rfl
    | [a], _ => simp [basisVal, npLegval, evalLow]
    | [a, b], _ => simp [basisVal, npLegval, evalLow, mul_comm]
    | _ :: _ :: _ :: _, h => simp at h
  | chebyshev =>
    match c, h with
    | [], _ => rfl
    | [a], _ => simp [basisVal, npChebval, evalLow]
    | [a, b], _ => simp [basisVal, npChebval, evalLow, mul_comm]
    | _ :: _ :: _ :: _, h => simp at h

/-- C67, how far off it is at degree 2. -/
theorem C67_quadratic_partial [CharZero K] (a b c x : K) :
    basisVal .legendre [a, b, c] x = evalLow [a, b, c] x + c * (x ^ 2 - 1) / 2 ∧
    basisVal .chebyshev [a, b, c] x = evalLow [a, b, c] x + c * (x ^ 2 - 1) := by
  rw [C67_legval, C67_chebval]
  simp only [series, seriesFrom, legP, chebT, evalLow]
  constructor
  · field_simp
    push_cast
    ring
  · ring

end

/-- C67, the gradient, what holds: up to degree 1, and for `poly` at every degree, the gradient used for
the weight is the derivative of the solution. -/
theorem C67_gradient_partial (t : FitType) (ht : t ≠ .other) (c : List ℝ) (h : t = .poly ∨ c.length ≤ 2)
    (x : ℝ) : HasDerivAt (basisVal t c) (basisVal t (derivativeCoeffs c) x) x := by
  have h1 : basisVal t c = fun x => evalLow c x := funext (C67_power_partial t ht c h)
  have h2 : basisVal t (derivativeCoeffs c) x = evalLow (derivativeCoeffs c) x := by
    refine C67_power_partial t ht _ (h.imp id (fun h => ?_)) x
    rw [derivativeCoeffs_length]; omega
  rw [h1, h2]
  exact (C20_derivative c x).2

/-- C67, the gradient at degree 2: wrong by `c x` for Legendre and `2 c x` for Chebyshev. -/
theorem C67_gradient_quadratic_partial (a b c x : ℝ) :
    HasDerivAt (basisVal .legendre [a, b, c]) (basisVal .legendre (derivativeCoeffs [a, b, c]) x + c * x) x ∧
    HasDerivAt (basisVal .chebyshev [a, b, c])
      (basisVal .chebyshev (derivativeCoeffs [a, b, c]) x + 2 * (c * x)) x := by
  have hd : derivativeCoeffs [a, b, c] = [b, 2 * c] := by
    simp [derivativeCoeffs, List.range'_succ]
  have e1 : ∀ t : FitType, t ≠ .other → basisVal t [b, 2 * c] x = b + 2 * c * x := by
    intro t ht
    rw [C67_power_partial t ht _ (.inr (by simp)) x]
    simp [evalLow]; ring
  have e2 : evalLow (derivativeCoeffs [a, b, c]) x = b + 2 * c * x := by
    rw [hd]; simp [evalLow]; ring
  have hp := (C20_derivative [a, b, c] x).2
  rw [e2] at hp
  rw [hd, e1 _ (by decide), e1 _ (by decide)]
  have hsq : HasDerivAt (fun t : ℝ => t ^ 2 - 1) (2 * x) x := by
    simpa using (hasDerivAt_pow 2 x).sub_const 1
  constructor
  · have h1 : basisVal .legendre [a, b, c] = fun t => evalLow [a, b, c] t + c / 2 * (t ^ 2 - 1) := by
      funext t; rw [(C67_quadratic_partial a b c t).1]; ring
    rw [h1]
    exact (hp.add (hsq.const_mul (c / 2))).congr_deriv (by ring)
  · have h1 : basisVal .chebyshev [a, b, c] = fun t => evalLow [a, b, c] t + c * (t ^ 2 - 1) := by
      funext t; rw [(C67_quadratic_partial a b c t).2]
    rw [h1]
    exact (hp.add (hsq.const_mul c)).congr_deriv (by ring)

/-! ### refutations -/

/-- The expected behaviour: the coefficients of the robust fit, which are those of powers, are evaluated as
such. -/
def C67_Statement : Prop :=
  ∀ (t : FitType), t ≠ .other → ∀ (c : List ℚ) (x : ℚ), basisVal t c x = evalLow c x

theorem C67_refuted : ¬ C67_Statement := by
  intro h
  exact absurd (h .legendre (by decide) [3000, 100, 1 / 10] 10) (by decide +kernel)

/-- The expected behaviour of the gradient. -/
def C67_gradient_Statement : Prop :=
  ∀ (t : FitType), t ≠ .other → ∀ (c : List ℝ) (x : ℝ),
    HasDerivAt (basisVal t c) (basisVal t (derivativeCoeffs c) x) x

theorem C67_gradient_refuted : ¬ C67_gradient_Statement := by
  intro h
  have h1 := (C67_gradient_quadratic_partial 0 0 1 1).1
  have h2 := h .legendre (by decide) [0, 0, 1] 1
  have := h2.unique h1
  linarith

/-! ### a fit of exactly quadratic data -/

/-- The parabola through three points, lowest order first. -/
def Toy.parabola : List ℚ → List ℚ → PyRes (List ℚ)
  | [x0, x1, x2], [y0, y1, y2] =>
    let d0 := (x0 - x1) * (x0 - x2)
    let d1 := (x1 - x0) * (x1 - x2)
    let d2 := (x2 - x0) * (x2 - x1)
    if d0 * d1 * d2 = 0 then .error .linAlg
    else .ok [y0 * x1 * x2 / d0 + y1 * x0 * x2 / d1 + y2 * x0 * x1 / d2,
      -(y0 * (x1 + x2) / d0 + y1 * (x0 + x2) / d1 + y2 * (x0 + x1) / d2), y0 / d0 + y1 / d1 + y2 / d2]
  | _, _ => .error .valueError

/-- The coefficients of a parabola in the given basis. -/
def Toy.inBasis : FitType → List ℚ → List ℚ
  | .legendre, [a, b, c] => [a + c / 3, b, c * 2 / 3]
  | .chebyshev, [a, b, c] => [a + c / 2, b, c / 2]
  | _, l => l

/-- Fitting routines that interpolate three points: `polyfit` in the chosen basis, the robust fit always
in powers. -/
def Toy.quadEnv : FitEnv ℚ :=
  ⟨fun t => { polyfit := fun xs ys n => if n = 2 then
                (Toy.parabola (Toy.finites xs) (Toy.finites ys)).map (Toy.inBasis t) else .error .valueError
              polyval := basisVal t
              robust := fun xs ys n => if n = 2 then Toy.parabola xs ys else .error .valueError
              sqrt := Toy.root
              spline := fun _ _ _ => .ok (fun _ _ => 0) },
    fun _ _ _ => 1, stableArgsort, stableArgsort, true⟩

/-- Three peaks and lines exactly on the parabola `3000 + 190 x + x² / 10`. -/
def Toy.quadPeaks : PyRes (World ℚ) :=
  match Cal.new (fun _ => .ok ()) [10, 20, 31] true none with
  | .error e => .error e
  | .ok c => .ok (World.steps Toy.calEnv ⟨[Toy.atlasOf [4910, 6840, 89861 / 10]], c⟩
      [.setHough { numSlopes := some 3, xbins := some 4, ybins := some 4 },
       .setRansac { sampleSize := some 3, minFitError := some 0 },
       .setAtlas 0 10 false])

/-- The arguments of these fits. -/
def Toy.quadArgs (t : FitType) : FitArgs ℚ := { fitDeg := 2, candTol := 600, maxTries := 1, fitType := t }

/-- The expected behaviour of `fit` with numpy's evaluation: if the powers with the returned coefficients
give every matched wavelength exactly, the residuals are 0. -/
def C67_fit_Statement : Prop :=
  ∀ (F : FitEnv ℚ) (w : World ℚ) (a : FitArgs ℚ) (rnd : FitRandom ℚ) (r : FitReport ℚ),
    IsArgsort F.argsortK → (∀ t, (F.kern t).polyval = basisVal t) → (w.fit F a rnd).2 = .done (.ok r) →
    (∀ e ∈ r.matchedPeaks.zip r.matchedAtlas, evalLow r.coeffs e.1 = e.2) →
    ∀ res, r.residual = some res → ∀ v ∈ res, v = 0

/-- The fit of exactly quadratic data with `fit_type="legendre"` finds the parabola, evaluates it as a
Legendre series and reports residuals of 99/20 and more. -/
theorem C67_fit_refuted : ¬ C67_fit_Statement := by
  intro h
  have hc : Toy.quadPeaks.toOption.map (fun w =>
      (Toy.report (w.fit Toy.quadEnv (Toy.quadArgs .legendre) Toy.rnd)).map (fun r =>
        (r.coeffs, r.matchedPeaks, r.matchedAtlas, r.residual))) =
      some (some ([3000, 190, 1 / 10], [10, 20, 31], [4910, 6840, 89861 / 10], some [99 / 20, 5, 5])) := by
    decide +kernel
  cases hs : Toy.quadPeaks with
  | error e => rw [hs] at hc; simp [Except.toOption] at hc
  | ok w =>
    rw [hs] at hc
    simp only [Except.toOption, Option.map_some, Option.some.injEq, Option.map_eq_some_iff,
      Prod.mk.injEq] at hc
    obtain ⟨r, hr, h1, h2, h3, h4⟩ := hc
    have hf : (w.fit Toy.quadEnv (Toy.quadArgs .legendre) Toy.rnd).2 = .done (.ok r) := by
      unfold Toy.report at hr
      split at hr
      · rename_i y hy; rw [hy]; cases hr; rfl
      · cases hr
    have := h _ w _ _ r stableArgsort_isArgsort (fun _ => rfl) hf
      (by rw [h1, h2, h3]; decide +kernel) _ h4 5 (by simp)
    exact absurd this (by decide +kernel)

/-- C67 for `fit`, what holds: for `poly`, or up to degree 1, the residuals are the matched wavelengths
subtracted from the powers with the returned coefficients, provided these are within the tolerance. -/
theorem C67_fit_partial {K : Type _} [Field K] [LinearOrder K] [IsStrictOrderedRing K] [FloorRing K]
    (F : FitEnv K) (ha : IsArgsort F.argsortK) (w : World K) (a : FitArgs K) (rnd : FitRandom K)
    (r : FitReport K) (hv : (F.kern a.fitType).polyval = basisVal a.fitType)
    (h : (w.fit F a rnd).2 = .done (.ok r)) (hd : a.fitType = .poly ∨ r.coeffs.length ≤ 2)
    (hin : ∀ e ∈ r.matchedPeaks.zip r.matchedAtlas, |evalLow r.coeffs e.1 - e.2| ≤ w.cal.ransac.tol) :
    r.residual = some (List.zipWith (fun p l => evalLow r.coeffs p - l) r.matchedPeaks r.matchedAtlas) := by
  have ht : a.fitType ≠ .other := by
    intro hft
    unfold World.fit at h
    rw [if_pos hft] at h
    cases h
  have hval : (F.kern a.fitType).polyval r.coeffs = fun x => evalLow r.coeffs x := by
    rw [hv]; exact funext (C67_power_partial _ ht _ hd)
  have := C104_residual_partial F ha w a rnd r h (by
    intro e he; rw [hval]; exact hin e he)
  rw [this, hval]

/-- A case meeting the hypotheses of `C67_fit_partial`: the same data with `fit_type="poly"`. -/
example : IsArgsort Toy.quadEnv.argsortK ∧ Toy.quadPeaks.toOption.map (fun w =>
      (Toy.report (w.fit Toy.quadEnv (Toy.quadArgs .poly) Toy.rnd)).map (fun r =>
        (r.coeffs, r.matchedPeaks, r.residual))) =
      some (some ([3000, 190, 1 / 10], [10, 20, 31], some [0, 0, 0])) :=
  ⟨stableArgsort_isArgsort, by decide +kernel⟩

/-- `legval` and `chebval` of `1 + 2 P_1 + 3 P_2 + 4 P_3` at 2. -/
example : basisVal .legendre [1, 2, 3, 4] (2 : ℚ) = 179 / 2 ∧
    basisVal .chebyshev [1, 2, 3, 4] (2 : ℚ) = 130 := by decide +kernel

end Rascal
