import Verif.Props.NoiseProps
import Verif.Props.PixelZeroProps
import Verif.Props.QuadraticProps
import Verif.Props.BasisProps

/-! Property theorem C214: what some right matches of a fit say about its other matches. -/

set_option linter.unusedSectionVars false

namespace Rascal

section
variable {K : Type _} [Field K] [LinearOrder K] [IsStrictOrderedRing K]

/-- Fits of degree `d` are polynomials of degree at most `d`, in whatever basis the coefficients are given. -/
def Spec.OfDegree (k : Kernels K) (d : Nat) : Prop :=
  ∀ x y t, k.polyfit x y d = .ok t → ∃ c : List K, c.length = d + 1 ∧ ∀ p, k.polyval t p = Spec.evalLow c p

/-- The calibration `q` passes through matches at each of the pixels. -/
def Spec.Through (q : List K) (pts : Finset K) (matches_ : List (K × K)) : Prop :=
  ∀ i ∈ pts, (i, Spec.evalLow q i) ∈ matches_

open Spec

theorem near_growth (p q : List K) (d : Nat) (hp : p.length = d + 1) (hq : q.length = d + 1) (pts : Finset K)
    (hc : pts.card = d + 1) (β : K) (h : ∀ i ∈ pts, |evalLow p i - evalLow q i| ≤ β) (t : K) :
    |evalLow p t - evalLow q t| ≤ β * growth pts t := by
  have hpoly : toPoly p - toPoly q = Lagrange.interpolate pts id (fun i => evalLow p i - evalLow q i) := by
    have h1 : (toPoly p - toPoly q).degree < pts.card := by
      refine lt_of_le_of_lt (Polynomial.degree_sub_le _ _) ?_
      rw [hc]
      refine max_lt ?_ ?_
      · have := toPoly_degree_lt p
        rwa [hp] at this
      · have := toPoly_degree_lt q
        rwa [hq] at this
    refine Lagrange.eq_interpolate_of_eval_eq _ Function.injective_id.injOn h1 ?_
    intro i _
    rw [Polynomial.eval_sub, toPoly_eval, toPoly_eval]
    rfl
  have hval : evalLow p t - evalLow q t =
      ∑ i ∈ pts, (evalLow p i - evalLow q i) * ∏ j ∈ pts.erase i, (t - j) / (i - j) := by
    have := congrArg (Polynomial.eval t) hpoly
    rw [Polynomial.eval_sub, toPoly_eval, toPoly_eval, Lagrange.interpolate_apply, Polynomial.eval_finset_sum] at this
    rw [this]
    apply Finset.sum_congr rfl
    intro i _
    rw [Polynomial.eval_mul, Polynomial.eval_C]
    congr 1
    unfold Lagrange.basis
    rw [Polynomial.eval_prod]
    apply Finset.prod_congr rfl
    intro j _
    unfold Lagrange.basisDivisor
    rw [Polynomial.eval_mul, Polynomial.eval_C, Polynomial.eval_sub, Polynomial.eval_X, Polynomial.eval_C]
    simp only [id]
    rw [div_eq_inv_mul]
  rw [hval]
  unfold growth
  rw [Finset.mul_sum]
  refine le_trans (Finset.abs_sum_le_sum_abs _ _) (Finset.sum_le_sum fun i hi => ?_)
  rw [abs_mul, Finset.abs_prod]
  simp only [abs_div]
  exact mul_le_mul_of_nonneg_right (h i hi)
    (Finset.prod_nonneg fun j _ => div_nonneg (abs_nonneg _) (abs_nonneg _))

theorem powers_of_poly {K : Type _} [Field K] (p : Polynomial K) (n : Nat) (h : p.degree < ((n + 1 : Nat) : WithBot ℕ)) :
    ∃ c : List K, c.length = n + 1 ∧ ∀ x, p.eval x = evalLow c x := by
  refine ⟨(List.range (n + 1)).map p.coeff, by simp, fun x => ?_⟩
  rw [← toPoly_eval]
  congr 1
  ext i
  rw [toPoly_coeff]
  by_cases hi : i < n + 1
  · simp [List.getD_eq_getElem?_getD, List.getElem?_map, List.getElem?_range hi]
  · have : p.coeff i = 0 := by
      apply Polynomial.coeff_eq_zero_of_degree_lt
      refine lt_of_lt_of_le h ?_
      exact_mod_cast not_lt.1 hi
    rw [this]
    simp [List.getD_eq_getElem?_getD, hi]

theorem scaled_degree {K : Type _} [Field K] (a : K) (p : Polynomial K) : (Polynomial.C a * p).degree ≤ p.degree := by
  rw [← Polynomial.smul_eq_C_mul]
  exact Polynomial.degree_smul_le _ _

theorem series_poly {K : Type _} [Field K] (P : Nat → K → K)
    (hP : ∀ n, ∃ p : Polynomial K, p.degree ≤ ((n : Nat) : WithBot ℕ) ∧ ∀ x, P n x = p.eval x) (c : List K) :
    ∀ n, ∃ p : Polynomial K, p.degree < ((n + c.length : Nat) : WithBot ℕ) ∧
      ∀ x, seriesFrom (fun i => P i x) n c = p.eval x := by
  induction c with
  | nil =>
    intro n
    exact ⟨0, by rw [Polynomial.degree_zero]; exact WithBot.bot_lt_coe _, fun x => by simp [seriesFrom]⟩
  | cons a c ih =>
    intro n
    obtain ⟨p, p1, p2⟩ := hP n
    obtain ⟨q, q1, q2⟩ := ih (n + 1)
    refine ⟨Polynomial.C a * p + q, ?_, fun x => ?_⟩
    · refine lt_of_le_of_lt (Polynomial.degree_add_le _ _) (max_lt ?_ ?_)
      · refine lt_of_le_of_lt (scaled_degree _ _) (lt_of_le_of_lt p1 ?_)
        exact_mod_cast (by simp : n < n + (a :: c).length)
      · have : n + 1 + c.length = n + (a :: c).length := by simp; omega
        rwa [this] at q1
    · rw [seriesFrom, Polynomial.eval_add, Polynomial.eval_mul, Polynomial.eval_C, ← q2, ← p2]

theorem step_degree {K : Type _} [Field K] (p q : Polynomial K) (a b : K) (n : Nat)
    (hp : p.degree ≤ ((n : Nat) : WithBot ℕ)) (hq : q.degree ≤ ((n + 1 : Nat) : WithBot ℕ)) :
    (Polynomial.C a * (Polynomial.X * q) - Polynomial.C b * p).degree ≤ ((n + 2 : Nat) : WithBot ℕ) := by
  refine le_trans (Polynomial.degree_sub_le _ _) (max_le ?_ ?_)
  · refine le_trans (scaled_degree _ _) (le_trans (Polynomial.degree_mul_le _ _) ?_)
    refine le_trans (add_le_add Polynomial.degree_X_le hq) ?_
    exact_mod_cast (by omega : 1 + (n + 1) ≤ n + 2)
  · refine le_trans (scaled_degree _ _) (le_trans hp ?_)
    exact_mod_cast (by omega : n ≤ n + 2)

theorem legP_poly {K : Type _} [Field K] (n : Nat) :
    ∃ p : Polynomial K, p.degree ≤ ((n : Nat) : WithBot ℕ) ∧ ∀ x, legP n x = p.eval x := by
  induction n using Nat.twoStepInduction with
  | zero => exact ⟨1, Polynomial.degree_one_le, fun x => by simp [legP]⟩
  | one => exact ⟨Polynomial.X, Polynomial.degree_X_le, fun x => by simp [legP]⟩
  | more n ih1 ih2 =>
    obtain ⟨p, p1, p2⟩ := ih1
    obtain ⟨q, q1, q2⟩ := ih2
    refine ⟨Polynomial.C ((2 * (n : K) + 3) / ((n : K) + 2)) * (Polynomial.X * q) -
      Polynomial.C (((n : K) + 1) / ((n : K) + 2)) * p, step_degree p q _ _ n p1 q1, fun x => ?_⟩
    rw [legP, p2, q2]
    simp only [Polynomial.eval_sub, Polynomial.eval_mul, Polynomial.eval_C, Polynomial.eval_X]
    ring

theorem chebT_poly {K : Type _} [Field K] (n : Nat) :
    ∃ p : Polynomial K, p.degree ≤ ((n : Nat) : WithBot ℕ) ∧ ∀ x, chebT n x = p.eval x := by
  induction n using Nat.twoStepInduction with
  | zero => exact ⟨1, Polynomial.degree_one_le, fun x => by simp [chebT]⟩
  | one => exact ⟨Polynomial.X, Polynomial.degree_X_le, fun x => by simp [chebT]⟩
  | more n ih1 ih2 =>
    obtain ⟨p, p1, p2⟩ := ih1
    obtain ⟨q, q1, q2⟩ := ih2
    refine ⟨Polynomial.C 2 * (Polynomial.X * q) - Polynomial.C 1 * p, step_degree p q _ _ n p1 q1, fun x => ?_⟩
    rw [chebT, p2, q2]
    simp only [Polynomial.eval_sub, Polynomial.eval_mul, Polynomial.eval_C, Polynomial.eval_X]
    ring

/-- C214, the three bases of `fit`: with numpy's evaluation, coefficients of degree `d` in any of them are a polynomial of
degree at most `d`, so that every fitting routine that returns `d + 1` coefficients is of degree `d` in the sense of the
theorems below. -/
theorem C214_bases (k : Kernels K) (t : FitType) (ht : t ≠ .other) (hv : ∀ c x, k.polyval c x = basisVal t c x) (d : Nat)
    (hl : ∀ x y c, k.polyfit x y d = .ok c → c.length = d + 1) : OfDegree k d := by
  intro x y c hc
  have hlen := hl x y c hc
  cases t with
  | other => exact absurd rfl ht
  | poly => exact ⟨c, hlen, fun p => by rw [hv]; exact npPolyval_eq c p⟩
  | legendre =>
    obtain ⟨p, p1, p2⟩ := series_poly legP legP_poly c 0
    rw [Nat.zero_add, hlen] at p1
    obtain ⟨c', c1, c2⟩ := powers_of_poly p d p1
    exact ⟨c', c1, fun x => by rw [hv, C67_legval, ← c2, ← p2]; rfl⟩
  | chebyshev =>
    obtain ⟨p, p1, p2⟩ := series_poly chebT chebT_poly c 0
    rw [Nat.zero_add, hlen] at p1
    obtain ⟨c', c1, c2⟩ := powers_of_poly p d p1
    exact ⟨c', c1, fun x => by rw [hv, C67_chebval, ← c2, ← p2]; rfl⟩

variable [FloorRing K]

/-- The trial polynomial behind the matches of a fit, of any degree. -/
theorem trial_polynomial (F : FitEnv K) (ha : IsArgsort F.argsortK) (w : World K) (a : FitArgs K) (rnd : FitRandom K)
    (r : FitReport K) (h : (w.fit F a rnd).2 = .done (.ok r)) (hk : OfDegree (F.kern a.fitType) a.degree) :
    ∃ t c : List K, c.length = a.degree + 1 ∧ (∀ p, (F.kern a.fitType).polyval t p = evalLow c p) ∧
      w.cal.hough.minIntercept ≤ t.getD 0 0 ∧ t.getD 0 0 ≤ w.cal.hough.maxIntercept ∧
      ∀ e ∈ r.matchedPeaks.zip r.matchedAtlas, |evalLow c e.1 - e.2| < w.cal.ransac.tol := by
  obtain ⟨lines, L, s, co, data, prev, S⟩ := fit_success F ha w a rnd r h
  have hs := enter_spec F _ _ _ _ _ S.enter
  have hr := S.report
  obtain ⟨trial, t1, _, t3, t4, _, t6⟩ := S.accepted.trial
  rw [hs.fitDeg] at t1
  obtain ⟨c, c1, c2⟩ := hk _ _ _ t1
  rw [hs.tol] at t6
  rw [hs.minIntercept] at t3
  rw [hs.maxIntercept] at t4
  refine ⟨trial, c, c1, c2, t3, t4, fun e he => ?_⟩
  rw [hr] at he
  have ht := t6 e he
  rw [c2] at ht
  exact ht

/-- C214, what holds: if a calibration of the degree of the fit, as the true one, passes through the matches at `degree + 1`
pixels, every match is within the tolerance times one plus the growth of errors from these pixels. -/
theorem C214_other_matches_partial (F : FitEnv K) (ha : IsArgsort F.argsortK) (w : World K) (a : FitArgs K)
    (rnd : FitRandom K) (r : FitReport K) (h : (w.fit F a rnd).2 = .done (.ok r))
    (hk : OfDegree (F.kern a.fitType) a.degree) (q : List K) (hq : q.length = a.degree + 1) (pts : Finset K)
    (hc : pts.card = a.degree + 1) (ht : Through q pts (r.matchedPeaks.zip r.matchedAtlas)) :
    ∀ e ∈ r.matchedPeaks.zip r.matchedAtlas, |evalLow q e.1 - e.2| < w.cal.ransac.tol * (1 + growth pts e.1) := by
  obtain ⟨t, c, c1, _, _, _, c5⟩ := trial_polynomial F ha w a rnd r h hk
  intro e he
  have h1 := near_growth c q a.degree c1 hq pts hc w.cal.ransac.tol (fun i hi => (c5 _ (ht i hi)).le) e.1
  have h2 := c5 e he
  have h3 : evalLow q e.1 - e.2 = (evalLow c e.1 - e.2) - (evalLow c e.1 - evalLow q e.1) := by ring
  rw [h3]
  refine lt_of_le_of_lt (abs_sub _ _) ?_
  linarith

/-- C214, right matches stay right: a match is right if `degree + 1` others are and every wrong line is further from
the true one than the bound. -/
theorem C214_right_partial (F : FitEnv K) (ha : IsArgsort F.argsortK) (w : World K) (a : FitArgs K)
    (rnd : FitRandom K) (r : FitReport K) (h : (w.fit F a rnd).2 = .done (.ok r))
    (hk : OfDegree (F.kern a.fitType) a.degree) (q : List K) (hq : q.length = a.degree + 1) (pts : Finset K)
    (hc : pts.card = a.degree + 1) (ht : Through q pts (r.matchedPeaks.zip r.matchedAtlas)) (p : K) (lines : List K)
    (hsep : ∀ v ∈ lines, v ≠ evalLow q p → w.cal.ransac.tol * (1 + growth pts p) ≤ |evalLow q p - v|) :
    ∀ v ∈ lines, (p, v) ∈ r.matchedPeaks.zip r.matchedAtlas → v = evalLow q p := by
  intro v hv he
  by_contra hne
  exact absurd (C214_other_matches_partial F ha w a rnd r h hk q hq pts hc ht (p, v) he)
    (not_lt.2 (hsep v hv hne))

/-- C214 for `match_peaks`: if the coefficients it starts from are a polynomial of degree `d` and a calibration of degree `d`
passes through the reported matches at `d + 1` pixels, every reported match is within the tolerance of the call times one
plus the growth of errors; it is right if all other lines of the atlas are further away than that. -/
theorem C214_match_peaks_partial (F : FitEnv K) (M : MatchKernels K) (s s' : Session K) (a : MatchArgs K)
    (r : MatchReport K) (h : s.matchPeaks F M a = (s', .ok (.report r))) (d : Nat)
    (hd : ∀ b co, s.basis = some b → StartsFrom s a co →
      ∃ c : List K, c.length = d + 1 ∧ ∀ p, (F.kern b).polyval co p = evalLow c p)
    (q : List K) (hq : q.length = d + 1) (pts : Finset K) (hc : pts.card = d + 1)
    (ht : Through q pts (r.peaks.zip r.atlas)) :
    ∀ e ∈ r.peaks.zip r.atlas, |evalLow q e.1 - e.2| < a.tol * (1 + growth pts e.1) ∧
      ∀ lines, s.world.atlasLines = .ok lines →
        (∀ v ∈ lines, v ≠ evalLow q e.1 → a.tol * (1 + growth pts e.1) ≤ |evalLow q e.1 - v|) → e.2 = evalLow q e.1 := by
  obtain ⟨b, co, lines, h1, h2, h3, _, _, h6, _⟩ := C70_matched_peaks F M s s' a r h
  obtain ⟨c, c1, c2⟩ := hd b co h1 h2
  have hall : ∀ e ∈ r.peaks.zip r.atlas, e.2 ∈ lines ∧ |evalLow c e.1 - e.2| < a.tol := by
    intro e he
    obtain ⟨h7, h8⟩ := (List.forall₂_iff_zip.1 h6).2 (show (e.1, e.2) ∈ _ from he)
    rw [c2, abs_sub_comm] at h8
    exact ⟨h7, h8⟩
  intro e he
  have main : |evalLow q e.1 - e.2| < a.tol * (1 + growth pts e.1) := by
    have g1 := near_growth c q d c1 hq pts hc a.tol (fun i hi => (hall _ (ht i hi)).2.le) e.1
    have g2 := (hall e he).2
    have g3 : evalLow q e.1 - e.2 = (evalLow c e.1 - e.2) - (evalLow c e.1 - evalLow q e.1) := by ring
    rw [g3]
    refine lt_of_le_of_lt (abs_sub _ _) ?_
    linarith
  refine ⟨main, fun lines' hl hsep => ?_⟩
  rw [h3] at hl
  cases hl
  by_contra hne
  exact absurd main (not_lt.2 (hsep _ (hall e he).1 hne))

/-- C214 at pixel 0, for powers: a calibration that passes through matches at `degree + 1` pixels is within the bounds of the
intercept there, up to the tolerance times the growth of errors. -/
theorem C214_pixel_zero_partial (F : FitEnv K) (ha : IsArgsort F.argsortK) (w : World K) (a : FitArgs K)
    (rnd : FitRandom K) (r : FitReport K) (h : (w.fit F a rnd).2 = .done (.ok r))
    (hk : OfDegree (F.kern a.fitType) a.degree) (hp : Powers (F.kern a.fitType)) (q : List K)
    (hq : q.length = a.degree + 1) (pts : Finset K) (hc : pts.card = a.degree + 1)
    (ht : Through q pts (r.matchedPeaks.zip r.matchedAtlas)) :
    w.cal.hough.minIntercept - w.cal.ransac.tol * growth pts 0 ≤ evalLow q 0 ∧
      evalLow q 0 ≤ w.cal.hough.maxIntercept + w.cal.ransac.tol * growth pts 0 := by
  obtain ⟨t, c, c1, c2, c3, c4, c5⟩ := trial_polynomial F ha w a rnd r h hk
  have h1 := near_growth c q a.degree c1 hq pts hc w.cal.ransac.tol (fun i hi => (c5 _ (ht i hi)).le) 0
  have h2 : evalLow c 0 = t.getD 0 0 := by
    rw [← c2 0, hp]
    cases t <;> simp [evalLow]
  rw [h2] at h1
  have h3 := abs_le.1 h1
  constructor <;> linarith [h3.1, h3.2]

end

/-- C214, as expected: if `degree + 1` matches of a fit are right, all its matches are right up to the tolerance. -/
def C214_Statement : Prop :=
  ∀ (F : FitEnv ℚ) (w : World ℚ) (a : FitArgs ℚ) (rnd : FitRandom ℚ) (r : FitReport ℚ), IsArgsort F.argsortK →
    (w.fit F a rnd).2 = .done (.ok r) → Spec.OfDegree (F.kern a.fitType) a.degree →
    ∀ (q : List ℚ) (pts : Finset ℚ), q.length = a.degree + 1 → pts.card = a.degree + 1 →
    Spec.Through q pts (r.matchedPeaks.zip r.matchedAtlas) →
    ∀ e ∈ r.matchedPeaks.zip r.matchedAtlas, |Spec.evalLow q e.1 - e.2| ≤ w.cal.ransac.tol

theorem Toy.kern_degree : Spec.OfDegree (Toy.env.kern (Toy.fourArgs 1).fitType) (Toy.fourArgs 1).degree := by
  intro x y t ht
  obtain ⟨c0, c1, rfl⟩ := Toy.kern_lines.fit x y t ht
  refine ⟨[c0, c1], rfl, fun p => ?_⟩
  rw [show Toy.env.kern (Toy.fourArgs 1).fitType = Toy.kern from rfl, Toy.kern_lines.value]
  simp [Spec.evalLow]
  ring

/-- One draw: the pixels 10 and 41. -/
def Toy.wrongRnd : FitRandom ℚ := ⟨fun _ => 0, [⟨[0, 2], [0, 0]⟩]⟩

/-- Case of `C214_bases`: a parabola in each of the three bases. -/
example (t : FitType) (ht : t ≠ .other) : Spec.OfDegree (K := ℚ)
    ⟨fun _ _ d => .ok (List.replicate (d + 1) 2), basisVal t, fun _ _ _ => .error .linAlg, id, fun _ _ _ => .error .valueError⟩ 2 :=
  C214_bases _ t ht (fun _ _ => rfl) 2 (fun _ _ c hc => by cases hc; rfl)

/-- Right matches and a wrong one: the lines of the pixels 10, 20 and 31 are on the calibration `3100 + 140 p`, the one
matched to pixel 41 is off by 7. -/
theorem Toy.one_wrong : ∃ (w : World ℚ) (r : FitReport ℚ), (w.fit Toy.env (Toy.fourArgs 1) Toy.wrongRnd).2 = .done (.ok r) ∧
    r.matchedPeaks.zip r.matchedAtlas = [(10, 4500), (20, 5900), (31, 7440), (41, 8847)] ∧ w.cal.ransac.tol = 5 ∧
    w.atlasLines = .ok [4500, 5900, 7440, 8847] ∧ w.cal.hough.minIntercept = 2500 ∧ w.cal.hough.maxIntercept = 3500 := by
  have hc : (Toy.fourPeaks [4500, 5900, 7440, 8847]).toOption.bind (fun w =>
      (Toy.report (w.fit Toy.env (Toy.fourArgs 1) Toy.wrongRnd)).map (fun r =>
        (r.matchedPeaks.zip r.matchedAtlas, w.cal.ransac.tol, w.atlasLines.toOption, w.cal.hough.minIntercept,
          w.cal.hough.maxIntercept))) =
      some ([(10, 4500), (20, 5900), (31, 7440), (41, 8847)], 5, some [4500, 5900, 7440, 8847], 2500, 3500) := by
    decide +kernel
  cases hw : Toy.fourPeaks [4500, 5900, 7440, 8847] with
  | error e => rw [hw] at hc; simp [Except.toOption] at hc
  | ok w =>
    rw [hw] at hc
    simp only [Except.toOption, Option.bind_some, Option.map_eq_some_iff, Prod.mk.injEq] at hc
    obtain ⟨r, hr, h1, h2, h3, h4, h5⟩ := hc
    refine ⟨w, r, Toy.report_some _ _ hr, h1, h2, ?_, h4, h5⟩
    cases hl : w.atlasLines with
    | error e => rw [hl] at h3; cases h3
    | ok l => rw [hl] at h3; cases h3; rfl

theorem Toy.one_wrong_through : Spec.Through [(3100 : ℚ), 140] {10, 20} [(10, 4500), (20, 5900), (31, 7440), (41, 8847)] := by
  unfold Spec.Through
  decide +kernel

/-- C214 is false: of the four matches of the toy fit three are exact, and the fourth is off by more than the tolerance. -/
theorem C214_refuted : ¬ C214_Statement := by
  intro h
  obtain ⟨w, r, h1, h2, h3, _⟩ := Toy.one_wrong
  have := h Toy.env w (Toy.fourArgs 1) Toy.wrongRnd r stableArgsort_isArgsort h1 Toy.kern_degree [3100, 140] {10, 20} rfl
    (by decide +kernel) (by rw [h2]; exact Toy.one_wrong_through) (41, 8847) (by rw [h2]; decide +kernel)
  rw [h3] at this
  exact absurd this (by decide +kernel)

/-- Case of `C214_other_matches_partial` and `C214_right_partial`: the same fit; at pixel 41 the bound is `5 * (1 + 26/5)`. -/
example : ∃ (w : World ℚ) (r : FitReport ℚ), (w.fit Toy.env (Toy.fourArgs 1) Toy.wrongRnd).2 = .done (.ok r) ∧
    Spec.Through [3100, 140] {10, 20} (r.matchedPeaks.zip r.matchedAtlas) ∧
    w.cal.ransac.tol * (1 + Spec.growth {10, 20} 41) = 31 ∧ w.cal.ransac.tol * (1 + Spec.growth {10, 20} 31) = 21 ∧
    (∀ v ∈ [4500, 5900, 7440, 8847], (31, v) ∈ r.matchedPeaks.zip r.matchedAtlas → v = 7440) := by
  obtain ⟨w, r, h1, h2, h3, h4, _⟩ := Toy.one_wrong
  have ht : Spec.Through [3100, 140] {10, 20} (r.matchedPeaks.zip r.matchedAtlas) := by
    rw [h2]; exact Toy.one_wrong_through
  refine ⟨w, r, h1, ht, by rw [h3]; decide +kernel, by rw [h3]; decide +kernel, ?_⟩
  intro v hv he
  have := C214_right_partial Toy.env stableArgsort_isArgsort w _ _ r h1 Toy.kern_degree [3100, 140] rfl {10, 20}
    (by decide +kernel) ht 31 [4500, 5900, 7440, 8847] (by rw [h3]; decide +kernel) v hv he
  rw [this]
  decide +kernel

/-- Case of `C214_match_peaks_partial`: the first three lines are on `3100 + 280 p`; the line matched to pixel 40 is off by 12,
with a tolerance of 10; the bound there is 60. -/
example : ((Toy.session [10, 20, 30, 40] false [5900, 8700, 11500, 14312]).toOption.map (fun s =>
      ((Toy.matchReport (s.matchPeaks Toy.env Toy.mkern
        { coeff := some (true, [3096, 1401 / 5]), tol := 10, minFrac := 1 / 2 })).map (fun r => r.peaks.zip r.atlas),
       decide (s.basis = some .poly)))) =
    some (some [(10, 5900), (20, 8700), (30, 11500), (40, 14312)], true) ∧
    Spec.Through [3100, 280] {10, 20} [(10, 5900), (20, 8700), (30, 11500), ((40 : ℚ), 14312)] ∧
    10 * (1 + Spec.growth {10, 20} (40 : ℚ)) = 60 := by
  refine ⟨by decide +kernel, ?_, by decide +kernel⟩
  unfold Spec.Through
  decide +kernel

/-- Case of `C214_pixel_zero_partial`: the bounds of the intercept are 2500 and 3500. -/
example : ∃ (w : World ℚ) (r : FitReport ℚ), (w.fit Toy.env (Toy.fourArgs 1) Toy.wrongRnd).2 = .done (.ok r) ∧
    Spec.Through [3100, 140] {10, 20} (r.matchedPeaks.zip r.matchedAtlas) ∧ w.cal.hough.minIntercept = 2500 ∧
    w.cal.hough.maxIntercept = 3500 ∧ w.cal.ransac.tol * Spec.growth {10, 20} 0 = 15 ∧
    Spec.Powers (Toy.env.kern (Toy.fourArgs 1).fitType) := by
  obtain ⟨w, r, h1, h2, h3, _, h5, h6⟩ := Toy.one_wrong
  refine ⟨w, r, h1, by rw [h2]; exact Toy.one_wrong_through, h5, h6, by rw [h3]; decide +kernel, Toy.kern_powers⟩

end Rascal
