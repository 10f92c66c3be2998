import Verif.Props.AfterFitProps
import Verif.Props.MatchQualityProps
import Verif.Props.SearchProps
import Verif.Props.LeastSquaresProps
import Verif.Props.OutlierProps
import Verif.Proofs.ToySession
import Mathlib.LinearAlgebra.Lagrange
import Mathlib.Tactic.Linarith

/-! Property theorem C198: noise in `fit`, `match_peaks` and `manual_refit`. -/

set_option linter.unusedSectionVars false

namespace Rascal

section
variable {K : Type _} [Field K] [LinearOrder K] [IsStrictOrderedRing K]

/-- The sum of the squared differences between given wavelengths and those of a calibration (lowest order first). -/
def Spec.errorSquares (q xs ys : List K) : K := (List.zipWith (fun x y => (y - Spec.evalLow q x) ^ 2) xs ys).sum

/-- No polynomial of the degree has a smaller sum of squared errors. -/
def Spec.BestSquares (xs ys : List K) (d : Nat) (q : List K) : Prop :=
  q.length = d + 1 ∧ ∀ q' : List K, q'.length = d + 1 → Spec.errorSquares q xs ys ≤ Spec.errorSquares q' xs ys

/-- The sum of the squared differences between two calibrations at the given pixels. -/
def Spec.deviation (p q xs : List K) : K := (xs.map (fun x => (Spec.evalLow p x - Spec.evalLow q x) ^ 2)).sum

/-- How much an error at the pixels `pts` can grow at pixel `t`: the sum of the absolute Lagrange polynomials. -/
def Spec.growth (pts : Finset K) (t : K) : K := ∑ i ∈ pts, ∏ j ∈ pts.erase i, |t - j| / |i - j|

/-- The rule of a calibration `out` found from noisy pairs: for every calibration `q` of its degree, the squared residuals and
the squared deviations from `q` add up to the squared errors of `q`; and if the latter are at most `β ^ 2`, any pixel `t` is
off by at most `β` times the growth from any `d + 1` of the pixels. -/
def Spec.LimitedByNoise (out xs ys : List K) (d : Nat) : Prop :=
  ∀ q : List K, q.length = d + 1 →
    Spec.errorSquares out xs ys + Spec.deviation out q xs = Spec.errorSquares q xs ys ∧
    ∀ (β : K) (pts : Finset K), 0 ≤ β → Spec.errorSquares q xs ys ≤ β ^ 2 → (∀ i ∈ pts, i ∈ xs) → pts.card = d + 1 → ∀ t,
      |Spec.evalLow out t - Spec.evalLow q t| ≤ β * Spec.growth pts t

open Spec

theorem errorSquares_zip (q xs ys : List K) :
    errorSquares q xs ys = ((xs.zip ys).map (fun p => (p.2 - evalLow q p.1) ^ 2)).sum := by
  unfold errorSquares
  rw [List.zip, List.map_zipWith]

theorem errorSquares_nonneg (q xs ys : List K) : 0 ≤ errorSquares q xs ys := by
  rw [errorSquares_zip]
  apply List.sum_nonneg
  intro v hv
  obtain ⟨p, _, rfl⟩ := List.mem_map.1 hv
  exact sq_nonneg _

theorem evalLow_between (t : K) : ∀ (q h : List K), q.length = h.length → ∀ x,
    evalLow (List.zipWith (fun a b => a + t * (b - a)) q h) x = evalLow q x + t * (evalLow h x - evalLow q x)
  | [], [], _, x => by simp [evalLow]
  | [], _ :: _, hl, _ => by simp at hl
  | _ :: _, [], hl, _ => by simp at hl
  | a :: q, b :: h, hl, x => by
    rw [List.zipWith_cons_cons, evalLow, evalLow, evalLow, evalLow_between t q h (by simpa using hl)]
    ring

/-- The residuals are orthogonal to all polynomials of the degree. -/
theorem Spec.BestSquares.orthogonal {xs ys : List K} {d : Nat} {q : List K} (hq : BestSquares xs ys d q) (h : List K)
    (hh : h.length = d + 1) :
    ((xs.zip ys).map (fun p => (p.2 - evalLow q p.1) * (evalLow h p.1 - evalLow q p.1))).sum = 0 := by
  set A := ((xs.zip ys).map (fun p => (p.2 - evalLow q p.1) * (evalLow h p.1 - evalLow q p.1))).sum with hA
  set B := ((xs.zip ys).map (fun p => (evalLow h p.1 - evalLow q p.1) ^ 2)).sum with hB
  have hB0 : 0 ≤ B := by
    apply List.sum_nonneg
    intro v hv
    obtain ⟨p, _, rfl⟩ := List.mem_map.1 hv
    exact sq_nonneg _
  have key : ∀ t : K, 0 ≤ A * (-2 * t) + B * t ^ 2 := by
    intro t
    have hmin := hq.2 (List.zipWith (fun a b => a + t * (b - a)) q h) (by rw [List.length_zipWith, hq.1, hh, min_self])
    rw [errorSquares_zip, errorSquares_zip] at hmin
    have e : ((xs.zip ys).map (fun p => (p.2 - evalLow (List.zipWith (fun a b => a + t * (b - a)) q h) p.1) ^ 2)).sum =
        ((xs.zip ys).map (fun p => (p.2 - evalLow q p.1) ^ 2)).sum + A * (-2 * t) + B * t ^ 2 := by
      rw [hA, hB, ← listSum_mul, ← listSum_mul, ← listSum_add, ← listSum_add]
      congr 1
      apply List.map_congr_left
      intro p _
      rw [evalLow_between t q h (by rw [hq.1, hh])]
      ring
    rw [e] at hmin
    linarith
  rcases eq_or_lt_of_le hB0 with h0 | hpos
  · have h1 := key 1
    have h2 := key (-1)
    rw [← h0] at h1 h2
    linarith
  · have := key (A / B)
    have e : A * (-2 * (A / B)) + B * (A / B) ^ 2 = - (A ^ 2 / B) := by
      field_simp
      ring
    rw [e] at this
    have h3 : A ^ 2 / B ≤ 0 := by linarith
    have h4 : 0 ≤ A ^ 2 / B := div_nonneg (sq_nonneg _) hpos.le
    have h5 : A ^ 2 / B = 0 := le_antisymm h3 h4
    rcases div_eq_zero_iff.1 h5 with h6 | h6
    · exact pow_eq_zero_iff (two_ne_zero) |>.1 h6
    · exact absurd h6 hpos.ne'

/-- Error propagation of least squares. -/
theorem Spec.BestSquares.limited {xs ys : List K} {d : Nat} {out : List K} (ho : BestSquares xs ys d out)
    (hl : xs.length = ys.length) : LimitedByNoise out xs ys d := by
  intro q hq
  have horth := ho.orthogonal q hq
  have hmain : errorSquares out xs ys + deviation out q xs = errorSquares q xs ys := by
    have hx : deviation out q xs = ((xs.zip ys).map (fun p => (evalLow out p.1 - evalLow q p.1) ^ 2)).sum := by
      unfold deviation
      conv_lhs => rw [← List.map_fst_zip (l₁ := xs) (l₂ := ys) hl.le, List.map_map]
      rfl
    rw [hx, errorSquares_zip, errorSquares_zip]
    have e : ((xs.zip ys).map (fun p => (p.2 - evalLow q p.1) ^ 2)).sum =
        ((xs.zip ys).map (fun p => (p.2 - evalLow out p.1) ^ 2)).sum +
        ((xs.zip ys).map (fun p => (evalLow out p.1 - evalLow q p.1) ^ 2)).sum +
        ((xs.zip ys).map (fun p => (p.2 - evalLow out p.1) * (evalLow q p.1 - evalLow out p.1))).sum * (-2) := by
      rw [← listSum_mul, ← listSum_add, ← listSum_add]
      congr 1
      apply List.map_congr_left
      intro p _
      ring
    rw [e, horth]
    ring
  refine ⟨hmain, ?_⟩
  intro β pts hβ hs hp hc t
  have hdev : ∀ i ∈ pts, |evalLow out i - evalLow q i| ≤ β := by
    intro i hi
    refine abs_le_of_sq_le_sq (le_trans ?_ hs) hβ
    rw [← hmain]
    have h1 : (evalLow out i - evalLow q i) ^ 2 ≤ deviation out q xs := by
      refine List.single_le_sum (l := xs.map (fun t => (evalLow out t - evalLow q t) ^ 2)) ?_ _
        (List.mem_map.2 ⟨i, hp i hi, rfl⟩)
      intro v hv
      obtain ⟨p, _, rfl⟩ := List.mem_map.1 hv
      exact sq_nonneg _
    have h2 := errorSquares_nonneg out xs ys
    linarith
  have hpoly : toPoly out - toPoly q = Lagrange.interpolate pts id (fun i => evalLow out i - evalLow q i) := by
    have h1 : (toPoly out - toPoly q).degree < pts.card := by
      refine lt_of_le_of_lt (Polynomial.degree_sub_le _ _) ?_
      rw [hc]
      refine max_lt ?_ ?_
      · have := toPoly_degree_lt out
        rwa [ho.1] at this
      · have := toPoly_degree_lt q
        rwa [hq] at this
    refine Lagrange.eq_interpolate_of_eval_eq _ Function.injective_id.injOn h1 ?_
    intro i _
    rw [Polynomial.eval_sub, toPoly_eval, toPoly_eval]
    rfl
  have hval : evalLow out t - evalLow q t =
      ∑ i ∈ pts, (evalLow out i - evalLow q i) * ∏ j ∈ pts.erase i, (t - j) / (i - j) := by
    have := congrArg (Polynomial.eval t) hpoly
    rw [Polynomial.eval_sub, toPoly_eval, toPoly_eval, Lagrange.interpolate_apply, Polynomial.eval_finset_sum] at this
    rw [this]
    apply Finset.sum_congr rfl
    intro i _
    rw [Polynomial.eval_mul, Polynomial.eval_C]
    congr 1
    unfold Lagrange.basis
    rw [Polynomial.eval_prod]
    apply Finset.prod_congr rfl
    intro j _
    unfold Lagrange.basisDivisor
    rw [Polynomial.eval_mul, Polynomial.eval_C, Polynomial.eval_sub, Polynomial.eval_X, Polynomial.eval_C]
    simp only [id]
    rw [div_eq_inv_mul]
  rw [hval]
  unfold growth
  rw [Finset.mul_sum]
  refine le_trans (Finset.abs_sum_le_sum_abs _ _) (Finset.sum_le_sum fun i hi => ?_)
  rw [abs_mul, Finset.abs_prod]
  simp only [abs_div]
  exact mul_le_mul_of_nonneg_right (hdev i hi)
    (Finset.prod_nonneg fun j _ => div_nonneg (abs_nonneg _) (abs_nonneg _))

/-- A basis of powers. -/
def Spec.Powers (k : Kernels K) : Prop := ∀ c x, k.polyval c x = evalLow c x

/-- The robust fit is a least-squares fit of its data, as it is for `robust_polyfit` under the condition of C196. -/
def Spec.FitsSquares (robust : List K → List K → Nat → PyRes (List K)) : Prop :=
  ∀ xs ys d co, xs.length = ys.length → robust xs ys d = .ok co → BestSquares xs ys d co

theorem squares_of_residuals (co xs ys : List K) :
    ((List.zipWith (fun p l => l - evalLow co p) xs ys).map (fun v => v ^ 2)).sum = errorSquares co xs ys := by
  unfold errorSquares
  rw [List.map_zipWith]

/-- C198 for `fit`: the solution is limited by the noise of the matched pairs, and the mean square under the root of the
reported rms is at most that of the errors of any calibration of the degree, in particular the true one. -/
theorem C198_fit [FloorRing K] (F : FitEnv K) (ha : IsArgsort F.argsortK) (w : World K) (a : FitArgs K) (rnd : FitRandom K)
    (r : FitReport K) (h : (w.fit F a rnd).2 = .done (.ok r)) (hp : Powers (F.kern a.fitType))
    (hk : FitsSquares (F.kern a.fitType).robust) :
    LimitedByNoise r.coeffs r.matchedPeaks r.matchedAtlas a.degree ∧
    ∃ ms, r.rms = (F.kern a.fitType).sqrt ms ∧ ∀ q : List K, q.length = a.degree + 1 →
      ms ≤ errorSquares q r.matchedPeaks r.matchedAtlas / (r.matchedPeaks.length : K) := by
  obtain ⟨lines, L, s, co, data, prev, S⟩ := fit_success F ha w a rnd r h
  have hl : s.matchedPeaks.length = s.matchedAtlas.length := by
    rw [S.accepted.lengths.1, S.accepted.lengths.2]
  have hb := hk _ _ _ _ hl S.robust
  obtain ⟨ms, h1, h2⟩ := C104_rms_partial F ha w a rnd r h
  have e1 : r.coeffs = co := by rw [S.report]
  have e2 : r.matchedPeaks = s.matchedPeaks := by rw [S.report]
  have e3 : r.matchedAtlas = s.matchedAtlas := by rw [S.report]
  rw [e1, e2, e3] at h2 ⊢
  refine ⟨hb.limited hl, ms, h1, ?_⟩
  intro q hq
  refine le_trans h2 (div_le_div_of_nonneg_right ?_ (Nat.cast_nonneg _))
  refine le_trans (le_of_eq ?_) (hb.2 q hq)
  unfold errorSquares
  rw [List.map_zipWith]
  congr 1
  congr 1
  funext p l
  rw [hp]
  ring

/-- C198 for `match_peaks` with `robust_refit`, unless the fit gives nan. -/
theorem C198_match (F : FitEnv K) (M : MatchKernels K) (s s' : Session K) (a : MatchArgs K) (r : MatchReport K)
    (h : s.matchPeaks F M a = (s', .ok (.report r))) (hr : a.robust = true) (hn : s'.coeffKind ≠ .nan)
    (hp : ∀ b, s.basis = some b → Powers (F.kern b))
    (hk : ∀ xs ys d co, xs.length = ys.length → M.robust xs ys d none = .ok (some co) → BestSquares xs ys d co) :
    LimitedByNoise r.coeffs r.peaks r.atlas (r.coeffs.length - 1) ∧
    ∃ b ms, s.basis = some b ∧ r.rms = (F.kern b).sqrt ms ∧ ∀ q : List K, q.length = r.coeffs.length →
      ms ≤ errorSquares q r.peaks r.atlas / (r.peaks.length : K) := by
  obtain ⟨b, co, lines, fitted, res, new, R⟩ := matchPeaks_report F M s a s' r h
  obtain ⟨b', hb', h1, h2, h3, h4, h5⟩ := C74_robust_partial F M s s' a r h hr hn
  have hlen := R.length
  have hbest : ∃ d, BestSquares r.peaks r.atlas d r.coeffs := by
    have hend := R.ending
    generalize ho : (Except.ok (MatchOut.report r) : PyRes (MatchOut K)) = o at hend
    rw [hr] at hend
    cases hend with
    | failed e _ _ => cases ho
    | nan s' h1 h2 h3 => subst h3; exact absurd rfl hn
    | robust co' s' g1 g2 g3 =>
      have := MatchOut.report.inj (Except.ok.inj ho)
      have hc : r.coeffs = co' := by rw [this]
      rw [hc]
      exact ⟨_, hk _ _ _ _ hlen g2⟩
    | refined co' s' g1 g2 g3 => cases g1
    | unbound g1 g2 => cases g1
  obtain ⟨d, hbest⟩ := hbest
  have hd : r.coeffs.length - 1 = d := by rw [hbest.1]; rfl
  rw [hd]
  refine ⟨hbest.limited hlen, b', _, hb', h3, ?_⟩
  intro q hq
  rw [h2, List.length_zipWith, ← hlen, min_self]
  refine div_le_div_of_nonneg_right ?_ (Nat.cast_nonneg _)
  refine le_trans (le_of_eq ?_) (hbest.2 q (by rw [hq, hbest.1]))
  rw [← squares_of_residuals]
  congr 2
  congr 1
  funext p l
  rw [hp b' hb']

/-- C198 for `manual_refit`, unless the fit gives nan. -/
theorem C198_manual (F : FitEnv K) (M : MatchKernels K) (s s' : Session K) (a : RefitArgs K) (r : RefitReport K) (co : List K)
    (h : s.manualRefit F M a = (s', .ok r)) (hc : r.coeffs = some co)
    (hp : ∀ b, s.basis = some b → Powers (F.kern b))
    (hk : ∀ xs ys d x0 co, xs.length = ys.length → M.robust xs ys d x0 = .ok (some co) → BestSquares xs ys d co) :
    LimitedByNoise co r.peaks r.atlas (co.length - 1) ∧
    ∃ b ms, s.basis = some b ∧ r.rms = (F.kern b).sqrt ms ∧ ∀ q : List K, q.length = co.length →
      ms ≤ errorSquares q r.peaks r.atlas / (r.peaks.length : K) := by
  have hcase := manualRefit_cases F M s a
  rw [h] at hcase
  dsimp only at hcase
  generalize ho : (Except.ok r : PyRes (RefitReport K)) = o at hcase
  cases hcase with
  | early e => cases ho
  | stored x0 deg co' g1 g2 g3 g4 g5 g6 =>
    unfold Session.finishRefit at ho
    have hbasis : (s.storeRefit a deg co').basis = s.basis := rfl
    rw [hbasis] at ho
    cases hb : s.basis with
    | none => rw [hb] at ho; cases ho
    | some b =>
      rw [hb] at ho
      have hr := Except.ok.inj ho
      have e1 : co' = some co := by rw [← hc, hr]
      subst e1
      have hbest := hk _ _ _ _ _ g3 g6
      have hd : co.length - 1 = deg := by rw [hbest.1]; rfl
      have e2 : r.peaks = (s.refitLists a).1.2 := by rw [hr]
      have e3 : r.atlas = (s.refitLists a).2.2 := by rw [hr]
      have e4 : r.rms = rmsOf (F.kern b) (List.zipWith (fun x y => y - (F.kern b).polyval co x) (s.refitLists a).1.2
        (s.refitLists a).2.2) := by rw [hr]; rfl
      rw [hd, e2, e3]
      refine ⟨hbest.limited g3, b, _, rfl, e4, ?_⟩
      intro q hq
      rw [List.length_zipWith, ← g3, min_self]
      refine div_le_div_of_nonneg_right ?_ (Nat.cast_nonneg _)
      refine le_trans (le_of_eq ?_) (hbest.2 q (by rw [hq, hbest.1]))
      rw [← squares_of_residuals]
      congr 2
      congr 1
      funext p l
      rw [hp b hb]

end

open Spec

/-- C198, the contract: for the actual `robust_polyfit`, with a solver that finds the global minimum, the answer is a
least-squares fit whenever some calibration of the degree has squared errors adding up to less than the variance of the
wavelengths. -/
theorem C198_robust_polyfit (solve : (List ℝ → PyRes (List ℝ)) → List ℝ → List ℝ) (x y : List ℝ) (d : Nat)
    (hs : KeepsLength solve d) (ho : GlobalMinimiser huber solve x y d) (x0 : Option (List ℝ)) (out : List ℝ)
    (h : robustPolyfit solve x y d x0 = .ok out) (hl : x.length = y.length) (hd : d < x.toFinset.card) (q : List ℝ)
    (hq : q.length = d + 1) (hn : errorSquares q x y < npStd y ^ 2) : BestSquares x y d out := by
  have e : ∀ p : List ℝ, errorSquares p x y = sumSquares p x y := by
    intro p
    rw [errorSquares_zip, sumSquares_zip]
  obtain ⟨l, hfit⟩ := ordinaryFit_exists x y d hl hd
  rw [e] at hn
  have he := C196_least_squares_partial solve x y d hs ho x0 out h hl hd l hfit (by
    intro r hm
    exact abs_lt_of_sq_lt_sq (lt_of_le_of_lt (sumSquares_mem l x y r hm) (lt_of_le_of_lt (hfit.2 q hq) hn)) (npStd_nonneg y))
  subst he
  refine ⟨hfit.1, fun q' hq' => ?_⟩
  rw [e, e]
  exact hfit.2 q' hq'

/-! ### Cases -/

/-- A case for `C198_robust_polyfit`: five pairs, the last wavelength wrong by 1. -/
example : ∃ solve : (List ℝ → PyRes (List ℝ)) → List ℝ → List ℝ, ∃ out,
    robustPolyfit solve Toy.fivePixels (Toy.fiveLines 1) 1 none = .ok out ∧
    BestSquares Toy.fivePixels (Toy.fiveLines 1) 1 out := by
  have hs : npStd (Toy.fiveLines 1) ≠ 0 := by
    have := Toy.five_std 1 (by norm_num)
    intro h0
    rw [h0] at this
    norm_num at this
  have hstdx : npStd Toy.fivePixels ≠ 0 := by
    rw [Ne, npStd_eq_zero_iff]
    intro h
    have := h 0 (by simp [Toy.fivePixels]) 1 (by simp [Toy.fivePixels])
    norm_num at this
  obtain ⟨hk, hg⟩ := (Toy.five_fit 1).solver hstdx hs (Toy.five_residuals 1 (by norm_num))
  have hcard : (Toy.fivePixels).toFinset.card = 5 := by
    rw [List.toFinset_card_of_nodup (by unfold Toy.fivePixels; norm_num)]
    rfl
  obtain ⟨out, hout⟩ : ∃ out, robustPolyfit (fun _ _ => renormalise Toy.fivePixels (Toy.fiveLines 1) [-(1 / 5), 1 + 1 / 5])
      Toy.fivePixels (Toy.fiveLines 1) 1 none = .ok out := by
    unfold robustPolyfit
    dsimp only
    rw [if_neg (by tauto)]
    exact ⟨_, rfl⟩
  refine ⟨_, out, hout, C198_robust_polyfit _ _ _ 1 hk hg none out hout rfl (by rw [hcard]; norm_num) [0, 1] rfl ?_⟩
  have hstd : npStd (Toy.fiveLines 1) ^ 2 = 74 / 25 := by
    unfold npStd
    rw [Real.sq_sqrt]
    · simp only [Toy.fiveLines, npMean, List.map_cons, List.map_nil, List.sum_cons, List.sum_nil, List.length_cons,
        List.length_nil]
      norm_num
    · simp only [Toy.fiveLines, npMean, List.map_cons, List.map_nil, List.sum_cons, List.sum_nil, List.length_cons,
        List.length_nil]
      norm_num
  rw [hstd]
  norm_num [errorSquares, Toy.fivePixels, Toy.fiveLines, evalLow]

/-- The straight-line fits of the toy environment are least-squares fits. -/
theorem Toy.line_best (xs ys co : List ℚ) (hl : xs.length = ys.length) (h : Toy.line xs ys = .ok co) :
    BestSquares xs ys 1 co := by
  unfold Toy.line at h
  dsimp only at h
  split at h
  · cases h
  rename_i hdet
  have hco := (Except.ok.inj h).symm
  obtain ⟨a, b, rfl⟩ : ∃ a b, co = [a, b] := ⟨_, _, hco⟩
  obtain ⟨ha, hb⟩ : a = (ys.sum * (xs.map (fun x => x * x)).sum - xs.sum * (List.zipWith (fun x y => x * y) xs ys).sum) /
        ((xs.length : ℚ) * (xs.map (fun x => x * x)).sum - xs.sum * xs.sum) ∧
      b = ((xs.length : ℚ) * (List.zipWith (fun x y => x * y) xs ys).sum - xs.sum * ys.sum) /
        ((xs.length : ℚ) * (xs.map (fun x => x * x)).sum - xs.sum * xs.sum) := by
    simpa using hco
  -- the moments as sums over the pairs
  have m1 : xs.sum = ((xs.zip ys).map (fun p => p.1)).sum := by rw [List.map_fst_zip hl.le]
  have m2 : ys.sum = ((xs.zip ys).map (fun p => p.2)).sum := by rw [List.map_snd_zip hl.ge]
  have m3 : (xs.map (fun x => x * x)).sum = ((xs.zip ys).map (fun p => p.1 * p.1)).sum := by
    conv_lhs => rw [← List.map_fst_zip (l₁ := xs) (l₂ := ys) hl.le, List.map_map]
    rfl
  have m4 : (List.zipWith (fun x y => x * y) xs ys).sum = ((xs.zip ys).map (fun p => p.1 * p.2)).sum := by
    rw [List.zip, List.map_zipWith]
  have m5 : (xs.length : ℚ) = ((xs.zip ys).map (fun _ => (1 : ℚ))).sum := by
    rw [List.map_const', List.sum_replicate, List.length_zip, ← hl, min_self]
    simp
  set n := (xs.length : ℚ)
  set sx := xs.sum
  set sy := ys.sum
  set sxx := (xs.map (fun x => x * x)).sum
  set sxy := (List.zipWith (fun x y => x * y) xs ys).sum
  have ha' : a * (n * sxx - sx * sx) = sy * sxx - sx * sxy := by rw [ha, div_mul_cancel₀ _ hdet]
  have hb' : b * (n * sxx - sx * sx) = n * sxy - sx * sy := by rw [hb, div_mul_cancel₀ _ hdet]
  have n1 : sy = n * a + sx * b := mul_right_cancel₀ hdet (by linear_combination -n * ha' - sx * hb')
  have n2 : sxy = sx * a + sxx * b := mul_right_cancel₀ hdet (by linear_combination -sx * ha' - sxx * hb')
  refine ⟨rfl, ?_⟩
  intro q' hq'
  match q', hq' with
  | [u, v], _ =>
    rw [errorSquares_zip, errorSquares_zip]
    have e : ((xs.zip ys).map (fun p => (p.2 - evalLow [u, v] p.1) ^ 2)).sum =
        ((xs.zip ys).map (fun p => (p.2 - evalLow [a, b] p.1) ^ 2)).sum +
        (sy - (n * a + sx * b)) * (2 * (a - u)) + (sxy - (sx * a + sxx * b)) * (2 * (b - v)) +
        ((xs.zip ys).map (fun p => ((a - u) + (b - v) * p.1) ^ 2)).sum := by
      have e0 : ∀ p : ℚ × ℚ, (p.2 - evalLow [u, v] p.1) ^ 2 = (p.2 - evalLow [a, b] p.1) ^ 2 +
          (p.2 * (2 * (a - u)) + 1 * (-a * (2 * (a - u))) + p.1 * (-b * (2 * (a - u)))) +
          (p.1 * p.2 * (2 * (b - v)) + p.1 * (-a * (2 * (b - v))) + p.1 * p.1 * (-b * (2 * (b - v)))) +
          ((a - u) + (b - v) * p.1) ^ 2 := by
        intro p
        simp only [evalLow]
        ring
      simp only [e0, listSum_add, listSum_mul]
      rw [m1, m2, m3, m4, m5]
      ring
    rw [e, n1, n2]
    have h0 : 0 ≤ ((xs.zip ys).map (fun p => ((a - u) + (b - v) * p.1) ^ 2)).sum := by
      apply List.sum_nonneg
      intro w hw
      obtain ⟨p, _, rfl⟩ := List.mem_map.1 hw
      exact sq_nonneg _
    linarith

theorem Toy.kern_squares : FitsSquares Toy.kern.robust := by
  intro xs ys d co hl h
  change (if d = 1 then Toy.line xs ys else .error .valueError) = .ok co at h
  split at h
  · rename_i hd
    subst hd
    exact Toy.line_best xs ys co hl h
  · cases h

theorem Toy.kern_powers : Powers Toy.kern := by
  intro c x
  change c.foldr (fun a t => a + x * t) 0 = evalLow c x
  induction c with
  | nil => rfl
  | cons a c ih => rw [List.foldr_cons, ih]; rfl


/-- The hypotheses of `C198_fit` met: four matches, the last line off by 7; a fit of degree 1 that does not return the truth
[3100, 140], is limited by the noise and off by at most 7 at pixel 20. -/
example : ∃ (w : World ℚ) (r : FitReport ℚ),
    (w.fit Toy.env (Toy.fourArgs 1) ⟨fun _ => 0, [⟨[0, 2], [0, 0]⟩]⟩).2 = .done (.ok r) ∧
    r.matchedAtlas = [4500, 5900, 7440, 8847] ∧ r.coeffs ≠ [3100, 140] ∧
    errorSquares [3100, 140] r.matchedPeaks r.matchedAtlas = 7 ^ 2 ∧
    |evalLow r.coeffs 20 - evalLow [3100, 140] 20| ≤ 7 * growth ({10, 41} : Finset ℚ) 20 := by
  have hc : (Toy.fourPeaks [4500, 5900, 7440, 8847]).toOption.bind (fun w =>
      (Toy.report (w.fit Toy.env (Toy.fourArgs 1) ⟨fun _ => 0, [⟨[0, 2], [0, 0]⟩]⟩)).map (fun r =>
        (r.matchedPeaks, r.matchedAtlas, decide (r.coeffs ≠ [3100, 140])))) =
      some ([10, 20, 31, 41], [4500, 5900, 7440, 8847], true) := by decide +kernel
  cases hw : Toy.fourPeaks [4500, 5900, 7440, 8847] with
  | error e => rw [hw] at hc; simp [Except.toOption] at hc
  | ok w =>
    rw [hw] at hc
    simp only [Except.toOption, Option.bind_some, Option.map_eq_some_iff, Prod.mk.injEq, decide_eq_true_eq] at hc
    obtain ⟨r, hr, h1, h2, h3⟩ := hc
    have hrep := Toy.report_some _ _ hr
    have he : errorSquares [3100, 140] r.matchedPeaks r.matchedAtlas = 7 ^ 2 := by
      rw [h1, h2]
      decide +kernel
    have hlim := (C198_fit Toy.env stableArgsort_isArgsort w _ _ r hrep Toy.kern_powers Toy.kern_squares).1 [3100, 140] rfl
    refine ⟨w, r, hrep, h2, h3, he, hlim.2 7 {10, 41} (by norm_num) he.le ?_ ?_ 20⟩
    · intro i hi
      rw [h1]
      rw [Finset.mem_insert, Finset.mem_singleton] at hi
      rcases hi with rfl | rfl <;> simp
    · rw [Finset.card_pair (by norm_num)]
      rfl

theorem Toy.mkern_squares (xs ys : List ℚ) (d : Nat) (x0 : Option (List ℚ)) (co : List ℚ) (hl : xs.length = ys.length)
    (h : Toy.mkern.robust xs ys d x0 = .ok (some co)) : BestSquares xs ys d co := by
  unfold Toy.mkern at h
  dsimp only at h
  split at h
  · rename_i hd
    subst hd
    split at h
    · cases h
    · cases hline : Toy.line xs ys with
      | error e => rw [hline] at h; cases h
      | ok c =>
        rw [hline] at h
        have : c = co := Option.some.inj (Except.ok.inj h)
        subst this
        exact Toy.line_best xs ys c hl hline
  · cases h

/-- The hypotheses of `C198_match` and `C198_manual` met: three peaks, the middle line off by 3; both calls return [3101, 280]
instead of the truth [3100, 280], with rms 1, less than the rms of the errors. -/
example : ∃ (s t u : Session ℚ) (r : MatchReport ℚ) (m : RefitReport ℚ),
    s.matchPeaks Toy.env Toy.mkern { coeff := some (true, [3100, 280]), tol := 10, minFrac := 1 / 2 } = (t, .ok (.report r)) ∧
    t.coeffKind ≠ .nan ∧ t.manualRefit Toy.env Toy.mkern {} = (u, .ok m) ∧ m.coeffs = some [3101, 280] ∧
    LimitedByNoise r.coeffs r.peaks r.atlas (r.coeffs.length - 1) ∧
    LimitedByNoise [3101, 280] m.peaks m.atlas ([3101, 280] : List ℚ).length.pred ∧
    r.atlas = [5900, 8703, 11500] ∧ r.rms = 1 ∧ errorSquares [3100, 280] r.peaks r.atlas = 9 := by
  have hc : (Toy.session [10, 20, 30] false [5900, 8703, 11500]).toOption.map (fun s =>
      let x := s.matchPeaks Toy.env Toy.mkern { coeff := some (true, [3100, 280]), tol := 10, minFrac := 1 / 2 }
      ((Toy.matchReport x).map (fun r => (r.peaks, r.atlas, r.rms)), decide (x.1.coeffKind ≠ .nan),
        (x.1.manualRefit Toy.env Toy.mkern {}).2.toOption.map (fun m => m.coeffs))) =
      some (some ([10, 20, 30], [5900, 8703, 11500], 1), true, some (some [3101, 280])) := by
    decide +kernel
  cases hs : Toy.session [10, 20, 30] false [5900, 8703, 11500] with
  | error e => rw [hs] at hc; simp [Except.toOption] at hc
  | ok s =>
    rw [hs] at hc
    simp only [Except.toOption, Option.map_some, Option.some.injEq, Prod.mk.injEq, decide_eq_true_eq] at hc
    obtain ⟨h1, h2, h3⟩ := hc
    cases hx : s.matchPeaks Toy.env Toy.mkern { coeff := some (true, [3100, 280]), tol := 10, minFrac := 1 / 2 } with
    | mk t o =>
      rw [hx] at h1 h2 h3
      obtain ⟨r, hr, hrv⟩ := Option.map_eq_some_iff.1 h1
      have ho : o = .ok (.report r) := by
        match o, hr with
        | .ok (.report r'), hr => exact congrArg (fun z => Except.ok (MatchOut.report z)) (Option.some.inj hr)
      subst ho
      cases hm : t.manualRefit Toy.env Toy.mkern {} with
      | mk u o =>
        dsimp only at h3
        rw [hm] at h3
        cases o with
        | error e => cases h3
        | ok m =>
          have h3 : m.coeffs = some [3101, 280] := Option.some.inj h3
          simp only [Prod.mk.injEq] at hrv
          obtain ⟨v1, v2, v3⟩ := hrv
          refine ⟨s, t, u, r, m, hx, h2, hm, h3,
            (C198_match _ _ _ _ _ _ hx rfl h2 (fun _ _ => Toy.kern_powers)
              (fun xs ys d co hl h => Toy.mkern_squares xs ys d none co hl h)).1,
            (C198_manual _ _ _ _ _ _ _ hm h3 (fun _ _ => Toy.kern_powers) Toy.mkern_squares).1, v2, v3, ?_⟩
          rw [v1, v2]
          decide +kernel

end Rascal
