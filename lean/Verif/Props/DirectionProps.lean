import Verif.Props.OrderProps

/-! Property theorems C191: spectra in which the wavelength decreases with the pixel. -/

set_option linter.unusedSectionVars false

namespace Rascal

section
variable {K : Type _} [Field K] [LinearOrder K] [IsStrictOrderedRing K] [FloorRing K]

/-- The combinations of a detector read out from the other end: pixel `p` is now `n - p`. -/
def Spec.mirrorStore (n : K) : PairStore K → PairStore K
  | .array l => .array (l.map (fun e => (n - e.1, e.2)))
  | s => s

/-- The same session for a detector read out from the other end. -/
def Spec.mirror (n : K) (w : World K) : World K :=
  { w with cal := { w.cal with peaks := w.cal.peaks.map (fun p => n - p), pairs := w.cal.pairs.map (Spec.mirrorStore n) } }

open Spec

/-- C191, what holds of fits with a straight line: from a matched peak to one at least a pixel further the wavelength does not
fall by two tolerances. -/
theorem C191_direction_partial (F : FitEnv K) (ha : IsArgsort F.argsortK) (w : World K) (a : FitArgs K) (rnd : FitRandom K)
    (r : FitReport K) (h : (w.fit F a rnd).2 = .done (.ok r)) (hdeg : a.degree = 1)
    (hk : StraightLines (F.kern a.fitType)) :
    ∀ e ∈ r.matchedPeaks.zip r.matchedAtlas, ∀ f ∈ r.matchedPeaks.zip r.matchedAtlas, e.1 + 1 ≤ f.1 →
      e.2 - f.2 < 2 * w.cal.ransac.tol := by
  obtain ⟨lines, L, c0, c1, _, _, h3, h4⟩ := trial_line F ha w a rnd r h hdeg hk
  intro e he f hf hlt
  obtain ⟨e1, e2, _⟩ := h3 e he
  obtain ⟨f1, f2, _⟩ := h3 f hf
  have hc := h4 e.1 (List.of_mem_zip (a := e.1) (b := e.2) e1).1 f.1 (List.of_mem_zip (a := f.1) (b := f.2) f1).1 hlt
  have hpos : c1 * e.1 < c1 * f.1 := by nlinarith
  have g1 := (abs_lt.1 e2).1
  have g2 := (abs_lt.1 f2).2
  linarith

/-- C191, for an instrument with decreasing wavelengths: if the true wavelength falls by at least two tolerances from pixel to
pixel, then of two matches at least a pixel apart one is wrong.  What is missing is any correct result. -/
theorem C191_decreasing_partial (F : FitEnv K) (ha : IsArgsort F.argsortK) (w : World K) (a : FitArgs K) (rnd : FitRandom K)
    (r : FitReport K) (h : (w.fit F a rnd).2 = .done (.ok r)) (hdeg : a.degree = 1)
    (hk : StraightLines (F.kern a.fitType)) (truth : K → K)
    (hdec : ∀ p q, p + 1 ≤ q → 2 * w.cal.ransac.tol ≤ truth p - truth q) :
    ∀ e ∈ r.matchedPeaks.zip r.matchedAtlas, ∀ f ∈ r.matchedPeaks.zip r.matchedAtlas, e.1 + 1 ≤ f.1 →
      e.2 ≠ truth e.1 ∨ f.2 ≠ truth f.1 := by
  intro e he f hf hlt
  by_contra hne
  rw [not_or, not_ne_iff, not_ne_iff] at hne
  have h1 := C191_direction_partial F ha w a rnd r h hdeg hk e he f hf hlt
  have h2 := hdec e.1 f.1 hlt
  rw [hne.1, hne.2] at h1
  linarith

end

/-- C191, as expected of a detector that can be read out from either end: what can be matched can be matched in the mirror
image. -/
def C191_Statement : Prop :=
  ∀ (F : FitEnv ℚ) (w : World ℚ) (a : FitArgs ℚ) (rnd : FitRandom ℚ) (r : FitReport ℚ) (n : ℚ), IsArgsort F.argsortK →
    (w.fit F a rnd).2 = .done (.ok r) →
    ∃ rnd' r', ((Spec.mirror n w).fit F a rnd').2 = .done (.ok r') ∧
      ∀ e, e ∈ r'.matchedPeaks.zip r'.matchedAtlas ↔ (n - e.1, e.2) ∈ r.matchedPeaks.zip r.matchedAtlas

/-- C191 is false: the toy spectrum has lines at 10 and 20 for 5900 and 8700; in its mirror image no draw makes `fit` match 20
with 5900 and 10 with 8700. -/
theorem C191_refuted : ¬ C191_Statement := by
  intro h
  obtain ⟨rnd', r', h1, h2⟩ := h Toy.env Toy.ready Toy.args Toy.rnd Toy.found 30 stableArgsort_isArgsort Toy.ready_fit
  have m1 : ((10 : ℚ), (8700 : ℚ)) ∈ r'.matchedPeaks.zip r'.matchedAtlas := (h2 _).2 (by decide +kernel)
  have m2 : ((20 : ℚ), (5900 : ℚ)) ∈ r'.matchedPeaks.zip r'.matchedAtlas := (h2 _).2 (by decide +kernel)
  have := C191_direction_partial Toy.env stableArgsort_isArgsort _ _ _ r' h1 (by decide +kernel) Toy.kern_lines _ m1 _ m2
    (by norm_num)
  have ht : (Spec.mirror 30 Toy.ready).cal.ransac.tol = 5 := by decide +kernel
  rw [ht] at this
  norm_num at this

/-- The mirror image is a session that can be calibrated, only not correctly: `fit` matches 10 with 5900 and 20 with 8700 as
before. -/
example : (Toy.report ((Spec.mirror 30 Toy.ready).fit Toy.env Toy.args Toy.rnd)).map (fun r =>
    (r.matchedPeaks.zip r.matchedAtlas, r.coeffs)) = some ([(10, 5900), (20, 8700)], [3100, 280]) := by
  decide +kernel

/-- Case of `C191_direction_partial`. -/
example : (Toy.ready.fit Toy.env Toy.args Toy.rnd).2 = .done (.ok Toy.found) ∧ Toy.args.degree = 1 ∧
    Spec.StraightLines (Toy.env.kern Toy.args.fitType) ∧ (10 : ℚ) + 1 ≤ 20 ∧
    ((10 : ℚ), (5900 : ℚ)) ∈ Toy.found.matchedPeaks.zip Toy.found.matchedAtlas ∧
    ((20 : ℚ), (8700 : ℚ)) ∈ Toy.found.matchedPeaks.zip Toy.found.matchedAtlas :=
  ⟨Toy.ready_fit, by decide +kernel, Toy.kern_lines, by norm_num, by decide +kernel, by decide +kernel⟩

/-- Case of `C191_decreasing_partial`: the truth of the mirror image falls by 280 per pixel, the tolerance is 5; the matches
above are wrong. -/
example : (∀ p q : ℚ, p + 1 ≤ q → 2 * (Spec.mirror 30 Toy.ready).cal.ransac.tol ≤ (11500 - 280 * p) - (11500 - 280 * q)) ∧
    (5900 : ℚ) ≠ 11500 - 280 * 10 := by
  have ht : (Spec.mirror 30 Toy.ready).cal.ransac.tol = 5 := by decide +kernel
  rw [ht]
  refine ⟨?_, by norm_num⟩
  intro p q hpq
  linarith

end Rascal
