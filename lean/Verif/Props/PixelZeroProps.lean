import Verif.Props.OrderProps

/-! Property theorems C194: where the pixels are counted from. -/

set_option linter.unusedSectionVars false

namespace Rascal

section
variable {K : Type _} [Field K] [LinearOrder K] [IsStrictOrderedRing K] [FloorRing K]

/-- The combinations with pixels counted from elsewhere. -/
def Spec.renumberStore (n : K) : PairStore K → PairStore K
  | .array l => .array (l.map (fun e => (e.1 + n, e.2)))
  | s => s

/-- The same session with pixels counted from elsewhere: pixel `p` is now called `p + n`, in the peaks, the list of pixels and
the combinations. -/
def Spec.renumber (n : K) (w : World K) : World K :=
  { w with cal := { w.cal with
      peaks := w.cal.peaks.map (fun p => p + n)
      props := { w.cal.props with pixelList := w.cal.props.pixelList.map (fun p => p + n) }
      pairs := w.cal.pairs.map (Spec.renumberStore n) } }

open Spec

/-- The value at pixel 0 of the line behind the matches. -/
theorem trial_intercept (F : FitEnv K) (ha : IsArgsort F.argsortK) (w : World K) (a : FitArgs K) (rnd : FitRandom K)
    (r : FitReport K) (h : (w.fit F a rnd).2 = .done (.ok r)) (hdeg : a.degree = 1)
    (hk : StraightLines (F.kern a.fitType)) :
    ∃ c0 c1, w.cal.hough.minIntercept ≤ c0 ∧ c0 ≤ w.cal.hough.maxIntercept ∧
      ∀ e ∈ r.matchedPeaks.zip r.matchedAtlas, |c0 + c1 * e.1 - e.2| < w.cal.ransac.tol := by
  obtain ⟨lines, L, s, co, data, prev, S⟩ := fit_success F ha w a rnd r h
  have hs := enter_spec F _ _ _ _ _ S.enter
  have hr := S.report
  obtain ⟨trial, t1, _, t3, t4, _, t6⟩ := S.accepted.trial
  have h1 : L.cfg.fitDeg = 1 := hs.fitDeg.trans hdeg
  rw [h1] at t1
  obtain ⟨c0, c1, rfl⟩ := hk.fit _ _ _ t1
  rw [hs.tol] at t6
  rw [hs.minIntercept] at t3
  rw [hs.maxIntercept] at t4
  refine ⟨c0, c1, t3, t4, fun e he => ?_⟩
  rw [hr] at he
  have ht := t6 e he
  rw [hk.value] at ht
  exact ht

/-- C194, what holds of fits with a straight line: the line through two matches passes pixel 0 within the bounds of the
intercept, up to the tolerance. -/
theorem C194_matches_partial (F : FitEnv K) (ha : IsArgsort F.argsortK) (w : World K) (a : FitArgs K) (rnd : FitRandom K)
    (r : FitReport K) (h : (w.fit F a rnd).2 = .done (.ok r)) (hdeg : a.degree = 1)
    (hk : StraightLines (F.kern a.fitType)) :
    ∀ e ∈ r.matchedPeaks.zip r.matchedAtlas, ∀ f ∈ r.matchedPeaks.zip r.matchedAtlas, e.1 ≤ f.1 →
      w.cal.hough.minIntercept * (f.1 - e.1) ≤ (e.2 * f.1 - f.2 * e.1) + w.cal.ransac.tol * (|e.1| + |f.1|) ∧
      (e.2 * f.1 - f.2 * e.1) - w.cal.ransac.tol * (|e.1| + |f.1|) ≤ w.cal.hough.maxIntercept * (f.1 - e.1) := by
  obtain ⟨c0, c1, h1, h2, h3⟩ := trial_intercept F ha w a rnd r h hdeg hk
  intro e he f hf hle
  have de := h3 e he
  have df := h3 f hf
  have key : c0 * (f.1 - e.1) = (e.2 * f.1 - f.2 * e.1) + ((c0 + c1 * e.1 - e.2) * f.1 - (c0 + c1 * f.1 - f.2) * e.1) := by
    ring
  have b1 : |(c0 + c1 * e.1 - e.2) * f.1| ≤ w.cal.ransac.tol * |f.1| := by
    rw [abs_mul]; exact mul_le_mul_of_nonneg_right de.le (abs_nonneg _)
  have b2 : |(c0 + c1 * f.1 - f.2) * e.1| ≤ w.cal.ransac.tol * |e.1| := by
    rw [abs_mul]; exact mul_le_mul_of_nonneg_right df.le (abs_nonneg _)
  have g1 := abs_le.1 b1
  have g2 := abs_le.1 b2
  have l1 := mul_le_mul_of_nonneg_right h1 (sub_nonneg.2 hle)
  have l2 := mul_le_mul_of_nonneg_right h2 (sub_nonneg.2 hle)
  constructor
  · nlinarith [g1.1, g1.2, g2.1, g2.2]
  · nlinarith [g1.1, g1.2, g2.1, g2.2]

/-- C194, for pixels counted from `n`: the settings are those of the range from `min_wavelength`, which the truth has at the
first pixel `n`.  Two matches can only both be true if the wavelengths between pixel 0 and pixel `n` fit into the range
tolerance, up to the tolerance. -/
theorem C194_first_pixel_partial (F : FitEnv K) (ha : IsArgsort F.argsortK) (w : World K) (a : FitArgs K) (rnd : FitRandom K)
    (r : FitReport K) (h : (w.fit F a rnd).2 = .done (.ok r)) (hdeg : a.degree = 1)
    (hk : StraightLines (F.kern a.fitType)) (hm : InterceptsMatch w.cal.hough) (n slope : K) :
    ∀ e ∈ r.matchedPeaks.zip r.matchedAtlas, ∀ f ∈ r.matchedPeaks.zip r.matchedAtlas, e.1 ≤ f.1 →
      e.2 = w.cal.hough.minW + slope * (e.1 - n) → f.2 = w.cal.hough.minW + slope * (f.1 - n) →
      |slope * n| * (f.1 - e.1) ≤ w.cal.hough.rangeTol * (f.1 - e.1) + w.cal.ransac.tol * (|e.1| + |f.1|) := by
  intro e he f hf hle te tf
  obtain ⟨h1, h2⟩ := C194_matches_partial F ha w a rnd r h hdeg hk e he f hf hle
  rw [hm.1] at h1
  rw [hm.2] at h2
  have key : e.2 * f.1 - f.2 * e.1 = (w.cal.hough.minW - slope * n) * (f.1 - e.1) := by rw [te, tf]; ring
  rw [key] at h1 h2
  rcases abs_cases (slope * n) with ⟨h3, _⟩ | ⟨h3, _⟩ <;> rw [h3] <;> linarith

end

/-- C194, as expected: it does not matter where the pixels are counted from. -/
def C194_Statement : Prop :=
  ∀ (F : FitEnv ℚ) (w : World ℚ) (a : FitArgs ℚ) (rnd : FitRandom ℚ) (r : FitReport ℚ) (n : ℚ), IsArgsort F.argsortK →
    (w.fit F a rnd).2 = .done (.ok r) →
    ∃ rnd' r', ((Spec.renumber n w).fit F a rnd').2 = .done (.ok r') ∧
      ∀ e, e ∈ r'.matchedPeaks.zip r'.matchedAtlas ↔ (e.1 - n, e.2) ∈ r.matchedPeaks.zip r.matchedAtlas

/-- C194 is false: the toy spectrum with pixels counted from 1000 cannot be calibrated, whatever is drawn. -/
theorem C194_refuted : ¬ C194_Statement := by
  intro h
  obtain ⟨rnd', r', h1, h2⟩ := h Toy.env Toy.ready Toy.args Toy.rnd Toy.found 1000 stableArgsort_isArgsort Toy.ready_fit
  have m1 : ((1010 : ℚ), (5900 : ℚ)) ∈ r'.matchedPeaks.zip r'.matchedAtlas := (h2 _).2 (by decide +kernel)
  have m2 : ((1020 : ℚ), (8700 : ℚ)) ∈ r'.matchedPeaks.zip r'.matchedAtlas := (h2 _).2 (by decide +kernel)
  have := (C194_matches_partial Toy.env stableArgsort_isArgsort _ _ _ r' h1 (by decide +kernel) Toy.kern_lines _ m1 _ m2
    (by norm_num)).1
  have ht : (Spec.renumber 1000 Toy.ready).cal.ransac.tol = 5 := by decide +kernel
  have hi : (Spec.renumber 1000 Toy.ready).cal.hough.minIntercept = 2500 := by decide +kernel
  rw [ht, hi] at this
  norm_num [abs_of_pos] at this

/-- The renumbered session is what the same calls make of the renumbered peaks and pixels. -/
example : (Cal.new (fun _ => .ok ()) [1010, 1020] true none).toOption.map (fun c =>
    let w := World.steps Toy.calEnv ⟨[Toy.atlas], c⟩
      [.setCalibrator none (some (Toy.ready.cal.props.pixelList.map (fun p => p + 1000))) none,
       .setHough { numSlopes := some 2, xbins := some 4, ybins := some 4 },
       .setRansac { sampleSize := some 2, minFitError := some 0 }, .setAtlas 0 10 false]
    let v := Spec.renumber 1000 Toy.ready
    decide (w.atlases = v.atlases ∧ w.cal.peaks = v.cal.peaks ∧ w.cal.props.pixelList = v.cal.props.pixelList ∧
      w.cal.hough = v.cal.hough ∧ w.cal.ransac = v.cal.ransac ∧ w.cal.pairs = v.cal.pairs ∧ w.cal.known = v.cal.known)) =
    some true := by
  decide +kernel

/-- Case of `C194_matches_partial`: the toy fit, with pixels counted from 0. -/
example : (Toy.ready.fit Toy.env Toy.args Toy.rnd).2 = .done (.ok Toy.found) ∧ Toy.args.degree = 1 ∧
    Spec.StraightLines (Toy.env.kern Toy.args.fitType) ∧
    ((10 : ℚ), (5900 : ℚ)) ∈ Toy.found.matchedPeaks.zip Toy.found.matchedAtlas ∧
    ((20 : ℚ), (8700 : ℚ)) ∈ Toy.found.matchedPeaks.zip Toy.found.matchedAtlas ∧
    Toy.ready.cal.hough.minIntercept = 2500 ∧ Toy.ready.cal.hough.maxIntercept = 3500 :=
  ⟨Toy.ready_fit, by decide +kernel, Toy.kern_lines, by decide +kernel, by decide +kernel, by decide +kernel,
    by decide +kernel⟩

/-- Case of `C194_first_pixel_partial`: both matches of the toy fit are on the line that is 3000 at pixel `-5/14`. -/
example : InterceptsMatch Toy.ready.cal.hough ∧ Toy.ready.cal.hough.minW = 3000 ∧
    (5900 : ℚ) = 3000 + 280 * (10 - (-5 / 14)) ∧ (8700 : ℚ) = 3000 + 280 * (20 - (-5 / 14)) := by
  have h : Toy.ready.cal.hough.minIntercept = Toy.ready.cal.hough.minW - Toy.ready.cal.hough.rangeTol ∧
      Toy.ready.cal.hough.maxIntercept = Toy.ready.cal.hough.minW + Toy.ready.cal.hough.rangeTol := by decide +kernel
  exact ⟨h, by decide +kernel, by norm_num, by norm_num⟩

end Rascal
