import Verif.Proofs.Toy
import Mathlib.Data.List.Perm.Subperm

/-!
Property theorems C60 (on `fit`) and C62: what `fit` reports.
-/

set_option linter.unusedSectionVars false

namespace Rascal

section
variable {K : Type _} [Field K] [LinearOrder K] [IsStrictOrderedRing K] [FloorRing K]

/-! ### C60 on `fit` -/

/-- C60.  A solution returned by `fit` has more than `fit_deg` matches, at least the smallest of
`minimum_matches`, the number of atlas lines and the number of peaks, at least the requested share of the
peaks, and an rms of at least `minimum_fit_error`.  It comes from a trial polynomial, fitted to data
containing all known pairs, that starts inside the intercept bounds, passes within `ransac_tolerance` of
every match, and increases in unit steps over a range including all matched peaks. -/
theorem C60_fit_constraints (F : FitEnv K) (ha : IsArgsort F.argsortK) (w : World K) (a : FitArgs K)
    (rnd : FitRandom K) (r : FitReport K) (h : (w.fit F a rnd).2 = .done (.ok r)) :
    ∃ lines, w.atlasLines = .ok lines ∧
      a.degree < r.matchedPeaks.length ∧
      min w.cal.ransac.minMatches (min (lines.length : Int) (w.cal.peaks.length : Int)) ≤
        (r.matchedPeaks.length : Int) ∧
      w.cal.ransac.minUtil * (w.cal.peaks.length : K) ≤ (r.matchedPeaks.length : K) ∧
      w.cal.ransac.minFitError ≤ r.rms ∧
      ∃ (xs ys : List (PyFloat K)) (trial : List K),
        (∀ p v, w.cal.known = some (p, v) → ∀ e ∈ p.zip v, e ∈ xs.zip ys) ∧
        (F.kern a.fitType).polyfit xs ys a.degree = .ok trial ∧
        w.cal.hough.minIntercept ≤ trial.getD 0 0 ∧ trial.getD 0 0 ≤ w.cal.hough.maxIntercept ∧
        (∀ e ∈ r.matchedPeaks.zip r.matchedAtlas,
          |(F.kern a.fitType).polyval trial e.1 - e.2| < w.cal.ransac.tol) ∧
        ∃ p0 p1 : K, (∀ p ∈ r.matchedPeaks, p0 ≤ p ∧ p ≤ p1) ∧ ∀ i : Nat,
          p0 - (p1 - p0) / 5 + (i : K) + 1 < p1 + (p1 - p0) / 5 →
          (F.kern a.fitType).polyval trial (p0 - (p1 - p0) / 5 + (i : K)) <
            (F.kern a.fitType).polyval trial (p0 - (p1 - p0) / 5 + (i : K) + 1) := by
  obtain ⟨lines, L, s, co, data, prev, S⟩ := fit_success F ha w a rnd r h
  have hs := enter_spec F _ _ _ _ _ S.enter
  have hacc := S.accepted
  have hmp : r.matchedPeaks = s.matchedPeaks := by rw [S.report]
  have hma : r.matchedAtlas = s.matchedAtlas := by rw [S.report]
  have hrms : r.rms = s.err := by rw [S.report]
  obtain ⟨e1, e2, e3⟩ := hacc.enough
  obtain ⟨l1, l2⟩ := hacc.lengths
  obtain ⟨trial, t1, _, t2, t3, t4, t5⟩ := hacc.trial
  obtain ⟨_, _, _, _, _, f5⟩ := hacc.fit
  obtain ⟨d, _, t, _, hsm⟩ := S.sampled
  have hknown := sample_containsKnown L.cfg (hs.aligned ha) d t data hsm
  refine ⟨lines, S.atlas, ?_, ?_, ?_, ?_, data.1, data.2, trial, ?_, ?_, ?_, ?_, ?_, ?_⟩
  · rw [hmp, l1, ← hs.fitDeg]; exact e1
  · rw [hmp, l1]
    refine le_trans (le_of_eq ?_) e2
    rw [hs.minMatches]
    unfold adjustMinMatches World.given
    dsimp only
    split <;> split <;> omega
  · rw [hmp, l1]
    have := e3
    rw [hs.minUtil, hs.nPeaks] at this
    exact this
  · rw [hrms]
    rw [hs.minFitError] at f5
    exact f5
  · intro p v hk
    exact hknown p v (by rw [hs.known]; exact hk)
  · rw [← hs.fitDeg]; exact t1
  · rw [hs.minIntercept] at t2; exact t2
  · rw [hs.maxIntercept] at t3; exact t3
  · rw [hmp, hma]
    rw [hs.tol] at t5
    exact t5
  · have hne : L.cfg.x ≠ [] := by
      intro hc
      have := hs.enough
      rw [hc, show npUnique ([] : List K) = [] from rfl] at this
      simp at this
    obtain ⟨x0, xt, hx0⟩ := List.exists_cons_of_ne_nil hne
    have hmin : ∀ p ∈ L.cfg.x, listMin x0 xt ≤ p ∧ p ≤ listMax x0 xt := by
      intro p hp
      rw [hx0] at hp
      rcases List.mem_cons.1 hp with rfl | hp
      · exact ⟨(listMin_le _ _).1, (le_listMax _ _).1⟩
      · exact ⟨(listMin_le _ _).2 p hp, (le_listMax _ _).2 p hp⟩
    refine ⟨listMin x0 xt, listMax x0 xt, ?_, ?_⟩
    · intro p hp
      rw [hmp] at hp
      obtain ⟨i, hi, hip⟩ := List.getElem_of_mem hp
      have hz : (p, s.matchedAtlas[i]'(by omega)) ∈ s.matchedPeaks.zip s.matchedAtlas := by
        rw [List.mem_iff_getElem]
        exact ⟨i, by simp; omega, by simp [hip]⟩
      exact hmin p (List.of_mem_zip (hacc.candidates _ hz)).1
    · exact t4 _ (hx0 ▸ listMin_mem x0 xt) _ (hx0 ▸ listMax_mem x0 xt) hmin

/-! ### C62 -/

/-- C62.  What `fit` returns: distinct peaks of the calibrator with distinct wavelengths, each pair from
the search space (in the linear mode) or a line of the atlas (otherwise); the coefficients of the robust
fit to them; its residuals, set to the tolerance where they exceed it; their root mean square, which is at
most the tolerance; the share of peaks matched, between 0 and 1.  The calibrator holds the same values. -/
theorem C62_report (F : FitEnv K) (ha : IsArgsort F.argsortK) (w : World K) (hp : PairsOnPeaks w.cal)
    (a : FitArgs K) (rnd : FitRandom K) (r : FitReport K) (h : (w.fit F a rnd).2 = .done (.ok r)) :
    let k := F.kern a.fitType
    let tol := w.cal.ransac.tol
    r.matchedPeaks.length = r.matchedAtlas.length ∧ r.matchedPeaks.Nodup ∧ r.matchedAtlas.Nodup ∧
    (∀ p ∈ r.matchedPeaks, p ∈ w.cal.peaks) ∧
    (w.cal.ransac.linear = true → ∀ e ∈ r.matchedPeaks.zip r.matchedAtlas, e ∈ w.cal.pairList) ∧
    (w.cal.ransac.linear = false → ∃ lines, w.atlasLines = .ok lines ∧ ∀ v ∈ r.matchedAtlas, v ∈ lines) ∧
    k.robust r.matchedPeaks r.matchedAtlas a.degree = .ok r.coeffs ∧
    0 < tol ∧
    (∃ res, r.residual = some res ∧ res.length = r.matchedPeaks.length ∧
      (∀ (i : Nat) p v, r.matchedPeaks[i]? = some p → r.matchedAtlas[i]? = some v →
        ∃ x, res[i]? = some x ∧ (|k.polyval r.coeffs p - v| ≤ tol → x = k.polyval r.coeffs p - v) ∧
          (tol < |k.polyval r.coeffs p - v| → x = tol)) ∧
      (∀ x ∈ res, -tol ≤ x ∧ x ≤ tol) ∧
      r.rms = k.sqrt ((res.map (fun x => x ^ 2)).sum / (res.length : K)) ∧
      (0 ≤ r.rms → r.rms ^ 2 = (res.map (fun x => x ^ 2)).sum / (res.length : K) → r.rms ≤ tol)) ∧
    r.peakUtil = (r.matchedPeaks.length : K) / (w.cal.peaks.length : K) ∧ 0 ≤ r.peakUtil ∧
    r.peakUtil ≤ 1 ∧
    (w.fit F a rnd).1.cal.fitCoeff = some r.coeffs ∧
    (w.fit F a rnd).1.cal.matchedPeaks = r.matchedPeaks ∧
    (w.fit F a rnd).1.cal.matchedAtlas = r.matchedAtlas ∧ (w.fit F a rnd).1.cal.rms = some r.rms ∧
    (w.fit F a rnd).1.cal.residual = r.residual ∧ (w.fit F a rnd).1.cal.peakUtil = some r.peakUtil ∧
    (w.fit F a rnd).1.cal.atlasUtil = some r.atlasUtil := by
  obtain ⟨lines, L, s, co, data, prev, S⟩ := fit_success F ha w a rnd r h
  have hs := enter_spec F _ _ _ _ _ S.enter
  have hacc := S.accepted
  have hmp : r.matchedPeaks = s.matchedPeaks := by rw [S.report]
  have hma : r.matchedAtlas = s.matchedAtlas := by rw [S.report]
  have hrms : r.rms = s.err := by rw [S.report]
  have hco : r.coeffs = co := by rw [S.report]
  have hres : r.residual = s.residual := by rw [S.report]
  have hpu : r.peakUtil = (s.inliers : K) / (w.cal.peaks.length : K) := by rw [S.report]
  obtain ⟨l1, l2⟩ := hacc.lengths
  obtain ⟨trial, _, _, _, _, _, t5⟩ := hacc.trial
  obtain ⟨co', _, f2, f3, f4, _⟩ := hacc.fit
  rw [S.coeffs] at f2
  simp only [Option.some.injEq] at f2
  subst f2
  rw [hs.tol] at t5 f3 f4
  change _ = some (fitResidual _ w.cal.ransac.tol _ _ _) at f3
  change _ = rmsOf _ (fitResidual _ w.cal.ransac.tol _ _ _) at f4
  have hpos : 0 < s.inliers := by
    have := hacc.enough.1
    omega
  have htol : 0 < w.cal.ransac.tol := by
    have hz : (s.matchedPeaks[0]'(by omega), s.matchedAtlas[0]'(by omega)) ∈
        s.matchedPeaks.zip s.matchedAtlas := by
      rw [List.mem_iff_getElem]
      exact ⟨0, by simp; omega, by simp⟩
    exact lt_of_le_of_lt (abs_nonneg _) (t5 _ hz)
  have hpeaks : ∀ p ∈ s.matchedPeaks, p ∈ w.cal.peaks := by
    intro p hpm
    obtain ⟨i, hi, hip⟩ := List.getElem_of_mem hpm
    have hz : (p, s.matchedAtlas[i]'(by omega)) ∈ s.matchedPeaks.zip s.matchedAtlas := by
      rw [List.mem_iff_getElem]
      exact ⟨i, by simp; omega, by simp [hip]⟩
    have hx := hacc.candidates _ hz
    cases hlin : w.cal.ransac.linear with
    | true => exact hp _ (hs.linear ha hlin _ hx).1
    | false => exact (hs.poly ha hlin _ hx).1
  have hle : s.inliers ≤ w.cal.peaks.length := by
    rw [← l1]
    exact (List.subperm_of_subset hacc.distinct.1 hpeaks).length_le
  have hnp : (0 : K) < (w.cal.peaks.length : K) := by
    exact_mod_cast lt_of_lt_of_le hpos hle
  have hbound : ∀ x ∈ fitResidual (F.kern a.fitType) w.cal.ransac.tol co s.matchedPeaks s.matchedAtlas,
      -w.cal.ransac.tol ≤ x ∧ x ≤ w.cal.ransac.tol := by
    intro x hx
    unfold fitResidual at hx
    obtain ⟨y, _, rfl⟩ := List.mem_map.1 hx
    split
    · constructor <;> linarith
    · rename_i hy
      exact abs_le.1 (not_lt.1 hy)
  have hlen : (fitResidual (F.kern a.fitType) w.cal.ransac.tol co s.matchedPeaks s.matchedAtlas).length =
      s.inliers := by
    unfold fitResidual
    simp [l1, l2]
  dsimp only
  rw [S.state, hmp, hma, hrms, hco, hres, hpu, l1, l2]
  refine ⟨rfl, hacc.distinct.1, hacc.distinct.2, hpeaks, ?_, ?_, S.robust, htol,
    ⟨_, f3, hlen, ?_, hbound, f4, ?_⟩, rfl, by positivity, ?_, rfl, rfl, rfl, rfl, rfl, rfl, rfl⟩
  · intro hlin e he
    exact (hs.linear ha hlin _ (hacc.candidates _ he)).1
  · intro hlin
    refine ⟨lines, S.atlas, ?_⟩
    intro v hv
    obtain ⟨i, hi, hiv⟩ := List.getElem_of_mem hv
    have hz : (s.matchedPeaks[i]'(by omega), v) ∈ s.matchedPeaks.zip s.matchedAtlas := by
      rw [List.mem_iff_getElem]
      exact ⟨i, by simp; omega, by simp [hiv]⟩
    exact (hs.poly ha hlin _ (hacc.candidates _ hz)).2
  · intro i p v h1 h2
    refine ⟨if |(F.kern a.fitType).polyval co p - v| > w.cal.ransac.tol then w.cal.ransac.tol
      else (F.kern a.fitType).polyval co p - v, ?_, ?_, ?_⟩
    · unfold fitResidual
      rw [List.getElem?_map, List.getElem?_zipWith, h1, h2]
      rfl
    · intro hc
      rw [if_neg (not_lt.2 hc)]
    · intro hc
      rw [if_pos hc]
  · intro h0 hsq
    apply le_of_sq_le_sq _ htol.le
    rw [hsq, hlen, div_le_iff₀ (by exact_mod_cast hpos)]
    calc _ ≤ ((fitResidual (F.kern a.fitType) w.cal.ransac.tol co s.matchedPeaks s.matchedAtlas).map
          (fun _ => w.cal.ransac.tol ^ 2)).sum := by
          apply List.sum_le_sum
          intro x hx
          exact sq_le_sq' (hbound x hx).1 (hbound x hx).2
      _ = _ := by
          rw [List.map_const', List.sum_replicate, hlen, nsmul_eq_mul, mul_comm]
  · rw [div_le_one hnp]
    exact_mod_cast hle

end

/-! ### Concrete case -/

/-- The calibrator of `Toy` meets the hypotheses of C60 and C62: its search space is on its peaks and its
fit returns a solution. -/
example : IsArgsort Toy.env.argsortK ∧ (Toy.world 2 0).toOption.map (fun w =>
    (w.cal.pairList.all (fun e => decide (e.1 ∈ w.cal.peaks)), w.cal.pairList.length,
      (Toy.report (w.fit Toy.env Toy.args Toy.rnd)).isSome)) = some (true, 10, true) :=
  ⟨stableArgsort_isArgsort, by decide +kernel⟩

end Rascal
