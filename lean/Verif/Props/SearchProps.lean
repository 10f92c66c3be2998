import Verif.Props.FitLoopProps
import Verif.Props.CandidateProps

/-!
Property theorems C112 to C115: what more tries, a perfect sample, the intercept bounds and known pairs mean for
the solution that `fit` returns.
-/

set_option linter.unusedSectionVars false

namespace Rascal

section
variable {K : Type _} [Field K] [LinearOrder K] [IsStrictOrderedRing K] [FloorRing K]

/-! ### C112: more tries -/

theorem run_append (k : Kernels K) (c : RansacCfg K) (tape : List Draw) (ts : List Trial) (s f : Best K)
    (h : c.run k tape ts s = .finished f) :
    ∃ rest : List Draw, ∀ (more : List Draw) (ts' : List Trial),
      c.run k (tape ++ more) (ts ++ ts') s = c.run k (rest ++ more) ts' f := by
  induction tape generalizing ts s with
  | nil =>
    cases ts with
    | nil =>
      simp only [RansacCfg.run, RunState.finished.injEq] at h
      exact ⟨[], fun more ts' => by rw [h]; rfl⟩
    | cons t ts => simp [RansacCfg.run] at h
  | cons d ds ih =>
    cases ts with
    | nil =>
      simp only [RansacCfg.run, RunState.finished.injEq] at h
      exact ⟨d :: ds, fun more ts' => by rw [h]; rfl⟩
    | cons t ts =>
      simp only [RansacCfg.run] at h
      cases ha : c.attempt k d t s with
      | retry =>
        rw [ha] at h
        obtain ⟨rest, hr⟩ := ih (t :: ts) s h
        refine ⟨rest, fun more ts' => ?_⟩
        rw [← hr more ts']
        simp only [List.cons_append, RansacCfg.run]
        rw [ha]
      | next s1 =>
        rw [ha] at h
        obtain ⟨rest, hr⟩ := ih ts s1 h
        refine ⟨rest, fun more ts' => ?_⟩
        rw [← hr more ts']
        simp only [List.cons_append, RansacCfg.run]
        rw [ha]
      | raised e s1 => rw [ha] at h; simp at h

theorem makeTrials_more (b : Bool) (n nx nu : Nat) (m m' : Int) (h : m ≤ m') :
    (makeTrials b n nx nu m').2 = (makeTrials b n nx nu m).2 ∧
    ∃ extra, (makeTrials b n nx nu m').1 = (makeTrials b n nx nu m).1 ++ extra := by
  unfold makeTrials
  split
  · exact ⟨rfl, [], by simp⟩
  split
  · exact ⟨rfl, [], by simp⟩
  · refine ⟨rfl, List.replicate (m'.toNat - m.toNat) .random, ?_⟩
    dsimp only
    rw [← List.replicate_add, Nat.add_sub_cancel' (Int.toNat_le_toNat h)]

/-- With a larger `max_tries` the loop starts in the same situation, with further trials at the end. -/
theorem enter_maxTries (F : FitEnv K) (c : Cal K) (lines : List K) (a : FitArgs K) (u : Nat → K)
    (L : LoopStart K) (m : Int) (hm : a.maxTries ≤ m) (h : c.enter F lines a u = some L) :
    ∃ extra, c.enter F lines { a with maxTries := m } u = some { L with trials := L.trials ++ extra } := by
  unfold Cal.enter at h ⊢
  dsimp only at h ⊢
  split at h
  · simp at h
  rename_i hok
  split at h
  · simp at h
  rename_i cands hc
  split at h
  · simp at h
  rename_i hdeg
  have hdeg' := hdeg
  change ¬ _ ≤ FitArgs.degree { a with maxTries := m } at hdeg'
  rw [if_neg hdeg']
  split at h
  · simp at h
  rename_i d hd
  split at h
  · simp at h
  rename_i cost err hsc
  simp only [Option.some.injEq] at h
  have h2 := fun b n nx nu => (makeTrials_more b n nx nu _ _ hm).1
  simp only [← h2] at hd h
  rw [hd]
  dsimp only
  obtain ⟨extra, hex⟩ := (makeTrials_more a.brute _ _ _ _ _ hm).2
  refine ⟨extra, ?_⟩
  rw [← h, hex]
  rfl

/-- C112, what holds: with further tries (the first ones drawing the same numbers) the search ends with a
solution whose cost is at most the cost of the earlier one, or with the same report.  What is missing: a lower
cost does not mean more matched peaks, and the search does not stop once all peaks are matched. -/
theorem C112_more_tries_partial (F : FitEnv K) (ha : IsArgsort F.argsortK) (w : World K) (a : FitArgs K)
    (rnd : FitRandom K) (more : List Draw) (m : Int) (hm : a.maxTries ≤ m) (r r' : FitReport K)
    (h : (w.fit F a rnd).2 = .done (.ok r))
    (h' : (w.fit F { a with maxTries := m } ⟨rnd.uniform, rnd.tape ++ more⟩).2 = .done (.ok r')) :
    ∃ lines L s s' data data' prev prev',
      w.atlasLines = .ok lines ∧ (w.given a).enter F lines a rnd.uniform = some L ∧
      AcceptedTrial (F.kern a.fitType) L.cfg data prev s ∧ AcceptedTrial (F.kern a.fitType) L.cfg data' prev' s' ∧
      s.matchedPeaks = r.matchedPeaks ∧ s.matchedAtlas = r.matchedAtlas ∧ s.coeffs = some r.coeffs ∧
      s'.matchedPeaks = r'.matchedPeaks ∧ s'.matchedAtlas = r'.matchedAtlas ∧ s'.coeffs = some r'.coeffs ∧
      s'.cost.le s.cost = true ∧ (s' = s → r' = r) := by
  obtain ⟨lines, L, s, co, data, prev, S⟩ := fit_success F ha w a rnd r h
  obtain ⟨lines', L', s', co', data', prev', S'⟩ := fit_success F ha w _ _ r' h'
  have hl : lines' = lines := by
    have := S'.atlas
    rw [S.atlas] at this
    exact (Except.ok.inj this).symm
  subst hl
  obtain ⟨extra, hex⟩ := enter_maxTries F _ _ _ _ L m hm S.enter
  have hL : L' = { L with trials := L.trials ++ extra } := by
    have := S'.enter
    change (w.given a).enter F lines' { a with maxTries := m } rnd.uniform = some L' at this
    rw [hex] at this
    exact (Option.some.inj this).symm
  subst hL
  have hs := enter_spec F _ _ _ _ _ S.enter
  obtain ⟨cost, err, hst, hsc⟩ := hs.start
  have hnn : L.start.cost ≠ .nan := by
    rw [hst]
    dsimp only
    intro hcn
    subst hcn
    unfold startCost at hsc
    split at hsc
    · simp at hsc
    · simp at hsc
    · split at hsc <;> simp at hsc
  have hbest := (C61_best_wins (F.kern a.fitType) L.cfg (hs.aligned ha) rnd.tape L.trials L.start hnn).2.1
  rw [S.run, show (RunState.finished s).best = s from rfl] at hbest
  have hsn : s.cost ≠ .nan := by
    intro hcn
    rw [hcn] at hbest
    simp [PyFloat.le] at hbest
  obtain ⟨rest, hrest⟩ := run_append _ _ _ _ _ _ S.run
  have hrun' := S'.run
  dsimp only at hrun'
  rw [hrest more extra] at hrun'
  have hbest' := (C61_best_wins (F.kern a.fitType) L.cfg (hs.aligned ha) (rest ++ more) extra s hsn).2.1
  rw [hrun', show (RunState.finished s').best = s' from rfl] at hbest'
  have hr := S.report
  have hr' := S'.report
  refine ⟨lines', L, s, s', data, data', prev, prev', S.atlas, S.enter, S.accepted, S'.accepted,
    by rw [hr], by rw [hr], by rw [S.coeffs, hr], by rw [hr'], by rw [hr'], by rw [S'.coeffs, hr'], hbest', ?_⟩
  intro heq
  subst heq
  have h1 : co = co' := by
    have := S.coeffs
    rw [S'.coeffs] at this
    exact (Option.some.inj this).symm
  have h2 : r.atlasUtil = r'.atlasUtil := by
    have := S.util
    rw [S'.util] at this
    exact (Except.ok.inj this).symm
  rw [hr, hr', h1, h2]

/-! ### C113: a perfect sample -/

theorem sum_min_nonneg (m : List (K × K × K)) (tol : K) (htol : 0 < tol) (hm : ∀ e ∈ m, 0 ≤ e.1) :
    0 ≤ (m.map (fun e => min e.1 tol)).sum ∧
    ((m.map (fun e => min e.1 tol)).sum ≤ 0 → ∀ e ∈ m, e.1 = 0) := by
  induction m with
  | nil => simp
  | cons a m ih =>
    obtain ⟨h1, h2⟩ := ih (fun e he => hm e (List.mem_cons_of_mem _ he))
    have ha := hm a List.mem_cons_self
    have hmin : 0 ≤ min a.1 tol := le_min ha htol.le
    rw [List.map_cons, List.sum_cons]
    refine ⟨add_nonneg hmin h1, fun hle => ?_⟩
    have h3 : min a.1 tol = 0 := le_antisymm (by linarith) hmin
    have h4 : a.1 = 0 := by
      rcases min_choice a.1 tol with h | h
      · rw [← h]; exact h3
      · rw [h] at h3; exact absurd h3 (ne_of_gt htol)
    intro e he
    rcases List.mem_cons.1 he with rfl | he
    · exact h4
    · exact h2 (by linarith) e he

theorem weight_nonneg (k : Kernels K) (c : RansacCfg K) (co : List K) (wt : K)
    (hd : ∀ g f, c.density = .spline g f → 0 ≤ g ∧ ∀ u v, 0 ≤ f u v) (h : c.weight k co = .ok wt) : 0 ≤ wt := by
  unfold RansacCfg.weight at h
  split at h
  · simp at h
  cases hdens : c.density with
  | absent =>
    rw [hdens] at h
    simp only [Except.ok.injEq] at h
    rw [← h]
    exact zero_le_one
  | unbound => rw [hdens] at h; simp at h
  | spline g f =>
    rw [hdens] at h
    simp only [Except.ok.injEq] at h
    obtain ⟨hg, hf⟩ := hd g f hdens
    rw [← h]
    apply mul_nonneg hg
    apply List.sum_nonneg
    intro v hv
    obtain ⟨p, _, rfl⟩ := List.mem_map.1 hv
    exact hf _ _

/-- The cost of an accepted trial in a linearly ordered field, when the degrees of freedom and the weight
are positive. -/
theorem cost_finite (sum dof wt : K) (hdof : 0 < dof) (hwt : 0 ≤ wt) :
    PyFloat.div (PyFloat.div (.fin sum) (.fin dof)) (.fin (wt + 1 / 1000000000)) =
      .fin (sum / dof / (wt + 1 / 1000000000)) := by
  have h1 : wt + 1 / 1000000000 ≠ 0 := by
    have : (0 : K) < 1 / 1000000000 := by positivity
    positivity
  simp only [PyFloat.div, if_neg hdof.ne', if_neg h1]

theorem candTable_mem (x y : List K) (p : K) (ws : List K) (h : candTable x y p = some ws) (v : K) :
    v ∈ ws ↔ (p, v) ∈ x.zip y := by
  unfold candTable at h
  split_ifs at h
  have h := Option.some.inj h
  subst h
  rw [mem_boolMask]
  simp only [List.mem_iff_getElem?, List.getElem?_zip_eq_some, List.getElem?_map]
  constructor
  · rintro ⟨i, h1, h2⟩
    refine ⟨i, ?_, h1⟩
    cases hx : x[i]? with
    | none => rw [hx] at h2; simp at h2
    | some a => rw [hx] at h2; simp at h2; rw [h2]
  · rintro ⟨i, h1, h2⟩
    exact ⟨i, h2, by rw [h1]; simp⟩

theorem accepted_cost (k : Kernels K) (c : RansacCfg K) (data : List (PyFloat K) × List (PyFloat K))
    (prev : PyFloat K) (s : Best K) (A : AcceptedTrial k c data prev s)
    (hk : ∀ xs ys n co, k.polyfit xs ys n = .ok co → co.length = n + 1)
    (hd : ∀ g f, c.density = .spline g f → 0 ≤ g ∧ ∀ u v, 0 ≤ f u v) :
    ∃ trial m, ∃ q : K, k.polyfit data.1 data.2 c.fitDeg = .ok trial ∧
      matchBijective (k.polyval trial) (candTable c.x c.y) (npUnique c.x) = .ok m ∧
      s.matchedPeaks.zip s.matchedAtlas =
        (m.filter (fun e => decide (e.1 < c.tol))).map (fun e => (e.2.1, e.2.2)) ∧
      0 < q ∧ s.cost = .fin ((m.map (fun e => min e.1 c.tol)).sum * q) := by
  obtain ⟨trial, m, wt, f1, f2, f3, f4, f5⟩ := A.formula
  have hwt := weight_nonneg k c trial wt hd f3
  have hl : s.inliers ≤ m.length := by
    have h1 := congrArg List.length f4
    rw [List.length_zip, A.lengths.1, A.lengths.2, min_self, List.length_map] at h1
    rw [h1]
    exact List.length_filter_le _ _
  have hdof : (0 : K) < (m.length : K) - (trial.length : K) + 1 := by
    have h2 : c.fitDeg + 1 ≤ m.length := Nat.le_trans A.enough.1 hl
    rw [hk _ _ _ _ f1]
    have : ((c.fitDeg + 1 : Nat) : K) ≤ (m.length : K) := Nat.cast_le.2 h2
    linarith
  have h1 : (0 : K) < wt + 1 / 1000000000 := by positivity
  refine ⟨trial, m, 1 / ((m.length : K) - (trial.length : K) + 1) / (wt + 1 / 1000000000), f1, f2, f4,
    by positivity, ?_⟩
  rw [f5, cost_finite _ _ _ hdof hwt]
  congr 1
  field_simp

/-- C113, what holds if the density is never negative: if one pass of the search draws a sample whose
polynomial passes exactly through a candidate line at every candidate peak, and this solution is acceptable to
the user's settings, then the matches of the returned report lie exactly on the polynomial of the trial it came
from, and every candidate peak has its nearest candidate line among the matches. -/
theorem C113_perfect_sample_partial (F : FitEnv K) (ha : IsArgsort F.argsortK) (w : World K) (a : FitArgs K)
    (rnd : FitRandom K) (r : FitReport K) (h : (w.fit F a rnd).2 = .done (.ok r))
    (hk : ∀ xs ys n co, (F.kern a.fitType).polyfit xs ys n = .ok co → co.length = n + 1)
    (htol : 0 < w.cal.ransac.tol) :
    ∃ lines L, w.atlasLines = .ok lines ∧ (w.given a).enter F lines a rnd.uniform = some L ∧
      ((∀ g f, L.cfg.density = .spline g f → 0 ≤ g ∧ ∀ u v, 0 ≤ f u v) →
      ∀ p ∈ L.cfg.passes (F.kern a.fitType) rnd.tape L.trials L.start, ∀ b data co,
        Acceptable (F.kern a.fitType) L.cfg p.1 p.2 b → L.cfg.sample p.1 p.2 = .ok (some data) →
        (F.kern a.fitType).polyfit data.1 data.2 a.degree = .ok co →
        (∀ x ∈ L.cfg.x, ∃ y, (x, y) ∈ L.cfg.x.zip L.cfg.y ∧ (F.kern a.fitType).polyval co x = y) →
        ∃ xs ys trial, (F.kern a.fitType).polyfit xs ys a.degree = .ok trial ∧
          (∀ e ∈ r.matchedPeaks.zip r.matchedAtlas, (F.kern a.fitType).polyval trial e.1 = e.2) ∧
          ∀ x ∈ L.cfg.x, ∃ y ∈ r.matchedAtlas, (x, y) ∈ L.cfg.x.zip L.cfg.y ∧
            ∀ y', (x, y') ∈ L.cfg.x.zip L.cfg.y →
              |(F.kern a.fitType).polyval trial x - y| ≤ |(F.kern a.fitType).polyval trial x - y'|) := by
  obtain ⟨lines, L, s, co0, data0, prev, S⟩ := fit_success F ha w a rnd r h
  refine ⟨lines, L, S.atlas, S.enter, ?_⟩
  intro hdens p hp b data co hacc hsam hco hperf
  have hs := enter_spec F _ _ _ _ _ S.enter
  have hxy := hs.aligned ha
  have htol' : 0 < L.cfg.tol := by rw [hs.tol]; exact htol
  obtain ⟨cost, err, hst, hsc⟩ := hs.start
  have hnn : L.start.cost ≠ .nan := by
    rw [hst]
    dsimp only
    intro hcn
    subst hcn
    unfold startCost at hsc
    split at hsc
    · simp at hsc
    · simp at hsc
    · split at hsc <;> simp at hsc
  have hbest := (C61_best_wins (F.kern a.fitType) L.cfg hxy rnd.tape L.trials L.start hnn).2.2 p hp b hacc
  rw [S.run, show (RunState.finished s).best = s from rfl] at hbest
  -- the cost of the perfect sample
  have hb0 : b.cost = .fin 0 := by
    obtain ⟨hatt, hbc⟩ := hacc
    rcases attempt_cases (F.kern a.fitType) L.cfg hxy p.1 p.2 noSolution with h1 | h1 | ⟨s1, d1, h1, h2, h3⟩ | ⟨e, h1, _⟩
    · rw [hatt] at h1; cases h1
    · rw [hatt] at h1
      cases h1
      exact absurd rfl hbc
    · rw [hatt] at h1
      cases h1
      rw [hsam] at h2
      cases h2
      obtain ⟨tr, m, q, f1, f2, _, _, f5⟩ := accepted_cost _ _ _ _ _ h3 hk hdens
      rw [hs.fitDeg, hco] at f1
      cases f1
      obtain ⟨m', hm', hcand⟩ := C57_candidate_pairs ((F.kern a.fitType).polyval co) L.cfg.x L.cfg.y hxy
      rw [f2] at hm'
      cases hm'
      have hz : ∀ e ∈ m, e.1 = 0 := by
        intro e he
        obtain ⟨y, hy, hv⟩ := hperf e.2.1 ((List.of_mem_zip (hcand e he).1).1)
        have h4 := (hcand e he).2 y hy
        rw [hv, sub_self, abs_zero] at h4
        have h5 := ((C57_matching _ _ _ _ f2).2.2.1 e he).2.2.1
        exact le_antisymm h4 (h5 ▸ abs_nonneg _)
      have hsum : (m.map (fun e => min e.1 L.cfg.tol)).sum = 0 := by
        apply List.sum_eq_zero
        intro v hv
        obtain ⟨e, he, rfl⟩ := List.mem_map.1 hv
        rw [hz e he]
        exact min_eq_left htol'.le
      rw [f5, hsum, zero_mul]
    · rw [hatt] at h1; cases h1
  -- the cost of the returned solution is at most that
  obtain ⟨tr, m, q, f1, f2, f4, hq, f5⟩ := accepted_cost _ _ _ _ _ S.accepted hk hdens
  rw [hb0, f5] at hbest
  simp only [PyFloat.le, decide_eq_true_eq] at hbest
  have hM := C57_matching _ _ _ _ f2
  have hpos : ∀ e ∈ m, 0 ≤ e.1 := fun e he => by rw [(hM.2.2.1 e he).2.2.1]; exact abs_nonneg _
  have hz := (sum_min_nonneg m L.cfg.tol htol' hpos).2 (by
    by_contra hc
    exact absurd hbest (not_le.2 (mul_pos (not_le.1 hc) hq)))
  have hfil : m.filter (fun e => decide (e.1 < L.cfg.tol)) = m := by
    rw [List.filter_eq_self]
    intro e he
    rw [hz e he]
    exact decide_eq_true htol'
  rw [hfil] at f4
  have hr1 : r.matchedPeaks = s.matchedPeaks := by rw [S.report]
  have hr2 : r.matchedAtlas = s.matchedAtlas := by rw [S.report]
  rw [← hr1, ← hr2] at f4
  rw [hs.fitDeg] at f1
  obtain ⟨m', hm', hcand⟩ := C57_candidate_pairs ((F.kern a.fitType).polyval tr) L.cfg.x L.cfg.y hxy
  rw [f2] at hm'
  cases hm'
  refine ⟨_, _, tr, f1, ?_, ?_⟩
  · intro e he
    rw [f4] at he
    obtain ⟨t, ht, rfl⟩ := List.mem_map.1 he
    have h6 := (hM.2.2.1 t ht).2.2.1
    rw [hz t ht] at h6
    exact sub_eq_zero.1 (abs_eq_zero.1 h6.symm)
  · intro x hx
    obtain ⟨y, hcl, hy⟩ := hM.2.2.2 x ((mem_npUnique _ _).2 hx)
    obtain ⟨ws, i, hws, hi, hmin, _⟩ := hcl
    have htab : ∀ v, v ∈ ws ↔ (x, v) ∈ L.cfg.x.zip L.cfg.y := by
      intro v
      exact candTable_mem _ _ x ws hws v
    refine ⟨y, ?_, (htab y).1 (List.mem_of_getElem? hi), fun y' hy' => hmin y' ((htab y').2 hy')⟩
    obtain ⟨t, ht, rfl⟩ := List.mem_map.1 hy
    have : (t.2.1, t.2.2) ∈ r.matchedPeaks.zip r.matchedAtlas := by
      rw [f4]
      exact List.mem_map_of_mem (f := fun e : K × K × K => (e.2.1, e.2.2)) ht
    exact (List.of_mem_zip this).2

/-! ### C114 and C115: the intercept bounds, monotonicity and known pairs -/

/-- C114 and C115, what holds: the returned coefficients are the robust fit of the matches, and each match is
within the tolerance of a trial polynomial that was fitted to data containing all known pairs, starts within the
intercept bounds and increases in unit steps over the candidate peaks' range widened by a fifth.  What is
missing: none of this is checked for the returned coefficients, and the known pairs are not part of the robust
fit. -/
theorem C114_trial_admissible_partial (F : FitEnv K) (ha : IsArgsort F.argsortK) (w : World K) (a : FitArgs K)
    (rnd : FitRandom K) (r : FitReport K) (h : (w.fit F a rnd).2 = .done (.ok r)) :
    (F.kern a.fitType).robust r.matchedPeaks r.matchedAtlas a.degree = .ok r.coeffs ∧
    ∃ lines L xs ys trial, w.atlasLines = .ok lines ∧ (w.given a).enter F lines a rnd.uniform = some L ∧
      (F.kern a.fitType).polyfit xs ys a.degree = .ok trial ∧
      (∀ p v, w.cal.known = some (p, v) → ∀ e ∈ p.zip v, e ∈ xs.zip ys) ∧
      w.cal.hough.minIntercept ≤ trial.getD 0 0 ∧ trial.getD 0 0 ≤ w.cal.hough.maxIntercept ∧
      (∀ p0 ∈ L.cfg.x, ∀ p1 ∈ L.cfg.x, (∀ p ∈ L.cfg.x, p0 ≤ p ∧ p ≤ p1) → ∀ i : Nat,
        p0 - (p1 - p0) / 5 + (i : K) + 1 < p1 + (p1 - p0) / 5 →
        (F.kern a.fitType).polyval trial (p0 - (p1 - p0) / 5 + (i : K)) <
          (F.kern a.fitType).polyval trial (p0 - (p1 - p0) / 5 + (i : K) + 1)) ∧
      ∀ e ∈ r.matchedPeaks.zip r.matchedAtlas,
        |(F.kern a.fitType).polyval trial e.1 - e.2| < w.cal.ransac.tol := by
  obtain ⟨lines, L, s, co, data, prev, S⟩ := fit_success F ha w a rnd r h
  have hs := enter_spec F _ _ _ _ _ S.enter
  have hr := S.report
  obtain ⟨trial, t1, _, t3, t4, t5, t6⟩ := S.accepted.trial
  obtain ⟨d, _, t, _, hsam⟩ := S.sampled
  have hkn := sample_containsKnown L.cfg (hs.aligned ha) d t data hsam
  rw [hs.fitDeg] at t1
  rw [hs.minIntercept] at t3
  rw [hs.maxIntercept] at t4
  rw [hs.tol] at t6
  refine ⟨by rw [hr]; exact S.robust, lines, L, data.1, data.2, trial, S.atlas, S.enter, t1, ?_, t3, t4, t5, ?_⟩
  · intro p v hk
    exact hkn p v (by rw [hs.known]; exact hk)
  · rw [hr]
    exact t6

/-- C115, what holds: the returned coefficients are the robust fit of the matches, which are pairs of a peak and
an atlas line in the search space (for linear candidates) or of a peak and a line of the atlas.  What is missing:
a known pair that is not of this kind has no influence on the last step. -/
theorem C115_matches_are_candidates_partial (F : FitEnv K) (ha : IsArgsort F.argsortK) (w : World K)
    (a : FitArgs K) (rnd : FitRandom K) (r : FitReport K) (h : (w.fit F a rnd).2 = .done (.ok r)) :
    (F.kern a.fitType).robust r.matchedPeaks r.matchedAtlas a.degree = .ok r.coeffs ∧
    ∀ e ∈ r.matchedPeaks.zip r.matchedAtlas,
      (w.cal.ransac.linear = true → e ∈ w.cal.pairList) ∧
      (w.cal.ransac.linear = false → e.1 ∈ w.cal.peaks ∧ ∃ lines, w.atlasLines = .ok lines ∧ e.2 ∈ lines) := by
  obtain ⟨lines, L, s, co, data, prev, S⟩ := fit_success F ha w a rnd r h
  have hs := enter_spec F _ _ _ _ _ S.enter
  have hr := S.report
  refine ⟨by rw [hr]; exact S.robust, ?_⟩
  intro e he
  rw [hr] at he
  have hc := S.accepted.candidates e he
  exact ⟨fun hl => (hs.linear ha hl e hc).1,
    fun hl => ⟨(hs.poly ha hl e hc).1, lines, S.atlas, (hs.poly ha hl e hc).2⟩⟩

end

/-! ### Refutations and concrete cases -/

/-- Four peaks and the given atlas lines, with exact fits allowed. -/
def Toy.fourPeaks (lines : List ℚ) : PyRes (World ℚ) :=
  match Cal.new (fun _ => .ok ()) [10, 20, 31, 41] true none with
  | .error e => .error e
  | .ok c => .ok (World.steps Toy.calEnv
      ⟨[⟨lines.map (fun v => ⟨v, "Xe", 1, none⟩), none, none, 0⟩], c⟩
      [.setHough { numSlopes := some 5, xbins := some 4, ybins := some 4 },
       .setRansac { sampleSize := some 2, minFitError := some 0 },
       .setAtlas 0 10 false])

/-- Straight lines, `n` tries. -/
def Toy.fourArgs (n : Int) : FitArgs ℚ := { fitDeg := 1, candTol := 600, maxTries := n }

theorem Toy.report_some (x : World ℚ × CallRes (FitReport ℚ)) (r : FitReport ℚ) (h : Toy.report x = some r) :
    x.2 = .done (.ok r) := by
  unfold Toy.report at h
  split at h
  · rename_i y hy; rw [hy]; cases h; rfl
  · cases h

/-- The expected behaviour: with more tries no matched peak is lost. -/
def C112_Statement : Prop :=
  ∀ (F : FitEnv ℚ) (w : World ℚ) (a : FitArgs ℚ) (rnd : FitRandom ℚ) (more : List Draw) (m : Int)
    (r r' : FitReport ℚ), IsArgsort F.argsortK → a.maxTries ≤ m → (w.fit F a rnd).2 = .done (.ok r) →
    r.matchedPeaks = w.cal.peaks →
    (w.fit F { a with maxTries := m } ⟨rnd.uniform, rnd.tape ++ more⟩).2 = .done (.ok r') →
    r.matchedPeaks.length ≤ r'.matchedPeaks.length

/-- The first try matches all four peaks, with errors 70/31 and 147/31; a second one matches only three, without
error, and replaces it.  (The search is said to "break early if all peaks are matched"; it goes on.) -/
theorem C112_refuted : ¬ C112_Statement := by
  intro h
  have hc : (Toy.fourPeaks [4500, 5900, 7440, 8847]).toOption.bind (fun w =>
      (Toy.report (w.fit Toy.env (Toy.fourArgs 1) ⟨fun _ => 0, [⟨[0, 2], [0, 0]⟩]⟩)).bind (fun r =>
      (Toy.report (w.fit Toy.env (Toy.fourArgs 2) ⟨fun _ => 0, [⟨[0, 2], [0, 0]⟩] ++ [⟨[0, 0], [0, 0]⟩]⟩)).map
        (fun r' => (decide (r.matchedPeaks = w.cal.peaks), r.matchedPeaks.length, r'.matchedPeaks.length)))) =
      some (true, 4, 3) := by
    decide +kernel
  cases hw : Toy.fourPeaks [4500, 5900, 7440, 8847] with
  | error e => rw [hw] at hc; simp [Except.toOption] at hc
  | ok w =>
    rw [hw] at hc
    simp only [Except.toOption, Option.bind_some, Option.bind_eq_some_iff, Option.map_eq_some_iff,
      Prod.mk.injEq, decide_eq_true_eq] at hc
    obtain ⟨r, hr, r', hr', h1, h2, h3⟩ := hc
    have := h Toy.env w (Toy.fourArgs 1) ⟨fun _ => 0, [⟨[0, 2], [0, 0]⟩]⟩ [⟨[0, 0], [0, 0]⟩] 2 r r'
      stableArgsort_isArgsort (by decide) (Toy.report_some _ _ hr) h1 (Toy.report_some _ _ hr')
    rw [h2, h3] at this
    exact absurd this (by decide)

/-- A density that is negative for small intercepts, as a cubic spline through counts can be. -/
def Toy.dippingEnv : FitEnv ℚ :=
  { Toy.env with kern := fun _ =>
    { Toy.kern with spline := fun _ _ _ => .ok (fun i _ => if i < 3100 then -1 else 1) } }

/-- The expected behaviour: if the search draws a sample whose polynomial passes exactly through a line at every
peak, and the solution is acceptable, then the returned matches lie exactly on a trial polynomial. -/
def C113_Statement : Prop :=
  ∀ (F : FitEnv ℚ) (w : World ℚ) (a : FitArgs ℚ) (rnd : FitRandom ℚ) (more : List Draw) (m : Int)
    (r r' : FitReport ℚ), IsArgsort F.argsortK → a.maxTries ≤ m → (w.fit F a rnd).2 = .done (.ok r) →
    (∀ e ∈ r.matchedPeaks.zip r.matchedAtlas, (F.kern a.fitType).polyval r.coeffs e.1 = e.2) →
    r.matchedPeaks = w.cal.peaks →
    (w.fit F { a with maxTries := m } ⟨rnd.uniform, rnd.tape ++ more⟩).2 = .done (.ok r') →
    ∃ c0 c1 : ℚ, ∀ e ∈ r'.matchedPeaks.zip r'.matchedAtlas, c0 + c1 * e.1 = e.2

/-- C113 is false with a density that dips below zero: a trial with errors gets a negative cost and replaces a
perfect one. -/
theorem C113_refuted : ¬ C113_Statement := by
  intro h
  have hc : (Toy.fourPeaks [4500, 5900, 7440, 8840, 8847]).toOption.bind (fun w =>
      (Toy.report (w.fit Toy.dippingEnv (Toy.fourArgs 1) ⟨fun _ => 0, [⟨[0, 0], [0, 0]⟩]⟩)).bind (fun r =>
      (Toy.report (w.fit Toy.dippingEnv (Toy.fourArgs 2)
        ⟨fun _ => 0, [⟨[0, 0], [0, 0]⟩] ++ [⟨[0, 2], [0, 0]⟩]⟩)).map
        (fun r' => (decide (∀ e ∈ r.matchedPeaks.zip r.matchedAtlas, Toy.kern.polyval r.coeffs e.1 = e.2),
          decide (r.matchedPeaks = w.cal.peaks), r'.matchedPeaks.zip r'.matchedAtlas)))) =
      some (true, true, [(10, 4500), (20, 5900), (31, 7440), (41, 8847)]) := by
    decide +kernel
  cases hw : Toy.fourPeaks [4500, 5900, 7440, 8840, 8847] with
  | error e => rw [hw] at hc; simp [Except.toOption] at hc
  | ok w =>
    rw [hw] at hc
    simp only [Except.toOption, Option.bind_some, Option.bind_eq_some_iff, Option.map_eq_some_iff,
      Prod.mk.injEq, decide_eq_true_eq] at hc
    obtain ⟨r, hr, r', hr', h1, h2, h3⟩ := hc
    obtain ⟨c0, c1, hz⟩ := h Toy.dippingEnv w (Toy.fourArgs 1) ⟨fun _ => 0, [⟨[0, 0], [0, 0]⟩]⟩
      [⟨[0, 2], [0, 0]⟩] 2 r r' stableArgsort_isArgsort (by decide) (Toy.report_some _ _ hr) h1 h2
      (Toy.report_some _ _ hr')
    rw [h3] at hz
    have e1 := hz (10, 4500) (by simp)
    have e2 := hz (20, 5900) (by simp)
    have e3 := hz (41, 8847) (by simp)
    dsimp only at e1 e2 e3
    linarith

/-- The expected behaviour: the returned solution starts within the intercept bounds. -/
def C114_Statement : Prop :=
  ∀ (F : FitEnv ℚ) (w : World ℚ) (a : FitArgs ℚ) (rnd : FitRandom ℚ) (r : FitReport ℚ),
    IsArgsort F.argsortK → (w.fit F a rnd).2 = .done (.ok r) →
    w.cal.hough.minIntercept ≤ r.coeffs.getD 0 0 ∧ r.coeffs.getD 0 0 ≤ w.cal.hough.maxIntercept

/-- C114 is false: the trial line starts at 3500, the largest intercept, the robust fit at 1894540/541. -/
theorem C114_refuted : ¬ C114_Statement := by
  intro h
  have hc : (Toy.fourPeaks [4800, 6100, 7530, 8826]).toOption.bind (fun w =>
      (Toy.report (w.fit Toy.env (Toy.fourArgs 1) ⟨fun _ => 0, [⟨[0, 0], [0, 0]⟩]⟩)).map (fun r =>
        (r.coeffs, w.cal.hough.maxIntercept))) = some ([1894540 / 541, 70268 / 541], 3500) := by
    decide +kernel
  cases hw : Toy.fourPeaks [4800, 6100, 7530, 8826] with
  | error e => rw [hw] at hc; simp [Except.toOption] at hc
  | ok w =>
    rw [hw] at hc
    simp only [Except.toOption, Option.bind_some, Option.map_eq_some_iff, Prod.mk.injEq] at hc
    obtain ⟨r, hr, h1, h2⟩ := hc
    have := (h Toy.env w _ _ r stableArgsort_isArgsort (Toy.report_some _ _ hr)).2
    rw [h1, h2] at this
    exact absurd this (by decide +kernel)

/-- The expected behaviour: the returned solution agrees with the known pairs within the tolerance. -/
def C115_Statement : Prop :=
  ∀ (F : FitEnv ℚ) (w : World ℚ) (a : FitArgs ℚ) (rnd : FitRandom ℚ) (r : FitReport ℚ) (p v : ℚ),
    IsArgsort F.argsortK → w.cal.known = some ([.fin p], [.fin v]) → (w.fit F a rnd).2 = .done (.ok r) →
    |(F.kern a.fitType).polyval r.coeffs p - v| ≤ w.cal.ransac.tol

/-- C115 is false: pixel 100 is known to be at 17115, the trial comes within 1 of it, the returned solution
gives 17100. -/
theorem C115_refuted : ¬ C115_Statement := by
  intro h
  have hc : (Toy.fourPeaks [4500, 5900, 7440, 8840]).toOption.bind (fun w0 =>
      let w := (w0.step Toy.calEnv (.setKnown [.fin 100] [.fin 17115])).1
      (Toy.report (w.fit Toy.env (Toy.fourArgs 1) ⟨fun _ => 0, [⟨[0, 0], [0, 0]⟩]⟩)).map (fun r =>
        (decide (w.cal.known = some ([.fin 100], [.fin 17115])), Toy.kern.polyval r.coeffs 100,
          w.cal.ransac.tol))) = some (true, 17100, 5) := by
    decide +kernel
  cases hw : Toy.fourPeaks [4500, 5900, 7440, 8840] with
  | error e => rw [hw] at hc; simp [Except.toOption] at hc
  | ok w =>
    rw [hw] at hc
    simp only [Except.toOption, Option.bind_some, Option.map_eq_some_iff, Prod.mk.injEq,
      decide_eq_true_eq] at hc
    obtain ⟨r, hr, h0, h1, h2⟩ := hc
    have := h Toy.env _ _ _ r 100 17115 stableArgsort_isArgsort h0 (Toy.report_some _ _ hr)
    change |Toy.kern.polyval r.coeffs 100 - 17115| ≤ _ at this
    rw [h1, h2] at this
    exact absurd this (by decide +kernel)

/-- A case meeting the hypotheses of `C112_more_tries_partial`, `C114_trial_admissible_partial` and
`C115_matches_are_candidates_partial`: one and two tries both return. -/
example : IsArgsort Toy.env.argsortK ∧ (Toy.fourPeaks [4500, 5900, 7440, 8847]).toOption.bind (fun w =>
      (Toy.report (w.fit Toy.env (Toy.fourArgs 1) ⟨fun _ => 0, [⟨[0, 2], [0, 0]⟩]⟩)).bind (fun r =>
      (Toy.report (w.fit Toy.env (Toy.fourArgs 2) ⟨fun _ => 0, [⟨[0, 2], [0, 0]⟩] ++ [⟨[0, 0], [0, 0]⟩]⟩)).map
        (fun r' => (r.matchedAtlas, r'.matchedAtlas)))) =
      some ([4500, 5900, 7440, 8847], [4500, 5900, 7440]) :=
  ⟨stableArgsort_isArgsort, by decide +kernel⟩

/-- A case meeting the hypotheses of `C113_perfect_sample_partial`: the density of the toy environment is zero,
the second of two tries draws a sample that is exact at all four peaks. -/
example : (Toy.fourPeaks [4500, 5900, 7440, 8840, 8847]).toOption.bind (fun w =>
      (Toy.report (w.fit Toy.env (Toy.fourArgs 2)
        ⟨fun _ => 0, [⟨[0, 2], [0, 0]⟩] ++ [⟨[0, 0], [0, 0]⟩]⟩)).map
        (fun r => (r.coeffs, r.matchedAtlas, w.cal.ransac.tol))) =
      some ([3100, 140], [4500, 5900, 7440, 8840], 5) := by
  decide +kernel

/-- The other hypothesis of `C113_perfect_sample_partial`, for the toy fitting routine. -/
example (xs ys : List (PyFloat ℚ)) (n : Nat) (co : List ℚ) (h : Toy.kern.polyfit xs ys n = .ok co) :
    co.length = n + 1 := by
  unfold Toy.kern at h
  dsimp only at h
  split at h
  · rename_i hn
    unfold Toy.line at h
    dsimp only at h
    split at h
    · cases h
    · cases h; rw [hn]; rfl
  · cases h

end Rascal
