import Verif.Props.FitProps

/-!
Property theorems C63, C65, C66, C78 (on `fit`), C91 and C94: failing fits and what `fit` leaves behind.
-/

set_option linter.unusedSectionVars false

namespace Rascal

section
variable {K : Type _} [Field K] [LinearOrder K] [IsStrictOrderedRing K] [FloorRing K]

/-! ### C63 -/

/-- What `_solve_candidate_ransac` gives inside `fit`; `none` if it is not called. -/
def World.search (F : FitEnv K) (w : World K) (a : FitArgs K) (rnd : FitRandom K) :
    Option (CallRes (SolveOut K)) :=
  if a.fitType = .other then none
  else
    match w.atlasLines with
    | .error _ => none
    | .ok lines =>
      let h := ({ w.given a with ransac := { (w.given a).ransac with
        sampleSize := adjustSampleSize w.cal.ransac.sampleSize lines.length a.fitDeg } } : Cal K).ensureHough F
      match h.2 with
      | .error _ => none
      | .ok _ => some (({ h.1 with ransac := { h.1.ransac with
          minMatches := adjustMinMatches h.1.ransac.minMatches lines.length h.1.peaks.length } } : Cal K).solve F
            (F.kern a.fitType) lines a a.degree rnd).2

/-- The library routines never raise AssertionError. -/
structure NoAssertion (k : Kernels K) : Prop where
  polyfit : ∀ xs ys n, k.polyfit xs ys n ≠ .error .assertionError
  robust : ∀ xs ys n, k.robust xs ys n ≠ .error .assertionError
  spline : ∀ xs ys h, k.spline xs ys h ≠ .error .assertionError

theorem run_raised (k : Kernels K) (c : RansacCfg K) (hxy : c.x.length = c.y.length) (tape : List Draw)
    (trials : List Trial) (s s' : Best K) (e : PyErr) (h : c.run k tape trials s = .raised e s') :
    ∃ d t, c.sample d t = .error e ∨ ∃ data, c.sample d t = .ok (some data) ∧ PassError k c data e := by
  induction tape generalizing trials s with
  | nil => cases trials <;> simp [RansacCfg.run] at h
  | cons d ds ih =>
    cases trials with
    | nil => simp [RansacCfg.run] at h
    | cons t ts =>
      simp only [RansacCfg.run] at h
      rcases attempt_cases k c hxy d t s with h1 | h1 | ⟨s1, _, h1, _, _⟩ | ⟨e', h1, h2⟩
      · rw [h1] at h; exact ih _ _ h
      · rw [h1] at h; exact ih _ _ h
      · rw [h1] at h; exact ih _ _ h
      · rw [h1] at h
        simp only [RunState.raised.injEq] at h
        rw [← h.1]
        exact ⟨d, t, h2⟩

theorem pickWaves_error (cand : K → Option (List K)) (ps used : List K) (seeds : List Nat) (e : PyErr)
    (h : pickWaves cand ps used seeds = .error e) : e = .keyError := by
  induction ps generalizing used seeds with
  | nil => simp [pickWaves] at h
  | cons p ps ih =>
    unfold pickWaves at h
    split at h
    · simpa using h.symm
    · split at h
      · simp at h
      · exact ih _ _ h

theorem sample_error (c : RansacCfg K) (d : Draw) (t : Trial) (e : PyErr) (h : c.sample d t = .error e) :
    e = .valueError ∨ e = .typeError ∨ e = .keyError := by
  unfold RansacCfg.sample at h
  cases t with
  | brute idx =>
    dsimp only at h
    split at h
    · simp at h
    · split at h
      · exact Or.inl (by simpa using h.symm)
      · exact Or.inr (Or.inl (by simpa using h.symm))
  | random =>
    dsimp only at h
    unfold sampleProb at h
    dsimp only at h
    split at h
    · rename_i e' he
      split at he
      · simp only [Except.error.injEq] at he h
        rw [← h, ← he]
        exact Or.inl rfl
      · simp at he
    · split at h
      · rename_i e' he
        simp only [Except.error.injEq] at h
        rw [← h]
        exact Or.inr (Or.inr (pickWaves_error _ _ _ _ _ he))
      · simp at h
      · simp at h

theorem candidatesPoly_error (weight : K → K → K) (tol : K) (arr : Bool) (peaks actual : List K)
    (f : K → K) (ds : List K) (e : PyErr)
    (h : candidatesPoly weight tol arr peaks actual f ds = .error e) : e ≠ .assertionError := by
  induction ds with
  | nil => simp [candidatesPoly] at h
  | cons d ds ih =>
    unfold candidatesPoly at h
    split at h
    · rename_i e' he
      simp only [Except.error.injEq] at h
      subst h
      unfold polyCandidate at he
      dsimp only at he
      split at he
      · split at he
        · split at he
          · simp at he
          · simp only [Except.error.injEq] at he
            rw [← he]; simp
        · simp at he
      · split at he
        · split at he
          · simp only [Except.error.injEq] at he
            rw [← he]; simp
          · simp at he
        · simp only [Except.error.injEq] at he
          rw [← he]; simp
    · split at h
      · rename_i e' he
        simp only [Except.error.injEq] at h
        subst h
        exact ih he
      · simp at h

theorem candidates_error (F : FitEnv K) (c : Cal K) (k : Kernels K) (lines : List K) (t : K) (u : Nat → K)
    (e : PyErr) (h : c.candidates F k lines t u = .error e) : e ≠ .assertionError := by
  unfold Cal.candidates at h
  split at h
  · simp only [Except.error.injEq] at h
    rw [← h]; simp
  · split at h
    · split at h
      · simp only [Except.error.injEq] at h
        rw [← h]; simp
      · split at h
        · simp at h
        · simp only [Except.error.injEq] at h
          rw [← h]; simp
      · simp at h
    · split at h
      · simp only [Except.error.injEq] at h
        rw [← h]; simp
      · exact candidatesPoly_error _ _ _ _ _ _ _ _ h

/-- When an internal assertion fires: matches of an earlier call are still there, and nothing was
accepted. -/
theorem solve_assertion (F : FitEnv K) (ha : IsArgsort F.argsortK) (k : Kernels K) (hk : NoAssertion k)
    (c : Cal K) (lines : List K) (a : FitArgs K) (deg : Nat) (rnd : FitRandom K)
    (h : (c.solve F k lines a deg rnd).2 = .done (.error .assertionError)) :
    (c.matchedPeaks ≠ [] ∨ c.matchedAtlas ≠ []) ∧
    (c.solve F k lines a deg rnd).1.matchedPeaks = c.matchedPeaks ∧
    (c.solve F k lines a deg rnd).1.matchedAtlas = c.matchedAtlas := by
  unfold Cal.solve at h ⊢
  cases hc : c.candidates F k lines a.candTol rnd.uniform with
  | error e =>
    rw [hc] at h
    simp only [CallRes.done.injEq, Except.error.injEq] at h
    exact absurd h (candidates_error F c k _ _ _ e hc)
  | ok cands =>
    rw [hc] at h
    dsimp only at h ⊢
    split at h
    · simp at h
    rename_i hdeg
    rw [if_neg hdeg]
    have hne : (c.candidateLists F cands).1 ≠ [] := by
      intro hl
      apply hdeg
      rw [hl, show npUnique ([] : List K) = [] from rfl]
      simp
    have hxy := (candidateLists_spec F ha c cands (candidates_spec F _ _ _ _ _ _ hc).1 hne).1
    unfold Cal.solveLists at h ⊢
    dsimp only at h ⊢
    split at h
    · rename_i e he
      simp only [CallRes.done.injEq, Except.error.injEq] at h
      subst h
      unfold Cal.density at he
      split at he
      · simp at he
      · split at he
        · simp at he
        · split at he
          · rename_i e' hs
            simp only [Except.error.injEq] at he
            subst he
            exact absurd hs (hk.spline _ _ _)
          · simp at he
    rename_i d hd
    split at h
    · rename_i e he
      simp only [CallRes.done.injEq, Except.error.injEq] at h
      subst h
      unfold startCost at he
      split at he
      · simp at he
      · simp at he
      · split at he
        · rename_i e' hm
          simp only [Except.error.injEq] at he
          subst he
          exact absurd hm (C57_assertion_never_fires _ _ _).1
        · simp at he
    rename_i cost err hsc
    split at h
    · simp at h
    · rename_i e s hr
      simp only [CallRes.done.injEq, Except.error.injEq] at h
      subst h
      obtain ⟨d', t', hh⟩ := run_raised k _ hxy _ _ _ _ _ hr
      rcases hh with hh | ⟨data, _, hh⟩
      · have := sample_error _ _ _ _ hh
        simp at this
      · rcases hh with hh | ⟨p, q, hh⟩ | ⟨hh, _⟩ | ⟨hh, _⟩
        · exact absurd hh (hk.polyfit _ _ _)
        · exact absurd hh (hk.robust _ _ _)
        · simp at hh
        · simp at hh
    · rename_i s hr
      have hb : s = ⟨cost, err, none, none, 0, c.matchedPeaks, c.matchedAtlas⟩ ∨ _ :=
        (show (RunState.finished s).best = s from rfl) ▸ hr ▸ C60_accepted_constraints k _ hxy _ _ _
      simp only [CallRes.done.injEq] at h
      unfold finishSolve at h
      split at h
      · simp at h
      rename_i hno
      rcases hb with hb | ⟨_, _, _, _, _, _, _, hacc⟩
      · subst hb
        refine ⟨?_, rfl, rfl⟩
        dsimp only at hno
        by_contra hcon
        push Not at hcon
        apply hno
        rw [hcon.1, hcon.2]
        simp
      · exact absurd ⟨hacc.lengths.1.symm, hacc.lengths.2.symm, hacc.distinct.2⟩ hno

/-- C63, what holds: as long as no earlier call has left matches behind, the internal assertions of `fit`
never fire; in general, only if nothing is accepted.  What is missing: after a successful `fit`, one that
accepts nothing fails in them. -/
theorem C63_no_internal_assertion_partial (F : FitEnv K) (ha : IsArgsort F.argsortK)
    (hk : ∀ t, NoAssertion (F.kern t)) (w : World K) (a : FitArgs K) (rnd : FitRandom K)
    (h : w.search F a rnd = some (.done (.error .assertionError))) :
    (w.cal.matchedPeaks ≠ [] ∨ w.cal.matchedAtlas ≠ []) ∧
    (w.fit F a rnd).1.cal.matchedPeaks = w.cal.matchedPeaks ∧
    (w.fit F a rnd).1.cal.matchedAtlas = w.cal.matchedAtlas := by
  unfold World.search at h
  unfold World.fit
  dsimp only at h ⊢
  split at h
  · simp at h
  rename_i hft
  rw [if_neg hft]
  cases hl : w.atlasLines with
  | error e => rw [hl] at h; simp at h
  | ok lines =>
    rw [hl] at h
    dsimp only at h ⊢
    obtain ⟨ht, hhl, hhp, hfr⟩ := ensureHough_frame F
      { w.given a with ransac := { (w.given a).ransac with
        sampleSize := adjustSampleSize w.cal.ransac.sampleSize lines.length a.fitDeg } }
    cases he : (({ w.given a with ransac := { (w.given a).ransac with
        sampleSize := adjustSampleSize w.cal.ransac.sampleSize lines.length a.fitDeg } } : Cal K).ensureHough F).2 with
    | error e => rw [he] at h; simp at h
    | ok u =>
      rw [he] at h
      simp only [Option.some.injEq] at h
      obtain ⟨h1, h2, h3⟩ := solve_assertion F ha _ (hk _) _ _ _ _ _ h
      rw [hfr] at h h1 h2 h3
      have hfw : (Cal.fitWith F (w.given a) lines a rnd).1 = (({ (({ w.given a with
          ransac := { (w.given a).ransac with
            sampleSize := adjustSampleSize w.cal.ransac.sampleSize lines.length a.fitDeg } } : Cal K).ensureHough F).1 with
          ransac := { (({ w.given a with ransac := { (w.given a).ransac with
            sampleSize := adjustSampleSize w.cal.ransac.sampleSize lines.length a.fitDeg } } : Cal K).ensureHough F).1.ransac with
          minMatches := adjustMinMatches (({ w.given a with ransac := { (w.given a).ransac with
            sampleSize := adjustSampleSize w.cal.ransac.sampleSize lines.length a.fitDeg } } : Cal K).ensureHough F).1.ransac.minMatches
              lines.length (({ w.given a with ransac := { (w.given a).ransac with
            sampleSize := adjustSampleSize w.cal.ransac.sampleSize lines.length a.fitDeg } } : Cal K).ensureHough F).1.peaks.length } } :
          Cal K).solve F (F.kern a.fitType) lines a a.degree rnd).1 := by
        unfold Cal.fitWith
        dsimp only
        rw [show (w.given a).ransac.sampleSize = w.cal.ransac.sampleSize from rfl, he]
        dsimp only
        unfold Cal.fitSearch
        dsimp only
        rw [hfr, h]
      change _ ∧ (Cal.fitWith F (w.given a) lines a rnd).1.matchedPeaks = _ ∧
        (Cal.fitWith F (w.given a) lines a rnd).1.matchedAtlas = _
      rw [hfw, hfr]
      exact ⟨h1, h2, h3⟩

/-- A call on a calibrator: one that changes settings, or a `fit`. -/
inductive CalCall (K : Type _)
  | set (op : SetOp K)
  | fit (a : FitArgs K) (rnd : FitRandom K)

/-- The effect of a call, whether it returns or raises. -/
def World.call (E : CalEnv K) (F : FitEnv K) (w : World K) : CalCall K → World K
  | .set op => (w.step E op).1
  | .fit a rnd => (w.fit F a rnd).1

/-- The effect of several calls. -/
def World.calls (E : CalEnv K) (F : FitEnv K) (w : World K) (cs : List (CalCall K)) : World K :=
  cs.foldl (World.call E F) w

/-! ### C65 -/

/-- C65, what holds: the cost of a returned solution is at most the sum of the errors of the baseline on
the same candidates `x`, `y`.  What is missing: the baseline itself is never returned. -/
theorem C65_baseline_bounds_cost_partial (F : FitEnv K) (ha : IsArgsort F.argsortK) (w : World K)
    (a : FitArgs K) (rnd : FitRandom K) (b : List K) (hb : a.fitCoeff = some b)
    (r : FitReport K) (h : (w.fit F a rnd).2 = .done (.ok r)) :
    ∃ (x y trial : List K) (m0 m : List (K × K × K)) (wt : K),
      matchBijective ((F.kern a.fitType).polyval b) (candTable x y) (npUnique x) = .ok m0 ∧
      matchBijective ((F.kern a.fitType).polyval trial) (candTable x y) (npUnique x) = .ok m ∧
      r.matchedPeaks.zip r.matchedAtlas =
        (m.filter (fun e => decide (e.1 < w.cal.ransac.tol))).map (fun e => (e.2.1, e.2.2)) ∧
      (PyFloat.div (PyFloat.div (.fin (m.map (fun e => min e.1 w.cal.ransac.tol)).sum)
        (.fin ((m.length : K) - (trial.length : K) + 1))) (.fin (wt + 1 / 1000000000))).le
          (.fin (m0.map (fun e => e.1)).sum) = true := by
  obtain ⟨lines, L, s, co, data, prev, S⟩ := fit_success F ha w a rnd r h
  have hs := enter_spec F _ _ _ _ _ S.enter
  obtain ⟨trial, m, wt, _, f2, _, f4, f5⟩ := S.accepted.formula
  obtain ⟨cost, err, h1, h2⟩ := hs.start
  rw [hb] at h2
  unfold startCost at h2
  split at h2
  · simp at *
  · simp at h2
  rename_i b0 bs hbs
  simp only [Option.some.injEq] at hbs
  split at h2
  · simp at h2
  rename_i m0 hm0
  simp only [Except.ok.injEq, Prod.mk.injEq] at h2
  have hbest := (C61_best_wins (F.kern a.fitType) L.cfg (hs.aligned ha) rnd.tape L.trials L.start
    (by rw [h1, ← h2.1]; simp)).2.1
  rw [S.run, show (RunState.finished s).best = s from rfl, h1, ← h2.1, f5, hs.tol] at hbest
  have hmp : r.matchedPeaks = s.matchedPeaks := by rw [S.report]
  have hma : r.matchedAtlas = s.matchedAtlas := by rw [S.report]
  rw [hs.tol] at f4
  refine ⟨L.cfg.x, L.cfg.y, trial, m0, m, wt, ?_, f2, ?_, hbest⟩
  · rw [hbs]; exact hm0
  · rw [hmp, hma]; exact f4

theorem fit_eq (F : FitEnv K) (w : World K) (a : FitArgs K) (rnd : FitRandom K) :
    ((w.fit F a rnd).1 = { w with cal := w.given a } ∧ (∃ e, (w.fit F a rnd).2 = .done (.error e)) ∧
      (a.fitType = .other ∨ ∃ e, w.atlasLines = .error e)) ∨
    ∃ lines, a.fitType ≠ .other ∧ w.atlasLines = .ok lines ∧
      w.fit F a rnd = ({ w with cal := (Cal.fitWith F (w.given a) lines a rnd).1 },
        (Cal.fitWith F (w.given a) lines a rnd).2) := by
  unfold World.fit
  dsimp only
  split
  · rename_i hft
    exact Or.inl ⟨rfl, ⟨_, rfl⟩, Or.inl hft⟩
  rename_i hft
  cases hl : w.atlasLines with
  | error e => exact Or.inl ⟨rfl, ⟨_, rfl⟩, Or.inr ⟨e, rfl⟩⟩
  | ok lines => exact Or.inr ⟨lines, hft, rfl, rfl⟩

/-! ### C66 -/

/-- C66, what holds: if `fit` raises, the rms, the residuals and both utilisations of the previous fit
are still there.  What is missing: the coefficients are replaced by the `fit_coeff` argument, and the
matches may be those of a trial accepted before the exception. -/
theorem C66_failed_fit_partial (F : FitEnv K) (ha : IsArgsort F.argsortK) (w : World K) (a : FitArgs K)
    (rnd : FitRandom K) (e : PyErr) (h : (w.fit F a rnd).2 = .done (.error e)) :
    let c := (w.fit F a rnd).1.cal
    c.rms = w.cal.rms ∧ c.residual = w.cal.residual ∧ c.peakUtil = w.cal.peakUtil ∧
    c.atlasUtil = w.cal.atlasUtil ∧ c.fitCoeff = a.fitCoeff ∧
    ((c.matchedPeaks = w.cal.matchedPeaks ∧ c.matchedAtlas = w.cal.matchedAtlas) ∨
      (c.matchedPeaks.length = c.matchedAtlas.length ∧ a.degree < c.matchedPeaks.length ∧
        c.matchedPeaks.Nodup ∧ c.matchedAtlas.Nodup)) := by
  rcases fit_eq F w a rnd with ⟨h1, _⟩ | ⟨lines, _, _, h1⟩
  · rw [h1]
    exact ⟨rfl, rfl, rfl, rfl, rfl, Or.inl ⟨rfl, rfl⟩⟩
  rw [h1] at h ⊢
  dsimp only at h ⊢
  have key : ResultFrame (w.given a) (Cal.fitWith F (w.given a) lines a rnd).1 ∨
      ∃ L s, (w.given a).enter F lines a rnd.uniform = some L ∧
        (Cal.fitWith F (w.given a) lines a rnd).1 = L.cal.setMatched s ∧
        (s = L.start ∨ ∃ data prev, AcceptedTrial (F.kern a.fitType) L.cfg data prev s) := by
    cases he : (w.given a).enter F lines a rnd.uniform with
    | none => exact Or.inl (fitWith_not_enter F _ _ _ _ he).2.2
    | some L =>
      right
      have hs := enter_spec F _ _ _ _ _ he
      have hbest := C60_accepted_constraints (F.kern a.fitType) L.cfg (hs.aligned ha) rnd.tape L.trials
        L.start
      rw [fitWith_enter F _ _ _ _ _ he] at h ⊢
      have hacc : (L.cfg.run (F.kern a.fitType) rnd.tape L.trials L.start).best = L.start ∨
          ∃ data prev, AcceptedTrial (F.kern a.fitType) L.cfg data prev
            (L.cfg.run (F.kern a.fitType) rnd.tape L.trials L.start).best := by
        rcases hbest with hb | ⟨_, _, _, _, data, prev, _, hb⟩
        · exact Or.inl hb
        · exact Or.inr ⟨data, prev, hb⟩
      generalize L.cfg.run (F.kern a.fitType) rnd.tape L.trials L.start = R at h hacc ⊢
      refine ⟨L, R.best, rfl, ?_, hacc⟩
      cases R with
      | running s => simp [LoopStart.finish] at h
      | raised e s => rfl
      | finished s =>
        unfold LoopStart.finish at h ⊢
        dsimp only at h ⊢
        cases hf : finishSolve a.degree s with
        | error e => rfl
        | ok out =>
          rw [hf] at h
          simp only [CallRes.done.injEq] at h
          exact finishFit_error _ _ _ _ h
  rcases key with k | ⟨L, s, he, hc, hb⟩
  · exact ⟨k.rms, k.residual, k.peakUtil, k.atlasUtil, k.fitCoeff, Or.inl ⟨k.matchedPeaks, k.matchedAtlas⟩⟩
  · have hs := enter_spec F _ _ _ _ _ he
    have k := hs.result
    rw [hc]
    refine ⟨k.rms, k.residual, k.peakUtil, k.atlasUtil, k.fitCoeff, ?_⟩
    rcases hb with rfl | ⟨data, prev, hb⟩
    · left
      obtain ⟨_, _, h1, _⟩ := hs.start
      rw [h1]
      exact ⟨rfl, rfl⟩
    · right
      refine ⟨hb.lengths.1.trans hb.lengths.2.symm, ?_, hb.distinct⟩
      have := hb.enough.1
      rw [hs.fitDeg, ← hb.lengths.1] at this
      exact this

/-! ### C91 -/

/-- C91, what holds: `fit` changes no setting, no known pair, no peak, no atlas and no search space, except
`sample_size` and `minimum_matches`.  What is missing: those two. -/
theorem C91_settings_kept_partial (F : FitEnv K) (w : World K) (a : FitArgs K) (rnd : FitRandom K) :
    (w.fit F a rnd).1.atlases = w.atlases ∧
    (w.fit F a rnd).1.cal.peaks = w.cal.peaks ∧ (w.fit F a rnd).1.cal.props = w.cal.props ∧
    (w.fit F a rnd).1.cal.hough = w.cal.hough ∧ (w.fit F a rnd).1.cal.atlas = w.cal.atlas ∧
    (w.fit F a rnd).1.cal.candTol = w.cal.candTol ∧
    (w.fit F a rnd).1.cal.constrainPoly = w.cal.constrainPoly ∧
    (w.fit F a rnd).1.cal.pairs = w.cal.pairs ∧ (w.fit F a rnd).1.cal.known = w.cal.known ∧
    ∃ s m, (w.fit F a rnd).1.cal.ransac = { w.cal.ransac with sampleSize := s, minMatches := m } := by
  obtain ⟨h, h'⟩ := fit_frame F w a rnd
  exact ⟨h', h.peaks, h.props, h.hough, h.atlas, h.candTol, h.constrainPoly, h.pairs, h.known, h.ransac⟩

/-! ### C94 -/

/-- C94.  With degree 0 `fit` never returns a solution, for any fitting routine that returns one
coefficient for degree 0. -/
theorem C94_no_constant_fit (F : FitEnv K) (ha : IsArgsort F.argsortK) (w : World K) (a : FitArgs K)
    (rnd : FitRandom K) (hdeg : a.degree = 0)
    (hlen : ∀ xs ys co, (F.kern a.fitType).polyfit xs ys 0 = .ok co → co.length = 1) (r : FitReport K) :
    (w.fit F a rnd).2 ≠ .done (.ok r) := by
  intro h
  obtain ⟨lines, L, s, co, data, prev, S⟩ := fit_success F ha w a rnd r h
  have hs := enter_spec F _ _ _ _ _ S.enter
  obtain ⟨trial, t1, t2, _⟩ := S.accepted.trial
  rw [hs.fitDeg, hdeg] at t1
  have := hlen _ _ _ t1
  omega

end

/-! ### Concrete cases -/

/-- The exception of a search, if it raised. -/
def Toy.searchError : Option (CallRes (SolveOut ℚ)) → Option PyErr
  | some (.done (.error e)) => some e
  | _ => none

/-- A successful fit, then a `sample_size` of 5. -/
def Toy.history : List (CalCall ℚ) :=
  [.fit Toy.args Toy.rnd, .set (.setRansac { sampleSize := some 5 })]

/-- The toy routines never raise AssertionError. -/
theorem Toy.noAssertion (t : FitType) : NoAssertion (Toy.env.kern t) := by
  refine ⟨?_, ?_, ?_⟩
  · intro xs ys n
    change (if n = 1 then _ else _) ≠ _
    split
    · unfold Toy.line; dsimp only; split <;> simp
    · simp
  · intro xs ys n
    change (if n = 1 then _ else _) ≠ _
    split
    · unfold Toy.line; dsimp only; split <;> simp
    · simp
  · intro xs ys h
    simp [Toy.env, Toy.kern]

/-- The toy calibrator after a fit, with a larger `sample_size`. -/
def Toy.again : World ℚ := World.calls Toy.calEnv Toy.env Toy.ready Toy.history

/-- The hypotheses of `C63_no_internal_assertion_partial` met: a fit without a trial after a successful one. -/
example := C63_no_internal_assertion_partial Toy.env Toy.env_argsort Toy.noAssertion Toy.again Toy.args Toy.rnd (by
  have h : Toy.searchError (Toy.again.search Toy.env Toy.args Toy.rnd) = some .assertionError := by decide +kernel
  unfold Toy.searchError at h
  split at h
  · next e he => rw [he, Option.some.inj h]
  · cases h)

/-- The hypotheses of `C65_baseline_bounds_cost_partial` met: the baseline is off by one, the result is exact. -/
example := C65_baseline_bounds_cost_partial Toy.env Toy.env_argsort Toy.ready
  { Toy.args with fitCoeff := some [3101, 280] } Toy.rnd [3101, 280] rfl Toy.found (by
    have h : Toy.report (Toy.ready.fit Toy.env { Toy.args with fitCoeff := some [3101, 280] } Toy.rnd) =
      some Toy.found := by decide +kernel
    unfold Toy.report at h
    split at h
    · next r hr => rw [hr, Option.some.inj h]
    · cases h)

/-- The hypothesis of `C66_failed_fit_partial` met by the same fit. -/
example := C66_failed_fit_partial Toy.env Toy.env_argsort Toy.again Toy.args Toy.rnd .assertionError (by
  have h : Toy.exception (Toy.again.fit Toy.env Toy.args Toy.rnd) = some .assertionError := by decide +kernel
  unfold Toy.exception at h
  split at h
  · next e he => rw [he, Option.some.inj h]
  · cases h)

/-- C91: the same fit reduces `sample_size` and keeps the Hough settings. -/
example : (Toy.again.cal.ransac.sampleSize, (Toy.again.fit Toy.env Toy.args Toy.rnd).1.cal.ransac.sampleSize,
    decide ((Toy.again.fit Toy.env Toy.args Toy.rnd).1.cal.hough = Toy.again.cal.hough)) = (5, 2, true) := by
  decide +kernel

/-- The expected behaviour: the internal assertions never fire, whatever was done before. -/
def C63_Statement : Prop :=
  ∀ w : World ℚ, Toy.world 2 0 = .ok w → ∀ (cs : List (CalCall ℚ)) (a : FitArgs ℚ) (rnd : FitRandom ℚ),
    (World.calls Toy.calEnv Toy.env w cs).search Toy.env a rnd ≠ some (.done (.error .assertionError))

/-- C63 is false: after a successful fit, one that makes no trial (C92) fails in an internal assertion. -/
theorem C63_refuted : ¬ C63_Statement := by
  intro h
  have hc : (Toy.world 2 0).toOption.map (fun w => Toy.searchError
      ((World.calls Toy.calEnv Toy.env w Toy.history).search Toy.env Toy.args Toy.rnd)) =
      some (some .assertionError) := by
    decide +kernel
  cases hw : Toy.world 2 0 with
  | error e => rw [hw] at hc; simp [Except.toOption] at hc
  | ok w =>
    rw [hw] at hc
    simp only [Except.toOption, Option.map_some, Option.some.injEq] at hc
    apply h w hw Toy.history Toy.args Toy.rnd
    generalize (World.calls Toy.calEnv Toy.env w Toy.history).search Toy.env Toy.args Toy.rnd = o at hc
    unfold Toy.searchError at hc
    split at hc
    · simp only [Option.some.injEq] at hc
      rw [hc]
    · simp at hc

/-- The expected behaviour: a fit with a baseline that finishes its search without accepting a trial
returns the baseline. -/
def C65_Statement : Prop :=
  ∀ w : World ℚ, Toy.world 5 0 = .ok w → ∀ (a : FitArgs ℚ) (rnd : FitRandom ℚ) (b : List ℚ)
    (out : SolveOut ℚ), a.fitCoeff = some b → w.search Toy.env a rnd = some (.done (.ok out)) →
    out.coeffs = none → ∃ r, (w.fit Toy.env a rnd).2 = .done (.ok r) ∧ r.coeffs = b

/-- The baseline of the refutation, the line through both pairs. -/
def Toy.baseline : FitArgs ℚ := { Toy.args with fitCoeff := some [3100, 280] }

/-- The result of a search that returned without a solution. -/
def Toy.emptyHanded : Option (CallRes (SolveOut ℚ)) → Bool
  | some (.done (.ok out)) => out.coeffs.isNone
  | _ => false

/-- C65 is false: with a perfect baseline and no accepted trial, `fit` raises. -/
theorem C65_refuted : ¬ C65_Statement := by
  intro h
  have hc : (Toy.world 5 0).toOption.map (fun w =>
      (Toy.emptyHanded (w.search Toy.env Toy.baseline Toy.rnd),
        Toy.exception (w.fit Toy.env Toy.baseline Toy.rnd))) =
      some (true, some .assertionError) := by
    decide +kernel
  cases hw : Toy.world 5 0 with
  | error e => rw [hw] at hc; simp [Except.toOption] at hc
  | ok w =>
    rw [hw] at hc
    simp only [Except.toOption, Option.map_some, Option.some.injEq, Prod.mk.injEq] at hc
    obtain ⟨h1, h2⟩ := hc
    have hs : ∃ out, w.search Toy.env Toy.baseline Toy.rnd = some (.done (.ok out)) ∧ out.coeffs = none := by
      generalize w.search Toy.env Toy.baseline Toy.rnd = o at h1
      unfold Toy.emptyHanded at h1
      split at h1
      · exact ⟨_, rfl, by simpa using h1⟩
      · simp at h1
    obtain ⟨out, hs1, hs2⟩ := hs
    obtain ⟨r, hr, _⟩ := h w hw Toy.baseline Toy.rnd _ out rfl hs1 hs2
    unfold Toy.exception at h2
    rw [hr] at h2
    simp at h2

/-- The expected behaviour: a failing fit leaves the coefficients and the matches alone. -/
def C66_Statement : Prop :=
  ∀ w : World ℚ, Toy.world 2 0 = .ok w → ∀ (cs : List (CalCall ℚ)) (a : FitArgs ℚ) (rnd : FitRandom ℚ)
    (e : PyErr), let w' := World.calls Toy.calEnv Toy.env w cs
    (w'.fit Toy.env a rnd).2 = .done (.error e) →
    (w'.fit Toy.env a rnd).1.cal.fitCoeff = w'.cal.fitCoeff ∧
    (w'.fit Toy.env a rnd).1.cal.matchedPeaks = w'.cal.matchedPeaks ∧
    (w'.fit Toy.env a rnd).1.cal.matchedAtlas = w'.cal.matchedAtlas

/-- C66 is false: the coefficients of the previous fit are lost. -/
theorem C66_refuted : ¬ C66_Statement := by
  intro h
  have hc : (Toy.world 2 0).toOption.map (fun w =>
      let w' := World.calls Toy.calEnv Toy.env w Toy.history
      (Toy.exception (w'.fit Toy.env Toy.args Toy.rnd), w'.cal.fitCoeff,
        (w'.fit Toy.env Toy.args Toy.rnd).1.cal.fitCoeff)) =
      some (some .assertionError, some [3100, 280], none) := by
    decide +kernel
  cases hw : Toy.world 2 0 with
  | error e => rw [hw] at hc; simp [Except.toOption] at hc
  | ok w =>
    rw [hw] at hc
    simp only [Except.toOption, Option.map_some, Option.some.injEq, Prod.mk.injEq] at hc
    obtain ⟨h1, h2, h3⟩ := hc
    have := h w hw Toy.history Toy.args Toy.rnd .assertionError (by
      generalize World.fit Toy.env (World.calls Toy.calEnv Toy.env w Toy.history) Toy.args Toy.rnd = p at h1
      unfold Toy.exception at h1
      split at h1
      · rename_i e he
        simp only [Option.some.injEq] at h1
        rw [he, h1]
      · simp at h1)
    rw [h2, h3] at this
    simp at this

/-- The expected behaviour: `fit` changes no setting. -/
def C91_Statement : Prop :=
  ∀ w : World ℚ, Toy.world 2 0 = .ok w → ∀ (cs : List (CalCall ℚ)) (a : FitArgs ℚ) (rnd : FitRandom ℚ),
    let w' := World.calls Toy.calEnv Toy.env w cs
    (w'.fit Toy.env a rnd).1.cal.ransac = w'.cal.ransac

/-- C91 is false: the fit changes `minimum_matches` from 3 to 2 and `sample_size` from 10 to 2. -/
theorem C91_refuted : ¬ C91_Statement := by
  intro h
  have hc : (Toy.world 2 0).toOption.map (fun w =>
      let w' := World.calls Toy.calEnv Toy.env w [.set (.setRansac { sampleSize := some 10, minMatches := some 3 })]
      (w'.cal.ransac.sampleSize, w'.cal.ransac.minMatches,
        (w'.fit Toy.env Toy.args Toy.rnd).1.cal.ransac.sampleSize,
        (w'.fit Toy.env Toy.args Toy.rnd).1.cal.ransac.minMatches)) =
      some (10, 3, 2, 2) := by
    decide +kernel
  cases hw : Toy.world 2 0 with
  | error e => rw [hw] at hc; simp [Except.toOption] at hc
  | ok w =>
    rw [hw] at hc
    simp only [Except.toOption, Option.map_some, Option.some.injEq, Prod.mk.injEq] at hc
    have := h w hw [.set (.setRansac { sampleSize := some 10, minMatches := some 3 })] Toy.args Toy.rnd
    dsimp only at this
    rw [this] at hc
    obtain ⟨h1, _, h2, _⟩ := hc
    rw [h1] at h2
    simp at h2

/-- The expected behaviour of C78 on `fit`: after `clear_atlas` no line can be matched. -/
def C78_FitStatement : Prop :=
  ∀ w : World ℚ, Toy.world 2 0 = .ok w → ∀ (a : FitArgs ℚ) (rnd : FitRandom ℚ) (r : FitReport ℚ),
    ((World.steps Toy.calEnv w [.clearAtlas]).fit Toy.env a rnd).2 = .done (.ok r) → r.matchedAtlas = []

/-- C78 is false on `fit`: it matches lines of the cleared atlas and reports an infinite atlas
utilisation. -/
theorem C78_fit_refuted : ¬ C78_FitStatement := by
  intro h
  have hc : (Toy.world 2 0).toOption.map (fun w =>
      Toy.report ((World.steps Toy.calEnv w [.clearAtlas]).fit Toy.env Toy.args Toy.rnd)) =
      some (some ⟨[3100, 280], [10, 20], [5900, 8700], 0, some [0, 0], 1, .posInf⟩) := by
    decide +kernel
  cases hw : Toy.world 2 0 with
  | error e => rw [hw] at hc; simp [Except.toOption] at hc
  | ok w =>
    rw [hw] at hc
    simp only [Except.toOption, Option.map_some, Option.some.injEq] at hc
    have := h w hw Toy.args Toy.rnd ⟨[3100, 280], [10, 20], [5900, 8700], 0, some [0, 0], 1, .posInf⟩ (by
      generalize World.fit Toy.env (World.steps Toy.calEnv w [.clearAtlas]) Toy.args Toy.rnd = p at hc
      unfold Toy.report at hc
      split at hc
      · rename_i e he
        simp only [Option.some.injEq] at hc
        rw [he, hc]
      · simp at hc)
    simp at this

end Rascal
