import Verif.Props.ConfigOrderProps
import Verif.Props.BruteProps
import Verif.Props.HoughVoteProps

/-!
C132: repeating a fit.
-/

set_option linter.unusedSectionVars false

namespace Rascal

variable {K : Type _} [Field K] [LinearOrder K] [IsStrictOrderedRing K] [FloorRing K]

/-! ### C132 -/

/-- The full property: the same call with the same random numbers gives the same outcome and leaves the
calibrator as the first call left it. -/
def C132_Statement (K : Type _) [Field K] [LinearOrder K] [IsStrictOrderedRing K] [FloorRing K] : Prop :=
  ∀ (F : FitEnv K) (w : World K) (a : FitArgs K) (rnd : FitRandom K),
    (w.fit F a rnd).1.fit F a rnd = w.fit F a rnd

/-- How two passes from best solutions of the same cost end. -/
inductive SameEnd (s s' : Best K) : Attempt K → Attempt K → Prop
  | retry : SameEnd s s' .retry .retry
  | stay : SameEnd s s' (.next s) (.next s')
  | move (b : Best K) : SameEnd s s' (.next b) (.next b)
  | fail (e : PyErr) : SameEnd s s' (.raised e s) (.raised e s')
  | stop (e : PyErr) (b : Best K) : SameEnd s s' (.raised e b) (.raised e b)

theorem judge_same (k : Kernels K) (c : RansacCfg K) (s s' : Best K) (cost : PyFloat K) (mp ma co : List K) :
    SameEnd s s' (c.judge k cost mp ma co) (c.judge k cost mp ma co) := by
  unfold RansacCfg.judge
  dsimp only
  split
  · exact .retry
  · split
    · exact .retry
    · split
      · exact .retry
      · split
        · exact .move _
        · exact .stop _ _

theorem attempt_same (k : Kernels K) (c : RansacCfg K) (d : Draw) (t : Trial) (s s' : Best K)
    (h : s'.cost = s.cost) : SameEnd s s' (c.attempt k d t s) (c.attempt k d t s') := by
  unfold RansacCfg.attempt
  cases c.sample d t with
  | error e => exact .fail e
  | ok o =>
    cases o with
    | none => exact .stay
    | some data =>
      dsimp only
      unfold RansacCfg.evaluate
      cases k.polyfit data.1 data.2 c.fitDeg with
      | error e => exact .fail e
      | ok coeffs =>
        dsimp only
        split
        · exact .retry
        · split
          · exact .retry
          · cases matchBijective (k.polyval coeffs) (candTable c.x c.y) (npUnique c.x) with
            | error e => exact .fail e
            | ok m =>
              cases m with
              | nil => exact .retry
              | cons x l =>
                dsimp only
                unfold RansacCfg.compare
                cases c.weight k coeffs with
                | error e => exact .fail e
                | ok wt =>
                  dsimp only
                  rw [h]
                  split
                  · unfold RansacCfg.consider
                    dsimp only
                    split
                    · exact .retry
                    · cases k.robust _ _ c.fitDeg with
                      | error e =>
                        cases e <;> first | exact .retry | exact .fail _
                      | ok co => exact judge_same k c s s' _ _ _ _
                  · exact .stay

/-- How two searches from best solutions of the same cost end. -/
inductive SameRun (s s' : Best K) : RunState K → RunState K → Prop
  | finished : SameRun s s' (.finished s) (.finished s')
  | running : SameRun s s' (.running s) (.running s')
  | raised (e : PyErr) : SameRun s s' (.raised e s) (.raised e s')
  | same (r : RunState K) : SameRun s s' r r

theorem run_same (k : Kernels K) (c : RansacCfg K) (s s' : Best K) (h : s'.cost = s.cost) (tape : List Draw) :
    ∀ ts, SameRun s s' (c.run k tape ts s) (c.run k tape ts s') := by
  induction tape with
  | nil =>
    intro ts
    cases ts with
    | nil => exact .finished
    | cons t ts => exact .running
  | cons d ds ih =>
    intro ts
    cases ts with
    | nil => exact .finished
    | cons t ts =>
      unfold RansacCfg.run
      have he := attempt_same k c d t s s' h
      generalize c.attempt k d t s = x at he
      generalize c.attempt k d t s' = y at he
      cases he with
      | retry => exact ih _
      | stay => exact ih _
      | move b => exact .same _
      | fail e => exact .raised e
      | stop e b => exact .same _

theorem run_again (k : Kernels K) (c : RansacCfg K) (s : Best K) (tape : List Draw) (ts : List Trial) :
    c.run k tape ts { s with
      matchedPeaks := (c.run k tape ts s).best.matchedPeaks
      matchedAtlas := (c.run k tape ts s).best.matchedAtlas } = c.run k tape ts s := by
  have h := run_same k c s { s with
      matchedPeaks := (c.run k tape ts s).best.matchedPeaks
      matchedAtlas := (c.run k tape ts s).best.matchedAtlas } rfl tape ts
  generalize hx : c.run k tape ts s = x at h
  generalize hy : c.run k tape ts _ = y at h
  cases h with
  | finished => rfl
  | running => rfl
  | raised e => rfl
  | same r => rfl

/-- The calibrator with other results of a fit. -/
def Cal.results (c : Cal K) (mp ma : List K) (rms : Option K) (res : Option (List K)) (pu : Option K)
    (au : Option (PyFloat K)) : Cal K :=
  { c with matchedPeaks := mp, matchedAtlas := ma, rms := rms, residual := res, peakUtil := pu, atlasUtil := au }

/-- The end of `_solve_candidate_ransac`, from the outcome of the loop. -/
def Cal.afterLoop (c : Cal K) (deg : Nat) : RunState K → Cal K × CallRes (SolveOut K)
  | .running s => (c.setMatched s, .running)
  | .raised e s => (c.setMatched s, .done (.error e))
  | .finished s => (c.setMatched s, .done (finishSolve deg s))

theorem afterLoop_matched (c : Cal K) (deg : Nat) (r : RunState K) :
    (c.afterLoop deg r).1 = c.setMatched r.best := by
  cases r <;> rfl

/-- The loop and what follows, given the density and the initial cost. -/
def Cal.solveTail (F : FitEnv K) (k : Kernels K) (c : Cal K) (a : FitArgs K) (deg : Nat)
    (rnd : FitRandom K) (x y : List K) (t : List Trial × Nat) (D : PyRes (Density K)) (S : PyRes (PyFloat K × K)) :
    Cal K × CallRes (SolveOut K) :=
  let c1 := { c with ransac := { c.ransac with sampleSize := t.2 } }
  match D with
  | .error e => (c1, .done (.error e))
  | .ok d =>
    match S with
    | .error e => (c1, .done (.error e))
    | .ok p => c1.afterLoop deg ((c1.ransacCfg deg t.2 x y d F.oneDim).run k rnd.tape t.1
          ⟨p.1, p.2, none, none, 0, c.matchedPeaks, c.matchedAtlas⟩)

theorem solveLists_tail (F : FitEnv K) (k : Kernels K) (c : Cal K) (a : FitArgs K) (deg : Nat)
    (rnd : FitRandom K) (x y : List K) :
    c.solveLists F k a deg rnd x y =
      c.solveTail F k a deg rnd x y
        (makeTrials a.brute c.ransac.sampleSize.toNat x.length (npUnique x).length a.maxTries)
        (Cal.density { c with ransac := { c.ransac with sampleSize :=
          ((makeTrials a.brute c.ransac.sampleSize.toNat x.length (npUnique x).length a.maxTries).2 : Int) } } k)
        (startCost k x y a.fitCoeff) := by
  unfold Cal.solveLists Cal.solveTail
  dsimp only
  cases Cal.density _ k with
  | error e => rfl
  | ok d =>
    dsimp only
    cases startCost k x y a.fitCoeff with
    | error e => rfl
    | ok p =>
      dsimp only
      cases RansacCfg.run k _ rnd.tape _ _ <;> rfl

theorem solveTail_again (F : FitEnv K) (k : Kernels K) (c : Cal K) (a : FitArgs K) (deg : Nat)
    (rnd : FitRandom K) (x y : List K) (t : List Trial × Nat) (D : PyRes (Density K)) (S : PyRes (PyFloat K × K))
    (rms : Option K) (res : Option (List K)) (pu : Option K) (au : Option (PyFloat K)) :
    (c.results (c.solveTail F k a deg rnd x y t D S).1.matchedPeaks (c.solveTail F k a deg rnd x y t D S).1.matchedAtlas
      rms res pu au).solveTail F k a deg rnd x y t D S =
      ((c.solveTail F k a deg rnd x y t D S).1.results (c.solveTail F k a deg rnd x y t D S).1.matchedPeaks
        (c.solveTail F k a deg rnd x y t D S).1.matchedAtlas rms res pu au, (c.solveTail F k a deg rnd x y t D S).2) := by
  unfold Cal.solveTail
  cases D with
  | error e => rfl
  | ok d =>
    cases S with
    | error e => rfl
    | ok p =>
      dsimp only
      have h := run_again k (Cal.ransacCfg { c with ransac := { c.ransac with sampleSize := (t.2 : Int) } } deg t.2 x y d
        F.oneDim) ⟨p.1, p.2, none, none, 0, c.matchedPeaks, c.matchedAtlas⟩ rnd.tape t.1
      generalize hr : RansacCfg.run k (Cal.ransacCfg { c with ransac := { c.ransac with sampleSize := (t.2 : Int) } } deg t.2 x y d
        F.oneDim) rnd.tape t.1 ⟨p.1, p.2, none, none, 0, c.matchedPeaks, c.matchedAtlas⟩ = r at h ⊢
      rw [afterLoop_matched]
      have e : Cal.ransacCfg (K := K) { (c.results (Cal.setMatched { c with ransac := { c.ransac with sampleSize := (t.2 : Int) } } r.best).matchedPeaks
          (Cal.setMatched { c with ransac := { c.ransac with sampleSize := (t.2 : Int) } } r.best).matchedAtlas rms res pu au) with
          ransac := { c.ransac with sampleSize := (t.2 : Int) } } deg t.2 x y d F.oneDim =
          Cal.ransacCfg { c with ransac := { c.ransac with sampleSize := (t.2 : Int) } } deg t.2 x y d F.oneDim := rfl
      change Cal.afterLoop _ deg (RansacCfg.run k (Cal.ransacCfg { c with ransac := { c.ransac with sampleSize := (t.2 : Int) } } deg t.2 x y d
        F.oneDim) rnd.tape t.1 ⟨p.1, p.2, none, none, 0, r.best.matchedPeaks, r.best.matchedAtlas⟩) = _
      rw [h]
      cases r <;> rfl

theorem solve_again (F : FitEnv K) (k : Kernels K) (c : Cal K) (lines : List K) (a : FitArgs K) (deg : Nat)
    (rnd : FitRandom K) (rms : Option K) (res : Option (List K)) (pu : Option K) (au : Option (PyFloat K)) :
    (c.results (c.solve F k lines a deg rnd).1.matchedPeaks (c.solve F k lines a deg rnd).1.matchedAtlas
      rms res pu au).solve F k lines a deg rnd =
      ((c.solve F k lines a deg rnd).1.results (c.solve F k lines a deg rnd).1.matchedPeaks
        (c.solve F k lines a deg rnd).1.matchedAtlas rms res pu au, (c.solve F k lines a deg rnd).2) := by
  have hc : ∀ mp ma, (c.results mp ma rms res pu au).candidates F k lines a.candTol rnd.uniform =
      c.candidates F k lines a.candTol rnd.uniform := fun _ _ => rfl
  have hl : ∀ mp ma cands, (c.results mp ma rms res pu au).candidateLists F cands = c.candidateLists F cands :=
    fun _ _ _ => rfl
  unfold Cal.solve
  rw [hc]
  cases c.candidates F k lines a.candTol rnd.uniform with
  | error e => rfl
  | ok cands =>
    dsimp only
    rw [hl]
    by_cases hn : (npUnique (c.candidateLists F cands).1).length ≤ deg
    · simp only [if_pos hn]
    · simp only [if_neg hn, solveLists_tail]
      exact solveTail_again F k c a deg rnd _ _ _ _ _ rms res pu au

theorem solve_kept (F : FitEnv K) (k : Kernels K) (c : Cal K) (lines : List K) (a : FitArgs K) (deg : Nat)
    (rnd : FitRandom K) : ∃ n : Int, (c.solve F k lines a deg rnd).1 =
      { c with
        ransac := { c.ransac with sampleSize := n }
        matchedPeaks := (c.solve F k lines a deg rnd).1.matchedPeaks
        matchedAtlas := (c.solve F k lines a deg rnd).1.matchedAtlas } := by
  unfold Cal.solve
  cases c.candidates F k lines a.candTol rnd.uniform with
  | error e => exact ⟨c.ransac.sampleSize, rfl⟩
  | ok cands =>
    dsimp only
    split
    · exact ⟨c.ransac.sampleSize, rfl⟩
    · rw [solveLists_tail]
      generalize makeTrials _ _ _ _ _ = t
      refine ⟨t.2, ?_⟩
      unfold Cal.solveTail
      dsimp only
      cases Cal.density _ k with
      | error e => rfl
      | ok d =>
        dsimp only
        cases startCost k _ _ a.fitCoeff with
        | error e => rfl
        | ok p =>
          dsimp only
          rw [afterLoop_matched]
          rfl

theorem adjustMinMatches_again (m : Int) (a b : Nat) :
    adjustMinMatches (adjustMinMatches m a b) a b = adjustMinMatches m a b := by
  unfold adjustMinMatches
  dsimp only
  split_ifs <;> omega

/-- The end of `fit` after the search. -/
def afterSolve (n : Nat) (r : Cal K × CallRes (SolveOut K)) : Cal K × CallRes (FitReport K) :=
  match r.2 with
  | .running => (r.1, .running)
  | .done (.error e) => (r.1, .done (.error e))
  | .done (.ok out) => ((r.1.finishFit n out).1, .done (r.1.finishFit n out).2)

theorem finishFit_forms (c : Cal K) (n : Nat) (out : SolveOut K) :
    (∃ e, ∀ rms res pu au, (c.results c.matchedPeaks c.matchedAtlas rms res pu au).finishFit n out =
      (c.results c.matchedPeaks c.matchedAtlas rms res pu au, .error e)) ∨
    ∃ co rms res pu au r, ∀ rms' res' pu' au',
      (c.results c.matchedPeaks c.matchedAtlas rms' res' pu' au').finishFit n out =
      ({ c.results c.matchedPeaks c.matchedAtlas rms res pu au with fitCoeff := co }, .ok r) := by
  unfold Cal.finishFit
  cases h1 : (utilisation out.inliers c.peaks.length : PyRes (PyFloat K)) with
  | error e =>
    refine .inl ⟨e, fun rms res pu au => ?_⟩
    change (match (utilisation out.inliers c.peaks.length : PyRes (PyFloat K)) with | .error e => _ | .ok _ => _) = _
    rw [h1]
  | ok u =>
    cases h2 : (utilisation out.inliers n : PyRes (PyFloat K)) with
    | error e =>
      refine .inl ⟨e, fun rms res pu au => ?_⟩
      change (match (utilisation out.inliers c.peaks.length : PyRes (PyFloat K)) with | .error e => _ | .ok _ => _) = _
      rw [h1]
    | ok au =>
      cases h3 : out.coeffs with
      | none =>
        refine .inl ⟨.assertionError, fun rms res pu au => ?_⟩
        change (match (utilisation out.inliers c.peaks.length : PyRes (PyFloat K)) with | .error e => _ | .ok _ => _) = _
        rw [h1]
      | some co =>
        refine .inr ⟨some co, some out.err, out.residual, some ((out.inliers : K) / (c.peaks.length : K)), some au,
          ⟨co, c.matchedPeaks, c.matchedAtlas, out.err, out.residual, (out.inliers : K) / (c.peaks.length : K), au⟩,
          fun rms res pu au => ?_⟩
        change (match (utilisation out.inliers c.peaks.length : PyRes (PyFloat K)) with | .error e => _ | .ok _ => _) = _
        rw [h1]
        rfl

theorem afterSolve_again (n : Nat) (s : Cal K × CallRes (SolveOut K)) :
    ∃ co rms res pu au,
      (afterSolve n s).1 = { s.1.results s.1.matchedPeaks s.1.matchedAtlas rms res pu au with fitCoeff := co } ∧
      afterSolve n (s.1.results s.1.matchedPeaks s.1.matchedAtlas rms res pu au, s.2) = afterSolve n s := by
  obtain ⟨c, r⟩ := s
  cases r with
  | running => exact ⟨c.fitCoeff, c.rms, c.residual, c.peakUtil, c.atlasUtil, rfl, rfl⟩
  | done r =>
    cases r with
    | error e => exact ⟨c.fitCoeff, c.rms, c.residual, c.peakUtil, c.atlasUtil, rfl, rfl⟩
    | ok out =>
      rcases finishFit_forms c n out with ⟨e, h⟩ | ⟨co, rms, res, pu, au, r, h⟩
      · have h0 : c.finishFit n out = (c, .error e) := h c.rms c.residual c.peakUtil c.atlasUtil
        refine ⟨c.fitCoeff, c.rms, c.residual, c.peakUtil, c.atlasUtil, ?_, rfl⟩
        simp only [afterSolve, h0]
        rfl
      · have h0 : c.finishFit n out =
          ({ c.results c.matchedPeaks c.matchedAtlas rms res pu au with fitCoeff := co }, .ok r) :=
          h c.rms c.residual c.peakUtil c.atlasUtil
        refine ⟨co, rms, res, pu, au, ?_, ?_⟩
        · simp only [afterSolve, h0]
        · simp only [afterSolve, h0, h rms res pu au]

theorem fitSearch_eq (F : FitEnv K) (c : Cal K) (lines : List K) (a : FitArgs K) (rnd : FitRandom K) :
    c.fitSearch F lines a rnd = afterSolve lines.length
      (Cal.solve F (F.kern a.fitType) { c with ransac := { c.ransac with
        minMatches := adjustMinMatches c.ransac.minMatches lines.length c.peaks.length } } lines a a.degree rnd) := by
  unfold Cal.fitSearch afterSolve
  dsimp only
  cases (Cal.solve F (F.kern a.fitType) { c with ransac := { c.ransac with
      minMatches := adjustMinMatches c.ransac.minMatches lines.length c.peaks.length } } lines a a.degree rnd).2 with
  | running => rfl
  | done r => cases r <;> rfl

theorem fitSearch_hough (F : FitEnv K) (c : Cal K) (lines : List K) (a : FitArgs K) (rnd : FitRandom K) :
    (c.fitSearch F lines a rnd).1.houghLines = c.houghLines ∧
    (c.fitSearch F lines a rnd).1.houghPoints = c.houghPoints := by
  rw [fitSearch_eq]
  obtain ⟨n, hk⟩ := solve_kept F (F.kern a.fitType) { c with ransac := { c.ransac with
      minMatches := adjustMinMatches c.ransac.minMatches lines.length c.peaks.length } } lines a a.degree rnd
  generalize Cal.solve F (F.kern a.fitType) _ lines a a.degree rnd = s at hk ⊢
  obtain ⟨co, rms, res, pu, au, h1, _⟩ := afterSolve_again lines.length s
  rw [h1, hk]
  exact ⟨rfl, rfl⟩

/-- The search repeated from the state it leaves, with the sample size and the baseline as before. -/
theorem fitSearch_again (F : FitEnv K) (c : Cal K) (lines : List K) (a : FitArgs K) (rnd : FitRandom K) :
    Cal.fitSearch F { (c.fitSearch F lines a rnd).1 with
      fitCoeff := c.fitCoeff
      ransac := { (c.fitSearch F lines a rnd).1.ransac with sampleSize := c.ransac.sampleSize } } lines a rnd =
    c.fitSearch F lines a rnd := by
  have hf := fitSearch_eq F (lines := lines) (a := a) (rnd := rnd)
  rw [hf c]
  generalize hc1 : ({ c with ransac := { c.ransac with
        minMatches := adjustMinMatches c.ransac.minMatches lines.length c.peaks.length } } : Cal K) = c1
  obtain ⟨n, hk⟩ := solve_kept F (F.kern a.fitType) c1 lines a a.degree rnd
  have hs := solve_again F (F.kern a.fitType) c1 lines a a.degree rnd
  generalize c1.solve F (F.kern a.fitType) lines a a.degree rnd = s at hk hs ⊢
  obtain ⟨co, rms, res, pu, au, h1, h2⟩ := afterSolve_again lines.length s
  rw [h1, hf]
  have e : ({ ({ ({ s.1.results s.1.matchedPeaks s.1.matchedAtlas rms res pu au with fitCoeff := co } : Cal K) with
      fitCoeff := c.fitCoeff
      ransac := { s.1.ransac with sampleSize := c.ransac.sampleSize } } : Cal K) with
      ransac := { s.1.ransac with
        sampleSize := c.ransac.sampleSize
        minMatches := adjustMinMatches s.1.ransac.minMatches lines.length s.1.peaks.length } } : Cal K) =
      c1.results s.1.matchedPeaks s.1.matchedAtlas rms res pu au := by
    rw [hk]
    subst hc1
    dsimp only
    rw [adjustMinMatches_again]
    rfl
  refine Eq.trans (congrArg (afterSolve lines.length) (congrArg (fun x : Cal K =>
    x.solve F (F.kern a.fitType) lines a a.degree rnd) e)) ?_
  rw [hs, h2]

theorem doHough_failed (argsortK : List K → List Nat) (argsortN : List Nat → List Nat) (c : Cal K) (b : Bool)
    (e : PyErr) (h : (c.doHough argsortK argsortN b).2 = .error e) :
    ∃ ht, (c.doHough argsortK argsortN b).1 = { c with ht := ht } := by
  obtain ⟨peaks, arr, props, hough, ransac, atlas, ct, cp, pairs, ht, hl, hp, known, mp, ma, co, rms, res, pu, au⟩ := c
  unfold Cal.doHough at h ⊢
  cases pairs with
  | none => exact ⟨ht, rfl⟩
  | some st =>
    dsimp only at h ⊢
    generalize Hough.setConstraints _ _ _ _ _ = r1 at h ⊢
    cases h1 : r1.2 with
    | error e => exact ⟨r1.1, rfl⟩
    | ok u =>
      rw [h1] at h
      cases st with
      | noColumns => exact ⟨r1.1, rfl⟩
      | array xy =>
        dsimp only at h ⊢
        generalize (if b = true then r1.1.generateBrute argsortK xy else r1.1.generate xy hough.numSlopes.toNat) = r2 at h ⊢
        cases h2 : r2.2 with
        | error e => exact ⟨r2.1, rfl⟩
        | ok u =>
          rw [h2] at h
          dsimp only at h ⊢
          generalize Hough.bin argsortN r2.1 _ _ = r3 at h ⊢
          cases h3 : r3.2 with
          | error e => exact ⟨r3.1, rfl⟩
          | ok u => rw [h3] at h; simp at h

theorem ensureHough_ok (F : FitEnv K) (c : Cal K) (h : (c.ensureHough F).2 = .ok ()) :
    ((c.ensureHough F).1.houghLines.isNone || (c.ensureHough F).1.houghPoints.isNone) = false := by
  unfold Cal.ensureHough at h ⊢
  split
  · rename_i hn
    rw [if_pos hn] at h
    obtain ⟨xy, pts, a, b, hd⟩ := doHough_ok c _ _ _ h
    rw [hd.state]
    rfl
  · rename_i hn
    simpa only [Bool.not_eq_true] using hn

theorem ensureHough_again (F : FitEnv K) (c : Cal K) (e : PyErr) (h : (c.ensureHough F).2 = .error e) :
    (c.ensureHough F).1.ensureHough F = c.ensureHough F := by
  unfold Cal.ensureHough at h ⊢
  by_cases hn : (c.houghLines.isNone || c.houghPoints.isNone) = true
  · rw [if_pos hn] at h ⊢
    obtain ⟨ht, hd⟩ := doHough_failed _ _ c false e h
    have hn' : ((c.doHough F.argsortK F.argsortN false).1.houghLines.isNone ||
        (c.doHough F.argsortK F.argsortN false).1.houghPoints.isNone) = true := by rw [hd]; exact hn
    rw [if_pos hn', doHough_again]
  · rw [if_neg hn] at h
    simp at h

theorem fitWith_again (F : FitEnv K) (c : Cal K) (lines : List K) (a : FitArgs K) (rnd : FitRandom K)
    (hc : c.fitCoeff = a.fitCoeff)
    (h : (c.fitWith F lines a rnd).1.ransac.sampleSize = c.ransac.sampleSize) :
    Cal.fitWith F { (c.fitWith F lines a rnd).1 with fitCoeff := a.fitCoeff } lines a rnd =
      c.fitWith F lines a rnd := by
  have hf : ∀ c : Cal K, c.fitWith F lines a rnd =
      match (Cal.ensureHough F { c with ransac := { c.ransac with
        sampleSize := adjustSampleSize c.ransac.sampleSize lines.length a.fitDeg } }).2 with
      | .error e => ((Cal.ensureHough F { c with ransac := { c.ransac with
        sampleSize := adjustSampleSize c.ransac.sampleSize lines.length a.fitDeg } }).1, .done (.error e))
      | .ok _ => (Cal.ensureHough F { c with ransac := { c.ransac with
        sampleSize := adjustSampleSize c.ransac.sampleSize lines.length a.fitDeg } }).1.fitSearch F lines a rnd :=
    fun _ => rfl
  have hf1 := hf c
  generalize hc1 : ({ c with ransac := { c.ransac with
        sampleSize := adjustSampleSize c.ransac.sampleSize lines.length a.fitDeg } } : Cal K) = c1 at hf1
  obtain ⟨ht, hl, hp, hfr⟩ := ensureHough_frame F c1
  cases h2 : (c1.ensureHough F).2 with
  | error e =>
    rw [h2] at hf1
    dsimp only at hf1
    rw [hf1] at h ⊢
    dsimp only at h ⊢
    have e0 : adjustSampleSize c.ransac.sampleSize lines.length a.fitDeg = c.ransac.sampleSize := by
      rw [hfr] at h; subst hc1; exact h
    have e1 : ({ (c1.ensureHough F).1 with fitCoeff := a.fitCoeff } : Cal K) = (c1.ensureHough F).1 := by
      rw [hfr]; subst hc1; rw [← hc]
    rw [e1, hf]
    have e2 : ({ (c1.ensureHough F).1 with ransac := { (c1.ensureHough F).1.ransac with
        sampleSize := adjustSampleSize (c1.ensureHough F).1.ransac.sampleSize lines.length a.fitDeg } } : Cal K) =
        (c1.ensureHough F).1 := by
      rw [h, e0, ← h]
    rw [e2, ensureHough_again F c1 e h2, h2]
  | ok u =>
    rw [h2] at hf1
    dsimp only at hf1
    have hag := fitSearch_again F (c1.ensureHough F).1 lines a rnd
    obtain ⟨hl1, hp1⟩ := fitSearch_hough F (c1.ensureHough F).1 lines a rnd
    have hsome := ensureHough_ok F c1 h2
    rw [hf1] at h ⊢
    rw [hf]
    have hfc : (c1.ensureHough F).1.fitCoeff = a.fitCoeff := by rw [hfr]; subst hc1; exact hc
    have hss : (c1.ensureHough F).1.ransac.sampleSize =
        adjustSampleSize c.ransac.sampleSize lines.length a.fitDeg := by rw [hfr]; subst hc1; rfl
    rw [hfc, hss] at hag
    generalize (c1.ensureHough F).1.fitSearch F lines a rnd = st at h hag hl1 hp1 ⊢
    dsimp only
    rw [h]
    have hen : Cal.ensureHough F { st.1 with
        fitCoeff := a.fitCoeff
        ransac := { st.1.ransac with
          sampleSize := adjustSampleSize c.ransac.sampleSize lines.length a.fitDeg } } =
        ({ st.1 with
          fitCoeff := a.fitCoeff
          ransac := { st.1.ransac with
            sampleSize := adjustSampleSize c.ransac.sampleSize lines.length a.fitDeg } }, .ok ()) := by
      unfold Cal.ensureHough
      dsimp only
      rw [hl1, hp1, if_neg (by rw [hsome]; simp)]
    rw [hen]
    exact hag

/-- C132 (partial).  With the same random numbers a repeated call of `fit` has the same outcome (the same report,
the same exception, or still running) and leaves the same state, provided the first call left `sample_size` as it
was. -/
theorem C132_repeat_partial (F : FitEnv K) (w : World K) (a : FitArgs K) (rnd : FitRandom K)
    (h : (w.fit F a rnd).1.cal.ransac.sampleSize = w.cal.ransac.sampleSize) :
    (w.fit F a rnd).1.fit F a rnd = w.fit F a rnd := by
  have hw : ∀ v : World K, v.fit F a rnd = if a.fitType = .other then
        ({ v with cal := { v.cal with fitCoeff := a.fitCoeff } }, .done (.error .valueError))
      else match v.atlasLines with
        | .error _ => ({ v with cal := { v.cal with fitCoeff := a.fitCoeff } }, .done (.error .typeError))
        | .ok lines => ({ v with cal := (Cal.fitWith F { v.cal with fitCoeff := a.fitCoeff } lines a rnd).1 },
            (Cal.fitWith F { v.cal with fitCoeff := a.fitCoeff } lines a rnd).2) := fun _ => rfl
  by_cases ht : a.fitType = .other
  · simp only [hw, if_pos ht]
  · have hat := (fit_frame F w a rnd).1
    have ha : (w.fit F a rnd).1.atlasLines = w.atlasLines := by
      unfold World.atlasLines
      rw [(fit_frame F w a rnd).2, hat.atlas]
    have h1 := hw w
    rw [if_neg ht] at h1
    have h2 := hw (w.fit F a rnd).1
    rw [if_neg ht, ha] at h2
    rw [h2]
    cases hl : w.atlasLines with
    | error e => rw [hl] at h1; dsimp only at h1 ⊢; rw [h1]
    | ok lines =>
      rw [hl] at h1
      dsimp only at h1 ⊢
      rw [h1] at h
      have hag := fitWith_again F { w.cal with fitCoeff := a.fitCoeff } lines a rnd rfl h
      rw [h1]
      dsimp only at hag ⊢
      rw [hag]

/-- `sample_size` after the search that starts with sample size `n`. -/
def Cal.sizeAfter (F : FitEnv K) (c : Cal K) (lines : List K) (a : FitArgs K) (u : Nat → K) (n : Int) : Int :=
  match c.candidates F (F.kern a.fitType) lines a.candTol u with
  | .error _ => n
  | .ok cands =>
    if (npUnique (c.candidateLists F cands).1).length ≤ a.degree then n
    else (makeTrials a.brute n.toNat (c.candidateLists F cands).1.length
      (npUnique (c.candidateLists F cands).1).length a.maxTries).2

theorem solve_size (F : FitEnv K) (c : Cal K) (lines : List K) (a : FitArgs K) (rnd : FitRandom K) :
    (c.solve F (F.kern a.fitType) lines a a.degree rnd).1.ransac.sampleSize =
      c.sizeAfter F lines a rnd.uniform c.ransac.sampleSize := by
  unfold Cal.solve Cal.sizeAfter
  cases c.candidates F (F.kern a.fitType) lines a.candTol rnd.uniform with
  | error e => rfl
  | ok cands =>
    dsimp only
    split
    · rfl
    · rw [solveLists_tail]
      generalize makeTrials _ _ _ _ _ = t
      unfold Cal.solveTail
      dsimp only
      cases Cal.density _ (F.kern a.fitType) with
      | error e => rfl
      | ok d =>
        dsimp only
        cases startCost (F.kern a.fitType) _ _ a.fitCoeff with
        | error e => rfl
        | ok p =>
          dsimp only
          rw [afterLoop_matched]
          rfl

theorem fitSearch_state (F : FitEnv K) (c : Cal K) (lines : List K) (a : FitArgs K) (rnd : FitRandom K) :
    ∃ (m : Int) (mp ma : List K) (co : Option (List K)) (rms : Option K) (res : Option (List K)) (pu : Option K)
      (au : Option (PyFloat K)), (c.fitSearch F lines a rnd).1 = { c.results mp ma rms res pu au with
        fitCoeff := co
        ransac := { c.ransac with
          sampleSize := c.sizeAfter F lines a rnd.uniform c.ransac.sampleSize
          minMatches := m } } := by
  rw [fitSearch_eq]
  have hsz := solve_size F { c with ransac := { c.ransac with
      minMatches := adjustMinMatches c.ransac.minMatches lines.length c.peaks.length } } lines a rnd
  obtain ⟨n, hk⟩ := solve_kept F (F.kern a.fitType) { c with ransac := { c.ransac with
      minMatches := adjustMinMatches c.ransac.minMatches lines.length c.peaks.length } } lines a a.degree rnd
  generalize Cal.solve F (F.kern a.fitType) _ lines a a.degree rnd = s at hk hsz ⊢
  obtain ⟨co, rms, res, pu, au, h1, _⟩ := afterSolve_again lines.length s
  refine ⟨adjustMinMatches c.ransac.minMatches lines.length c.peaks.length, s.1.matchedPeaks, s.1.matchedAtlas, co,
    rms, res, pu, au, ?_⟩
  rw [h1]
  have hn : n = c.sizeAfter F lines a rnd.uniform c.ransac.sampleSize := by
    rw [hk] at hsz
    exact hsz
  rw [hk, ← hn]
  rfl

theorem adjustSampleSize_again (s : Int) (n d : Nat) :
    adjustSampleSize (adjustSampleSize s n d) n d = adjustSampleSize s n d := by
  unfold adjustSampleSize
  dsimp only
  split_ifs <;> omega

theorem sizeAfter_forms (F : FitEnv K) (c : Cal K) (lines : List K) (a : FitArgs K) (u : Nat → K) :
    (∀ n, c.sizeAfter F lines a u n = n) ∨
    ∃ v : Nat, ∀ n : Int, c.sizeAfter F lines a u n =
      if a.brute then (v : Int) else if n.toNat ≥ v then (v : Int) else (n.toNat : Int) := by
  unfold Cal.sizeAfter
  cases c.candidates F (F.kern a.fitType) lines a.candTol u with
  | error e => exact .inl fun _ => rfl
  | ok cands =>
    dsimp only
    split
    · exact .inl fun _ => rfl
    · refine .inr ⟨(npUnique (c.candidateLists F cands).1).length, fun n => ?_⟩
      unfold makeTrials
      split
      · rfl
      · split <;> rfl

/-- Two steps of the sample size give a fixed point. -/
theorem size_settles (F : FitEnv K) (c : Cal K) (lines : List K) (a : FitArgs K) (u : Nat → K)
    (step : Int → Int) (hs : ∀ s, step s = c.sizeAfter F lines a u (adjustSampleSize s lines.length a.fitDeg)) (s : Int) :
    step (step (step s)) = step (step s) := by
  have hpos : ∀ s, 0 ≤ adjustSampleSize s lines.length a.fitDeg := by
    intro s
    unfold adjustSampleSize
    dsimp only
    split_ifs <;> omega
  have hid := fun s => adjustSampleSize_again s lines.length a.fitDeg
  simp only [hs]
  rcases sizeAfter_forms F c lines a u with h | ⟨v, h⟩
  · simp only [h, hid]
  · simp only [h]
    generalize a.brute = b
    cases b with
    | true => rfl
    | false =>
      simp only [Bool.false_eq_true, if_false]
      have h0 := hpos s
      have h1 := hid s
      have h2 := hpos v
      have h3 := hid v
      generalize adjustSampleSize s lines.length a.fitDeg = x at *
      by_cases hx : x.toNat ≥ v
      · simp only [if_pos hx]
        by_cases hy : (adjustSampleSize (v : Int) lines.length a.fitDeg).toNat ≥ v
        · simp only [if_pos hy]
        · have : (((adjustSampleSize (v : Int) lines.length a.fitDeg).toNat : Nat) : Int) =
              adjustSampleSize (v : Int) lines.length a.fitDeg := Int.toNat_of_nonneg h2
          simp only [if_neg hy, this, h3]
      · have : ((x.toNat : Nat) : Int) = x := Int.toNat_of_nonneg h0
        simp only [if_neg hx, this, h1]

theorem ensureHough_settings (F : FitEnv K) (c : Cal K) (r : RansacSet K) (f : Option (List K)) :
    Cal.ensureHough F { c with ransac := r, fitCoeff := f } =
      ({ (c.ensureHough F).1 with ransac := r, fitCoeff := f }, (c.ensureHough F).2) := by
  obtain ⟨peaks, arr, props, hough, ransac, atlas, ct, cp, pairs, ht, hl, hp, known, mp, ma, co, rms, res, pu, au⟩ := c
  unfold Cal.ensureHough
  dsimp only
  by_cases hn : (hl.isNone || hp.isNone) = true
  · rw [if_pos hn, if_pos hn]
    unfold Cal.doHough
    dsimp only
    cases pairs with
    | none => rfl
    | some st =>
      dsimp only
      generalize Hough.setConstraints _ _ _ _ _ = r1
      cases r1.2 with
      | error e => rfl
      | ok u =>
        cases st with
        | noColumns => rfl
        | array xy =>
          dsimp only
          generalize (if false = true then r1.1.generateBrute F.argsortK xy else r1.1.generate xy hough.numSlopes.toNat) = r2
          cases r2.2 with
          | error e => rfl
          | ok u =>
            dsimp only
            generalize Hough.bin F.argsortN r2.1 _ _ = r3
            cases r3.2 with
            | error e => rfl
            | ok u => rfl
  · rw [if_neg hn, if_neg hn]

/-- What the later calls of `fit` know about the state left by the first one: either the Hough transform fails again
and again, and nothing but `sample_size` changes, or there are Hough lines. -/
def Cal.Settled (F : FitEnv K) (c : Cal K) (lines : List K) (a : FitArgs K) (u : Nat → K) (g : Int → Int) : Prop :=
  ((∃ e, (c.ensureHough F) = (c, .error e)) ∧ ∀ s, g s = adjustSampleSize s lines.length a.fitDeg) ∨
  ((c.houghLines.isNone || c.houghPoints.isNone) = false ∧
    ∀ s, g s = c.sizeAfter F lines a u (adjustSampleSize s lines.length a.fitDeg))

theorem settled_step (F : FitEnv K) (c : Cal K) (lines : List K) (a : FitArgs K) (rnd : FitRandom K)
    (hc : c.fitCoeff = a.fitCoeff) (g : Int → Int) (hg : c.Settled F lines a rnd.uniform g) :
    (c.fitWith F lines a rnd).1.ransac.sampleSize = g c.ransac.sampleSize ∧
    Cal.Settled F { (c.fitWith F lines a rnd).1 with fitCoeff := a.fitCoeff } lines a rnd.uniform g := by
  have hen := ensureHough_settings F c { c.ransac with
      sampleSize := adjustSampleSize c.ransac.sampleSize lines.length a.fitDeg } c.fitCoeff
  unfold Cal.fitWith
  dsimp only
  dsimp only at hen
  rcases hg with ⟨⟨e, he⟩, hg⟩ | ⟨hs, hg⟩
  · rw [he] at hen
    dsimp only at hen
    rw [hen]
    dsimp only
    refine ⟨(hg _).symm, .inl ⟨⟨e, ?_⟩, hg⟩⟩
    have h2 := ensureHough_settings F c { c.ransac with
      sampleSize := adjustSampleSize c.ransac.sampleSize lines.length a.fitDeg } a.fitCoeff
    rw [he] at h2
    exact h2
  · have he : c.ensureHough F = (c, .ok ()) := by
      unfold Cal.ensureHough; rw [hs]; rfl
    rw [he] at hen
    dsimp only at hen
    rw [hen]
    dsimp only
    obtain ⟨m, mp, ma, co, rms, res, pu, au, hst⟩ := fitSearch_state F { c with ransac := { c.ransac with
      sampleSize := adjustSampleSize c.ransac.sampleSize lines.length a.fitDeg } } lines a rnd
    rw [hst]
    refine ⟨(hg _).symm, .inr ⟨hs, fun s => ?_⟩⟩
    rw [hg, ← hc]
    rfl

theorem settled_first (F : FitEnv K) (c : Cal K) (lines : List K) (a : FitArgs K) (rnd : FitRandom K)
    (hc : c.fitCoeff = a.fitCoeff) : ∃ g : Int → Int,
    (c.fitWith F lines a rnd).1.ransac.sampleSize = g c.ransac.sampleSize ∧
    Cal.Settled F { (c.fitWith F lines a rnd).1 with fitCoeff := a.fitCoeff } lines a rnd.uniform g ∧
    ∀ s, g (g (g s)) = g (g s) := by
  have hen := ensureHough_settings F c { c.ransac with
      sampleSize := adjustSampleSize c.ransac.sampleSize lines.length a.fitDeg } c.fitCoeff
  have hen2 := ensureHough_settings F (c.ensureHough F).1 { c.ransac with
      sampleSize := adjustSampleSize c.ransac.sampleSize lines.length a.fitDeg } a.fitCoeff
  obtain ⟨ht, hl, hp, hfr⟩ := ensureHough_frame F c
  unfold Cal.fitWith
  dsimp only at hen ⊢
  rw [hen]
  cases h2 : (c.ensureHough F).2 with
  | error e =>
    dsimp only
    refine ⟨fun s => adjustSampleSize s lines.length a.fitDeg, rfl, .inl ⟨⟨e, ?_⟩, fun _ => rfl⟩, fun s => ?_⟩
    · rw [ensureHough_again F c e h2, h2] at hen2
      exact hen2
    · simp only [adjustSampleSize_again]
  | ok u =>
    dsimp only
    have hsome := ensureHough_ok F c h2
    have hfc : (c.ensureHough F).1.fitCoeff = a.fitCoeff := by rw [hfr]; exact hc
    generalize (c.ensureHough F).1 = c1 at hfr hsome hfc ⊢
    obtain ⟨m, mp, ma, co, rms, res, pu, au, hst⟩ := fitSearch_state F { c1 with
      ransac := { c.ransac with
        sampleSize := adjustSampleSize c.ransac.sampleSize lines.length a.fitDeg }
      fitCoeff := c.fitCoeff } lines a rnd
    rw [hst]
    have hra : c1.ransac = c.ransac := by rw [hfr]
    clear hfr hst
    refine ⟨fun s => c1.sizeAfter F lines a rnd.uniform (adjustSampleSize s lines.length a.fitDeg), ?_,
      .inr ⟨hsome, fun s => ?_⟩, size_settles F c1 lines a rnd.uniform _ fun _ => rfl⟩
    · obtain ⟨peaks, arr, props, hough, ransac, atlas, ct, cp, pairs, ht1, hl1, hp1, known, mp, ma, co, rms, res, pu,
        au⟩ := c1
      dsimp only at hra hfc
      subst hra hfc
      dsimp only
      rw [hc]
      rfl
    · obtain ⟨peaks, arr, props, hough, ransac, atlas, ct, cp, pairs, ht1, hl1, hp1, known, mp, ma, co, rms, res, pu,
        au⟩ := c1
      dsimp only at hra hfc
      subst hra hfc
      rfl

/-- C132.  From the third call on, repeated calls of `fit` with the same arguments and the same random numbers have
the same outcome and leave the same state, whatever the state before the first of them. -/
theorem C132_settles_partial (F : FitEnv K) (w : World K) (a : FitArgs K) (rnd : FitRandom K) :
    (((w.fit F a rnd).1.fit F a rnd).1.fit F a rnd).1.fit F a rnd =
      ((w.fit F a rnd).1.fit F a rnd).1.fit F a rnd := by
  apply C132_repeat_partial
  have hw : ∀ v : World K, v.fit F a rnd = if a.fitType = .other then
        ({ v with cal := { v.cal with fitCoeff := a.fitCoeff } }, .done (.error .valueError))
      else match v.atlasLines with
        | .error _ => ({ v with cal := { v.cal with fitCoeff := a.fitCoeff } }, .done (.error .typeError))
        | .ok lines => ({ v with cal := (Cal.fitWith F { v.cal with fitCoeff := a.fitCoeff } lines a rnd).1 },
            (Cal.fitWith F { v.cal with fitCoeff := a.fitCoeff } lines a rnd).2) := fun _ => rfl
  by_cases ht : a.fitType = .other
  · simp only [hw, if_pos ht]
  have ha : ∀ v : World K, (v.fit F a rnd).1.atlasLines = v.atlasLines := by
    intro v
    unfold World.atlasLines
    rw [(fit_frame F v a rnd).2, (fit_frame F v a rnd).1.atlas]
  cases hl : w.atlasLines with
  | error e =>
    have hz : ∀ v : World K, v.atlasLines = .error e →
        (v.fit F a rnd).1.cal.ransac.sampleSize = v.cal.ransac.sampleSize := by
      intro v hv
      rw [hw, if_neg ht, hv]
    exact hz _ (by rw [ha, ha, hl])
  | ok lines =>
    have hz : ∀ v : World K, v.atlasLines = .ok lines →
        (v.fit F a rnd).1.cal = (Cal.fitWith F { v.cal with fitCoeff := a.fitCoeff } lines a rnd).1 := by
      intro v hv
      rw [hw, if_neg ht, hv]
    obtain ⟨g, hg1, hs1, hgg⟩ := settled_first F { w.cal with fitCoeff := a.fitCoeff } lines a rnd rfl
    rw [← hz w hl] at hg1 hs1
    have hl1 := (ha w).trans hl
    generalize (w.fit F a rnd).1 = w1 at hg1 hs1 hl1 ⊢
    obtain ⟨hg2, hs2⟩ := settled_step F _ lines a rnd rfl g hs1
    rw [← hz w1 hl1] at hg2 hs2
    have hl2 := (ha w1).trans hl1
    generalize (w1.fit F a rnd).1 = w2 at hg2 hs2 hl2 ⊢
    obtain ⟨hg3, -⟩ := settled_step F _ lines a rnd rfl g hs2
    rw [← hz w2 hl2] at hg3
    dsimp only at hg1 hg2 hg3
    rw [hg3, hg2, hg1, hgg]

/-- The first of two identical calls fails: `sample_size` 10 becomes 5, the number of lines, and there is no sample
of five of the two candidates; the second one finds `sample_size` 2 and succeeds. -/
theorem C132_refuted : ¬ C132_Statement ℚ := by
  intro h
  have h0 : (Toy.world 10 0).toOption.map (fun w =>
      ((Toy.report (w.fit Toy.env Toy.args Toy.rnd)).isSome,
        (Toy.report ((w.fit Toy.env Toy.args Toy.rnd).1.fit Toy.env Toy.args Toy.rnd)).isSome)) =
      some (false, true) := by decide +kernel
  cases hw : Toy.world 10 0 with
  | error e => rw [hw] at h0; simp [Except.toOption] at h0
  | ok w =>
    rw [hw] at h0
    simp only [Except.toOption, Option.map_some, h Toy.env w Toy.args Toy.rnd, Option.some.injEq, Prod.mk.injEq] at h0
    rw [h0.1] at h0
    exact absurd h0.2 (by simp)

/-- Hypothesis of `C132_repeat_partial` met by a call that succeeds. -/
example : (Toy.world 2 0).toOption.map (fun w =>
      (decide ((w.fit Toy.env Toy.args Toy.rnd).1.cal.ransac.sampleSize = w.cal.ransac.sampleSize),
        (Toy.report (w.fit Toy.env Toy.args Toy.rnd)).isSome)) = some (true, true) := by decide +kernel

/-- The stages of `C132_settles_partial`: `sample_size` is 10, then 2, and stays at 2; the second call succeeds. -/
example : (Toy.world 10 0).toOption.map (fun w =>
      (w.cal.ransac.sampleSize, (w.fit Toy.env Toy.args Toy.rnd).1.cal.ransac.sampleSize,
        ((w.fit Toy.env Toy.args Toy.rnd).1.fit Toy.env Toy.args Toy.rnd).1.cal.ransac.sampleSize,
        (Toy.report ((w.fit Toy.env Toy.args Toy.rnd).1.fit Toy.env Toy.args Toy.rnd)).isSome)) =
      some (10, 2, 2, true) := by decide +kernel

end Rascal
