import Verif.Proofs.FitLemmas

/-! What a successful and a failed `fit` look like. -/

set_option linter.unusedSectionVars false

namespace Rascal

variable {K : Type _} [Field K] [LinearOrder K] [IsStrictOrderedRing K]

/-- The calibrator after the first assignment of `fit`. -/
def World.given (w : World K) (a : FitArgs K) : Cal K := { w.cal with fitCoeff := a.fitCoeff }

theorem finishFit_ok (c : Cal K) (n : Nat) (out : SolveOut K) (r : FitReport K)
    (h : (c.finishFit n out).2 = .ok r) :
    ∃ co au, out.coeffs = some co ∧ (utilisation out.inliers n : PyRes (PyFloat K)) = .ok au ∧
      r = ⟨co, c.matchedPeaks, c.matchedAtlas, out.err, out.residual,
        (out.inliers : K) / (c.peaks.length : K), au⟩ ∧
      (c.finishFit n out).1 = { c with
        fitCoeff := some co, rms := some out.err, residual := out.residual,
        peakUtil := some ((out.inliers : K) / (c.peaks.length : K)), atlasUtil := some au } := by
  unfold Cal.finishFit at h ⊢
  cases hu : (utilisation out.inliers c.peaks.length : PyRes (PyFloat K)) with
  | error e => rw [hu] at h; simp at h
  | ok pu =>
    rw [hu] at h
    dsimp only at h ⊢
    cases hau : (utilisation out.inliers n : PyRes (PyFloat K)) with
    | error e => rw [hau] at h; simp at h
    | ok au =>
      rw [hau] at h
      dsimp only at h ⊢
      cases hco : out.coeffs with
      | none => rw [hco] at h; simp at h
      | some co =>
        rw [hco] at h
        simp only [Except.ok.injEq] at h
        exact ⟨co, au, rfl, rfl, h.symm, rfl⟩

theorem finishFit_error (c : Cal K) (n : Nat) (out : SolveOut K) (e : PyErr)
    (h : (c.finishFit n out).2 = .error e) : (c.finishFit n out).1 = c := by
  unfold Cal.finishFit at h ⊢
  cases hu : (utilisation out.inliers c.peaks.length : PyRes (PyFloat K)) with
  | error e => rfl
  | ok pu =>
    rw [hu] at h
    dsimp only at h ⊢
    cases hau : (utilisation out.inliers n : PyRes (PyFloat K)) with
    | error e => rfl
    | ok au =>
      rw [hau] at h
      dsimp only at h ⊢
      cases hco : out.coeffs with
      | none => rfl
      | some co => rw [hco] at h; simp at h

/-- A successful `fit`. -/
structure FitSuccess [FloorRing K] (F : FitEnv K) (w : World K) (a : FitArgs K) (rnd : FitRandom K)
    (r : FitReport K) (lines : List K) (L : LoopStart K) (s : Best K) (co : List K)
    (data : List (PyFloat K) × List (PyFloat K)) (prev : PyFloat K) : Prop where
  atlas : w.atlasLines = .ok lines
  enter : (w.given a).enter F lines a rnd.uniform = some L
  run : L.cfg.run (F.kern a.fitType) rnd.tape L.trials L.start = .finished s
  sampled : ∃ d ∈ rnd.tape, ∃ t ∈ L.trials, L.cfg.sample d t = .ok (some data)
  accepted : AcceptedTrial (F.kern a.fitType) L.cfg data prev s
  coeffs : s.coeffs = some co
  robust : (F.kern a.fitType).robust s.matchedPeaks s.matchedAtlas a.degree = .ok co
  util : (utilisation s.inliers lines.length : PyRes (PyFloat K)) = .ok r.atlasUtil
  report : r = ⟨co, s.matchedPeaks, s.matchedAtlas, s.err, s.residual,
    (s.inliers : K) / (w.cal.peaks.length : K), r.atlasUtil⟩
  state : (w.fit F a rnd).1 = { w with cal := { (L.cal.setMatched s) with
    fitCoeff := some co, rms := some s.err, residual := s.residual,
    peakUtil := some ((s.inliers : K) / (w.cal.peaks.length : K)), atlasUtil := some r.atlasUtil } }

theorem fit_success [FloorRing K] (F : FitEnv K) (ha : IsArgsort F.argsortK) (w : World K)
    (a : FitArgs K) (rnd : FitRandom K) (r : FitReport K) (h : (w.fit F a rnd).2 = .done (.ok r)) :
    ∃ lines L s co data prev, FitSuccess F w a rnd r lines L s co data prev := by
  have hfit : w.fit F a rnd = w.fit F a rnd := rfl
  conv at hfit => rhs; unfold World.fit
  rw [hfit] at h
  dsimp only at h hfit
  split at h
  · simp at h
  rename_i hft
  rw [if_neg hft] at hfit
  cases hl : w.atlasLines with
  | error e => rw [hl] at h; simp at h
  | ok lines =>
    rw [hl] at h hfit
    dsimp only at h hfit
    change (Cal.fitWith F (w.given a) lines a rnd).2 = _ at h
    change w.fit F a rnd = ({ w with cal := (Cal.fitWith F (w.given a) lines a rnd).1 },
      (Cal.fitWith F (w.given a) lines a rnd).2) at hfit
    cases he : (w.given a).enter F lines a rnd.uniform with
    | none =>
      obtain ⟨⟨e, h1⟩, _⟩ := fitWith_not_enter F _ _ _ _ he
      rw [h1] at h
      simp at h
    | some L =>
      have hs := enter_spec F _ _ _ _ _ he
      rw [fitWith_enter F _ _ _ _ _ he] at h hfit
      have hbest := C60_accepted_constraints (F.kern a.fitType) L.cfg (hs.aligned ha) rnd.tape L.trials
        L.start
      cases hr : L.cfg.run (F.kern a.fitType) rnd.tape L.trials L.start with
      | running s => rw [hr] at h; simp [LoopStart.finish] at h
      | raised e s => rw [hr] at h; simp [LoopStart.finish] at h
      | finished s =>
        rw [hr] at h hfit hbest
        unfold LoopStart.finish at h hfit
        dsimp only at h hfit
        cases hf : finishSolve a.degree s with
        | error e => rw [hf] at h; simp at h
        | ok out =>
          rw [hf] at h hfit
          simp only [CallRes.done.injEq] at h hfit
          unfold finishSolve at hf
          split at hf
          swap
          · simp at hf
          simp only [Except.ok.injEq] at hf
          obtain ⟨co, au, h1, h2, h3, h4⟩ := finishFit_ok _ _ _ _ h
          have hpk : (L.cal.setMatched s).peaks = w.cal.peaks := hs.frame.peaks
          subst hf
          dsimp only at h1 h2 h3 h4
          rw [h4, h] at hfit
          have hnone : L.start.coeffs = none := by
            obtain ⟨_, _, hst, _⟩ := hs.start
            rw [hst]
          rcases hbest with hb | ⟨d, hd, t, ht, data, prev, hsm, hacc⟩
          · rw [show (RunState.finished s).best = s from rfl] at hb
            rw [hb, hnone] at h1
            simp at h1
          · rw [show (RunState.finished s).best = s from rfl] at hacc
            obtain ⟨co', g1, g2, _⟩ := hacc.fit
            rw [h1] at g2
            simp only [Option.some.injEq] at g2
            subst g2
            have hau : r.atlasUtil = au := by rw [h3]
            refine ⟨lines, L, s, co, data, prev, ⟨hl, he, hr, ⟨d, hd, t, ht, hsm⟩, hacc, h1, ?_, ?_, ?_, ?_⟩⟩
            · rw [← hs.fitDeg]; exact g1
            · rw [hau]; exact h2
            · rw [hau, h3, hpk]; rfl
            · rw [hfit, hau, ← hpk]

/-- What any `fit` leaves alone, apart from its result. -/
theorem fit_frame [FloorRing K] (F : FitEnv K) (w : World K) (a : FitArgs K) (rnd : FitRandom K) :
    FitFrame w.cal (w.fit F a rnd).1.cal ∧ (w.fit F a rnd).1.atlases = w.atlases := by
  have hrefl : FitFrame w.cal (w.given a) :=
    ⟨rfl, rfl, rfl, rfl, ⟨_, _, rfl⟩, rfl, rfl, rfl, rfl, rfl⟩
  unfold World.fit
  dsimp only
  split
  · exact ⟨hrefl, rfl⟩
  cases hl : w.atlasLines with
  | error e => exact ⟨hrefl, rfl⟩
  | ok lines =>
    dsimp only
    refine ⟨?_, rfl⟩
    change FitFrame w.cal (Cal.fitWith F (w.given a) lines a rnd).1
    have key : FitFrame (w.given a) (Cal.fitWith F (w.given a) lines a rnd).1 := by
      cases he : (w.given a).enter F lines a rnd.uniform with
      | none => exact (fitWith_not_enter F _ _ _ _ he).2.1
      | some L =>
        have hs := (enter_spec F _ _ _ _ _ he).frame
        have hm : ∀ s, FitFrame (w.given a) (L.cal.setMatched s) := fun s =>
          ⟨hs.peaks, hs.peaksAreArray, hs.props, hs.hough, hs.ransac, hs.atlas, hs.candTol,
            hs.constrainPoly, hs.pairs, hs.known⟩
        rw [fitWith_enter F _ _ _ _ _ he]
        unfold LoopStart.finish
        split
        · exact hm _
        · exact hm _
        · split
          · exact hm _
          · rename_i s _ _ out _
            cases hff : ((L.cal.setMatched s).finishFit lines.length out).2 with
            | error e =>
              dsimp only
              rw [finishFit_error _ _ _ _ hff]
              exact hm _
            | ok r =>
              obtain ⟨co, au, _, _, _, h4⟩ := finishFit_ok _ _ _ _ hff
              dsimp only
              rw [h4]
              have hs := hm s
              exact ⟨hs.peaks, hs.peaksAreArray, hs.props, hs.hough, hs.ransac, hs.atlas, hs.candTol,
                hs.constrainPoly, hs.pairs, hs.known⟩
    exact ⟨key.peaks, key.peaksAreArray, key.props, key.hough, key.ransac, key.atlas, key.candTol,
      key.constrainPoly, key.pairs, key.known⟩

/-- The search space stays on the peaks when it is rebuilt. -/
theorem generatePairs_onPeaks (w : World K) (h : PairsOnPeaks w.cal) :
    PairsOnPeaks w.generatePairs.1.cal := by
  unfold World.generatePairs
  cases hl : w.atlasLines with
  | error e => exact h
  | ok lines =>
    dsimp only
    unfold Cal.generatePairs
    split
    · split
      · split
        · exact h
        · rename_i t a l _ _ r hg
          intro e he
          simp only [Cal.pairList] at he
          unfold Rascal.generatePairs at hg
          dsimp only at hg
          split at hg
          · simp at hg
          · split at hg
            · simp at hg
            · simp only [Except.ok.injEq] at hg
              subst hg
              exact ((mem_allPairs _ _ _).1 ((boolMask_sublist _ _).subset he)).1
      · exact h
      · exact h
    · intro e he
      simp only [Cal.pairList] at he
      by_cases hn : allPairs w.cal.peaks lines = []
      · simp [hn] at he
      · simp only [hn, if_false] at he
        exact ((mem_allPairs _ _ _).1 he).1

theorem step_onPeaks (E : CalEnv K) (w : World K) (op : SetOp K) (h : PairsOnPeaks w.cal) :
    PairsOnPeaks (w.step E op).1.cal := by
  have hset : ∀ (w : World K) i t b, PairsOnPeaks w.cal → PairsOnPeaks (w.setAtlas i t b).1.cal := by
    intro w i t b hw
    unfold World.setAtlas
    exact generatePairs_onPeaks _ hw
  cases op with
  | setCalibrator n p l => exact h
  | useMatplotlib => exact h
  | usePlotly => exact h
  | setHough a =>
    simp only [World.step]
    unfold World.setHough
    dsimp only
    split
    · exact h
    · split
      · exact h
      · exact generatePairs_onPeaks _ h
  | setRansac a => exact h
  | setAtlas i t b => exact hset w i t b h
  | addAtlas a t b =>
    simp only [World.step]
    unfold World.addAtlas
    split
    · split
      · exact h
      · exact hset _ _ _ _ h
    · split
      · exact h
      · dsimp only
        split
        · exact h
        · exact hset _ _ _ _ h
  | addUserAtlas f t b =>
    simp only [World.step]
    unfold World.addUserAtlas
    have h0 : PairsOnPeaks (w.ensureAtlas E.emptyAtlas).cal := by
      unfold World.ensureAtlas
      split
      · exact h
      · exact h
    dsimp only
    split
    · exact h0
    · split
      · exact h0
      · split
        · exact h0
        · exact hset _ _ _ _ h0
  | removeRange v t =>
    simp only [World.step]
    unfold World.removeRange
    split <;> exact h
  | clearAtlas =>
    simp only [World.step]
    unfold World.clearAtlas
    split <;> exact h
  | editAtlas i f => exact h
  | doHough b =>
    obtain ⟨_, _, _, hp⟩ := w.cal.doHough_frame E.argsortK E.argsortN b
    simp only [World.step]
    rw [hp]
    exact h
  | loadHough d f t => exact h
  | setKnown p v =>
    obtain ⟨k, hk⟩ := w.cal.setKnown_frame p v
    simp only [World.step]
    rw [hk]
    exact h

end Rascal
