import Verif.Proofs.MatchMain
import Verif.Proofs.FitMain

/-! The matches held before a fit do not influence it; histories of calls keep the matches aligned. -/

set_option linter.unusedSectionVars false

namespace Rascal

variable {K : Type _} [Field K] [LinearOrder K] [IsStrictOrderedRing K]

/-- The same state of the loop with other matches. -/
def Best.setM (s : Best K) (p q : List K) : Best K := { s with matchedPeaks := p, matchedAtlas := q }

/-- The same calibrator with other matches. -/
def Cal.setM (c : Cal K) (p q : List K) : Cal K := { c with matchedPeaks := p, matchedAtlas := q }

/-- The same world with other matches. -/
def World.setM (w : World K) (p q : List K) : World K := { w with cal := w.cal.setM p q }

/-- Matches that have been made by a trial. -/
def Best.Made (s : Best K) : Prop := s.matchedPeaks ≠ [] ∧ s.matchedPeaks.length = s.matchedAtlas.length

/-- One pass either leaves the matches alone or makes them independently of those before. -/
inductive PassKind (f : List K → List K → Attempt K) (s : Best K) : Prop
  | retry : (∀ p q, f p q = .retry) → PassKind f s
  | same : (∀ p q, f p q = .next (s.setM p q)) → PassKind f s
  | failed (e : PyErr) : (∀ p q, f p q = .raised e (s.setM p q)) → PassKind f s
  | made (s' : Best K) : s'.Made → (∀ p q, f p q = .next s') → PassKind f s
  | madeFailed (e : PyErr) (s' : Best K) : s'.Made → (∀ p q, f p q = .raised e s') → PassKind f s

theorem consider_kind (k : Kernels K) (c : RansacCfg K) (cost : PyFloat K) (m : List (K × K × K))
    (s : Best K) : PassKind (fun p q => c.consider k cost m (s.setM p q)) s := by
  unfold RansacCfg.consider
  dsimp only
  by_cases hlen : ((inlierList c.tol m).map (fun e => e.2.1)).length ≤ c.fitDeg
  · simp only [if_pos hlen]
    exact .retry (fun _ _ => rfl)
  · simp only [if_neg hlen]
    cases hr : k.robust ((inlierList c.tol m).map (fun e => e.2.1)) ((inlierList c.tol m).map (fun e => e.2.2))
        c.fitDeg with
    | error e => cases e <;> first | exact .retry (fun _ _ => rfl) | exact .failed _ (fun _ _ => rfl)
    | ok co =>
      dsimp only
      have hne : (inlierList c.tol m).map (fun e => e.2.1) ≠ [] := by
        intro h0
        rw [h0] at hlen
        simp at hlen
      unfold RansacCfg.judge
      dsimp only
      split
      · exact .retry (fun _ _ => rfl)
      · split
        · exact .retry (fun _ _ => rfl)
        · split
          · exact .retry (fun _ _ => rfl)
          · split
            · exact .made _ ⟨hne, by simp⟩ (fun _ _ => rfl)
            · exact .madeFailed _ _ ⟨hne, by simp⟩ (fun _ _ => rfl)

theorem attempt_kind [FloorRing K] (k : Kernels K) (c : RansacCfg K) (d : Draw) (t : Trial) (s : Best K) :
    PassKind (fun p q => c.attempt k d t (s.setM p q)) s := by
  unfold RansacCfg.attempt
  cases c.sample d t with
  | error e => exact .failed e (fun _ _ => rfl)
  | ok o =>
    cases o with
    | none => exact .same (fun _ _ => rfl)
    | some data =>
      dsimp only
      unfold RansacCfg.evaluate
      cases k.polyfit data.1 data.2 c.fitDeg with
      | error e => exact .failed e (fun _ _ => rfl)
      | ok coeffs =>
        dsimp only
        split
        · exact .retry (fun _ _ => rfl)
        · split
          · exact .retry (fun _ _ => rfl)
          · cases matchBijective (k.polyval coeffs) (candTable c.x c.y) (npUnique c.x) with
            | error e => exact .failed e (fun _ _ => rfl)
            | ok m =>
              cases m with
              | nil => exact .retry (fun _ _ => rfl)
              | cons a l =>
                dsimp only
                unfold RansacCfg.compare
                cases c.weight k coeffs with
                | error e => exact .failed e (fun _ _ => rfl)
                | ok w =>
                  dsimp only
                  have hcost : ∀ p q, (s.setM p q).cost = s.cost := fun _ _ => rfl
                  simp only [hcost]
                  split
                  · exact consider_kind ..
                  · exact .same (fun _ _ => rfl)

/-- The state at the end of the loop: the one before, or with new matches that do not depend on those
before. -/
theorem run_matches [FloorRing K] (k : Kernels K) (c : RansacCfg K) (tape : List Draw) (ts : List Trial)
    (s : Best K) :
    (∀ p q, (c.run k tape ts (s.setM p q)).best = s.setM p q) ∨
    ∃ xs ys, xs ≠ [] ∧ xs.length = ys.length ∧
      ∀ p q, (c.run k tape ts (s.setM p q)).best.matchedPeaks = xs ∧
        (c.run k tape ts (s.setM p q)).best.matchedAtlas = ys := by
  induction tape generalizing ts s with
  | nil =>
    cases ts with
    | nil => exact .inl (fun _ _ => rfl)
    | cons t ts => exact .inl (fun _ _ => rfl)
  | cons d ds ih =>
    cases ts with
    | nil => exact .inl (fun _ _ => rfl)
    | cons t ts =>
      have hk := attempt_kind k c d t s
      simp only [RansacCfg.run]
      cases hk with
      | retry h => simp only [h]; exact ih (t :: ts) s
      | same h => simp only [h]; exact ih ts s
      | failed e h => simp only [h]; exact .inl (fun _ _ => rfl)
      | made s' hs h =>
        simp only [h]
        rcases ih ts s' with h1 | ⟨xs, ys, h1, h2, h3⟩
        · have : (c.run k ds ts s').best = s' := h1 s'.matchedPeaks s'.matchedAtlas
          exact .inr ⟨_, _, hs.1, hs.2, fun _ _ => (by rw [this]; exact ⟨rfl, rfl⟩)⟩
        · have := h3 s'.matchedPeaks s'.matchedAtlas
          exact .inr ⟨xs, ys, h1, h2, fun _ _ => this⟩
      | madeFailed e s' hs h =>
        simp only [h]
        exact .inr ⟨_, _, hs.1, hs.2, fun _ _ => ⟨rfl, rfl⟩⟩

theorem doHough_setM (c : Cal K) (ak : List K → List Nat) (an : List Nat → List Nat) (b : Bool)
    (p q : List K) :
    (c.setM p q).doHough ak an b = ((c.doHough ak an b).1.setM p q, (c.doHough ak an b).2) := by
  have h1 : (c.setM p q).pairs = c.pairs := rfl
  have h2 : (c.setM p q).ht = c.ht := rfl
  have h3 : (c.setM p q).hough = c.hough := rfl
  unfold Cal.doHough
  simp only [h1, h2, h3]
  cases hp : c.pairs with
  | none => rfl
  | some st =>
    dsimp only
    cases (c.ht.setConstraints c.hough.minSlope c.hough.maxSlope (.fin c.hough.minIntercept)
      (.fin c.hough.maxIntercept)).2 with
    | error e => rfl
    | ok u =>
      dsimp only
      cases st with
      | noColumns => rfl
      | array xy =>
        dsimp only
        split
        · rfl
        · split <;> rfl

theorem ensureHough_setM (F : FitEnv K) (c : Cal K) (p q : List K) :
    (c.setM p q).ensureHough F = ((c.ensureHough F).1.setM p q, (c.ensureHough F).2) := by
  unfold Cal.ensureHough
  have h1 : (c.setM p q).houghLines = c.houghLines := rfl
  have h2 : (c.setM p q).houghPoints = c.houghPoints := rfl
  rw [h1, h2]
  split
  · exact doHough_setM ..
  · rfl

/-- The part of `Cal.enter` after the transform. -/
def Cal.enterTail (F : FitEnv K) (c2 : Cal K) (lines : List K) (a : FitArgs K) (u : Nat → K) :
    Option (LoopStart K) :=
  match c2.candidates F (F.kern a.fitType) lines a.candTol u with
  | .error _ => none
  | .ok cands =>
    let xy := c2.candidateLists F cands
    if (npUnique xy.1).length ≤ a.degree then none
    else
      let t := makeTrials a.brute c2.ransac.sampleSize.toNat xy.1.length (npUnique xy.1).length a.maxTries
      let c3 := { c2 with ransac := { c2.ransac with sampleSize := t.2 } }
      match c3.density (F.kern a.fitType) with
      | .error _ => none
      | .ok d =>
        match startCost (F.kern a.fitType) xy.1 xy.2 a.fitCoeff with
        | .error _ => none
        | .ok (cost, err) =>
          some ⟨c3.ransacCfg a.degree t.2 xy.1 xy.2 d F.oneDim, t.1,
            ⟨cost, err, none, none, 0, c2.matchedPeaks, c2.matchedAtlas⟩, c3⟩

theorem enterTail_setM (F : FitEnv K) (c : Cal K) (lines : List K) (a : FitArgs K) (u : Nat → K)
    (p q : List K) :
    (c.setM p q).enterTail F lines a u =
      (c.enterTail F lines a u).map (fun L => ⟨L.cfg, L.trials, L.start.setM p q, L.cal.setM p q⟩) := by
  have h2 : (c.setM p q).candidates F (F.kern a.fitType) lines a.candTol u =
      c.candidates F (F.kern a.fitType) lines a.candTol u := rfl
  have h3 : ∀ cands, (c.setM p q).candidateLists F cands = c.candidateLists F cands := fun _ => rfl
  have h4 : (c.setM p q).ransac = c.ransac := rfl
  have h5 : ∀ n : Int, Cal.density ({ c.setM p q with ransac := { c.ransac with sampleSize := n } } : Cal K)
      (F.kern a.fitType) =
      Cal.density ({ c with ransac := { c.ransac with sampleSize := n } } : Cal K)
        (F.kern a.fitType) := fun _ => rfl
  unfold Cal.enterTail
  rw [h2]
  cases c.candidates F (F.kern a.fitType) lines a.candTol u with
  | error e => rfl
  | ok cands =>
    simp only [h3, h4, h5]
    split
    · rfl
    · split
      · rfl
      · split <;> rfl

theorem enter_tail (F : FitEnv K) (c : Cal K) (lines : List K) (a : FitArgs K) (u : Nat → K) :
    c.enter F lines a u =
      match (Cal.ensureHough F { c with ransac := { c.ransac with
        sampleSize := adjustSampleSize c.ransac.sampleSize lines.length a.fitDeg } }).2 with
      | .error _ => none
      | .ok _ => Cal.enterTail F
        { (Cal.ensureHough F { c with ransac := { c.ransac with
            sampleSize := adjustSampleSize c.ransac.sampleSize lines.length a.fitDeg } }).1 with
          ransac := { (Cal.ensureHough F { c with ransac := { c.ransac with
            sampleSize := adjustSampleSize c.ransac.sampleSize lines.length a.fitDeg } }).1.ransac with
            minMatches := adjustMinMatches (Cal.ensureHough F { c with ransac := { c.ransac with
              sampleSize := adjustSampleSize c.ransac.sampleSize lines.length a.fitDeg } }).1.ransac.minMatches
              lines.length (Cal.ensureHough F { c with ransac := { c.ransac with
              sampleSize := adjustSampleSize c.ransac.sampleSize lines.length a.fitDeg } }).1.peaks.length } }
        lines a u := rfl

theorem enter_setM (F : FitEnv K) (c : Cal K) (lines : List K) (a : FitArgs K) (u : Nat → K)
    (p q : List K) :
    (c.setM p q).enter F lines a u =
      (c.enter F lines a u).map (fun L => ⟨L.cfg, L.trials, L.start.setM p q, L.cal.setM p q⟩) := by
  have he := ensureHough_setM F
    { c with ransac := { c.ransac with
      sampleSize := adjustSampleSize c.ransac.sampleSize lines.length a.fitDeg } } p q
  have hc : ({ c.setM p q with ransac := { (c.setM p q).ransac with
      sampleSize := adjustSampleSize (c.setM p q).ransac.sampleSize lines.length a.fitDeg } } : Cal K) =
    Cal.setM { c with ransac := { c.ransac with
      sampleSize := adjustSampleSize c.ransac.sampleSize lines.length a.fitDeg } } p q := rfl
  rw [enter_tail, enter_tail, hc, he]
  generalize Cal.ensureHough F { c with ransac := { c.ransac with
      sampleSize := adjustSampleSize c.ransac.sampleSize lines.length a.fitDeg } } = h
  obtain ⟨c2, o⟩ := h
  cases o with
  | error e => rfl
  | ok _ =>
    exact enterTail_setM F { c2 with ransac := { c2.ransac with
      minMatches := adjustMinMatches c2.ransac.minMatches lines.length c2.peaks.length } } lines a u p q

theorem finish_matches [FloorRing K] (L : LoopStart K) (fitDeg n : Nat) (R : RunState K) :
    (L.finish fitDeg n R).1.matchedPeaks = R.best.matchedPeaks ∧
    (L.finish fitDeg n R).1.matchedAtlas = R.best.matchedAtlas := by
  cases R with
  | running s => exact ⟨rfl, rfl⟩
  | raised e s => exact ⟨rfl, rfl⟩
  | finished s =>
    unfold LoopStart.finish
    dsimp only
    cases finishSolve fitDeg s with
    | error e => exact ⟨rfl, rfl⟩
    | ok out =>
      dsimp only
      unfold Cal.finishFit
      split
      · exact ⟨rfl, rfl⟩
      · split
        · exact ⟨rfl, rfl⟩
        · split <;> exact ⟨rfl, rfl⟩

/-- The matches after a fit: those before, or new ones that do not depend on those before. -/
theorem fit_matches [FloorRing K] (F : FitEnv K) (w : World K) (a : FitArgs K) (rnd : FitRandom K) :
    (∀ p q, ((w.setM p q).fit F a rnd).1.cal.matchedPeaks = p ∧
      ((w.setM p q).fit F a rnd).1.cal.matchedAtlas = q) ∨
    ∃ xs ys, xs ≠ [] ∧ xs.length = ys.length ∧
      ∀ p q, ((w.setM p q).fit F a rnd).1.cal.matchedPeaks = xs ∧
        ((w.setM p q).fit F a rnd).1.cal.matchedAtlas = ys := by
  have hlines : ∀ p q, (w.setM p q).atlasLines = w.atlasLines := fun _ _ => rfl
  unfold World.fit
  dsimp only
  by_cases hft : a.fitType = .other
  · simp only [if_pos hft]
    exact .inl (fun _ _ => ⟨rfl, rfl⟩)
  · simp only [if_neg hft, hlines]
    cases w.atlasLines with
    | error e => exact .inl (fun _ _ => ⟨rfl, rfl⟩)
    | ok lines =>
      dsimp only
      have hg : ∀ p q, ({ (w.setM p q).cal with fitCoeff := a.fitCoeff } : Cal K) =
        (w.given a).setM p q := fun _ _ => rfl
      simp only [hg]
      cases he : (w.given a).enter F lines a rnd.uniform with
      | none =>
        left
        intro p q
        have h0 : ((w.given a).setM p q).enter F lines a rnd.uniform = none := by
          rw [enter_setM, he]; rfl
        have := (fitWith_not_enter F _ _ _ _ h0).2.2
        exact ⟨this.matchedPeaks, this.matchedAtlas⟩
      | some L =>
        have h0 : ∀ p q, ((w.given a).setM p q).enter F lines a rnd.uniform =
            some ⟨L.cfg, L.trials, L.start.setM p q, L.cal.setM p q⟩ := by
          intro p q; rw [enter_setM, he]; rfl
        have hf : ∀ p q, (((w.given a).setM p q).fitWith F lines a rnd).1.matchedPeaks =
              (L.cfg.run (F.kern a.fitType) rnd.tape L.trials (L.start.setM p q)).best.matchedPeaks ∧
            (((w.given a).setM p q).fitWith F lines a rnd).1.matchedAtlas =
              (L.cfg.run (F.kern a.fitType) rnd.tape L.trials (L.start.setM p q)).best.matchedAtlas := by
          intro p q
          rw [fitWith_enter F _ _ _ _ _ (h0 p q)]
          exact finish_matches _ _ _ _
        rcases run_matches (F.kern a.fitType) L.cfg rnd.tape L.trials L.start with h | ⟨xs, ys, h1, h2, h3⟩
        · left
          intro p q
          rw [(hf p q).1, (hf p q).2, h p q]
          exact ⟨rfl, rfl⟩
        · right
          refine ⟨xs, ys, h1, h2, ?_⟩
          intro p q
          rw [(hf p q).1, (hf p q).2]
          exact h3 p q

/-- A fit that succeeds has accepted a trial, so its matches do not depend on those before. -/
theorem fit_accepts [FloorRing K] (F : FitEnv K) (ha : IsArgsort F.argsortK) (w : World K) (a : FitArgs K)
    (rnd : FitRandom K) (r : FitReport K) (h : (w.fit F a rnd).2 = .done (.ok r)) :
    (w.noMatches.fit F a rnd).1.cal.matchedPeaks ≠ [] := by
  obtain ⟨lines, L, s, co, data, prev, S⟩ := fit_success F ha w a rnd r h
  obtain ⟨cost, err, hst, _⟩ := (enter_spec _ _ _ _ _ _ S.enter).start
  have hself : L.start = L.start.setM L.start.matchedPeaks L.start.matchedAtlas := rfl
  have hft : a.fitType ≠ .other := by
    intro hft
    unfold World.fit at h
    rw [if_pos hft] at h
    cases h
  rcases run_matches (F.kern a.fitType) L.cfg rnd.tape L.trials L.start with hr | ⟨xs, ys, h1, h2, h3⟩
  · exfalso
    have h1 := hr L.start.matchedPeaks L.start.matchedAtlas
    rw [← hself, S.run] at h1
    have h2 : s.coeffs = none := by
      have h1' : s = L.start := h1
      rw [h1', hst]
    rw [S.coeffs] at h2
    cases h2
  · have h0 : ((w.given a).setM [] []).enter F lines a rnd.uniform =
        some ⟨L.cfg, L.trials, L.start.setM [] [], L.cal.setM [] []⟩ := by
      rw [enter_setM, S.enter]; rfl
    have hl : w.noMatches.atlasLines = .ok lines := S.atlas
    unfold World.fit
    rw [if_neg hft, hl]
    have hg : ({ w.noMatches.cal with fitCoeff := a.fitCoeff } : Cal K) = (w.given a).setM [] [] := rfl
    dsimp only
    rw [hg, fitWith_enter F _ _ _ _ _ h0, (finish_matches _ _ _ _).1]
    rw [(h3 [] []).1]
    exact h1

/-- The types of the attributes after a successful fit. -/
theorem fit_types [FloorRing K] (F : FitEnv K) (ha : IsArgsort F.argsortK) (s : Session K) (a : FitArgs K)
    (arr : Bool) (rnd : FitRandom K) (r : FitReport K) (h : (s.fit F a arr rnd).2 = .done (.ok r)) :
    (s.fit F a arr rnd).1.peaksArr = false ∧ (s.fit F a arr rnd).1.atlasKind = .list ∧
    (s.fit F a arr rnd).1.coeffKind = .array ∧ (s.fit F a arr rnd).1.basis = some a.fitType ∧
    (s.fit F a arr rnd).1.matchedInt = (s.intPeaks && !s.world.cal.ransac.linear) := by
  have hw : (s.world.fit F a rnd).2 = .done (.ok r) := h
  have hacc := fit_accepts F ha s.world a rnd r hw
  have hft : a.fitType ≠ .other := by
    intro hft
    unfold World.fit at hw
    rw [if_pos hft] at hw
    cases hw
  unfold Session.fit
  simp only [hw, hacc, hft, ne_eq, not_false_eq_true, decide_true, if_true, if_false, Bool.true_or,
    and_self]

/-- The matches of a session: absent, or two lists of the same length. -/
def MatchesAligned (s : Session K) : Prop :=
  s.atlasKind = .absent ∨ s.world.cal.matchedPeaks.length = s.world.cal.matchedAtlas.length

theorem fit_aligned [FloorRing K] (F : FitEnv K) (s : Session K) (h : MatchesAligned s) (a : FitArgs K)
    (arr : Bool) (rnd : FitRandom K) : MatchesAligned (s.fit F a arr rnd).1 := by
  unfold MatchesAligned Session.fit
  dsimp only
  have hw : s.world = s.world.setM s.world.cal.matchedPeaks s.world.cal.matchedAtlas := rfl
  rcases fit_matches F s.world a rnd with hm | ⟨xs, ys, h1, h2, h3⟩
  · have hn : ((s.world.noMatches).fit F a rnd).1.cal.matchedPeaks = [] := (hm [] []).1
    rw [hn]
    simp only [ne_eq, not_true_eq_false, decide_false, Bool.false_eq_true, if_false]
    have := hm s.world.cal.matchedPeaks s.world.cal.matchedAtlas
    rw [← hw] at this
    rw [this.1, this.2]
    exact h
  · right
    have := h3 s.world.cal.matchedPeaks s.world.cal.matchedAtlas
    rw [← hw] at this
    rw [this.1, this.2]
    exact h2

/-- The peaks and the results of earlier fits are as before. -/
structure ResultsKept (c c' : Cal K) : Prop where
  peaks : c'.peaks = c.peaks
  result : ResultFrame c c'

theorem ResultsKept.refl (c : Cal K) : ResultsKept c c := ⟨rfl, ⟨rfl, rfl, rfl, rfl, rfl, rfl, rfl⟩⟩

theorem ResultsKept.trans {c c' c'' : Cal K} (h : ResultsKept c c') (h' : ResultsKept c' c'') :
    ResultsKept c c'' :=
  ⟨h'.peaks.trans h.peaks, ⟨h'.result.matchedPeaks.trans h.result.matchedPeaks,
    h'.result.matchedAtlas.trans h.result.matchedAtlas, h'.result.fitCoeff.trans h.result.fitCoeff,
    h'.result.rms.trans h.result.rms, h'.result.residual.trans h.result.residual,
    h'.result.peakUtil.trans h.result.peakUtil, h'.result.atlasUtil.trans h.result.atlasUtil⟩⟩

theorem ResultsKept.of_left {c c' c'' : Cal K} (h' : ResultsKept c' c'') (h : ResultsKept c c') :
    ResultsKept c c'' := h.trans h'

theorem generatePairs_results (w : World K) : ResultsKept w.cal w.generatePairs.1.cal := by
  have hr : ∀ c : Cal K, ∀ p, ResultsKept c { c with pairs := p } :=
    fun _ _ => ⟨rfl, ⟨rfl, rfl, rfl, rfl, rfl, rfl, rfl⟩⟩
  unfold World.generatePairs
  cases w.atlasLines with
  | error e => exact .refl _
  | ok lines =>
    dsimp only
    unfold Cal.generatePairs
    split
    · split
      · split
        · exact .refl _
        · exact hr _ _
      · exact .refl _
      · exact .refl _
    · exact hr _ _

/-- Calls that change settings, the atlas or the transform keep the peaks and the results. -/
theorem step_results (E : CalEnv K) (w : World K) (op : SetOp K) :
    ResultsKept w.cal (w.step E op).1.cal := by
  have hset : ∀ (w : World K) i t b, ResultsKept w.cal (w.setAtlas i t b).1.cal := by
    intro w i t b
    unfold World.setAtlas
    exact (generatePairs_results _).of_left ⟨rfl, ⟨rfl, rfl, rfl, rfl, rfl, rfl, rfl⟩⟩
  cases op with
  | setCalibrator n p l => exact ⟨rfl, ⟨rfl, rfl, rfl, rfl, rfl, rfl, rfl⟩⟩
  | useMatplotlib => exact ⟨rfl, ⟨rfl, rfl, rfl, rfl, rfl, rfl, rfl⟩⟩
  | usePlotly => exact ⟨rfl, ⟨rfl, rfl, rfl, rfl, rfl, rfl, rfl⟩⟩
  | setHough a =>
    simp only [World.step]
    unfold World.setHough
    dsimp only
    split
    · exact ⟨rfl, ⟨rfl, rfl, rfl, rfl, rfl, rfl, rfl⟩⟩
    · split
      · exact ⟨rfl, ⟨rfl, rfl, rfl, rfl, rfl, rfl, rfl⟩⟩
      · exact (generatePairs_results _).of_left ⟨rfl, ⟨rfl, rfl, rfl, rfl, rfl, rfl, rfl⟩⟩
  | setRansac a => exact ⟨rfl, ⟨rfl, rfl, rfl, rfl, rfl, rfl, rfl⟩⟩
  | setAtlas i t b => exact hset w i t b
  | addAtlas a t b =>
    simp only [World.step]
    unfold World.addAtlas
    split
    · split
      · exact ⟨rfl, ⟨rfl, rfl, rfl, rfl, rfl, rfl, rfl⟩⟩
      · exact (hset _ _ _ _).of_left ⟨rfl, ⟨rfl, rfl, rfl, rfl, rfl, rfl, rfl⟩⟩
    · split
      · exact ⟨rfl, ⟨rfl, rfl, rfl, rfl, rfl, rfl, rfl⟩⟩
      · dsimp only
        split
        · exact ⟨rfl, ⟨rfl, rfl, rfl, rfl, rfl, rfl, rfl⟩⟩
        · exact (hset _ _ _ _).of_left ⟨rfl, ⟨rfl, rfl, rfl, rfl, rfl, rfl, rfl⟩⟩
  | addUserAtlas f t b =>
    simp only [World.step]
    unfold World.addUserAtlas
    have h0 : ResultsKept w.cal (w.ensureAtlas E.emptyAtlas).cal := by
      unfold World.ensureAtlas
      split <;> exact ⟨rfl, ⟨rfl, rfl, rfl, rfl, rfl, rfl, rfl⟩⟩
    dsimp only
    split
    · exact h0
    · split
      · exact h0
      · split
        · exact h0
        · exact (hset _ _ _ _).of_left h0
  | removeRange v t =>
    simp only [World.step]
    unfold World.removeRange
    split <;> exact ⟨rfl, ⟨rfl, rfl, rfl, rfl, rfl, rfl, rfl⟩⟩
  | clearAtlas =>
    simp only [World.step]
    unfold World.clearAtlas
    split <;> exact ⟨rfl, ⟨rfl, rfl, rfl, rfl, rfl, rfl, rfl⟩⟩
  | editAtlas i f => exact ⟨rfl, ⟨rfl, rfl, rfl, rfl, rfl, rfl, rfl⟩⟩
  | doHough b =>
    obtain ⟨_, _, _, hp⟩ := w.cal.doHough_frame E.argsortK E.argsortN b
    simp only [World.step]
    rw [hp]
    exact ⟨rfl, ⟨rfl, rfl, rfl, rfl, rfl, rfl, rfl⟩⟩
  | loadHough d f t => exact ⟨rfl, ⟨rfl, rfl, rfl, rfl, rfl, rfl, rfl⟩⟩
  | setKnown p v =>
    obtain ⟨k, hk⟩ := w.cal.setKnown_frame p v
    simp only [World.step]
    rw [hk]
    exact ⟨rfl, ⟨rfl, rfl, rfl, rfl, rfl, rfl, rfl⟩⟩

theorem match_aligned (F : FitEnv K) (M : MatchKernels K) (s : Session K) (h : MatchesAligned s)
    (a : MatchArgs K) : MatchesAligned (s.matchPeaks F M a).1 := by
  have hc := matchPeaks_cases F M s a
  generalize (s.matchPeaks F M a).1 = s' at hc ⊢
  generalize (s.matchPeaks F M a).2 = o at hc
  cases hc with
  | early e => exact h
  | input co _ _ => exact h
  | ambiguous kind co lines e _ _ _ _ => exact h
  | fit co lines new m ys s' o hs hl hm he h1 h2 hf =>
    cases hf with
    | noBasis hb => exact .inl rfl
    | noFit b e hb hp => exact .inl rfl
    | bad b f hb hp hs => exact .inl rfl
    | done b fitted res s' o hb hp hres hlt hend =>
      have hlen : (m.map Prod.fst).length = ys.length := by
        unfold polyfitChecked at hp
        split at hp
        · cases hp
        · rename_i hn
          push Not at hn
          exact hn.2
      cases hend with
      | failed e _ _ => exact .inr hlen
      | nan s' _ _ h3 => subst h3; exact .inr hlen
      | robust co s' _ _ h3 => subst h3; exact .inr hlen
      | refined co s' _ _ h3 => subst h3; exact .inr hlen
      | unbound _ _ => exact .inr hlen

/-- How `manual_refit` can end: it raises before anything is stored, or the new solution and the lists
are stored, of which there are more than the degree. -/
inductive ManualEnd (F : FitEnv K) (M : MatchKernels K) (s : Session K) (a : RefitArgs K) :
    Session K → PyRes (RefitReport K) → Prop
  | early (e : PyErr) : ManualEnd F M s a s (.error e)
  | stored (x0 : Option (List K)) (deg : Nat) (co : Option (List K)) :
      s.refitStart a = .ok (x0.map some, (deg : Int)) →
      (s.refitLists a).2.1 ≠ .absent →
      (s.refitLists a).1.2.length = (s.refitLists a).2.2.length →
      0 < deg → deg < (s.refitLists a).1.2.length →
      M.robust (s.refitLists a).1.2 (s.refitLists a).2.2 deg x0 = .ok co →
      ManualEnd F M s a
        (Session.finishRefit F (s.storeRefit a deg co) co (s.refitLists a).1.2 (s.refitLists a).2.2).1
        (Session.finishRefit F (s.storeRefit a deg co) co (s.refitLists a).1.2 (s.refitLists a).2.2).2

theorem manualRefit_cases (F : FitEnv K) (M : MatchKernels K) (s : Session K) (a : RefitArgs K) :
    ManualEnd F M s a (s.manualRefit F M a).1 (s.manualRefit F M a).2 := by
  unfold Session.manualRefit
  split
  · exact .early _
  · rename_i x0 deg hst
    dsimp only
    split
    · exact .early _
    · rename_i habs
      split
      · rename_i hcond
        obtain ⟨h1, h2, h3, h4⟩ := hcond
        have hdeg : ((deg.toNat : Nat) : Int) = deg := by omega
        have hst' : s.refitStart a = .ok (x0, ((deg.toNat : Nat) : Int)) := by rw [hst, hdeg]
        split
        · exact .early _
        · split
          · exact .early _
          · rename_i co hco
            exact .stored none deg.toNat co hst' habs h1 (by omega) (by omega) hco
        · rename_i p
          split
          · exact .early _
          · rename_i co hco
            exact .stored (some p) deg.toNat co hst' habs h1 (by omega) (by omega) hco
      · exact .early _

theorem finishRefit_lists (F : FitEnv K) (s : Session K) (co : Option (List K)) (xs ys : List K) :
    (s.finishRefit F co xs ys).1.world.cal.matchedPeaks = s.world.cal.matchedPeaks ∧
    (s.finishRefit F co xs ys).1.world.cal.matchedAtlas = s.world.cal.matchedAtlas ∧
    (s.finishRefit F co xs ys).1.atlasKind = s.atlasKind := by
  unfold Session.finishRefit
  split <;> exact ⟨rfl, rfl, rfl⟩

theorem manual_aligned (F : FitEnv K) (M : MatchKernels K) (s : Session K) (h : MatchesAligned s)
    (a : RefitArgs K) : MatchesAligned (s.manualRefit F M a).1 := by
  have hc := manualRefit_cases F M s a
  generalize (s.manualRefit F M a).1 = s' at hc ⊢
  generalize (s.manualRefit F M a).2 = o at hc
  cases hc with
  | early e => exact h
  | stored x0 deg co hst habs hlen h3 h4 hco =>
    obtain ⟨g1, g2, _⟩ := finishRefit_lists F (s.storeRefit a deg co) co (s.refitLists a).1.2
      (s.refitLists a).2.2
    right
    rw [g1, g2]
    exact hlen

end Rascal
