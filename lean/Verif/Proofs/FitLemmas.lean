import Verif.Model.Fit
import Verif.Proofs.CalLemmas
import Verif.Props.RansacProps
import Verif.Props.SettingsBounds

/-! From `fit` to the sampling loop and back. -/

set_option linter.unusedSectionVars false

namespace Rascal

variable {K : Type _} [Field K] [LinearOrder K] [IsStrictOrderedRing K]

theorem boolMask_length_congr {α β : Type _} (a : List α) (b : List β) (m : List Bool)
    (h : a.length = b.length) : (boolMask a m).length = (boolMask b m).length := by
  induction a generalizing b m with
  | nil =>
    cases b with
    | nil => simp [boolMask_nil]
    | cons y t => simp at h
  | cons x s ih =>
    cases b with
    | nil => simp at h
    | cons y t =>
      cases m with
      | nil => simp [boolMask_nil_right]
      | cons c m =>
        have := ih t m (by simpa using h)
        cases c <;> simp [boolMask_cons, this]

theorem candidatesPoly_aligned (weight : K → K → K) (tol : K) (arr : Bool) (peaks actual : List K)
    (f : K → K) (ds : List K) (cs : List (Cand K))
    (h : candidatesPoly weight tol arr peaks actual f ds = .ok cs) :
    Aligned cs ∧ ∀ c ∈ cs, (∀ p ∈ c.peaks, p ∈ peaks) ∧ ∀ v ∈ c.wls, v ∈ actual := by
  induction ds generalizing cs with
  | nil =>
    unfold candidatesPoly at h
    simp only [Except.ok.injEq] at h
    subst h
    exact ⟨by intro c hc; simp at hc, by simp⟩
  | cons d ds ih =>
    unfold candidatesPoly at h
    cases hp : polyCandidate weight tol arr peaks actual (peaks.map (fun p => f p + d)) with
    | error e => rw [hp] at h; simp at h
    | ok o =>
      rw [hp] at h
      simp only at h
      cases hr : candidatesPoly weight tol arr peaks actual f ds with
      | error e => rw [hr] at h; simp at h
      | ok r =>
        rw [hr] at h
        simp only [Except.ok.injEq] at h
        subst h
        obtain ⟨h1, h2⟩ := ih r hr
        have key : ∀ c, o = some c → (c.peaks.length = c.wls.length ∧ c.weights.length = c.wls.length) ∧
            (∀ p ∈ c.peaks, p ∈ peaks) ∧ ∀ v ∈ c.wls, v ∈ actual := by
          intro c hc
          subst hc
          unfold polyCandidate at hp
          split at hp
          · rename_i hl
            dsimp only at hp
            split at hp
            · split at hp
              · simp only [Except.ok.injEq, Option.some.injEq] at hp
                subst hp
                simp only [List.length_map] at hl
                refine ⟨⟨boolMask_length_congr _ _ _ hl.symm, ?_⟩,
                  fun p hp => (boolMask_sublist _ _).subset hp, fun p hp => (boolMask_sublist _ _).subset hp⟩
                simp only [List.length_zipWith]
                rw [boolMask_length_congr actual (peaks.map (fun p => f p + d)) _ (by simpa using hl)]
                simp
              · simp at hp
            · simp at hp
          · split at hp
            · dsimp only at hp
              split at hp <;> simp at hp
            · simp at hp
        constructor
        · intro c hc
          rcases List.mem_append.1 hc with hc | hc
          · exact (key c (by simpa using hc)).1
          · exact h1 c hc
        · intro c hc
          rcases List.mem_append.1 hc with hc | hc
          · exact (key c (by simpa using hc)).2
          · exact h2 c hc

/-- The peaks of the search space are peaks of the calibrator. -/
def PairsOnPeaks (c : Cal K) : Prop := ∀ e ∈ c.pairList, e.1 ∈ c.peaks

/-- The candidates are aligned; in the linear mode each is a pair of the search space within the
candidate tolerance of a Hough line, otherwise its peak is a peak of the calibrator. -/
theorem candidates_spec (F : FitEnv K) (c : Cal K) (k : Kernels K) (lines : List K) (candTol : K)
    (u : Nat → K) (cs : List (Cand K)) (h : c.candidates F k lines candTol u = .ok cs) :
    Aligned cs ∧
    (c.ransac.linear = true → ∀ cd ∈ cs, ∀ e ∈ cd.peaks.zip cd.wls, e ∈ c.pairList ∧
      ∃ hl, c.houghLines = some hl ∧ ∃ l ∈ hl, |l.1 * e.1 + l.2 - e.2| ≤ candTol) ∧
    (c.ransac.linear = false → ∀ cd ∈ cs, ∀ e ∈ cd.peaks.zip cd.wls, e.1 ∈ c.peaks ∧ e.2 ∈ lines) := by
  unfold Cal.candidates at h
  cases hh : c.houghLines with
  | none => rw [hh] at h; simp at h
  | some hl =>
    rw [hh] at h
    simp only at h
    cases hlin : c.ransac.linear with
    | true =>
      rw [hlin] at h
      simp only [if_true] at h
      cases hp : c.pairs with
      | none => rw [hp] at h; simp at h
      | some st =>
        rw [hp] at h
        cases st with
        | noColumns =>
          simp only at h
          split at h
          · simp only [Except.ok.injEq] at h
            subst h
            exact ⟨by intro c hc; simp at hc, by simp, by simp⟩
          · simp at h
        | array pairs =>
          simp only [Except.ok.injEq] at h
          rw [candidatesLinear_eq] at h
          subst h
          refine ⟨?_, ?_, by simp⟩
          · intro cd hcd
            obtain ⟨l, _, rfl⟩ := List.mem_map.1 hcd
            simp
          · intro _ cd hcd e he
            obtain ⟨l, hl', rfl⟩ := List.mem_map.1 hcd
            dsimp only at he
            have hz : ∀ s : List (K × K), (s.map Prod.fst).zip (s.map Prod.snd) = s := by
              intro s
              induction s with
              | nil => rfl
              | cons a t ih => simp [ih]
            rw [hz, List.mem_filter] at he
            refine ⟨?_, hl, rfl, l, hl', by simpa using he.2⟩
            unfold Cal.pairList
            rw [hp]
            exact he.1
    | false =>
      rw [hlin] at h
      simp only [Bool.false_eq_true, if_false] at h
      cases hf : c.fitCoeff with
      | none => rw [hf] at h; simp at h
      | some co =>
        rw [hf] at h
        simp only at h
        obtain ⟨h1, h2⟩ := candidatesPoly_aligned _ _ _ _ _ _ _ _ h
        refine ⟨h1, by simp, ?_⟩
        intro _ cd hcd e he
        exact ⟨(h2 cd hcd).1 e.1 (List.of_mem_zip he).1, (h2 cd hcd).2 e.2 (List.of_mem_zip he).2⟩

/-- The candidate lists are aligned when there is a candidate peak, and list candidate pairs. -/
theorem candidateLists_spec (F : FitEnv K) (ha : IsArgsort F.argsortK) (c : Cal K) (cs : List (Cand K))
    (hal : Aligned cs) (hne : (c.candidateLists F cs).1 ≠ []) :
    (c.candidateLists F cs).1.length = (c.candidateLists F cs).2.length ∧
    (∀ e ∈ (c.candidateLists F cs).1.zip (c.candidateLists F cs).2,
      ∃ cd ∈ cs, e ∈ cd.peaks.zip cd.wls) ∧
    (c.ransac.filterClose = true → ∀ v ∈ (c.candidateLists F cs).2, ∀ w ∈ (c.candidateLists F cs).2,
      v < w → 3 * c.ransac.tol ≤ w - v) := by
  have hneg : ¬ 0 ≤ c.ransac.topN → (mostCommon F.argsortK cs c.ransac.topN c.ransac.weighted).1 = [] := by
    intro hn
    rw [mostCommon_eq F.argsortK cs _ _ hal]
    simp only [List.flatMap_eq_nil_iff]
    intro a ha
    obtain ⟨p, _, rfl⟩ := List.mem_map.1 ha
    simp only [List.replicate_eq_nil_iff]
    omega
  have hn : 0 ≤ c.ransac.topN := by
    by_contra hc
    apply hne
    unfold Cal.candidateLists
    dsimp only
    split
    · unfold filterClose
      dsimp only
      rw [hneg hc, boolMask_nil]
    · exact hneg hc
  obtain ⟨h1, h2⟩ := C55_most_common_partial F.argsortK ha cs hal c.ransac.topN hn c.ransac.weighted
  have hprov : ∀ e ∈ (mostCommon F.argsortK cs c.ransac.topN c.ransac.weighted).1.zip
      (mostCommon F.argsortK cs c.ransac.topN c.ransac.weighted).2,
      ∃ cd ∈ cs, e ∈ cd.peaks.zip cd.wls := by
    intro e he
    have hr : e.2 ∈ returnedFor (mostCommon F.argsortK cs c.ransac.topN c.ransac.weighted) e.1 := by
      unfold returnedFor
      exact List.mem_map.2 ⟨e, List.mem_filter.2 ⟨he, by simp⟩, rfl⟩
    have := (h2 e.1).2.1 e.2 hr
    unfold Spec.wavelengthsOf at this
    obtain ⟨t, ht, hte⟩ := List.mem_map.1 this
    rw [List.mem_filter] at ht
    unfold candRows at ht
    obtain ⟨cd, hcd, htm⟩ := List.mem_flatMap.1 ht.1
    refine ⟨cd, hcd, ?_⟩
    rw [List.mem_iff_getElem?] at htm
    obtain ⟨i, hi⟩ := htm
    have ht1 : t.1 = e.1 := by simpa using ht.2
    rw [show t = (t.1, t.2.1, t.2.2) from rfl, List.getElem?_zip_eq_some,
      List.getElem?_zip_eq_some] at hi
    rw [List.mem_iff_getElem?]
    refine ⟨i, ?_⟩
    rw [show e = (e.1, e.2) from rfl, List.getElem?_zip_eq_some, ← ht1, ← hte]
    exact ⟨hi.1, hi.2.1⟩
  unfold Cal.candidateLists
  dsimp only
  split
  · obtain ⟨g1, g2, _, g4⟩ := C56_filter_close c.ransac.tol _ _ h1
    exact ⟨g1, fun e he => hprov e (g2.subset he), fun _ => g4⟩
  · rename_i hf
    exact ⟨h1, hprov, fun hc => absurd hc hf⟩

/-- The situation in which the sampling loop starts. -/
structure LoopStart (K : Type _) where
  cfg : RansacCfg K
  trials : List Trial
  start : Best K
  cal : Cal K

/-- The part of `fit` before the sampling loop; `none` if it is not reached. -/
def Cal.enter (F : FitEnv K) (c : Cal K) (lines : List K) (a : FitArgs K) (u : Nat → K) :
    Option (LoopStart K) :=
  let c1 := { c with ransac := { c.ransac with
    sampleSize := adjustSampleSize c.ransac.sampleSize lines.length a.fitDeg } }
  let h := c1.ensureHough F
  match h.2 with
  | .error _ => none
  | .ok _ =>
    let c2 := { h.1 with ransac := { h.1.ransac with
      minMatches := adjustMinMatches h.1.ransac.minMatches lines.length h.1.peaks.length } }
    match c2.candidates F (F.kern a.fitType) lines a.candTol u with
    | .error _ => none
    | .ok cands =>
      let xy := c2.candidateLists F cands
      if (npUnique xy.1).length ≤ a.degree then none
      else
        let t := makeTrials a.brute c2.ransac.sampleSize.toNat xy.1.length (npUnique xy.1).length a.maxTries
        let c3 := { c2 with ransac := { c2.ransac with sampleSize := t.2 } }
        match c3.density (F.kern a.fitType) with
        | .error _ => none
        | .ok d =>
          match startCost (F.kern a.fitType) xy.1 xy.2 a.fitCoeff with
          | .error _ => none
          | .ok (cost, err) =>
            some ⟨c3.ransacCfg a.degree t.2 xy.1 xy.2 d F.oneDim, t.1,
              ⟨cost, err, none, none, 0, c2.matchedPeaks, c2.matchedAtlas⟩, c3⟩

/-- The end of `fit`, from the outcome of the loop. -/
def LoopStart.finish (L : LoopStart K) (fitDeg nLines : Nat) : RunState K → Cal K × CallRes (FitReport K)
  | .running s => (L.cal.setMatched s, .running)
  | .raised e s => (L.cal.setMatched s, .done (.error e))
  | .finished s =>
    match finishSolve fitDeg s with
    | .error e => (L.cal.setMatched s, .done (.error e))
    | .ok out =>
      (((L.cal.setMatched s).finishFit nLines out).1,
        .done ((L.cal.setMatched s).finishFit nLines out).2)

theorem fitWith_enter [FloorRing K] (F : FitEnv K) (c : Cal K) (lines : List K) (a : FitArgs K)
    (rnd : FitRandom K) (L : LoopStart K) (h : c.enter F lines a rnd.uniform = some L) :
    c.fitWith F lines a rnd =
      L.finish a.degree lines.length (L.cfg.run (F.kern a.fitType) rnd.tape L.trials L.start) := by
  unfold Cal.enter at h
  unfold Cal.fitWith
  dsimp only at h ⊢
  split at h
  · simp at h
  rename_i hok
  rw [hok]
  simp only
  unfold Cal.fitSearch Cal.solve
  dsimp only at h ⊢
  split at h
  · simp at h
  rename_i cands hc
  rw [hc]
  dsimp only at h ⊢
  split at h
  · simp at h
  rename_i hdeg
  rw [if_neg hdeg]
  unfold Cal.solveLists
  dsimp only
  split at h
  · simp at h
  rename_i d hd
  rw [hd]
  dsimp only at h ⊢
  split at h
  · simp at h
  rename_i cost err hsc
  rw [hsc]
  simp only [Option.some.injEq] at h ⊢
  subst h
  unfold LoopStart.finish
  dsimp only
  generalize (RansacCfg.run (K := K) _ _ _ _ _) = R
  cases R with
  | finished s =>
    dsimp only
    cases finishSolve a.degree s with
    | error e => rfl
    | ok out => rfl
  | running s => rfl
  | raised e s => rfl

/-- What `fit` may change: `sample_size`, `minimum_matches`, the Hough transform and its copies. -/
structure FitFrame (c c' : Cal K) : Prop where
  peaks : c'.peaks = c.peaks
  peaksAreArray : c'.peaksAreArray = c.peaksAreArray
  props : c'.props = c.props
  hough : c'.hough = c.hough
  ransac : ∃ s m, c'.ransac = { c.ransac with sampleSize := s, minMatches := m }
  atlas : c'.atlas = c.atlas
  candTol : c'.candTol = c.candTol
  constrainPoly : c'.constrainPoly = c.constrainPoly
  pairs : c'.pairs = c.pairs
  known : c'.known = c.known

theorem ensureHough_frame (F : FitEnv K) (c : Cal K) :
    ∃ h l p, (c.ensureHough F).1 = { c with ht := h, houghLines := l, houghPoints := p } := by
  unfold Cal.ensureHough
  split
  · exact c.doHough_frame _ _ _
  · exact ⟨c.ht, c.houghLines, c.houghPoints, rfl⟩

/-- The transform does not depend on the RANSAC settings or the baseline. -/
theorem doHough_congr (c : Cal K) (ak : List K → List Nat) (an : List Nat → List Nat) (b : Bool)
    (r : RansacSet K) (f : Option (List K)) :
    (({ c with ransac := r, fitCoeff := f } : Cal K).doHough ak an b).1.houghLines =
      (c.doHough ak an b).1.houghLines := by
  unfold Cal.doHough
  dsimp only
  cases c.pairs with
  | none => rfl
  | some st =>
    dsimp only
    cases (c.ht.setConstraints c.hough.minSlope c.hough.maxSlope (.fin c.hough.minIntercept)
      (.fin c.hough.maxIntercept)).2 with
    | error e => rfl
    | ok u =>
      dsimp only
      cases st with
      | noColumns => rfl
      | array xy =>
        dsimp only
        split
        · rfl
        · split <;> rfl

/-- The attributes that hold the result of the previous fit. -/
structure ResultFrame (c c' : Cal K) : Prop where
  matchedPeaks : c'.matchedPeaks = c.matchedPeaks
  matchedAtlas : c'.matchedAtlas = c.matchedAtlas
  fitCoeff : c'.fitCoeff = c.fitCoeff
  rms : c'.rms = c.rms
  residual : c'.residual = c.residual
  peakUtil : c'.peakUtil = c.peakUtil
  atlasUtil : c'.atlasUtil = c.atlasUtil

/-- The situation when the loop starts. -/
structure EnterSpec (F : FitEnv K) (c : Cal K) (lines : List K) (a : FitArgs K) (L : LoopStart K) :
    Prop where
  frame : FitFrame c L.cal
  result : ResultFrame c L.cal
  start : ∃ cost err, L.start = ⟨cost, err, none, none, 0, c.matchedPeaks, c.matchedAtlas⟩ ∧
    startCost (F.kern a.fitType) L.cfg.x L.cfg.y a.fitCoeff = .ok (cost, err)
  fitDeg : L.cfg.fitDeg = a.degree
  tol : L.cfg.tol = c.ransac.tol
  minIntercept : L.cfg.minIntercept = c.hough.minIntercept
  maxIntercept : L.cfg.maxIntercept = c.hough.maxIntercept
  pixelList : L.cfg.pixelList = c.props.pixelList
  known : L.cfg.known = c.known
  minFitError : L.cfg.minFitError = c.ransac.minFitError
  minMatches : L.cfg.minMatches = adjustMinMatches c.ransac.minMatches lines.length c.peaks.length
  minMatches' : L.cal.ransac.minMatches = L.cfg.minMatches
  minUtil : L.cfg.minUtil = c.ransac.minUtil
  nPeaks : L.cfg.nPeaks = c.peaks.length
  sampleSize : L.cal.ransac.sampleSize = L.cfg.sampleSize
  trials : (L.trials, L.cfg.sampleSize) = makeTrials a.brute
    (adjustSampleSize c.ransac.sampleSize lines.length a.fitDeg).toNat L.cfg.x.length
    (npUnique L.cfg.x).length a.maxTries
  enough : a.degree < (npUnique L.cfg.x).length
  density : L.cal.density (F.kern a.fitType) = .ok L.cfg.density
  aligned : IsArgsort F.argsortK → L.cfg.x.length = L.cfg.y.length
  linear : IsArgsort F.argsortK → c.ransac.linear = true → ∀ e ∈ L.cfg.x.zip L.cfg.y, e ∈ c.pairList ∧
    ∃ hl, L.cal.houghLines = some hl ∧ ∃ l ∈ hl, |l.1 * e.1 + l.2 - e.2| ≤ a.candTol
  poly : IsArgsort F.argsortK → c.ransac.linear = false → ∀ e ∈ L.cfg.x.zip L.cfg.y,
    e.1 ∈ c.peaks ∧ e.2 ∈ lines
  spaced : IsArgsort F.argsortK → c.ransac.filterClose = true → ∀ v ∈ L.cfg.y, ∀ w ∈ L.cfg.y,
    v < w → 3 * c.ransac.tol ≤ w - v
  transform : c.houghLines = none → L.cal.houghLines = (c.doHough F.argsortK F.argsortN false).1.houghLines

theorem enter_spec (F : FitEnv K) (c : Cal K) (lines : List K) (a : FitArgs K)
    (u : Nat → K) (L : LoopStart K) (h : c.enter F lines a u = some L) : EnterSpec F c lines a L := by
  unfold Cal.enter at h
  dsimp only at h
  obtain ⟨ht, hl, hp, hfr⟩ := ensureHough_frame F
    { c with ransac := { c.ransac with
      sampleSize := adjustSampleSize c.ransac.sampleSize lines.length a.fitDeg } }
  rw [hfr] at h
  dsimp only at h
  split at h
  · simp at h
  split at h
  · simp at h
  rename_i cands hc
  split at h
  · simp at h
  rename_i hdeg
  split at h
  · simp at h
  rename_i d hd
  split at h
  · simp at h
  rename_i cost err hsc
  simp only [Option.some.injEq] at h
  obtain ⟨hcs1, hcs2, hcs3⟩ := candidates_spec F _ _ _ _ _ _ hc
  subst h
  have hne : ∀ l : List K, ¬ (npUnique l).length ≤ a.degree → l ≠ [] := by
    intro l hn hl
    subst hl
    apply hn
    rw [show npUnique ([] : List K) = [] from rfl]
    simp
  refine {
    frame := ⟨rfl, rfl, rfl, rfl, ⟨_, _, rfl⟩, rfl, rfl, rfl, rfl, rfl⟩
    result := ⟨rfl, rfl, rfl, rfl, rfl, rfl, rfl⟩
    start := ⟨cost, err, rfl, hsc⟩
    fitDeg := rfl, tol := rfl, minIntercept := rfl, maxIntercept := rfl, pixelList := rfl, known := rfl,
    minFitError := rfl, minMatches := rfl, minMatches' := rfl, minUtil := rfl, nPeaks := rfl,
    sampleSize := rfl, trials := rfl, enough := Nat.lt_of_not_le hdeg, density := hd
    aligned := fun ha => (candidateLists_spec F ha _ cands hcs1 (hne _ hdeg)).1
    linear := ?_
    poly := ?_
    spaced := fun ha hf => (candidateLists_spec F ha _ cands hcs1 (hne _ hdeg)).2.2 hf
    transform := ?_ }
  · intro ha hlin e he
    obtain ⟨cd, hcd, hm⟩ := (candidateLists_spec F ha _ cands hcs1 (hne _ hdeg)).2.1 e he
    exact hcs2 hlin cd hcd e hm
  · intro ha hlin e he
    obtain ⟨cd, hcd, hm⟩ := (candidateLists_spec F ha _ cands hcs1 (hne _ hdeg)).2.1 e he
    exact hcs3 hlin cd hcd e hm
  · intro hnone
    have hl' := congrArg Cal.houghLines hfr
    dsimp only at hl' ⊢
    rw [← hl']
    unfold Cal.ensureHough
    rw [if_pos (by dsimp only; rw [hnone]; rfl)]
    exact doHough_congr c _ _ _ _ c.fitCoeff

/-- Without the loop `fit` raises and leaves the previous result alone. -/
theorem fitWith_not_enter [FloorRing K] (F : FitEnv K) (c : Cal K) (lines : List K) (a : FitArgs K)
    (rnd : FitRandom K) (h : c.enter F lines a rnd.uniform = none) :
    (∃ e, (c.fitWith F lines a rnd).2 = .done (.error e)) ∧ FitFrame c (c.fitWith F lines a rnd).1 ∧
      ResultFrame c (c.fitWith F lines a rnd).1 := by
  obtain ⟨ht, hl, hp, hfr⟩ := ensureHough_frame F
    { c with ransac := { c.ransac with
      sampleSize := adjustSampleSize c.ransac.sampleSize lines.length a.fitDeg } }
  unfold Cal.enter at h
  unfold Cal.fitWith
  dsimp only at h ⊢
  rw [hfr] at h ⊢
  dsimp only at h ⊢
  split at h
  · rename_i e he
    rw [he]
    exact ⟨⟨_, rfl⟩, ⟨rfl, rfl, rfl, rfl, ⟨_, _, rfl⟩, rfl, rfl, rfl, rfl, rfl⟩, ⟨rfl, rfl, rfl, rfl, rfl, rfl, rfl⟩⟩
  rename_i hok
  rw [hok]
  dsimp only
  unfold Cal.fitSearch Cal.solve
  dsimp only at h ⊢
  split at h
  · rename_i e hc
    rw [hc]
    exact ⟨⟨_, rfl⟩, ⟨rfl, rfl, rfl, rfl, ⟨_, _, rfl⟩, rfl, rfl, rfl, rfl, rfl⟩, ⟨rfl, rfl, rfl, rfl, rfl, rfl, rfl⟩⟩
  rename_i cands hc
  rw [hc]
  dsimp only at h ⊢
  split at h
  · rename_i hdeg
    rw [if_pos hdeg]
    dsimp only
    unfold Cal.finishFit
    dsimp only
    split
    · exact ⟨⟨_, rfl⟩, ⟨rfl, rfl, rfl, rfl, ⟨_, _, rfl⟩, rfl, rfl, rfl, rfl, rfl⟩, ⟨rfl, rfl, rfl, rfl, rfl, rfl, rfl⟩⟩
    · split <;>
        exact ⟨⟨_, rfl⟩, ⟨rfl, rfl, rfl, rfl, ⟨_, _, rfl⟩, rfl, rfl, rfl, rfl, rfl⟩, ⟨rfl, rfl, rfl, rfl, rfl, rfl, rfl⟩⟩
  rename_i hdeg
  rw [if_neg hdeg]
  unfold Cal.solveLists
  dsimp only
  split at h
  · rename_i e hd
    rw [hd]
    exact ⟨⟨_, rfl⟩, ⟨rfl, rfl, rfl, rfl, ⟨_, _, rfl⟩, rfl, rfl, rfl, rfl, rfl⟩, ⟨rfl, rfl, rfl, rfl, rfl, rfl, rfl⟩⟩
  rename_i d hd
  rw [hd]
  dsimp only at h ⊢
  split at h
  · rename_i e hsc
    rw [hsc]
    exact ⟨⟨_, rfl⟩, ⟨rfl, rfl, rfl, rfl, ⟨_, _, rfl⟩, rfl, rfl, rfl, rfl, rfl⟩, ⟨rfl, rfl, rfl, rfl, rfl, rfl, rfl⟩⟩
  · simp at h

end Rascal
