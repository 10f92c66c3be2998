import Verif.Props.RepeatFitProps
import Verif.Props.HistoryProps
import Verif.Props.PlotFitProps
import Verif.Props.RecoverProps

/-! Property theorem C184: what the outcome of `fit` depends on. -/

set_option linter.unusedSectionVars false

namespace Rascal

section
variable {K : Type _} [Field K] [LinearOrder K] [IsStrictOrderedRing K] [FloorRing K]

/-- The two calibrators agree in what a fit may look at: peaks, pixel list, Hough and RANSAC settings, the search
space, the known pairs, the Hough transform and the wavelengths of the atlas. -/
structure Spec.SameInputs (w w' : World K) : Prop where
  peaks : w'.cal.peaks = w.cal.peaks
  peaksAreArray : w'.cal.peaksAreArray = w.cal.peaksAreArray
  pixelList : w'.cal.props.pixelList = w.cal.props.pixelList
  hough : w'.cal.hough = w.cal.hough
  ransac : w'.cal.ransac = w.cal.ransac
  pairs : w'.cal.pairs = w.cal.pairs
  known : w'.cal.known = w.cal.known
  ht : w'.cal.ht = w.cal.ht
  houghLines : w'.cal.houghLines = w.cal.houghLines
  houghPoints : w'.cal.houghPoints = w.cal.houghPoints
  lines : w'.atlasLines = w.atlasLines

/-- The two calls return the same value, both raise, or both are still running when the tape ends. -/
def Spec.SameOutcome {α : Type _} : CallRes α → CallRes α → Prop
  | .running, .running => True
  | .done (.ok r), .done (.ok r') => r = r'
  | .done (.error _), .done (.error _) => True
  | _, _ => False

open Spec

/-- The calibrator with other attributes that a fit does not look at. -/
def Cal.unread (c : Cal K) (o : Cal K) : Cal K :=
  { c with
    props := { o.props with pixelList := c.props.pixelList }
    atlas := o.atlas
    candTol := o.candTol
    constrainPoly := o.constrainPoly
    matchedPeaks := o.matchedPeaks
    matchedAtlas := o.matchedAtlas
    rms := o.rms
    residual := o.residual
    peakUtil := o.peakUtil
    atlasUtil := o.atlasUtil }

theorem doHough_unread (F : FitEnv K) (b : Bool) (c o : Cal K) :
    (c.unread o).doHough F.argsortK F.argsortN b =
      ((c.doHough F.argsortK F.argsortN b).1.unread o, (c.doHough F.argsortK F.argsortN b).2) := by
  obtain ⟨peaks, arr, props, hough, ransac, atlas, ct, cp, pairs, ht, hl, hp, known, mp, ma, co, rms, res, pu, au⟩ := c
  cases pairs with
  | none => rfl
  | some store =>
    unfold Cal.doHough
    dsimp only [Cal.unread]
    cases (ht.setConstraints hough.minSlope hough.maxSlope (.fin hough.minIntercept) (.fin hough.maxIntercept)).2 with
    | error e => rfl
    | ok u =>
      cases store with
      | noColumns => rfl
      | array xy =>
        dsimp only
        generalize (if b = true then _ else _ : Hough K × PyRes Unit) = r2
        cases r2.2 with
        | error e => rfl
        | ok u =>
          dsimp only
          cases (r2.1.bin F.argsortN hough.xbins.toNat hough.ybins.toNat).2 <;> rfl

theorem ensureHough_unread (F : FitEnv K) (c o : Cal K) :
    (c.unread o).ensureHough F = ((c.ensureHough F).1.unread o, (c.ensureHough F).2) := by
  unfold Cal.ensureHough
  have h : ((c.unread o).houghLines.isNone || (c.unread o).houghPoints.isNone) =
      (c.houghLines.isNone || c.houghPoints.isNone) := rfl
  rw [h]
  by_cases hn : (c.houghLines.isNone || c.houghPoints.isNone) = true
  · rw [if_pos hn, if_pos hn]; exact doHough_unread F false c o
  · rw [if_neg hn, if_neg hn]

theorem Spec.SameOutcome.rfl' {α : Type _} (r : CallRes α) : SameOutcome r r := by
  cases r with
  | running => trivial
  | done r => cases r <;> trivial

/-- The end of `fit` after the loop. -/
theorem afterLoop_unread (c o : Cal K) (deg n : Nat) (s s' : Best K) (r r' : RunState K) (h : SameRun s s' r r')
    (hs : s.coeffs = none) (hs' : s'.coeffs = none) :
    SameOutcome (afterSolve n (c.afterLoop deg r)).2 (afterSolve n ((c.unread o).afterLoop deg r')).2 := by
  have hnone : ∀ (c : Cal K) (s : Best K), s.coeffs = none →
      ∃ e, (afterSolve n (c.afterLoop deg (.finished s))).2 = .done (.error e) := by
    intro c s hs
    unfold afterSolve Cal.afterLoop finishSolve
    split
    · rename_i h; cases h
    · rename_i e h; exact ⟨e, rfl⟩
    · rename_i out h
      dsimp only at h
      split at h
      · rw [hs] at h
        have ho : out.coeffs = none := by
          have := Except.ok.inj (by injection h : (Except.ok _ : PyRes (SolveOut K)) = .ok out)
          rw [← this]
        cases hf : (Cal.finishFit (c.setMatched s) n out).2 with
        | error e => exact ⟨e, rfl⟩
        | ok v =>
          obtain ⟨co, _, h1, _⟩ := finishFit_ok _ _ _ _ hf
          rw [ho] at h1
          cases h1
      · cases h
  cases h with
  | finished =>
    obtain ⟨e, he⟩ := hnone c s hs
    obtain ⟨e', he'⟩ := hnone (c.unread o) s' hs'
    rw [he, he']
    trivial
  | running => trivial
  | raised e => trivial
  | same r =>
    cases r with
    | running s => trivial
    | raised e s => trivial
    | finished s =>
      unfold afterSolve Cal.afterLoop
      dsimp only
      cases finishSolve deg s with
      | error e => trivial
      | ok out =>
        dsimp only
        have : (((c.unread o).setMatched s).finishFit n out).2 = ((c.setMatched s).finishFit n out).2 := by
          unfold Cal.finishFit
          show (match (utilisation out.inliers c.peaks.length : PyRes (PyFloat K)) with
            | .error e => _ | .ok _ => _ : Cal K × PyRes (FitReport K)).2 = (match (utilisation out.inliers c.peaks.length : PyRes (PyFloat K)) with
            | .error e => _ | .ok _ => _ : Cal K × PyRes (FitReport K)).2
          cases (utilisation out.inliers c.peaks.length : PyRes (PyFloat K)) with
          | error e => rfl
          | ok _ =>
            dsimp only
            cases (utilisation out.inliers n : PyRes (PyFloat K)) with
            | error e => rfl
            | ok au =>
              dsimp only
              cases out.coeffs <;> rfl
        rw [this]
        exact .rfl' _

theorem solveTail_unread (F : FitEnv K) (k : Kernels K) (c o : Cal K) (a : FitArgs K) (deg : Nat) (rnd : FitRandom K)
    (x y : List K) (t : List Trial × Nat) (D : PyRes (Density K)) (S : PyRes (PyFloat K × K)) (n : Nat) :
    SameOutcome (afterSolve n (c.solveTail F k a deg rnd x y t D S)).2
      (afterSolve n ((c.unread o).solveTail F k a deg rnd x y t D S)).2 := by
  unfold Cal.solveTail
  cases D with
  | error e => exact True.intro
  | ok d =>
    cases S with
    | error e => exact True.intro
    | ok p =>
      exact afterLoop_unread { c with ransac := { c.ransac with sampleSize := t.2 } } o deg n _ _ _ _ (run_same k _
        ⟨p.1, p.2, none, none, 0, c.matchedPeaks, c.matchedAtlas⟩
        ⟨p.1, p.2, none, none, 0, o.matchedPeaks, o.matchedAtlas⟩ rfl rnd.tape _) rfl rfl

theorem solve_unread (F : FitEnv K) (k : Kernels K) (c o : Cal K) (lines : List K) (a : FitArgs K) (deg : Nat)
    (rnd : FitRandom K) (n : Nat) :
    SameOutcome (afterSolve n (c.solve F k lines a deg rnd)).2
      (afterSolve n ((c.unread o).solve F k lines a deg rnd)).2 := by
  have hc : (c.unread o).candidates F k lines a.candTol rnd.uniform = c.candidates F k lines a.candTol rnd.uniform := rfl
  have hl : ∀ cands, (c.unread o).candidateLists F cands = c.candidateLists F cands := fun _ => rfl
  unfold Cal.solve
  rw [hc]
  cases c.candidates F k lines a.candTol rnd.uniform with
  | error e => trivial
  | ok cands =>
    dsimp only
    rw [hl]
    by_cases hn : (npUnique (c.candidateLists F cands).1).length ≤ deg
    · rw [if_pos hn, if_pos hn]
      have hnone : ∀ c : Cal K, ∃ e, (afterSolve n (c, (.done (.ok ⟨none, 10 ^ 50, none, 0, false⟩) : CallRes (SolveOut K)))).2 =
          .done (.error e) := by
        intro c
        unfold afterSolve
        dsimp only
        cases hf : (Cal.finishFit c n ⟨none, 10 ^ 50, none, 0, false⟩).2 with
        | error e => exact ⟨e, rfl⟩
        | ok v =>
          obtain ⟨co, _, h1, _⟩ := finishFit_ok _ _ _ _ hf
          cases h1
      obtain ⟨e, he⟩ := hnone c
      obtain ⟨e', he'⟩ := hnone (c.unread o)
      rw [he, he']
      trivial
    · rw [if_neg hn, if_neg hn, solveLists_tail, solveLists_tail]
      exact solveTail_unread F k c o a deg rnd _ _ _ _ _ n

theorem fitWith_unread (F : FitEnv K) (c o : Cal K) (lines : List K) (a : FitArgs K) (rnd : FitRandom K) :
    SameOutcome (c.fitWith F lines a rnd).2 ((c.unread o).fitWith F lines a rnd).2 := by
  unfold Cal.fitWith
  dsimp only
  have h := ensureHough_unread F { c with ransac := { c.ransac with
    sampleSize := adjustSampleSize c.ransac.sampleSize lines.length a.fitDeg } } o
  change SameOutcome (match (Cal.ensureHough F { c with ransac := { c.ransac with
    sampleSize := adjustSampleSize c.ransac.sampleSize lines.length a.fitDeg } }).2 with
    | .error e => _ | .ok _ => _ : Cal K × CallRes (FitReport K)).2 (match (Cal.ensureHough F (Cal.unread { c with ransac := { c.ransac with
    sampleSize := adjustSampleSize c.ransac.sampleSize lines.length a.fitDeg } } o)).2 with
    | .error e => _ | .ok _ => _ : Cal K × CallRes (FitReport K)).2
  rw [h]
  generalize Cal.ensureHough F { c with ransac := { c.ransac with
    sampleSize := adjustSampleSize c.ransac.sampleSize lines.length a.fitDeg } } = r at h
  change SameOutcome _ (match r.2 with
    | .error e => _ | .ok _ => Cal.fitSearch F (Cal.ensureHough F (Cal.unread { c with ransac := { c.ransac with
    sampleSize := adjustSampleSize c.ransac.sampleSize lines.length a.fitDeg } } o)).1 lines a rnd : Cal K × CallRes (FitReport K)).2
  rw [h]
  cases r.2 with
  | error e => trivial
  | ok u =>
    dsimp only
    rw [fitSearch_eq, fitSearch_eq]
    exact solve_unread F _ { r.1 with ransac := { r.1.ransac with
      minMatches := adjustMinMatches r.1.ransac.minMatches lines.length r.1.peaks.length } } o lines a a.degree rnd _

/-- C184: the outcome of `fit` is determined by the peaks, the pixel list, the Hough and RANSAC settings, the search
space, the known pairs, the Hough transform and the wavelengths of the atlas.  `num_pix`, the plotting library, the
elements and intensities of the atlas, the arguments of `set_atlas` and all results of earlier fits have no influence on
whether the call returns, and on what. -/
theorem C184_inputs (F : FitEnv K) (w w' : World K) (h : SameInputs w w') (a : FitArgs K) (rnd : FitRandom K) :
    SameOutcome (w.fit F a rnd).2 (w'.fit F a rnd).2 := by
  unfold World.fit
  dsimp only
  split
  · trivial
  rw [h.lines]
  cases w.atlasLines with
  | error e => trivial
  | ok lines =>
    dsimp only
    have e : { w'.cal with fitCoeff := a.fitCoeff } = Cal.unread { w.cal with fitCoeff := a.fitCoeff } w'.cal := by
      unfold Cal.unread
      dsimp only
      rw [← h.pixelList, ← h.peaks, ← h.peaksAreArray, ← h.hough, ← h.ransac, ← h.pairs, ← h.known, ← h.ht,
        ← h.houghLines, ← h.houghPoints]
    rw [e]
    exact fitWith_unread F _ _ lines a rnd

/-- The calls that look at a solution, edit it or choose how it is plotted: `match_peaks`, the two pair edits,
`manual_refit`, `use_matplotlib`, `use_plotly` and `set_calibrator_properties` without `pixel_list`. -/
def Spec.InspectingCall : SessionCall K → Prop
  | .set .useMatplotlib => True
  | .set .usePlotly => True
  | .set (.setCalibrator _ none _) => True
  | .set _ => False
  | .fit _ _ _ => False
  | _ => True

theorem Spec.SameInputs.rfl' (w : World K) : SameInputs w w := ⟨rfl, rfl, rfl, rfl, rfl, rfl, rfl, rfl, rfl, rfl, rfl⟩

theorem Spec.SameInputs.trans' {u v w : World K} (h : SameInputs u v) (g : SameInputs v w) : SameInputs u w :=
  ⟨g.1.trans h.1, g.2.trans h.2, g.3.trans h.3, g.4.trans h.4, g.5.trans h.5, g.6.trans h.6, g.7.trans h.7,
    g.8.trans h.8, g.9.trans h.9, g.10.trans h.10, g.11.trans h.11⟩

theorem inspecting_same (E : CalEnv K) (F : FitEnv K) (M : MatchKernels K) (s : Session K) (c : SessionCall K)
    (hc : InspectingCall c) : SameInputs s.world (s.call E F M c).world := by
  have same : ∀ v : World K, v.atlases = s.world.atlases → v.cal.atlas = s.world.cal.atlas →
      v.cal.peaks = s.world.cal.peaks → v.cal.peaksAreArray = s.world.cal.peaksAreArray →
      v.cal.props.pixelList = s.world.cal.props.pixelList → v.cal.hough = s.world.cal.hough →
      v.cal.ransac = s.world.cal.ransac → v.cal.pairs = s.world.cal.pairs → v.cal.known = s.world.cal.known →
      v.cal.ht = s.world.cal.ht → v.cal.houghLines = s.world.cal.houghLines →
      v.cal.houghPoints = s.world.cal.houghPoints → SameInputs s.world v := by
    intro v h1 h2 h3 h4 h5 h6 h7 h8 h9 h10 h11 h12
    exact ⟨h3, h4, h5, h6, h7, h8, h9, h10, h11, h12, by unfold World.atlasLines; rw [h1, h2]⟩
  cases c with
  | set op =>
    cases op with
    | useMatplotlib => exact same _ rfl rfl rfl rfl rfl rfl rfl rfl rfl rfl rfl rfl
    | usePlotly => exact same _ rfl rfl rfl rfl rfl rfl rfl rfl rfl rfl rfl rfl
    | setCalibrator n p l =>
      cases p with
      | some p => exact absurd hc id
      | none =>
        refine same _ rfl rfl rfl rfl ?_ rfl rfl rfl rfl rfl rfl rfl
        show (CalProps.set E.interp s.world.cal.props n none l).1.pixelList = _
        unfold CalProps.set
        dsimp only [keepOr]
        cases E.interp s.world.cal.props.pixelList with
        | error e => rfl
        | ok u =>
          dsimp only
          unfold CalProps.applyLibrary
          split <;> rfl
    | _ => exact absurd hc id
  | fit a arr rnd => exact absurd hc id
  | matchPeaks a =>
    show SameInputs s.world (s.matchPeaks F M a).1.world
    have hc := matchPeaks_cases F M s a
    generalize (s.matchPeaks F M a).1 = s' at hc ⊢
    generalize (s.matchPeaks F M a).2 = o at hc
    cases hc with
    | early e => exact .rfl' _
    | input co _ _ => exact .rfl' _
    | ambiguous kind co lines e _ _ _ _ => exact .rfl' _
    | fit co lines new m ys s' o hs hl hm he h1 h2 hff =>
      cases hff with
      | noBasis hb => exact same _ rfl rfl rfl rfl rfl rfl rfl rfl rfl rfl rfl rfl
      | noFit b e hb hp => exact same _ rfl rfl rfl rfl rfl rfl rfl rfl rfl rfl rfl rfl
      | bad b f hb hp hs => exact same _ rfl rfl rfl rfl rfl rfl rfl rfl rfl rfl rfl rfl
      | done b fitted res s' o hb hp hres hlt hend =>
        cases hend with
        | failed e _ _ => exact same _ rfl rfl rfl rfl rfl rfl rfl rfl rfl rfl rfl rfl
        | nan s' _ _ h3 => subst h3; exact same _ rfl rfl rfl rfl rfl rfl rfl rfl rfl rfl rfl rfl
        | robust co s' _ _ h3 => subst h3; exact same _ rfl rfl rfl rfl rfl rfl rfl rfl rfl rfl rfl rfl
        | refined co s' _ _ h3 => subst h3; exact same _ rfl rfl rfl rfl rfl rfl rfl rfl rfl rfl rfl rfl
        | unbound _ _ => exact same _ rfl rfl rfl rfl rfl rfl rfl rfl rfl rfl rfl rfl
  | addPair n p w =>
    show SameInputs s.world (s.addPair n p w).1.world
    unfold Session.addPair
    repeat' split
    all_goals first | exact .rfl' _ | exact same _ rfl rfl rfl rfl rfl rfl rfl rfl rfl rfl rfl rfl
  | removePair i =>
    show SameInputs s.world (s.removePair i).1.world
    unfold Session.removePair
    repeat' split
    all_goals first | exact .rfl' _ | exact same _ rfl rfl rfl rfl rfl rfl rfl rfl rfl rfl rfl rfl
  | manualRefit a =>
    show SameInputs s.world (s.manualRefit F M a).1.world
    have hc := manualRefit_cases F M s a
    generalize (s.manualRefit F M a).1 = s' at hc ⊢
    generalize (s.manualRefit F M a).2 = o at hc
    cases hc with
    | early e => exact .rfl' _
    | stored x0 deg co hst habs hlen h3 h4 hco =>
      unfold Session.finishRefit
      split <;> exact same _ rfl rfl rfl rfl rfl rfl rfl rfl rfl rfl rfl rfl

/-- C184 for histories: any number of matches, pair edits, refits and changes of the plotting library or `num_pix`
before a fit, successful or not, make no difference to its outcome. -/
theorem C184_history (E : CalEnv K) (F : FitEnv K) (M : MatchKernels K) (s : Session K) (h : List (SessionCall K))
    (hh : ∀ c ∈ h, InspectingCall c) (a : FitArgs K) (arr : Bool) (rnd : FitRandom K) :
    SameOutcome (s.fit F a arr rnd).2 ((s.calls E F M h).fit F a arr rnd).2 := by
  have hs : SameInputs s.world (s.calls E F M h).world := by
    induction h generalizing s with
    | nil => exact .rfl' _
    | cons c h ih =>
      exact (inspecting_same E F M s c (hh c List.mem_cons_self)).trans'
        (ih (s.call E F M c) (fun d hd => hh d (List.mem_cons_of_mem _ hd)))
  exact C184_inputs F s.world _ hs a rnd

end

/-- The ready calibrator with other elements and intensities in its atlas, another `num_pix`, plotly instead of
matplotlib, and results of an earlier fit. -/
def Toy.otherwise : World ℚ :=
  { atlases := Toy.ready.atlases.map (fun A => { A with lines := A.lines.map (fun l => { l with elem := "Hg", inten := 7 }) })
    cal := { Toy.ready.cal with
      props := { Toy.ready.cal.props.usePlotly with numPix := 1234 }
      candTol := some 3
      constrainPoly := true
      matchedPeaks := [10, 11, 12]
      matchedAtlas := [7000, 8000]
      fitCoeff := some [1, 2, 3]
      rms := some 5 } }

/-- A case for `C184_inputs`: such a calibrator gives the same report. -/
example : Toy.otherwise ≠ Toy.ready ∧
    Toy.report (Toy.otherwise.fit Toy.env Toy.args Toy.rnd) = some Toy.found := by
  have h : Spec.SameInputs Toy.ready Toy.otherwise :=
    ⟨rfl, rfl, rfl, rfl, rfl, rfl, rfl, rfl, rfl, rfl, by
      have : Toy.otherwise.atlasLines.toOption = some [5900, 8700, 20000, 21000, 22000] := by decide +kernel
      rw [Toy.ready_lines]
      cases hl : Toy.otherwise.atlasLines with
      | error e => rw [hl] at this; cases this
      | ok l => rw [hl] at this; exact congrArg Except.ok (Option.some.inj this)⟩
  have := C184_inputs Toy.env _ _ h Toy.args Toy.rnd
  rw [Toy.ready_fit] at this
  constructor
  · intro he
    have := congrArg (fun w => w.cal.candTol) he
    revert this
    decide +kernel
  · generalize Toy.otherwise.fit Toy.env Toy.args Toy.rnd = r at this
    obtain ⟨w, r⟩ := r
    cases r with
    | running => cases this
    | done r =>
      cases r with
      | error e => cases this
      | ok r => cases (show Toy.found = r from this); rfl

/-- A case for `C184_history`: `match_peaks`, removing a pair, a refit and plotly before a second fit. -/
example : (Toy.plotSession false).map (fun s =>
    let h : List (SessionCall ℚ) := [.matchPeaks { tol := 10, minFrac := 1 / 2 }, .removePair 0, .manualRefit {},
      .set .usePlotly, .set (.setCalibrator (some 999) none none)]
    let s1 := (s.fit Toy.env Toy.args false Toy.rnd).1
    let s2 := s1.calls Toy.calEnv Toy.env Toy.mkern h
    (decide (s2.world.cal.matchedPeaks = s1.world.cal.matchedPeaks),
      decide (Toy.sessionReport (s2.fit Toy.env Toy.args false Toy.rnd) =
        Toy.sessionReport (s1.fit Toy.env Toy.args false Toy.rnd)),
      (Toy.sessionReport (s2.fit Toy.env Toy.args false Toy.rnd)).isSome)) = some (false, true, true) := by
  decide +kernel

end Rascal
