import Verif.Props.RefitProps
import Verif.Props.SettingsBounds
import Verif.Props.SearchProps
import Verif.Props.AfterFitProps

/-!
# C116-: settings over whole histories

A user interleaves settings, fits, matches and edits.  These theorems are about every such history.
-/

set_option linter.unusedSectionVars false

namespace Rascal

variable {K : Type _}

section
variable [Field K] [LinearOrder K]

/-- Two worlds that differ at most in what fits, matches and edits store. -/
def SameSettings (w w' : World K) : Prop := FitFrame w.cal w'.cal ∧ w'.atlases = w.atlases

theorem SameSettings.lines {w w' : World K} (h : SameSettings w w') : w'.atlasLines = w.atlasLines := by
  unfold World.atlasLines
  rw [h.1.atlas, h.2]

/-- Closes a goal about two records that agree field by field. -/
local macro "same_fields" : tactic => `(tactic|
  (refine ⟨⟨?_, ?_, ?_, ?_, ?_, ?_, ?_, ?_, ?_, ?_⟩, ?_⟩ <;> first | assumption | rfl | exact ⟨_, _, by assumption⟩ | exact ⟨_, _, rfl⟩))

theorem SameSettings.generate {w w' : World K} (h : SameSettings w w') :
    SameSettings w.generatePairs.1 w'.generatePairs.1 ∧ w'.generatePairs.2 = w.generatePairs.2 := by
  obtain ⟨⟨h1, h2, h3, h4, ⟨n, m, h5⟩, h6, h7, h8, h9, h10⟩, h11⟩ := id h
  unfold World.generatePairs
  rw [h.lines]
  cases w.atlasLines with
  | error e => exact ⟨h, rfl⟩
  | ok lines =>
    dsimp only
    unfold Cal.generatePairs
    rw [h8]
    split
    · rw [h7, h3]
      cases w.cal.candTol with
      | none => exact ⟨h, rfl⟩
      | some t =>
        cases w.cal.props.pixelList with
        | nil => exact ⟨h, rfl⟩
        | cons a l =>
          dsimp only
          have hpoly : w'.cal.polygon t (listMax a l) = w.cal.polygon t (listMax a l) := by
            unfold Cal.polygon; rw [h4]
          rw [h1, hpoly]
          cases Rascal.generatePairs w.cal.peaks lines (some (w.cal.polygon t (listMax a l))) with
          | error e => exact ⟨h, rfl⟩
          | ok r => refine ⟨?_, rfl⟩; same_fields
    · rw [h1]
      refine ⟨?_, rfl⟩; same_fields

theorem SameSettings.setAtlas {w w' : World K} (h : SameSettings w w') (i : Nat) (t : K) (b : Bool) :
    SameSettings (w.setAtlas i t b).1 (w'.setAtlas i t b).1 ∧ (w'.setAtlas i t b).2 = (w.setAtlas i t b).2 := by
  obtain ⟨⟨h1, h2, h3, h4, ⟨n, m, h5⟩, h6, h7, h8, h9, h10⟩, h11⟩ := h
  unfold World.setAtlas
  exact SameSettings.generate ⟨⟨h1, h2, h3, h4, ⟨n, m, h5⟩, rfl, rfl, rfl, h9, h10⟩, h11⟩

theorem SameSettings.modify {w w' : World K} (h : SameSettings w w') (i : Nat) (f : Atlas K → Atlas K) :
    SameSettings (w.modifyAtlas i f) (w'.modifyAtlas i f) := by
  refine ⟨h.1, ?_⟩
  change w'.atlases.modify i f = w.atlases.modify i f
  rw [h.2]

theorem SameSettings.hough {w w' : World K} (h : SameSettings w w') (f : List K → List Nat)
    (g : List Nat → List Nat) (b : Bool) : (w'.cal.doHough f g b).2 = (w.cal.doHough f g b).2 := by
  unfold Cal.doHough
  rw [h.1.pairs, h.1.hough]
  cases w.cal.pairs with
  | none => rfl
  | some store =>
    dsimp only
    unfold Hough.setConstraints
    cases w.cal.hough.minSlope.toFinite with
    | none => rfl
    | some a1 =>
      cases w.cal.hough.maxSlope.toFinite with
      | none => rfl
      | some a2 =>
        dsimp only [PyFloat.toFinite]
        cases store with
        | noColumns => rfl
        | array xy =>
          dsimp only
          cases b with
          | true =>
            simp only [if_true]
            unfold Hough.generateBrute
            by_cases hxy : xy.length < 2
            · simp only [if_pos hxy]
            · simp only [if_neg hxy]
              unfold Hough.bin
              dsimp only
              by_cases hb : w.cal.hough.xbins.toNat = 0 ∨ w.cal.hough.ybins.toNat = 0
              · simp only [if_pos hb]
              · simp only [if_neg hb]
          | false =>
            simp only [Bool.false_eq_true, if_false]
            unfold Hough.generate
            dsimp only
            by_cases hxy : w.cal.hough.numSlopes.toNat = 0 ∨ xy = []
            · simp only [if_pos hxy]
            · simp only [if_neg hxy]
              unfold Hough.bin
              dsimp only
              by_cases hb : w.cal.hough.xbins.toNat = 0 ∨ w.cal.hough.ybins.toNat = 0
              · simp only [if_pos hb]
              · simp only [if_neg hb]

theorem load_outcome (h h' : Hough K) (d : Disk K) (f t : List Char) : (h'.load d f t).2 = (h.load d f t).2 := by
  have ha : ∀ x, (h'.assign x).2 = (h.assign x).2 := by
    intro x
    unfold Hough.assign
    repeat' split
    all_goals simp_all
  unfold Hough.load
  repeat' split
  all_goals first | rfl | exact ha _

theorem SameSettings.step (E : CalEnv K) {w w' : World K} (h : SameSettings w w') (op : SetOp K) :
    SameSettings (w.step E op).1 (w'.step E op).1 ∧
      (w'.step E op).2 = (w.step E op).2 := by
  obtain ⟨⟨h1, h2, h3, h4, ⟨n, m, h5⟩, h6, h7, h8, h9, h10⟩, h11⟩ := id h
  cases op with
  | setCalibrator a b c =>
    simp only [World.step, World.setCalibrator, h3]
    refine ⟨?_, by trivial⟩; same_fields
  | useMatplotlib =>
    simp only [World.step, h3]
    refine ⟨?_, by trivial⟩; same_fields
  | usePlotly =>
    simp only [World.step, h3]
    refine ⟨?_, by trivial⟩; same_fields
  | setHough a =>
    simp only [World.step]
    unfold World.setHough
    dsimp only
    rw [h4, h3, h6]
    generalize HoughSet.apply (some w.cal.hough) a w.cal.props.pixelList = r
    cases r.2 with
    | error e => refine ⟨?_, rfl⟩; same_fields
    | ok u =>
      cases ha : w.cal.atlas with
      | none => rw [ha] at h6; refine ⟨?_, rfl⟩; same_fields
      | some i =>
        rw [ha] at h6
        dsimp only
        refine ⟨(SameSettings.generate ?_).1, (SameSettings.generate ?_).2⟩ <;> same_fields
  | setRansac a =>
    simp only [World.step, World.setRansac, h5]
    unfold RansacSet.set
    dsimp only
    split
    · split
      · split
        · refine ⟨?_, rfl⟩; same_fields
        · refine ⟨?_, rfl⟩; same_fields
      · refine ⟨?_, rfl⟩; same_fields
    · refine ⟨?_, rfl⟩; same_fields
  | setAtlas i t b =>
    exact ⟨(h.setAtlas i t b).1, (h.setAtlas i t b).2⟩
  | addAtlas a t b =>
    simp only [World.step]
    unfold World.addAtlas
    rw [h6, h4, h11]
    cases w.cal.atlas with
    | none =>
      dsimp only
      cases Atlas.new E.env (w.cal.hough.fillLimits a) w.cal.hough.rangeTol with
      | error e => exact ⟨h, rfl⟩
      | ok at_ =>
        have h' : SameSettings { w with atlases := w.atlases ++ [at_] } { w' with atlases := w.atlases ++ [at_] } :=
          ⟨h.1, rfl⟩
        exact ⟨(h'.setAtlas _ t b).1, (h'.setAtlas _ t b).2⟩
    | some i =>
      dsimp only
      cases w.atlases[i]? with
      | none => exact ⟨h, rfl⟩
      | some at_ =>
        dsimp only
        have h' := h.modify i (fun _ => (Atlas.add E.env at_ (w.cal.hough.fillLimits a)).1)
        cases (Atlas.add E.env at_ (w.cal.hough.fillLimits a)).2 with
        | error e => exact ⟨h', rfl⟩
        | ok u => exact ⟨(h'.setAtlas i t b).1, (h'.setAtlas i t b).2⟩
  | addUserAtlas f t b =>
    simp only [World.step]
    unfold World.addUserAtlas
    have he : SameSettings (w.ensureAtlas E.emptyAtlas) (w'.ensureAtlas E.emptyAtlas) := by
      unfold World.ensureAtlas
      rw [h6, h11]
      cases w.cal.atlas with
      | none => exact ⟨⟨h1, h2, h3, h4, ⟨n, m, h5⟩, rfl, h7, h8, h9, h10⟩, rfl⟩
      | some i => exact h
    generalize w.ensureAtlas E.emptyAtlas = v at he
    generalize w'.ensureAtlas E.emptyAtlas = v' at he
    dsimp only
    rw [he.1.atlas, he.2]
    cases v.cal.atlas with
    | none => exact ⟨he, rfl⟩
    | some i =>
      dsimp only
      cases v.atlases[i]? with
      | none => exact ⟨he, rfl⟩
      | some at_ =>
        dsimp only
        have h' := he.modify i (fun _ => (f at_).1)
        cases (f at_).2 with
        | error e => exact ⟨h', rfl⟩
        | ok u => exact ⟨(h'.setAtlas i t b).1, (h'.setAtlas i t b).2⟩
  | removeRange v t =>
    simp only [World.step]
    unfold World.removeRange
    rw [h6]
    cases w.cal.atlas with
    | none => exact ⟨h, rfl⟩
    | some i => exact ⟨h.modify i _, rfl⟩
  | clearAtlas =>
    simp only [World.step]
    unfold World.clearAtlas
    rw [h6]
    cases w.cal.atlas with
    | none => exact ⟨h, rfl⟩
    | some i => exact ⟨h.modify i _, rfl⟩
  | editAtlas i f => exact ⟨h.modify i f, rfl⟩
  | doHough b =>
    refine ⟨?_, h.hough _ _ _⟩
    simp only [World.step]
    obtain ⟨a1, a2, a3, ha⟩ := w.cal.doHough_frame E.argsortK E.argsortN b
    obtain ⟨b1, b2, b3, hb⟩ := w'.cal.doHough_frame E.argsortK E.argsortN b
    rw [ha, hb]
    exact ⟨⟨h1, h2, h3, h4, ⟨n, m, h5⟩, h6, h7, h8, h9, h10⟩, h11⟩
  | loadHough d f t =>
    exact ⟨⟨⟨h1, h2, h3, h4, ⟨n, m, h5⟩, h6, h7, h8, h9, h10⟩, h11⟩, load_outcome _ _ _ _ _⟩
  | setKnown p v =>
    simp only [World.step]
    unfold Cal.setKnown
    split
    · split
      · split
        · refine ⟨?_, rfl⟩; same_fields
        · exact ⟨h, rfl⟩
      · exact ⟨h, rfl⟩
    · exact ⟨h, rfl⟩

end

section
variable [Field K] [LinearOrder K] [IsStrictOrderedRing K] [FloorRing K]

/-- Does the call configure the calibrator, rather than look for a solution? -/
def SessionCall.isSet : SessionCall K → Bool
  | .set _ => true
  | _ => false

theorem SameSettings.refl (w : World K) : SameSettings w w := ⟨.rfl' _, rfl⟩

theorem solution_same (E : CalEnv K) (F : FitEnv K) (M : MatchKernels K) (s : Session K) (c : SessionCall K)
    (hc : c.isSet = false) : SameSettings s.world (s.call E F M c).world := by
  cases c with
  | set op => cases hc
  | fit a arr rnd => exact fit_frame F s.world a rnd
  | matchPeaks a => exact ⟨(match_frame F M s a).1, (match_frame F M s a).2.1⟩
  | addPair n p w => exact (edit_frame s n p w 0).1
  | removePair i => exact (edit_frame s false 0 0 i).2
  | manualRefit a => exact manual_frame F M s a

theorem interleaved_same (E : CalEnv K) (F : FitEnv K) (M : MatchKernels K) (h : List (SessionCall K)) :
    ∀ s s' : Session K, SameSettings s.world s'.world →
      SameSettings (s.calls E F M (h.filter SessionCall.isSet)).world (s'.calls E F M h).world := by
  induction h with
  | nil => intro s s' hs; exact hs
  | cons c h ih =>
    intro s s' hs
    have h2 : s'.calls E F M (c :: h) = (s'.call E F M c).calls E F M h := rfl
    rw [h2]
    by_cases hc : c.isSet = true
    · rw [List.filter_cons_of_pos hc]
      have h1 : s.calls E F M (c :: h.filter SessionCall.isSet) =
        (s.call E F M c).calls E F M (h.filter SessionCall.isSet) := rfl
      rw [h1]
      apply ih
      cases c with
      | set op => exact (hs.step E op).1
      | _ => cases hc
    · rw [List.filter_cons_of_neg hc]
      apply ih
      have hf := solution_same E F M s' c (by simpa using hc)
      exact ⟨hs.1.trans' hf.1, hf.2.trans hs.2⟩

/-- C116: in any history the fits, matches and edits have no influence on the configuration.  The settings, the
atlases, the search space and the known pairs are what the configuring calls alone would have produced (only
the sample size and the number of matches required can differ), and each further configuring call succeeds or
raises exactly as it would have done without them. -/
theorem C116_interleaved (E : CalEnv K) (F : FitEnv K) (M : MatchKernels K) (s : Session K)
    (h : List (SessionCall K)) :
    SettingsKept (s.calls E F M (h.filter SessionCall.isSet)) (s.calls E F M h) ∧
    ∀ op, ((s.calls E F M h).step E op).2 = ((s.calls E F M (h.filter SessionCall.isSet)).step E op).2 := by
  have hs := interleaved_same E F M h s s (.refl _)
  refine ⟨?_, fun op => (hs.step E op).2⟩
  obtain ⟨g, g'⟩ := hs
  exact ⟨g.peaks, g.props, g.hough, g.ransac, g.atlas, g', g.candTol, g.constrainPoly, g.pairs, g.known⟩

/-- The configuring calls of a history. -/
def SessionCall.ops : List (SessionCall K) → List (SetOp K)
  | [] => []
  | .set op :: h => op :: SessionCall.ops h
  | _ :: h => SessionCall.ops h

theorem ops_calls (E : CalEnv K) (F : FitEnv K) (M : MatchKernels K) (h : List (SessionCall K)) :
    ∀ s : Session K, (s.calls E F M (h.filter SessionCall.isSet)).world = s.world.steps E (SessionCall.ops h) := by
  induction h with
  | nil => intro s; rfl
  | cons c h ih =>
    intro s
    cases c with
    | set op => exact ih (s.call E F M (.set op))
    | _ => exact ih s

theorem session_same (E : CalEnv K) (F : FitEnv K) (M : MatchKernels K) (s : Session K)
    (h : List (SessionCall K)) :
    SameSettings (s.world.steps E (SessionCall.ops h)) (s.calls E F M h).world := by
  rw [← ops_calls E F M h s]
  exact interleaved_same E F M h s s (.refl _)

/-- C47 for histories with fits, matches and edits: the intercept bounds are always the smallest wavelength
minus and plus the range tolerance. -/
theorem C47_session_intercepts (E : CalEnv K) (F : FitEnv K) (M : MatchKernels K) (s : Session K) (p : List K)
    (hh : s.world.cal.hough = (HoughSet.apply none {} p).1) (h : List (SessionCall K)) :
    let c := (s.calls E F M h).world.cal.hough
    c.minIntercept = c.minW - c.rangeTol ∧ c.maxIntercept = c.minW + c.rangeTol := by
  intro c
  have e : c = (s.world.steps E (SessionCall.ops h)).cal.hough := (session_same E F M s h).1.hough
  rw [e]
  exact C47_intercepts E s.world p hh _

set_option synthInstance.maxSize 2000 in
set_option synthInstance.maxHeartbeats 400000 in
/-- A case for `C47_session_intercepts`, `C50_session_library`, `C51_session_known` and `C46_session_thresholds`: a
calibrator made by the constructor and a history with a fit in it. -/
example : twoPeaks.toOption.map (fun c =>
    let s := Session.new ⟨[Toy.atlas], c⟩ false
    let s' := s.calls Toy.calEnv Toy.env Toy.mkern
      [.set (.setHough { numSlopes := some 2, xbins := some 4, ybins := some 4, rangeTol := some 400 }),
       .set (.setRansac { sampleSize := some 2, minMatches := some 4 }), .set (.setAtlas 0 10 false),
       .set (.setKnown [.fin 10] [.fin 5900]), .set .usePlotly, .fit Toy.args false Toy.rnd]
    ((decide (s.world.cal.hough = (HoughSet.apply none {} c.props.pixelList).1), s.world.cal.known,
      decide (s.world.cal.props.plotMatplotlib ≠ s.world.cal.props.plotPlotly), s.world.cal.ransac.minMatches),
     s'.world.cal.hough.minIntercept, s'.world.cal.known, s'.world.cal.props.whichLibrary,
     s'.world.cal.ransac.minMatches)) =
    some ((true, none, true, 0), 2600, some ([.fin 10], [.fin 5900]), some .plotly, 2) := by decide +kernel

/-- C50 for histories with fits, matches and edits: one library is active. -/
theorem C50_session_library (E : CalEnv K) (F : FitEnv K) (M : MatchKernels K) (s : Session K)
    (hp : s.world.cal.props.plotMatplotlib ≠ s.world.cal.props.plotPlotly) (h : List (SessionCall K)) :
    (s.calls E F M h).world.cal.props.plotMatplotlib ≠ (s.calls E F M h).world.cal.props.plotPlotly := by
  rw [(session_same E F M s h).1.props]
  exact (C50_one_library E s.world hp _).1

/-- C51 for histories with fits, matches and edits: the known pairs held are always equally long, free of nan,
and were given by the user. -/
theorem C51_session_known (E : CalEnv K) (F : FitEnv K) (M : MatchKernels K) (s : Session K)
    (hk : s.world.cal.known = none) (h : List (SessionCall K)) (p v : List (PyFloat K))
    (hpv : (s.calls E F M h).world.cal.known = some (p, v)) :
    p.length = v.length ∧ PyFloat.nan ∉ p ∧ PyFloat.nan ∉ v ∧ SessionCall.set (.setKnown p v) ∈ h := by
  rw [(session_same E F M s h).1.known] at hpv
  obtain ⟨a, b, c, d⟩ := C51_history E s.world hk _ p v hpv
  refine ⟨a, b, c, ?_⟩
  clear hpv
  induction h with
  | nil => cases d
  | cons x h ih =>
    cases x with
    | set op =>
      rcases List.mem_cons.1 d with h1 | h1
      · rw [h1]; exact List.mem_cons_self
      · exact List.mem_cons_of_mem _ (ih h1)
    | _ => exact List.mem_cons_of_mem _ (ih d)

theorem steps_onPeaks (E : CalEnv K) (ops : List (SetOp K)) :
    ∀ w : World K, PairsOnPeaks w.cal → PairsOnPeaks (w.steps E ops).cal := by
  induction ops with
  | nil => intro w h; exact h
  | cons op ops ih => intro w h; exact ih _ (step_onPeaks E w op h)

theorem session_onPeaks (E : CalEnv K) (F : FitEnv K) (M : MatchKernels K) (s : Session K)
    (hp : PairsOnPeaks s.world.cal) (h : List (SessionCall K)) : PairsOnPeaks (s.calls E F M h).world.cal := by
  have hs := (session_same E F M s h).1
  have h1 := steps_onPeaks E (SessionCall.ops h) s.world hp
  intro e he
  have e1 : (s.calls E F M h).world.cal.pairList = (s.world.steps E (SessionCall.ops h)).cal.pairList := by
    unfold Cal.pairList
    rw [hs.pairs]
  rw [e1] at he
  rw [hs.peaks]
  exact h1 e he

theorem new_pairs (interp : List K → PyRes Unit) (peaks : List K) (arr : Bool) (spectrum : Option (List K))
    (c : Cal K) (hc : Cal.new interp peaks arr spectrum = .ok c) : c.pairs = none ∧ c.peaks = peaks := by
  unfold Cal.new at hc
  split at hc
  · cases hc
  · split at hc
    · cases hc
    · cases hc; exact ⟨rfl, rfl⟩

/-- C62 in every reachable state: whatever was done with a calibrator since it was made for `peaks`, a
successful fit reports distinct peaks out of `peaks`, distinct wavelengths, and, in the linear mode, pairs of
the search space. -/
theorem C62_reachable (E : CalEnv K) (F : FitEnv K) (M : MatchKernels K) (ha : IsArgsort F.argsortK)
    (interp : List K → PyRes Unit) (peaks : List K) (arr int : Bool) (spectrum : Option (List K))
    (atlases : List (Atlas K)) (c : Cal K) (hc : Cal.new interp peaks arr spectrum = .ok c)
    (h : List (SessionCall K)) (a : FitArgs K) (isArr : Bool) (rnd : FitRandom K) (r : FitReport K)
    (hr : (((Session.new ⟨atlases, c⟩ int).calls E F M h).fit F a isArr rnd).2 = .done (.ok r)) :
    r.matchedPeaks.length = r.matchedAtlas.length ∧ r.matchedPeaks.Nodup ∧ r.matchedAtlas.Nodup ∧
    (∀ p ∈ r.matchedPeaks, p ∈ peaks) ∧
    let s := (Session.new ⟨atlases, c⟩ int).calls E F M h
    (s.world.cal.ransac.linear = true → ∀ e ∈ r.matchedPeaks.zip r.matchedAtlas, e ∈ s.world.cal.pairList) := by
  obtain ⟨hn, hpk⟩ := new_pairs interp peaks arr spectrum c hc
  have h0 : PairsOnPeaks (Session.new ⟨atlases, c⟩ int).world.cal := by
    intro e he
    have : (Session.new ⟨atlases, c⟩ int).world.cal.pairList = [] := by
      change c.pairList = []
      unfold Cal.pairList
      rw [hn]
    rw [this] at he
    cases he
  have hp := session_onPeaks E F M _ h0 h
  obtain ⟨a1, a2, a3, a4, a5, _⟩ := C62_report F ha _ hp a rnd r hr
  refine ⟨a1, a2, a3, ?_, a5⟩
  rw [C101_peaks_forever E F M _ h] at a4
  rw [← hpk]
  exact a4

/-- A case for `C62_reachable`: a calibrator made by the constructor, configured and fitted. -/
example : twoPeaks.toOption.bind (fun c => Toy.sessionReport
    (((Session.new ⟨[Toy.atlas], c⟩ false).calls Toy.calEnv Toy.env Toy.mkern
      [.set (.setHough { numSlopes := some 2, xbins := some 4, ybins := some 4 }),
       .set (.setRansac { sampleSize := some 2, minFitError := some 0 }),
       .set (.setAtlas 0 10 false)]).fit Toy.env Toy.args false Toy.rnd)) =
    some Toy.found := by decide +kernel

/-- What a fit does with the number of matches required. -/
theorem fit_minMatches (F : FitEnv K) (w : World K) (a : FitArgs K) (rnd : FitRandom K) :
    (w.fit F a rnd).1.cal.ransac.minMatches = w.cal.ransac.minMatches ∨
    ∃ lines, w.atlasLines = .ok lines ∧ (w.fit F a rnd).1.cal.ransac.minMatches =
      min w.cal.ransac.minMatches (min (lines.length : Int) (w.cal.peaks.length : Int)) := by
  have hadj : ∀ (m : Int) (n p : Nat), adjustMinMatches m n p = min m (min (n : Int) (p : Int)) := by
    intro m n p
    unfold adjustMinMatches
    dsimp only
    split <;> split <;> omega
  unfold World.fit
  dsimp only
  split
  · exact .inl rfl
  cases hl : w.atlasLines with
  | error e => exact .inl rfl
  | ok lines =>
    dsimp only
    unfold Cal.fitWith
    dsimp only
    obtain ⟨ht, hl', hp, hfr⟩ := ensureHough_frame F
      { w.given a with ransac := { (w.given a).ransac with
        sampleSize := adjustSampleSize (w.given a).ransac.sampleSize lines.length a.fitDeg } }
    have hfr' := hfr
    unfold World.given at hfr'
    dsimp only at hfr'
    rw [hfr']
    generalize (Cal.ensureHough F _).2 = o
    cases o with
    | error e => exact .inl rfl
    | ok u =>
      right
      refine ⟨lines, rfl, ?_⟩
      rw [← hadj]
      dsimp only
      unfold Cal.fitSearch
      dsimp only
      have hsolve : ∀ (c : Cal K) (k : Kernels K),
          (c.solve F k lines a a.degree rnd).1.ransac.minMatches = c.ransac.minMatches := by
        intro c k
        unfold Cal.solve
        cases c.candidates F k lines a.candTol rnd.uniform with
        | error e => rfl
        | ok cands =>
          dsimp only
          split
          · rfl
          · unfold Cal.solveLists
            dsimp only
            repeat' split
            all_goals rfl
      have hfin : ∀ (c : Cal K) n out, (c.finishFit n out).1.ransac = c.ransac := by
        intro c n out
        unfold Cal.finishFit
        repeat' split
        all_goals rfl
      generalize hc0 : (Cal.mk _ _ _ _ _ _ _ _ _ _ _ _ _ _ _ _ _ _ _ _ : Cal K) = c0
      have hm := hsolve c0 (F.kern a.fitType)
      generalize c0.solve F (F.kern a.fitType) lines a a.degree rnd = q at hm ⊢
      have h0 : c0.ransac.minMatches =
          adjustMinMatches w.cal.ransac.minMatches lines.length w.cal.peaks.length := by rw [← hc0]
      rw [h0] at hm
      split
      · exact hm
      · exact hm
      · dsimp only
        rw [hfin]
        exact hm

/-- Only a fit touches the RANSAC settings, apart from the configuring calls. -/
theorem rest_ransac (E : CalEnv K) (F : FitEnv K) (M : MatchKernels K) (s : Session K) (c : SessionCall K)
    (hc : c.isSet = false) (hf : ∀ a arr rnd, c ≠ .fit a arr rnd) :
    (s.call E F M c).world.cal.ransac = s.world.cal.ransac := by
  cases c with
  | set op => cases hc
  | fit a arr rnd => exact absurd rfl (hf a arr rnd)
  | matchPeaks a =>
    have hc := matchPeaks_cases F M s a
    change (s.matchPeaks F M a).1.world.cal.ransac = _
    generalize (s.matchPeaks F M a).1 = s' at hc ⊢
    generalize (s.matchPeaks F M a).2 = o at hc
    cases hc with
    | early e => rfl
    | input co _ _ => rfl
    | ambiguous kind co lines e _ _ _ _ => rfl
    | fit co lines new m ys s' o hs hl hm he h1 h2 hff =>
      cases hff with
      | noBasis hb => rfl
      | noFit b e hb hp => rfl
      | bad b f hb hp hs => rfl
      | done b fitted res s' o hb hp hres hlt hend =>
        cases hend with
        | failed e _ _ => rfl
        | nan s' _ _ h3 => subst h3; rfl
        | robust co s' _ _ h3 => subst h3; rfl
        | refined co s' _ _ h3 => subst h3; rfl
        | unbound _ _ => rfl
  | addPair n p w =>
    change (s.addPair n p w).1.world.cal.ransac = _
    unfold Session.addPair
    repeat' split
    all_goals rfl
  | removePair i =>
    change (s.removePair i).1.world.cal.ransac = _
    unfold Session.removePair
    repeat' split
    all_goals rfl
  | manualRefit a =>
    have hc := manualRefit_cases F M s a
    change (s.manualRefit F M a).1.world.cal.ransac = _
    generalize (s.manualRefit F M a).1 = s' at hc ⊢
    generalize (s.manualRefit F M a).2 = o at hc
    cases hc with
    | early e => rfl
    | stored x0 deg co hst habs hlen h3 h4 hco =>
      unfold Session.finishRefit
      split <;> rfl

/-- C46 for histories with fits, matches and edits: the thresholds are always valid. -/
theorem C46_session_thresholds (E : CalEnv K) (F : FitEnv K) (M : MatchKernels K) (h : List (SessionCall K)) :
    ∀ s : Session K, 0 ≤ s.world.cal.ransac.minMatches →
      (0 ≤ s.world.cal.ransac.minUtil ∧ s.world.cal.ransac.minUtil ≤ 1) → 0 ≤ s.world.cal.ransac.minFitError →
      let c := (s.calls E F M h).world.cal
      0 ≤ c.ransac.minMatches ∧ (0 ≤ c.ransac.minUtil ∧ c.ransac.minUtil ≤ 1) ∧ 0 ≤ c.ransac.minFitError := by
  induction h with
  | nil => intro s h1 h2 h3; exact ⟨h1, h2, h3⟩
  | cons c h ih =>
    intro s h1 h2 h3
    have hcons : s.calls E F M (c :: h) = (s.call E F M c).calls E F M h := rfl
    rw [hcons]
    have key : 0 ≤ (s.call E F M c).world.cal.ransac.minMatches ∧
        (0 ≤ (s.call E F M c).world.cal.ransac.minUtil ∧ (s.call E F M c).world.cal.ransac.minUtil ≤ 1) ∧
        0 ≤ (s.call E F M c).world.cal.ransac.minFitError := by
      by_cases hset : c.isSet = true
      · cases c with
        | set op => exact C46_thresholds E s.world h1 h2 h3 [op]
        | _ => cases hset
      · by_cases hf : ∃ a arr rnd, c = .fit a arr rnd
        · obtain ⟨a, arr, rnd, rfl⟩ := hf
          obtain ⟨⟨_, _, _, _, ⟨n, m, hr⟩, _⟩, _⟩ := fit_frame F s.world a rnd
          refine ⟨?_, ?_, ?_⟩
          · change 0 ≤ (s.world.fit F a rnd).1.cal.ransac.minMatches
            rcases fit_minMatches F s.world a rnd with hm | ⟨lines, _, hm⟩
            · rw [hm]; exact h1
            · rw [hm]; omega
          · change 0 ≤ (s.world.fit F a rnd).1.cal.ransac.minUtil ∧ (s.world.fit F a rnd).1.cal.ransac.minUtil ≤ 1
            rw [hr]; exact h2
          · change 0 ≤ (s.world.fit F a rnd).1.cal.ransac.minFitError
            rw [hr]; exact h3
        · rw [rest_ransac E F M s c (by simpa using hset) (fun a arr rnd he => hf ⟨a, arr, rnd, he⟩)]
          exact ⟨h1, h2, h3⟩
    exact ih _ key.1 key.2.1 key.2.2

/-! ### C117 -/

/-- The call does not set the number of matches required. -/
def SessionCall.keepsMatches : SessionCall K → Prop
  | .set (.setRansac a) => a.minMatches = none
  | _ => True

/-- Every fit of the history finds an atlas with at least `m` lines. -/
def EnoughLines (E : CalEnv K) (F : FitEnv K) (M : MatchKernels K) (m : Int) (s : Session K)
    (h : List (SessionCall K)) : Prop :=
  ∀ h₁ a arr rnd h₂ lines, h = h₁ ++ .fit a arr rnd :: h₂ → (s.calls E F M h₁).world.atlasLines = .ok lines →
    m ≤ lines.length

theorem step_minMatches (E : CalEnv K) (w : World K) (op : SetOp K)
    (hk : SessionCall.keepsMatches (.set op)) :
    (w.step E op).1.cal.ransac.minMatches = w.cal.ransac.minMatches := by
  have hs : (w.step E op).1.cal.settings = Settings.step E.interp w.cal.settings op :=
    steps_settings E w [op]
  have e : (w.step E op).1.cal.ransac = (Settings.step E.interp w.cal.settings op).ransac := by rw [← hs]; rfl
  rw [e]
  cases op with
  | setRansac a =>
    simp only [Settings.step]
    unfold RansacSet.set
    dsimp only
    have ha : a.minMatches = none := hk
    repeat' split
    all_goals simp [keepOr, ha, Cal.settings]
  | setKnown q v => simp only [Settings.step]; split <;> rfl
  | _ => rfl

/-- C117, what holds: `minimum_matches` is never raised behind the user's back, and it is kept as long as no
fit is made with fewer atlas lines or peaks than it requires.  What is missing: a fit with a smaller atlas
lowers it for good. -/
theorem C117_minimum_matches_partial (E : CalEnv K) (F : FitEnv K) (M : MatchKernels K)
    (h : List (SessionCall K)) : ∀ s : Session K, (∀ c ∈ h, c.keepsMatches) →
      (s.calls E F M h).world.cal.ransac.minMatches ≤ s.world.cal.ransac.minMatches ∧
      (s.world.cal.ransac.minMatches ≤ s.world.cal.peaks.length →
        EnoughLines E F M s.world.cal.ransac.minMatches s h →
        (s.calls E F M h).world.cal.ransac.minMatches = s.world.cal.ransac.minMatches) := by
  induction h with
  | nil => intro s _; exact ⟨le_refl _, fun _ _ => rfl⟩
  | cons c h ih =>
    intro s hk
    have hcons : s.calls E F M (c :: h) = (s.call E F M c).calls E F M h := rfl
    obtain ⟨i1, i2⟩ := ih (s.call E F M c) (fun x hx => hk x (List.mem_cons_of_mem _ hx))
    have hpk : (s.call E F M c).world.cal.peaks = s.world.cal.peaks := C101_peaks_forever E F M s [c]
    have hen : ∀ m, EnoughLines E F M m s (c :: h) → EnoughLines E F M m (s.call E F M c) h := by
      intro m he h₁ a arr rnd h₂ lines hh hl
      exact he (c :: h₁) a arr rnd h₂ lines (by rw [hh]; rfl) hl
    have key : (s.call E F M c).world.cal.ransac.minMatches ≤ s.world.cal.ransac.minMatches ∧
        (s.world.cal.ransac.minMatches ≤ s.world.cal.peaks.length →
          EnoughLines E F M s.world.cal.ransac.minMatches s (c :: h) →
          (s.call E F M c).world.cal.ransac.minMatches = s.world.cal.ransac.minMatches) := by
      by_cases hset : c.isSet = true
      · cases c with
        | set op =>
          have := step_minMatches E s.world op (hk _ List.mem_cons_self)
          exact ⟨le_of_eq this, fun _ _ => this⟩
        | _ => cases hset
      · by_cases hf : ∃ a arr rnd, c = .fit a arr rnd
        · obtain ⟨a, arr, rnd, rfl⟩ := hf
          have hc : (s.call E F M (.fit a arr rnd)).world.cal.ransac.minMatches =
            (s.world.fit F a rnd).1.cal.ransac.minMatches := rfl
          rw [hc]
          rcases fit_minMatches F s.world a rnd with hm | ⟨lines, hl, hm⟩
          · exact ⟨le_of_eq hm, fun _ _ => hm⟩
          · rw [hm]
            refine ⟨min_le_left _ _, fun hp he => ?_⟩
            have := he [] a arr rnd h lines rfl hl
            exact min_eq_left (le_min this hp)
        · have := rest_ransac E F M s c (by simpa using hset) (fun a arr rnd he => hf ⟨a, arr, rnd, he⟩)
          rw [this]
          exact ⟨le_refl _, fun _ _ => rfl⟩
    rw [hcons]
    refine ⟨i1.trans key.1, fun hp he => ?_⟩
    have k2 := key.2 hp he
    rw [← k2]
    apply i2
    · rw [k2, hpk]; exact hp
    · rw [k2]; exact hen _ he

/-- C117 for the fits themselves: a fit made while `minimum_matches` is still in force reports at least that
many matches. -/
theorem C117_in_force_partial (E : CalEnv K) (F : FitEnv K) (M : MatchKernels K) (ha : IsArgsort F.argsortK)
    (s : Session K) (h : List (SessionCall K)) (hk : ∀ c ∈ h, c.keepsMatches) (a : FitArgs K) (arr : Bool)
    (rnd : FitRandom K) (hp : s.world.cal.ransac.minMatches ≤ s.world.cal.peaks.length)
    (he : EnoughLines E F M s.world.cal.ransac.minMatches s (h ++ [.fit a arr rnd])) (r : FitReport K)
    (hr : ((s.calls E F M h).fit F a arr rnd).2 = .done (.ok r)) :
    s.world.cal.ransac.minMatches ≤ r.matchedPeaks.length := by
  obtain ⟨lines, hl, _, hm, _⟩ := C60_fit_constraints F ha _ a rnd r hr
  have h1 := (C117_minimum_matches_partial E F M h s hk).2 hp (by
    intro h₁ a' arr' rnd' h₂ lines' hh hl'
    exact he h₁ a' arr' rnd' (h₂ ++ [.fit a arr rnd]) lines' (by rw [hh]; simp) hl')
  have h2 := he h a arr rnd [] lines (by simp) hl
  rw [h1, C101_peaks_forever E F M s h] at hm
  refine le_trans (le_min (le_refl _) (le_min h2 hp)) hm

end

/-- The expected behaviour of C117: after `set_ransac_properties(minimum_matches=m)` every fit reports at least
`m` matches, or as many as there are atlas lines and peaks. -/
def C117_Statement : Prop :=
  ∀ (s : Session ℚ) (m : Int) (h : List (SessionCall ℚ)), (∀ c ∈ h, c.keepsMatches) →
    s.world.cal.ransac.minMatches = m →
    ∀ (a : FitArgs ℚ) (arr : Bool) (rnd : FitRandom ℚ) (r : FitReport ℚ) (lines : List ℚ),
      let s' := s.calls Toy.calEnv Toy.env Toy.mkern h
      s'.world.atlasLines = .ok lines → (s'.fit Toy.env a arr rnd).2 = .done (.ok r) →
      min m (min (lines.length : Int) (s'.world.cal.peaks.length : Int)) ≤ r.matchedPeaks.length

/-- Two of four lines are removed, a fit is made, the lines are added again. -/
def Toy.smallerAtlas : List (SessionCall ℚ) :=
  [.set (.removeRange 7440 1), .set (.removeRange 8847 1),
   .fit (Toy.fourArgs 1) true ⟨fun _ => 0, [⟨[0, 0], [0, 0]⟩]⟩,
   .set (.addUserAtlas (fun a => ({ a with lines := a.lines ++ [⟨7440, "Xe", 1, none⟩, ⟨8847, "Xe", 1, none⟩] },
     .ok ())) 10 false)]

/-- The session with four peaks that requires four matches. -/
def Toy.needFour : Option (Session ℚ) :=
  (Toy.fourPeaks [4500, 5900, 7440, 8847]).toOption.map (fun w =>
    Session.new (w.step Toy.calEnv (.setRansac { minMatches := some 4 })).1 false)

/-- C117 is false: the fit with two lines lowers `minimum_matches` from 4 to 2, and the later fit with all four
lines and four peaks is satisfied with three matches. -/
theorem C117_refuted : ¬ C117_Statement := by
  intro h
  have hc : Toy.needFour.bind (fun s =>
      let s' := s.calls Toy.calEnv Toy.env Toy.mkern Toy.smallerAtlas
      (Toy.sessionReport (s'.fit Toy.env (Toy.fourArgs 1) true ⟨fun _ => 0, [⟨[0, 0], [0, 0]⟩]⟩)).map (fun r =>
        (s.world.cal.ransac.minMatches, s'.world.atlasLines.toOption, s'.world.cal.peaks.length,
          r.matchedPeaks.length))) = some (4, some [4500, 5900, 7440, 8847], 4, 3) := by
    decide +kernel
  cases hw : Toy.needFour with
  | none => rw [hw] at hc; cases hc
  | some s =>
    rw [hw] at hc
    simp only [Option.bind_some, Option.map_eq_some_iff, Prod.mk.injEq] at hc
    obtain ⟨r, hr, h1, h2, h3, h4⟩ := hc
    have hl : (s.calls Toy.calEnv Toy.env Toy.mkern Toy.smallerAtlas).world.atlasLines =
        .ok [4500, 5900, 7440, 8847] := by
      generalize (s.calls Toy.calEnv Toy.env Toy.mkern Toy.smallerAtlas).world.atlasLines = q at h2 ⊢
      cases q with
      | error e => cases h2
      | ok l => simpa [Except.toOption] using h2
    have := h s 4 Toy.smallerAtlas (by simp [Toy.smallerAtlas, SessionCall.keepsMatches]) h1 _ true _ r _ hl
      (Toy.sessionReport_some hr)
    rw [h3, h4] at this
    exact absurd this (by decide)

/-- The hypotheses of `C117_in_force_partial` are met: three of four peaks are matched when three matches are
required, although the settings were changed in between. -/
example : (Toy.fourPeaks [4500, 5900, 7440, 8847]).toOption.bind (fun w =>
    let s := Session.new (w.step Toy.calEnv (.setRansac { minMatches := some 3 })).1 false
    let s' := s.calls Toy.calEnv Toy.env Toy.mkern
      [.set (.setRansac { weighted := some false }), .fit (Toy.fourArgs 1) true ⟨fun _ => 0, []⟩]
    (Toy.sessionReport (s'.fit Toy.env (Toy.fourArgs 1) true ⟨fun _ => 0, [⟨[0, 0], [0, 0]⟩]⟩)).map (fun r =>
      (s.world.cal.ransac.minMatches, s'.world.cal.ransac.minMatches, r.matchedPeaks.length))) =
    some (3, 3, 3) := by
  decide +kernel

/-- C116 on a history: a fit and an edit in between do not matter for the search space. -/
example : Toy.needFour.map (fun s =>
    let h := Toy.smallerAtlas ++ [.addPair true 15 5200, .set (.setHough { rangeTol := some 400 })]
    let s' := s.calls Toy.calEnv Toy.env Toy.mkern h
    let t := s.calls Toy.calEnv Toy.env Toy.mkern (h.filter SessionCall.isSet)
    (decide (s'.world.cal.pairs = t.world.cal.pairs), decide (s'.world.cal.hough = t.world.cal.hough),
      s'.world.cal.pairList.length, s'.world.cal.hough.rangeTol,
      s'.world.cal.ransac.minMatches, t.world.cal.ransac.minMatches)) = some (true, true, 16, 400, 2, 4) := by
  decide +kernel

end Rascal
