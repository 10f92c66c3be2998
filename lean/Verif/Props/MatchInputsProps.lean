import Verif.Props.InputsProps
import Verif.Props.RefitProps

/-! Property theorems C188: what the result of `match_peaks` depends on. -/

set_option linter.unusedSectionVars false

namespace Rascal

section
variable {K : Type _} [Field K] [LinearOrder K] [IsStrictOrderedRing K] [FloorRing K]

/-- The two calibrators agree in what `match_peaks` may look at: peaks, pixel list, wavelengths of the atlas, the type of
polynomial and, unless coefficients are given, the stored solution. -/
structure Spec.SameMatchInputs (given : Bool) (s s' : Session K) : Prop where
  peaks : s'.world.cal.peaks = s.world.cal.peaks
  pixelList : s'.world.cal.props.pixelList = s.world.cal.props.pixelList
  lines : s'.world.atlasLines = s.world.atlasLines
  basis : s'.basis = s.basis
  coeff : given = false → s'.world.cal.fitCoeff = s.world.cal.fitCoeff ∧ s'.coeffKind = s.coeffKind

open Spec

theorem matchRefit_same (F : FitEnv K) (M : MatchKernels K) (s s' : Session K) (b : FitType) (robust : Bool) (deg : Nat)
    (new : Refined K) (fitted xs ys res : List K) (rms pu au : K) :
    (s.matchRefit F M b robust deg new fitted xs ys res rms pu au).2 =
      (s'.matchRefit F M b robust deg new fitted xs ys res rms pu au).2 := by
  unfold Session.matchRefit
  cases robust with
  | true =>
    rw [if_pos rfl, if_pos rfl]
    cases M.robust xs ys deg none with
    | error e => rfl
    | ok o => cases o <;> rfl
  | false =>
    rw [if_neg (by simp), if_neg (by simp)]
    cases new <;> rfl

theorem matchFit_same (F : FitEnv K) (M : MatchKernels K) (s s' : Session K) (hb : s'.basis = s.basis)
    (hp : s'.world.cal.peaks = s.world.cal.peaks) (n : Nat) (robust : Bool) (deg : Nat) (new : Refined K) (xs ys : List K) :
    (s.matchFit F M n robust deg new xs ys).2 = (s'.matchFit F M n robust deg new xs ys).2 := by
  unfold Session.matchFit
  dsimp only
  rw [hb, hp]
  cases s.basis with
  | none => rfl
  | some b =>
    dsimp only
    cases polyfitChecked (F.kern b) xs ys deg with
    | error e => rfl
    | ok fitted =>
      dsimp only
      split
      · exact matchRefit_same F M _ _ b robust deg new fitted xs ys _ _ _ _
      · rfl

/-- C188: what `match_peaks` returns, or raises, is determined by its arguments, the peaks, the pixel list, the wavelengths
of the atlas, the type of polynomial and, unless coefficients are given, the stored solution. -/
theorem C188_inputs (F : FitEnv K) (M : MatchKernels K) (s s' : Session K) (a : MatchArgs K)
    (h : SameMatchInputs a.coeff.isSome s s') : (s'.matchPeaks F M a).2 = (s.matchPeaks F M a).2 := by
  have hi : s'.inputCoeff a = s.inputCoeff a := by
    unfold Session.inputCoeff
    cases hc : a.coeff with
    | some c => rfl
    | none =>
      obtain ⟨h1, h2⟩ := h.coeff (by rw [hc]; rfl)
      dsimp only
      rw [h1, h2]
  have ho : ∀ co, s'.objective F a co = s.objective F a co := by
    intro co
    funext d
    unfold Session.objective
    rw [h.lines, h.basis, h.peaks, h.pixelList]
  have hr : ∀ kind co, s'.refineStep F M a kind co = s.refineStep F M a kind co := by
    intro kind co
    unfold Session.refineStep
    rw [ho]
  have hsearch : ∀ kind co new, (s'.matchSearch F M a kind co new).2 = (s.matchSearch F M a kind co new).2 := by
    intro kind co new
    unfold Session.matchSearch
    rw [h.lines, h.peaks, h.basis]
    cases s.world.atlasLines with
    | error e => rfl
    | ok lines =>
      dsimp only
      split
      · rfl
      split
      · rfl
      split
      · rfl
      · exact (matchFit_same F M s s' h.basis h.peaks _ _ _ _ _ _).symm
  unfold Session.matchPeaks
  rw [hi]
  cases s.inputCoeff a with
  | error e => rfl
  | ok r =>
    dsimp only
    rw [hr]
    cases s.refineStep F M a r.1 r.2 with
    | error e => rfl
    | ok new =>
      cases new with
      | nan => rfl
      | skipped => exact hsearch _ _ _
      | coeffs l => exact hsearch _ _ _

/-- The settings of the search and of the plots: all `set_*` methods except `set_atlas` and a new `pixel_list`, known
pairs, `do_hough_transform` and `load_hough_transform`. -/
def Spec.SearchSetting : SetOp K → Prop
  | .setCalibrator _ none _ => True
  | .useMatplotlib => True
  | .usePlotly => True
  | .setHough _ => True
  | .setRansac _ => True
  | .doHough _ => True
  | .loadHough _ _ _ => True
  | .setKnown _ _ => True
  | _ => False

/-- A call that a later `match_peaks` with given coefficients does not notice: settings of the search, fits of polynomials
of type `b`, and everything that edits or refits a solution. -/
def Spec.Unnoticed (b : FitType) : SessionCall K → Prop
  | .set op => SearchSetting op
  | .fit a _ _ => a.fitType = b
  | _ => True

theorem searchSetting_frame (E : CalEnv K) (w : World K) (op : SetOp K) (h : SearchSetting op) :
    (w.step E op).1.cal.props.pixelList = w.cal.props.pixelList ∧ (w.step E op).1.atlasLines = w.atlasLines := by
  have same : ∀ v : World K, v.atlases = w.atlases → v.cal.atlas = w.cal.atlas → v.atlasLines = w.atlasLines := by
    intro v h1 h2
    unfold World.atlasLines
    rw [h1, h2]
  cases op with
  | setCalibrator n p l =>
    cases p with
    | some p => exact absurd h id
    | none =>
      refine ⟨?_, same _ rfl rfl⟩
      show (CalProps.set E.interp w.cal.props n none l).1.pixelList = _
      unfold CalProps.set
      dsimp only [keepOr]
      cases E.interp w.cal.props.pixelList with
      | error e => rfl
      | ok u =>
        dsimp only
        unfold CalProps.applyLibrary
        split <;> rfl
  | useMatplotlib => exact ⟨rfl, same _ rfl rfl⟩
  | usePlotly => exact ⟨rfl, same _ rfl rfl⟩
  | setRansac a => exact ⟨rfl, same _ rfl rfl⟩
  | setHough a =>
    show (w.setHough a).1.cal.props.pixelList = _ ∧ (w.setHough a).1.atlasLines = _
    unfold World.setHough
    dsimp only
    split
    · exact ⟨rfl, same _ rfl rfl⟩
    split
    · exact ⟨rfl, same _ rfl rfl⟩
    · unfold World.generatePairs
      split
      · exact ⟨rfl, same _ rfl rfl⟩
      · dsimp only
        unfold Cal.generatePairs
        repeat' split
        all_goals exact ⟨rfl, same _ rfl rfl⟩
  | doHough b =>
    show (w.cal.doHough E.argsortK E.argsortN b).1.props.pixelList = _ ∧
      World.atlasLines { w with cal := (w.cal.doHough E.argsortK E.argsortN b).1 } = _
    have hd : (w.cal.doHough E.argsortK E.argsortN b).1.props = w.cal.props ∧
        (w.cal.doHough E.argsortK E.argsortN b).1.atlas = w.cal.atlas := by
      unfold Cal.doHough
      dsimp only
      repeat' split
      all_goals exact ⟨rfl, rfl⟩
    exact ⟨by rw [hd.1], same _ rfl hd.2⟩
  | loadHough d f t => exact ⟨rfl, same _ rfl rfl⟩
  | setKnown p v =>
    show (w.cal.setKnown p v).1.props.pixelList = _ ∧ World.atlasLines { w with cal := (w.cal.setKnown p v).1 } = _
    unfold Cal.setKnown
    repeat' split
    all_goals exact ⟨rfl, same _ rfl rfl⟩
  | _ => exact absurd h id

theorem Spec.SameMatchInputs.trans' {g : Bool} {s t u : Session K} (h : SameMatchInputs g s t) (k : SameMatchInputs g t u) :
    SameMatchInputs g s u :=
  ⟨k.peaks.trans h.peaks, k.pixelList.trans h.pixelList, k.lines.trans h.lines, k.basis.trans h.basis,
    fun hg => ⟨(k.coeff hg).1.trans (h.coeff hg).1, (k.coeff hg).2.trans (h.coeff hg).2⟩⟩

theorem Spec.SameMatchInputs.rfl' (g : Bool) (s : Session K) : SameMatchInputs g s s :=
  ⟨rfl, rfl, rfl, rfl, fun _ => ⟨rfl, rfl⟩⟩

/-- C188 for settings: no change of the settings of the search, failing calls included, has an influence on what
`match_peaks` makes of a solution. -/
theorem C188_settings (E : CalEnv K) (F : FitEnv K) (M : MatchKernels K) (s : Session K) (h : List (SetOp K))
    (hh : ∀ op ∈ h, SearchSetting op) (a : MatchArgs K) :
    ((s.calls E F M (h.map .set)).matchPeaks F M a).2 = (s.matchPeaks F M a).2 := by
  apply C188_inputs
  induction h generalizing s with
  | nil => exact .rfl' _ _
  | cons op h ih =>
    refine Spec.SameMatchInputs.trans' ?_ (ih (s.step E op).1 (fun o ho => hh o (List.mem_cons_of_mem _ ho)))
    have h1 := searchSetting_frame E s.world op (hh op List.mem_cons_self)
    have h2 := step_results E s.world op
    exact ⟨h2.peaks, h1.1, h1.2, rfl, fun _ => ⟨h2.result.fitCoeff, rfl⟩⟩

theorem solutionCall_basis (E : CalEnv K) (F : FitEnv K) (M : MatchKernels K) (s : Session K) (b : FitType)
    (hb : s.basis = some b) (hne : b ≠ .other) (c : SessionCall K) (hc : Unnoticed b c) :
    (s.call E F M c).basis = some b := by
  cases c with
  | set op => exact hb
  | fit a arr rnd =>
    show (if a.fitType = .other then s.basis else some a.fitType) = some b
    split
    · exact hb
    · exact congrArg some hc
  | matchPeaks a => exact (match_frame F M s a).2.2.1.trans hb
  | addPair n p w =>
    show (s.addPair n p w).1.basis = some b
    unfold Session.addPair
    repeat' split
    all_goals exact hb
  | removePair i =>
    show (s.removePair i).1.basis = some b
    unfold Session.removePair
    repeat' split
    all_goals exact hb
  | manualRefit a =>
    show (s.manualRefit F M a).1.basis = some b
    have hc := manualRefit_cases F M s a
    generalize (s.manualRefit F M a).1 = s' at hc ⊢
    generalize (s.manualRefit F M a).2 = o at hc
    cases hc with
    | early e => exact hb
    | stored x0 deg co hst habs hlen h3 h4 hco =>
      unfold Session.finishRefit
      split <;> exact hb

/-- C188 for given coefficients: after a fit with one type of polynomial, no history of settings of the search, fits of
that type, matches, pair edits and refits, failing calls included, has an influence on what `match_peaks` makes of
coefficients it is given. -/
theorem C188_given_partial (E : CalEnv K) (F : FitEnv K) (M : MatchKernels K) (s : Session K) (b : FitType)
    (hb : s.basis = some b) (hne : b ≠ .other) (h : List (SessionCall K)) (hh : ∀ c ∈ h, Unnoticed b c) (a : MatchArgs K)
    (ha : a.coeff.isSome = true) :
    ((s.calls E F M h).matchPeaks F M a).2 = (s.matchPeaks F M a).2 := by
  apply C188_inputs
  rw [ha]
  induction h generalizing s with
  | nil => exact .rfl' _ _
  | cons c h ih =>
    have hb' := solutionCall_basis E F M s b hb hne c (hh c List.mem_cons_self)
    refine Spec.SameMatchInputs.trans' ?_ (ih (s.call E F M c) hb' (fun o ho => hh o (List.mem_cons_of_mem _ ho)))
    by_cases hc : SolutionCall c
    · have hk := C101_settings_kept E F M s [c] (by simpa using hc)
      refine ⟨hk.peaks, congrArg CalProps.pixelList hk.props, ?_, hb'.trans hb.symm, fun hg => absurd hg (by decide)⟩
      have h1 : (s.call E F M c).world.atlases = s.world.atlases := hk.atlases
      have h2 : (s.call E F M c).world.cal.atlas = s.world.cal.atlas := hk.atlas
      unfold World.atlasLines
      rw [h1, h2]
    · cases c with
      | set op =>
        have h1 := searchSetting_frame E s.world op (hh _ List.mem_cons_self)
        exact ⟨(step_results E s.world op).peaks, h1.1, h1.2, rfl, fun hg => absurd hg (by decide)⟩
      | _ => exact absurd trivial hc

end

/-- C188, as intended: what `match_peaks` makes of given coefficients does not depend on earlier fits. -/
def C188_Statement : Prop :=
  ∀ (s : Session ℚ) (fa : FitArgs ℚ) (arr : Bool) (rnd : FitRandom ℚ) (a : MatchArgs ℚ), a.coeff.isSome = true →
    ((s.fit Toy.env fa arr rnd).1.matchPeaks Toy.env Toy.mkern a).2 = (s.matchPeaks Toy.env Toy.mkern a).2

/-- Coefficients given to `match_peaks`. -/
def Toy.givenArgs : MatchArgs ℚ := { coeff := some (true, [3100, 280]), tol := 10, minFrac := 1 / 2 }

/-- C188 is false of the code: before the first fit the calibrator has no `polyval`, and `match_peaks` raises
AttributeError; after any fit it matches. -/
theorem C188_refuted : ¬ C188_Statement := by
  intro h
  have hc : (Toy.plotSession false).map (fun s =>
      ((s.matchPeaks Toy.env Toy.mkern Toy.givenArgs).2.toOption.isSome,
       ((s.fit Toy.env Toy.args false Toy.rnd).1.matchPeaks Toy.env Toy.mkern Toy.givenArgs).2.toOption.isSome)) =
      some (false, true) := by decide +kernel
  cases hs : Toy.plotSession false with
  | none => rw [hs] at hc; cases hc
  | some s =>
    rw [hs] at hc
    simp only [Option.map_some, Option.some.injEq, Prod.mk.injEq] at hc
    have := h s Toy.args false Toy.rnd Toy.givenArgs rfl
    rw [this, hc.1] at hc
    exact absurd hc.2 (by decide)

/-- The lines a call of `match_peaks` reports. -/
def Toy.matchedLines (r : Session ℚ × PyRes (MatchOut ℚ)) : Option (List ℚ) :=
  match r.2 with
  | .ok (.report r) => some r.atlas
  | _ => none

/-- Case for `C188_inputs` and `C188_settings`: after a fit, other Hough and RANSAC settings, a known pair and plotly do
not change what `match_peaks()` reports. -/
example : (Toy.plotSession false).map (fun s =>
    let s1 := (s.fit Toy.env Toy.args false Toy.rnd).1
    let s2 := s1.calls Toy.calEnv Toy.env Toy.mkern ([.setHough { xbins := some 7, minW := some 4000 },
      .setRansac { sampleSize := some 3 }, .setKnown [.fin 1] [.fin 3380], .usePlotly].map .set)
    (Toy.matchedLines (s1.matchPeaks Toy.env Toy.mkern { tol := 10, minFrac := 1 / 2 }),
      Toy.matchedLines (s2.matchPeaks Toy.env Toy.mkern { tol := 10, minFrac := 1 / 2 }))) =
    some (some [5900, 8700], some [5900, 8700]) := by decide +kernel

/-- The same by the theorem, for every session and all arguments. -/
example (s : Session ℚ) (a : MatchArgs ℚ) : ((s.calls Toy.calEnv Toy.env Toy.mkern ([.setHough { xbins := some 7 },
      .setRansac { sampleSize := some 3 }, .usePlotly].map .set)).matchPeaks Toy.env Toy.mkern a).2 =
    (s.matchPeaks Toy.env Toy.mkern a).2 :=
  C188_settings Toy.calEnv Toy.env Toy.mkern s _ (by
    intro op h
    simp only [List.mem_cons, List.not_mem_nil, or_false] at h
    rcases h with rfl | rfl | rfl <;> trivial) a

/-- Case for `C188_given_partial`: after one fit, a second one, an edit and a refit do not change what `match_peaks` makes of
given coefficients. -/
example : (Toy.plotSession false).map (fun s =>
    let s1 := (s.fit Toy.env Toy.args false Toy.rnd).1
    let s2 := s1.calls Toy.calEnv Toy.env Toy.mkern [.fit Toy.args true Toy.rnd, .removePair 0,
      .set (.setRansac { sampleSize := some 3 }), .manualRefit {}]
    (s1.basis, Toy.matchedLines (s1.matchPeaks Toy.env Toy.mkern Toy.givenArgs),
      Toy.matchedLines (s2.matchPeaks Toy.env Toy.mkern Toy.givenArgs), s2.world.cal.matchedAtlas)) =
    some (some Toy.args.fitType, some [5900, 8700], some [5900, 8700], [8700]) := by decide +kernel

end Rascal
