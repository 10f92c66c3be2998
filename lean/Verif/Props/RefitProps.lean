import Verif.Props.EditProps

/-! Property theorems C77, C100 and C101: `manual_refit`, and which calls change which attributes. -/

set_option linter.unusedSectionVars false

namespace Rascal

open Spec

section
variable {K : Type _} [Field K] [LinearOrder K] [IsStrictOrderedRing K]

/-! ### C77 -/

/-- The starting point and the degree fitted, from the arguments and the stored solution. -/
structure RefitUses (s : Session K) (a : RefitArgs K) (x0 : Option (List K)) (deg : Nat) : Prop where
  degree : ∀ b d, a.degree = some (b, d) → b = true ∧ d = deg
  start : ∀ b l, a.x0 = some (b, l) → b = true ∧ x0 = some l ∧ l.length = deg + 1
  free : a.x0 = none → a.degree ≠ none → x0 = none
  stored : a.x0 = none → a.degree = none →
    s.coeffKind ≠ .nan ∧ x0 = s.world.cal.fitCoeff ∧ ∃ l, x0 = some l ∧ l.length = deg + 1

theorem refitStart_uses (s : Session K) (a : RefitArgs K) (x0 : Option (List K)) (deg : Nat)
    (h : s.refitStart a = .ok (x0.map some, (deg : Int))) : RefitUses s a x0 deg := by
  unfold Session.refitStart at h
  cases hx : a.x0 with
  | none =>
    cases hdg : a.degree with
    | none =>
      rw [hx, hdg] at h
      dsimp only at h
      cases hf : s.world.cal.fitCoeff with
      | none => rw [hf] at h; cases h
      | some l =>
        rw [hf] at h
        dsimp only at h
        rw [Except.ok.injEq, Prod.mk.injEq] at h
        obtain ⟨h1, h2⟩ := h
        by_cases hk : s.coeffKind = .nan
        · rw [if_pos hk] at h1
          cases x0 <;> simp at h1
        · rw [if_neg hk] at h1
          cases x0 with
          | none => simp at h1
          | some l' =>
            simp only [Option.map_some, Option.some.injEq] at h1
            subst h1
            exact ⟨fun b d h => (by rw [hdg] at h; cases h), fun b l h => (by rw [hx] at h; cases h),
              fun _ h => absurd hdg h, fun _ _ => ⟨hk, hf.symm, l, rfl, by omega⟩⟩
    | some bd =>
      obtain ⟨b, d⟩ := bd
      rw [hx, hdg] at h
      dsimp only at h
      split at h
      · rename_i hb
        rw [Except.ok.injEq, Prod.mk.injEq] at h
        obtain ⟨h1, h2⟩ := h
        have hx0 : x0 = none := by cases x0 <;> simp at h1 ⊢
        refine ⟨fun b' d' h => ?_, fun b l h => (by rw [hx] at h; cases h), fun _ _ => hx0,
          fun _ h => (by rw [hdg] at h; cases h)⟩
        rw [hdg] at h
        cases h
        exact ⟨hb, h2⟩
      · cases h
  | some bl =>
    obtain ⟨b, l⟩ := bl
    cases hdg : a.degree with
    | none =>
      rw [hx, hdg] at h
      dsimp only at h
      split at h
      · rename_i hb
        rw [Except.ok.injEq, Prod.mk.injEq] at h
        obtain ⟨h1, h2⟩ := h
        have hx0 : x0 = some l := by cases x0 <;> simp at h1 ⊢; exact h1.symm
        refine ⟨fun b d h => (by rw [hdg] at h; cases h), fun b' l' h => ?_,
          fun h => (by rw [hx] at h; cases h), fun h => (by rw [hx] at h; cases h)⟩
        rw [hx] at h
        cases h
        exact ⟨hb, hx0, by omega⟩
      · cases h
    | some bd =>
      obtain ⟨b2, d⟩ := bd
      rw [hx, hdg] at h
      dsimp only at h
      split at h
      · rename_i hb
        simp only [Bool.and_eq_true, decide_eq_true_eq] at hb
        rw [Except.ok.injEq, Prod.mk.injEq] at h
        obtain ⟨h1, h2⟩ := h
        have hx0 : x0 = some l := by cases x0 <;> simp at h1 ⊢; exact h1.symm
        refine ⟨fun b d h => ?_, fun b' l' h => ?_,
          fun h => (by rw [hx] at h; cases h), fun h => (by rw [hx] at h; cases h)⟩
        · rw [hdg] at h
          cases h
          exact ⟨hb.1.2, h2⟩
        · rw [hx] at h
          cases h
          exact ⟨hb.1.1, hx0, by omega⟩
      · cases h

/-- What a successful `manual_refit` returns and stores. -/
structure RefitDone (F : FitEnv K) (M : MatchKernels K) (s : Session K) (a : RefitArgs K)
    (s' : Session K) (r : RefitReport K) : Prop where
  /-- the lists are the ones given, or else the stored ones -/
  peaks : r.peaks = (a.peaks.map Prod.snd).getD s.world.cal.matchedPeaks
  atlas : r.atlas = (a.atlas.map Prod.snd).getD s.world.cal.matchedAtlas
  length : r.peaks.length = r.atlas.length
  /-- the coefficients come from the robust fit of these lists -/
  fit : ∃ x0 deg, RefitUses s a x0 deg ∧ 0 < deg ∧ deg < r.peaks.length ∧
    M.robust r.peaks r.atlas deg x0 = .ok r.coeffs
  /-- residuals and rms belong to these coefficients, unless these contain nan -/
  residuals : ∃ b, s.basis = some b ∧
    (∀ co, r.coeffs = some co →
      r.residuals = some (List.zipWith (fun p l => l - (F.kern b).polyval co p) r.peaks r.atlas) ∧
      ∀ v, r.residuals = some v →
        r.rms = (F.kern b).sqrt ((v.map (fun e => e ^ 2)).sum / (v.length : K)))
  nan : r.coeffs = none → r.residuals = none ∧ ∃ b, s.basis = some b ∧ r.rms = (F.kern b).sqrt 0
  /-- what is returned is what is stored -/
  storedCoeff : ∀ co, r.coeffs = some co → s'.world.cal.fitCoeff = some co ∧ s'.coeffKind = .array
  storedPeaks : s'.world.cal.matchedPeaks = r.peaks
  storedAtlas : s'.world.cal.matchedAtlas = r.atlas
  storedRms : s'.world.cal.rms = some r.rms
  storedResiduals : s'.residuals = r.residuals
  /-- the rest of the calibrator is as before -/
  rest : ∃ co p w m, s'.world = { s.world with cal := { s.world.cal with
    fitCoeff := co, matchedPeaks := p, matchedAtlas := w, rms := m } }
  basis : s'.basis = s.basis

/-- C77, what holds: once a fit has set the basis, `manual_refit` either raises and changes nothing, or
it stores and returns a fit of degree between 1 and the number of pairs minus 1, with its residuals and
their root mean square.  What is missing: a call before any fit, and coefficients containing nan, for
which the residuals are nan and the rms is 0. -/
theorem C77_manual_refit_partial (F : FitEnv K) (M : MatchKernels K) (s : Session K) (a : RefitArgs K)
    (hb : s.basis ≠ none) :
    ((s.manualRefit F M a).1 = s ∧ ∃ e, (s.manualRefit F M a).2 = .error e) ∨
    ∃ r, (s.manualRefit F M a).2 = .ok r ∧ RefitDone F M s a (s.manualRefit F M a).1 r := by
  have hc := manualRefit_cases F M s a
  generalize (s.manualRefit F M a).1 = s' at hc ⊢
  generalize (s.manualRefit F M a).2 = o at hc ⊢
  cases hc with
  | early e => exact .inl ⟨rfl, e, rfl⟩
  | stored x0 deg co hst habs hlen h3 h4 hco =>
    right
    obtain ⟨b, hbs⟩ := Option.ne_none_iff_exists'.1 hb
    have hbs' : (s.storeRefit a deg co).basis = some b := hbs
    have hp : (s.refitLists a).1.2 = (a.peaks.map Prod.snd).getD s.world.cal.matchedPeaks := by
      unfold Session.refitLists
      cases a.peaks <;> rfl
    have ha : (s.refitLists a).2.2 = (a.atlas.map Prod.snd).getD s.world.cal.matchedAtlas := by
      unfold Session.refitLists
      cases a.atlas <;> rfl
    unfold Session.finishRefit
    rw [hbs']
    dsimp only
    refine ⟨_, rfl, ⟨hp, ha, hlen, ⟨x0, deg, refitStart_uses s a x0 deg hst, h3, h4, hco⟩, ⟨b, hbs, ?_⟩,
      ?_, ?_, rfl, rfl, rfl, rfl, ⟨_, _, _, _, rfl⟩, hbs.symm⟩⟩
    · rintro c rfl
      refine ⟨rfl, ?_⟩
      rintro v hv
      cases hv
      rfl
    · rintro hn
      dsimp only at hn
      subst hn
      refine ⟨rfl, b, hbs, ?_⟩
      unfold rmsOf
      simp
    · rintro c hc
      dsimp only at hc
      subst hc
      exact ⟨rfl, rfl⟩

/-- C77, rejected arguments: whatever the state, lists of different lengths, a degree that is not
positive or not smaller than the number of pairs, or a starting point of the wrong length raise and
change nothing. -/
theorem C77_rejected (F : FitEnv K) (M : MatchKernels K) (s : Session K) (a : RefitArgs K)
    (h : ((a.peaks.map Prod.snd).getD s.world.cal.matchedPeaks).length ≠
          ((a.atlas.map Prod.snd).getD s.world.cal.matchedAtlas).length ∨
        (∃ b d, a.degree = some (b, d) ∧ (b = false ∨ d ≤ 0 ∨
          (((a.peaks.map Prod.snd).getD s.world.cal.matchedPeaks).length : Int) ≤ d)) ∨
        (∃ b l, a.x0 = some (b, l) ∧ (b = false ∨ l.length < 2 ∨
          ((a.peaks.map Prod.snd).getD s.world.cal.matchedPeaks).length < l.length ∨
          ∃ b' d, a.degree = some (b', d) ∧ (l.length : Int) ≠ d + 1))) :
    ∃ e, s.manualRefit F M a = (s, .error e) := by
  have hc := manualRefit_cases F M s a
  generalize hs' : (s.manualRefit F M a).1 = s' at hc
  generalize ho : (s.manualRefit F M a).2 = o at hc
  cases hc with
  | early e => exact ⟨e, Prod.ext hs' ho⟩
  | stored x0 deg co hst habs hlen h3 h4 hco =>
    exfalso
    have hp : (s.refitLists a).1.2 = (a.peaks.map Prod.snd).getD s.world.cal.matchedPeaks := by
      unfold Session.refitLists
      cases a.peaks <;> rfl
    have ha : (s.refitLists a).2.2 = (a.atlas.map Prod.snd).getD s.world.cal.matchedAtlas := by
      unfold Session.refitLists
      cases a.atlas <;> rfl
    have U := refitStart_uses s a x0 deg hst
    rw [hp, ha] at hlen
    rw [hp] at h4
    rcases h with h | ⟨b, d, hd, h⟩ | ⟨b, l, hl, h⟩
    · exact h hlen
    · obtain ⟨u1, u2⟩ := U.degree b d hd
      rcases h with rfl | h | h
      · cases u1
      · omega
      · omega
    · obtain ⟨u1, u2, u3⟩ := U.start b l hl
      rcases h with rfl | h | h | ⟨b', d, hd, h⟩
      · cases u1
      · omega
      · omega
      · obtain ⟨_, u4⟩ := U.degree b' d hd
        omega

/-! ### C100 -/

/-- The attributes holding a solution and its quality. -/
structure SolutionKept (s s' : Session K) : Prop where
  coeffs : s'.world.cal.fitCoeff = s.world.cal.fitCoeff
  matchedPeaks : s'.world.cal.matchedPeaks = s.world.cal.matchedPeaks
  matchedAtlas : s'.world.cal.matchedAtlas = s.world.cal.matchedAtlas
  rms : s'.world.cal.rms = s.world.cal.rms
  residual : s'.world.cal.residual = s.world.cal.residual
  residuals : s'.residuals = s.residuals
  peakUtil : s'.world.cal.peakUtil = s.world.cal.peakUtil
  atlasUtil : s'.world.cal.atlasUtil = s.world.cal.atlasUtil
  types : s'.basis = s.basis ∧ s'.coeffKind = s.coeffKind ∧ s'.peaksArr = s.peaksArr ∧
    s'.atlasKind = s.atlasKind ∧ s'.matchedInt = s.matchedInt

/-- C100: no sequence of settings, atlas, Hough and known-pair calls, whether they succeed or raise,
changes the peaks or the solution found before. -/
theorem C100_solution_kept [FloorRing K] (E : CalEnv K) (F : FitEnv K) (M : MatchKernels K) (s : Session K)
    (h : List (SetOp K)) :
    (s.calls E F M (h.map .set)).world.cal.peaks = s.world.cal.peaks ∧
      SolutionKept s (s.calls E F M (h.map .set)) := by
  induction h generalizing s with
  | nil => exact ⟨rfl, ⟨rfl, rfl, rfl, rfl, rfl, rfl, rfl, rfl, rfl, rfl, rfl, rfl, rfl⟩⟩
  | cons op h ih =>
    have hr := step_results E s.world op
    obtain ⟨i1, i2⟩ := ih (s.step E op).1
    have hstep : s.calls E F M ((op :: h).map .set) = ((s.step E op).1).calls E F M (h.map .set) := rfl
    rw [hstep]
    exact ⟨i1.trans hr.peaks, ⟨i2.coeffs.trans hr.result.fitCoeff,
      i2.matchedPeaks.trans hr.result.matchedPeaks, i2.matchedAtlas.trans hr.result.matchedAtlas,
      i2.rms.trans hr.result.rms, i2.residual.trans hr.result.residual, i2.residuals,
      i2.peakUtil.trans hr.result.peakUtil, i2.atlasUtil.trans hr.result.atlasUtil, i2.types⟩⟩

/-! ### C101 -/

/-- The calls that look for or edit a solution. -/
def SolutionCall : SessionCall K → Prop
  | .set _ => False
  | _ => True

theorem FitFrame.rfl' (c : Cal K) : FitFrame c c :=
  ⟨rfl, rfl, rfl, rfl, ⟨_, _, rfl⟩, rfl, rfl, rfl, rfl, rfl⟩

theorem FitFrame.trans' {c c' c'' : Cal K} (h : FitFrame c c') (h' : FitFrame c' c'') : FitFrame c c'' := by
  obtain ⟨a1, a2, a3, a4, ⟨n, m, a5⟩, a6, a7, a8, a9, a10⟩ := h
  obtain ⟨b1, b2, b3, b4, ⟨n', m', b5⟩, b6, b7, b8, b9, b10⟩ := h'
  exact ⟨b1.trans a1, b2.trans a2, b3.trans a3, b4.trans a4, ⟨n', m', by rw [b5, a5]⟩, b6.trans a6,
    b7.trans a7, b8.trans a8, b9.trans a9, b10.trans a10⟩

theorem match_frame (F : FitEnv K) (M : MatchKernels K) (s : Session K) (a : MatchArgs K) :
    FitFrame s.world.cal (s.matchPeaks F M a).1.world.cal ∧
      (s.matchPeaks F M a).1.world.atlases = s.world.atlases ∧ (s.matchPeaks F M a).1.basis = s.basis ∧
      (s.matchPeaks F M a).1.intPeaks = s.intPeaks := by
  have hc := matchPeaks_cases F M s a
  generalize (s.matchPeaks F M a).1 = s' at hc ⊢
  generalize (s.matchPeaks F M a).2 = o at hc
  have hf : ∀ {s' : Session K}, s'.world.cal.ransac = s.world.cal.ransac →
    s'.world.cal.peaks = s.world.cal.peaks → s'.world.cal.peaksAreArray = s.world.cal.peaksAreArray →
    s'.world.cal.props = s.world.cal.props → s'.world.cal.hough = s.world.cal.hough →
    s'.world.cal.atlas = s.world.cal.atlas → s'.world.cal.candTol = s.world.cal.candTol →
    s'.world.cal.constrainPoly = s.world.cal.constrainPoly → s'.world.cal.pairs = s.world.cal.pairs →
    s'.world.cal.known = s.world.cal.known → FitFrame s.world.cal s'.world.cal :=
    fun h1 h2 h3 h4 h5 h6 h7 h8 h9 h10 => ⟨h2, h3, h4, h5, ⟨_, _, by rw [h1]⟩, h6, h7, h8, h9, h10⟩
  cases hc with
  | early e => exact ⟨.rfl' _, rfl, rfl, rfl⟩
  | input co _ _ => exact ⟨.rfl' _, rfl, rfl, rfl⟩
  | ambiguous kind co lines e _ _ _ _ => exact ⟨.rfl' _, rfl, rfl, rfl⟩
  | fit co lines new m ys s' o hs hl hm he h1 h2 hff =>
    cases hff with
    | noBasis hb => exact ⟨hf rfl rfl rfl rfl rfl rfl rfl rfl rfl rfl, rfl, rfl, rfl⟩
    | noFit b e hb hp => exact ⟨hf rfl rfl rfl rfl rfl rfl rfl rfl rfl rfl, rfl, rfl, rfl⟩
    | bad b f hb hp hs => exact ⟨hf rfl rfl rfl rfl rfl rfl rfl rfl rfl rfl, rfl, rfl, rfl⟩
    | done b fitted res s' o hb hp hres hlt hend =>
      cases hend with
      | failed e _ _ => exact ⟨hf rfl rfl rfl rfl rfl rfl rfl rfl rfl rfl, rfl, rfl, rfl⟩
      | nan s' _ _ h3 => subst h3; exact ⟨hf rfl rfl rfl rfl rfl rfl rfl rfl rfl rfl, rfl, rfl, rfl⟩
      | robust co s' _ _ h3 => subst h3; exact ⟨hf rfl rfl rfl rfl rfl rfl rfl rfl rfl rfl, rfl, rfl, rfl⟩
      | refined co s' _ _ h3 => subst h3; exact ⟨hf rfl rfl rfl rfl rfl rfl rfl rfl rfl rfl, rfl, rfl, rfl⟩
      | unbound _ _ => exact ⟨hf rfl rfl rfl rfl rfl rfl rfl rfl rfl rfl, rfl, rfl, rfl⟩

theorem manual_frame (F : FitEnv K) (M : MatchKernels K) (s : Session K) (a : RefitArgs K) :
    FitFrame s.world.cal (s.manualRefit F M a).1.world.cal ∧
      (s.manualRefit F M a).1.world.atlases = s.world.atlases := by
  have hc := manualRefit_cases F M s a
  generalize (s.manualRefit F M a).1 = s' at hc ⊢
  generalize (s.manualRefit F M a).2 = o at hc
  cases hc with
  | early e => exact ⟨.rfl' _, rfl⟩
  | stored x0 deg co hst habs hlen h3 h4 hco =>
    unfold Session.finishRefit
    split
    · exact ⟨⟨rfl, rfl, rfl, rfl, ⟨_, _, rfl⟩, rfl, rfl, rfl, rfl, rfl⟩, rfl⟩
    · exact ⟨⟨rfl, rfl, rfl, rfl, ⟨_, _, rfl⟩, rfl, rfl, rfl, rfl, rfl⟩, rfl⟩

theorem edit_frame (s : Session K) [FloorRing K] (n : Bool) (pix wave : K) (i : Int) :
    (FitFrame s.world.cal (s.addPair n pix wave).1.world.cal ∧
      (s.addPair n pix wave).1.world.atlases = s.world.atlases) ∧
    (FitFrame s.world.cal (s.removePair i).1.world.cal ∧
      (s.removePair i).1.world.atlases = s.world.atlases) := by
  have hp : ∀ p w, FitFrame s.world.cal (s.setPairs p w).world.cal ∧
      (s.setPairs p w).world.atlases = s.world.atlases :=
    fun p w => ⟨⟨rfl, rfl, rfl, rfl, ⟨_, _, rfl⟩, rfl, rfl, rfl, rfl, rfl⟩, rfl⟩
  constructor
  · unfold Session.addPair
    repeat' split
    all_goals first | exact ⟨.rfl' _, rfl⟩ | exact hp _ _
  · unfold Session.removePair
    repeat' split
    all_goals first | exact ⟨.rfl' _, rfl⟩ | exact hp _ _

/-- The settings, the atlases and what was derived from them. -/
structure SettingsKept (s s' : Session K) : Prop where
  peaks : s'.world.cal.peaks = s.world.cal.peaks
  props : s'.world.cal.props = s.world.cal.props
  hough : s'.world.cal.hough = s.world.cal.hough
  ransac : ∃ n m, s'.world.cal.ransac = { s.world.cal.ransac with sampleSize := n, minMatches := m }
  atlas : s'.world.cal.atlas = s.world.cal.atlas
  atlases : s'.world.atlases = s.world.atlases
  candTol : s'.world.cal.candTol = s.world.cal.candTol
  constrainPoly : s'.world.cal.constrainPoly = s.world.cal.constrainPoly
  pairs : s'.world.cal.pairs = s.world.cal.pairs
  known : s'.world.cal.known = s.world.cal.known

/-- C101: no sequence of `fit`, `match_peaks`, pair edits and `manual_refit`, whether they succeed or
raise, changes the peaks, the settings, the atlases, the candidate pairs or the known pairs; only the
sample size and the number of matches required may be adjusted. -/
theorem C101_settings_kept [FloorRing K] (E : CalEnv K) (F : FitEnv K) (M : MatchKernels K) (s : Session K)
    (h : List (SessionCall K)) (hh : ∀ c ∈ h, SolutionCall c) :
    SettingsKept s (s.calls E F M h) := by
  suffices hs : FitFrame s.world.cal (s.calls E F M h).world.cal ∧
      (s.calls E F M h).world.atlases = s.world.atlases by
    obtain ⟨g, g'⟩ := hs
    exact ⟨g.peaks, g.props, g.hough, g.ransac, g.atlas, g', g.candTol, g.constrainPoly, g.pairs, g.known⟩
  induction h generalizing s with
  | nil => exact ⟨.rfl' _, rfl⟩
  | cons c h ih =>
    have h1 : FitFrame s.world.cal (s.call E F M c).world.cal ∧
        (s.call E F M c).world.atlases = s.world.atlases := by
      cases c with
      | set op => exact absurd (hh _ List.mem_cons_self) id
      | fit a arr rnd => exact fit_frame F s.world a rnd
      | matchPeaks a => exact ⟨(match_frame F M s a).1, (match_frame F M s a).2.1⟩
      | addPair n p w => exact (edit_frame s n p w 0).1
      | removePair i => exact (edit_frame s false 0 0 i).2
      | manualRefit a => exact manual_frame F M s a
    obtain ⟨i1, i2⟩ := ih (s.call E F M c) (fun c hc => hh c (by simp [hc]))
    have hcons : s.calls E F M (c :: h) = (s.call E F M c).calls E F M h := rfl
    rw [hcons]
    exact ⟨h1.1.trans' i1, i2.trans h1.2⟩

/-- C101 for all calls together: no history of calls changes the peaks the calibrator was made with. -/
theorem C101_peaks_forever [FloorRing K] (E : CalEnv K) (F : FitEnv K) (M : MatchKernels K) (s : Session K)
    (h : List (SessionCall K)) : (s.calls E F M h).world.cal.peaks = s.world.cal.peaks := by
  induction h generalizing s with
  | nil => rfl
  | cons c h ih =>
    have hcons : s.calls E F M (c :: h) = (s.call E F M c).calls E F M h := rfl
    rw [hcons, ih]
    by_cases hc : SolutionCall c
    · exact (C101_settings_kept E F M s [c] (by simpa using hc)).peaks
    · cases c with
      | set op => exact (step_results E s.world op).peaks
      | _ => exact absurd trivial hc

end

/-! ### refutation and examples -/

set_option synthInstance.maxSize 2000
set_option synthInstance.maxHeartbeats 400000

/-- The expected behaviour: a `manual_refit` that raises leaves the calibrator as it was. -/
def C77_Statement : Prop :=
  ∀ (F : FitEnv ℚ) (M : MatchKernels ℚ) (s : Session ℚ) (a : RefitArgs ℚ) (e : PyErr),
    (s.manualRefit F M a).2 = .error e → (s.manualRefit F M a).1 = s

/-- A refit of two pairs. -/
def Toy.refit : RefitArgs ℚ :=
  { peaks := some (false, [10, 20]), atlas := some (false, [5900, 8700]), degree := some (true, 1) }

/-- A calibrator just made, with the given peaks. -/
def Toy.fresh (peaks : List ℚ) : Option (Session ℚ) :=
  (Cal.new (fun _ => .ok ()) peaks true none).toOption.map (fun c => Session.new ⟨[], c⟩ false)

/-- Before a fit the new coefficients and pairs are stored before AttributeError is raised. -/
theorem C77_refuted : ¬ C77_Statement := by
  intro h
  have hc : (Toy.fresh [10, 20]).map (fun s => (s.world.cal.fitCoeff, s.world.cal.matchedPeaks,
      (s.manualRefit Toy.env Toy.mkern Toy.refit).1.world.cal.fitCoeff,
      (s.manualRefit Toy.env Toy.mkern Toy.refit).1.world.cal.matchedPeaks,
      Toy.raised (s.manualRefit Toy.env Toy.mkern Toy.refit))) =
      some (none, [], some [3100, 280], [10, 20], some .attributeError) := by decide +kernel
  cases hs : Toy.fresh [10, 20] with
  | none => rw [hs] at hc; simp at hc
  | some s =>
    rw [hs] at hc
    simp only [Option.map_some, Option.some.injEq, Prod.mk.injEq] at hc
    obtain ⟨h1, _, h3, _, h5⟩ := hc
    unfold Toy.raised at h5
    cases ho : (s.manualRefit Toy.env Toy.mkern Toy.refit).2 with
    | ok u => rw [ho] at h5; simp at h5
    | error e =>
      have := h _ _ s _ e ho
      rw [this, h1] at h3
      cases h3

/-- A case meeting the hypothesis of `C77_manual_refit_partial`, with a report. -/
example : (Toy.session [10, 20, 31] false [5900, 8700]).toOption.map (fun s =>
    (s.basis, (s.manualRefit Toy.env Toy.mkern Toy.refit).2.toOption,
      (s.manualRefit Toy.env Toy.mkern Toy.refit).1.world.cal.matchedAtlas)) =
    some (some .poly, some ⟨some [3100, 280], [10, 20], [5900, 8700], 0, some [0, 0]⟩, [5900, 8700]) := by
  decide +kernel

/-- Cases meeting the hypotheses of `C77_rejected`: degree 2 for two pairs, and lists of different
lengths. -/
example : (Toy.session [10, 20, 31] false [5900, 8700]).toOption.map (fun s =>
    (Toy.raised (s.manualRefit Toy.env Toy.mkern { Toy.refit with degree := some (true, 2) }),
      Toy.raised (s.manualRefit Toy.env Toy.mkern { Toy.refit with atlas := some (false, [5900]) }))) =
    some (some .assertionError, some .assertionError) := by
  decide +kernel

/-- A non-trivial case for `C100_solution_kept`: a solution is there, settings and atlas are changed. -/
example : (Toy.matched false).map (fun s =>
    let t := s.calls Toy.calEnv Toy.env Toy.mkern [.set .clearAtlas, .set (.setAtlas 3 10 false),
      .set (.doHough false)]
    (s.world.cal.fitCoeff, t.world.cal.fitCoeff, t.world.cal.matchedPeaks, t.world.cal.rms,
      s.world.atlasLines.toOption, t.world.atlasLines.toOption)) =
    some (some [3100, 280], some [3100, 280], [10, 20], some 0, some [5900, 8700], none) := by
  decide +kernel

/-- A non-trivial case for `C101_settings_kept`: the calls change the solution. -/
example : (Toy.session [10, 20] false [5900, 8700]).toOption.map (fun s =>
    let t := s.calls Toy.calEnv Toy.env Toy.mkern
      [.matchPeaks { coeff := some (true, [3100, 280]), tol := 10, minFrac := 1 / 2 },
        .addPair false 15 7300, .manualRefit { degree := some (true, 1) }]
    (s.world.cal.fitCoeff, t.world.cal.fitCoeff, t.world.cal.matchedPeaks, t.world.atlasLines.toOption)) =
    some (none, some [3100, 280], [15, 10, 20], some [5900, 8700]) := by
  decide +kernel

end Rascal
