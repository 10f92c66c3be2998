import Verif.Proofs.CalLemmas
import Verif.Proofs.HoughLemmas
import Mathlib.Algebra.Field.Rat
import Mathlib.Algebra.Order.Ring.Rat
import Mathlib.Data.Rat.Floor
import Mathlib.Tactic.NormNum
import Mathlib.Tactic.FieldSimp

/-!
Property theorems C45 to C51, C80, C81 and C90: the settings of the calibrator.
-/

set_option linter.unusedSectionVars false

namespace Rascal

section
variable {K : Type _} [Field K] [LinearOrder K] [IsStrictOrderedRing K]

/-- The `set_hough_properties` calls of a history. -/
def houghCalls (ops : List (SetOp K)) : List (HoughArgs K) :=
  ops.filterMap (fun op => match op with | .setHough a => some a | _ => none)

/-- The `set_ransac_properties` calls of a history. -/
def ransacCalls (ops : List (SetOp K)) : List (RansacArgs K) :=
  ops.filterMap (fun op => match op with | .setRansac a => some a | _ => none)

/-- The threshold `minimum_matches` of a call, if given, is positive. -/
def MatchesValid (a : RansacArgs K) : Prop := ∀ m, a.minMatches = some m → 0 < m

/-- The threshold `minimum_peak_utilisation` of a call, if given, is a fraction. -/
def UtilValid (a : RansacArgs K) : Prop := ∀ u, a.minUtil = some u → 0 ≤ u ∧ u ≤ 1

/-- The threshold `minimum_fit_error` of a call, if given, is not negative. -/
def ErrorValid (a : RansacArgs K) : Prop := ∀ e, a.minFitError = some e → 0 ≤ e

theorem matchesOk_iff (a : RansacArgs K) : a.matchesOk = true ↔ MatchesValid a := by
  unfold RansacArgs.matchesOk MatchesValid
  cases a.minMatches <;> simp

theorem utilOk_iff (a : RansacArgs K) : a.utilOk = true ↔ UtilValid a := by
  unfold RansacArgs.utilOk UtilValid
  cases a.minUtil <;> simp

theorem errorOk_iff (a : RansacArgs K) : a.errorOk = true ↔ ErrorValid a := by
  unfold RansacArgs.errorOk ErrorValid
  cases a.minFitError <;> simp

theorem lastGiven_append {α : Type _} (d : α) (l : List (Option α)) (x : Option α) :
    Spec.lastGiven d (l ++ [x]) = keepOr (some (Spec.lastGiven d l)) x d := by
  unfold Spec.lastGiven keepOr
  rw [List.reverse_append]
  cases x <;> simp

/-! ### C45 -/

open Classical in
/-- C45.  After any history of calls, failing ones included, on a calibrator in its initial settings,
every Hough and RANSAC setting is the last value given for it, or its default.  A threshold
counts as given if it and the thresholds checked before it in the same call were valid. -/
theorem C45_settings_persist (E : CalEnv K) (w : World K) (p : List K)
    (hh : w.cal.hough = (HoughSet.apply none {} p).1) (hr : w.cal.ransac = RansacSet.init)
    (ops : List (SetOp K)) :
    let H := houghCalls ops
    let R := ransacCalls ops
    let c := (w.steps E ops).cal
    (c.hough.numSlopes = Spec.lastGiven 2000 (H.map HoughArgs.numSlopes) ∧
      c.hough.xbins = Spec.lastGiven 100 (H.map HoughArgs.xbins) ∧
      c.hough.ybins = Spec.lastGiven 100 (H.map HoughArgs.ybins) ∧
      c.hough.minW = Spec.lastGiven 3000 (H.map HoughArgs.minW) ∧
      c.hough.maxW = Spec.lastGiven 9000 (H.map HoughArgs.maxW) ∧
      c.hough.rangeTol = Spec.lastGiven 500 (H.map HoughArgs.rangeTol) ∧
      c.hough.linTol = Spec.lastGiven 100 (H.map HoughArgs.linTol)) ∧
    (c.ransac.sampleSize = Spec.lastGiven 5 (R.map RansacArgs.sampleSize) ∧
      c.ransac.topN = Spec.lastGiven 5 (R.map RansacArgs.topN) ∧
      c.ransac.linear = Spec.lastGiven true (R.map RansacArgs.linear) ∧
      c.ransac.filterClose = Spec.lastGiven false (R.map RansacArgs.filterClose) ∧
      c.ransac.tol = Spec.lastGiven 5 (R.map RansacArgs.tol) ∧
      c.ransac.weighted = Spec.lastGiven true (R.map RansacArgs.weighted) ∧
      c.ransac.houghWeight = Spec.lastGiven (.fin 1) (R.map RansacArgs.houghWeight) ∧
      c.ransac.minMatches = Spec.lastGiven 0
        (R.map (fun a => if MatchesValid a then a.minMatches else none)) ∧
      c.ransac.minUtil = Spec.lastGiven 0
        (R.map (fun a => if MatchesValid a ∧ UtilValid a then a.minUtil else none)) ∧
      c.ransac.minFitError = Spec.lastGiven (1 / 10000)
        (R.map (fun a => if MatchesValid a ∧ UtilValid a ∧ ErrorValid a then a.minFitError else none))) := by
  intro H R c
  have hs := steps_settings E w ops
  have e1 : c.hough = (ops.foldl (Settings.step E.interp) w.cal.settings).hough := by
    rw [← hs]; rfl
  have e2 : c.ransac = (ops.foldl (Settings.step E.interp) w.cal.settings).ransac := by
    rw [← hs]; rfl
  rw [e1, e2]
  clear e1 e2 hs
  simp only [H, R]
  clear c H R
  have h0 : w.cal.settings.hough = (HoughSet.apply none {} p).1 := hh
  have r0 : w.cal.settings.ransac = RansacSet.init := hr
  generalize w.cal.settings = s at h0 r0
  induction ops using List.reverseRecOn with
  | nil =>
    simp only [List.foldl_nil, houghCalls, ransacCalls, List.filterMap_nil, List.map_nil]
    rw [h0, r0]
    unfold HoughSet.apply
    dsimp only
    split <;> exact ⟨⟨rfl, rfl, rfl, rfl, rfl, rfl, rfl⟩, ⟨rfl, rfl, rfl, rfl, rfl, rfl, rfl, rfl, rfl, rfl⟩⟩
  | append_singleton ops op ih =>
    rw [List.foldl_append, List.foldl_cons, List.foldl_nil]
    generalize List.foldl (Settings.step E.interp) s ops = t at ih
    have happ : houghCalls (ops ++ [op]) = houghCalls ops ++ houghCalls [op] := by simp [houghCalls]
    have rapp : ransacCalls (ops ++ [op]) = ransacCalls ops ++ ransacCalls [op] := by simp [ransacCalls]
    rw [happ, rapp]
    cases op with
    | setHough a =>
      have e3 : houghCalls [SetOp.setHough a] = [a] := rfl
      have e4 : ransacCalls [SetOp.setHough a] = [] := rfl
      rw [e3, e4, List.append_nil]
      simp only [List.map_append, List.map_cons, List.map_nil, lastGiven_append]
      refine ⟨?_, ih.2⟩
      obtain ⟨⟨h1, h2, h3, h4, h5, h6, h7⟩, _⟩ := ih
      simp only [Settings.step]
      unfold HoughSet.apply
      dsimp only
      rw [← h1, ← h2, ← h3, ← h4, ← h5, ← h6, ← h7]
      split <;> exact ⟨rfl, rfl, rfl, rfl, rfl, rfl, rfl⟩
    | setRansac a =>
      have e3 : houghCalls [SetOp.setRansac a] = [] := rfl
      have e4 : ransacCalls [SetOp.setRansac a] = [a] := rfl
      rw [e3, e4, List.append_nil]
      simp only [List.map_append, List.map_cons, List.map_nil, lastGiven_append]
      refine ⟨ih.1, ?_⟩
      obtain ⟨_, h1, h2, h3, h4, h5, h6, h7, h8, h9, h10⟩ := ih
      simp only [Settings.step]
      unfold RansacSet.set
      dsimp only
      rw [← h1, ← h2, ← h3, ← h4, ← h5, ← h6, ← h7, ← h8, ← h9, ← h10]
      by_cases hm : MatchesValid a
      · rw [if_pos ((matchesOk_iff a).2 hm)]
        by_cases hu : UtilValid a
        · rw [if_pos ((utilOk_iff a).2 hu)]
          by_cases he : ErrorValid a
          · rw [if_pos ((errorOk_iff a).2 he)]
            simp [hm, hu, he]
          · rw [if_neg (fun h => he ((errorOk_iff a).1 h))]
            simp [hm, hu, he, keepOr]
        · rw [if_neg (fun h => hu ((utilOk_iff a).1 h))]
          simp [hm, hu, keepOr]
      · rw [if_neg (fun h => hm ((matchesOk_iff a).1 h))]
        simp [hm, keepOr]
    | setKnown q v =>
      have e3 : houghCalls [SetOp.setKnown q v] = [] := rfl
      have e4 : ransacCalls [SetOp.setKnown q v] = [] := rfl
      rw [e3, e4, List.append_nil, List.append_nil]
      simp only [Settings.step]
      split <;> exact ih
    | setCalibrator => simpa [houghCalls, ransacCalls, Settings.step] using ih
    | useMatplotlib => simpa [houghCalls, ransacCalls, Settings.step] using ih
    | usePlotly => simpa [houghCalls, ransacCalls, Settings.step] using ih
    | setAtlas => simpa [houghCalls, ransacCalls, Settings.step] using ih
    | addAtlas => simpa [houghCalls, ransacCalls, Settings.step] using ih
    | addUserAtlas => simpa [houghCalls, ransacCalls, Settings.step] using ih
    | removeRange => simpa [houghCalls, ransacCalls, Settings.step] using ih
    | clearAtlas => simpa [houghCalls, ransacCalls, Settings.step] using ih
    | editAtlas => simpa [houghCalls, ransacCalls, Settings.step] using ih
    | doHough => simpa [houghCalls, ransacCalls, Settings.step] using ih
    | loadHough => simpa [houghCalls, ransacCalls, Settings.step] using ih

/-- A case for `C45_settings_persist`: two calls with different arguments. -/
example : ((RansacSet.set ((RansacSet.init : RansacSet ℚ).set { tol := some 3, topN := some 8 }).1
      { tol := some 2 }).1.tol, (RansacSet.set ((RansacSet.init : RansacSet ℚ).set { tol := some 3, topN := some 8 }).1
      { tol := some 2 }).1.topN) = (2, 8) := by decide +kernel

/-! ### C46 -/

/-- C46.  After any history of calls on a calibrator with valid thresholds they are valid, and a call
succeeds exactly if the thresholds it gives are valid. -/
theorem C46_thresholds (E : CalEnv K) (w : World K) (h1 : 0 ≤ w.cal.ransac.minMatches)
    (h2 : 0 ≤ w.cal.ransac.minUtil ∧ w.cal.ransac.minUtil ≤ 1) (h3 : 0 ≤ w.cal.ransac.minFitError)
    (ops : List (SetOp K)) :
    let c := (w.steps E ops).cal
    0 ≤ c.ransac.minMatches ∧ (0 ≤ c.ransac.minUtil ∧ c.ransac.minUtil ≤ 1) ∧ 0 ≤ c.ransac.minFitError := by
  intro c
  have e2 : c.ransac = (ops.foldl (Settings.step E.interp) w.cal.settings).ransac := by
    rw [← steps_settings E w ops]; rfl
  rw [e2]
  clear e2
  clear c
  change 0 ≤ w.cal.settings.ransac.minMatches at h1
  change 0 ≤ w.cal.settings.ransac.minUtil ∧ w.cal.settings.ransac.minUtil ≤ 1 at h2
  change 0 ≤ w.cal.settings.ransac.minFitError at h3
  generalize w.cal.settings = s at h1 h2 h3
  induction ops generalizing s with
  | nil => exact ⟨h1, h2, h3⟩
  | cons op ops ih =>
    rw [List.foldl_cons]
    have key : 0 ≤ (Settings.step E.interp s op).ransac.minMatches ∧
        (0 ≤ (Settings.step E.interp s op).ransac.minUtil ∧
          (Settings.step E.interp s op).ransac.minUtil ≤ 1) ∧
        0 ≤ (Settings.step E.interp s op).ransac.minFitError := by
      cases op with
      | setRansac a =>
        simp only [Settings.step]
        unfold RansacSet.set
        dsimp only
        by_cases hm : MatchesValid a
        · rw [if_pos ((matchesOk_iff a).2 hm)]
          have hmv : 0 ≤ keepOr (some s.ransac.minMatches) a.minMatches 0 := by
            unfold keepOr
            cases hc : a.minMatches with
            | none => exact h1
            | some m => exact (hm m hc).le
          by_cases hu : UtilValid a
          · rw [if_pos ((utilOk_iff a).2 hu)]
            have huv : 0 ≤ keepOr (some s.ransac.minUtil) a.minUtil 0 ∧
                keepOr (some s.ransac.minUtil) a.minUtil 0 ≤ 1 := by
              unfold keepOr
              cases hc : a.minUtil with
              | none => exact h2
              | some m => exact hu m hc
            by_cases he : ErrorValid a
            · rw [if_pos ((errorOk_iff a).2 he)]
              refine ⟨hmv, huv, ?_⟩
              dsimp only
              unfold keepOr
              cases hc : a.minFitError with
              | none => exact h3
              | some m => exact he m hc
            · rw [if_neg (fun h => he ((errorOk_iff a).1 h))]
              exact ⟨hmv, huv, h3⟩
          · rw [if_neg (fun h => hu ((utilOk_iff a).1 h))]
            exact ⟨hmv, h2, h3⟩
        · rw [if_neg (fun h => hm ((matchesOk_iff a).1 h))]
          exact ⟨h1, h2, h3⟩
      | setKnown q v =>
        simp only [Settings.step]
        split <;> exact ⟨h1, h2, h3⟩
      | setCalibrator => exact ⟨h1, h2, h3⟩
      | useMatplotlib => exact ⟨h1, h2, h3⟩
      | usePlotly => exact ⟨h1, h2, h3⟩
      | setHough => exact ⟨h1, h2, h3⟩
      | setAtlas => exact ⟨h1, h2, h3⟩
      | addAtlas => exact ⟨h1, h2, h3⟩
      | addUserAtlas => exact ⟨h1, h2, h3⟩
      | removeRange => exact ⟨h1, h2, h3⟩
      | clearAtlas => exact ⟨h1, h2, h3⟩
      | editAtlas => exact ⟨h1, h2, h3⟩
      | doHough => exact ⟨h1, h2, h3⟩
      | loadHough => exact ⟨h1, h2, h3⟩
    exact ih _ key.1 key.2.1 key.2.2

/-- A case for `C46_thresholds`: the initial settings, and a call that is rejected. -/
example : (0 ≤ (RansacSet.init : RansacSet ℚ).minMatches ∧ 0 ≤ (RansacSet.init : RansacSet ℚ).minUtil ∧
    (RansacSet.init : RansacSet ℚ).minUtil ≤ 1 ∧ 0 ≤ (RansacSet.init : RansacSet ℚ).minFitError) ∧
    ((RansacSet.init : RansacSet ℚ).set { minUtil := some 2 }).1.minUtil = 0 := by decide +kernel

/-- C46, rejection: a call raises exactly if one of the thresholds it gives is invalid. -/
theorem C46_invalid_rejected (w : World K) (a : RansacArgs K) :
    ((w.setRansac a).2 = .ok () ↔ MatchesValid a ∧ UtilValid a ∧ ErrorValid a) ∧
    ((w.setRansac a).2 = .error .assertionError ↔ ¬ (MatchesValid a ∧ UtilValid a ∧ ErrorValid a)) := by
  unfold World.setRansac RansacSet.set
  dsimp only
  by_cases hm : MatchesValid a
  · rw [if_pos ((matchesOk_iff a).2 hm)]
    by_cases hu : UtilValid a
    · rw [if_pos ((utilOk_iff a).2 hu)]
      by_cases he : ErrorValid a
      · rw [if_pos ((errorOk_iff a).2 he)]
        simp [hm, hu, he]
      · rw [if_neg (fun h => he ((errorOk_iff a).1 h))]
        simp [he]
    · rw [if_neg (fun h => hu ((utilOk_iff a).1 h))]
      simp [hu]
  · rw [if_neg (fun h => hm ((matchesOk_iff a).1 h))]
    simp [hm]

/-! ### C90 -/

/-- The expected behaviour: a rejected call changes nothing. -/
def C90_Statement : Prop :=
  ∀ (s : RansacSet ℚ) (a : RansacArgs ℚ), (s.set a).2 ≠ .ok () → (s.set a).1 = s

/-- C90 is false: with a negative `minimum_fit_error` the new `sample_size` is stored although the call
raises. -/
theorem C90_refuted : ¬ C90_Statement := by
  intro h
  have := h RansacSet.init { sampleSize := some 7, minFitError := some (-1) } (by decide +kernel)
  revert this
  decide +kernel

/-- C90, what holds: a rejected call never stores an invalid threshold, keeps `minimum_fit_error` and
changes nothing if only thresholds are given and `minimum_matches` is invalid.  What is missing: the
values stored before the failing check. -/
theorem C90_rejected_partial (s : RansacSet K) (a : RansacArgs K) (h : (s.set a).2 ≠ .ok ()) :
    (s.set a).1.minFitError = s.minFitError ∧
    (¬ MatchesValid a → (s.set a).1.minMatches = s.minMatches ∧ (s.set a).1.minUtil = s.minUtil) ∧
    (¬ MatchesValid a → a.sampleSize = none → a.topN = none → a.linear = none →
      a.filterClose = none → a.tol = none → a.weighted = none → a.houghWeight = none →
      (s.set a).1 = s) := by
  unfold RansacSet.set at h ⊢
  dsimp only at h ⊢
  by_cases hm : MatchesValid a
  · rw [if_pos ((matchesOk_iff a).2 hm)] at h ⊢
    refine ⟨?_, fun hc => absurd hm hc, fun hc => absurd hm hc⟩
    by_cases hu : UtilValid a
    · rw [if_pos ((utilOk_iff a).2 hu)] at h ⊢
      by_cases he : ErrorValid a
      · rw [if_pos ((errorOk_iff a).2 he)] at h
        exact absurd rfl h
      · rw [if_neg (fun h => he ((errorOk_iff a).1 h))]
    · rw [if_neg (fun h => hu ((utilOk_iff a).1 h))]
  · rw [if_neg (fun h => hm ((matchesOk_iff a).1 h))]
    refine ⟨rfl, fun _ => ⟨rfl, rfl⟩, ?_⟩
    intro _ h1 h2 h3 h4 h5 h6 h7
    rw [h1, h2, h3, h4, h5, h6, h7]
    rfl

/-- A case for `C46_invalid_rejected`, a history with a rejected call: the sample size of the rejected call
stays. -/
example : (RansacSet.set ((RansacSet.init : RansacSet ℚ).set
    { sampleSize := some 7, minMatches := some 0 }).1 { minUtil := some (1/2) }).1.sampleSize = 7 := by
  decide +kernel

/-! ### C51 -/

/-- C51.  `set_known_pairs` stores two equally long arrays without nan, or raises and keeps the
previous ones. -/
theorem C51_known_pairs (c : Cal K) (pix wave : List (PyFloat K)) :
    ((c.setKnown pix wave).2 = .ok () ↔ pix.length = wave.length ∧ PyFloat.nan ∉ pix ∧ PyFloat.nan ∉ wave) ∧
    ((c.setKnown pix wave).2 = .ok () → (c.setKnown pix wave).1 = { c with known := some (pix, wave) }) ∧
    ((c.setKnown pix wave).2 ≠ .ok () → (c.setKnown pix wave).1 = c) := by
  have hall : ∀ l : List (PyFloat K), (l.all (fun p => decide (p ≠ PyFloat.nan))) = true ↔ PyFloat.nan ∉ l := by
    intro l
    simp only [List.all_eq_true, decide_eq_true_eq]
    exact ⟨fun h hc => h _ hc rfl, fun h x hx hc => h (hc ▸ hx)⟩
  unfold Cal.setKnown
  simp only [hall]
  split_ifs <;> simp_all

/-- A case for `C51_known_pairs`: two pairs, and arrays of different lengths, which are refused. -/
example (c : Cal ℚ) : ((c.setKnown [.fin 1, .fin 2] [.fin 5, .posInf]).2 = .ok ()) ∧
    (c.setKnown [.fin 1, .fin 2] [.fin 5]).2 ≠ .ok () := by
  constructor
  · exact (C51_known_pairs c _ _).1.2 ⟨rfl, by decide, by decide⟩
  · intro h
    exact absurd ((C51_known_pairs c _ _).1.1 h).1 (by decide)

/-- C51 over histories: the stored pairs are always equally long and free of nan. -/
theorem C51_history (E : CalEnv K) (w : World K) (h : w.cal.known = none) (ops : List (SetOp K))
    (p v : List (PyFloat K)) (hk : (w.steps E ops).cal.known = some (p, v)) :
    p.length = v.length ∧ PyFloat.nan ∉ p ∧ PyFloat.nan ∉ v ∧ SetOp.setKnown p v ∈ ops := by
  have e : (w.steps E ops).cal.known = (ops.foldl (Settings.step E.interp) w.cal.settings).known := by
    rw [← steps_settings E w ops]; rfl
  rw [e] at hk
  clear e
  have h0 : w.cal.settings.known = none := h
  generalize w.cal.settings = s at h0 hk
  induction ops using List.reverseRecOn with
  | nil => rw [List.foldl_nil, h0] at hk; simp at hk
  | append_singleton ops op ih =>
    rw [List.foldl_append, List.foldl_cons, List.foldl_nil] at hk
    generalize List.foldl (Settings.step E.interp) s ops = t at ih hk
    have keep : t.known = some (p, v) → p.length = v.length ∧ PyFloat.nan ∉ p ∧ PyFloat.nan ∉ v ∧
        SetOp.setKnown p v ∈ ops ++ [op] := by
      intro hc
      obtain ⟨a, b, c, d⟩ := ih hc
      exact ⟨a, b, c, by simp [d]⟩
    cases op with
    | setKnown q u =>
      simp only [Settings.step] at hk
      split at hk
      · rename_i hc
        simp only [Option.some.injEq, Prod.mk.injEq] at hk
        obtain ⟨rfl, rfl⟩ := hk
        exact ⟨hc.1, hc.2.1, hc.2.2, by simp⟩
      · exact keep hk
    | setCalibrator => exact keep hk
    | useMatplotlib => exact keep hk
    | usePlotly => exact keep hk
    | setHough => exact keep hk
    | setRansac => exact keep hk
    | setAtlas => exact keep hk
    | addAtlas => exact keep hk
    | addUserAtlas => exact keep hk
    | removeRange => exact keep hk
    | clearAtlas => exact keep hk
    | editAtlas => exact keep hk
    | doHough => exact keep hk
    | loadHough => exact keep hk

/-- A case for `C51_history`: the pairs are replaced, a later invalid call keeps them. -/
example (E : CalEnv ℚ) (w : World ℚ) :
    (w.steps E [.setKnown [.fin 1] [.fin 5], .setKnown [.fin 2] [.fin 6], .setKnown [.nan] [.fin 5]]).cal.known =
      some ([.fin 2], [.fin 6]) := rfl

/-! ### C50 -/

/-- C50, what holds: at most one library is active and `which_plotting_library` names it; after
construction exactly one is. -/
theorem C50_one_library (E : CalEnv K) (w : World K)
    (h : w.cal.props.plotMatplotlib ≠ w.cal.props.plotPlotly) (ops : List (SetOp K)) :
    let c := (w.steps E ops).cal.props
    c.plotMatplotlib ≠ c.plotPlotly ∧
    (c.whichLibrary = some .matplotlib ↔ c.plotMatplotlib = true) ∧
    (c.whichLibrary = some .plotly ↔ c.plotPlotly = true) := by
  intro c
  have e : c = (ops.foldl (Settings.step E.interp) w.cal.settings).props := by
    rw [← steps_settings E w ops]; rfl
  have hinv : c.plotMatplotlib ≠ c.plotPlotly := by
    rw [e]
    clear e c
    have h0 : w.cal.settings.props.plotMatplotlib ≠ w.cal.settings.props.plotPlotly := h
    generalize w.cal.settings = s at h0
    induction ops generalizing s with
    | nil => exact h0
    | cons op ops ih =>
      rw [List.foldl_cons]
      apply ih
      cases op with
      | setCalibrator n p l =>
        simp only [Settings.step]
        unfold CalProps.set CalProps.applyLibrary CalProps.useMatplotlib CalProps.usePlotly
        dsimp only
        split
        · exact h0
        · dsimp only
          split
          · simp
          · simp
          · exact h0
      | useMatplotlib => simp [Settings.step, CalProps.useMatplotlib]
      | usePlotly => simp [Settings.step, CalProps.usePlotly]
      | setKnown q v => simp only [Settings.step]; split <;> exact h0
      | setHough => exact h0
      | setRansac => exact h0
      | setAtlas => exact h0
      | addAtlas => exact h0
      | addUserAtlas => exact h0
      | removeRange => exact h0
      | clearAtlas => exact h0
      | editAtlas => exact h0
      | doHough => exact h0
      | loadHough => exact h0
  refine ⟨hinv, ?_, ?_⟩
  · unfold CalProps.whichLibrary
    cases h1 : c.plotMatplotlib <;> cases h2 : c.plotPlotly <;> simp_all
  · unfold CalProps.whichLibrary
    cases h1 : c.plotMatplotlib <;> cases h2 : c.plotPlotly <;> simp_all

/-- A case for `C50_one_library`: a calibrator with matplotlib that is switched to plotly. -/
example (E : CalEnv ℚ) (w : World ℚ) (h : w.cal.props = ⟨10, [0, 1], .matplotlib, true, false⟩) :
    (w.steps E [.usePlotly]).cal.props.whichLibrary = some .plotly :=
  ((C50_one_library E w (by rw [h]; decide) [.usePlotly]).2.2).2 rfl

/-- The expected behaviour: a library chosen with `use_plotly` stays chosen until another choice is
made. -/
def C50_Statement : Prop :=
  ∀ (c : CalProps ℚ) (n : Option ℚ) (p : Option (List ℚ)),
    ((c.usePlotly.set (fun _ => .ok ()) n p none).1).whichLibrary = some .plotly

/-- C50 is false: after `use_plotly` any later `set_calibrator_properties` call goes back to the
library stored at construction. -/
theorem C50_refuted : ¬ C50_Statement := by
  intro h
  have := h ⟨10, [0, 1], .matplotlib, true, false⟩ (some 20) none
  revert this
  decide +kernel

/-- C50, last choice: after a successful `set_calibrator_properties` the library given, or else the one
last given there, is active; `use_*` calls act immediately.  What is missing: a choice made with
`use_*` is forgotten by the next `set_calibrator_properties` call. -/
theorem C50_choice_partial (interp : List K → PyRes Unit) (c : CalProps K) (n : Option K)
    (p : Option (List K)) (lib : Option PlotLib) (h : (c.set interp n p lib).2 = .ok ()) :
    (c.set interp n p lib).1.plottingLibrary = lib.getD c.plottingLibrary ∧
    (lib.getD c.plottingLibrary = .matplotlib → (c.set interp n p lib).1.whichLibrary = some .matplotlib) ∧
    (lib.getD c.plottingLibrary = .plotly → (c.set interp n p lib).1.whichLibrary = some .plotly) ∧
    (lib.getD c.plottingLibrary = .other → (c.set interp n p lib).1.whichLibrary = c.whichLibrary) ∧
    c.useMatplotlib.whichLibrary = some .matplotlib ∧ c.usePlotly.whichLibrary = some .plotly := by
  unfold CalProps.set at h ⊢
  dsimp only at h ⊢
  have hk : keepOr (some c.plottingLibrary) lib .matplotlib = lib.getD c.plottingLibrary := by
    cases lib <;> rfl
  split at h
  · simp at h
  · rw [hk]
    generalize lib.getD c.plottingLibrary = l
    unfold CalProps.applyLibrary CalProps.whichLibrary CalProps.useMatplotlib CalProps.usePlotly
    cases l <;> simp

example : ((⟨10, [0, 1], .matplotlib, true, false⟩ : CalProps ℚ).set (fun _ => .ok ()) none none
    (some .plotly)).1.whichLibrary = some .plotly := by decide +kernel

end

end Rascal
