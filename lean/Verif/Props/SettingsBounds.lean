import Verif.Props.SettingsProps
import Verif.Props.CandidateProps
import Mathlib.Algebra.Order.Floor.Ring
import Mathlib.Tactic.Linarith
import Mathlib.Tactic.Ring

/-!
Property theorems C47, C48, C49, C53 (on the calibrator), C78 (search space), C80 and C81: pixel range,
Hough bounds and the search space they give.
-/

set_option linter.unusedSectionVars false

namespace Rascal

section
variable {K : Type _} [Field K] [LinearOrder K] [IsStrictOrderedRing K]

/-! ### C47 -/

theorem ptp_spec (l : List K) (r : K) (h : ptp l = .ok r) : Spec.IsExtent l r := by
  cases l with
  | nil => simp [ptp] at h
  | cons a l =>
    simp only [ptp, Except.ok.injEq] at h
    subst h
    refine ⟨⟨listMin a l, listMin_mem a l, listMax a l, listMax_mem a l, rfl⟩, ?_⟩
    intro x hx y hy
    have hmin : listMin a l ≤ x := by
      rcases List.mem_cons.1 hx with rfl | hx
      · exact (listMin_le _ l).1
      · exact (listMin_le a l).2 x hx
    have hmax : y ≤ listMax a l := by
      rcases List.mem_cons.1 hy with rfl | hy
      · exact (le_listMax _ l).1
      · exact (le_listMax a l).2 y hy
    linarith

/-- The intercept bounds belong to the settings. -/
def InterceptsMatch (h : HoughSet K) : Prop :=
  h.minIntercept = h.minW - h.rangeTol ∧ h.maxIntercept = h.minW + h.rangeTol

/-- The slope bounds belong to the settings and to the pixel list. -/
def SlopesMatch (h : HoughSet K) (pixelList : List K) : Prop :=
  ∃ r, Spec.IsExtent pixelList r ∧
    h.minSlope = PyFloat.div (.fin (h.maxW - h.minW - h.rangeTol - 2 * h.linTol)) (.fin r) ∧
    h.maxSlope = PyFloat.div (.fin (h.maxW - h.minW + 3 * h.rangeTol + 2 * h.linTol)) (.fin r)

theorem HoughSet.apply_intercepts (cur : Option (HoughSet K)) (a : HoughArgs K) (p : List K) :
    InterceptsMatch (HoughSet.apply cur a p).1 := by
  unfold HoughSet.apply InterceptsMatch
  dsimp only
  split <;> exact ⟨rfl, rfl⟩

theorem HoughSet.apply_slopes (cur : Option (HoughSet K)) (a : HoughArgs K) (p : List K)
    (h : (HoughSet.apply cur a p).2 = .ok ()) : SlopesMatch (HoughSet.apply cur a p).1 p := by
  unfold HoughSet.apply at h ⊢
  dsimp only at h ⊢
  split at h
  · simp at h
  · rename_i r hr
    refine ⟨r, ptp_spec p r hr, ?_, ?_⟩
    · simp only [HoughSet.setSlopes, HoughSet.setIntercepts]
      congr 2
      ring
    · simp only [HoughSet.setSlopes, HoughSet.setIntercepts]
      congr 2
      ring

/-- C47, intercepts: in every state reached from a new calibrator the intercept bounds are
`min_wavelength` minus and plus `range_tolerance`. -/
theorem C47_intercepts (E : CalEnv K) (w : World K) (p : List K)
    (hh : w.cal.hough = (HoughSet.apply none {} p).1) (ops : List (SetOp K)) :
    let h := (w.steps E ops).cal.hough
    h.minIntercept = h.minW - h.rangeTol ∧ h.maxIntercept = h.minW + h.rangeTol := by
  intro h
  have e1 : h = (ops.foldl (Settings.step E.interp) w.cal.settings).hough := by
    rw [← steps_settings E w ops]; rfl
  rw [e1]
  clear e1 h
  change InterceptsMatch _
  have h0 : InterceptsMatch w.cal.settings.hough := by
    change InterceptsMatch w.cal.hough
    rw [hh]; exact HoughSet.apply_intercepts _ _ _
  generalize w.cal.settings = s at h0
  induction ops generalizing s with
  | nil => exact h0
  | cons op ops ih =>
    rw [List.foldl_cons]
    apply ih
    cases op with
    | setHough a => exact HoughSet.apply_intercepts _ _ _
    | setKnown q v => simp only [Settings.step]; split <;> exact h0
    | setCalibrator => exact h0
    | useMatplotlib => exact h0
    | usePlotly => exact h0
    | setRansac => exact h0
    | setAtlas => exact h0
    | addAtlas => exact h0
    | addUserAtlas => exact h0
    | removeRange => exact h0
    | clearAtlas => exact h0
    | editAtlas => exact h0
    | doHough => exact h0
    | loadHough => exact h0

/-- A case for `C47_intercepts`: the settings of a new calibrator, and a call. -/
example (E : CalEnv ℚ) (w : World ℚ) (h : w.cal.hough = (HoughSet.apply none {} [0, 10]).1) :
    ((w.steps E [.setHough { rangeTol := some 200 }]).cal.hough.minIntercept) =
      (w.steps E [.setHough { rangeTol := some 200 }]).cal.hough.minW -
        (w.steps E [.setHough { rangeTol := some 200 }]).cal.hough.rangeTol :=
  (C47_intercepts E w [0, 10] h _).1

/-- The call may change the pixel list. -/
def SetOp.givesPixels : SetOp K → Prop
  | .setCalibrator _ (some _) _ => True
  | _ => False

/-- C47, slopes: a `set_hough_properties` call on a non-empty pixel list makes the slope bounds those of
the settings and of the pixel range, and they stay so through every history in which the pixel list is
not replaced.  What is missing: a later `pixel_list` leaves the slope bounds as they were. -/
theorem C47_slopes_partial (E : CalEnv K) (w : World K) (a : HoughArgs K)
    (hp : w.cal.props.pixelList ≠ []) (ops : List (SetOp K)) (hops : ∀ op ∈ ops, ¬ op.givesPixels) :
    let c := (w.steps E (.setHough a :: ops)).cal
    SlopesMatch c.hough c.props.pixelList := by
  intro c
  have e : c.settings = (SetOp.setHough a :: ops).foldl (Settings.step E.interp) w.cal.settings :=
    steps_settings E w _
  have e1 : c.hough = ((SetOp.setHough a :: ops).foldl (Settings.step E.interp) w.cal.settings).hough := by
    rw [← e]; rfl
  have e2 : c.props = ((SetOp.setHough a :: ops).foldl (Settings.step E.interp) w.cal.settings).props := by
    rw [← e]; rfl
  rw [e1, e2]
  clear e1 e2 e c
  rw [List.foldl_cons]
  have hp0 : w.cal.settings.props.pixelList ≠ [] := hp
  generalize w.cal.settings = s0 at hp0
  have h0 : SlopesMatch (Settings.step E.interp s0 (.setHough a)).hough
      (Settings.step E.interp s0 (.setHough a)).props.pixelList ∧
      (Settings.step E.interp s0 (.setHough a)).props.pixelList ≠ [] := by
    refine ⟨?_, hp0⟩
    simp only [Settings.step]
    apply HoughSet.apply_slopes
    unfold HoughSet.apply
    dsimp only
    cases hpl : s0.props.pixelList with
    | nil => exact absurd hpl hp0
    | cons x l => simp [ptp]
  generalize Settings.step E.interp s0 (.setHough a) = s at h0
  induction ops generalizing s with
  | nil => exact h0.1
  | cons op ops ih =>
    rw [List.foldl_cons]
    apply ih (fun o ho => hops o (by simp [ho]))
    have hop := hops op (by simp)
    cases op with
    | setHough b =>
      refine ⟨?_, h0.2⟩
      simp only [Settings.step]
      apply HoughSet.apply_slopes
      unfold HoughSet.apply
      dsimp only
      cases hpl : s.props.pixelList with
      | nil => exact absurd hpl h0.2
      | cons x l => simp [ptp]
    | setCalibrator n p l =>
      cases p with
      | some p => exact absurd trivial hop
      | none =>
        have hpl : (Settings.step E.interp s (.setCalibrator n none l)).props.pixelList =
            s.props.pixelList := by
          simp only [Settings.step]
          unfold CalProps.set CalProps.applyLibrary CalProps.useMatplotlib CalProps.usePlotly
          dsimp only
          split
          · rfl
          · dsimp only
            split <;> rfl
        rw [hpl]
        exact h0
    | setKnown q v => simp only [Settings.step]; split <;> exact h0
    | useMatplotlib => exact h0
    | usePlotly => exact h0
    | setRansac => exact h0
    | setAtlas => exact h0
    | addAtlas => exact h0
    | addUserAtlas => exact h0
    | removeRange => exact h0
    | clearAtlas => exact h0
    | editAtlas => exact h0
    | doHough => exact h0
    | loadHough => exact h0

end

/-- A calibrator with peaks 10 and 20 made by the constructor. -/
def twoPeaks : PyRes (Cal ℚ) := Cal.new (fun _ => .ok ()) [10, 20] true none

/-- A case for `C47_slopes_partial`: the range tolerance of a calibrator with 22 pixels is changed. -/
example : twoPeaks.toOption.map (fun c => ((World.setHough ⟨[], c⟩ { rangeTol := some 200 }).1.cal.hough.minSlope,
    (World.setHough ⟨[], c⟩ { rangeTol := some 200 }).1.cal.hough.maxSlope, decide (c.props.pixelList = []))) =
    some (.fin (5600 / 21), .fin (6800 / 21), false) := by decide +kernel

/-- The expected behaviour: after a successful `set_calibrator_properties` the slope bounds belong to
the settings and the pixel list. -/
def C47_Statement : Prop :=
  ∀ c : Cal ℚ, twoPeaks = .ok c → ∀ (n : Option ℚ) (p : Option (List ℚ)) (l : Option PlotLib),
    ((World.setCalibrator (fun _ => .ok ()) ⟨[], c⟩ n p l).2 = .ok ()) →
    SlopesMatch (World.setCalibrator (fun _ => .ok ()) ⟨[], c⟩ n p l).1.cal.hough
      (World.setCalibrator (fun _ => .ok ()) ⟨[], c⟩ n p l).1.cal.props.pixelList

/-- C47 is false for the slopes: giving a pixel list from 0 to 999 leaves the bounds of 22 pixels. -/
theorem C47_refuted : ¬ C47_Statement := by
  intro h
  have hc : (twoPeaks.toOption.map (fun c => (c.hough.minSlope, c.hough.minW, c.hough.maxW,
      c.hough.rangeTol, c.hough.linTol))) = some (.fin (5300 / 21), 3000, 9000, 500, 100) := by
    decide +kernel
  cases ht : twoPeaks with
  | error e => rw [ht] at hc; simp [Except.toOption] at hc
  | ok c =>
    rw [ht] at hc
    simp only [Except.toOption, Option.map_some, Option.some.injEq, Prod.mk.injEq] at hc
    obtain ⟨r, ⟨⟨a, ha, b, hb, hab⟩, hr⟩, h1, _⟩ := h c ht none (some [0, 999]) none rfl
    have hpl : (World.setCalibrator (fun _ => .ok ()) ⟨[], c⟩ none (some [0, 999]) none).1.cal.props.pixelList
        = [0, 999] := by
      simp only [World.setCalibrator, CalProps.set, keepOr, CalProps.applyLibrary,
        CalProps.useMatplotlib, CalProps.usePlotly]
      split <;> rfl
    have hh : (World.setCalibrator (fun _ => .ok ()) ⟨[], c⟩ none (some [0, 999]) none).1.cal.hough
        = c.hough := rfl
    rw [hpl] at ha hb hr
    rw [hh, hc.1, hc.2.1, hc.2.2.1, hc.2.2.2.1, hc.2.2.2.2] at h1
    have h999 : (999 : ℚ) ≤ r := by
      have := hr 0 (by simp) 999 (by simp)
      linarith
    have hle : r ≤ 999 := by
      simp only [List.mem_cons, List.not_mem_nil, or_false] at ha hb
      rcases ha with rfl | rfl <;> rcases hb with rfl | rfl <;> rw [hab] <;> norm_num
    have hr999 : r = 999 := le_antisymm hle h999
    rw [hr999] at h1
    revert h1
    decide +kernel

/-! ### C48 -/

/-- The expected behaviour: after `set_calibrator_properties(num_pix=n)` the pixel list is
`0, ..., n - 1`. -/
def C48_Statement : Prop :=
  ∀ c : Cal ℚ, twoPeaks = .ok c → ∀ n : Nat,
    (World.setCalibrator (fun _ => .ok ()) ⟨[], c⟩ (some (n : ℚ)) none none).1.cal.props.pixelList
      = (List.range n).map (fun i : Nat => (i : ℚ))

/-- C48 is false: the pixel list made by the constructor is kept. -/
theorem C48_refuted : ¬ C48_Statement := by
  intro h
  have hc : (twoPeaks.toOption.map (fun c => c.props.pixelList.length)) = some 22 := by
    decide +kernel
  cases ht : twoPeaks with
  | error e => rw [ht] at hc; simp [Except.toOption] at hc
  | ok c =>
    rw [ht] at hc
    simp only [Except.toOption, Option.map_some, Option.some.injEq] at hc
    have := congrArg List.length (h c ht 1000)
    have hpl : (World.setCalibrator (fun _ => .ok ()) ⟨[], c⟩ (some ((1000 : Nat) : ℚ)) none
        none).1.cal.props.pixelList = c.props.pixelList := by
      simp only [World.setCalibrator, CalProps.set, keepOr, CalProps.applyLibrary,
        CalProps.useMatplotlib, CalProps.usePlotly]
      split <;> rfl
    rw [hpl, hc, List.length_map, List.length_range] at this
    norm_num at this

section
variable {K : Type _} [Field K] [LinearOrder K] [IsStrictOrderedRing K]

/-- C48, what holds: a new calibrator with a spectrum of `n` values works on pixels `0, ..., n - 1`, and
an explicit `pixel_list` is used as given.  What is missing: `num_pix` alone does not change the pixel
list. -/
theorem C48_pixels_partial [FloorRing K] (interp : List K → PyRes Unit) (peaks s : List K) (b : Bool)
    (c : Cal K) (h : Cal.new interp peaks b (some s) = .ok c) :
    c.props.numPix = (s.length : K) ∧
    c.props.pixelList = (List.range s.length).map (fun i : Nat => (i : K)) ∧
    ∀ (n : Option K) (p : List K) (l : Option PlotLib),
      (c.props.set interp n (some p) l).1.pixelList = p ∧
      (c.props.set interp n none l).1.pixelList = c.props.pixelList ∧
      ∀ m, n = some m → (c.props.set interp n (some p) l).1.numPix = m := by
  have hset : ∀ (n : Option K) (p : Option (List K)) (l : Option PlotLib),
      (c.props.set interp n p l).1.pixelList = p.getD c.props.pixelList ∧
      (c.props.set interp n p l).1.numPix = n.getD c.props.numPix := by
    intro n p l
    unfold CalProps.set CalProps.applyLibrary CalProps.useMatplotlib CalProps.usePlotly
    dsimp only
    have k1 : keepOr (some c.props.pixelList) p c.props.pixelList = p.getD c.props.pixelList := by
      cases p <;> rfl
    have k2 : keepOr (some c.props.numPix) n c.props.numPix = n.getD c.props.numPix := by
      cases n <;> rfl
    rw [k1, k2]
    split
    · exact ⟨rfl, rfl⟩
    · dsimp only
      split <;> exact ⟨rfl, rfl⟩
  have harr : arangeTo ((s.length : K)) = (List.range s.length).map (fun i : Nat => (i : K)) := by
    unfold arangeTo
    rw [Int.ceil_natCast, Int.toNat_natCast]
  refine ⟨?_, ?_, fun n p l => ⟨(hset n (some p) l).1, (hset n none l).1, fun m hm => by
    rw [(hset n (some p) l).2, hm]; rfl⟩⟩ <;>
  · unfold Cal.new CalProps.init defaultNumPix at h
    dsimp only at h
    split at h
    · simp at h
    · rename_i p hp
      split at h
      · simp at h
      · simp only [Except.ok.injEq] at h
        subst h
        dsimp only
        split at hp
        · simp at hp
        · simp only [Except.ok.injEq] at hp
          subst hp
          first
          | rfl
          | exact harr

/-- A case for `C48_pixels_partial`: a spectrum of four values. -/
example : (Cal.new (K := ℚ) (fun _ => .ok ()) [2] true (some [5, 6, 9, 5])).toOption.map
    (fun c => (c.props.numPix, c.props.pixelList)) = some (4, [0, 1, 2, 3]) := by decide +kernel

/-! ### C49 -/

/-- The line with slope `b` starts (at pixel `p0`) within the tolerance of `min_wavelength` and ends (at
pixel `p1`) within the tolerance of `max_wavelength`. -/
def EndsWithin (h : HoughSet K) (p0 p1 a b : K) : Prop :=
  |a + b * p0 - h.minW| ≤ h.rangeTol ∧ |a + b * p1 - h.maxW| ≤ h.rangeTol

/-- C49, upper bound: no straight line within tolerance is steeper than `max_slope`. -/
theorem C49_max_slope (cur : Option (HoughSet K)) (args : HoughArgs K) (pix : List K) (p0 p1 : K)
    (h0 : p0 ∈ pix) (h1 : p1 ∈ pix) (hend : ∀ p ∈ pix, p0 ≤ p ∧ p ≤ p1) (hlt : p0 < p1) :
    let h := (HoughSet.apply cur args pix).1
    0 ≤ h.rangeTol → 0 ≤ h.linTol → ∀ a b, EndsWithin h p0 p1 a b →
      ∃ m, h.maxSlope = .fin m ∧ b ≤ m := by
  intro h hrt hlt2 a b ⟨he0, he1⟩
  have hok : (HoughSet.apply cur args pix).2 = .ok () := by
    unfold HoughSet.apply
    dsimp only
    cases pix with
    | nil => simp at h0
    | cons x l => simp [ptp]
  obtain ⟨r, ⟨⟨x, hx, y, hy, hxy⟩, hr⟩, _, hmax⟩ := HoughSet.apply_slopes cur args pix hok
  have hr' : r = p1 - p0 := le_antisymm (by rw [hxy]; linarith [(hend x hx).1, (hend y hy).2])
    (hr p0 h0 p1 h1)
  have hrpos : 0 < r := by rw [hr']; linarith
  refine ⟨(h.maxW - h.minW + 3 * h.rangeTol + 2 * h.linTol) / r, ?_, ?_⟩
  · rw [show h.maxSlope = _ from hmax]
    simp [PyFloat.div, hrpos.ne']
    rfl
  · rw [le_div_iff₀ hrpos, hr']
    rw [abs_le] at he0 he1
    nlinarith [he0.1, he0.2, he1.1, he1.2]

/-- The hypotheses of `C49_max_slope` met, and a line within the tolerance that is steep. -/
example := C49_max_slope (K := ℚ) none { rangeTol := some 200 } [0, 10, 100] 0 100 (by decide) (by decide)
  (by decide) (by decide) (by decide +kernel) (by decide +kernel) 2800 64
  (by constructor <;> decide +kernel)

/-- C49, lower bound: `min_slope` admits every line within tolerance exactly if
`range_tolerance <= 2 * linearity_tolerance`.  What is missing: with the default 500 and 100 it does
not. -/
theorem C49_min_slope_partial (cur : Option (HoughSet K)) (args : HoughArgs K) (pix : List K) (p0 p1 : K)
    (h0 : p0 ∈ pix) (h1 : p1 ∈ pix) (hend : ∀ p ∈ pix, p0 ≤ p ∧ p ≤ p1) (hlt : p0 < p1) :
    let h := (HoughSet.apply cur args pix).1
    0 ≤ h.rangeTol → ∃ m, h.minSlope = .fin m ∧
      ((∀ a b, EndsWithin h p0 p1 a b → m ≤ b) ↔ h.rangeTol ≤ 2 * h.linTol) := by
  intro h hrt
  have hok : (HoughSet.apply cur args pix).2 = .ok () := by
    unfold HoughSet.apply
    dsimp only
    cases pix with
    | nil => simp at h0
    | cons x l => simp [ptp]
  obtain ⟨r, ⟨⟨x, hx, y, hy, hxy⟩, hr⟩, hmin, _⟩ := HoughSet.apply_slopes cur args pix hok
  have hr' : r = p1 - p0 := le_antisymm (by rw [hxy]; linarith [(hend x hx).1, (hend y hy).2])
    (hr p0 h0 p1 h1)
  have hrpos : 0 < r := by rw [hr']; linarith
  refine ⟨(h.maxW - h.minW - h.rangeTol - 2 * h.linTol) / r, ?_, ?_, ?_⟩
  · rw [show h.minSlope = _ from hmin]
    simp [PyFloat.div, hrpos.ne']
    rfl
  · intro hall
    -- the line from the highest start to the lowest end
    have := hall (h.minW + h.rangeTol - (h.maxW - h.minW - 2 * h.rangeTol) / r * p0)
      ((h.maxW - h.minW - 2 * h.rangeTol) / r) (by
        constructor
        · rw [show h.minW + h.rangeTol - (h.maxW - h.minW - 2 * h.rangeTol) / r * p0 +
            (h.maxW - h.minW - 2 * h.rangeTol) / r * p0 - h.minW = h.rangeTol by ring]
          exact (abs_of_nonneg hrt).le
        · rw [show h.minW + h.rangeTol - (h.maxW - h.minW - 2 * h.rangeTol) / r * p0 +
            (h.maxW - h.minW - 2 * h.rangeTol) / r * p1 - h.maxW = - h.rangeTol by
              have : (h.maxW - h.minW - 2 * h.rangeTol) / r * (p1 - p0)
                  = h.maxW - h.minW - 2 * h.rangeTol := by
                rw [← hr']; exact div_mul_cancel₀ _ hrpos.ne'
              linear_combination this]
          rw [abs_neg]
          exact (abs_of_nonneg hrt).le)
    rw [div_le_div_iff_of_pos_right hrpos] at this
    linarith
  · intro hle a b ⟨he0, he1⟩
    rw [div_le_iff₀ hrpos, hr']
    rw [abs_le] at he0 he1
    nlinarith [he0.1, he0.2, he1.1, he1.2]

/-- The hypotheses of `C49_min_slope_partial` met by default settings, where the criterion fails. -/
example := C49_min_slope_partial (K := ℚ) none {} [0, 10, 100] 0 100 (by decide) (by decide)
  (by decide) (by decide) (by decide +kernel)

/-! ### C53 on the calibrator -/

/-- C53 on the calibrator: after a successful `set_atlas` with the polygon constraint the search space
consists exactly of the combinations inside the quadrilateral given by the settings; without it, of all
combinations. -/
theorem C53_calibrator (w : World K) (i : Nat) (t : K) (b : Bool) (at_ : Atlas K)
    (hat : w.atlases[i]? = some at_) (h : (w.setAtlas i t b).2 = .ok ())
    (hp : w.cal.peaks ≠ []) (hl : at_.getLines ≠ [])
    (hint : InterceptsMatch w.cal.hough) :
    ∃ l, (w.setAtlas i t b).1.cal.pairs = some (.array l) ∧
      (b = false → ∀ p v, l.count (p, v) = w.cal.peaks.count p * at_.getLines.count v) ∧
      (b = true → ∃ P ∈ w.cal.props.pixelList, (∀ q ∈ w.cal.props.pixelList, q ≤ P) ∧ ∀ p v,
        let hs := w.cal.hough
        let ins := Spec.InHull (0, hs.minW + hs.rangeTol + t) (0, hs.minW - hs.rangeTol - t)
          (P, hs.maxW - hs.rangeTol - t) (P, hs.maxW + hs.rangeTol + t) (p, v)
        (ins → l.count (p, v) = w.cal.peaks.count p * at_.getLines.count v) ∧ (¬ ins → (p, v) ∉ l)) := by
  have hne : allPairs w.cal.peaks at_.getLines ≠ [] := by
    cases hpk : w.cal.peaks with
    | nil => exact absurd hpk hp
    | cons a tl =>
      cases hln : at_.getLines with
      | nil => exact absurd hln hl
      | cons b l => simp [allPairs]
  unfold World.setAtlas World.generatePairs World.atlasLines at h ⊢
  simp only [hat] at h ⊢
  unfold Cal.generatePairs at h ⊢
  cases b with
  | false =>
    simp only [Bool.false_eq_true, if_false, if_neg hne] at h ⊢
    exact ⟨_, rfl, fun _ => count_allPairs _ _, fun hc => absurd hc (by simp)⟩
  | true =>
    simp only [if_true] at h ⊢
    cases hpl : w.cal.props.pixelList with
    | nil => rw [hpl] at h; simp at h
    | cons a pl =>
      rw [hpl] at h
      simp only at h ⊢
      cases hg : Rascal.generatePairs w.cal.peaks at_.getLines
          (some (Cal.polygon { w.cal with atlas := some i, candTol := some t, constrainPoly := true } t
            (listMax a pl))) with
      | error e => rw [hg] at h; simp at h
      | ok r =>
        refine ⟨r, rfl, fun hc => absurd hc (by simp), fun _ => ⟨listMax a pl, listMax_mem a pl, ?_, ?_⟩⟩
        · intro q hq
          rcases List.mem_cons.1 hq with rfl | hq
          · exact (le_listMax _ _).1
          · exact (le_listMax _ _).2 q hq
        · intro p v
          have hflat : (Cal.polygon { w.cal with atlas := some i, candTol := some t, constrainPoly := true } t
            (listMax a pl)).flat = false := by
            by_contra hc
            rw [Bool.not_eq_false] at hc
            simp only [Rascal.generatePairs, hc, if_true] at hg
            simp at hg
          have hP : listMax a pl ≠ 0 := by
            intro hc
            simp [Polygon.flat, Cal.polygon, hc] at hflat
          simp only [Rascal.generatePairs, hflat, Bool.false_eq_true, if_false, if_neg hne,
            Except.ok.injEq] at hg
          subst hg
          have hull := inside_iff_hull
            (Cal.polygon { w.cal with atlas := some i, candTol := some t, constrainPoly := true } t
              (listMax a pl)) hP (p, v)
          simp only [Cal.polygon] at hull
          rw [hint.1, hint.2] at hull
          rw [boolMask_map_pred]
          constructor
          · intro hin
            have := hull.2 hin
            rw [List.count_filter (by simpa [Cal.polygon, hint.1, hint.2] using this), count_allPairs]
          · intro hnin hmem
            have := (List.mem_filter.1 hmem).2
            exact hnin (hull.1 (by simpa [Cal.polygon, hint.1, hint.2] using this))

/-! ### C80 -/

theorem lt_searchLeft (l : List K) (hs : l.Pairwise (· < ·)) (v : K) (j : Nat) (hj : j < l.length) :
    l[j] < v ↔ j < searchLeft l v := by
  unfold searchLeft
  induction l generalizing j with
  | nil => simp at hj
  | cons e t ih =>
    rw [List.pairwise_cons] at hs
    by_cases he : e < v
    · rw [List.filter_cons_of_pos (by simpa using he)]
      cases j with
      | zero => simpa using he
      | succ j => simpa using ih hs.2 j (by simpa using hj)
    · rw [List.filter_cons_of_neg (by simpa using he)]
      have hnil : t.filter (fun e => decide (e < v)) = [] := by
        rw [List.filter_eq_nil_iff]
        intro x hx
        have := hs.1 x hx
        simp only [decide_eq_true_eq, not_lt]
        exact (not_lt.1 he).trans this.le
      rw [hnil]
      simp only [List.length_nil, Nat.not_lt_zero, iff_false, not_lt]
      cases j with
      | zero => simpa using he
      | succ j =>
        have := hs.1 (t[j]'(by simpa using hj)) (List.getElem_mem _)
        exact (not_lt.1 he).trans (by simpa using this.le)

/-- The segment used for `v`. -/
theorem rawPixel_segment (l : List K) (hs : l.Pairwise (· < ·)) (hn : 2 ≤ l.length) (v : K) :
    ∃ lo : Nat, ∃ h : lo + 1 < l.length,
      rawPixel l v = (v - l[lo]) / (l[lo + 1] - l[lo]) + (lo : K) ∧ l[lo] < l[lo + 1] ∧
      (lo ≠ 0 → l[lo] < v) ∧ (lo + 2 < l.length → v ≤ l[lo + 1]) := by
  have key := lt_searchLeft l hs v
  set k := searchLeft l v with hk
  refine ⟨min (max k 1) (l.length - 1) - 1, by omega, ?_, ?_, ?_, ?_⟩
  · unfold rawPixel
    dsimp only
    rw [← hk]
    have e1 : min (max k 1) (l.length - 1) - 1 + 1 = min (max k 1) (l.length - 1) := by omega
    have e2 : ((min (max k 1) (l.length - 1) : Nat) : K) -
        ((min (max k 1) (l.length - 1) - 1 : Nat) : K) = 1 := by
      conv_lhs => rw [← e1]
      push_cast
      simp
    rw [e2]
    rw [List.getD_eq_getElem?_getD, List.getD_eq_getElem?_getD, List.getElem?_eq_getElem (by omega),
      List.getElem?_eq_getElem (by omega), Option.getD_some, Option.getD_some]
    simp only [e1]
    ring
  · rw [List.pairwise_iff_getElem] at hs
    exact hs _ _ _ _ (by omega)
  · intro h0
    exact (key _ (by omega)).2 (by omega)
  · intro h2
    rw [← not_lt, key _ (by omega)]
    omega

/-- C80.  For an increasing pixel list the raw pixel lookup maps the `i`-th pixel to `i` and is strictly
increasing everywhere, also outside the list. -/
theorem C80_raw_pixel (l : List K) (hs : l.Pairwise (· < ·)) (hn : 2 ≤ l.length) :
    (∀ (i : Nat) (h : i < l.length), rawPixel l l[i] = (i : K)) ∧
    ∀ v w, v < w → rawPixel l v < rawPixel l w := by
  have hmono := List.pairwise_iff_getElem.1 hs
  constructor
  · intro i hi
    obtain ⟨lo, h, e, hlt, ha, hb⟩ := rawPixel_segment l hs hn l[i]
    have hd : l[lo + 1] - l[lo] ≠ 0 := by
      have : 0 < l[lo + 1] - l[lo] := by linarith
      exact this.ne'
    have h1 : lo ≤ i := by
      by_contra hc
      by_cases h0 : lo = 0
      · omega
      · have := ha h0
        have h3 := hmono i lo hi (by omega) (by omega)
        exact absurd this (not_lt.2 h3.le)
    have h2 : i ≤ lo + 1 := by
      by_contra hc
      have := hb (by omega)
      exact absurd (hmono (lo + 1) i (by omega) hi (by omega)) (not_lt.2 this)
    rcases (by omega : i = lo ∨ i = lo + 1) with rfl | rfl
    · rw [e]; simp
    · rw [e, div_self hd]; push_cast; ring
  · intro v w hvw
    obtain ⟨lo, h, e, hlt, ha, hb⟩ := rawPixel_segment l hs hn v
    obtain ⟨lo', h', e', hlt', ha', hb'⟩ := rawPixel_segment l hs hn w
    rw [e, e']
    have hd : 0 < l[lo + 1] - l[lo] := by linarith
    have hd' : 0 < l[lo' + 1] - l[lo'] := by linarith
    rcases lt_trichotomy lo lo' with hc | hc | hc
    · have hv := hb (by omega)
      have hw := ha' (by omega)
      have h1 : (v - l[lo]) / (l[lo + 1] - l[lo]) ≤ 1 := by
        rw [div_le_one hd]; linarith
      have h2 : 0 < (w - l[lo']) / (l[lo' + 1] - l[lo']) := div_pos (by linarith) hd'
      have h3 : (lo : K) + 1 ≤ (lo' : K) := by exact_mod_cast hc
      linarith
    · subst hc
      have : (v - l[lo]) / (l[lo + 1] - l[lo]) < (w - l[lo]) / (l[lo + 1] - l[lo]) := by
        rw [div_lt_div_iff_of_pos_right hd]; linarith
      linarith
    · exfalso
      have hw := hb' (by omega)
      have hv := ha (by omega)
      rcases (by omega : lo' + 1 = lo ∨ lo' + 1 < lo) with hq | hq
      · have : l[lo' + 1] = l[lo] := by simp only [hq]
        linarith
      · have := hmono (lo' + 1) lo (by omega) (by omega) hq
        linarith

/-! ### C81 -/

/-- C81.  With neither `num_pix` nor a spectrum the pixel list of a new calibrator is `0, 1, ...` and
reaches the largest peak, if that is at least 10. -/
theorem C81_covers_peaks [FloorRing K] (interp : List K → PyRes Unit) (peaks : List K) (b : Bool)
    (c : Cal K) (h : Cal.new interp peaks b none = .ok c) (h10 : ∃ p ∈ peaks, 10 ≤ p) :
    (0 : K) ∈ c.props.pixelList ∧ ∀ p ∈ peaks, ∃ q ∈ c.props.pixelList, p ≤ q := by
  obtain ⟨p10, hp10, h10⟩ := h10
  cases peaks with
  | nil => simp at hp10
  | cons a l =>
    have hle : ∀ p ∈ a :: l, p ≤ listMax a l := by
      intro p hp
      rcases List.mem_cons.1 hp with rfl | hp
      · exact (le_listMax _ l).1
      · exact (le_listMax a l).2 p hp
    have hm : 10 ≤ listMax a l := h10.trans (hle p10 hp10)
    have hpl : c.props.pixelList = arangeTo (11 / 10 * listMax a l) := by
      unfold Cal.new CalProps.init defaultNumPix at h
      dsimp only at h
      split at h
      · simp at h
      · rename_i p hp
        split at h
        · simp at h
        · simp only [Except.ok.injEq] at h
          subst h
          dsimp only
          split at hp
          · simp at hp
          · simp only [Except.ok.injEq] at hp
            subst hp
            rfl
    rw [hpl]
    unfold arangeTo
    set n := ⌈(11 / 10 * listMax a l : K)⌉ with hn
    have h1 : 11 / 10 * listMax a l ≤ (n : K) := Int.le_ceil _
    have hn1 : (11 : K) ≤ (n : K) := by linarith
    have hn2 : (11 : Int) ≤ n := by exact_mod_cast hn1
    refine ⟨List.mem_map.2 ⟨0, List.mem_range.2 (by omega), by simp⟩, fun p hp => ?_⟩
    refine ⟨((n.toNat - 1 : Nat) : K), List.mem_map.2 ⟨n.toNat - 1, List.mem_range.2 (by omega), rfl⟩, ?_⟩
    have h3 : ((n.toNat - 1 : Nat) : K) = (n : K) - 1 := by
      have : ((n.toNat - 1 : Nat) : Int) = n - 1 := by omega
      have h4 : (((n.toNat - 1 : Nat) : Int) : K) = ((n - 1 : Int) : K) := by rw [this]
      simpa using h4
    rw [h3]
    have := hle p hp
    linarith

/-- The hypotheses of `C81_covers_peaks` met by two peaks. -/
example (c : Cal ℚ) (h : twoPeaks = .ok c) := C81_covers_peaks _ _ _ c h ⟨10, by decide, by decide⟩

end

/-! ### C78, search space -/

section
variable {K : Type _} [Field K] [LinearOrder K] [IsStrictOrderedRing K]

/-- The stored search space, as a list. -/
def Cal.pairList (c : Cal K) : List (K × K) :=
  match c.pairs with
  | some (.array l) => l
  | _ => []

/-- Every combination in the search space consists of a peak and a line of the current atlas. -/
def SearchSpaceCurrent (w : World K) : Prop :=
  ∀ e ∈ w.cal.pairList, e.1 ∈ w.cal.peaks ∧ ∃ lines, w.atlasLines = .ok lines ∧ e.2 ∈ lines

theorem mem_allPairs (p l : List K) (e : K × K) : e ∈ allPairs p l ↔ e.1 ∈ p ∧ e.2 ∈ l := by
  have := count_allPairs p l e.1 e.2
  rw [← List.count_pos_iff, ← List.count_pos_iff, ← List.count_pos_iff (a := e.2)]
  have he : (e.1, e.2) = e := rfl
  rw [he] at this
  rw [this]
  exact ⟨fun h => ⟨Nat.pos_of_mul_pos_right h, Nat.pos_of_mul_pos_left h⟩, fun h => Nat.mul_pos h.1 h.2⟩

theorem generatePairs_current (w : World K) (h : w.generatePairs.2 = .ok ()) :
    SearchSpaceCurrent w.generatePairs.1 := by
  unfold World.generatePairs at h ⊢
  cases hl : w.atlasLines with
  | error e => rw [hl] at h; simp at h
  | ok lines =>
    rw [hl] at h
    simp only at h ⊢
    have hfr := Cal.generatePairs_frame w.cal lines
    intro e he
    have hpk : (w.cal.generatePairs lines).1.peaks = w.cal.peaks := by
      unfold Cal.generatePairs; split
      · split
        · split <;> rfl
        · rfl
        · rfl
      · rfl
    have hat : (w.cal.generatePairs lines).1.atlas = w.cal.atlas := by
      unfold Cal.generatePairs; split
      · split
        · split <;> rfl
        · rfl
        · rfl
      · rfl
    have hlines : World.atlasLines { w with cal := (w.cal.generatePairs lines).1 } = .ok lines := by
      unfold World.atlasLines
      dsimp only
      rw [hat]
      exact hl
    suffices hh : e.1 ∈ w.cal.peaks ∧ e.2 ∈ lines by
      refine ⟨by rw [show ({ w with cal := (w.cal.generatePairs lines).1 } : World K).cal.peaks
        = w.cal.peaks from hpk]; exact hh.1, lines, hlines, hh.2⟩
    rw [← mem_allPairs]
    dsimp only at he
    unfold Cal.generatePairs at h he
    split at he
    · rename_i hc
      rw [if_pos hc] at h
      split at he
      · rename_i t a l ht hpl
        rw [ht, hpl] at h
        simp only at h
        cases hg : Rascal.generatePairs w.cal.peaks lines (some (w.cal.polygon t (listMax a l))) with
        | error e => rw [hg] at h; simp at h
        | ok r =>
          rw [hg] at he
          simp only [Cal.pairList] at he
          unfold Rascal.generatePairs at hg
          dsimp only at hg
          split at hg
          · simp at hg
          · split at hg
            · simp at hg
            · simp only [Except.ok.injEq] at hg
              subst hg
              exact (boolMask_sublist _ _).subset he
      · rename_i ht
        rw [ht] at h
        simp at h
      · rename_i hpl hx
        simp_all
    · simp only [Cal.pairList] at he
      by_cases hn : allPairs w.cal.peaks lines = []
      · simp [hn] at he
      · simpa [hn] using he

/-- C78, what holds for the search space: after a successful `set_atlas`, or `set_hough_properties` with
an atlas present, whatever was removed before, it uses only lines of the current atlas.  What is
missing: `remove_atlas_lines_range`, `clear_atlas` and direct changes of the atlas do not update it. -/
theorem C78_regenerated_partial (w : World K) :
    (∀ i t b, (w.setAtlas i t b).2 = .ok () → SearchSpaceCurrent (w.setAtlas i t b).1) ∧
    (∀ a, w.cal.atlas ≠ none → (w.setHough a).2 = .ok () → SearchSpaceCurrent (w.setHough a).1) := by
  constructor
  · intro i t b h
    exact generatePairs_current _ h
  · intro a hat h
    unfold World.setHough at h ⊢
    dsimp only at h ⊢
    cases hr : (HoughSet.apply (some w.cal.hough) a w.cal.props.pixelList).2 with
    | error e => rw [hr] at h; simp at h
    | ok u =>
      rw [hr] at h
      simp only at h ⊢
      cases ha : w.cal.atlas with
      | none => exact absurd ha hat
      | some i =>
        rw [ha] at h
        simp only at h ⊢
        exact generatePairs_current _ h

end

/-- An atlas with two lines. -/
def twoLines : Atlas ℚ :=
  ⟨[⟨500, "Xe", 1, none⟩, ⟨600, "Xe", 1, none⟩], none, none, 0⟩

/-- The expected behaviour, for the search space: it never contains a line that is not in the atlas any
more. -/
def C78_Statement : Prop :=
  ∀ c : Cal ℚ, twoPeaks = .ok c → ∀ (E : CalEnv ℚ) (ops : List (SetOp ℚ)),
    SearchSpaceCurrent (World.steps E ⟨[twoLines], c⟩ ops)

/-- C78 is false: after `clear_atlas` all pairs are still there. -/
theorem C78_refuted : ¬ C78_Statement := by
  intro h
  let E : CalEnv ℚ := ⟨fun _ => .ok (), fun _ => [], fun _ => [], ⟨fun _ => [], [], fun _ => none⟩, twoLines⟩
  have hc : (twoPeaks.toOption.map (fun c =>
      ((World.steps E ⟨[twoLines], c⟩ [.setAtlas 0 10 false, .clearAtlas]).cal.pairList,
        (World.steps E ⟨[twoLines], c⟩ [.setAtlas 0 10 false, .clearAtlas]).atlasLines.toOption))) =
      some ([(10, 500), (10, 600), (20, 500), (20, 600)], some []) := by
    decide +kernel
  cases ht : twoPeaks with
  | error e => rw [ht] at hc; simp [Except.toOption] at hc
  | ok c =>
    rw [ht] at hc
    simp only [Except.toOption, Option.map_some, Option.some.injEq, Prod.mk.injEq] at hc
    have := h c ht E [.setAtlas 0 10 false, .clearAtlas] (10, 500) (by rw [hc.1]; simp)
    obtain ⟨_, lines, hl, hm⟩ := this
    rw [hl] at hc
    simp at hc
    rw [hc.2] at hm
    simp at hm

/-! ### C49, default settings -/

/-- The expected behaviour: every straight line within tolerance has a slope in the allowed range. -/
def C49_Statement : Prop :=
  ∀ a b : ℚ, EndsWithin (HoughSet.apply (K := ℚ) none {} [0, 1000]).1 0 1000 a b →
    (PyFloat.fin b).lt (HoughSet.apply (K := ℚ) none {} [0, 1000]).1.minSlope = false

/-- C49 is false with the default settings: the line from 3500 to 8500 is too flat. -/
theorem C49_refuted : ¬ C49_Statement := by
  intro h
  have := h 3500 5 (by
    unfold EndsWithin
    rw [show (HoughSet.apply (K := ℚ) none {} [0, 1000]).1.minW = 3000 from rfl,
      show (HoughSet.apply (K := ℚ) none {} [0, 1000]).1.maxW = 9000 from rfl,
      show (HoughSet.apply (K := ℚ) none {} [0, 1000]).1.rangeTol = 500 from rfl]
    norm_num)
  revert this
  decide +kernel

/-- A case for `C53_calibrator` and `C78_regenerated_partial`: the two pairs of 10 and 20 with two lines, and the
one constrained pair. -/
example : twoPeaks.toOption.map (fun c =>
    ((World.setAtlas ⟨[⟨[⟨5900, "Xe", 1, none⟩, ⟨20000, "Xe", 1, none⟩], none, none, 0⟩], c⟩ 0 10 false).1.cal.pairList,
     (World.setAtlas ⟨[⟨[⟨5900, "Xe", 1, none⟩, ⟨20000, "Xe", 1, none⟩], none, none, 0⟩], c⟩ 0 10 true).1.cal.pairList)) =
    some ([(10, 5900), (10, 20000), (20, 5900), (20, 20000)], [(10, 5900)]) := by decide +kernel

/-- Below 10 the range may stop short: for a single peak at 5.2 the last pixel is 5. -/
example : (Cal.new (K := ℚ) (fun _ => .ok ()) [26/5] true none).toOption.map
    (fun c => c.props.pixelList) = some [0, 1, 2, 3, 4, 5] := by decide +kernel

/-- The settings of the refutations: 22 pixels for peaks 10 and 20. -/
example : twoPeaks.toOption.map (fun c => (c.props.pixelList.length, c.hough.minSlope)) =
    some (22, .fin (5300 / 21)) := by decide +kernel

/-- A reachable state for the slope theorems: range tolerance 200 and linearity tolerance 100 admit
every line. -/
example : ((HoughSet.apply (K := ℚ) none { rangeTol := some 200 } [0, 10, 100]).1.minSlope,
    (HoughSet.apply (K := ℚ) none { rangeTol := some 200 } [0, 10, 100]).1.maxSlope) =
    (.fin 56, .fin 68) := by decide +kernel

/-- A reachable state for C80. -/
example : rawPixel (K := ℚ) [3, 5, 9] 7 = 3 / 2 ∧ rawPixel (K := ℚ) [3, 5, 9] 13 = 3 := by
  decide +kernel

end Rascal
