import Verif.Model.CalState
import Verif.Spec.Settings

/-!
Frame lemmas for the calibrator operations.
-/

set_option linter.unusedSectionVars false

namespace Rascal

variable {K : Type _} [Field K] [LinearOrder K]

theorem Cal.generatePairs_frame (c : Cal K) (lines : List K) :
    ∃ p, (c.generatePairs lines).1 = { c with pairs := p } := by
  unfold Cal.generatePairs
  split
  · split
    · split
      · exact ⟨c.pairs, rfl⟩
      · exact ⟨_, rfl⟩
    · exact ⟨c.pairs, rfl⟩
    · exact ⟨c.pairs, rfl⟩
  · exact ⟨_, rfl⟩

theorem World.generatePairs_frame (w : World K) :
    ∃ p, w.generatePairs.1 = { w with cal := { w.cal with pairs := p } } := by
  unfold World.generatePairs
  split
  · exact ⟨w.cal.pairs, rfl⟩
  · rename_i lines _
    obtain ⟨p, hp⟩ := w.cal.generatePairs_frame lines
    exact ⟨p, by dsimp only; rw [hp]⟩

/-- What setting an atlas may change. -/
theorem World.setAtlas_frame (w : World K) (i : Nat) (t : K) (b : Bool) :
    ∃ p, (w.setAtlas i t b).1 =
      { w with cal := { w.cal with atlas := some i, candTol := some t, constrainPoly := b, pairs := p } } := by
  unfold World.setAtlas
  obtain ⟨p, hp⟩ := World.generatePairs_frame
    { w with cal := { w.cal with atlas := some i, candTol := some t, constrainPoly := b } }
  exact ⟨p, hp⟩

theorem World.addAtlas_frame (env : Env K) (w : World K) (a : AddArgs K) (t : K) (b : Bool) :
    ∃ at_ r ct cp p, (w.addAtlas env a t b).1 =
      { atlases := at_, cal := { w.cal with atlas := r, candTol := ct, constrainPoly := cp, pairs := p } } := by
  unfold World.addAtlas
  split
  · split
    · exact ⟨w.atlases, w.cal.atlas, w.cal.candTol, w.cal.constrainPoly, w.cal.pairs, rfl⟩
    · obtain ⟨p, hp⟩ := World.setAtlas_frame { w with atlases := w.atlases ++ [_] } w.atlases.length t b
      exact ⟨_, _, _, _, _, hp⟩
  · rename_i i _
    split
    · exact ⟨w.atlases, w.cal.atlas, w.cal.candTol, w.cal.constrainPoly, w.cal.pairs, rfl⟩
    · dsimp only
      split
      · exact ⟨_, w.cal.atlas, w.cal.candTol, w.cal.constrainPoly, w.cal.pairs, rfl⟩
      · obtain ⟨p, hp⟩ := World.setAtlas_frame (w.modifyAtlas i _) i t b
        exact ⟨_, _, _, _, _, hp⟩

theorem World.addUserAtlas_frame (empty : Atlas K) (add : Atlas K → Atlas K × PyRes Unit) (w : World K)
    (t : K) (b : Bool) :
    ∃ at_ r ct cp p, (w.addUserAtlas empty add t b).1 =
      { atlases := at_, cal := { w.cal with atlas := r, candTol := ct, constrainPoly := cp, pairs := p } } := by
  unfold World.addUserAtlas
  have h0 : ∃ at_ r, w.ensureAtlas empty = { atlases := at_, cal := { w.cal with atlas := r } } := by
    unfold World.ensureAtlas
    split
    · exact ⟨_, _, rfl⟩
    · exact ⟨w.atlases, w.cal.atlas, rfl⟩
  obtain ⟨at0, r0, h0⟩ := h0
  rw [h0]
  dsimp only
  cases r0 with
  | none => exact ⟨_, _, w.cal.candTol, w.cal.constrainPoly, w.cal.pairs, rfl⟩
  | some i =>
    dsimp only
    split
    · exact ⟨_, _, w.cal.candTol, w.cal.constrainPoly, w.cal.pairs, rfl⟩
    · split
      · exact ⟨_, _, w.cal.candTol, w.cal.constrainPoly, w.cal.pairs, rfl⟩
      · obtain ⟨p, hp⟩ := World.setAtlas_frame (World.modifyAtlas
          { atlases := at0, cal := { w.cal with atlas := some i } } i _) i t b
        exact ⟨_, _, _, _, _, hp⟩

theorem Cal.doHough_frame (a1 : List K → List Nat) (a2 : List Nat → List Nat) (c : Cal K) (b : Bool) :
    ∃ h l p, (c.doHough a1 a2 b).1 = { c with ht := h, houghLines := l, houghPoints := p } := by
  unfold Cal.doHough
  split
  · exact ⟨c.ht, c.houghLines, c.houghPoints, rfl⟩
  · dsimp only
    split
    · exact ⟨_, c.houghLines, c.houghPoints, rfl⟩
    · split
      · exact ⟨_, c.houghLines, c.houghPoints, rfl⟩
      · split
        · exact ⟨_, c.houghLines, c.houghPoints, rfl⟩
        · split
          · exact ⟨_, c.houghLines, c.houghPoints, rfl⟩
          · exact ⟨_, _, _, rfl⟩

theorem Cal.setKnown_frame (c : Cal K) (p v : List (PyFloat K)) :
    ∃ k, (c.setKnown p v).1 = { c with known := k } := by
  unfold Cal.setKnown
  split
  · split
    · split
      · exact ⟨_, rfl⟩
      · exact ⟨c.known, rfl⟩
    · exact ⟨c.known, rfl⟩
  · exact ⟨c.known, rfl⟩

/-- The settings read by a call history; other attributes do not matter for it. -/
structure Settings (K : Type _) where
  props : CalProps K
  hough : HoughSet K
  ransac : RansacSet K
  known : Option (List (PyFloat K) × List (PyFloat K))

/-- The settings of a calibrator. -/
def Cal.settings (c : Cal K) : Settings K := ⟨c.props, c.hough, c.ransac, c.known⟩

/-- The settings after one call. -/
def Settings.step (interp : List K → PyRes Unit) (s : Settings K) : SetOp K → Settings K
  | .setCalibrator n p l => { s with props := (s.props.set interp n p l).1 }
  | .useMatplotlib => { s with props := s.props.useMatplotlib }
  | .usePlotly => { s with props := s.props.usePlotly }
  | .setHough a => { s with hough := (HoughSet.apply (some s.hough) a s.props.pixelList).1 }
  | .setRansac a => { s with ransac := (s.ransac.set a).1 }
  | .setKnown p v =>
    if p.length = v.length ∧ PyFloat.nan ∉ p ∧ PyFloat.nan ∉ v then { s with known := some (p, v) } else s
  | _ => s

theorem step_settings (E : CalEnv K) (w : World K) (op : SetOp K) :
    (w.step E op).1.cal.settings = w.cal.settings.step E.interp op ∧
    (w.step E op).1.cal.peaks = w.cal.peaks ∧
    (w.step E op).1.cal.peaksAreArray = w.cal.peaksAreArray ∧
    (w.step E op).1.cal.matchedPeaks = w.cal.matchedPeaks ∧
    (w.step E op).1.cal.matchedAtlas = w.cal.matchedAtlas ∧
    (w.step E op).1.cal.fitCoeff = w.cal.fitCoeff := by
  cases op with
  | setCalibrator n p l => exact ⟨rfl, rfl, rfl, rfl, rfl, rfl⟩
  | useMatplotlib => exact ⟨rfl, rfl, rfl, rfl, rfl, rfl⟩
  | usePlotly => exact ⟨rfl, rfl, rfl, rfl, rfl, rfl⟩
  | setHough a =>
    unfold World.step World.setHough
    dsimp only
    split
    · exact ⟨rfl, rfl, rfl, rfl, rfl, rfl⟩
    · split
      · exact ⟨rfl, rfl, rfl, rfl, rfl, rfl⟩
      · obtain ⟨p, hp⟩ := World.generatePairs_frame
          { w with cal := { w.cal with hough := (HoughSet.apply (some w.cal.hough) a w.cal.props.pixelList).1 } }
        rw [hp]
        exact ⟨rfl, rfl, rfl, rfl, rfl, rfl⟩
  | setRansac a => exact ⟨rfl, rfl, rfl, rfl, rfl, rfl⟩
  | setAtlas i t b =>
    obtain ⟨p, hp⟩ := w.setAtlas_frame i t b
    unfold World.step
    rw [hp]
    exact ⟨rfl, rfl, rfl, rfl, rfl, rfl⟩
  | addAtlas a t b =>
    obtain ⟨_, _, _, _, _, hp⟩ := w.addAtlas_frame E.env a t b
    unfold World.step
    rw [hp]
    exact ⟨rfl, rfl, rfl, rfl, rfl, rfl⟩
  | addUserAtlas f t b =>
    obtain ⟨_, _, _, _, _, hp⟩ := w.addUserAtlas_frame E.emptyAtlas f t b
    unfold World.step
    rw [hp]
    exact ⟨rfl, rfl, rfl, rfl, rfl, rfl⟩
  | removeRange v t =>
    simp only [World.step]
    unfold World.removeRange
    split <;> exact ⟨rfl, rfl, rfl, rfl, rfl, rfl⟩
  | clearAtlas =>
    simp only [World.step]
    unfold World.clearAtlas
    split <;> exact ⟨rfl, rfl, rfl, rfl, rfl, rfl⟩
  | editAtlas i f => exact ⟨rfl, rfl, rfl, rfl, rfl, rfl⟩
  | doHough b =>
    obtain ⟨_, _, _, hp⟩ := w.cal.doHough_frame E.argsortK E.argsortN b
    unfold World.step
    dsimp only
    rw [hp]
    exact ⟨rfl, rfl, rfl, rfl, rfl, rfl⟩
  | loadHough d f t => exact ⟨rfl, rfl, rfl, rfl, rfl, rfl⟩
  | setKnown p v =>
    refine ⟨?_, ?_⟩
    · unfold World.step Settings.step Cal.setKnown
      have h1 : (p.all (fun p => decide (p ≠ PyFloat.nan))) = true ↔ PyFloat.nan ∉ p := by
        simp only [List.all_eq_true, decide_eq_true_eq]
        exact ⟨fun h hc => h _ hc rfl, fun h x hx hc => h (hc ▸ hx)⟩
      have h2 : (v.all (fun p => decide (p ≠ PyFloat.nan))) = true ↔ PyFloat.nan ∉ v := by
        simp only [List.all_eq_true, decide_eq_true_eq]
        exact ⟨fun h hc => h _ hc rfl, fun h x hx hc => h (hc ▸ hx)⟩
      dsimp only
      by_cases hl : p.length = v.length
      · by_cases hp : PyFloat.nan ∈ p
        · have : ¬ (p.all (fun p => decide (p ≠ PyFloat.nan))) = true := fun h => (h1.1 h) hp
          rw [if_pos hl, if_neg this, if_neg (by tauto)]
        · by_cases hv : PyFloat.nan ∈ v
          · have : ¬ (v.all (fun p => decide (p ≠ PyFloat.nan))) = true := fun h => (h2.1 h) hv
            rw [if_pos hl, if_pos (h1.2 hp), if_neg this, if_neg (by tauto)]
          · rw [if_pos hl, if_pos (h1.2 hp), if_pos (h2.2 hv), if_pos ⟨hl, hp, hv⟩]
            rfl
      · rw [if_neg hl, if_neg (by tauto)]
    · obtain ⟨k, hk⟩ := w.cal.setKnown_frame p v
      unfold World.step
      dsimp only
      rw [hk]
      exact ⟨rfl, rfl, rfl, rfl, rfl⟩

theorem steps_settings (E : CalEnv K) (w : World K) (ops : List (SetOp K)) :
    (w.steps E ops).cal.settings = ops.foldl (Settings.step E.interp) w.cal.settings := by
  unfold World.steps
  induction ops generalizing w with
  | nil => rfl
  | cons op ops ih => rw [List.foldl_cons, List.foldl_cons, ih, (step_settings E w op).1]

end Rascal
