import Verif.Props.FarLineProps
import Verif.Props.ProvenanceProps
import Verif.Props.PeakOrderProps

/-! Property theorems C192: lines added to an atlas that is in use. -/

set_option linter.unusedSectionVars false

namespace Rascal

section
variable {K : Type _} [Field K] [LinearOrder K] [IsStrictOrderedRing K]

/-- The calls after which the pairs are not made again: all but `set_hough_properties`, `set_atlas`, `add_atlas` and
`add_user_atlas` of the calibrator.  Any change of the atlas itself is among them. -/
def Spec.KeepsSearchSpace : SetOp K → Prop
  | .setHough _ | .setAtlas _ _ _ | .addAtlas _ _ _ | .addUserAtlas _ _ _ => False
  | _ => True

open Spec

theorem keeps_step (E : CalEnv K) (w : World K) (op : SetOp K) (h : KeepsSearchSpace op) :
    (w.step E op).1.cal.pairs = w.cal.pairs ∧ (w.step E op).1.cal.atlas = w.cal.atlas ∧
      (w.step E op).1.cal.peaks = w.cal.peaks := by
  cases op <;> simp only [KeepsSearchSpace] at h <;> unfold World.step <;>
    try simp only [World.setCalibrator, World.setRansac, World.modifyAtlas, and_self]
  · unfold World.removeRange
    split <;> exact ⟨rfl, rfl, rfl⟩
  · unfold World.clearAtlas
    split <;> exact ⟨rfl, rfl, rfl⟩
  · obtain ⟨_, _, _, hf⟩ := Cal.doHough_frame E.argsortK E.argsortN w.cal (by assumption)
    rw [hf]
    exact ⟨rfl, rfl, rfl⟩
  · exact ⟨rfl, rfl, rfl⟩
  · rename_i p v
    obtain ⟨_, hf⟩ := Cal.setKnown_frame w.cal p v
    rw [hf]
    exact ⟨rfl, rfl, rfl⟩

theorem keeps_steps (E : CalEnv K) (ops : List (SetOp K)) (ho : ∀ op ∈ ops, KeepsSearchSpace op) (w : World K) :
    (w.steps E ops).cal.pairs = w.cal.pairs ∧ (w.steps E ops).cal.atlas = w.cal.atlas ∧
      (w.steps E ops).cal.peaks = w.cal.peaks := by
  induction ops generalizing w with
  | nil => exact ⟨rfl, rfl, rfl⟩
  | cons op ops ih =>
    obtain ⟨h1, h2, h3⟩ := keeps_step E w op (ho op List.mem_cons_self)
    obtain ⟨g1, g2, g3⟩ := ih (fun o hm => ho o (List.mem_cons_of_mem _ hm)) (w.step E op).1
    exact ⟨g1.trans h1, g2.trans h2, g3.trans h3⟩

variable [FloorRing K]

/-- C192, with `linear` candidates: whatever is done to the atlas in between, `fit` matches only combinations that were in the
search space when it was made. -/
theorem C192_linear_partial (E : CalEnv K) (F : FitEnv K) (ha : IsArgsort F.argsortK) (w : World K) (ops : List (SetOp K))
    (ho : ∀ op ∈ ops, KeepsSearchSpace op) (hlin : (w.steps E ops).cal.ransac.linear = true) (a : FitArgs K)
    (rnd : FitRandom K) (r : FitReport K) (h : ((w.steps E ops).fit F a rnd).2 = .done (.ok r)) :
    ∀ e ∈ r.matchedPeaks.zip r.matchedAtlas, e ∈ w.cal.pairList := by
  obtain ⟨lines, L, s, co, data, prev, S⟩ := fit_success F ha _ a rnd r h
  have hs := enter_spec F _ _ _ _ _ S.enter
  intro e he
  have hr := S.report
  rw [hr] at he
  have hm := (hs.linear ha hlin e (S.accepted.candidates e he)).1
  have hp : (World.given (w.steps E ops) a).pairList = w.cal.pairList := by
    unfold Cal.pairList
    rw [show (World.given (w.steps E ops) a).pairs = (w.steps E ops).cal.pairs from rfl, (keeps_steps E ops ho w).1]
  rw [← hp]
  exact hm

/-- C192, with polynomial candidates (`linear` off): the wavelengths matched by `fit` are lines the atlas has now. -/
theorem C192_poly_partial (F : FitEnv K) (ha : IsArgsort F.argsortK) (w : World K) (hlin : w.cal.ransac.linear = false)
    (a : FitArgs K) (rnd : FitRandom K) (r : FitReport K) (h : (w.fit F a rnd).2 = .done (.ok r)) :
    ∃ lines, w.atlasLines = .ok lines ∧ ∀ e ∈ r.matchedPeaks.zip r.matchedAtlas, e.1 ∈ w.cal.peaks ∧ e.2 ∈ lines := by
  obtain ⟨lines, L, s, co, data, prev, S⟩ := fit_success F ha _ a rnd r h
  have hs := enter_spec F _ _ _ _ _ S.enter
  refine ⟨lines, S.atlas, fun e he => ?_⟩
  have hr := S.report
  rw [hr] at he
  exact hs.poly ha hlin e (S.accepted.candidates e he)

/-- Making the search space without the polygon. -/
theorem generate_all (w : World K) (hc : w.cal.constrainPoly = false) (lines : List K) (hl : w.atlasLines = .ok lines) :
    ∀ e, e ∈ w.generatePairs.1.cal.pairList ↔ e ∈ allPairs w.cal.peaks lines := by
  intro e
  unfold World.generatePairs
  rw [hl]
  dsimp only
  unfold Cal.generatePairs
  rw [if_neg (by rw [hc]; simp)]
  unfold Cal.pairList
  dsimp only
  by_cases hn : allPairs w.cal.peaks lines = []
  · simp [hn]
  · simp [hn]

/-- C192, what helps: after `set_hough_properties` without arguments, the polygon not being asked for, the search space has
exactly the combinations of the peaks with the lines the atlas has now. -/
theorem C192_refresh_partial (w : World K) (hc : w.cal.constrainPoly = false) (lines : List K) (hl : w.atlasLines = .ok lines)
    (h : (w.setHough {}).2 = .ok ()) : ∀ e, e ∈ (w.setHough {}).1.cal.pairList ↔ e.1 ∈ w.cal.peaks ∧ e.2 ∈ lines := by
  intro e
  have hat : ∃ i, w.cal.atlas = some i := by
    unfold World.atlasLines at hl
    cases ha : w.cal.atlas with
    | none => rw [ha] at hl; simp at hl
    | some i => exact ⟨i, rfl⟩
  obtain ⟨i, hi⟩ := hat
  rw [← mem_allPairs]
  unfold World.setHough at h ⊢
  dsimp only at h ⊢
  cases hr : (HoughSet.apply (some w.cal.hough) {} w.cal.props.pixelList).2 with
  | error e => rw [hr] at h; simp at h
  | ok u =>
    rw [hr] at h
    simp only at h ⊢
    rw [hi] at h ⊢
    simp only at h ⊢
    have g := fun (v : World K) hc' hl' => generate_all v hc' lines hl' e
    refine g _ ?_ ?_
    · exact hc
    rw [← hl]
    unfold World.atlasLines
    rw [hi]

end

/-- C192, as expected: making the search space again, with the settings there are, makes no difference to what `fit` can
match. -/
def C192_Statement : Prop :=
  ∀ (E : CalEnv ℚ) (F : FitEnv ℚ) (w : World ℚ) (i : Nat) (f : Atlas ℚ → Atlas ℚ) (a : FitArgs ℚ) (rnd : FitRandom ℚ)
    (r : FitReport ℚ), IsArgsort F.argsortK → w.cal.atlas = some i →
    ((w.steps E [.editAtlas i f, .setHough {}]).fit F a rnd).2 = .done (.ok r) →
    ∃ rnd' r', ((w.steps E [.editAtlas i f]).fit F a rnd').2 = .done (.ok r') ∧
      r'.matchedPeaks.zip r'.matchedAtlas = r.matchedPeaks.zip r.matchedAtlas

/-- The toy calibrator before the line 8700 is added. -/
def Toy.early : World ℚ :=
  World.steps Toy.calEnv Toy.ready [.editAtlas 0 (fun _ => Toy.atlasOf [5900, 20000, 21000, 22000]), .setAtlas 0 10 false]

/-- Adding it. -/
def Toy.addLine : Atlas ℚ → Atlas ℚ := fun A => { A with lines := A.lines ++ [⟨8700, "Xe", 1, none⟩] }

/-- With the search space made again the line is found. -/
theorem Toy.early_refreshed : ((World.steps Toy.calEnv Toy.early [.editAtlas 0 Toy.addLine, .setHough {}]).fit Toy.env Toy.args
    Toy.rnd).2 = .done (.ok Toy.found) := by
  have h : Toy.report ((World.steps Toy.calEnv Toy.early [.editAtlas 0 Toy.addLine, .setHough {}]).fit Toy.env Toy.args
    Toy.rnd) = some Toy.found := by decide +kernel
  exact Toy.report_some _ _ h

/-- C192 is false: a line added to the atlas is not matched by `fit`, for no draws, before the search space is made again. -/
theorem C192_refuted : ¬ C192_Statement := by
  intro h
  obtain ⟨rnd', r', h1, h2⟩ := h Toy.calEnv Toy.env Toy.early 0 Toy.addLine Toy.args Toy.rnd Toy.found stableArgsort_isArgsort
    (by decide +kernel) Toy.early_refreshed
  have hm := C192_linear_partial Toy.calEnv Toy.env stableArgsort_isArgsort Toy.early [.editAtlas 0 Toy.addLine]
    (by intro op hop; rw [List.mem_singleton.1 hop]; trivial) (by decide +kernel) Toy.args rnd' r' h1 (20, 8700)
    (by rw [h2]; decide +kernel)
  revert hm
  decide +kernel

/-- Case of `C192_linear_partial`: a line that plays no role is added and another one removed, and `fit` still works. -/
example : ∃ r, ((World.steps Toy.calEnv Toy.ready [.editAtlas 0 Toy.addLine, .removeRange 22000 1]).fit Toy.env Toy.args
      Toy.rnd).2 = .done (.ok r) ∧ r.matchedPeaks.zip r.matchedAtlas = [(10, 5900), (20, 8700)] ∧
    (World.steps Toy.calEnv Toy.ready [.editAtlas 0 Toy.addLine, .removeRange 22000 1]).cal.ransac.linear = true := by
  have h : Toy.report ((World.steps Toy.calEnv Toy.ready [.editAtlas 0 Toy.addLine, .removeRange 22000 1]).fit Toy.env Toy.args
    Toy.rnd) = some Toy.found := by decide +kernel
  exact ⟨Toy.found, Toy.report_some _ _ h, by decide +kernel, by decide +kernel⟩

/-- Two peaks given as an array, polynomial candidates; the line 8700 replaces 20000 after the search space was made. -/
def Toy.polyLate : Option (World ℚ) :=
  (Cal.new Toy.calEnv.interp [10, 20] true none).toOption.map (fun c =>
    World.steps Toy.calEnv (World.calls Toy.calEnv Toy.env ⟨[Toy.atlasOf [5900, 20000]], c⟩ Toy.polyCalls)
      [.editAtlas 0 (fun _ => Toy.atlasOf [5900, 8700])])

/-- Case of `C192_poly_partial`: the new line is matched, though the search space does not have it. -/
example : (Toy.polyLate.map (fun w => w.cal.ransac.linear) = some false ∧
    Toy.polyLate.map (fun w => decide ((20, 8700) ∈ w.cal.pairList)) = some false) ∧
    Toy.polyLate.map (fun w => (Toy.report (w.fit Toy.env Toy.polyArgs ⟨fun _ => 1/2, [⟨[], []⟩]⟩)).map (fun r =>
      r.matchedPeaks.zip r.matchedAtlas)) = some (some [(10, 5900), (20, 8700)]) := by
  decide +kernel

/-- Case of `C192_refresh_partial`. -/
example : (World.steps Toy.calEnv Toy.early [.editAtlas 0 Toy.addLine]).cal.constrainPoly = false ∧
    (World.steps Toy.calEnv Toy.early [.editAtlas 0 Toy.addLine]).atlasLines = .ok [5900, 20000, 21000, 22000, 8700] ∧
    ((World.steps Toy.calEnv Toy.early [.editAtlas 0 Toy.addLine]).setHough {}).2 = .ok () ∧
    ((20 : ℚ), (8700 : ℚ)) ∉ (World.steps Toy.calEnv Toy.early [.editAtlas 0 Toy.addLine]).cal.pairList := by
  decide +kernel

end Rascal
