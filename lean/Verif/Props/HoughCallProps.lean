import Verif.Props.HoughShareProps
import Verif.Props.HoughVoteProps
import Verif.Props.ConfigOrderProps
import Verif.Props.RepeatFitProps

/-! Property theorem C195: calling `do_hough_transform` before the first fit. -/

set_option linter.unusedSectionVars false

namespace Rascal

section
variable {K : Type _} [Field K] [LinearOrder K] [IsStrictOrderedRing K] [FloorRing K]

/-- The calls that do not concern the Hough transform: `set_calibrator_properties`, the choice of the plotting library,
`set_ransac_properties`, `set_known_pairs`, and changes of the lines of an atlas, which are not noticed (C192). -/
def Spec.ApartFromHough : SetOp K → Prop
  | .setCalibrator _ _ _ | .useMatplotlib | .usePlotly | .setRansac _ | .setKnown _ _ | .removeRange _ _ | .clearAtlas
  | .editAtlas _ _ => True
  | _ => False

open Spec

/-- A calibrator with other settings, of those the transform does not look at. -/
def Cal.others (c : Cal K) (p : CalProps K) (r : RansacSet K) (k : Option (List (PyFloat K) × List (PyFloat K)))
    (f : Option (List K)) : Cal K :=
  { c with props := p, ransac := r, known := k, fitCoeff := f }

theorem doHough_others (c : Cal K) (ak : List K → List Nat) (an : List Nat → List Nat) (b : Bool) (p : CalProps K)
    (r : RansacSet K) (k : Option (List (PyFloat K) × List (PyFloat K))) (f : Option (List K)) :
    (c.others p r k f).doHough ak an b = ((c.doHough ak an b).1.others p r k f, (c.doHough ak an b).2) := by
  obtain ⟨peaks, arr, props, hough, ransac, atlas, ct, cp, pairs, ht, hl, hp, known, mp, ma, fc, rms, res, pu, au⟩ := c
  unfold Cal.doHough Cal.others
  cases pairs with
  | none => rfl
  | some st =>
    dsimp only
    cases (ht.setConstraints hough.minSlope hough.maxSlope (.fin hough.minIntercept)
      (.fin hough.maxIntercept)).2 with
    | error e => rfl
    | ok u =>
      dsimp only
      cases st with
      | noColumns => rfl
      | array xy =>
        dsimp only
        split
        · rfl
        · split <;> rfl

/-- Whether the transform is done before or during the fit. -/
theorem ensureHough_done (F : FitEnv K) (c : Cal K) (hn : c.houghLines = none ∨ c.houghPoints = none) (p : CalProps K)
    (r : RansacSet K) (k : Option (List (PyFloat K) × List (PyFloat K))) (f : Option (List K)) :
    Cal.ensureHough F ((c.doHough F.argsortK F.argsortN false).1.others p r k f) = Cal.ensureHough F (c.others p r k f) := by
  have hr : Cal.ensureHough F (c.others p r k f) =
      ((c.doHough F.argsortK F.argsortN false).1.others p r k f, (c.doHough F.argsortK F.argsortN false).2) := by
    unfold Cal.ensureHough
    rw [if_pos (by
      rw [show (c.others p r k f).houghLines = c.houghLines from rfl,
        show (c.others p r k f).houghPoints = c.houghPoints from rfl]
      rcases hn with h | h <;> rw [h] <;> simp)]
    exact doHough_others c _ _ _ p r k f
  rw [hr]
  unfold Cal.ensureHough
  cases ho : (c.doHough F.argsortK F.argsortN false).2 with
  | error e =>
    obtain ⟨ht, hc⟩ := doHough_failed _ _ c false e ho
    rw [if_pos (by
      rw [hc]
      change (c.houghLines.isNone || c.houghPoints.isNone) = true
      rcases hn with h | h <;> rw [h] <;> simp), doHough_others, doHough_again, ho]
  | ok u =>
    obtain ⟨q, hi, xe, ye, s1, s2, i1, i2, hcomp, hpts, hlin⟩ := doHough_complete _ _ c false ho
    obtain ⟨xy, pts, sa, sb, hdone⟩ := doHough_ok c _ _ false ho
    rw [if_neg]
    have hl : (c.doHough F.argsortK F.argsortN false).1.houghLines ≠ none := by
      rw [hdone.state]
      exact Option.some_ne_none _
    change ¬ ((c.doHough F.argsortK F.argsortN false).1.houghLines.isNone ||
      (c.doHough F.argsortK F.argsortN false).1.houghPoints.isNone) = true
    rw [hpts]
    cases hx : (c.doHough F.argsortK F.argsortN false).1.houghLines with
    | none => exact absurd hx hl
    | some l => simp

/-- The calls act in the same way on both calibrators. -/
theorem apart_step (E : CalEnv K) (w v : World K) (op : SetOp K) (ho : ApartFromHough op) (d : Cal K → Cal K)
    (hd : ∀ c p r k f, d (Cal.others c p r k f) = (d c).others p r k f) (hs : ∀ c, (d c).props = c.props ∧ (d c).ransac = c.ransac ∧
      (d c).known = c.known ∧ (d c).fitCoeff = c.fitCoeff ∧ (d c).atlas = c.atlas)
    (ha : v.atlases = w.atlases) (hc : v.cal = d w.cal) :
    (v.step E op).1.atlases = (w.step E op).1.atlases ∧ (v.step E op).1.cal = d (w.step E op).1.cal ∧
      (w.step E op).1.cal.houghLines = w.cal.houghLines ∧ (w.step E op).1.cal.houghPoints = w.cal.houghPoints := by
  obtain ⟨va, vc⟩ := v
  obtain ⟨wa, wc⟩ := w
  dsimp only at ha hc
  subst ha hc
  obtain ⟨s1, s2, s3, s4, s5⟩ := hs wc
  have key : ∀ p r k, d { wc with props := p, ransac := r, known := k } =
      { d wc with props := p, ransac := r, known := k } := by
    intro p r k
    have := hd wc p r k wc.fitCoeff
    unfold Cal.others at this
    rw [show ({ wc with props := p, ransac := r, known := k } : Cal K) =
      { wc with props := p, ransac := r, known := k, fitCoeff := wc.fitCoeff } from rfl, this, ← s4]
  have kp : ∀ p, d { wc with props := p } = { d wc with props := p } := by
    intro p
    have := key p wc.ransac wc.known
    rw [show ({ wc with props := p } : Cal K) = { wc with props := p, ransac := wc.ransac, known := wc.known } from rfl,
      this, ← s2, ← s3]
  have kr : ∀ r, d { wc with ransac := r } = { d wc with ransac := r } := by
    intro r
    have := key wc.props r wc.known
    rw [show ({ wc with ransac := r } : Cal K) = { wc with props := wc.props, ransac := r, known := wc.known } from rfl,
      this, ← s1, ← s3]
  have kk : ∀ k, d { wc with known := k } = { d wc with known := k } := by
    intro k
    have := key wc.props wc.ransac k
    rw [show ({ wc with known := k } : Cal K) = { wc with props := wc.props, ransac := wc.ransac, known := k } from rfl,
      this, ← s1, ← s2]
  cases op <;> simp only [ApartFromHough] at ho <;> unfold World.step
  · refine ⟨rfl, ?_, rfl, rfl⟩
    refine Eq.trans ?_ (kp _).symm
    unfold World.setCalibrator
    dsimp only
    rw [s1]
  · refine ⟨rfl, ?_, rfl, rfl⟩
    refine Eq.trans ?_ (kp _).symm
    rw [← s1]
  · refine ⟨rfl, ?_, rfl, rfl⟩
    refine Eq.trans ?_ (kp _).symm
    rw [← s1]
  · refine ⟨rfl, ?_, rfl, rfl⟩
    refine Eq.trans ?_ (kr _).symm
    unfold World.setRansac
    dsimp only
    rw [s2]
  · unfold World.removeRange
    dsimp only
    rw [s5]
    split <;> exact ⟨rfl, rfl, rfl, rfl⟩
  · unfold World.clearAtlas
    dsimp only
    rw [s5]
    split <;> exact ⟨rfl, rfl, rfl, rfl⟩
  · exact ⟨rfl, rfl, rfl, rfl⟩
  · rename_i p u
    unfold Cal.setKnown
    dsimp only
    split
    · split
      · split
        · exact ⟨rfl, (kk _).symm, rfl, rfl⟩
        · exact ⟨rfl, rfl, rfl, rfl⟩
      · exact ⟨rfl, rfl, rfl, rfl⟩
    · exact ⟨rfl, rfl, rfl, rfl⟩

/-- C195: as long as there is no transform yet, calling `do_hough_transform()` somewhere among the calls before a fit, whether
it succeeds or raises, makes no difference to the fit: the same result, and the same state afterwards unless the fit is
refused before it reaches the transform (unknown type, no atlas). -/
theorem C195_explicit_transform (E : CalEnv K) (F : FitEnv K) (h1 : E.argsortK = F.argsortK) (h2 : E.argsortN = F.argsortN)
    (w : World K) (before after : List (SetOp K))
    (hn : (w.steps E before).cal.houghLines = none ∨ (w.steps E before).cal.houghPoints = none)
    (ho : ∀ op ∈ after, ApartFromHough op) (a : FitArgs K) (rnd : FitRandom K) :
    ((w.steps E (before ++ .doHough false :: after)).fit F a rnd).2 = ((w.steps E (before ++ after)).fit F a rnd).2 ∧
    (a.fitType ≠ .other → (∃ lines, (w.steps E (before ++ after)).atlasLines = .ok lines) →
      (w.steps E (before ++ .doHough false :: after)).fit F a rnd = (w.steps E (before ++ after)).fit F a rnd) := by
  have e1 : w.steps E (before ++ .doHough false :: after) =
      (((w.steps E before).step E (.doHough false)).1).steps E after := by
    unfold World.steps
    rw [List.foldl_append, List.foldl_cons]
  have e2 : w.steps E (before ++ after) = (w.steps E before).steps E after := by
    unfold World.steps
    rw [List.foldl_append]
  rw [e1, e2]
  generalize w.steps E before = u at hn ⊢
  let d : Cal K → Cal K := fun c => (c.doHough F.argsortK F.argsortN false).1
  have hd : ∀ c p r k f, d (Cal.others c p r k f) = (d c).others p r k f := by
    intro c p r k f
    change ((c.others p r k f).doHough _ _ _).1 = _
    rw [doHough_others]
  have hs : ∀ c, (d c).props = c.props ∧ (d c).ransac = c.ransac ∧ (d c).known = c.known ∧ (d c).fitCoeff = c.fitCoeff ∧
      (d c).atlas = c.atlas := by
    intro c
    obtain ⟨ht, l, p, hf⟩ := Cal.doHough_frame F.argsortK F.argsortN c false
    change (((c.doHough _ _ _).1).props = _ ∧ _)
    have hdc : d c = { c with ht := ht, houghLines := l, houghPoints := p } := hf
    rw [hdc, hf]
    exact ⟨rfl, rfl, rfl, rfl, rfl⟩
  have hstep : ((u.step E (.doHough false)).1).atlases = u.atlases ∧ ((u.step E (.doHough false)).1).cal = d u.cal := by
    refine ⟨rfl, ?_⟩
    change (u.cal.doHough E.argsortK E.argsortN false).1 = _
    rw [h1, h2]
  have main : ∀ (ops : List (SetOp K)), (∀ op ∈ ops, ApartFromHough op) → ∀ (v u : World K), v.atlases = u.atlases →
      v.cal = d u.cal → (u.cal.houghLines = none ∨ u.cal.houghPoints = none) →
      (v.steps E ops).atlases = (u.steps E ops).atlases ∧ (v.steps E ops).cal = d (u.steps E ops).cal ∧
      ((u.steps E ops).cal.houghLines = none ∨ (u.steps E ops).cal.houghPoints = none) := by
    intro ops
    induction ops with
    | nil => exact fun _ v u ha hc hn => ⟨ha, hc, hn⟩
    | cons op ops ih =>
      intro ho v u ha hc hn
      obtain ⟨g1, g2, g3, g4⟩ := apart_step E u v op (ho op List.mem_cons_self) d hd hs ha hc
      refine ih (fun o hm => ho o (List.mem_cons_of_mem _ hm)) (v.step E op).1 (u.step E op).1 g1 g2 ?_
      rw [g3, g4]
      exact hn
  obtain ⟨m1, m2, m3⟩ := main after ho _ u hstep.1 hstep.2 hn
  generalize ((u.step E (.doHough false)).1).steps E after = y at m1 m2 ⊢
  generalize u.steps E after = x at m1 m2 m3 ⊢
  obtain ⟨ya, yc⟩ := y
  obtain ⟨xa, xc⟩ := x
  dsimp only at m1 m2 m3
  subst m1 m2
  obtain ⟨s1, s2, s3, s4, s5⟩ := hs xc
  have hl : (⟨ya, d xc⟩ : World K).atlasLines = (⟨ya, xc⟩ : World K).atlasLines := by
    unfold World.atlasLines
    dsimp only
    rw [s5]
  have hfit : ∀ lines, Cal.fitWith F { d xc with fitCoeff := a.fitCoeff } lines a rnd =
      Cal.fitWith F { xc with fitCoeff := a.fitCoeff } lines a rnd := by
    intro lines
    unfold Cal.fitWith
    dsimp only
    have := ensureHough_done F xc m3 xc.props
      { xc.ransac with sampleSize := adjustSampleSize xc.ransac.sampleSize lines.length a.fitDeg } xc.known a.fitCoeff
    unfold Cal.others at this
    rw [← this, s2, ← s1, ← s3]
  unfold World.fit
  dsimp only
  rw [hl]
  split
  · rename_i ht
    exact ⟨rfl, fun hne => absurd ht hne⟩
  · split
    · rename_i heq
      refine ⟨rfl, fun _ hx => ?_⟩
      obtain ⟨l, hx⟩ := hx
      rw [hx] at heq
      cases heq
    · rw [hfit]
      exact ⟨rfl, fun _ _ => rfl⟩

/-- The hypotheses of `C195_explicit_transform` met: the transform is done, then RANSAC settings are changed, lines removed and
the fit called; it finds a solution. -/
example := C195_explicit_transform Toy.calEnv Toy.env rfl rfl Toy.ready [] [.setRansac { topN := some 3 }, .removeRange 100 200]
  (Or.inl (by decide +kernel)) (by
    intro op hm
    rcases List.mem_cons.1 hm with h | h
    · rw [h]; exact trivial
    · rw [List.mem_singleton.1 h]; exact trivial) Toy.args Toy.rnd

/-- The fit after these calls succeeds, with the transform and without it. -/
example : (Toy.report ((Toy.ready.steps Toy.calEnv [.doHough false, .setRansac { topN := some 3 }, .removeRange 100 200]).fit
      Toy.env Toy.args Toy.rnd)).isSome = true ∧
    (Toy.report ((Toy.ready.steps Toy.calEnv [.setRansac { topN := some 3 }, .removeRange 100 200]).fit
      Toy.env Toy.args Toy.rnd)).isSome = true := by
  decide +kernel

end

end Rascal
